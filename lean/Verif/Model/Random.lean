import Verif.Model.Utils

/-!
# Random numbers

`jax.random` is external. A key is either the user's key or a child of another key
(`jran.split(key, n)[i]`); children are free constructors, so two keys are equal only if they were
derived by the same splits. What the generator returns for a key is an arbitrary function (`Rng`).
Computations that draw random numbers record the keys they consume, in order.
-/

namespace Diffmah

/-- A PRNG key: the caller's key, or entry `i` of `jran.split(key, n)`. -/
inductive Key where
  | root : ℕ → Key
  | child : Key → ℕ → ℕ → Key
deriving DecidableEq

/-- `jran.split(key, n)` -/
def Key.split (k : Key) (n : ℕ) : List Key := (List.range n).map (Key.child k n)

/-- What the generator returns for each key: `jran.uniform(key, shape=())`,
`jran.uniform(key, shape=(n,))`, and `jran.multivariate_normal(key, mean, cov, shape=())`. -/
structure Rng where
  uniform : Key → ℝ
  uniforms : Key → ℕ → List ℝ
  mvn : Key → List ℝ → Matrix (Fin 4) (Fin 4) ℝ → List ℝ

/-- What the `jax.random` documentation promises: uniforms in `[0, 1)`, of the requested shape;
normal draws of the same size as the mean. -/
structure Rng.Lawful (g : Rng) : Prop where
  uniform_mem : ∀ k, 0 ≤ g.uniform k ∧ g.uniform k < 1
  uniforms_length : ∀ k n, (g.uniforms k n).length = n
  uniforms_mem : ∀ k n, ∀ x ∈ g.uniforms k n, 0 ≤ x ∧ x < 1
  mvn_length : ∀ k m c, (g.mvn k m c).length = m.length

/-- A computation that may raise and that consumes random keys: the result and the keys used. -/
def RandM (β : Type) : Type := Except PyErr (β × List Key)

namespace RandM

variable {β γ : Type}

def pure (b : β) : RandM β := .ok (b, [])

def bind (m : RandM β) (f : β → RandM γ) : RandM γ :=
  match m with
  | .error e => .error e
  | .ok (b, ks) =>
    match f b with
    | .error e => .error e
    | .ok (c, ks') => .ok (c, ks ++ ks')

instance : Monad RandM where
  pure := RandM.pure
  bind := RandM.bind

/-- A deterministic computation. -/
def lift (m : Except PyErr β) : RandM β :=
  match m with
  | .error e => .error e
  | .ok b => .ok (b, [])

/-- Consume `key` to produce `b`. -/
def draw (key : Key) (b : β) : RandM β := .ok (b, [key])

/-- Run a list of computations (the lanes of a `vmap`) and collect their results in order. -/
def all : List (RandM β) → RandM (List β)
  | [] => RandM.pure []
  | m :: ms => RandM.bind m fun b => RandM.bind (all ms) fun bs => RandM.pure (b :: bs)

/-- The result, if no exception was raised. -/
def val? (m : RandM β) : Option β :=
  match m with
  | .ok (b, _) => some b
  | .error _ => none

/-- The keys consumed. -/
def used (m : RandM β) : List Key :=
  match m with
  | .ok (_, ks) => ks
  | .error _ => []

end RandM

end Diffmah

import Verif.Model.Float32Fit
import Verif.Model.Optim

/-!
# The Adam optimiser and the fit of a mass history in single precision

`Model/Adam.lean` has the update rule in exact arithmetic. Here every operation of it is rounded, as in JAX with
its default data type. Square root and powers belong to the platform.
-/

namespace Diffmah.Fit

open JOps XR

/-- `jnp.sqrt` and `b ** n` on single-precision numbers, both called by the update rule of
`jax_opt.adam`, fit_utils.py:153 -/
structure AdamMath where
  sqrt : XR → XR
  pow : XR → ℕ → XR

/-- What the theorems assume of the two functions: the square root of a number that is not subnormal is right
within a factor of 2, that of a subnormal number is not negative and not too large, and a power of a number
between 0 and 1 is right within `2^-20`. -/
structure AdamMath.Good (A : AdamMath) : Prop where
  sqrt_inf : A.sqrt pinf = pinf
  sqrt_fin : ∀ x, 0 ≤ x → ∃ y, A.sqrt (fin x) = fin y ∧ 0 ≤ y ∧ y ≤ 2 * √x ∧ (2 ^ (-126 : ℤ) ≤ x → √x / 2 ≤ y)
  pow_acc : ∀ b, 0 ≤ b → b ≤ 1 → ∀ n, ∃ y, A.pow (fin b) n = fin y ∧ |y - b ^ n| ≤ 2 ^ (-20 : ℤ)

/-- One coordinate of the state: parameter, first and second moment. The initial parameter is the caller's
number, which need not be single precision. -/
abbrev AdamCell32 := XR × F32 × F32

/-- Update number `i` (from 0) of one coordinate with gradient `g`; `b1 = 0.9`, `b2 = 0.999`, `eps = 1e-8`, as
called from fit_utils.py:153,176. JAX turns the parameter into single precision when it computes with it. -/
noncomputable def adamCell32 [Libm] (A : AdamMath) (step_size : ℝ) (i : ℕ) (g : XR) (s : AdamCell32) : AdamCell32 :=
  let g : F32 := ⟨g⟩
  let b1 : F32 := lit 0.9
  let b2 : F32 := lit 0.999
  let m := lit (1 - 0.9) * g + b1 * s.2.1
  let v := lit (1 - 0.999) * (g * g) + b2 * s.2.2
  let mhat := m / (lit 1 - ⟨A.pow b1.v (i + 1)⟩)
  let vhat := v / (lit 1 - ⟨A.pow b2.v (i + 1)⟩)
  let x : F32 := ⟨F32.rd s.1⟩
  ((x - lit step_size * mhat / (⟨A.sqrt vhat.v⟩ + lit 1e-8)).v, m, v)

/-- `jax_opt.adam(step_size)`, fit_utils.py:153, in single precision. Gradient and parameters have the same
length. -/
noncomputable def jaxAdam32 [Libm] (A : AdamMath) (step_size : ℝ) : AdamOpt (List AdamCell32) where
  init p := p.map fun x => (x, lit 0, lit 0)
  update i g st := List.zipWith (adamCell32 A step_size i) g st
  get st := st.map Prod.fst

/-- The loss and the gradient the optimiser is given by `diffmah_fitter`, diffmah_fitter_helpers.py:140-142 and
:304-322, in single precision: JAX rounds the parameters first. A parameter vector of length other than 4 raises in
the code; here its loss is NaN. -/
noncomputable def fit_lg32 [Libm] (sum : List F32 → F32) (ld : LossData F32) (p : PVec) : XR × PVec :=
  match p with
  | [a, b, c, d] =>
    let u : VariedU F32 := ⟨⟨F32.rd a⟩, ⟨F32.rd b⟩, ⟨F32.rd c⟩, ⟨F32.rd d⟩⟩
    let g := loss_grad_rev sum u ld
    ((log_mah_loss_with sum u ld).v, [g.u_logm0.v, g.u_logtc.v, g.u_early_index.v, g.u_late_index.v])
  | _ => (nan, [])

end Diffmah.Fit

import Mathlib.Analysis.SpecialFunctions.Sigmoid
import Mathlib.Analysis.SpecialFunctions.Log.Base
import Mathlib.Analysis.SpecialFunctions.Pow.Real

/-!
# Number systems

The numerical code of `/repo/diffmah` is modelled once, generically over the class `JOps`
(plus `+ - * /`), and interpreted over three carriers:

* `ℝ`     : values in exact arithmetic;
* `Dual`  : forward-mode dual numbers, the model of `jax.grad` and `jax.value_and_grad`;
* `XR`    : exact arithmetic with IEEE-style `nan`, `-inf`, `+inf`.

Simplifications: no rounding, overflow or underflow; no signed zeros (a zero denominator counts
as `+0`, which is what `y - y` yields).
-/

namespace Diffmah

/-- The non-field operations used by the numerical code:
`nn.sigmoid` (diffmah_kernels.py:118), `lax.log` (diffmah_kernels.py:124),
`jnp.log10` (diffmah_kernels.py:144), `10**x` (diffmah_kernels.py:158), comparison
(diffmah_kernels.py:179), and numeric literals. -/
class JOps (α : Type) where
  lit : ℝ → α
  sigm : α → α
  ln : α → α
  log10 : α → α
  pow10 : α → α
  lt : α → α → Prop

open JOps

/-- `jnp.where(c, a, b)` on scalars (used e.g. at diffmah_kernels.py:180). -/
noncomputable def jwhere {α : Type} (c : Prop) (a b : α) : α :=
  open Classical in if c then a else b

/-! ## Reals -/

/-- Value semantics in exact real arithmetic. -/
noncomputable instance instJOpsReal : JOps ℝ where
  lit := fun r => r
  sigm := Real.sigmoid
  ln := Real.log
  log10 := Real.logb 10
  pow10 := fun x => (10 : ℝ) ^ x
  lt := fun a b => a < b

/-! ## Dual numbers -/

/-- A value with a tangent: the carrier used to model `jax.grad` (diffmah_kernels.py:162,191) and
`jax.value_and_grad` (fitting_helpers/diffmah_fitter_helpers.py:322). -/
@[ext] structure Dual where
  v : ℝ
  d : ℝ

namespace Dual

/-- The variable one differentiates with respect to. -/
def var (x : ℝ) : Dual := ⟨x, 1⟩

/-- A quantity held fixed. -/
def const (x : ℝ) : Dual := ⟨x, 0⟩

noncomputable instance : Add Dual := ⟨fun a b => ⟨a.v + b.v, a.d + b.d⟩⟩
noncomputable instance : Sub Dual := ⟨fun a b => ⟨a.v - b.v, a.d - b.d⟩⟩
noncomputable instance : Mul Dual := ⟨fun a b => ⟨a.v * b.v, a.d * b.v + a.v * b.d⟩⟩
noncomputable instance : Div Dual := ⟨fun a b => ⟨a.v / b.v, (a.d * b.v - a.v * b.d) / (b.v * b.v)⟩⟩

/-- Forward-mode rules of the JAX primitives. Comparisons look at values only. -/
noncomputable instance : JOps Dual where
  lit := fun r => ⟨r, 0⟩
  sigm := fun a => ⟨Real.sigmoid a.v, a.d * (Real.sigmoid a.v * (1 - Real.sigmoid a.v))⟩
  ln := fun a => ⟨Real.log a.v, a.d / a.v⟩
  log10 := fun a => ⟨Real.logb 10 a.v, a.d / (a.v * Real.log 10)⟩
  pow10 := fun a => ⟨(10 : ℝ) ^ a.v, a.d * ((10 : ℝ) ^ a.v * Real.log 10)⟩
  lt := fun a b => a.v < b.v

end Dual

/-! ## Extended reals with NaN -/

/-- Exact arithmetic extended with the special values of IEEE 754. -/
inductive XR where
  | nan : XR
  | ninf : XR
  | pinf : XR
  | fin : ℝ → XR

namespace XR

/-- `np.isfinite` -/
def IsFin : XR → Prop
  | fin _ => True
  | _ => False

/-- The infinity with the sign of `s`; NaN when `s = 0` (the value of `0 * inf` and `0 / 0`). -/
noncomputable def ofSign (s : ℝ) : XR := if 0 < s then pinf else if s < 0 then ninf else nan

noncomputable def add : XR → XR → XR
  | fin a, fin b => fin (a + b)
  | nan, _ => nan
  | _, nan => nan
  | pinf, ninf => nan
  | ninf, pinf => nan
  | pinf, _ => pinf
  | _, pinf => pinf
  | ninf, _ => ninf
  | _, ninf => ninf

noncomputable def neg : XR → XR
  | fin a => fin (-a)
  | nan => nan
  | pinf => ninf
  | ninf => pinf

noncomputable def sub (a b : XR) : XR := add a (neg b)

noncomputable def mul : XR → XR → XR
  | fin a, fin b => fin (a * b)
  | nan, _ => nan
  | _, nan => nan
  | fin a, pinf => ofSign a
  | fin a, ninf => ofSign (-a)
  | pinf, fin b => ofSign b
  | ninf, fin b => ofSign (-b)
  | pinf, pinf => pinf
  | pinf, ninf => ninf
  | ninf, pinf => ninf
  | ninf, ninf => pinf

/-- Division; a zero denominator counts as `+0`. -/
noncomputable def div : XR → XR → XR
  | fin a, fin b => if b = 0 then ofSign a else fin (a / b)
  | nan, _ => nan
  | _, nan => nan
  | fin _, pinf => fin 0
  | fin _, ninf => fin 0
  | pinf, fin b => if b < 0 then ninf else pinf
  | ninf, fin b => if b < 0 then pinf else ninf
  | pinf, pinf => nan
  | pinf, ninf => nan
  | ninf, pinf => nan
  | ninf, ninf => nan

noncomputable instance : Add XR := ⟨add⟩
noncomputable instance : Sub XR := ⟨sub⟩
noncomputable instance : Mul XR := ⟨mul⟩
noncomputable instance : Div XR := ⟨div⟩

/-- `<` with IEEE conventions: false as soon as one side is NaN. -/
def lt : XR → XR → Prop
  | fin a, fin b => a < b
  | ninf, fin _ => True
  | ninf, pinf => True
  | fin _, pinf => True
  | _, _ => False

/-- `<=` with IEEE conventions. -/
def le : XR → XR → Prop
  | fin a, fin b => a ≤ b
  | ninf, fin _ => True
  | ninf, pinf => True
  | fin _, pinf => True
  | ninf, ninf => True
  | pinf, pinf => True
  | _, _ => False

/-- Natural logarithm: `log 0 = -inf`, `log` of a negative number is NaN. -/
noncomputable def ln : XR → XR
  | fin a => if 0 < a then fin (Real.log a) else if a = 0 then ninf else nan
  | pinf => pinf
  | _ => nan

noncomputable def log10 : XR → XR
  | fin a => if 0 < a then fin (Real.logb 10 a) else if a = 0 then ninf else nan
  | pinf => pinf
  | _ => nan

noncomputable def pow10 : XR → XR
  | fin a => fin ((10 : ℝ) ^ a)
  | pinf => pinf
  | ninf => fin 0
  | nan => nan

noncomputable def sigm : XR → XR
  | fin a => fin (Real.sigmoid a)
  | pinf => fin 1
  | ninf => fin 0
  | nan => nan

noncomputable instance : JOps XR where
  lit := fin
  sigm := sigm
  ln := ln
  log10 := log10
  pow10 := pow10
  lt := lt

/-- `np.maximum`: NaN if either argument is NaN. -/
noncomputable def max : XR → XR → XR
  | fin a, fin b => fin (Max.max a b)
  | nan, _ => nan
  | _, nan => nan
  | pinf, _ => pinf
  | _, pinf => pinf
  | ninf, y => y
  | x, ninf => x

end XR

end Diffmah

import Verif.Model.Kernels

/-!
# Single precision

JAX computes in IEEE 754 binary32 unless told otherwise. This is a fourth number system for the
generic numerical code: every `+ - * /` and every literal is rounded to the nearest binary32
number, ties to even, with gradual underflow and overflow to infinity. `exp`-like functions are
not correctly rounded in practice, so they are arbitrary functions (`Libm`), about which the
theorems assume only what they state.

Simplifications: no signed zeros; no fused multiply-add, reassociation or flush-to-zero by the
compiler.
-/

namespace Diffmah

open JOps

namespace F32

/-- Nearest integer, ties to even. -/
noncomputable def rne (x : ℝ) : ℤ :=
  open Classical in
  if x - ⌊x⌋ < 1 / 2 then ⌊x⌋
  else if 1 / 2 < x - ⌊x⌋ then ⌊x⌋ + 1
  else if Even ⌊x⌋ then ⌊x⌋ else ⌊x⌋ + 1

/-- Exponent of the last place of `x`: 24 significant bits, no finer than `2^-149`. -/
noncomputable def ulpExp (x : ℝ) : ℤ := max (Int.log 2 |x|) (-126) - 23

/-- Rounding to binary32, unbounded above. -/
noncomputable def round (x : ℝ) : ℝ := rne (x / 2 ^ ulpExp x) * 2 ^ ulpExp x

/-- Rounding with overflow: the greatest binary32 number is `2^128 - 2^104`. -/
noncomputable def rd : XR → XR
  | .fin x => open Classical in
    if 2 ^ (128 : ℕ) ≤ round x then .pinf
    else if round x ≤ -2 ^ (128 : ℕ) then .ninf else .fin (round x)
  | y => y

end F32

/-- A single-precision number. -/
@[ext] structure F32 where
  v : XR

/-- The elementary functions of the platform, on single-precision numbers: `nn.sigmoid`
(diffmah_kernels.py:118), `lax.log` (:124), `jnp.log10` (:144), `10**x` (:158). -/
class Libm where
  sg : XR → XR
  ln : XR → XR
  log10 : XR → XR
  pow10 : XR → XR

/-- What the range theorems assume of the platform: the logistic function lies between 0 and 1
(an infinite argument included) unless its argument is NaN. -/
structure Libm.Sane [Libm] : Prop where
  sg_range : ∀ x, x ≠ XR.nan → ∃ s, Libm.sg x = .fin s ∧ 0 ≤ s ∧ s ≤ 1

/-- What the accuracy theorems assume: logistic and logarithm are within `2^-22` of the exact
value, the latter between 0.05 and 20. -/
structure Libm.Accurate [Libm] : Prop where
  sg_acc : ∀ x, ∃ s, Libm.sg (.fin x) = .fin s ∧ |s - Real.sigmoid x| ≤ 2 ^ (-22 : ℤ)
  log10_acc : ∀ t, 0.05 ≤ t → t ≤ 20 →
    ∃ l, Libm.log10 (.fin t) = .fin l ∧ |l - Real.logb 10 t| ≤ 2 ^ (-22 : ℤ)

namespace F32

noncomputable instance : Add F32 := ⟨fun a b => ⟨rd (a.v + b.v)⟩⟩
noncomputable instance : Sub F32 := ⟨fun a b => ⟨rd (a.v - b.v)⟩⟩
noncomputable instance : Mul F32 := ⟨fun a b => ⟨rd (a.v * b.v)⟩⟩
noncomputable instance : Div F32 := ⟨fun a b => ⟨rd (a.v / b.v)⟩⟩

noncomputable instance [Libm] : JOps F32 where
  lit := fun r => ⟨rd (.fin r)⟩
  sigm := fun a => ⟨Libm.sg a.v⟩
  ln := fun a => ⟨Libm.ln a.v⟩
  log10 := fun a => ⟨Libm.log10 a.v⟩
  pow10 := fun a => ⟨Libm.pow10 a.v⟩
  lt := fun a b => XR.lt a.v b.v

end F32

/-! ## The accretion rate

The tangent of a dual number fixes the value of a derivative, not the order of the roundings in it. JAX's
`grad` evaluates the function and then goes through it backwards, from the derivative of the result by itself
to the derivative of the result by the argument. For one time of one halo the two passes are written out here,
for every number system. -/

section Reverse

variable {α : Type} [Add α] [Sub α] [Mul α] [Div α] [JOps α]

/-- `grad(_mah_noq_kern, argnums=1)`, diffmah_kernels.py:162, as the two passes of reverse-mode differentiation
of diffmah_kernels.py:115-159. The derivative rules are those of JAX: `10**x` has derivative `log(10) * 10**x`,
the logistic function `s` has `(1 - s) * s`, and `log10(x)` is `log(x) / log(10)`. -/
noncomputable def dmhdt_noq_grad_rev (p : MahParams α) (t logt0 : α) : α :=
  let logt := log10 t
  let s := sigm (lit MAH_K * (logt - p.logtc))
  let height_diff := p.late_index - p.early_index
  let rolling_index := p.early_index + height_diff * s
  let lgt := logt - logt0
  let mah := pow10 (rolling_index * lgt + p.logm0)
  let g := ln (lit 10) * mah
  let g_lgt := g * rolling_index
  let g_index := g * lgt
  let g_s := g_index * height_diff
  let g_logt := g_s * (lit 1 - s) * s * lit MAH_K
  (g_lgt + g_logt) / lit (Real.log 10) / t

/-- diffmah_kernels.py:166-169 and 201-205 -/
noncomputable def dmhdt_kern_scalar_rev (p : MahParams α) (t logt0 : α) : α :=
  jwhere (lt p.t_peak t) (lit 0.0) (dmhdt_noq_grad_rev p t logt0 / lit 1e9)

/-- diffmah_kernels.py:32-57 and 208-212, the `vmap` over the times being `List.map` -/
noncomputable def mah_singlehalo_rev (p : MahParams α) (tarr : List α) (lgt0 : α) : List α × List α :=
  (tarr.map fun t => dmhdt_kern_scalar_rev p t lgt0, tarr.map fun t => log_mah_kern p t lgt0)

end Reverse

/-- What the theorem about accretion rates assumes besides: `10**x` is accurate to `2^-16` of its value between
`1e-30` and `1e22`, and the logarithm of 10 to `2^-20`. -/
structure Libm.AccurateRate [Libm] : Prop extends Libm.Accurate where
  pow10_acc : ∀ x, -30 ≤ x → x ≤ 22 →
    ∃ y, Libm.pow10 (.fin x) = .fin y ∧ |y - (10 : ℝ) ^ x| ≤ 2 ^ (-16 : ℤ) * (10 : ℝ) ^ x
  ln10_acc : ∃ y, Libm.ln (.fin 10) = .fin y ∧ |y - Real.log 10| ≤ 2 ^ (-20 : ℤ)

end Diffmah

import Verif.Model.Float32

/-!
# What the round-trip theorems assume of the platform

The model of the inverse bounding functions is the generic one of `Model/Kernels.lean` and `Model/Pop.lean`, run on
binary32 numbers.
-/

namespace Diffmah

/-- What the theorems about the way through the unbounded parameters and back assume besides: the logistic function
is exactly 0 and 1 at the infinities, the logarithm (diffmah_kernels.py:124) is right to `2^-22`, absolute or
relative, from `2^-23` on, and infinite at zero and infinity. -/
structure Libm.AccurateInverse [Libm] : Prop extends Libm.Accurate where
  sg_pinf : Libm.sg .pinf = .fin 1
  sg_ninf : Libm.sg .ninf = .fin 0
  ln_acc : ∀ x : ℝ, 2 ^ (-23 : ℤ) ≤ x → x < 2 ^ (128 : ℕ) →
    ∃ y, Libm.ln (.fin x) = .fin y ∧ |y - Real.log x| ≤ 2 ^ (-22 : ℤ) * (1 + |Real.log x|)
  ln_zero : Libm.ln (.fin 0) = .ninf
  ln_pinf : Libm.ln .pinf = .pinf

end Diffmah

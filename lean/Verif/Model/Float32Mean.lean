import Verif.Model.Float32
import Verif.Model.MC

/-!
# Population predictions in single precision

The model of the predictions is the generic one of `Model/Pop.lean` and `Model/MC.lean`, run on binary32 numbers;
only `jnp.maximum` and `jnp.minimum` are still missing. They are exact.
-/

namespace Diffmah

/-- `jnp.maximum`, `jnp.minimum` (e.g. logm0_c0_early.py:52, logtc_early.py:46) in single precision: exact, NaN if either
argument is NaN. -/
noncomputable instance : JMinMax F32 where
  jmax a b := ⟨XR.max a.v b.v⟩
  jmin a b := ⟨XR.min a.v b.v⟩

end Diffmah

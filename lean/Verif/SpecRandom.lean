import Verif.Model.Normal

/-!
# Specification of random numbers

What it means that numbers of a generator are independent standard normal, or uniform: the generator is a
function of a point `ω` of a probability space.
-/

namespace Diffmah

open MeasureTheory ProbabilityTheory

variable {Ω : Type} [MeasurableSpace Ω]

/-- The four numbers `Z` are independent and each is standard normal. -/
structure IsStdNormal (P : Measure Ω) (Z : Ω → Fin 4 → ℝ) : Prop where
  measurable : Measurable Z
  law : P.map Z = Measure.pi fun _ => gaussianReal 0 1

/-- The number `U` is uniform in the unit interval. -/
structure IsUniform (P : Measure Ω) (U : Ω → ℝ) : Prop where
  measurable : Measurable U
  law : P.map U = volume.restrict (Set.Ico 0 1)

/-- `f` is a probability density on `[lo, hi]`. -/
structure IsDensityOn (f : ℝ → ℝ) (lo hi : ℝ) : Prop where
  nonneg : ∀ x, 0 ≤ f x
  outside : ∀ x, x < lo ∨ hi < x → f x = 0
  total : ∫ x, f x = 1

/-- The unbounded values of the four scattered parameters of a halo, as a vector. -/
noncomputable def uvec (p : MahParams ℝ) : EuclideanSpace ℝ (Fin 4) :=
  let u := get_unbounded_mah_params p
  WithLp.toLp 2 ![u.u_logm0, u.u_logtc, u.u_early_index, u.u_late_index]

end Diffmah

import Mathlib.Data.Real.Basic

/-!
# Specification: rows of a table
-/

namespace Diffmah.Spec

/-- `b` is the first of the rows whose distance `d` is smallest. -/
def FirstNearest {β : Type} (d : β → ℝ) (rows : List β) (b : β) : Prop :=
  ∃ i : ℕ, rows[i]? = some b ∧ (∀ c ∈ rows, d b ≤ d c) ∧ ∀ j < i, ∀ c, rows[j]? = some c → d b < d c

end Diffmah.Spec

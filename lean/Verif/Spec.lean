import Verif.Model.Kernels
import Verif.Model.Optim
import Mathlib.Data.Real.Basic
import Mathlib.Analysis.Real.Sqrt

/-!
# Specification vocabulary

Plain-number definitions used in the statements of the property theorems. Nothing here refers to
the model's functions, only to its data types.
-/

namespace Diffmah.Spec

/-- Strictly inside the advertised single-halo parameter box. -/
structure InBox (p : MahParams ℝ) : Prop where
  logm0_lo : 0 < p.logm0
  logm0_hi : p.logm0 < 17
  logtc_lo : -1 < p.logtc
  logtc_hi : p.logtc < 1
  early_lo : 0.1 < p.early_index
  early_hi : p.early_index < 10
  late_lo : 0.1 < p.late_index
  late_hi : p.late_index < 5
  tpeak_lo : 0.05 < p.t_peak
  tpeak_hi : p.t_peak < 20

/-- Valid parameters: inside the box, and the late index is the smaller one. -/
structure Valid (p : MahParams ℝ) : Prop extends InBox p where
  late_lt_early : p.late_index < p.early_index

/-- Arithmetic mean of a list. -/
noncomputable def mean (l : List ℝ) : ℝ := l.sum / l.length

/-- Sum of squared deviations from the mean. -/
noncomputable def sumSqDev (l : List ℝ) : ℝ := (l.map fun a => (a - mean l) ^ 2).sum

open Classical in
/-- The entries of `x` strictly between `lo` and `hi`, in order. -/
noncomputable def strictlyBetween (lo hi : ℝ) (x : List ℝ) : List ℝ :=
  x.filter fun a => decide (lo < a ∧ a < hi)

/-- Row-by-row slot of the entry `(i, j)`, `j ≤ i`, of a lower-triangular `n × n` matrix whose
diagonal is stored first: diagonal entry `i` is slot `i`, and the strictly lower entries follow. -/
def cholSlot (n i j : ℕ) : ℕ := if i = j then i else n + i * (i - 1) / 2 + j

/-! ## Optimiser trajectories -/

section Trajectory

variable {S : Type} (opt : Fit.AdamOpt S) (lg : List XR → XR × List XR) (p0 : List XR)

/-- Optimiser state after `k` gradient updates from `p0`, with no stopping rule. -/
def optState : ℕ → S
  | 0 => opt.init p0
  | k + 1 => opt.update k (lg (opt.get (optState k))).2 (optState k)

/-- The parameters visited at step `k`, the loss there and the gradient there. -/
def stepParams (k : ℕ) : List XR := opt.get (optState opt lg p0 k)
def stepLoss (k : ℕ) : XR := (lg (stepParams opt lg p0 k)).1
def stepGrad (k : ℕ) : List XR := (lg (stepParams opt lg p0 k)).2

/-- Parameters, loss and gradient are all finite at step `k`. -/
def StepFinite (k : ℕ) : Prop :=
  (∀ x ∈ stepParams opt lg p0 k, x.IsFin) ∧ (stepLoss opt lg p0 k).IsFin ∧
    ∀ x ∈ stepGrad opt lg p0 k, x.IsFin

end Trajectory

/-- `i` is the first index below `n` at which `f` is minimal. -/
def FirstMinBelow (n : ℕ) (f : ℕ → XR) (i : ℕ) : Prop :=
  i < n ∧ (∀ j < n, XR.le (f i) (f j)) ∧ ∀ j < i, XR.lt (f i) (f j)

/-! ## Fitting -/

open Classical in
/-- How many entries of `l` are strictly below its last entry. -/
noncomputable def countBelowLast (l : List XR) : ℕ :=
  match l.getLast? with
  | none => 0
  | some last => (l.filter fun x => decide (XR.lt x last)).length

/-- log10 of a mass `m`, where masses at or below the floor are replaced by floor + 1e-7. -/
noncomputable def flooredLog (floor m : ℝ) : ℝ :=
  Real.logb 10 (if m ≤ floor then 1e-7 + floor else m)

open Classical in
/-- The points `(t, log mass)` inside the three cuts. -/
noncomputable def insideCuts (final dlogm_cut t_fit_min : ℝ) (lgm_min : XR) (pts : List (ℝ × ℝ)) :
    List (ℝ × ℝ) :=
  pts.filter fun q =>
    decide (final - dlogm_cut < q.2 ∧ XR.lt lgm_min (XR.fin q.2) ∧ t_fit_min ≤ q.1)

/-! ## Populations -/

/-- Population standard deviation (zero for an empty list). -/
noncomputable def std (l : List ℝ) : ℝ := Real.sqrt (sumSqDev l / l.length)

/-- `t` is what remains of `x` after removing its `k` smallest and `k` largest entries. -/
def IsTrimmed (x : List ℝ) (k : ℕ) (t : List ℝ) : Prop :=
  ∃ lo hi, lo.length = k ∧ hi.length = k ∧ (lo ++ t ++ hi).Perm x ∧
    (lo ++ t ++ hi).Pairwise (· ≤ ·)

/-! ## Text files -/

/-- `y` is `x` up to a relative error of 5e-6 (six significant digits); NaN and the infinities are
reproduced exactly. -/
def CloseSix : XR → XR → Prop
  | .fin x, .fin y => |y - x| ≤ 5e-6 * |x|
  | .nan, .nan => True
  | .pinf, .pinf => True
  | .ninf, .ninf => True
  | _, _ => False

/-- Every parameter listed in `bounds` (name, lower, upper) is present in the parameter set under
its name, with a value strictly inside its bounds. Other parameters may be present too. -/
def Bounded (bounds : List (String × ℝ × ℝ)) (params : List (String × ℝ)) : Prop :=
  ∀ b ∈ bounds, ∃ v, params.lookup b.1 = some v ∧ b.2.1 < v ∧ v < b.2.2

/-- The rows of `l` numbered `a` to `b - 1`. -/
def rows {α : Type} (l : List α) (a b : ℕ) : List α :=
  (l.zipIdx.filter fun p => decide (a ≤ p.2 ∧ p.2 < b)).map Prod.fst

/-! ## Mass histories -/

/-- `out` is the running maximum of the raw history: it never decreases, is nowhere below the raw
history, takes only values reached so far, and is the raw history itself if that never decreases. -/
structure IsPeakHistory (raw out : List ℝ) : Prop where
  nondecreasing : out.Pairwise (· ≤ ·)
  dominates : List.Forall₂ (· ≤ ·) raw out
  reached : ∀ (k : ℕ) (y : ℝ), out[k]? = some y → ∃ j ≤ k, raw[j]? = some y
  unchanged : raw.Pairwise (· ≤ ·) → out = raw

/-! ## Weighted points -/

/-- Mean of points `(weight, value)` whose weights sum to one. -/
noncomputable def wmean (pts : List (ℝ × ℝ)) : ℝ := (pts.map fun p => p.1 * p.2).sum

/-- Variance of points `(weight, value)` whose weights sum to one. -/
noncomputable def wvar (pts : List (ℝ × ℝ)) : ℝ := (pts.map fun p => p.1 * (p.2 - wmean pts) ^ 2).sum

/-- The two-component mixture: one of the haloes is picked with equal probability, and takes its
early value with probability `f`, its late value otherwise. -/
noncomputable def mixture (early late f : List ℝ) : List (ℝ × ℝ) :=
  List.zipWith (fun (f x : ℝ) => (f / (early.length : ℝ), x)) f early ++
    List.zipWith (fun (f x : ℝ) => ((1 - f) / (early.length : ℝ), x)) f late

end Diffmah.Spec

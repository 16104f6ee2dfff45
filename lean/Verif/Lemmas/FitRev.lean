import Verif.Model.Float32Fit
import Verif.Lemmas.Kernels
import Mathlib.Algebra.BigOperators.Group.List.Basic
import Mathlib.Algebra.BigOperators.Ring.List

/-!
# Lemmas about the written-out gradient of a fit
-/

namespace Diffmah

open JOps
open Fit (VariedU LossData)

section

theorem sumOf_real {l : List ℝ} {a : ℝ} (h : SumOf l a) : a = l.sum := by
  induction h with
  | nil => rfl
  | one x => simp
  | @add l m k a b _ _ hp iha ihb =>
    rw [iha, ihb, ← List.sum_append]
    exact hp.sum_eq

theorem foldl_real (l : List ℝ) (z : ℝ) : l.foldl (· + ·) z = z + l.sum := by
  induction l generalizing z with
  | nil => simp
  | cons a l ih => rw [List.foldl_cons, ih, List.sum_cons]; ring

theorem foldl_dual_d (l : List Dual) (z : Dual) : (l.foldl (· + ·) z).d = z.d + (l.map Dual.d).sum := by
  induction l generalizing z with
  | nil => simp
  | cons a l ih =>
    rw [List.foldl_cons, ih, List.map_cons, List.sum_cons]
    change z.d + a.d + _ = _
    ring

theorem sumOf_foldl {α : Type} [Add α] [JOps α] (l : List α) : SumOf l (l.foldl (· + ·) (lit 0)) := by
  have : ∀ (l m : List α) (a : α), SumOf m a → SumOf (m ++ l) (l.foldl (· + ·) a) := by
    intro l
    induction l with
    | nil => intro m a h; simpa using h
    | cons x l ih =>
      intro m a h
      have := ih (m ++ [x]) (a + x) (.add h (.one x) (List.Perm.refl _))
      simpa using this
  exact this l [] _ .nil

theorem zipWith_left {β γ δ ε : Type} (f : β → γ → δ) (ts : List β) (ms : List ε) (h : β × ε → γ) :
    List.zipWith f ts ((ts.zip ms).map h) = (ts.zip ms).map fun q => f q.1 (h q) := by
  induction ts generalizing ms with
  | nil => simp
  | cons t ts ih =>
    cases ms with
    | nil => simp
    | cons m ms => simp [ih]

theorem zipWith_right {β γ δ ε ζ : Type} (f : γ → ζ → δ) (ts : List β) (ms : List ε) (h : β × ε → γ) (s : β → ζ) :
    List.zipWith f ((ts.zip ms).map h) (ts.map s) = (ts.zip ms).map fun q => f (h q) (s q.1) := by
  induction ts generalizing ms with
  | nil => simp
  | cons t ts ih =>
    cases ms with
    | nil => simp
    | cons m ms => simp [ih]

theorem sum_map_sub' {β : Type} (l : List β) (f g : β → ℝ) :
    (l.map f).sum - (l.map g).sum = (l.map fun x => f x - g x).sum := by
  induction l with
  | nil => simp
  | cons a l ih => simp only [List.map_cons, List.sum_cons, ← ih]; ring

/-- A sum split at the peak. -/
theorem sum_split {ε : Type} (z : List (ℝ × ε)) (tp : ℝ) (g : ℝ × ε → ℝ) (F : ℝ → ℝ) :
    (z.map fun q => jwhere (lt q.1 tp) (g q) (0 : ℝ) * F q.1).sum +
      (z.map fun q => jwhere (lt q.1 tp) (0 : ℝ) (g q)).sum * F tp =
    (z.map fun q => g q * F (jwhere (lt q.1 tp) q.1 tp)).sum := by
  induction z with
  | nil => simp
  | cons q z ih =>
    simp only [List.map_cons, List.sum_cons]
    rw [← ih]
    by_cases h : (lt q.1 tp : Prop)
    · simp only [jwhere, if_pos h]; ring
    · simp only [jwhere, if_neg h]; ring

/-- Derivatives of the log mass at time `t` by the transition time (negated), the early and the late index. -/
noncomputable def dTc (p : MahParams ℝ) (l0 t : ℝ) : ℝ :=
  (Real.logb 10 t - l0) * (p.late_index - p.early_index) *
    (1 - Real.sigmoid (MAH_K * (Real.logb 10 t - p.logtc))) * Real.sigmoid (MAH_K * (Real.logb 10 t - p.logtc)) *
    MAH_K
noncomputable def dLate (p : MahParams ℝ) (l0 t : ℝ) : ℝ :=
  (Real.logb 10 t - l0) * Real.sigmoid (MAH_K * (Real.logb 10 t - p.logtc))
noncomputable def dEarly (p : MahParams ℝ) (l0 t : ℝ) : ℝ :=
  (Real.logb 10 t - l0) * (1 - Real.sigmoid (MAH_K * (Real.logb 10 t - p.logtc)))

theorem noq_bwd_real {ε : Type} (sum : List ℝ → ℝ) (hsum : ∀ l, SumOf l (sum l)) (p : MahParams ℝ) (l0 : ℝ)
    (ts : List ℝ) (ms : List ε) (h : ℝ × ε → ℝ) :
    noq_bwd sum p l0 ts ((ts.zip ms).map h) =
      ⟨((ts.zip ms).map h).sum, -((ts.zip ms).map fun q => h q * dTc p l0 q.1).sum,
        ((ts.zip ms).map fun q => h q * dEarly p l0 q.1).sum,
        ((ts.zip ms).map fun q => h q * dLate p l0 q.1).sum⟩ := by
  have hs : ∀ l, sum l = l.sum := fun l => sumOf_real (hsum l)
  unfold noq_bwd
  simp only [zipWith_left, zipWith_right, hs, sum_map_sub']
  refine VariedU.ext rfl ?_ ?_ ?_
  · refine (zero_sub _).trans (congrArg Neg.neg (congrArg List.sum (List.map_congr_left fun q _ => ?_)))
    change h q * (Real.logb 10 q.1 - l0) * (p.late_index - p.early_index) *
      (1 - Real.sigmoid (MAH_K * (Real.logb 10 q.1 - p.logtc))) * _ * MAH_K = _
    unfold dTc
    change _ * Real.sigmoid (MAH_K * (Real.logb 10 q.1 - p.logtc)) * MAH_K = _
    ring
  · refine congrArg List.sum (List.map_congr_left fun q _ => ?_)
    unfold dEarly
    change h q * (Real.logb 10 q.1 - l0) -
      h q * (Real.logb 10 q.1 - l0) * Real.sigmoid (MAH_K * (Real.logb 10 q.1 - p.logtc)) = _
    ring
  · refine congrArg List.sum (List.map_congr_left fun q _ => ?_)
    unfold dLate
    change h q * (Real.logb 10 q.1 - l0) * Real.sigmoid (MAH_K * (Real.logb 10 q.1 - p.logtc)) = _
    ring

theorem noq_bwd_single (sum : List ℝ → ℝ) (hsum : ∀ l, SumOf l (sum l)) (p : MahParams ℝ) (l0 t g : ℝ) :
    noq_bwd sum p l0 [t] [g] = ⟨g, -(g * dTc p l0 t), g * dEarly p l0 t, g * dLate p l0 t⟩ := by
  have := noq_bwd_real sum hsum p l0 [t] [()] fun _ => g
  simpa using this

/-- The tangent of the log mass, in terms of the tangents of the four parameters. -/
theorem kern_tangent (P : MahParams Dual) (hd : P.t_peak.d = 0) (t l0 : ℝ) :
    (log_mah_kern P (Dual.const t) (Dual.const l0)).v = log_mah_kern (P.map Dual.v) t l0 ∧
    (log_mah_kern P (Dual.const t) (Dual.const l0)).d =
      P.logm0.d + P.early_index.d * dEarly (P.map Dual.v) l0 (jwhere (lt t P.t_peak.v) t P.t_peak.v) +
        P.late_index.d * dLate (P.map Dual.v) l0 (jwhere (lt t P.t_peak.v) t P.t_peak.v) -
        P.logtc.d * dTc (P.map Dual.v) l0 (jwhere (lt t P.t_peak.v) t P.t_peak.v) := by
  have noq : ∀ T : Dual, T.d = 0 → (log_mah_noq_kern P T (Dual.const l0)).d =
      P.logm0.d + P.early_index.d * dEarly (P.map Dual.v) l0 T.v +
        P.late_index.d * dLate (P.map Dual.v) l0 T.v - P.logtc.d * dTc (P.map Dual.v) l0 T.v := by
    intro T hT
    have e : (log_mah_noq_kern P T (Dual.const l0)).d =
      (P.early_index.d + ((P.late_index.d - P.early_index.d) *
          Real.sigmoid (MAH_K * (Real.logb 10 T.v - P.logtc.v)) + (P.late_index.v - P.early_index.v) *
        ((0 * (Real.logb 10 T.v - P.logtc.v) + MAH_K * (T.d / (T.v * Real.log 10) - P.logtc.d)) *
          (Real.sigmoid (MAH_K * (Real.logb 10 T.v - P.logtc.v)) *
            (1 - Real.sigmoid (MAH_K * (Real.logb 10 T.v - P.logtc.v))))))) * (Real.logb 10 T.v - l0) +
      (P.early_index.v + (P.late_index.v - P.early_index.v) *
          Real.sigmoid (MAH_K * (Real.logb 10 T.v - P.logtc.v))) * (T.d / (T.v * Real.log 10) - 0) + P.logm0.d := rfl
    rw [e, hT]
    simp only [dEarly, dLate, dTc, MahParams.map, zero_div]
    ring
  unfold log_mah_kern
  simp only
  by_cases h : t < P.t_peak.v
  · simp only [jwhere, if_pos (show (lt (Dual.const t) P.t_peak : Prop) from h),
      if_pos (show (lt t P.t_peak.v : Prop) from h),
      if_pos (show (lt t (P.map Dual.v).t_peak : Prop) from h)]
    exact ⟨rfl, noq _ rfl⟩
  · simp only [jwhere, if_neg (show ¬ (lt (Dual.const t) P.t_peak : Prop) from h),
      if_neg (show ¬ (lt t P.t_peak.v : Prop) from h),
      if_neg (show ¬ (lt t (P.map Dual.v).t_peak : Prop) from h)]
    exact ⟨rfl, noq _ hd⟩

end

end Diffmah

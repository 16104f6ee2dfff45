import Verif.Model.Measure
import Verif.Spec
import Verif.Lemmas.XR
import Verif.Lemmas.Utils
import Mathlib.Data.List.GetD

/-!
# Lemmas about means, trimmed statistics and interpolation
-/

namespace Diffmah.Measure

open JOps Diffmah.Utils Diffmah.Fit Spec
open XR (fin)

theorem foldl_fin (l : List ℝ) (a : ℝ) : (l.map fin).foldl (· + ·) (fin a) = fin (a + l.sum) := by
  induction l generalizing a with
  | nil => simp
  | cons b l ih =>
    rw [List.map_cons, List.foldl_cons, XR.fin_add, ih, List.sum_cons, add_assoc]

theorem length_ne_zero {l : List ℝ} (h : l ≠ []) : (l.length : ℝ) ≠ 0 := by
  rw [Nat.cast_ne_zero]; exact fun h' => h (List.length_eq_zero_iff.1 h')

theorem jmean_fin {l : List ℝ} (h : l ≠ []) : jmean (l.map fin) = fin (mean l) := by
  unfold jmean mean
  rw [XR.lit_fin, foldl_fin, List.length_map, XR.lit_fin, XR.fin_div (length_ne_zero h), zero_add]

theorem jmean_nil : jmean ([] : List XR) = .nan := by
  unfold jmean
  simp only [List.foldl_nil, List.length_nil, Nat.cast_zero, XR.lit_fin, XR.fin_div_zero,
    XR.ofSign_zero]

theorem sumSqDev_nonneg (l : List ℝ) : 0 ≤ sumSqDev l :=
  List.sum_nonneg (by
    intro x hx
    obtain ⟨a, -, rfl⟩ := List.mem_map.1 hx
    positivity)

theorem npstd_fin {l : List ℝ} (h : l ≠ []) : npstd (l.map fin) = fin (std l) := by
  unfold npstd
  rw [jmean_fin h, List.map_map]
  have e : ((fun a => (a - fin (mean l)) * (a - fin (mean l))) ∘ fin)
      = fin ∘ fun a => (a - mean l) ^ 2 := by
    funext a
    simp only [Function.comp, XR.fin_sub, XR.fin_mul, pow_two]
  rw [e, ← List.map_map, jmean_fin (by simpa using h)]
  have hm : mean (l.map fun a => (a - mean l) ^ 2) = sumSqDev l / l.length := by
    unfold mean sumSqDev; rw [List.length_map]; rfl
  rw [hm]
  change xsqrt _ = _
  unfold xsqrt
  rw [if_neg (not_lt.2 (div_nonneg (sumSqDev_nonneg l) (Nat.cast_nonneg _)))]
  rfl

/-! ## Shifts -/

theorem mean_shift {l : List ℝ} (h : l ≠ []) (c : ℝ) : mean (l.map (· + c)) = mean l + c := by
  unfold mean
  have : (l.map (· + c)).sum = l.sum + l.length * c := by
    clear h
    induction l with
    | nil => simp
    | cons a l ih =>
      rw [List.map_cons, List.sum_cons, ih, List.sum_cons, List.length_cons]
      push_cast; ring
  rw [this, List.length_map, add_div, mul_div_cancel_left₀ _ (length_ne_zero h)]

theorem sumSqDev_shift (l : List ℝ) (c : ℝ) : sumSqDev (l.map (· + c)) = sumSqDev l := by
  by_cases h : l = []
  · subst h; rfl
  · unfold sumSqDev
    rw [mean_shift h, List.map_map]
    congr 1
    refine List.map_congr_left fun a _ => ?_
    simp only [Function.comp]; ring

theorem std_shift (l : List ℝ) (c : ℝ) : std (l.map (· + c)) = std l := by
  unfold std; rw [sumSqDev_shift, List.length_map]

theorem npsort_shift (x : List ℝ) (c : ℝ) : npsort (x.map (· + c)) = (npsort x).map (· + c) :=
  npsort_eq_of_perm ((List.pairwise_map).2 ((npsort_sorted x).imp fun h => by linarith))
    ((npsort_perm x).symm.map _)

theorem trimr_shift (x : List ℝ) (lim c : ℝ) : trimr (x.map (· + c)) lim = (trimr x lim).map (· + c) := by
  unfold trimr
  simp only [List.length_map, npsort_shift, List.map_drop, List.map_take]

/-- The model's trimming meets the relational specification, unless everything is trimmed. -/
theorem trimr_spec (x : List ℝ) (lim : ℝ) (h : 2 * ⌊lim * (x.length : ℝ)⌋₊ ≤ x.length) :
    IsTrimmed x ⌊lim * (x.length : ℝ)⌋₊ (trimr x lim) := by
  set k := ⌊lim * (x.length : ℝ)⌋₊ with hk
  refine ⟨(npsort x).take k, (npsort x).drop (x.length - k), ?_, ?_, ?_⟩
  · rw [List.length_take, npsort_length]; omega
  · rw [List.length_drop, npsort_length]; omega
  have e : (npsort x).take k ++ trimr x lim ++ (npsort x).drop (x.length - k) = npsort x := by
    have e1 : trimr x lim = ((npsort x).take (x.length - k)).drop k := rfl
    have e2 : (npsort x).take k = ((npsort x).take (x.length - k)).take k := by
      rw [List.take_take]; congr 1; omega
    rw [e1, e2, List.take_append_drop, List.take_append_drop]
  rw [e]
  exact ⟨npsort_perm x, npsort_sorted x⟩

theorem isTrimmed_unique {x t : List ℝ} {lim : ℝ} (h : IsTrimmed x ⌊lim * (x.length : ℝ)⌋₊ t) :
    trimr x lim = t := by
  obtain ⟨lo, hi, h1, h2, hp, hs⟩ := h
  have hsort : npsort x = lo ++ t ++ hi := npsort_eq_of_perm hs hp.symm
  have hlen : x.length = lo.length + t.length + hi.length := by
    rw [← hp.length_eq]; simp [Nat.add_assoc]
  unfold trimr
  simp only [hsort]
  rw [← h1] at *
  have : x.length - lo.length = (lo ++ t).length := by rw [List.length_append]; omega
  rw [this, List.take_left, List.drop_left]

theorem trimr_nil {x : List ℝ} {lim : ℝ} (h : ¬ 2 * ⌊lim * (x.length : ℝ)⌋₊ ≤ x.length) :
    trimr x lim = [] := by
  apply List.eq_nil_of_length_eq_zero
  unfold trimr
  simp only [List.length_drop, List.length_take, npsort_length]
  omega

/-- The test of one halo at one time, in plain numbers. -/
theorem zscore_iff (x : List ℝ) (lim z_cut v : ℝ) :
    XR.lt (xabs ((fin v - trimmed_mean x lim) / trimmed_std x lim)) (fin z_cut) ↔
      ∃ t, IsTrimmed x ⌊lim * (x.length : ℝ)⌋₊ t ∧ 0 < std t ∧ |v - mean t| < z_cut * std t := by
  by_cases hn : trimr x lim = []
  · have l : ¬ XR.lt (xabs ((fin v - trimmed_mean x lim) / trimmed_std x lim)) (fin z_cut) := by
      unfold trimmed_mean
      rw [hn, List.map_nil, jmean_nil, XR.sub_nan, XR.nan_div]
      exact id
    refine ⟨fun h => absurd h l, ?_⟩
    rintro ⟨t, ht, h0, -⟩
    rw [← isTrimmed_unique ht, hn] at h0
    simp [std] at h0
  · have hk : 2 * ⌊lim * (x.length : ℝ)⌋₊ ≤ x.length := by
      by_contra h; exact hn (trimr_nil h)
    have key : XR.lt (xabs ((fin v - trimmed_mean x lim) / trimmed_std x lim)) (fin z_cut) ↔
        0 < std (trimr x lim) ∧ |v - mean (trimr x lim)| < z_cut * std (trimr x lim) := by
      unfold trimmed_mean trimmed_std
      rw [jmean_fin hn, npstd_fin hn, XR.fin_sub]
      have hs : 0 ≤ std (trimr x lim) := Real.sqrt_nonneg _
      rcases hs.eq_or_lt with h0 | h0
      · rw [← h0, XR.fin_div_zero]
        constructor
        · intro h
          exfalso
          rcases lt_trichotomy (v - mean (trimr x lim)) 0 with h1 | h1 | h1
          · rw [XR.ofSign_neg h1] at h; exact h
          · rw [h1, XR.ofSign_zero] at h; exact h
          · rw [XR.ofSign_pos h1] at h; exact h
        · rintro ⟨h, -⟩; exact absurd h (lt_irrefl _)
      · rw [XR.fin_div h0.ne']
        change |(v - mean (trimr x lim)) / std (trimr x lim)| < z_cut ↔ _
        rw [abs_div, abs_of_pos h0, div_lt_iff₀ h0]
        exact ⟨fun h => ⟨h0, h⟩, fun h => h.2⟩
    rw [key]
    constructor
    · rintro ⟨h1, h2⟩; exact ⟨_, trimr_spec x lim hk, h1, h2⟩
    · rintro ⟨t, ht, h1, h2⟩
      rw [isTrimmed_unique ht]; exact ⟨h1, h2⟩

/-! ## Interpolation -/

theorem interp1_last {xp : List ℝ} {fp : List XR} {x : ℝ} (hne : xp ≠ []) (h : ∀ a ∈ xp, a ≤ x) :
    interp1 xp fp x = fp.getD (xp.length - 1) .nan := by
  have hl : 0 < xp.length := List.length_pos_iff.2 hne
  have : (xp.filter fun a => @decide (a ≤ x) (Classical.propDecidable _)) = xp :=
    List.filter_eq_self.2 fun a ha => by simp [h a ha]
  unfold interp1
  simp only [this]
  rw [if_neg (by omega), if_pos trivial]

theorem interp1_node {xp : List ℝ} {fp : List XR} (hs : xp.Pairwise (· < ·)) {i : ℕ}
    (hi : i < xp.length) : interp1 xp fp (xp.getD i 0) = fp.getD i .nan := by
  have hx : xp.getD i 0 = xp[i] := List.getD_eq_getElem _ _ hi
  have hsplit : xp = xp.take (i + 1) ++ xp.drop (i + 1) := (List.take_append_drop _ _).symm
  have hp := List.pairwise_iff_getElem.1 hs
  have h1 : (xp.filter fun a => @decide (a ≤ xp[i]) (Classical.propDecidable _)).length = i + 1 := by
    generalize hv : xp[i] = v
    rw [hsplit, List.filter_append, List.filter_eq_self.2, List.filter_eq_nil_iff.2, List.append_nil,
      List.length_take]
    · omega
    · intro a ha
      obtain ⟨j, hj, rfl⟩ := List.mem_drop_iff_getElem.1 ha
      have := hp i (i + 1 + j) hi (by omega) (by omega)
      simp only [decide_eq_true_eq]
      rw [not_le, ← hv]; exact this
    · intro a ha
      obtain ⟨j, hj, rfl⟩ := List.mem_take_iff_getElem.1 ha
      simp only [decide_eq_true_eq]
      rw [← hv]
      rcases Nat.lt_or_ge j i with h | h
      · exact (hp j i (by omega) hi h).le
      · have : j = i := by omega
        subst this; exact le_refl _
  unfold interp1
  simp only [hx, h1]
  rw [if_neg (by omega)]
  simp only [Nat.add_sub_cancel, hx, if_true, ite_self]

theorem pow10_log10 {a : ℝ} (h : 0 ≤ a) : (pow10 (log10 (fin a)) : XR) = fin a := by
  rcases h.eq_or_lt with rfl | h
  · rw [XR.log10_zero, XR.pow10_ninf]
  · rw [XR.log10_pos h, XR.pow10_fin, Real.rpow_logb (by norm_num) (by norm_num) h]

end Diffmah.Measure

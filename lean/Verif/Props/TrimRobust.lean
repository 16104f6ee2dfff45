import Verif.Props.Utils

/-!
# C146: trimmed means are robust against outliers
-/

namespace Diffmah

open XR hiding log10 pow10 ln sigm max lt le add sub mul div neg
open Utils

/-! ## Specification -/

/-- The same data with other outliers: both samples consist of `mid`, of small values not above any of `mid`, and of large values not
below any of `mid`, with as many small and large values in one as in the other; in any order. -/
structure SameBulk (mid x y : List ℝ) (klo khi : ℕ) : Prop where
  left : ∃ lo hi, x.Perm (lo ++ mid ++ hi) ∧ lo.length = klo ∧ hi.length = khi ∧ (∀ a ∈ lo, ∀ b ∈ mid, a ≤ b) ∧
    ∀ a ∈ hi, ∀ b ∈ mid, b ≤ a
  right : ∃ lo hi, y.Perm (lo ++ mid ++ hi) ∧ lo.length = klo ∧ hi.length = khi ∧ (∀ a ∈ lo, ∀ b ∈ mid, a ≤ b) ∧
    ∀ a ∈ hi, ∀ b ∈ mid, b ≤ a

/-! ## Lemmas -/

section
variable {lo mid hi x : List ℝ} {klo khi : ℕ}

theorem npsort_parts (hx : x.Perm (lo ++ mid ++ hi)) (hmid : mid ≠ []) (h1 : ∀ a ∈ lo, ∀ b ∈ mid, a ≤ b)
    (h2 : ∀ a ∈ hi, ∀ b ∈ mid, b ≤ a) : npsort x = npsort lo ++ npsort mid ++ npsort hi := by
  obtain ⟨c, hc⟩ := List.exists_mem_of_ne_nil _ hmid
  have m : ∀ {l : List ℝ} {a : ℝ}, a ∈ npsort l → a ∈ l := fun {l a} h => (npsort_perm l).mem_iff.1 h
  refine npsort_eq_of_perm ?_ (hx.trans (((npsort_perm lo).symm.append (npsort_perm mid).symm).append (npsort_perm hi).symm))
  rw [List.pairwise_append, List.pairwise_append]
  refine ⟨⟨npsort_sorted _, npsort_sorted _, fun a ha b hb => h1 a (m ha) b (m hb)⟩, npsort_sorted _, fun a ha b hb => ?_⟩
  rcases List.mem_append.1 ha with ha | ha
  · exact (h1 a (m ha) c hc).trans (h2 b (m hb) c hc)
  · exact h2 b (m hb) a (m ha)

/-- A percentile between the outliers is a value between two entries of the bulk, and depends on the bulk only. -/
theorem quantile_parts (hx : x.Perm (lo ++ mid ++ hi)) (hlo : lo.length = klo) (hhi : hi.length = khi) (hmid : mid ≠ [])
    (h1 : ∀ a ∈ lo, ∀ b ∈ mid, a ≤ b) (h2 : ∀ a ∈ hi, ∀ b ∈ mid, b ≤ a) {q r : ℝ}
    (hr : r = q * (((klo + mid.length + khi : ℕ) : ℝ) - 1)) (hr1 : (klo : ℝ) ≤ r) (hr2 : r + 1 ≤ ((klo + mid.length : ℕ) : ℝ)) :
    quantile x q = (npsort mid).getD (⌊r⌋₊ - klo) 0 * (1 - (r - ⌊r⌋₊)) + (npsort mid).getD (⌈r⌉₊ - klo) 0 * (r - ⌊r⌋₊) ∧
      (∀ a ∈ lo, a ≤ quantile x q) ∧ ∀ a ∈ hi, quantile x q ≤ a := by
  have hn : x.length = klo + mid.length + khi := by
    rw [hx.length_eq, List.length_append, List.length_append, hlo, hhi]
  have hml : 0 < mid.length := List.length_pos_of_ne_nil hmid
  have hr0 : 0 ≤ r := (Nat.cast_nonneg klo).trans hr1
  have hr3 : r ≤ ((klo + mid.length - 1 : ℕ) : ℝ) := by
    rw [Nat.cast_sub (by omega)]; push_cast at hr2 ⊢; linarith
  have f1 : klo ≤ ⌊r⌋₊ := Nat.le_floor hr1
  have f2 : ⌊r⌋₊ ≤ ⌈r⌉₊ := Nat.floor_le_ceil r
  have f3 : ⌈r⌉₊ ≤ klo + mid.length - 1 := Nat.ceil_le.2 hr3
  have g : ∀ i, klo ≤ i → i ≤ klo + mid.length - 1 →
      (npsort lo ++ npsort mid ++ npsort hi).getD i 0 = (npsort mid).getD (i - klo) 0 := fun i hi1 hi2 => by
    rw [List.getD_eq_getElem?_getD, List.getD_eq_getElem?_getD, List.append_assoc, List.getElem?_append_right (by rw [npsort_length]; omega),
      List.getElem?_append_left (by rw [npsort_length, npsort_length]; omega), npsort_length, hlo]
  have e : quantile x q = (npsort mid).getD (⌊r⌋₊ - klo) 0 * (1 - (r - ⌊r⌋₊)) + (npsort mid).getD (⌈r⌉₊ - klo) 0 * (r - ⌊r⌋₊) := by
    unfold quantile
    simp only [npsort_parts hx hmid h1 h2, hn, ← hr]
    rw [min_eq_left (by omega), min_eq_left (by omega), g _ f1 (f2.trans f3), g _ (f1.trans f2) f3]
  have mem : ∀ i, i < mid.length → (npsort mid).getD i 0 ∈ mid := fun i hi' => by
    have hl : i < (npsort mid).length := by rw [npsort_length]; exact hi'
    rw [List.getD_eq_getElem?_getD, List.getElem?_eq_getElem hl, Option.getD_some]
    exact (npsort_perm mid).mem_iff.1 (List.getElem_mem hl)
  have w0 : 0 ≤ r - ⌊r⌋₊ := sub_nonneg.2 (Nat.floor_le hr0)
  have w1 : 0 ≤ 1 - (r - ⌊r⌋₊) := by linarith [Nat.lt_floor_add_one r]
  have m1 := mem (⌊r⌋₊ - klo) (by omega)
  have m2 := mem (⌈r⌉₊ - klo) (by omega)
  refine ⟨e, fun a ha => ?_, fun a ha => ?_⟩
  · rw [e]
    nlinarith [mul_le_mul_of_nonneg_right (h1 a ha _ m1) w1, mul_le_mul_of_nonneg_right (h1 a ha _ m2) w0]
  · rw [e]
    nlinarith [mul_le_mul_of_nonneg_right (h2 a ha _ m1) w1, mul_le_mul_of_nonneg_right (h2 a ha _ m2) w0]

theorem strictlyBetween_parts {a b : ℝ} (h1 : ∀ c ∈ lo, c ≤ a) (h2 : ∀ c ∈ hi, b ≤ c) :
    Spec.strictlyBetween a b (lo ++ mid ++ hi) = Spec.strictlyBetween a b mid := by
  classical
  unfold Spec.strictlyBetween
  have e1 : lo.filter (fun c => decide (a < c ∧ c < b)) = [] := List.filter_eq_nil_iff.2 fun c hc => by
    simp only [decide_eq_true_eq]
    exact fun h => absurd (h1 c hc) (not_le.2 h.1)
  have e2 : hi.filter (fun c => decide (a < c ∧ c < b)) = [] := List.filter_eq_nil_iff.2 fun c hc => by
    simp only [decide_eq_true_eq]
    exact fun h => absurd (h2 c hc) (not_le.2 h.2)
  rw [List.filter_append, List.filter_append, e1, e2, List.nil_append, List.append_nil]

end

theorem mean_perm {r s : List ℝ} (h : r.Perm s) : Spec.mean r = Spec.mean s := by
  rw [Spec.mean, Spec.mean, h.sum_eq, h.length_eq]

theorem sumSqDev_perm {r s : List ℝ} (h : r.Perm s) : Spec.sumSqDev r = Spec.sumSqDev s := by
  unfold Spec.sumSqDev
  rw [mean_perm h]
  exact (h.map _).sum_eq

/-- The trimmed moments are a function of the retained points. -/
theorem moments_of_kept {x y : List ℝ} (hx : x ≠ []) (hy : y ≠ []) (p : ℝ)
    (h : (Spec.strictlyBetween (quantile x p) (quantile x (1 - p)) x).Perm
      (Spec.strictlyBetween (quantile y p) (quantile y (1 - p)) y)) :
    trimmed_mean_and_variance x p = trimmed_mean_and_variance y p := by
  obtain ⟨a1, a2⟩ := C25_trimmed_mean_value x hx p
  obtain ⟨b1, b2⟩ := C25_trimmed_mean_value y hy p
  obtain ⟨c1, c2⟩ := C27_unbiased_variance x hx p
  obtain ⟨d1, d2⟩ := C27_unbiased_variance y hy p
  refine Prod.ext ?_ ?_
  · rw [C27_same_mean, C27_same_mean]
    by_cases h0 : Spec.strictlyBetween (quantile x p) (quantile x (1 - p)) x = []
    · rw [a2 h0, b2 (by rw [h0] at h; exact List.nil_perm.1 h)]
    · rw [a1 h0, b1 (fun hh => h0 (by rw [hh] at h; exact List.perm_nil.1 h)), mean_perm h]
  · have hl := h.length_eq
    rcases Nat.lt_or_ge (Spec.strictlyBetween (quantile x p) (quantile x (1 - p)) x).length 2 with h2 | h2
    · rw [c2 (by omega), d2 (by omega)]
    · rw [(c1 h2).1, (d1 (by omega)).1, sumSqDev_perm h, hl]

/-! ## C146 -/

/-- C146. If the fraction `p_trim` of the `n - 1` gaps between the sorted data covers the outliers on either side, the trimmed mean and
the trimmed variance do not depend on how large or how small the outliers are. -/
theorem C146_outliers (mid x y : List ℝ) (klo khi : ℕ) (h : SameBulk mid x y klo khi) (p : ℝ) (hp : p ≤ 1 / 2)
    (hlo : (klo : ℝ) ≤ p * ((x.length : ℝ) - 1)) (hhi : (khi : ℝ) ≤ p * ((x.length : ℝ) - 1)) (hx : x ≠ []) :
    trimmed_mean_and_variance x p = trimmed_mean_and_variance y p ∧ trimmed_mean x p = trimmed_mean y p := by
  classical
  obtain ⟨⟨lo, hi, ex, l1, l2, l3, l4⟩, lo', hi', ey, r1, r2, r3, r4⟩ := h
  have nx : x.length = klo + mid.length + khi := by rw [ex.length_eq, List.length_append, List.length_append, l1, l2]
  have ny : y.length = klo + mid.length + khi := by rw [ey.length_eq, List.length_append, List.length_append, r1, r2]
  have hxl : (1 : ℝ) ≤ x.length := by exact_mod_cast List.length_pos_of_ne_nil hx
  have hhalf : p * ((x.length : ℝ) - 1) ≤ 1 / 2 * ((x.length : ℝ) - 1) := mul_le_mul_of_nonneg_right hp (by linarith)
  have nxr : (x.length : ℝ) = klo + mid.length + khi := by rw [nx]; push_cast; ring
  have hmid : mid ≠ [] := by
    rintro rfl
    simp only [List.length_nil, Nat.cast_zero] at nxr
    linarith
  have hy : y ≠ [] := by
    rintro rfl
    have := List.length_pos_of_ne_nil hmid
    rw [List.length_nil] at ny
    omega
  have key : ∀ q, (klo : ℝ) ≤ q * ((x.length : ℝ) - 1) → q * ((x.length : ℝ) - 1) + khi ≤ (x.length : ℝ) - 1 →
      quantile x q = quantile y q ∧ (∀ a ∈ lo, a ≤ quantile x q) ∧ (∀ a ∈ hi, quantile x q ≤ a) ∧
      (∀ a ∈ lo', a ≤ quantile x q) ∧ ∀ a ∈ hi', quantile x q ≤ a := by
    intro q h1 h2
    have h3 : q * ((x.length : ℝ) - 1) + 1 ≤ ((klo + mid.length : ℕ) : ℝ) := by push_cast; linarith
    obtain ⟨e1, e2, e3⟩ := quantile_parts ex l1 l2 hmid l3 l4 (q := q) (by rw [nx]) h1 h3
    obtain ⟨g1, g2, g3⟩ := quantile_parts ey r1 r2 hmid r3 r4 (q := q) (by rw [nx]) h1 h3
    have e : quantile x q = quantile y q := e1.trans g1.symm
    exact ⟨e, e2, e3, by rwa [e], by rwa [e]⟩
  obtain ⟨p1, p2, p3, p4, p5⟩ := key p hlo (by linarith)
  obtain ⟨q1, q2, q3, q4, q5⟩ := key (1 - p) (by linarith) (by linarith)
  have hm : trimmed_mean_and_variance x p = trimmed_mean_and_variance y p := by
    refine moments_of_kept hx hy p ?_
    rw [← p1, ← q1]
    have sx : (Spec.strictlyBetween (quantile x p) (quantile x (1 - p)) x).Perm
        (Spec.strictlyBetween (quantile x p) (quantile x (1 - p)) (lo ++ mid ++ hi)) := ex.filter _
    have sy : (Spec.strictlyBetween (quantile x p) (quantile x (1 - p)) y).Perm
        (Spec.strictlyBetween (quantile x p) (quantile x (1 - p)) (lo' ++ mid ++ hi')) := ey.filter _
    rw [strictlyBetween_parts p2 q3] at sx
    rw [strictlyBetween_parts p4 q5] at sy
    exact sx.trans sy.symm
  exact ⟨hm, by rw [← C27_same_mean, ← C27_same_mean, hm]⟩

/-- C146. The trimmed mean is between the smallest and the largest value of the bulk, whatever the outliers. -/
theorem C146_within_bulk (mid x : List ℝ) (klo khi : ℕ) (h : SameBulk mid x x klo khi) (p : ℝ) (hp : p ≤ 1 / 2)
    (hlo : (klo : ℝ) ≤ p * ((x.length : ℝ) - 1)) (hhi : (khi : ℝ) ≤ p * ((x.length : ℝ) - 1)) (hx : x ≠ []) (a b mu : ℝ)
    (ha : ∀ c ∈ mid, a ≤ c) (hb : ∀ c ∈ mid, c ≤ b) (hmu : trimmed_mean x p = fin mu) : a ≤ mu ∧ mu ≤ b := by
  obtain ⟨⟨lo, hi, ex, l1, l2, l3, l4⟩, -⟩ := h
  have hy : SameBulk mid x (List.replicate klo a ++ mid ++ List.replicate khi b) klo khi :=
    ⟨⟨lo, hi, ex, l1, l2, l3, l4⟩, ⟨_, _, List.Perm.refl _, by simp, by simp,
      fun c hc d hd => by rw [List.eq_of_mem_replicate hc]; exact ha d hd,
      fun c hc d hd => by rw [List.eq_of_mem_replicate hc]; exact hb d hd⟩⟩
  have e := (C146_outliers mid x _ klo khi hy p hp hlo hhi hx).2
  rw [hmu] at e
  have hne : List.replicate klo a ++ mid ++ List.replicate khi b ≠ [] := by
    intro h0
    rw [h0] at e
    have hl : (List.replicate klo a ++ mid ++ List.replicate khi b).length = x.length := by
      rw [ex.length_eq]; simp [l1, l2]
    rw [h0] at hl
    exact hx (List.length_eq_zero_iff.1 hl.symm)
  obtain ⟨v1, v2⟩ := C25_trimmed_mean_value _ hne p
  by_cases h0 : Spec.strictlyBetween (quantile (List.replicate klo a ++ mid ++ List.replicate khi b) p)
      (quantile (List.replicate klo a ++ mid ++ List.replicate khi b) (1 - p)) (List.replicate klo a ++ mid ++ List.replicate khi b) = []
  · rw [v2 h0] at e; cases e
  · rw [v1 h0] at e
    rw [XR.fin.inj e]
    have hin : ∀ c ∈ Spec.strictlyBetween (quantile (List.replicate klo a ++ mid ++ List.replicate khi b) p)
        (quantile (List.replicate klo a ++ mid ++ List.replicate khi b) (1 - p))
        (List.replicate klo a ++ mid ++ List.replicate khi b), a ≤ c ∧ c ≤ b := by
      classical
      intro c hc
      have hc := (List.mem_filter.1 hc).1
      obtain ⟨d, hd⟩ : ∃ d, d ∈ mid := by
        by_contra hcon
        have hm0 : mid = [] := List.eq_nil_iff_forall_not_mem.2 fun d hd => hcon ⟨d, hd⟩
        subst hm0
        have nx : (x.length : ℝ) = klo + khi := by
          rw [ex.length_eq, List.length_append, List.length_append, l1, l2]; simp
        have hxl : (1 : ℝ) ≤ x.length := by exact_mod_cast List.length_pos_of_ne_nil hx
        have := mul_le_mul_of_nonneg_right hp (show 0 ≤ (x.length : ℝ) - 1 by linarith)
        linarith
      have hab : a ≤ b := (ha d hd).trans (hb d hd)
      rcases List.mem_append.1 hc with hc | hc
      · rcases List.mem_append.1 hc with hc | hc
        · rw [List.eq_of_mem_replicate hc]; exact ⟨le_rfl, hab⟩
        · exact ⟨ha c hc, hb c hc⟩
      · rw [List.eq_of_mem_replicate hc]; exact ⟨hab, le_rfl⟩
    generalize Spec.strictlyBetween _ _ _ = r at *
    have hpos : (0 : ℝ) < r.length := by exact_mod_cast List.length_pos_of_ne_nil h0
    rw [Spec.mean, le_div_iff₀ hpos, div_le_iff₀ hpos]
    constructor
    · have := List.card_nsmul_le_sum r a fun c hc => (hin c hc).1
      rw [nsmul_eq_mul] at this; linarith
    · have := List.sum_le_card_nsmul r b fun c hc => (hin c hc).2
      rw [nsmul_eq_mul] at this; linarith

/-- Eleven values of which one may be arbitrarily small and one arbitrarily large, with a tenth trimmed on either side. -/
example : SameBulk [1, 2, 3, 4, 5, 6, 7, 8, 9] [0, 1, 2, 3, 4, 5, 6, 7, 8, 9, 10] [1, 2, 3, 4, 5, 6, 7, 8, 9, 10 ^ 6, -(10 ^ 6)] 1 1 ∧
    ((1 : ℕ) : ℝ) ≤ 0.1 * ((([0, 1, 2, 3, 4, 5, 6, 7, 8, 9, 10] : List ℝ).length : ℝ) - 1) := by
  refine ⟨⟨⟨[0], [10], List.Perm.refl _, rfl, rfl, by norm_num, by norm_num⟩,
    ⟨[-(10 ^ 6)], [10 ^ 6], ?_, rfl, rfl, by norm_num, by norm_num⟩⟩, by norm_num⟩
  exact (List.perm_append_comm (l₁ := [1, 2, 3, 4, 5, 6, 7, 8, 9, 10 ^ 6]) (l₂ := [-(10 ^ 6)]))

end Diffmah

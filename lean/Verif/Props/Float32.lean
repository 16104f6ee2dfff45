import Verif.Lemmas.Float32
import Verif.Lemmas.Float32Err
import Verif.Props.Kernels
import Mathlib.Analysis.Complex.ExponentialBounds

/-!
# Single precision (C98-C100)

The same generic code as in the other theorems, run on binary32 numbers.
-/

namespace Diffmah.F32

open JOps XR

/-- A platform whose elementary functions are correctly rounded. -/
noncomputable abbrev ideal : Libm where
  sg := fun x => rd (XR.sigm x)
  ln := fun x => rd (XR.ln x)
  log10 := fun x => rd (XR.log10 x)
  pow10 := fun x => rd (XR.pow10 x)

theorem rep_one : Rep 1 := by have := rep_int (m := 1) (by norm_num); exact_mod_cast this

theorem rep_nat (n : ℕ) (h : n ≤ 2 ^ 24) : Rep n := by
  have := rep_int (m := n) (by rw [abs_of_nonneg (by positivity)]; exact_mod_cast h)
  exact_mod_cast this

theorem rd_unit {s : ℝ} (h0 : 0 ≤ s) (h1 : s ≤ 1) :
    ∃ r, rd (fin s) = fin r ∧ 0 ≤ r ∧ r ≤ 1 ∧ |r - s| ≤ 2 ^ (-24 : ℤ) := by
  refine ⟨round s, rd_fin ?_, round_nonneg h0, round_le h1 rep_one, ?_⟩
  · rw [abs_of_nonneg h0]; exact h1.trans (by norm_num)
  · have := round_err (x := s) (k := 1) (by norm_num) (by rw [abs_of_nonneg h0]; norm_num; linarith)
    simpa using this

/-- The correctly rounded platform meets the hypotheses of C98-C100. -/
theorem ideal_sane : @Libm.Sane ideal := by
  let _ := ideal
  refine ⟨fun x hx => ?_⟩
  have key : ∀ s : ℝ, 0 ≤ s → s ≤ 1 → ∃ r, rd (fin s) = fin r ∧ 0 ≤ r ∧ r ≤ 1 := fun s h0 h1 => by
    obtain ⟨r, a, b, c, -⟩ := rd_unit h0 h1
    exact ⟨r, a, b, c⟩
  cases x with
  | nan => exact absurd rfl hx
  | pinf => exact key 1 (by norm_num) le_rfl
  | ninf => exact key 0 le_rfl (by norm_num)
  | fin a => exact key _ (Real.sigmoid_pos a).le (Real.sigmoid_lt_one a).le

theorem abs_logb_lt_two {t : ℝ} (h1 : 0.05 ≤ t) (h2 : t ≤ 20) : |Real.logb 10 t| < 2 := by
  have ht : 0 < t := by linarith
  rw [abs_lt]
  constructor
  · rw [Real.lt_logb_iff_rpow_lt (by norm_num) ht]; norm_num; linarith
  · rw [Real.logb_lt_iff_lt_rpow (by norm_num) ht]; norm_num; linarith

theorem ideal_accurate : @Libm.Accurate ideal := by
  let _ := ideal
  refine ⟨fun x => ?_, fun t h1 h2 => ?_⟩
  · obtain ⟨r, a, -, -, d⟩ := rd_unit (Real.sigmoid_pos x).le (Real.sigmoid_lt_one x).le
    exact ⟨r, a, d.trans (zpow_mono2 (by norm_num))⟩
  · have ht : 0 < t := by linarith
    have hb := abs_logb_lt_two h1 h2
    refine ⟨round (Real.logb 10 t), ?_, ?_⟩
    · change rd (XR.log10 (fin t)) = _
      have : XR.log10 (fin t) = fin (Real.logb 10 t) := log10_pos ht
      rw [this, rd_fin (hb.le.trans (by norm_num))]
    · have := round_err (x := Real.logb 10 t) (k := 1) (by norm_num) (by simpa using hb)
      exact this.trans (zpow_mono2 (by norm_num))

/-! ## C98: bounded parameters in single precision -/

theorem top5 {lo : ℝ} (h0 : 0 ≤ lo) (h : lo ≤ 5) : round (lo + round (5 - lo)) ≤ 5 := by
  have e := round_err (x := 5 - lo) (k := 3) (by norm_num)
    (by rw [abs_of_nonneg (by linarith)]; norm_num; linarith)
  rw [abs_le] at e
  have t := round_tie (m := 10485760) (e := -21) (by norm_num) (by decide) (by norm_num) (by norm_num)
  have hm : lo + round (5 - lo) ≤ ((10485760 : ℤ) : ℝ) * 2 ^ (-21 : ℤ) + 2 ^ ((-21 : ℤ) - 1) := by
    have := e.2; norm_num at this ⊢; linarith
  have := round_mono hm
  rw [t] at this
  exact this.trans (by norm_num)

theorem top10 {lo : ℝ} (h0 : 0 ≤ lo) (h : lo ≤ 10) : round (lo + round (10 - lo)) ≤ 10 := by
  have e := round_err (x := 10 - lo) (k := 4) (by norm_num)
    (by rw [abs_of_nonneg (by linarith)]; norm_num; linarith)
  rw [abs_le] at e
  have t := round_tie (m := 10485760) (e := -20) (by norm_num) (by decide) (by norm_num) (by norm_num)
  have hm : lo + round (10 - lo) ≤ ((10485760 : ℤ) : ℝ) * 2 ^ (-20 : ℤ) + 2 ^ ((-20 : ℤ) - 1) := by
    have := e.2; norm_num at this ⊢; linarith
  have := round_mono hm
  rw [t] at this
  exact this.trans (by norm_num)

theorem top20 {lo : ℝ} (h0 : 0 ≤ lo) (h : lo ≤ 20) : round (lo + round (20 - lo)) ≤ 20 := by
  have e := round_err (x := 20 - lo) (k := 5) (by norm_num)
    (by rw [abs_of_nonneg (by linarith)]; norm_num; linarith)
  rw [abs_le] at e
  have t := round_tie (m := 10485760) (e := -19) (by norm_num) (by decide) (by norm_num) (by norm_num)
  have hm : lo + round (20 - lo) ≤ ((10485760 : ℤ) : ℝ) * 2 ^ (-19 : ℤ) + 2 ^ ((-19 : ℤ) - 1) := by
    have := e.2; norm_num at this ⊢; linarith
  have := round_mono hm
  rw [t] at this
  exact this.trans (by norm_num)

theorem round_nat (n : ℕ) (h : n ≤ 2 ^ 24) : round n = n := round_rep (rep_nat n h)

theorem tenth_pos : (0.1 : ℝ) < round 0.1 ∧ round 0.1 < 0.11 := by
  rw [round_tenth]; norm_num

theorem twentieth_pos : (0.05 : ℝ) < round 0.05 ∧ round 0.05 < 0.06 := by
  rw [round_twentieth]; norm_num

/-- One bounded parameter: finite and between the rounded bounds, the upper one recomputed as
`lo + (hi - lo)`. -/
theorem bounded_range [Libm] (hs : Libm.Sane) {u : F32} (hu : u.v ≠ nan) {b : ℝ × ℝ}
    (h : b.1 ≤ b.2) (b1 : |b.1| ≤ 2 ^ (6 : ℕ)) (b2 : |b.2| ≤ 2 ^ (6 : ℕ)) :
    ∃ y, get_bounded_diffmah_param u b = num y ∧ Rep y ∧ round b.1 ≤ y ∧
      y ≤ round (round b.1 + round (round b.2 - round b.1)) := by
  have e6 : (2 : ℝ) ^ (6 : ℕ) ≤ 2 ^ (127 : ℕ) := pow_le127 (by norm_num)
  have e60 : (2 : ℝ) ^ (6 : ℕ) ≤ 2 ^ (60 : ℕ) := by norm_num
  have r1 := round_abs_le b1
  have r2 := round_abs_le b2
  have hsum : |round b.1 + round b.2| ≤ 2 ^ (7 : ℕ) := by
    refine (abs_add_le _ _).trans ((add_le_add r1 r2).trans ?_); norm_num
  have hs' := round_abs_le hsum
  have hhalf : |round 0.5 * round (round b.1 + round b.2)| ≤ 2 ^ (127 : ℕ) := by
    have h5 : |round 0.5| ≤ 2 ^ (0 : ℕ) := round_abs_le (by rw [abs_of_pos (by norm_num)]; norm_num)
    rw [abs_mul]
    calc _ ≤ (2 : ℝ) ^ (0 : ℕ) * 2 ^ (7 : ℕ) := mul_le_mul h5 hs' (abs_nonneg _) (by norm_num)
      _ ≤ _ := by norm_num
  unfold get_bounded_diffmah_param
  simp only
  rw [lit_fin (b1.trans e6), lit_fin (b2.trans e6), add_fin (hsum.trans (pow_le127 (by norm_num))),
    lit_fin (a := 0.5) (by rw [abs_of_pos (by norm_num)]; norm_num), mul_fin hhalf,
    lit_fin (a := BOUNDING_K) (by rw [BOUNDING_K, abs_of_pos (by norm_num)]; norm_num)]
  exact sigmoid_range hs hu (by rw [BOUNDING_K]; linarith [tenth_pos.1]) (rep_round _) (round_mono h)
    (r1.trans e60) (r2.trans e60)

/-- C98. In single precision, every unbounded tuple without NaN (huge or infinite values
included) maps to finite parameters inside the closed bounds, with `late <= early`. -/
theorem C98_bounded_params [Libm] (hs : Libm.Sane) (u : MahUParams F32) (h1 : u.u_logm0.v ≠ nan)
    (h2 : u.u_logtc.v ≠ nan) (h3 : u.u_early_index.v ≠ nan) (h4 : u.u_late_index.v ≠ nan)
    (h5 : u.u_t_peak.v ≠ nan) :
    ∃ p : MahParams ℝ, get_bounded_mah_params u = p.map num ∧
      (0 ≤ p.logm0 ∧ p.logm0 ≤ 17) ∧ (-1 ≤ p.logtc ∧ p.logtc ≤ 1) ∧
      (0.1 < p.late_index ∧ p.late_index ≤ 5) ∧
      (p.late_index ≤ p.early_index ∧ p.early_index ≤ 10) ∧ (0.05 < p.t_peak ∧ p.t_peak ≤ 20) := by
  obtain ⟨m, em, -, lm, um⟩ := bounded_range hs h1 (b := MAH_PBOUNDS.logm0)
    (by norm_num [MAH_PBOUNDS]) (by norm_num [MAH_PBOUNDS]) (by norm_num [MAH_PBOUNDS])
  obtain ⟨c, ec, -, lc, uc⟩ := bounded_range hs h2 (b := MAH_PBOUNDS.logtc)
    (by norm_num [MAH_PBOUNDS]) (by norm_num [MAH_PBOUNDS]) (by norm_num [MAH_PBOUNDS])
  obtain ⟨l, el, rl, ll, ul⟩ := bounded_range hs h4 (b := MAH_PBOUNDS.late_index)
    (by norm_num [MAH_PBOUNDS])
    (by simp only [MAH_PBOUNDS]; rw [abs_of_pos (by norm_num)]; norm_num)
    (by simp only [MAH_PBOUNDS]; rw [abs_of_pos (by norm_num)]; norm_num)
  obtain ⟨t, et, -, lt, ut⟩ := bounded_range hs h5 (b := MAH_PBOUNDS.t_peak)
    (by norm_num [MAH_PBOUNDS])
    (by simp only [MAH_PBOUNDS]; rw [abs_of_pos (by norm_num)]; norm_num)
    (by simp only [MAH_PBOUNDS]; rw [abs_of_pos (by norm_num)]; norm_num)
  have z0 : round (0.0 : ℝ) = 0 := by norm_num; exact round_zero
  have n17 : round (17.0 : ℝ) = 17 := by have := round_nat 17 (by norm_num); norm_num at this ⊢; exact this
  have n1 : round (1.0 : ℝ) = 1 := by have := round_nat 1 (by norm_num); norm_num at this ⊢; exact this
  have m1 : round (-1.0 : ℝ) = -1 := by rw [show (-1.0 : ℝ) = -(1.0) by norm_num, round_neg, n1]
  have n2 : round (2 : ℝ) = 2 := by have := round_nat 2 (by norm_num); norm_num at this ⊢; exact this
  have n5 : round (5.0 : ℝ) = 5 := by have := round_nat 5 (by norm_num); norm_num at this ⊢; exact this
  have n10 : round (10.0 : ℝ) = 10 := by have := round_nat 10 (by norm_num); norm_num at this ⊢; exact this
  have n20 : round (20.0 : ℝ) = 20 := by have := round_nat 20 (by norm_num); norm_num at this ⊢; exact this
  simp only [MAH_PBOUNDS, z0, n17, n1, m1, n5, n20] at lm um lc uc ll ul lt ut
  rw [sub_zero, zero_add] at um
  have n17' : round (17 : ℝ) = 17 := by norm_num at n17; exact n17
  have n1' : round (1 : ℝ) = 1 := by norm_num at n1; exact n1
  rw [n17', n17'] at um
  rw [show (1 : ℝ) - -1 = 2 by norm_num, n2, show (-1 : ℝ) + 2 = 1 by norm_num, n1'] at uc
  have hl5 : l ≤ 5 := ul.trans (top5 (by linarith [tenth_pos.1]) (by linarith [tenth_pos.2]))
  have ht20 : t ≤ 20 := ut.trans (top20 (by linarith [twentieth_pos.1]) (by linarith [twentieth_pos.2]))
  have hl0 : 0.1 < l := tenth_pos.1.trans_le ll
  obtain ⟨e, ee, -, le', ue⟩ := sigmoid_range hs h3 (x0 := round 0.0) (k := round BOUNDING_K)
    (lo := l) (hi := 10) (by rw [BOUNDING_K]; linarith [tenth_pos.1]) rl (by linarith)
    (by rw [abs_of_pos (by linarith)]; exact hl5.trans (by norm_num)) (by norm_num)
  refine ⟨⟨m, c, e, l, t⟩, ?_, ⟨lm, um⟩, ⟨lc, uc⟩, ⟨hl0, hl5⟩,
    ⟨le', ue.trans (top10 (by linarith) (by linarith))⟩, ⟨twentieth_pos.1.trans_le lt, ht20⟩⟩
  have eE : (get_early_late u.u_early_index u.u_late_index) = (num e, num l) := by
    unfold get_early_late
    simp only
    rw [el, lit_fin (a := 0.0) (by norm_num),
      lit_fin (a := BOUNDING_K) (by rw [BOUNDING_K, abs_of_pos (by norm_num)]; norm_num),
      lit_fin (a := MAH_PBOUNDS.early_index.2) (by norm_num [MAH_PBOUNDS])]
    have : round MAH_PBOUNDS.early_index.2 = 10 := n10
    rw [this]
    exact congrArg (fun z => (z, num l)) ee
  unfold get_bounded_mah_params
  simp only
  rw [em, ec, et, eE]
  rfl

/-- C98. On a platform whose logistic function saturates (`sg x = 1` from 20 on) the strict bounds
and the round trip of exact arithmetic are lost: `u_logm0 = 300` maps to 17, which maps back to
`+inf`. -/
theorem C98_saturates [Libm] (hsat : ∀ x, 20 ≤ x → Libm.sg (fin x) = fin 1)
    (hln : Libm.ln (fin 0) = ninf) :
    get_bounded_diffmah_param (num 300) MAH_PBOUNDS.logm0 = num 17 ∧
    get_unbounded_diffmah_param (num 17) MAH_PBOUNDS.logm0 = ⟨pinf⟩ := by
  have z0 : (lit (0.0 : ℝ) : F32) = num 0 := by
    rw [lit_fin (by norm_num), show (0.0 : ℝ) = 0 by norm_num, round_zero]; rfl
  have n17 : round (17 : ℝ) = 17 := by exact_mod_cast round_nat 17 (by norm_num)
  have n1 : round (1 : ℝ) = 1 := by exact_mod_cast round_nat 1 (by norm_num)
  have l17 : (lit (17.0 : ℝ) : F32) = num 17 := by
    rw [lit_fin (by norm_num), show (17.0 : ℝ) = 17 by norm_num, n17]; rfl
  have l1 : (lit (1 : ℝ) : F32) = num 1 := by rw [lit_fin (by norm_num), n1]; rfl
  have r5 : Rep (0.5 : ℝ) := ⟨1, -1, by norm_num, by norm_num, by norm_num⟩
  have r85 : Rep (8.5 : ℝ) := ⟨17, -1, by norm_num, by norm_num, by norm_num⟩
  have r2915 : Rep (291.5 : ℝ) := ⟨583, -1, by norm_num, by norm_num, by norm_num⟩
  have r16 : Rep (20 : ℝ) := by exact_mod_cast rep_nat 20 (by norm_num)
  have mid : (lit 0.5 : F32) * (num 0 + num 17) = num 8.5 := by
    have : num 0 + num 17 = num 17 := by
      unfold num; rw [add_fin (by norm_num), zero_add, n17]
    rw [this, lit_fin (by norm_num), round_rep r5]
    unfold num
    rw [mul_fin (by norm_num), show (0.5 : ℝ) * 17 = 8.5 by norm_num, round_rep r85]
  have hk : (lit BOUNDING_K : F32) = num (round 0.1) := by
    rw [lit_fin (by rw [BOUNDING_K, abs_of_pos (by norm_num)]; norm_num)]; rfl
  have s17 : num 17 - num 0 = num 17 := by
    unfold num; rw [sub_fin (by norm_num), sub_zero, n17]
  constructor
  · have e1 : num 300 - num 8.5 = num 291.5 := by
      unfold num; rw [sub_fin (by norm_num), show (300 : ℝ) - 8.5 = 291.5 by norm_num, round_rep r2915]
    have hb : 20 ≤ round 0.1 * 291.5 := by have := tenth_pos.1; nlinarith
    have hb2 : |round 0.1 * 291.5| ≤ 2 ^ (127 : ℕ) := by
      rw [abs_of_pos (by linarith)]
      have := tenth_pos.2
      have : round 0.1 * 291.5 ≤ 0.11 * 291.5 := by nlinarith
      exact this.trans (by norm_num)
    have e2 : (sigm (num (round 0.1) * num 291.5) : F32) = num 1 := by
      unfold num; rw [mul_fin hb2]
      exact congrArg F32.mk (hsat _ (le_round hb r16))
    simp only [get_bounded_diffmah_param, MAH_PBOUNDS, sigmoid]
    rw [z0, l17, mid, hk, e1, e2, s17]
    have e3 : num 17 * num 1 = num 17 := by
      unfold num; rw [mul_fin (by norm_num), mul_one, n17]
    rw [e3]
    unfold num; rw [add_fin (by norm_num), zero_add, n17]
  · simp only [get_unbounded_diffmah_param, MAH_PBOUNDS, inverse_sigmoid]
    rw [z0, l17, mid, hk, s17, l1]
    have e1 : num 17 / num 17 = num 1 := by
      change (⟨rd (fin 17 / fin 17)⟩ : F32) = _
      have : (fin 17 / fin 17 : XR) = fin (17 / 17) := fin_div (by norm_num)
      rw [this, div_self (by norm_num), rd_fin (by norm_num), n1]; rfl
    have e2 : num 1 - num 1 = num 0 := by
      unfold num; rw [sub_fin (by norm_num), sub_self, round_zero]
    have e3 : (ln (num 0) : F32) = ⟨ninf⟩ := congrArg F32.mk hln
    rw [e1, e2, e3]
    have e4 : (⟨ninf⟩ : F32) / num (round 0.1) = ⟨ninf⟩ := by
      change (⟨rd (if round 0.1 < 0 then pinf else ninf)⟩ : F32) = _
      rw [if_neg (by linarith [tenth_pos.1])]; rfl
    rw [e4]
    rfl

/-- The correctly rounded platform saturates. -/
theorem ideal_saturates (x : ℝ) (hx : 20 ≤ x) : @Libm.sg ideal (fin x) = fin 1 := by
  have h1 := Real.sigmoid_lt_one x
  have h0 := Real.sigmoid_pos x
  have he : Real.exp (-x) < 2 ^ (-26 : ℤ) := by
    have hx' : Real.exp (-x) ≤ Real.exp (-20) := Real.exp_le_exp.2 (by linarith)
    have e20 : Real.exp (-20) = (Real.exp 1 ^ 20)⁻¹ := by
      rw [← Real.exp_nat_mul, Real.exp_neg]; norm_num
    have : (2.7 : ℝ) ^ 20 < Real.exp 1 ^ 20 :=
      pow_lt_pow_left₀ (by have := Real.exp_one_gt_d9; linarith) (by norm_num) (by norm_num)
    have h3 : (Real.exp 1 ^ 20)⁻¹ < ((2.7 : ℝ) ^ 20)⁻¹ := inv_strictAnti₀ (by norm_num) this
    calc _ ≤ _ := hx'
      _ = _ := e20
      _ < _ := h3
      _ ≤ _ := by norm_num
  have h2 : 1 - 2 ^ (-26 : ℤ) < Real.sigmoid x := by
    rw [Real.sigmoid_def]
    have hpos := Real.exp_pos (-x)
    have : 1 - Real.exp (-x) ≤ (1 + Real.exp (-x))⁻¹ := by
      rw [le_inv_comm₀ (by
        have : (2 : ℝ) ^ (-26 : ℤ) < 1 := by norm_num
        linarith) (by linarith), le_inv_comm₀ (by linarith) (by
        have : (2 : ℝ) ^ (-26 : ℤ) < 1 := by norm_num
        linarith)]
      rw [← one_div, le_div_iff₀ (by linarith)]; nlinarith
    exact lt_of_lt_of_le (sub_lt_sub_left he 1) this
  change rd (fin (Real.sigmoid x)) = _
  rw [rd_fin (by rw [abs_of_pos h0]; exact h1.le.trans (by norm_num))]
  congr 1
  have := round_eq (x := Real.sigmoid x) (m := 2 ^ 24) (e := -24) (by norm_num)
    (by rw [abs_of_pos h0]; refine le_trans ?_ h2.le; norm_num)
    (by rw [abs_of_pos h0]; norm_num; exact h1)
    (by
      rw [abs_lt]
      constructor
      · rw [show Real.sigmoid x / 2 ^ (-24 : ℤ) = Real.sigmoid x * 2 ^ 24 by
          rw [zpow_neg, div_inv_eq_mul]; norm_cast]
        norm_num; linarith
      · rw [show Real.sigmoid x / 2 ^ (-24 : ℤ) = Real.sigmoid x * 2 ^ 24 by
          rw [zpow_neg, div_inv_eq_mul]; norm_cast]
        norm_num at h2 ⊢; linarith)
  rw [this]; norm_num

/-- The hypotheses of C98 are met by the correctly rounded platform. -/
example : ∃ L : Libm, @Libm.Sane L ∧ @Libm.Accurate L ∧
    (∀ x, 20 ≤ x → @Libm.sg L (fin x) = fin 1) ∧ @Libm.ln L (fin 0) = ninf := by
  refine ⟨ideal, ideal_sane, ideal_accurate, ideal_saturates, ?_⟩
  change rd (XR.ln (fin 0)) = _
  have : XR.ln (fin 0) = ninf := ln_zero
  rw [this]; rfl

/-! ## C99: what is exact in single precision -/

theorem lt_irrefl' (x : XR) : ¬ XR.lt x x := by
  cases x with
  | fin a => exact lt_irrefl a
  | nan => exact id
  | pinf => exact id
  | ninf => exact id

/-- C99. In single precision too, the mass is exactly frozen from `t_peak` on: all times not below
`t_peak` get bit for bit the mass of `t_peak`. A NaN time is one of them. -/
theorem C99_frozen_after_peak [Libm] (p : MahParams F32) (t lgt0 : F32) (h : ¬ XR.lt t.v p.t_peak.v) :
    logmh_at_t_obs p t lgt0 = logmh_at_t_obs p p.t_peak lgt0 := by
  unfold logmh_at_t_obs log_mah_kern
  simp only
  unfold jwhere
  rw [if_neg (c := JOps.lt t p.t_peak) h,
    if_neg (c := JOps.lt p.t_peak p.t_peak) (lt_irrefl' _)]

/-- C99. Before it, `t_peak` has no influence at all. -/
theorem C99_independent_before_peak [Libm] (p : MahParams F32) (tp t lgt0 : F32)
    (h1 : XR.lt t.v p.t_peak.v) (h2 : XR.lt t.v tp.v) :
    logmh_at_t_obs { p with t_peak := tp } t lgt0 = logmh_at_t_obs p t lgt0 := by
  unfold logmh_at_t_obs log_mah_kern
  simp only
  unfold jwhere
  rw [if_pos (c := JOps.lt t tp) h2, if_pos (c := JOps.lt t p.t_peak) h1]
  rfl

/-- C99. If `lgt0` is what the platform computes for `log10(t0)`, the mass at `t0` is exactly
`logm0` for every halo still growing at `t0`: no rounding error at the present day. -/
theorem C99_mass_today [Libm] (hs : Libm.Sane) (p : MahParams ℝ) (t0 lgt0 : ℝ)
    (hlog : Libm.log10 (fin t0) = fin lgt0) (hpeak : t0 ≤ p.t_peak) (hm : Rep p.logm0)
    (hm' : |p.logm0| ≤ 2 ^ (60 : ℕ)) (he : |p.early_index| ≤ 2 ^ (60 : ℕ))
    (hl : |p.late_index| ≤ 2 ^ (60 : ℕ)) :
    logmh_at_t_obs (p.map num) (num t0) (num lgt0) = num p.logm0 := by
  have hnoq : log_mah_noq_kern (p.map num) (num t0) (num lgt0) = num p.logm0 := by
    have q0 : (log10 (num t0) : F32) = num lgt0 := congrArg F32.mk hlog
    have q1 : num lgt0 - num lgt0 = num 0 := by
      unfold num; rw [sub_fin (by rw [sub_self, abs_zero]; norm_num), sub_self, round_zero]
    have r35 : round MAH_K = 3.5 := by
      have : Rep (3.5 : ℝ) := ⟨7, -1, by norm_num, by norm_num, by norm_num⟩
      exact round_rep this
    have q2 : (lit MAH_K : F32) = num 3.5 := by
      rw [lit_fin (by rw [MAH_K, abs_of_pos (by norm_num)]; norm_num), r35]; rfl
    obtain ⟨i, hi⟩ := sigmoid_finite hs (x := num lgt0) (x0 := p.logtc) (k := 3.5)
      (by exact fun h => by cases h) (by norm_num) he hl
    have hi' : power_law_index_vs_logt (num lgt0) (num p.logtc) (num p.early_index)
        (num p.late_index) = num i := by
      unfold power_law_index_vs_logt; rw [q2]; exact hi
    have q3 : num i * num 0 = num 0 := by
      unfold num; rw [mul_fin (by rw [mul_zero, abs_zero]; norm_num), mul_zero, round_zero]
    have q4 : num 0 + num p.logm0 = num p.logm0 := by
      unfold num
      rw [add_fin (by rw [zero_add]; exact hm'.trans (pow_le127 (by norm_num))), zero_add,
        round_rep hm]
    unfold log_mah_noq_kern rolling_plaw_vs_t rolling_plaw_vs_logt
    simp only [MahParams.map]
    rw [q0, hi', q1, q3, q4]
  unfold logmh_at_t_obs log_mah_kern
  simp only
  unfold jwhere
  by_cases h : t0 < p.t_peak
  · rw [if_pos (c := JOps.lt (num t0) (p.map num).t_peak) h]; exact hnoq
  · have e : t0 = p.t_peak := le_antisymm hpeak (not_lt.1 h)
    rw [if_neg (c := JOps.lt (num t0) (p.map num).t_peak) h]
    change log_mah_noq_kern (p.map num) (num p.t_peak) (num lgt0) = _
    rw [← e]; exact hnoq

/-- A halo, a present time and a platform meeting the hypotheses of `C99_mass_today`. -/
example : ∃ (L : Libm) (p : MahParams ℝ) (t0 lgt0 : ℝ), @Libm.Sane L ∧
    @Libm.log10 L (fin t0) = fin lgt0 ∧ t0 ≤ p.t_peak ∧ Rep p.logm0 ∧
    |p.logm0| ≤ 2 ^ (60 : ℕ) ∧ |p.early_index| ≤ 2 ^ (60 : ℕ) ∧ |p.late_index| ≤ 2 ^ (60 : ℕ) := by
  obtain ⟨l, hl, -⟩ := @Libm.Accurate.log10_acc ideal ideal_accurate 13.75 (by norm_num) (by norm_num)
  exact ⟨ideal, ⟨12, 0.05, 2.5, 0.125, 14⟩, 13.75, l, ideal_sane, hl, by norm_num,
    by exact_mod_cast rep_nat 12 (by norm_num), by norm_num, by norm_num,
    by rw [abs_of_pos (by norm_num)]; norm_num⟩

/-! ## C100: accuracy of the mass history in single precision -/

theorem closedBox {p : MahParams ℝ} (hp : Spec.InBox p) : ClosedBox p :=
  ⟨hp.logm0_lo.le, hp.logm0_hi.le, hp.logtc_lo.le, hp.logtc_hi.le, hp.late_lo.le, hp.late_hi.le, hp.early_lo.le,
    hp.early_hi.le, hp.tpeak_lo.le, hp.tpeak_hi.le⟩

/-- C100. On a platform whose logistic and logarithm are accurate to `2^-22`, the single-precision
log mass of any halo in the parameter box, at any time between 0.05 and 20 Gyr, is within
`2^-15` (3.1e-5 dex) of the exact one. -/
theorem C100_log_mass_accurate [Libm] (ha : Libm.Accurate) (p : MahParams ℝ) (hp : Spec.InBox p)
    (t lgt0 : ℝ) (ht0 : 0.05 ≤ t) (ht1 : t ≤ 20) (hg0 : 0 ≤ lgt0) (hg1 : lgt0 ≤ 4 / 3) :
    ∃ y, logmh_at_t_obs (p.map num) (num t) (num lgt0) = num y ∧
      |y - logmh_at_t_obs p t lgt0| ≤ 2 ^ (-15 : ℤ) := by
  exact kern_near ha (closedBox hp) ht0 ht1 hg0 hg1

/-- C100. Hence a single-precision history of a valid halo never decreases by more than `2^-14`. -/
theorem C100_never_decreases_much [Libm] (ha : Libm.Accurate) (p : MahParams ℝ) (hp : Spec.InBox p)
    (hle : p.late_index ≤ p.early_index) (t1 t2 lgt0 : ℝ) (h1 : 0.05 ≤ t1) (h12 : t1 ≤ t2)
    (h2 : t2 ≤ 20) (hg0 : (9 : ℝ) ≤ 10 ^ lgt0) (hg1 : lgt0 ≤ 4 / 3) :
    ∃ y1 y2, logmh_at_t_obs (p.map num) (num t1) (num lgt0) = num y1 ∧
      logmh_at_t_obs (p.map num) (num t2) (num lgt0) = num y2 ∧ y1 - 2 ^ (-14 : ℤ) ≤ y2 := by
  have hg : 0 ≤ lgt0 := by
    by_contra hc
    have : (10 : ℝ) ^ lgt0 ≤ 10 ^ (0 : ℝ) :=
      Real.rpow_le_rpow_of_exponent_le (by norm_num) (by linarith)
    rw [Real.rpow_zero] at this; linarith
  obtain ⟨y1, e1, a1⟩ := C100_log_mass_accurate ha p hp t1 lgt0 h1 (by linarith) hg hg1
  obtain ⟨y2, e2, a2⟩ := C100_log_mass_accurate ha p hp t2 lgt0 (by linarith) h2 hg hg1
  refine ⟨y1, y2, e1, e2, ?_⟩
  have hm := C03_never_decreases p hp hle lgt0 hg0 (a := t1) (b := t2)
    (Set.mem_Ioi.2 (by linarith)) (Set.mem_Ioi.2 (by linarith)) h12
  simp only at hm
  have e : (2 : ℝ) ^ (-14 : ℤ) = 2 ^ (-15 : ℤ) + 2 ^ (-15 : ℤ) := by norm_num
  rw [e]
  rw [abs_le] at a1 a2
  linarith [a1.2, a2.1]

/-- The default halo today, on the correctly rounded platform, meets the hypotheses of C100. -/
example : ∃ (L : Libm) (p : MahParams ℝ) (t1 t2 lgt0 : ℝ), @Libm.Accurate L ∧ Spec.InBox p ∧
    p.late_index ≤ p.early_index ∧ 0.05 ≤ t1 ∧ t1 ≤ t2 ∧ t2 ≤ 20 ∧ (9 : ℝ) ≤ 10 ^ lgt0 ∧
    lgt0 ≤ 4 / 3 :=
  ⟨ideal, DEFAULT_MAH_PARAMS, 1, 13, 1, ideal_accurate, default_valid.toInBox,
    default_valid.late_lt_early.le, by norm_num, by norm_num, by norm_num, by norm_num, by norm_num⟩

end Diffmah.F32

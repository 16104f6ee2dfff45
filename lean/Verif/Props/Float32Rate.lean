import Verif.Lemmas.Float32Rate
import Verif.Props.Float32

/-!
# The accretion rate in single precision (C122)

`mah_singlehalo_rev` is `mah_singlehalo` with the two passes of reverse-mode differentiation written out. Over
the reals it is the function of the other theorems (`C122_same_function`); over binary32 numbers it says which
roundings happen, and in which order.
-/

namespace Diffmah.F32

open JOps XR

section

/-- C122. Without roundings, the written-out backward pass computes what `mah_singlehalo` computes. -/
theorem C122_same_function (p : MahParams ℝ) (tarr : List ℝ) (lgt0 : ℝ) (ht : ∀ t ∈ tarr, 0 < t) :
    mah_singlehalo_rev p tarr lgt0 = mah_singlehalo p tarr lgt0 := by
  have key : ∀ t : ℝ, 0 < t → dmhdt_kern_scalar_rev p t lgt0 = dmhdt_kern_scalar p t lgt0 := by
    intro t ht
    have hl : Real.log 10 ≠ 0 := (Real.log_pos (by norm_num)).ne'
    have e : dmhdt_noq_grad_rev p t lgt0 = 1e9 * dmhdt_noq_kern_scalar p t lgt0 := by
      rw [dmhdt_noq_formula p ht.ne' lgt0, noq_real, plaw_real]
      simp only [dmhdt_noq_grad_rev, JOps.lit, JOps.sigm, JOps.ln, JOps.log10, JOps.pow10, MAH_K]
      field_simp
      ring
    unfold dmhdt_kern_scalar_rev dmhdt_kern_scalar
    rw [e]
    congr 1
    exact mul_div_cancel_left₀ _ (by norm_num)
  refine Prod.ext (List.ext_getElem? fun j => ?_) rfl
  rw [singlehalo_rate_getElem?]
  simp only [mah_singlehalo_rev, List.getElem?_map]
  cases hj : tarr[j]? with
  | none => rfl
  | some t => exact congrArg some (key t (ht t (List.mem_of_getElem? hj)))

/-- C122. After `t_peak` the rate is exactly 0, on every platform and for every halo. -/
theorem C122_zero_after_peak [Libm] (p : MahParams F32) (tarr : List F32) (lgt0 : F32) (j : ℕ) (t : F32)
    (hj : tarr[j]? = some t) (h : XR.lt p.t_peak.v t.v) :
    (mah_singlehalo_rev p tarr lgt0).1[j]? = some (num 0) := by
  have e : dmhdt_kern_scalar_rev p t lgt0 = lit 0.0 := if_pos h
  have z : (lit 0.0 : F32) = num 0 := by
    rw [show (0.0 : ℝ) = 0 by norm_num, lit_fin (by rw [abs_zero]; norm_num), round_zero]; rfl
  simp only [mah_singlehalo_rev, List.getElem?_map, hj, Option.map_some, e, z]

theorem slope_eq (e l s D : ℝ) :
    e - (e - l) * (s * (1 + (1 - s) * (3.5 * D))) = l + (e - l) * ((1 - s) * (1 - 3.5 * s * D)) := by ring

/-- The log slope before today is at least the late index. -/
theorem slope_before {e l s D : ℝ} (hle : l ≤ e) (h0 : 0 ≤ s) (h1 : s ≤ 1) (hD : D ≤ 0) :
    l ≤ e - (e - l) * (s * (1 + (1 - s) * (3.5 * D))) := by
  rw [slope_eq]
  have : 0 ≤ 1 - 3.5 * s * D := by nlinarith [mul_nonneg h0 (neg_nonneg.2 hD)]
  have := mul_nonneg (sub_nonneg.2 hle) (mul_nonneg (sub_nonneg.2 h1) this)
  linarith

/-- The log slope in the future, up to 20 Gyr. -/
theorem slope_after {e l s D : ℝ} (hle : l ≤ e) (h0 : 0 ≤ s) (h1 : s ≤ 1) (hD : D ≤ 17 / 49) (hl : 0.1 ≤ l)
    (he : e ≤ 10) : 0.0064 ≤ e - (e - l) * (s * (1 + (1 - s) * (3.5 * D))) := by
  rw [slope_eq]
  have h2 : (1 - s) * (1 - 17 / 14 * s) ≤ (1 - s) * (1 - 3.5 * s * D) := by
    apply mul_le_mul_of_nonneg_left _ (by linarith)
    nlinarith
  have h3 : -(9 / 952) ≤ (1 - s) * (1 - 17 / 14 * s) := by nlinarith [sq_nonneg (s - 31 / 34)]
  have h4 := mul_le_mul_of_nonneg_left (h3.trans h2) (sub_nonneg.2 hle)
  linarith

theorem twenty_le' {lgt0 t : ℝ} (h : (9 : ℝ) ≤ 10 ^ lgt0) (ht0 : 0 < t) (ht : t ≤ 20) :
    Real.logb 10 t - lgt0 ≤ 17 / 49 := by
  have h1 : (20 / 9 : ℝ) ≤ 10 ^ ((17 : ℝ) / 49) := by
    rw [show ((10 : ℝ) ^ ((17 : ℝ) / 49)) = ((10 : ℝ) ^ (17 : ℕ)) ^ ((49 : ℝ)⁻¹) by
      rw [← Real.rpow_natCast, ← Real.rpow_mul (by norm_num)]; norm_num]
    rw [Real.le_rpow_inv_iff_of_pos (by norm_num) (by norm_num) (by norm_num)]
    norm_num
  have h2 : (20 : ℝ) ≤ 10 ^ (lgt0 + 17 / 49) := by
    rw [Real.rpow_add (by norm_num)]; nlinarith
  have := (Real.logb_le_iff_le_rpow (b := 10) (by norm_num) ht0).2 (ht.trans h2)
  linarith

theorem lgt0_pos {lgt0 : ℝ} (h : (9 : ℝ) ≤ 10 ^ lgt0) : 0 ≤ lgt0 := by
  by_contra hc
  have : (10 : ℝ) ^ lgt0 ≤ 10 ^ (0 : ℝ) :=
    Real.rpow_le_rpow_of_exponent_le (by norm_num) (by linarith)
  rw [Real.rpow_zero] at this; linarith

theorem rate_before_peak [Libm] (ha : Libm.AccurateRate) (p : MahParams ℝ) (hp : ClosedBox p)
    (hle : p.late_index ≤ p.early_index) (lgt0 : ℝ) (hg0 : (9 : ℝ) ≤ 10 ^ lgt0) (hg1 : lgt0 ≤ 4 / 3) (t : ℝ)
    (ht0 : 0.05 ≤ t) (ht1 : t ≤ 20) :
    ∃ y, dmhdt_noq_grad_rev (p.map num) (num t) (num lgt0) / lit 1e9 = num y ∧ 0 ≤ y ∧
      |y - dmhdt_noq_kern_scalar p t lgt0| ≤ dmhdt_noq_kern_scalar p t lgt0 / 100 + 2 ^ (-149 : ℤ) ∧
      (t ≤ 10 ^ lgt0 →
        |y - dmhdt_noq_kern_scalar p t lgt0| ≤ dmhdt_noq_kern_scalar p t lgt0 / 400 + 2 ^ (-149 : ℤ)) := by
  have hc : |p.logtc| ≤ 1 := abs_le.2 ⟨hp.logtc_lo, hp.logtc_hi⟩
  have hg := lgt0_pos hg0
  have ht : 0 < t := by linarith
  have hL := abs_le.1 (abs_logb_le ht0 ht1)
  have hup := twenty_le' hg0 ht ht1
  have hl := hp.late_lo
  have he := hp.early_hi
  have h0 := Real.sigmoid_pos (3.5 * (Real.logb 10 t - p.logtc))
  have h1 := Real.sigmoid_lt_one (3.5 * (Real.logb 10 t - p.logtc))
  have he22 : eps ≤ 0.0000002385 := by unfold eps; norm_num
  have e0 := eps_pos
  have hnn : 0 ≤ dmhdt_noq_kern_scalar p t lgt0 := by
    have hf := dmhdt_noq_formula p ht.ne' lgt0
    have hs := slope_after (s := Real.sigmoid (3.5 * (Real.logb 10 t - p.logtc))) hle h0.le h1.le hup hl he
    have hm : 0 < (10 : ℝ) ^ log_mah_noq_kern p t lgt0 / t := by positivity
    have : 0 ≤ 1e9 * dmhdt_noq_kern_scalar p t lgt0 := by
      rw [hf]; exact (mul_pos hm (lt_of_lt_of_le (by norm_num) hs)).le
    norm_num at this
    exact this
  rcases le_total (Real.logb 10 t) lgt0 with hD | hD
  · have hs := slope_before (s := Real.sigmoid (3.5 * (Real.logb 10 t - p.logtc))) hle h0.le h1.le
      (sub_nonpos.2 hD)
    obtain ⟨y, y1, y2, y3⟩ := rate_near ha p (Dm := 8 / 3) (ρ := 0.002) hp.logm0_lo hp.logm0_hi hc
      (by have := hp.early_lo; linarith) he (by linarith) (by have := hp.late_hi; linarith) ht0 ht1 hg hg1
      (abs_le.2 ⟨by linarith, by linarith⟩) le_rfl (by linarith) (by norm_num) (by linarith)
      (le_trans (by norm_num at he22 ⊢; linarith) (mul_le_mul_of_nonneg_left (hl.trans hs) (by norm_num)))
    exact ⟨y, y1, y2, y3.trans (by linarith), fun _ => y3.trans (by linarith)⟩
  · have hs := slope_after (s := Real.sigmoid (3.5 * (Real.logb 10 t - p.logtc))) hle h0.le h1.le
      hup hl he
    rcases hD.eq_or_lt with hD | hD
    · have hs := slope_before (s := Real.sigmoid (3.5 * (Real.logb 10 t - p.logtc))) hle h0.le h1.le
        (sub_nonpos.2 hD.ge)
      obtain ⟨y, y1, y2, y3⟩ := rate_near ha p (Dm := 8 / 3) (ρ := 0.002) hp.logm0_lo hp.logm0_hi hc
        (by have := hp.early_lo; linarith) he (by linarith) (by have := hp.late_hi; linarith) ht0 ht1 hg hg1
        (abs_le.2 ⟨by linarith, by linarith⟩) le_rfl (by linarith) (by norm_num) (by linarith)
        (le_trans (by norm_num at he22 ⊢; linarith) (mul_le_mul_of_nonneg_left (hl.trans hs) (by norm_num)))
      exact ⟨y, y1, y2, y3.trans (by linarith), fun _ => y3.trans (by linarith)⟩
    · obtain ⟨y, y1, y2, y3⟩ := rate_near ha p (Dm := 17 / 49) (ρ := 0.0073) hp.logm0_lo hp.logm0_hi hc
        (by have := hp.early_lo; linarith) he (by linarith) (by have := hp.late_hi; linarith) ht0 ht1 hg hg1
        (abs_le.2 ⟨by linarith, by linarith⟩) (by norm_num) (by linarith) (by norm_num) (by linarith)
        (le_trans (by norm_num at he22 ⊢; linarith) (mul_le_mul_of_nonneg_left hs (by norm_num)))
      refine ⟨y, y1, y2, y3.trans (by linarith), fun h => ?_⟩
      have := (Real.logb_le_iff_le_rpow (b := 10) (by norm_num) ht).2 h
      linarith

/-- C122. In single precision the accretion rates of every valid halo, at all times from 0.05 to 20 Gyr, are
finite, never negative, and within 1% of the exact ones (0.25% up to the present day), `2^-149` being the
smallest positive single-precision number. -/
theorem C122_rate_accurate [Libm] (ha : Libm.AccurateRate) (p : MahParams ℝ) (hp : Spec.InBox p)
    (hle : p.late_index ≤ p.early_index) (lgt0 : ℝ) (hg0 : (9 : ℝ) ≤ 10 ^ lgt0) (hg1 : lgt0 ≤ 4 / 3)
    (tarr : List ℝ) (j : ℕ) (t : ℝ) (hj : tarr[j]? = some t) (ht0 : 0.05 ≤ t) (ht1 : t ≤ 20) :
    ∃ r y : ℝ, (mah_singlehalo p tarr lgt0).1[j]? = some r ∧
      (mah_singlehalo_rev (p.map num) (tarr.map num) (num lgt0)).1[j]? = some (num y) ∧ 0 ≤ y ∧
      |y - r| ≤ r / 100 + 2 ^ (-149 : ℤ) ∧ (t ≤ 10 ^ lgt0 → |y - r| ≤ r / 400 + 2 ^ (-149 : ℤ)) := by
  rw [singlehalo_rate_getElem?, hj]
  rcases lt_or_ge p.t_peak t with h | h
  · refine ⟨0, 0, congrArg some (C06_rate_zero_after_peak p t lgt0 h), ?_, le_rfl, ?_, fun _ => ?_⟩
    · exact C122_zero_after_peak (p.map num) _ _ j (num t) (by simp [hj]) h
    · have := two_zpow_pos (-149); simp
    · have := two_zpow_pos (-149); simp
  · obtain ⟨y, y1, y2, y3, y4⟩ := rate_before_peak ha p (closedBox hp) hle lgt0 hg0 hg1 t ht0 ht1
    refine ⟨_, y, congrArg some (if_neg (not_lt.2 h)), ?_, y2, y3, y4⟩
    simp only [mah_singlehalo_rev, List.getElem?_map, hj, Option.map_some, Option.some.injEq]
    exact (if_neg (not_lt.2 h)).trans y1

theorem ideal_accurateRate : @Libm.AccurateRate ideal := by
  let _ := ideal
  refine ⟨ideal_accurate, fun x h1 h2 => ?_, ?_⟩
  · have hlo : (10 : ℝ) ^ (-30 : ℤ) ≤ 10 ^ x := by
      rw [← Real.rpow_intCast]
      exact Real.rpow_le_rpow_of_exponent_le (by norm_num) (by push_cast; linarith)
    have hup : (10 : ℝ) ^ x ≤ 10 ^ (22 : ℕ) := by
      rw [← Real.rpow_natCast]
      exact Real.rpow_le_rpow_of_exponent_le (by norm_num) (by push_cast; linarith)
    have h0 : (0 : ℝ) < 10 ^ x := by positivity
    refine ⟨round ((10 : ℝ) ^ x), ?_, ?_⟩
    · change rd (fin ((10 : ℝ) ^ x)) = _
      exact rd_fin (by rw [abs_of_pos h0]; exact hup.trans (by norm_num))
    · have := Rel.round (ρ := 0) (x := (10 : ℝ) ^ x) (X := (10 : ℝ) ^ x) (le_trans (by norm_num) hlo)
        (by norm_num) (by unfold Rel; simp)
      exact this.mono h0.le (by norm_num)
  · have hl := log10_bounds
    refine ⟨round (Real.log 10), ?_, ?_⟩
    · change rd (XR.ln (fin 10)) = _
      have : XR.ln (fin 10) = fin (Real.log 10) := ln_pos (by norm_num)
      rw [this]
      exact rd_fin (by rw [abs_of_pos (by linarith)]; exact hl.2.le.trans (by norm_num))
    · have := round_err (x := Real.log 10) (k := 2) (by norm_num)
        (by rw [abs_of_pos (by linarith)]; norm_num; linarith)
      exact this.trans (zpow_mono2 (by norm_num))

/-- The default halo at 1 and 13 Gyr, before its peak, and at 19 Gyr, after it, on the correctly rounded
platform. -/
example : ∃ (L : Libm) (p : MahParams ℝ) (lgt0 : ℝ) (tarr : List ℝ), @Libm.AccurateRate L ∧ Spec.InBox p ∧
    p.late_index ≤ p.early_index ∧ (9 : ℝ) ≤ 10 ^ lgt0 ∧ lgt0 ≤ 4 / 3 ∧ tarr[0]? = some 1 ∧ tarr[1]? = some 13 ∧
    tarr[2]? = some 19 ∧ XR.lt (num p.t_peak).v (num 19).v :=
  ⟨ideal, DEFAULT_MAH_PARAMS, 1, [1, 13, 19], ideal_accurateRate, default_valid.toInBox,
    default_valid.late_lt_early.le, by norm_num, by norm_num, rfl, rfl, rfl, by
      change DEFAULT_MAH_PARAMS.t_peak < 19
      simp only [DEFAULT_MAH_PARAMS]; norm_num⟩

end

end Diffmah.F32

import Verif.Spec
import Verif.Lemmas.Dual
import Mathlib.Analysis.Calculus.Deriv.MeanValue
import Mathlib.MeasureTheory.Integral.IntervalIntegral.FundThmCalculus

/-! Real analysis of the single-halo kernels. -/

namespace Diffmah

open JOps Set

/-! ### The bounding logistic over ℝ -/

theorem sigmoid_real (x x0 k ylo yhi : ℝ) :
    sigmoid x x0 k ylo yhi = ylo + (yhi - ylo) * Real.sigmoid (k * (x - x0)) := rfl

theorem inverse_sigmoid_real (y x0 k ylo yhi : ℝ) :
    inverse_sigmoid y x0 k ylo yhi = x0 - Real.log ((yhi - ylo) / (y - ylo) - 1) / k := rfl

theorem sigmoid_mem_Ioo {x x0 k ylo yhi : ℝ} (h : ylo < yhi) :
    sigmoid x x0 k ylo yhi ∈ Ioo ylo yhi := by
  rw [sigmoid_real]
  have h1 := Real.sigmoid_pos (k * (x - x0))
  have h2 := Real.sigmoid_lt_one (k * (x - x0))
  constructor <;> nlinarith

theorem sigmoid_mem_Ioo' {x x0 k ylo yhi : ℝ} (h : yhi < ylo) :
    sigmoid x x0 k ylo yhi ∈ Ioo yhi ylo := by
  rw [sigmoid_real]
  have h1 := Real.sigmoid_pos (k * (x - x0))
  have h2 := Real.sigmoid_lt_one (k * (x - x0))
  constructor <;> nlinarith

/-- Any interval containing both asymptotes contains the logistic. -/
theorem sigmoid_mem_Ioo_of {x x0 k ylo yhi a b : ℝ} (h1 : a < ylo) (h2 : ylo < b) (h3 : a < yhi)
    (h4 : yhi < b) : sigmoid x x0 k ylo yhi ∈ Ioo a b := by
  rw [sigmoid_real]
  have h1 := Real.sigmoid_pos (k * (x - x0))
  have h2 := Real.sigmoid_lt_one (k * (x - x0))
  constructor <;> nlinarith

theorem sigmoid_mem_Icc_of {x x0 k ylo yhi a b : ℝ} (h1 : a ≤ ylo) (h2 : ylo ≤ b) (h3 : a ≤ yhi)
    (h4 : yhi ≤ b) : sigmoid x x0 k ylo yhi ∈ Icc a b := by
  rw [sigmoid_real]
  have h1 := Real.sigmoid_pos (k * (x - x0))
  have h2 := Real.sigmoid_lt_one (k * (x - x0))
  constructor <;> nlinarith

theorem log_inv_sigmoid (z : ℝ) : Real.log (1 / Real.sigmoid z - 1) = -z := by
  rw [Real.sigmoid_def, one_div, inv_inv, add_sub_cancel_left, Real.log_exp]

theorem inverse_sigmoid_sigmoid {x x0 k ylo yhi : ℝ} (hk : k ≠ 0) (h : ylo ≠ yhi) :
    inverse_sigmoid (sigmoid x x0 k ylo yhi) x0 k ylo yhi = x := by
  rw [inverse_sigmoid_real, sigmoid_real, add_sub_cancel_left,
    div_mul_eq_div_div, div_self (sub_ne_zero.2 h.symm), log_inv_sigmoid]
  field_simp
  ring

theorem sigmoid_neg_log {r : ℝ} (h : 0 < r) : Real.sigmoid (-Real.log r) = 1 / (1 + r) := by
  rw [Real.sigmoid_def, neg_neg, Real.exp_log h, one_div]

theorem sigmoid_inverse_sigmoid {y x0 k ylo yhi : ℝ} (hk : k ≠ 0)
    (h : y ∈ Ioo ylo yhi ∨ y ∈ Ioo yhi ylo) :
    sigmoid (inverse_sigmoid y x0 k ylo yhi) x0 k ylo yhi = y := by
  rw [inverse_sigmoid_real, sigmoid_real]
  have e : k * (x0 - Real.log ((yhi - ylo) / (y - ylo) - 1) / k - x0)
      = -Real.log ((yhi - ylo) / (y - ylo) - 1) := by field_simp; ring
  have hy : y - ylo ≠ 0 := by rcases h with h | h <;> [linarith [h.1] ; linarith [h.2]]
  have hpos : 0 < (yhi - ylo) / (y - ylo) - 1 := by
    have : (yhi - ylo) / (y - ylo) - 1 = (yhi - y) / (y - ylo) := by field_simp; ring
    rw [this]
    rcases h with h | h
    · exact div_pos (by linarith [h.2]) (by linarith [h.1])
    · exact div_pos_of_neg_of_neg (by linarith [h.1]) (by linarith [h.2])
  rw [e, sigmoid_neg_log hpos]
  have hd : yhi - ylo ≠ 0 := by
    rcases h with h | h
    · have := h.1.trans h.2; intro h'; linarith
    · have := h.1.trans h.2; intro h'; linarith
  rw [add_sub_cancel, one_div, inv_div]
  field_simp
  ring

theorem sigmoid_strictMono {x0 k ylo yhi : ℝ} (hk : 0 < k) (h : ylo < yhi) :
    StrictMono fun x => sigmoid x x0 k ylo yhi := by
  intro a b hab
  simp only [sigmoid_real]
  have : Real.sigmoid (k * (a - x0)) < Real.sigmoid (k * (b - x0)) :=
    Real.sigmoid_strictMono (by nlinarith)
  nlinarith

theorem sigmoid_strictAnti {x0 k ylo yhi : ℝ} (hk : 0 < k) (h : yhi < ylo) :
    StrictAnti fun x => sigmoid x x0 k ylo yhi := by
  intro a b hab
  simp only [sigmoid_real]
  have : Real.sigmoid (k * (a - x0)) < Real.sigmoid (k * (b - x0)) :=
    Real.sigmoid_strictMono (by nlinarith)
  nlinarith

theorem sigmoid_tendsto_atTop {x0 k ylo yhi : ℝ} (hk : 0 < k) :
    Filter.Tendsto (fun x => sigmoid x x0 k ylo yhi) Filter.atTop (nhds yhi) := by
  have h1 : Filter.Tendsto (fun x => k * (x - x0)) Filter.atTop Filter.atTop :=
    (Filter.tendsto_atTop_add_const_right _ (-x0) Filter.tendsto_id).const_mul_atTop hk
  have := ((Real.tendsto_sigmoid_atTop.comp h1).const_mul (yhi - ylo)).const_add ylo
  simpa [sigmoid_real] using this

theorem sigmoid_tendsto_atBot {x0 k ylo yhi : ℝ} (hk : 0 < k) :
    Filter.Tendsto (fun x => sigmoid x x0 k ylo yhi) Filter.atBot (nhds ylo) := by
  have h1 : Filter.Tendsto (fun x => k * (x - x0)) Filter.atBot Filter.atBot :=
    (Filter.tendsto_atBot_add_const_right _ (-x0) Filter.tendsto_id).const_mul_atBot hk
  have := ((Real.tendsto_sigmoid_atBot.comp h1).const_mul (yhi - ylo)).const_add ylo
  simpa [sigmoid_real] using this

/-! ### The rolling power law in log time -/

theorem plaw_real (x x0 m xc e l : ℝ) :
    rolling_plaw_vs_logt x x0 m xc e l
      = (e + (l - e) * Real.sigmoid (3.5 * (x - xc))) * (x - x0) + m := by
  simp only [rolling_plaw_vs_logt, power_law_index_vs_logt, sigmoid, lit, sigm, MAH_K]

theorem plaw_hasDerivAt (x x0 m xc e l : ℝ) :
    HasDerivAt (fun x => rolling_plaw_vs_logt x x0 m xc e l)
      (e - (e - l) * (Real.sigmoid (3.5 * (x - xc)) *
        (1 + (1 - Real.sigmoid (3.5 * (x - xc))) * (3.5 * (x - x0))))) x := by
  have h1 : HasDerivAt (fun x : ℝ => 3.5 * (x - xc)) (3.5 * 1) x :=
    ((hasDerivAt_id x).sub_const xc).const_mul 3.5
  have h2 := (Real.hasDerivAt_sigmoid (3.5 * (x - xc))).comp x h1
  have h3 := ((h2.const_mul (l - e)).const_add e).mul ((hasDerivAt_id x).sub_const x0)
  have h4 := h3.add_const m
  have : (fun x => rolling_plaw_vs_logt x x0 m xc e l) =
      fun x => (e + (l - e) * Real.sigmoid (3.5 * (x - xc))) * (x - x0) + m := by
    funext y; exact plaw_real ..
  rw [this]
  refine h4.congr_deriv ?_
  simp only [Function.comp, id]
  ring

theorem plaw_continuous (x0 m xc e l : ℝ) :
    Continuous fun x => rolling_plaw_vs_logt x x0 m xc e l :=
  continuous_iff_continuousAt.2 fun x => (plaw_hasDerivAt x x0 m xc e l).continuousAt

/-- Positivity of the log-slope up to `22/63` dex past today (sharp for `e < 100 l`). -/
theorem plaw_slope_pos {x x0 xc e l : ℝ} (hle : l ≤ e) (hr : e < 100 * l)
    (hd : x - x0 ≤ 22 / 63) :
    0 < e - (e - l) * (Real.sigmoid (3.5 * (x - xc)) *
        (1 + (1 - Real.sigmoid (3.5 * (x - xc))) * (3.5 * (x - x0)))) := by
  set s := Real.sigmoid (3.5 * (x - xc))
  have h1 : 0 < s := Real.sigmoid_pos _
  have h2 : s < 1 := Real.sigmoid_lt_one _
  have h3 : (1 - s) * (3.5 * (x - x0)) ≤ (1 - s) * (11 / 9) := by
    apply mul_le_mul_of_nonneg_left _ (by linarith)
    norm_num; linarith
  have h4 : s * (1 + (1 - s) * (3.5 * (x - x0))) ≤ 100 / 99 := by
    have : s * (1 + (1 - s) * (3.5 * (x - x0))) ≤ s * (1 + (1 - s) * (11 / 9)) := by
      apply mul_le_mul_of_nonneg_left _ h1.le
      linarith
    nlinarith [sq_nonneg (s - 10 / 11)]
  have h5 : (e - l) * (s * (1 + (1 - s) * (3.5 * (x - x0)))) ≤ (e - l) * (100 / 99) :=
    mul_le_mul_of_nonneg_left h4 (by linarith)
  linarith

/-- Positivity of the log-slope before today, for any ordered positive indices. -/
theorem plaw_slope_pos_today {x x0 xc e l : ℝ} (hl : 0 < l) (hle : l ≤ e) (hd : x - x0 ≤ 2 / 7) :
    0 < e - (e - l) * (Real.sigmoid (3.5 * (x - xc)) *
        (1 + (1 - Real.sigmoid (3.5 * (x - xc))) * (3.5 * (x - x0)))) := by
  set s := Real.sigmoid (3.5 * (x - xc))
  have h1 : 0 < s := Real.sigmoid_pos _
  have h2 : s < 1 := Real.sigmoid_lt_one _
  have h3 : (1 - s) * (3.5 * (x - x0)) ≤ (1 - s) * 1 := by
    apply mul_le_mul_of_nonneg_left _ (by linarith)
    norm_num; linarith
  have h4 : s * (1 + (1 - s) * (3.5 * (x - x0))) ≤ 1 := by
    have : s * (1 + (1 - s) * (3.5 * (x - x0))) ≤ s * (1 + (1 - s) * 1) := by
      apply mul_le_mul_of_nonneg_left _ h1.le
      linarith
    nlinarith [sq_nonneg (s - 1)]
  have h5 : (e - l) * (s * (1 + (1 - s) * (3.5 * (x - x0)))) ≤ (e - l) * 1 :=
    mul_le_mul_of_nonneg_left h4 (by linarith)
  linarith

theorem plaw_strictMonoOn {x0 m xc e l : ℝ} (c : ℝ)
    (h : ∀ x < c, 0 < e - (e - l) * (Real.sigmoid (3.5 * (x - xc)) *
        (1 + (1 - Real.sigmoid (3.5 * (x - xc))) * (3.5 * (x - x0))))) :
    StrictMonoOn (fun x => rolling_plaw_vs_logt x x0 m xc e l) (Iic c) := by
  refine strictMonoOn_of_deriv_pos (convex_Iic c) (plaw_continuous ..).continuousOn ?_
  intro x hx
  rw [interior_Iic] at hx
  rw [(plaw_hasDerivAt x x0 m xc e l).deriv]
  exact h x hx

/-! ### The history in time -/

theorem noq_real (p : MahParams ℝ) (t lgt0 : ℝ) :
    log_mah_noq_kern p t lgt0
      = rolling_plaw_vs_logt (Real.logb 10 t) lgt0 p.logm0 p.logtc p.early_index p.late_index := rfl

theorem log_mah_lt {p : MahParams ℝ} {t lgt0 : ℝ} (h : t < p.t_peak) :
    log_mah_kern p t lgt0 = log_mah_noq_kern p t lgt0 := if_pos h

theorem log_mah_ge {p : MahParams ℝ} {t lgt0 : ℝ} (h : p.t_peak ≤ t) :
    log_mah_kern p t lgt0 = log_mah_noq_kern p p.t_peak lgt0 := if_neg (not_lt.2 h)

theorem log_mah_le {p : MahParams ℝ} {t lgt0 : ℝ} (h : t ≤ p.t_peak) :
    log_mah_kern p t lgt0 = log_mah_noq_kern p t lgt0 := by
  rcases h.lt_or_eq with h | h
  · exact log_mah_lt h
  · rw [log_mah_ge h.ge, h]

theorem log_mah_min (p : MahParams ℝ) (t lgt0 : ℝ) :
    log_mah_kern p t lgt0 = log_mah_noq_kern p (min t p.t_peak) lgt0 := by
  rcases le_total t p.t_peak with h | h
  · rw [min_eq_left h, log_mah_le h]
  · rw [min_eq_right h, log_mah_ge h]

theorem logb_mono {a b : ℝ} (ha : 0 < a) (h : a ≤ b) : Real.logb 10 a ≤ Real.logb 10 b :=
  Real.logb_le_logb_of_le (by norm_num) ha h

theorem logb_smono {a b : ℝ} (ha : 0 < a) (h : a < b) : Real.logb 10 a < Real.logb 10 b :=
  Real.logb_lt_logb (by norm_num) ha h

theorem logb_pow10 (x : ℝ) : Real.logb 10 ((10 : ℝ) ^ x) = x :=
  Real.logb_rpow (by norm_num) (by norm_num)

theorem pow10_logb {x : ℝ} (h : 0 < x) : (10 : ℝ) ^ Real.logb 10 x = x :=
  Real.rpow_logb (by norm_num) (by norm_num) h

theorem noq_strictMonoOn {p : MahParams ℝ} {lgt0 c : ℝ}
    (h : ∀ x < c, 0 < p.early_index - (p.early_index - p.late_index) *
      (Real.sigmoid (3.5 * (x - p.logtc)) *
        (1 + (1 - Real.sigmoid (3.5 * (x - p.logtc))) * (3.5 * (x - lgt0))))) :
    StrictMonoOn (fun t => log_mah_noq_kern p t lgt0) (Ioc 0 ((10 : ℝ) ^ c)) := by
  intro a ha b hb hab
  simp only [noq_real]
  apply plaw_strictMonoOn c h _ _ (logb_smono ha.1 hab)
  · rw [mem_Iic, ← logb_pow10 c]; exact logb_mono ha.1 ha.2
  · rw [mem_Iic, ← logb_pow10 c]; exact logb_mono hb.1 hb.2

/-! ### Derivatives in time -/

theorem isAD_time (p : MahParams ℝ) {t : ℝ} (ht : t ≠ 0) (lgt0 : ℝ) :
    IsAD (fun t => mah_noq_kern p t lgt0) t
      (mah_noq_kern (p.map Dual.const) (Dual.var t) (Dual.const lgt0)) :=
  isAD_mah_noq (IsADParams.const p t) (IsAD.var t) (IsAD.const _ _) ht

theorem noq_hasDerivAt (p : MahParams ℝ) {t : ℝ} (ht : t ≠ 0) (lgt0 : ℝ) :
    HasDerivAt (fun t => mah_noq_kern p t lgt0) (1e9 * dmhdt_noq_kern_scalar p t lgt0) t := by
  have := (isAD_time p ht lgt0).2
  unfold dmhdt_noq_kern_scalar dmhdt_noq_grad_kern_scalar
  rwa [mul_div_cancel₀ _ (by norm_num)]

theorem mah_noq_eq (p : MahParams ℝ) (t lgt0 : ℝ) :
    mah_noq_kern p t lgt0 = (10 : ℝ) ^ log_mah_noq_kern p t lgt0 := rfl

/-- Explicit accretion rate. -/
theorem dmhdt_noq_formula (p : MahParams ℝ) {t : ℝ} (ht : t ≠ 0) (lgt0 : ℝ) :
    1e9 * dmhdt_noq_kern_scalar p t lgt0 =
      (10 : ℝ) ^ log_mah_noq_kern p t lgt0 / t *
        (p.early_index - (p.early_index - p.late_index) *
          (Real.sigmoid (3.5 * (Real.logb 10 t - p.logtc)) *
            (1 + (1 - Real.sigmoid (3.5 * (Real.logb 10 t - p.logtc))) *
              (3.5 * (Real.logb 10 t - lgt0))))) := by
  refine (noq_hasDerivAt p ht lgt0).unique ?_
  have h1 : HasDerivAt (fun t : ℝ => Real.logb 10 t) (t⁻¹ / Real.log 10) t :=
    (Real.hasDerivAt_log ht).div_const _
  have h2 := (plaw_hasDerivAt (Real.logb 10 t) lgt0 p.logm0 p.logtc p.early_index
    p.late_index).comp t h1
  have h3 := h2.const_rpow (a := 10) (by norm_num)
  refine h3.congr_deriv ?_
  have : Real.log 10 ≠ 0 := (Real.log_pos (by norm_num)).ne'
  simp only [Function.comp, noq_real]
  field_simp

end Diffmah

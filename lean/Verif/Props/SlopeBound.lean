import Verif.Lemmas.Float32Err
import Verif.Props.Slopes

/-!
# C144: bounds on the specific accretion rate
-/

namespace Diffmah

open Set Filter Topology

/-! ## Specification -/

/-- The logarithmic slope `t (dM/dt) / M` of the history, from the accretion rate (per year) and the mass that the code returns at the
time `t` (in Gyr) -/
noncomputable def logSlope (p : MahParams ℝ) (t lgt0 : ℝ) : ℝ :=
  t * (1e9 * dmhdt_kern_scalar p t lgt0) / (10 : ℝ) ^ logmh_at_t_obs p t lgt0

/-! ## Lemmas -/

/-- By how much the slope exceeds `early_index`, as a function of log time, in units of `σ (early_index - late_index)` -/
noncomputable def excess (xc x0 x : ℝ) : ℝ := (1 - Real.sigmoid (3.5 * (x - xc))) * (3.5 * (x0 - x)) - 1

theorem logSlope_eq (p : MahParams ℝ) {t : ℝ} (ht : 0 < t) (h : t ≤ p.t_peak) (lgt0 : ℝ) :
    logSlope p t lgt0 = p.early_index + (p.early_index - p.late_index) * Real.sigmoid (3.5 * (Real.logb 10 t - p.logtc)) *
      excess p.logtc lgt0 (Real.logb 10 t) := by
  have h10 : (10 : ℝ) ^ logmh_at_t_obs p t lgt0 ≠ 0 := (Real.rpow_pos_of_pos (by norm_num) _).ne'
  have ht0 := ht.ne'
  rw [logSlope, rate_formula p ht h lgt0, excess]
  field_simp
  ring

theorem excess_lt {xc x0 x y : ℝ} (hxy : x < y) (hy : y ≤ x0) : excess xc x0 y < excess xc x0 x := by
  have h1 : 0 < 1 - Real.sigmoid (3.5 * (x - xc)) := sub_pos.2 (Real.sigmoid_lt_one _)
  have h2 : Real.sigmoid (3.5 * (x - xc)) < Real.sigmoid (3.5 * (y - xc)) :=
    Real.sigmoid_lt (by linarith)
  have h3 : 0 < 1 - Real.sigmoid (3.5 * (y - xc)) := sub_pos.2 (Real.sigmoid_lt_one _)
  unfold excess
  nlinarith [mul_nonneg (sub_nonneg.2 h2.le) (sub_nonneg.2 hy), mul_pos h1 (sub_pos.2 hxy)]

theorem excess_continuous (xc x0 : ℝ) : Continuous (excess xc x0) := by
  have h : Continuous fun x : ℝ => Real.sigmoid (3.5 * (x - xc)) := _root_.continuous_sigmoid.comp (by fun_prop)
  unfold excess
  fun_prop

/-- Before the transition the slope exceeds `early_index` early enough. -/
theorem excess_pos {xc x0 x : ℝ} (h1 : x ≤ xc) (h2 : 4 / 7 < x0 - x) : 0 < excess xc x0 x := by
  have h : Real.sigmoid (3.5 * (x - xc)) ≤ 1 / 2 := by
    have := Real.sigmoid_le (show 3.5 * (x - xc) ≤ 0 by linarith)
    rw [Real.sigmoid_zero] at this
    linarith
  unfold excess
  nlinarith

theorem excess_neg {xc x0 x : ℝ} (h : x0 ≤ x) : excess xc x0 x < 0 := by
  have h1 : 0 < 1 - Real.sigmoid (3.5 * (x - xc)) := sub_pos.2 (Real.sigmoid_lt_one _)
  unfold excess
  nlinarith [mul_nonneg h1.le (sub_nonneg.2 h)]

theorem exists_crossing (xc x0 : ℝ) : ∃ x1 < x0, ∀ x, (0 < excess xc x0 x ↔ x < x1) ∧ (excess xc x0 x < 0 ↔ x1 < x) := by
  obtain ⟨x1, ⟨h1, h2⟩, h0⟩ : (0 : ℝ) ∈ excess xc x0 '' Icc (min xc (x0 - 1)) x0 := by
    refine intermediate_value_Icc' ((min_le_right _ _).trans (by linarith)) (excess_continuous xc x0).continuousOn
      ⟨(excess_neg le_rfl).le, (excess_pos (min_le_left _ _) ?_).le⟩
    have := min_le_right xc (x0 - 1)
    linarith
  have hx1 : x1 < x0 := lt_of_le_of_ne h2 fun e => by
    have := excess_neg (xc := xc) e.ge
    linarith
  have below : ∀ x, x < x1 → 0 < excess xc x0 x := fun x hx => h0 ▸ excess_lt hx h2
  have above : ∀ x, x1 < x → excess xc x0 x < 0 := fun x hx => by
    rcases le_total x x0 with h | h
    · exact h0 ▸ excess_lt hx h
    · exact excess_neg h
  refine ⟨x1, hx1, fun x => ⟨⟨fun h => ?_, below x⟩, ⟨fun h => ?_, above x⟩⟩⟩
  · rcases lt_trichotomy x x1 with hx | hx | hx
    · exact hx
    · subst hx; linarith
    · have := above x hx; linarith
  · rcases lt_trichotomy x x1 with hx | hx | hx
    · have := below x hx; linarith
    · subst hx; linarith
    · exact hx

/-! ## C144 -/

/-- C144. Until its peak and until today, the logarithmic slope of a halo is at least `late_index`, and exceeds `early_index` by at most
`7/8` of the difference of the indices times `log10 (t0 / t)`. -/
theorem C144_bounds (p : MahParams ℝ) (hle : p.late_index ≤ p.early_index) {t lgt0 : ℝ} (ht : 0 < t) (h : t ≤ p.t_peak)
    (h0 : t ≤ (10 : ℝ) ^ lgt0) :
    p.late_index ≤ logSlope p t lgt0 ∧
      logSlope p t lgt0 ≤ p.early_index + 7 / 8 * (p.early_index - p.late_index) * (lgt0 - Real.logb 10 t) := by
  rw [logSlope_eq p ht h lgt0, excess]
  have hx : Real.logb 10 t ≤ lgt0 := by
    have := Real.logb_le_logb_of_le (b := 10) (by norm_num) ht h0
    rwa [logb_pow10] at this
  set s := Real.sigmoid (3.5 * (Real.logb 10 t - p.logtc)) with hs
  have s0 : 0 < s := Real.sigmoid_pos _
  have s1 : s < 1 := Real.sigmoid_lt_one _
  have d : 0 ≤ p.early_index - p.late_index := sub_nonneg.2 hle
  have y : 0 ≤ lgt0 - Real.logb 10 t := sub_nonneg.2 hx
  have dy := mul_nonneg d y
  constructor
  · nlinarith [mul_nonneg dy (mul_nonneg s0.le (sub_nonneg.2 s1.le)), mul_nonneg d (sub_nonneg.2 s1.le)]
  · nlinarith [mul_nonneg dy (sq_nonneg (s - 1 / 2)), mul_nonneg d s0.le]

/-- C144. `early_index` is not the largest slope: before the transition, and while today is more than a factor `10**(4/7)` (about 3.7)
later, the slope is larger. -/
theorem C144_overshoot (p : MahParams ℝ) (hle : p.late_index < p.early_index) {t lgt0 : ℝ} (ht : 0 < t) (h : t ≤ p.t_peak)
    (hc : t ≤ (10 : ℝ) ^ p.logtc) (h0 : (10 : ℝ) ^ (4 / 7 : ℝ) * t < (10 : ℝ) ^ lgt0) :
    p.early_index < logSlope p t lgt0 := by
  rw [logSlope_eq p ht h lgt0]
  have h1 : Real.logb 10 t ≤ p.logtc := by
    have := Real.logb_le_logb_of_le (b := 10) (by norm_num) ht hc
    rwa [logb_pow10] at this
  have h2 : 4 / 7 + Real.logb 10 t < lgt0 := by
    have := Real.logb_lt_logb (b := 10) (by norm_num) (by positivity) h0
    rwa [Real.logb_mul (by positivity) ht.ne', logb_pow10, logb_pow10] at this
  have := mul_pos (mul_pos (sub_pos.2 hle) (Real.sigmoid_pos (3.5 * (Real.logb 10 t - p.logtc))))
    (excess_pos (x0 := lgt0) h1 (by linarith))
  linarith

/-- C144. There is exactly one time before today at which the slope passes `early_index`: it is larger at all earlier times and smaller
at all later times until the peak. -/
theorem C144_crossing (p : MahParams ℝ) (hle : p.late_index < p.early_index) (lgt0 : ℝ) :
    ∃ t1, 0 < t1 ∧ t1 < (10 : ℝ) ^ lgt0 ∧ ∀ t, 0 < t → t ≤ p.t_peak →
      (p.early_index < logSlope p t lgt0 ↔ t < t1) ∧ (logSlope p t lgt0 < p.early_index ↔ t1 < t) := by
  obtain ⟨x1, hx1, h⟩ := exists_crossing p.logtc lgt0
  refine ⟨(10 : ℝ) ^ x1, by positivity, Real.rpow_lt_rpow_of_exponent_lt (by norm_num) hx1, fun t ht hp => ?_⟩
  rw [logSlope_eq p ht hp lgt0]
  have hd := mul_pos (sub_pos.2 hle) (Real.sigmoid_pos (3.5 * (Real.logb 10 t - p.logtc)))
  have e1 : t < (10 : ℝ) ^ x1 ↔ Real.logb 10 t < x1 := (Real.logb_lt_iff_lt_rpow (by norm_num) ht).symm
  have e2 : (10 : ℝ) ^ x1 < t ↔ x1 < Real.logb 10 t := (Real.lt_logb_iff_rpow_lt (by norm_num) ht).symm
  rw [e1, e2, ← (h _).1, ← (h _).2]
  constructor
  · constructor
    · intro hl
      exact pos_of_mul_pos_right (by linarith : 0 < _ * excess p.logtc lgt0 (Real.logb 10 t)) hd.le
    · intro hl
      linarith [mul_pos hd hl]
  · constructor
    · intro hl
      by_contra hn
      linarith [mul_nonneg hd.le (not_lt.1 hn)]
    · intro hl
      linarith [mul_neg_of_pos_of_neg hd hl]

/-- C144. The bounds hold between any two times: from `t1` to `t2`, both until the peak and until today, the mass grows at least by the
factor `(t2 / t1) ** late_index`, and at most by the factor with the exponent `early_index` plus `7/8` of the difference of the indices
times `log10 (t0 / t2)`. -/
theorem C144_growth (p : MahParams ℝ) (hle : p.late_index ≤ p.early_index) {t1 t2 lgt0 : ℝ} (ht : 0 < t1) (h12 : t1 ≤ t2)
    (h : t2 ≤ p.t_peak) (h0 : t2 ≤ (10 : ℝ) ^ lgt0) :
    (t2 / t1) ^ p.late_index ≤ (10 : ℝ) ^ logmh_at_t_obs p t2 lgt0 / (10 : ℝ) ^ logmh_at_t_obs p t1 lgt0 ∧
      (10 : ℝ) ^ logmh_at_t_obs p t2 lgt0 / (10 : ℝ) ^ logmh_at_t_obs p t1 lgt0 ≤
        (t2 / t1) ^ (p.early_index + 7 / 8 * (p.early_index - p.late_index) * (lgt0 - Real.logb 10 t2)) := by
  have ht2 : 0 < t2 := ht.trans_le h12
  have hx : Real.logb 10 t2 ≤ lgt0 := by
    have := Real.logb_le_logb_of_le (b := 10) (by norm_num) ht2 h0
    rwa [logb_pow10] at this
  have hxy : Real.logb 10 t1 ≤ Real.logb 10 t2 := Real.logb_le_logb_of_le (b := 10) (by norm_num) ht h12
  have e : ∀ a : ℝ, (t2 / t1) ^ a = (10 : ℝ) ^ (a * (Real.logb 10 t2 - Real.logb 10 t1)) := fun a => by
    rw [← Real.logb_div ht2.ne' ht.ne', mul_comm, Real.rpow_mul (by norm_num), pow10_logb (by positivity)]
  rw [e, e, ← Real.rpow_sub (by norm_num), Real.rpow_le_rpow_left_iff (by norm_num), Real.rpow_le_rpow_left_iff (by norm_num),
    logmh_at_t_obs, log_mah_le h, noq_real, plaw_real, logmh_at_t_obs, log_mah_le (h12.trans h), noq_real, plaw_real]
  have hm : Real.sigmoid (3.5 * (Real.logb 10 t1 - p.logtc)) ≤ Real.sigmoid (3.5 * (Real.logb 10 t2 - p.logtc)) :=
    Real.sigmoid_le (by linarith)
  have hl : Real.sigmoid (3.5 * (Real.logb 10 t2 - p.logtc)) - Real.sigmoid (3.5 * (Real.logb 10 t1 - p.logtc)) ≤
      7 / 8 * (Real.logb 10 t2 - Real.logb 10 t1) := by
    have := (le_abs_self _).trans (F32.sigmoid_lipschitz (3.5 * (Real.logb 10 t2 - p.logtc)) (3.5 * (Real.logb 10 t1 - p.logtc)))
    rw [abs_of_nonneg (by linarith)] at this
    linarith
  set s1 := Real.sigmoid (3.5 * (Real.logb 10 t1 - p.logtc))
  set s2 := Real.sigmoid (3.5 * (Real.logb 10 t2 - p.logtc)) with hs2
  have s1p : 0 < s1 := Real.sigmoid_pos _
  have s2p : s2 < 1 := Real.sigmoid_lt_one _
  generalize Real.logb 10 t1 = x at *
  generalize Real.logb 10 t2 = y at *
  have d : 0 ≤ p.early_index - p.late_index := sub_nonneg.2 hle
  constructor
  · nlinarith [mul_nonneg d (mul_nonneg (sub_nonneg.2 s2p.le) (sub_nonneg.2 hxy)),
      mul_nonneg d (mul_nonneg (sub_nonneg.2 hm) (show 0 ≤ lgt0 - x by linarith))]
  · nlinarith [mul_nonneg d (mul_nonneg (sub_nonneg.2 hl) (sub_nonneg.2 hx)),
      mul_nonneg d (mul_nonneg s1p.le (sub_nonneg.2 hxy))]

/-- C144. Until the peak and until today, the mass at least doubles whenever the time grows by the factor `2 ** (1 / late_index)`. -/
theorem C144_doubling (p : MahParams ℝ) (hlate : 0 < p.late_index) (hle : p.late_index ≤ p.early_index) {t lgt0 : ℝ} (ht : 0 < t)
    (h : (2 : ℝ) ^ (1 / p.late_index) * t ≤ p.t_peak) (h0 : (2 : ℝ) ^ (1 / p.late_index) * t ≤ (10 : ℝ) ^ lgt0) :
    2 * (10 : ℝ) ^ logmh_at_t_obs p t lgt0 ≤ (10 : ℝ) ^ logmh_at_t_obs p ((2 : ℝ) ^ (1 / p.late_index) * t) lgt0 := by
  have h1 : t ≤ (2 : ℝ) ^ (1 / p.late_index) * t :=
    le_mul_of_one_le_left ht.le (Real.one_le_rpow (by norm_num) (by positivity))
  have := (C144_growth p hle ht h1 h h0).1
  rw [mul_div_assoc, div_self ht.ne', mul_one, ← Real.rpow_mul (by norm_num), one_div, inv_mul_cancel₀ hlate.ne', Real.rpow_one,
    le_div_iff₀ (by positivity)] at this
  rwa [← one_div] at this

/-- C144. A halo reaches the fraction `f` of its mass today between the times `t0 f ** (1 / late_index)` and
`t0 f ** (1 / early_index)`. -/
theorem C144_formation (p : MahParams ℝ) (hlate : 0 < p.late_index) (hle : p.late_index ≤ p.early_index) {t lgt0 f : ℝ} (ht : 0 < t)
    (h : t ≤ p.t_peak) (h0 : t ≤ (10 : ℝ) ^ lgt0) (hf : 0 < f)
    (hm : (10 : ℝ) ^ logmh_at_t_obs p t lgt0 = f * (10 : ℝ) ^ p.logm0) :
    (10 : ℝ) ^ lgt0 * f ^ (1 / p.late_index) ≤ t ∧ t ≤ (10 : ℝ) ^ lgt0 * f ^ (1 / p.early_index) := by
  have hearly : 0 < p.early_index := hlate.trans_le hle
  obtain ⟨h1, h2⟩ := C09_power_law_envelope p hle t lgt0 ht h0 h
  have e : logmh_at_t_obs p t lgt0 = Real.logb 10 f + p.logm0 := by
    have := congrArg (Real.logb 10) hm
    rwa [logb_pow10, Real.logb_mul hf.ne' (by positivity), logb_pow10] at this
  rw [e] at h1 h2
  have ef : ∀ a : ℝ, (10 : ℝ) ^ lgt0 * f ^ (1 / a) = (10 : ℝ) ^ (lgt0 + Real.logb 10 f / a) := fun a => by
    rw [Real.rpow_add (by norm_num), div_eq_mul_one_div (Real.logb 10 f), Real.rpow_mul (by norm_num), pow10_logb hf]
  rw [ef, ef]
  constructor
  · rw [← Real.le_logb_iff_rpow_le (by norm_num) ht, ← le_sub_iff_add_le', div_le_iff₀ hlate]
    linarith
  · rw [← Real.logb_le_iff_le_rpow (by norm_num) ht, ← sub_le_iff_le_add', le_div_iff₀ hearly]
    linarith

/-- The default halo meets the hypotheses at half of today's time, with the fraction of the mass it has then. -/
example : ∃ f : ℝ, 0 < DEFAULT_MAH_PARAMS.late_index ∧ (6.9 : ℝ) ≤ DEFAULT_MAH_PARAMS.t_peak ∧ (6.9 : ℝ) ≤ (10 : ℝ) ^ Real.logb 10 13.8 ∧
    0 < f ∧ (10 : ℝ) ^ logmh_at_t_obs DEFAULT_MAH_PARAMS 6.9 (Real.logb 10 13.8) = f * (10 : ℝ) ^ DEFAULT_MAH_PARAMS.logm0 := by
  refine ⟨(10 : ℝ) ^ (logmh_at_t_obs DEFAULT_MAH_PARAMS 6.9 (Real.logb 10 13.8) - DEFAULT_MAH_PARAMS.logm0),
    by norm_num [DEFAULT_MAH_PARAMS], by norm_num [DEFAULT_MAH_PARAMS], ?_, by positivity, ?_⟩
  · rw [pow10_logb (by norm_num)]; norm_num
  · rw [← Real.rpow_add (by norm_num), sub_add_cancel]

/-- A halo that peaks at 14 Gyr meets the hypotheses of the doubling theorem from 2 Gyr to 8 Gyr, with today at 13.8 Gyr. -/
example : ∃ p : MahParams ℝ, Spec.Valid p ∧ 0 < p.late_index ∧ p.late_index ≤ p.early_index ∧
    (2 : ℝ) ^ (1 / p.late_index) * 2 ≤ p.t_peak ∧ (2 : ℝ) ^ (1 / p.late_index) * 2 ≤ (10 : ℝ) ^ Real.logb 10 13.8 := by
  have e : (2 : ℝ) ^ (1 / 0.5 : ℝ) = 4 := by
    rw [show (1 / 0.5 : ℝ) = (2 : ℕ) by norm_num, Real.rpow_natCast]; norm_num
  refine ⟨⟨12, 0.05, 2.5, 0.5, 14⟩, ?_, by norm_num, by norm_num, ?_, ?_⟩
  · exact ⟨by constructor <;> norm_num, by norm_num⟩
  · simp only [e]; norm_num
  · simp only [e]; rw [pow10_logb (by norm_num)]; norm_num

/-- At 1 Gyr the default halo meets the hypotheses, for a universe of age 13.8 Gyr. -/
example : Spec.Valid DEFAULT_MAH_PARAMS ∧ DEFAULT_MAH_PARAMS.late_index < DEFAULT_MAH_PARAMS.early_index ∧
    (1 : ℝ) ≤ DEFAULT_MAH_PARAMS.t_peak ∧ (1 : ℝ) ≤ (10 : ℝ) ^ DEFAULT_MAH_PARAMS.logtc ∧
    (10 : ℝ) ^ (4 / 7 : ℝ) * 1 < (10 : ℝ) ^ Real.logb 10 13.8 := by
  refine ⟨?_, by norm_num [DEFAULT_MAH_PARAMS], by norm_num [DEFAULT_MAH_PARAMS], ?_, ?_⟩
  · exact ⟨by constructor <;> norm_num [DEFAULT_MAH_PARAMS], by norm_num [DEFAULT_MAH_PARAMS]⟩
  · exact Real.one_le_rpow (by norm_num) (by norm_num [DEFAULT_MAH_PARAMS])
  · rw [pow10_logb (by norm_num), mul_one]
    have : (10 : ℝ) ^ (4 / 7 : ℝ) ≤ (10 : ℝ) ^ (1 : ℝ) := Real.rpow_le_rpow_of_exponent_le (by norm_num) (by norm_num)
    rw [Real.rpow_one] at this
    linarith

end Diffmah

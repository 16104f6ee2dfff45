import Verif.Props.Kernels

/-!
# C136: the indices of a halo are the slopes of its history

`early_index` and `late_index` are the exponents of the power laws that the history follows well before and well after
the transition time, with explicit errors; the transition is half-way at `10**logtc`; the accretion rate today is set by
the index at that time; and `early_index` decides how the halo starts.
-/

namespace Diffmah

open Set Filter Topology

/-- The power law with exponent `a` through the mass today: `log10 (10^logm0 * (t / t0)^a)`. -/
noncomputable def powerLaw (logm0 a t lgt0 : ℝ) : ℝ := logm0 + a * (Real.logb 10 t - lgt0)

theorem sigm_le_exp (y : ℝ) : Real.sigmoid y ≤ Real.exp y := by
  have h1 := Real.sigmoid_lt_one (-y)
  have h0 := Real.exp_pos y
  rw [Real.sigmoid_def, inv_le_comm₀ (by positivity) h0, ← Real.exp_neg]
  linarith

theorem one_sub_sigm_le_exp (y : ℝ) : 1 - Real.sigmoid y ≤ Real.exp (-y) := by
  rw [← Real.sigmoid_neg]; exact sigm_le_exp _

theorem sigm_mul_self_atBot : Tendsto (fun y : ℝ => Real.sigmoid y * y) atBot (𝓝 0) := by
  have h := (Real.tendsto_pow_mul_exp_neg_atTop_nhds_zero 1).comp tendsto_neg_atBot_atTop
  refine squeeze_zero_norm' ?_ h
  filter_upwards [eventually_le_atBot 0] with y hy
  simp only [Function.comp, pow_one, neg_neg, Real.norm_eq_abs, abs_mul, abs_of_nonpos hy, abs_of_pos (Real.sigmoid_pos y)]
  rw [mul_comm]
  exact mul_le_mul_of_nonneg_left (sigm_le_exp y) (by linarith)

theorem pow10_atBot : Tendsto (fun x : ℝ => (10 : ℝ) ^ x) atBot (𝓝 0) := by
  have h := Real.tendsto_exp_atBot.comp (tendsto_id.const_mul_atBot (Real.log_pos (show (1 : ℝ) < 10 by norm_num)))
  refine h.congr fun x => ?_
  rw [Real.rpow_def_of_pos (by norm_num)]; rfl

theorem pow10_atTop : Tendsto (fun x : ℝ => (10 : ℝ) ^ x) atTop atTop := by
  have h := Real.tendsto_exp_atTop.comp (tendsto_id.const_mul_atTop (Real.log_pos (show (1 : ℝ) < 10 by norm_num)))
  refine h.congr fun x => ?_
  rw [Real.rpow_def_of_pos (by norm_num)]; rfl

theorem logb_atBot : Tendsto (fun t : ℝ => Real.logb 10 t) (𝓝[>] 0) atBot :=
  Real.tendsto_logb_nhdsGT_zero (by norm_num)

/-- The sigmoid of the transition, and its product with the time before today, vanish at early times. -/
theorem transition_early (xc : ℝ) :
    Tendsto (fun t : ℝ => 3.5 * (Real.logb 10 t - xc)) (𝓝[>] 0) atBot :=
  (tendsto_atBot_add_const_right _ (-xc) logb_atBot).const_mul_atBot (by norm_num)

theorem transition_mul_early (xc x0 : ℝ) :
    Tendsto (fun t : ℝ => Real.sigmoid (3.5 * (Real.logb 10 t - xc)) * (Real.logb 10 t - x0)) (𝓝[>] 0) (𝓝 0) := by
  have h1 := (sigm_mul_self_atBot.comp (transition_early xc)).mul_const (2 / 7)
  have h2 := (Real.tendsto_sigmoid_atBot.comp (transition_early xc)).mul_const (xc - x0)
  have h := h1.add h2
  rw [zero_mul, zero_mul, add_zero] at h
  refine h.congr fun t => ?_
  simp only [Function.comp]
  ring

/-- **C136** (before the transition). Until the peak, the log-mass differs from the power law with exponent
`early_index` by at most `|early - late| * exp(3.5 log10(t/tc)) * |log10(t/t0)|`. -/
theorem C136_early_power_law (p : MahParams ℝ) (t lgt0 : ℝ) (h : t ≤ p.t_peak) :
    |logmh_at_t_obs p t lgt0 - powerLaw p.logm0 p.early_index t lgt0| ≤
      |p.early_index - p.late_index| * Real.exp (3.5 * (Real.logb 10 t - p.logtc)) * |Real.logb 10 t - lgt0| := by
  rw [logmh_at_t_obs, log_mah_le h, noq_real, plaw_real, powerLaw]
  have e : (p.early_index + (p.late_index - p.early_index) * Real.sigmoid (3.5 * (Real.logb 10 t - p.logtc))) *
      (Real.logb 10 t - lgt0) + p.logm0 - (p.logm0 + p.early_index * (Real.logb 10 t - lgt0))
      = -((p.early_index - p.late_index) * Real.sigmoid (3.5 * (Real.logb 10 t - p.logtc)) * (Real.logb 10 t - lgt0)) := by
    ring
  rw [e, abs_neg, abs_mul, abs_mul, abs_of_pos (Real.sigmoid_pos _)]
  gcongr
  exact sigm_le_exp _

/-- **C136** (after the transition). Until the peak, the log-mass differs from the power law with exponent `late_index`
by at most `|early - late| * exp(-3.5 log10(t/tc)) * |log10(t/t0)|`. -/
theorem C136_late_power_law (p : MahParams ℝ) (t lgt0 : ℝ) (h : t ≤ p.t_peak) :
    |logmh_at_t_obs p t lgt0 - powerLaw p.logm0 p.late_index t lgt0| ≤
      |p.early_index - p.late_index| * Real.exp (-(3.5 * (Real.logb 10 t - p.logtc))) * |Real.logb 10 t - lgt0| := by
  rw [logmh_at_t_obs, log_mah_le h, noq_real, plaw_real, powerLaw]
  have e : (p.early_index + (p.late_index - p.early_index) * Real.sigmoid (3.5 * (Real.logb 10 t - p.logtc))) *
      (Real.logb 10 t - lgt0) + p.logm0 - (p.logm0 + p.late_index * (Real.logb 10 t - lgt0))
      = (p.early_index - p.late_index) * (1 - Real.sigmoid (3.5 * (Real.logb 10 t - p.logtc))) *
        (Real.logb 10 t - lgt0) := by
    ring
  have h1 : 0 ≤ 1 - Real.sigmoid (3.5 * (Real.logb 10 t - p.logtc)) := by
    have := Real.sigmoid_lt_one (3.5 * (Real.logb 10 t - p.logtc)); linarith
  rw [e, abs_mul, abs_mul, abs_of_nonneg h1]
  gcongr
  exact one_sub_sigm_le_exp _

/-- **C136** (at the transition). At `10**logtc`, if the halo has not peaked, the history is on the power law whose
exponent is the mean of the two indices. -/
theorem C136_half_way (p : MahParams ℝ) (lgt0 : ℝ) (h : (10 : ℝ) ^ p.logtc ≤ p.t_peak) :
    logmh_at_t_obs p ((10 : ℝ) ^ p.logtc) lgt0 =
      powerLaw p.logm0 ((p.early_index + p.late_index) / 2) ((10 : ℝ) ^ p.logtc) lgt0 := by
  rw [logmh_at_t_obs, log_mah_le h, noq_real, plaw_real, powerLaw, logb_pow10, sub_self, mul_zero, Real.sigmoid_zero]
  ring

theorem eventually_before {a : ℝ} (h : 0 < a) : ∀ᶠ t in 𝓝[>] (0 : ℝ), 0 < t ∧ t < a := by
  filter_upwards [Ioo_mem_nhdsGT h] with t ht using ht

/-- **C136** (limit of the mass). As the time goes to zero, the ratio of the mass and the early power law goes to one. -/
theorem C136_early_limit (p : MahParams ℝ) (lgt0 : ℝ) (h : 0 < p.t_peak) :
    Tendsto (fun t => (10 : ℝ) ^ logmh_at_t_obs p t lgt0 / (10 : ℝ) ^ powerLaw p.logm0 p.early_index t lgt0)
      (𝓝[>] 0) (𝓝 1) := by
  have h1 := ((transition_mul_early p.logtc lgt0).const_mul (p.late_index - p.early_index))
  rw [mul_zero] at h1
  have h2 : Tendsto (fun x : ℝ => (10 : ℝ) ^ x) (𝓝 0) (𝓝 1) := by
    have : ContinuousAt (fun x : ℝ => (10 : ℝ) ^ x) 0 := Real.continuousAt_const_rpow (by norm_num)
    simpa using this.tendsto
  refine (h2.comp h1).congr' ?_
  filter_upwards [eventually_before h] with t ht
  rw [← Real.rpow_sub (by norm_num), logmh_at_t_obs, log_mah_le ht.2.le, noq_real, plaw_real, powerLaw, Function.comp]
  congr 1
  ring

theorem rate_formula (p : MahParams ℝ) {t : ℝ} (ht : 0 < t) (h : t ≤ p.t_peak) (lgt0 : ℝ) :
    1e9 * dmhdt_kern_scalar p t lgt0 = (10 : ℝ) ^ logmh_at_t_obs p t lgt0 / t *
      (p.early_index - (p.early_index - p.late_index) * (Real.sigmoid (3.5 * (Real.logb 10 t - p.logtc)) *
        (1 + (1 - Real.sigmoid (3.5 * (Real.logb 10 t - p.logtc))) * (3.5 * (Real.logb 10 t - lgt0))))) := by
  have e : dmhdt_kern_scalar p t lgt0 = dmhdt_noq_kern_scalar p t lgt0 := if_neg (not_lt.2 h)
  rw [e, dmhdt_noq_formula p ht.ne' lgt0, logmh_at_t_obs, log_mah_le h]

/-- **C136** (limit of the slope). As the time goes to zero, the logarithmic slope `t (dM/dt) / M`, with the rate in
mass per year and the time in Gyr, goes to `early_index`. -/
theorem C136_early_slope (p : MahParams ℝ) (lgt0 : ℝ) (h : 0 < p.t_peak) :
    Tendsto (fun t => t * (1e9 * dmhdt_kern_scalar p t lgt0) / (10 : ℝ) ^ logmh_at_t_obs p t lgt0)
      (𝓝[>] 0) (𝓝 p.early_index) := by
  have hs := Real.tendsto_sigmoid_atBot.comp (transition_early p.logtc)
  have hm := transition_mul_early p.logtc lgt0
  have hq := (hs.const_sub 1).mul (hm.const_mul 3.5)
  have hr := ((hs.add hq).const_mul (p.early_index - p.late_index)).const_sub p.early_index
  simp only [mul_zero, add_zero, sub_zero] at hr
  refine hr.congr' ?_
  filter_upwards [eventually_before h] with t ht
  rw [rate_formula p ht.1 ht.2.le lgt0]
  have h10 : (10 : ℝ) ^ logmh_at_t_obs p t lgt0 ≠ 0 := (Real.rpow_pos_of_pos (by norm_num) _).ne'
  have ht0 := ht.1.ne'
  simp only [Function.comp]
  field_simp

/-- **C136** (today). For a halo that has not peaked before today, the slope today is `early_index` plus the fraction
of the way to `late_index` that the transition has gone by today. -/
theorem C136_slope_today (p : MahParams ℝ) (lgt0 : ℝ) (h : (10 : ℝ) ^ lgt0 ≤ p.t_peak) :
    1e9 * dmhdt_kern_scalar p ((10 : ℝ) ^ lgt0) lgt0 = (10 : ℝ) ^ p.logm0 / (10 : ℝ) ^ lgt0 *
      (p.early_index + (p.late_index - p.early_index) * (1 / (1 + Real.exp (-(3.5 * (lgt0 - p.logtc)))))) := by
  rw [rate_formula p (Real.rpow_pos_of_pos (by norm_num) _) h, C01_mass_today p lgt0 h, logb_pow10, Real.sigmoid_def]
  ring

/-- **C136** (start of the mass). A positive `early_index` means that the halo starts from nothing. -/
theorem C136_starts_from_nothing (p : MahParams ℝ) (lgt0 : ℝ) (h : 0 < p.t_peak) (he : 0 < p.early_index) :
    Tendsto (fun t => (10 : ℝ) ^ logmh_at_t_obs p t lgt0) (𝓝[>] 0) (𝓝 0) := by
  have hp : Tendsto (fun t => (10 : ℝ) ^ powerLaw p.logm0 p.early_index t lgt0) (𝓝[>] 0) (𝓝 0) := by
    have hlin : Tendsto (fun t => powerLaw p.logm0 p.early_index t lgt0) (𝓝[>] 0) atBot :=
      tendsto_atBot_add_const_left _ _
        ((tendsto_atBot_add_const_right _ (-lgt0) logb_atBot).const_mul_atBot he)
    exact pow10_atBot.comp hlin
  have := (C136_early_limit p lgt0 h).mul hp
  rw [mul_zero] at this
  refine this.congr fun t => ?_
  exact div_mul_cancel₀ _ (Real.rpow_pos_of_pos (by norm_num) _).ne'

/-- The early power law divided by the time. -/
theorem powerLaw_div (p : MahParams ℝ) {t : ℝ} (ht : 0 < t) (lgt0 : ℝ) :
    (10 : ℝ) ^ powerLaw p.logm0 p.early_index t lgt0 / t
      = (10 : ℝ) ^ (p.logm0 - p.early_index * lgt0 + (p.early_index - 1) * Real.logb 10 t) := by
  have e : t = (10 : ℝ) ^ Real.logb 10 t := (pow10_logb ht).symm
  have e' : (10 : ℝ) ^ powerLaw p.logm0 p.early_index t lgt0 / t
      = (10 : ℝ) ^ powerLaw p.logm0 p.early_index t lgt0 / (10 : ℝ) ^ Real.logb 10 t := by rw [← e]
  rw [e', ← Real.rpow_sub (by norm_num), powerLaw]
  congr 1
  ring

theorem rate_ratio (p : MahParams ℝ) (lgt0 : ℝ) (h : 0 < p.t_peak) :
    Tendsto (fun t => 1e9 * dmhdt_kern_scalar p t lgt0 /
      (10 : ℝ) ^ (p.logm0 - p.early_index * lgt0 + (p.early_index - 1) * Real.logb 10 t)) (𝓝[>] 0) (𝓝 p.early_index) := by
  have := (C136_early_slope p lgt0 h).mul (C136_early_limit p lgt0 h)
  rw [mul_one] at this
  refine this.congr' ?_
  filter_upwards [eventually_before h] with t ht
  have h10 : (10 : ℝ) ^ logmh_at_t_obs p t lgt0 ≠ 0 := (Real.rpow_pos_of_pos (by norm_num) _).ne'
  have h11 : (10 : ℝ) ^ powerLaw p.logm0 p.early_index t lgt0 ≠ 0 := (Real.rpow_pos_of_pos (by norm_num) _).ne'
  have ht0 := ht.1.ne'
  rw [← powerLaw_div p ht.1 lgt0]
  field_simp

/-- **C136** (start of the accretion). With `early_index` above one the accretion rate starts from zero; with
`early_index` between zero and one it starts from infinity. -/
theorem C136_initial_rate (p : MahParams ℝ) (lgt0 : ℝ) (h : 0 < p.t_peak) :
    (1 < p.early_index → Tendsto (fun t => dmhdt_kern_scalar p t lgt0) (𝓝[>] 0) (𝓝 0)) ∧
      (0 < p.early_index → p.early_index < 1 →
        Tendsto (fun t => dmhdt_kern_scalar p t lgt0) (𝓝[>] 0) atTop) := by
  have hr := rate_ratio p lgt0 h
  have hpos : ∀ x : ℝ, (0 : ℝ) < 10 ^ x := fun x => Real.rpow_pos_of_pos (by norm_num) _
  have hback : ∀ t, 1e9 * dmhdt_kern_scalar p t lgt0 /
      (10 : ℝ) ^ (p.logm0 - p.early_index * lgt0 + (p.early_index - 1) * Real.logb 10 t) *
      (10 : ℝ) ^ (p.logm0 - p.early_index * lgt0 + (p.early_index - 1) * Real.logb 10 t) / 1e9
      = dmhdt_kern_scalar p t lgt0 := by
    intro t
    rw [div_mul_cancel₀ _ (hpos _).ne', mul_div_cancel_left₀ _ (by norm_num)]
  constructor
  · intro he
    have hlin : Tendsto (fun t => p.logm0 - p.early_index * lgt0 + (p.early_index - 1) * Real.logb 10 t) (𝓝[>] 0)
        atBot := tendsto_atBot_add_const_left _ _ (logb_atBot.const_mul_atBot (by linarith))
    have := (hr.mul (pow10_atBot.comp hlin)).div_const 1e9
    rw [mul_zero, zero_div] at this
    exact this.congr hback
  · intro he he'
    have hlin : Tendsto (fun t => p.logm0 - p.early_index * lgt0 + (p.early_index - 1) * Real.logb 10 t) (𝓝[>] 0)
        atTop := tendsto_atTop_add_const_left _ _ (logb_atBot.const_mul_atBot_of_neg (by linarith))
    have := ((hr.pos_mul_atTop he (pow10_atTop.comp hlin))).atTop_div_const
      (r := 1e9) (by norm_num)
    exact this.congr hback

/-- The default halo meets the hypotheses: it peaks after the transition and today (13.8 Gyr), and its accretion starts
from zero. -/
example : (10 : ℝ) ^ DEFAULT_MAH_PARAMS.logtc ≤ DEFAULT_MAH_PARAMS.t_peak ∧ (0 : ℝ) < DEFAULT_MAH_PARAMS.t_peak ∧
    (10 : ℝ) ^ Real.logb 10 13.8 ≤ DEFAULT_MAH_PARAMS.t_peak ∧ 1 < DEFAULT_MAH_PARAMS.early_index := by
  refine ⟨?_, by norm_num [DEFAULT_MAH_PARAMS], ?_, by norm_num [DEFAULT_MAH_PARAMS]⟩
  · have : (10 : ℝ) ^ DEFAULT_MAH_PARAMS.logtc ≤ (10 : ℝ) ^ (1 : ℝ) :=
      Real.rpow_le_rpow_of_exponent_le (by norm_num) (by norm_num [DEFAULT_MAH_PARAMS])
    rw [Real.rpow_one] at this
    exact this.trans (by norm_num [DEFAULT_MAH_PARAMS])
  · rw [pow10_logb (by norm_num)]; norm_num [DEFAULT_MAH_PARAMS]

/-- A valid halo whose accretion starts from infinity. -/
example : Spec.Valid ⟨12, 0, 1 / 2, 1 / 4, 14⟩ ∧ (0 : ℝ) < 1 / 2 ∧ (1 / 2 : ℝ) < 1 := by
  refine ⟨⟨by constructor <;> norm_num, by norm_num⟩, by norm_num, by norm_num⟩

end Diffmah

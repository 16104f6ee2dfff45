import Verif.Props.Bounding
import Mathlib.Analysis.Analytic.Uniqueness
import Mathlib.Analysis.Analytic.Constructions

/-!
# C117: a history determines its parameters

Stated with `logmh_at_t_obs` (bounded parameters) and `log_mah_kern_u_params` (unbounded
parameters).
-/

namespace Diffmah

open Set Filter

theorem plaw_analytic (x0 m xc e l : ℝ) :
    AnalyticOnNhd ℝ (fun x => rolling_plaw_vs_logt x x0 m xc e l) univ := by
  intro x _
  have h : (fun x : ℝ => rolling_plaw_vs_logt x x0 m xc e l)
      = fun x => (e + (l - e) * Real.sigmoid (3.5 * (x - xc))) * (x - x0) + m := by
    funext x; exact plaw_real ..
  rw [h]
  have hi : AnalyticAt ℝ (fun x : ℝ => 3.5 * (x - xc)) x :=
    analyticAt_const.mul (analyticAt_id.sub analyticAt_const)
  exact ((analyticAt_const.add (analyticAt_const.mul hi.sigmoid')).mul
    (analyticAt_id.sub analyticAt_const)).add analyticAt_const

/-- The power law of log-time determines its four parameters. -/
theorem plaw_injective {x0 m c e l m' c' e' l' : ℝ} (hne : l ≠ e)
    (h : ∀ x, rolling_plaw_vs_logt x x0 m c e l = rolling_plaw_vs_logt x x0 m' c' e' l') :
    m = m' ∧ c = c' ∧ e = e' ∧ l = l' := by
  simp only [plaw_real] at h
  have hm : m = m' := by have := h x0; simpa using this
  subst hm
  have hi : ∀ x, x ≠ x0 → sigmoid x c 3.5 e l = sigmoid x c' 3.5 e' l' := by
    intro x hx
    have := h x
    rw [sigmoid_real, sigmoid_real]
    exact mul_right_cancel₀ (sub_ne_zero.2 hx) (by linarith)
  have he : e = e' := by
    refine tendsto_nhds_unique (sigmoid_tendsto_atBot (x0 := c) (yhi := l) (k := 3.5) (by norm_num))
      ((sigmoid_tendsto_atBot (x0 := c') (yhi := l') (k := 3.5) (by norm_num)).congr' ?_)
    filter_upwards [eventually_lt_atBot x0] with x hx using (hi x hx.ne).symm
  have hl : l = l' := by
    refine tendsto_nhds_unique (sigmoid_tendsto_atTop (x0 := c) (ylo := e) (k := 3.5) (by norm_num))
      ((sigmoid_tendsto_atTop (x0 := c') (ylo := e') (k := 3.5) (by norm_num)).congr' ?_)
    filter_upwards [eventually_gt_atTop x0] with x hx using (hi x hx.ne').symm
  subst he hl
  refine ⟨rfl, ?_, rfl, rfl⟩
  have := hi (x0 + 1) (by simp)
  rw [sigmoid_real, sigmoid_real, add_right_inj] at this
  have := Real.sigmoid_injective (mul_left_cancel₀ (sub_ne_zero.2 hne) this)
  linarith

/-- **C117** (any period will do). Two haloes whose histories agree during some period of time,
however short, before either has peaked have the same `logm0`, `logtc`, `early_index` and
`late_index`. -/
theorem C117_any_period (p q : MahParams ℝ) (lgt0 a b : ℝ) (hne : p.late_index ≠ p.early_index)
    (ha : 0 < a) (hab : a < b) (hp : b ≤ p.t_peak) (hq : b ≤ q.t_peak)
    (h : ∀ t, a < t → t < b → logmh_at_t_obs p t lgt0 = logmh_at_t_obs q t lgt0) :
    p.logm0 = q.logm0 ∧ p.logtc = q.logtc ∧ p.early_index = q.early_index ∧
      p.late_index = q.late_index := by
  obtain ⟨t, hat, htb⟩ := exists_between hab
  have key : (fun x => rolling_plaw_vs_logt x lgt0 p.logm0 p.logtc p.early_index p.late_index)
      = fun x => rolling_plaw_vs_logt x lgt0 q.logm0 q.logtc q.early_index q.late_index := by
    refine AnalyticOnNhd.eq_of_eventuallyEq (z₀ := Real.logb 10 t)
      (plaw_analytic lgt0 p.logm0 p.logtc p.early_index p.late_index)
      (plaw_analytic lgt0 q.logm0 q.logtc q.early_index q.late_index) ?_
    have hnb : Ioo (Real.logb 10 a) (Real.logb 10 b) ∈ nhds (Real.logb 10 t) :=
      Ioo_mem_nhds (logb_smono ha hat) (logb_smono (ha.trans hat) htb)
    filter_upwards [hnb] with x hx
    have hx1 : a < 10 ^ x := by rw [← Real.logb_lt_iff_lt_rpow (by norm_num) ha]; exact hx.1
    have hx2 : (10 : ℝ) ^ x < b := by
      rw [← Real.lt_logb_iff_rpow_lt (by norm_num) (ha.trans hab)]; exact hx.2
    have := h _ hx1 hx2
    simp only [logmh_at_t_obs] at this
    rwa [log_mah_le (hx2.le.trans hp), log_mah_le (hx2.le.trans hq), noq_real, noq_real,
      logb_pow10] at this
  exact plaw_injective hne fun x => congrFun key x

theorem no_later_peak {p q : MahParams ℝ} {lgt0 : ℝ} (hq : Spec.Valid q)
    (h0 : (9 : ℝ) ≤ 10 ^ lgt0) (htp : 0 < p.t_peak)
    (h : ∀ t, 0 < t → logmh_at_t_obs p t lgt0 = logmh_at_t_obs q t lgt0) :
    q.t_peak ≤ p.t_peak := by
  by_contra hc
  have hlt := not_le.1 hc
  have h1 := C03_strictly_increasing_until_peak q hq.toInBox hq.late_lt_early.le lgt0 h0
    (a := p.t_peak) (b := q.t_peak) ⟨htp, hlt.le⟩ ⟨htp.trans hlt, le_rfl⟩ hlt
  simp only at h1
  rw [← h _ htp, ← h _ (htp.trans hlt), C02_frozen_after_peak p q.t_peak lgt0 hlt.le] at h1
  exact lt_irrefl _ h1

/-- **C117**. Two valid haloes with the same history have the same five parameters. -/
theorem C117_history_determines_parameters (p q : MahParams ℝ) (hp : Spec.Valid p)
    (hq : Spec.Valid q) (lgt0 : ℝ) (h0 : (9 : ℝ) ≤ 10 ^ lgt0)
    (h : ∀ t, 0 < t → logmh_at_t_obs p t lgt0 = logmh_at_t_obs q t lgt0) : p = q := by
  have htp : 0 < p.t_peak := by have := hp.tpeak_lo; norm_num at this; linarith
  have htq : 0 < q.t_peak := by have := hq.tpeak_lo; norm_num at this; linarith
  have e5 : p.t_peak = q.t_peak := le_antisymm (no_later_peak hp h0 htq fun t ht => (h t ht).symm)
    (no_later_peak hq h0 htp h)
  obtain ⟨e1, e2, e3, e4⟩ := C117_any_period p q lgt0 (p.t_peak / 2) p.t_peak
    hp.late_lt_early.ne (by linarith) (by linarith) le_rfl e5.le
    fun t ht _ => h t (by linarith)
  exact MahParams.ext e1 e2 e3 e4 e5

/-- **C117** (unbounded parameters). The unbounded parameters are determined as well, without any
condition on them. -/
theorem C117_unbounded (u v : MahUParams ℝ) (lgt0 : ℝ) (h0 : (9 : ℝ) ≤ 10 ^ lgt0)
    (h : ∀ t, 0 < t → log_mah_kern_u_params u t lgt0 = log_mah_kern_u_params v t lgt0) : u = v := by
  have := C117_history_determines_parameters _ _ (C12_bounded_params_valid u)
    (C12_bounded_params_valid v) lgt0 h0 h
  rw [← C13_unbounded_of_bounded u, this, C13_unbounded_of_bounded v]

/-- **C117**, why the indices must differ: with equal indices `logtc` has no effect on the
history. -/
theorem C117_equal_indices (p : MahParams ℝ) (c t lgt0 : ℝ) (he : p.late_index = p.early_index) :
    logmh_at_t_obs { p with logtc := c } t lgt0 = logmh_at_t_obs p t lgt0 := by
  simp only [logmh_at_t_obs]
  rw [log_mah_min, log_mah_min, noq_real, noq_real, plaw_real, plaw_real]
  simp [he]

example : DEFAULT_MAH_PARAMS.late_index ≠ DEFAULT_MAH_PARAMS.early_index ∧
    Spec.Valid DEFAULT_MAH_PARAMS ∧ (9 : ℝ) ≤ 10 ^ (1 : ℝ) ∧
    ∃ t, 0 < t ∧ logmh_at_t_obs DEFAULT_MAH_PARAMS t 1
      ≠ logmh_at_t_obs { DEFAULT_MAH_PARAMS with logtc := 0.5 } t 1 := by
  refine ⟨default_valid.late_lt_early.ne, default_valid, by norm_num, ?_⟩
  by_contra hc
  push Not at hc
  have hv : Spec.Valid { DEFAULT_MAH_PARAMS with logtc := 0.5 } := by
    constructor
    · constructor <;> norm_num [DEFAULT_MAH_PARAMS]
    · norm_num [DEFAULT_MAH_PARAMS]
  have := C117_history_determines_parameters _ _ default_valid hv 1 (by norm_num) hc
  have := congrArg MahParams.logtc this
  norm_num [DEFAULT_MAH_PARAMS] at this

end Diffmah

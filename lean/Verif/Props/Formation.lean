import Verif.Props.Kernels

/-!
# C115, C116: formation times, and what each parameter does to a history

Stated with `logmh_at_t_obs`, the log-mass of one halo at one time.
-/

namespace Diffmah

open Set

/-! ## C115 -/

theorem noq_continuousOn (p : MahParams ℝ) (lgt0 : ℝ) :
    ContinuousOn (fun t => log_mah_noq_kern p t lgt0) (Ioi 0) := by
  intro t ht
  refine ContinuousAt.continuousWithinAt ?_
  exact (plaw_continuous lgt0 p.logm0 p.logtc p.early_index p.late_index).continuousAt.comp
    (Real.continuousAt_log (ne_of_gt ht) |>.div_const _)

/-- Positive times at which the halo is still lighter than any given mass exist. -/
theorem exists_light (p : MahParams ℝ) (hp : Spec.InBox p) (hle : p.late_index ≤ p.early_index)
    (lgt0 m : ℝ) : ∃ t, 0 < t ∧ t < p.t_peak ∧ logmh_at_t_obs p t lgt0 < m := by
  have hl : 0 < p.late_index := by have := hp.late_lo; norm_num at this; linarith
  have htp : 0 < p.t_peak := by have := hp.tpeak_lo; norm_num at this; linarith
  obtain ⟨x, hx⟩ := exists_lt (min (min lgt0 (Real.logb 10 p.t_peak))
    (lgt0 + (m - p.logm0) / p.late_index))
  have h1 : x < lgt0 := hx.trans_le ((min_le_left _ _).trans (min_le_left _ _))
  have h2 : x < Real.logb 10 p.t_peak := hx.trans_le ((min_le_left _ _).trans (min_le_right _ _))
  have h3 : x < lgt0 + (m - p.logm0) / p.late_index := hx.trans_le (min_le_right _ _)
  have ht : (0 : ℝ) < 10 ^ x := by positivity
  have h4 : (10 : ℝ) ^ x < p.t_peak := by
    rwa [← Real.lt_logb_iff_rpow_lt (by norm_num) htp]
  refine ⟨10 ^ x, ht, h4, ?_⟩
  have := (C09_power_law_envelope p hle (10 ^ x) lgt0 ht
    (Real.rpow_le_rpow_of_exponent_le (by norm_num) h1.le) h4.le).2
  rw [logb_pow10] at this
  have h5 : p.late_index * (x - lgt0) < m - p.logm0 := by
    have : x - lgt0 < (m - p.logm0) / p.late_index := by linarith
    rw [lt_div_iff₀ hl] at this
    linarith
  linarith

/-- **C115** (formation times exist and are unique). Every mass up to the peak mass is reached at
exactly one time up to `t_peak`: before it the halo is lighter, from it on it is at least as
massive. -/
theorem C115_formation_time (p : MahParams ℝ) (hp : Spec.InBox p)
    (hle : p.late_index ≤ p.early_index) (lgt0 : ℝ) (h0 : (9 : ℝ) ≤ 10 ^ lgt0) (m : ℝ)
    (hm : m ≤ logmh_at_t_obs p p.t_peak lgt0) :
    ∃! tf, 0 < tf ∧ tf ≤ p.t_peak ∧ logmh_at_t_obs p tf lgt0 = m ∧
      (∀ t, 0 < t → (t < tf ↔ logmh_at_t_obs p t lgt0 < m)) := by
  obtain ⟨a, ha, hap, ham⟩ := exists_light p hp hle lgt0 m
  have hs := C03_strictly_increasing_until_peak p hp hle lgt0 h0
  have hcont : ContinuousOn (fun t => logmh_at_t_obs p t lgt0) (Icc a p.t_peak) := by
    refine ((noq_continuousOn p lgt0).mono fun t ht => lt_of_lt_of_le ha ht.1).congr ?_
    intro t ht
    exact log_mah_le ht.2
  obtain ⟨tf, ⟨h1, h2⟩, h3⟩ := intermediate_value_Icc hap.le hcont ⟨ham.le, hm⟩
  have hpos : 0 < tf := ha.trans_le h1
  refine ⟨tf, ⟨hpos, h2, h3, ?_⟩, ?_⟩
  · intro t ht
    constructor
    · intro h
      rw [← h3]
      exact hs ⟨ht, h.le.trans h2⟩ ⟨hpos, h2⟩ h
    · intro h
      by_contra hc
      have := C03_never_decreases p hp hle lgt0 h0 hpos ht (not_lt.1 hc)
      simp only at this h3
      linarith
  · rintro t ⟨ht, htp, htm, -⟩
    exact hs.injOn ⟨ht, htp⟩ ⟨hpos, h2⟩ (by simp only [htm, h3])

/-- **C115** (halo assembly is ordered). A larger fraction of the peak mass is reached later. -/
theorem C115_ordered (p : MahParams ℝ) (hp : Spec.InBox p) (hle : p.late_index ≤ p.early_index)
    (lgt0 : ℝ) (h0 : (9 : ℝ) ≤ 10 ^ lgt0) (t1 t2 : ℝ) (h1 : 0 < t1) (h2 : 0 < t2)
    (h : logmh_at_t_obs p t1 lgt0 < logmh_at_t_obs p t2 lgt0) : t1 < t2 := by
  by_contra hc
  have := C03_never_decreases p hp hle lgt0 h0 h2 h1 (not_lt.1 hc)
  simp only at this
  linarith

/-- **C115** (formation times do not depend on the mass scale). The time at which a given fraction
`f` of the peak mass is reached is the same for every `logm0`. -/
theorem C115_scale_free (p : MahParams ℝ) (lgt0 d f t : ℝ) :
    (10 : ℝ) ^ logmh_at_t_obs { p with logm0 := p.logm0 + d } t lgt0
        = f * 10 ^ logmh_at_t_obs { p with logm0 := p.logm0 + d } p.t_peak lgt0 ↔
      (10 : ℝ) ^ logmh_at_t_obs p t lgt0 = f * 10 ^ logmh_at_t_obs p p.t_peak lgt0 := by
  rw [C07_logm0_rescales, C07_logm0_rescales, Real.rpow_add (by norm_num),
    Real.rpow_add (by norm_num), ← mul_assoc]
  have : (10 : ℝ) ^ d ≠ 0 := by positivity
  exact mul_left_inj' this

/-- The half-mass time of the default halo exists and is unique. -/
example : ∃! tf, 0 < tf ∧ tf ≤ DEFAULT_MAH_PARAMS.t_peak ∧
    (10 : ℝ) ^ logmh_at_t_obs DEFAULT_MAH_PARAMS tf 1
      = 10 ^ logmh_at_t_obs DEFAULT_MAH_PARAMS DEFAULT_MAH_PARAMS.t_peak 1 / 2 := by
  set M := logmh_at_t_obs DEFAULT_MAH_PARAMS DEFAULT_MAH_PARAMS.t_peak 1
  have e : (10 : ℝ) ^ (M - Real.logb 10 2) = 10 ^ M / 2 := by
    rw [Real.rpow_sub (by norm_num), pow10_logb (by norm_num)]
  obtain ⟨tf, ⟨h1, h2, h3, -⟩, hu⟩ := C115_formation_time DEFAULT_MAH_PARAMS
    default_valid.toInBox default_valid.late_lt_early.le 1 (by norm_num) (M - Real.logb 10 2)
    (by have := Real.logb_pos (b := 10) (x := 2) (by norm_num) (by norm_num); linarith)
  refine ⟨tf, ⟨h1, h2, by rw [h3, e]⟩, ?_⟩
  rintro t ⟨g1, g2, g3⟩
  rw [← e] at g3
  have hj := Real.rpow_right_inj (x := 10) (by norm_num) (by norm_num) |>.1 g3
  have hs := C03_strictly_increasing_until_peak DEFAULT_MAH_PARAMS default_valid.toInBox
    default_valid.late_lt_early.le 1 (by norm_num)
  exact hs.injOn ⟨g1, g2⟩ ⟨h1, h2⟩ (by simp only [hj, h3])

/-! ## C116 -/

/-- The log-time at which the unfrozen power law is evaluated, for a time before today. -/
theorem frozen_before_today {p : MahParams ℝ} {t lgt0 : ℝ} (ht : 0 < t) (htp : 0 < p.t_peak)
    (h : min t p.t_peak < 10 ^ lgt0) : Real.logb 10 (min t p.t_peak) < lgt0 := by
  rwa [Real.logb_lt_iff_lt_rpow (by norm_num) (lt_min ht htp)]

/-- **C116** (`early_index`). Raising `early_index` lowers the mass at every time before today, and
at every later time if the halo peaked before today. -/
theorem C116_early_index (p : MahParams ℝ) (e' t lgt0 : ℝ) (h : p.early_index < e') (ht : 0 < t)
    (htp : 0 < p.t_peak) (hb : t < 10 ^ lgt0 ∨ p.t_peak < 10 ^ lgt0) :
    logmh_at_t_obs { p with early_index := e' } t lgt0 < logmh_at_t_obs p t lgt0 := by
  have hx := frozen_before_today ht htp (min_lt_iff.2 hb)
  simp only [logmh_at_t_obs]
  rw [log_mah_min, log_mah_min, noq_real, noq_real, plaw_real, plaw_real]
  simp only
  have h1 := Real.sigmoid_lt_one (3.5 * (Real.logb 10 (min t p.t_peak) - p.logtc))
  generalize Real.sigmoid (3.5 * (Real.logb 10 (min t p.t_peak) - p.logtc)) = s at *
  have := mul_pos (mul_pos (sub_pos.2 h) (sub_pos.2 h1)) (sub_pos.2 hx)
  nlinarith

/-- **C116** (`late_index`). Raising `late_index` lowers the mass in the same sense. -/
theorem C116_late_index (p : MahParams ℝ) (l' t lgt0 : ℝ) (h : p.late_index < l') (ht : 0 < t)
    (htp : 0 < p.t_peak) (hb : t < 10 ^ lgt0 ∨ p.t_peak < 10 ^ lgt0) :
    logmh_at_t_obs { p with late_index := l' } t lgt0 < logmh_at_t_obs p t lgt0 := by
  have hx := frozen_before_today ht htp (min_lt_iff.2 hb)
  simp only [logmh_at_t_obs]
  rw [log_mah_min, log_mah_min, noq_real, noq_real, plaw_real, plaw_real]
  simp only
  have h1 := Real.sigmoid_pos (3.5 * (Real.logb 10 (min t p.t_peak) - p.logtc))
  generalize Real.sigmoid (3.5 * (Real.logb 10 (min t p.t_peak) - p.logtc)) = s at *
  have := mul_pos (mul_pos (sub_pos.2 h) h1) (sub_pos.2 hx)
  nlinarith

/-- **C116** (`logtc`). Moving the transition later lowers the mass in the same sense. -/
theorem C116_logtc (p : MahParams ℝ) (c' t lgt0 : ℝ) (h : p.logtc < c') (ht : 0 < t)
    (hle : p.late_index < p.early_index)
    (htp : 0 < p.t_peak) (hb : t < 10 ^ lgt0 ∨ p.t_peak < 10 ^ lgt0) :
    logmh_at_t_obs { p with logtc := c' } t lgt0 < logmh_at_t_obs p t lgt0 := by
  have hx := frozen_before_today ht htp (min_lt_iff.2 hb)
  simp only [logmh_at_t_obs]
  rw [log_mah_min, log_mah_min, noq_real, noq_real, plaw_real, plaw_real]
  simp only
  have h1 : Real.sigmoid (3.5 * (Real.logb 10 (min t p.t_peak) - c'))
      < Real.sigmoid (3.5 * (Real.logb 10 (min t p.t_peak) - p.logtc)) :=
    Real.sigmoid_lt (by linarith)
  generalize Real.sigmoid (3.5 * (Real.logb 10 (min t p.t_peak) - p.logtc)) = s at *
  generalize Real.sigmoid (3.5 * (Real.logb 10 (min t p.t_peak) - c')) = s' at *
  have := mul_pos (mul_pos (sub_pos.2 hle) (sub_pos.2 h1)) (sub_pos.2 hx)
  nlinarith

/-- **C116** (together). Of two haloes with the same present-day mass that are still growing, the
one with the larger `early_index`, `late_index` and `logtc` (at least one of them strictly) reaches
every smaller mass at a later time. -/
theorem C116_later_formation (p q : MahParams ℝ) (hp : Spec.Valid p) (hq : Spec.Valid q)
    (hm : q.logm0 = p.logm0) (he : p.early_index ≤ q.early_index)
    (hl : p.late_index ≤ q.late_index) (hc : p.logtc ≤ q.logtc)
    (hne : p.early_index < q.early_index ∨ p.late_index < q.late_index ∨ p.logtc < q.logtc)
    (lgt0 : ℝ) (h0 : (9 : ℝ) ≤ 10 ^ lgt0) (hpt : 10 ^ lgt0 ≤ p.t_peak) (hqt : 10 ^ lgt0 ≤ q.t_peak)
    (tp tq : ℝ) (h1 : 0 < tp) (h2 : 0 < tq)
    (hsame : logmh_at_t_obs p tp lgt0 = logmh_at_t_obs q tq lgt0)
    (hlt : logmh_at_t_obs p tp lgt0 < p.logm0) : tp < tq := by
  have htq : tq < 10 ^ lgt0 := by
    refine C115_ordered q hq.toInBox hq.late_lt_early.le lgt0 h0 tq (10 ^ lgt0) h2 (by positivity) ?_
    rw [C01_mass_today q lgt0 hqt, hm, ← hsame]; exact hlt
  have hx : Real.logb 10 tq < lgt0 := by
    rwa [Real.logb_lt_iff_lt_rpow (by norm_num) h2]
  refine C115_ordered p hp.toInBox hp.late_lt_early.le lgt0 h0 tp tq h1 h2 ?_
  rw [hsame]
  simp only [logmh_at_t_obs]
  rw [log_mah_le (htq.le.trans hpt), log_mah_le (htq.le.trans hqt), noq_real, noq_real, plaw_real,
    plaw_real, hm]
  have s0 := Real.sigmoid_pos (3.5 * (Real.logb 10 tq - q.logtc))
  have s1 := Real.sigmoid_lt_one (3.5 * (Real.logb 10 tq - p.logtc))
  have s2 : Real.sigmoid (3.5 * (Real.logb 10 tq - q.logtc))
      ≤ Real.sigmoid (3.5 * (Real.logb 10 tq - p.logtc)) := Real.sigmoid_le (by linarith)
  have s3 : p.logtc < q.logtc → Real.sigmoid (3.5 * (Real.logb 10 tq - q.logtc))
      < Real.sigmoid (3.5 * (Real.logb 10 tq - p.logtc)) := fun h => Real.sigmoid_lt (by linarith)
  have hvp := hp.late_lt_early
  have hvq := hq.late_lt_early
  generalize Real.sigmoid (3.5 * (Real.logb 10 tq - q.logtc)) = s at *
  generalize Real.sigmoid (3.5 * (Real.logb 10 tq - p.logtc)) = r at *
  suffices h : p.early_index + (p.late_index - p.early_index) * r
      < q.early_index + (q.late_index - q.early_index) * s by nlinarith
  have g1 := mul_nonneg (sub_nonneg.2 he) (sub_nonneg.2 (s2.trans s1.le))
  have g2 := mul_nonneg (sub_nonneg.2 hl) s0.le
  have g3 := mul_nonneg (sub_nonneg.2 hvp.le) (sub_nonneg.2 s2)
  rcases hne with h | h | h
  · have := mul_pos (sub_pos.2 h) (sub_pos.2 (s2.trans_lt s1))
    nlinarith
  · have := mul_pos (sub_pos.2 h) s0
    nlinarith
  · have := mul_pos (sub_pos.2 hvp) (sub_pos.2 (s3 h))
    nlinarith

example : DEFAULT_MAH_PARAMS.early_index < 3 ∧ DEFAULT_MAH_PARAMS.late_index < 1 ∧
    DEFAULT_MAH_PARAMS.logtc < 0.5 ∧ (0 : ℝ) < 3 ∧ 0 < DEFAULT_MAH_PARAMS.t_peak ∧
    (3 : ℝ) < 10 ^ (1 : ℝ) ∧ Spec.Valid { DEFAULT_MAH_PARAMS with early_index := 3 } ∧
    (10 : ℝ) ^ (1 : ℝ) ≤ DEFAULT_MAH_PARAMS.t_peak := by
  refine ⟨?_, ?_, ?_, ?_, ?_, ?_, ?_, ?_⟩ <;> try norm_num [DEFAULT_MAH_PARAMS]
  constructor
  · constructor <;> norm_num
  · norm_num

end Diffmah

import Verif.Lemmas.Kernels
import Mathlib.Analysis.Complex.ExponentialBounds
import Mathlib.MeasureTheory.Integral.DivergenceTheorem

/-!
# Properties of the single-halo history (C01-C11, C17)

`logmh_at_t_obs` and `mah_singlehalo` are the public functions of `diffmah/diffmah_kernels.py`;
`dmhdt_kern_scalar` is the scalar entry point for the accretion rate.
-/

namespace Diffmah

open Set MeasureTheory

/-- A concrete valid halo used as a witness below: the package defaults. -/
theorem default_valid : Spec.Valid DEFAULT_MAH_PARAMS := by
  constructor
  · constructor <;> norm_num [DEFAULT_MAH_PARAMS]
  · norm_num [DEFAULT_MAH_PARAMS]

/-! ## C01 -/

/-- C01. If the halo has not peaked before today, its mass today is `10**logm0`. -/
theorem C01_mass_today (p : MahParams ℝ) (lgt0 : ℝ) (h : (10 : ℝ) ^ lgt0 ≤ p.t_peak) :
    logmh_at_t_obs p ((10 : ℝ) ^ lgt0) lgt0 = p.logm0 := by
  rw [logmh_at_t_obs, log_mah_le h, noq_real, logb_pow10, plaw_real]
  ring

/-- C01 for the array interface: every entry of the time grid equal to today. -/
theorem C01_mass_today_array (p : MahParams ℝ) (tarr : List ℝ) (lgt0 : ℝ)
    (h : (10 : ℝ) ^ lgt0 ≤ p.t_peak) (j : ℕ) (hj : tarr[j]? = some ((10 : ℝ) ^ lgt0)) :
    (mah_singlehalo p tarr lgt0).2[j]? = some p.logm0 := by
  simp only [mah_singlehalo, diffmah_kern, List.getElem?_map, hj, Option.map_some,
    Option.some.injEq]
  exact C01_mass_today p lgt0 h

example : (10 : ℝ) ^ (1 : ℝ) ≤ DEFAULT_MAH_PARAMS.t_peak := by
  norm_num [DEFAULT_MAH_PARAMS]

/-! ## C02 -/

/-- C02. After `t_peak` the mass is the mass at `t_peak`. -/
theorem C02_frozen_after_peak (p : MahParams ℝ) (t lgt0 : ℝ) (h : p.t_peak ≤ t) :
    logmh_at_t_obs p t lgt0 = logmh_at_t_obs p p.t_peak lgt0 := by
  simp only [logmh_at_t_obs]
  rw [log_mah_ge h, log_mah_ge le_rfl]

/-- C02. Before `t_peak` the history does not depend on `t_peak`. -/
theorem C02_independent_before_peak (p : MahParams ℝ) (tp t lgt0 : ℝ) (h1 : t ≤ p.t_peak)
    (h2 : t ≤ tp) :
    logmh_at_t_obs { p with t_peak := tp } t lgt0 = logmh_at_t_obs p t lgt0 := by
  simp only [logmh_at_t_obs]
  rw [log_mah_le (p := { p with t_peak := tp }) h2, log_mah_le h1]
  rfl

example : DEFAULT_MAH_PARAMS.t_peak ≤ 15 ∧ (3 : ℝ) ≤ DEFAULT_MAH_PARAMS.t_peak := by
  norm_num [DEFAULT_MAH_PARAMS]

/-! ## C03 -/

theorem slope_pos_of_box {p : MahParams ℝ} (hp : Spec.InBox p) (hle : p.late_index ≤ p.early_index)
    {lgt0 : ℝ} {x : ℝ} (hx : x < lgt0 + 22 / 63) :
    0 < p.early_index - (p.early_index - p.late_index) *
      (Real.sigmoid (3.5 * (x - p.logtc)) *
        (1 + (1 - Real.sigmoid (3.5 * (x - p.logtc))) * (3.5 * (x - lgt0)))) := by
  apply plaw_slope_pos hle
  · have h1 := hp.late_lo
    have h2 := hp.early_hi
    norm_num at h1 h2
    linarith
  · linarith

theorem twenty_le {lgt0 : ℝ} (h : (9 : ℝ) ≤ 10 ^ lgt0) : (20 : ℝ) ≤ 10 ^ (lgt0 + 22 / 63) := by
  rw [Real.rpow_add (by norm_num)]
  have h1 : (20 / 9 : ℝ) ≤ 10 ^ ((22 : ℝ) / 63) := by
    rw [show ((10 : ℝ) ^ ((22 : ℝ) / 63)) = ((10 : ℝ) ^ (22 : ℕ)) ^ ((63 : ℝ)⁻¹) by
      rw [← Real.rpow_natCast, ← Real.rpow_mul (by norm_num)]; norm_num]
    rw [Real.le_rpow_inv_iff_of_pos (by norm_num) (by norm_num) (by norm_num)]
    norm_num
  nlinarith

/-- C03. Mass strictly increases up to `t_peak`, for every in-bounds halo with ordered indices and
every present time of at least 9 Gyr. -/
theorem C03_strictly_increasing_until_peak (p : MahParams ℝ) (hp : Spec.InBox p)
    (hle : p.late_index ≤ p.early_index) (lgt0 : ℝ) (h0 : (9 : ℝ) ≤ 10 ^ lgt0) :
    StrictMonoOn (fun t => logmh_at_t_obs p t lgt0) (Ioc 0 p.t_peak) := by
  intro a ha b hb hab
  simp only [logmh_at_t_obs]
  rw [log_mah_le ha.2, log_mah_le hb.2]
  have h20 := twenty_le h0
  have := hp.tpeak_hi
  exact noq_strictMonoOn (c := lgt0 + 22 / 63) (fun x hx => slope_pos_of_box hp hle hx)
    ⟨ha.1, by linarith [ha.2]⟩ ⟨hb.1, by linarith [hb.2]⟩ hab

/-- C03. Mass never decreases, at any positive times. -/
theorem C03_never_decreases (p : MahParams ℝ) (hp : Spec.InBox p)
    (hle : p.late_index ≤ p.early_index) (lgt0 : ℝ) (h0 : (9 : ℝ) ≤ 10 ^ lgt0) :
    MonotoneOn (fun t => logmh_at_t_obs p t lgt0) (Ioi 0) := by
  intro a ha b hb hab
  have htp : 0 < p.t_peak := by have := hp.tpeak_lo; norm_num at this; linarith
  simp only [logmh_at_t_obs]
  rw [log_mah_min p a, log_mah_min p b]
  have hs := (C03_strictly_increasing_until_peak p hp hle lgt0 h0).monotoneOn
  have := hs (a := min a p.t_peak) (b := min b p.t_peak) ⟨lt_min ha htp, min_le_right _ _⟩
    ⟨lt_min hb htp, min_le_right _ _⟩ (min_le_min_right _ hab)
  simpa only [logmh_at_t_obs, log_mah_le (min_le_right _ p.t_peak)] using this

/-- C03 for the array interface: an increasing time grid gives a non-decreasing history. -/
theorem C03_array (p : MahParams ℝ) (hp : Spec.InBox p) (hle : p.late_index ≤ p.early_index)
    (lgt0 : ℝ) (h0 : (9 : ℝ) ≤ 10 ^ lgt0) (tarr : List ℝ) (hpos : ∀ t ∈ tarr, 0 < t)
    (hs : tarr.Pairwise (· ≤ ·)) :
    (mah_singlehalo p tarr lgt0).2.Pairwise (· ≤ ·) := by
  simp only [mah_singlehalo, diffmah_kern, List.pairwise_map]
  refine hs.imp_of_mem ?_
  intro a b ha hb hab
  exact C03_never_decreases p hp hle lgt0 h0 (hpos a ha) (hpos b hb) hab

/-- C03. For any present time at all, and any positive ordered indices, the mass is non-decreasing
up to today (indeed strictly increasing until the earlier of today and `t_peak`). -/
theorem C03_until_today (p : MahParams ℝ) (hl : 0 < p.late_index)
    (hle : p.late_index ≤ p.early_index) (lgt0 : ℝ) :
    StrictMonoOn (fun t => logmh_at_t_obs p t lgt0) (Ioc 0 (min p.t_peak (10 ^ lgt0))) := by
  intro a ha b hb hab
  simp only [logmh_at_t_obs]
  rw [log_mah_le (ha.2.trans (min_le_left _ _)), log_mah_le (hb.2.trans (min_le_left _ _))]
  refine noq_strictMonoOn (c := lgt0) (fun x hx => plaw_slope_pos_today hl hle (by linarith))
    ⟨ha.1, ha.2.trans (min_le_right _ _)⟩ ⟨hb.1, hb.2.trans (min_le_right _ _)⟩ hab

example : Spec.InBox DEFAULT_MAH_PARAMS ∧
    DEFAULT_MAH_PARAMS.late_index ≤ DEFAULT_MAH_PARAMS.early_index ∧
    (9 : ℝ) ≤ 10 ^ (1 : ℝ) :=
  ⟨default_valid.toInBox, default_valid.late_lt_early.le, by norm_num⟩

/-- C03, why the present time is restricted: the threshold `log10(20) - 22/63` (about 8.95 Gyr) is
sharp. For every earlier present time down to `10**-0.5` Gyr some valid halo loses mass before its
`t_peak`. -/
theorem C03_threshold_sharp (lgt0 : ℝ) (hlo : -1 / 2 ≤ lgt0)
    (hhi : lgt0 < Real.logb 10 20 - 22 / 63) :
    ∃ p : MahParams ℝ, Spec.Valid p ∧ ∃ t1 t2 : ℝ, 0 < t1 ∧ t1 < t2 ∧ t2 ≤ p.t_peak ∧
      logmh_at_t_obs p t2 lgt0 < logmh_at_t_obs p t1 lgt0 := by
  -- log-time `x` just past the threshold and below log10(20)
  obtain ⟨x, hx1, hx2⟩ := exists_between (show lgt0 + 22 / 63 < Real.logb 10 20 by linarith)
  have h20 : Real.logb 10 20 < 1.31 := by
    rw [Real.logb_lt_iff_lt_rpow (by norm_num) (by norm_num)]
    rw [show (1.31 : ℝ) = ((131 : ℕ) : ℝ) * ((100 : ℝ)⁻¹) by norm_num, Real.rpow_mul (by norm_num),
      Real.rpow_natCast, Real.lt_rpow_inv_iff_of_pos (by norm_num) (by norm_num) (by norm_num)]
    norm_num
  have hln : 2.3 < Real.log 10 ∧ Real.log 10 < 2.32 := by
    have h2 := Real.log_two_gt_d9
    have h2' := Real.log_two_lt_d9
    constructor
    · have : (23 / 10 : ℝ) * 3 < 3 * Real.log 10 := by
        have e : 3 * Real.log 10 = Real.log (1000) := by
          rw [show (1000 : ℝ) = 10 ^ 3 by norm_num, Real.log_pow]; norm_num
        have e2 : Real.log 1000 = Real.log 2 * 10 + Real.log (1000 / 1024) := by
          rw [show (1000 / 1024 : ℝ) = 1000 / (2 ^ 10) by norm_num,
            Real.log_div (by norm_num) (by norm_num), Real.log_pow]; push_cast; ring
        have e3 : 1 - (1000 / 1024 : ℝ)⁻¹ ≤ Real.log (1000 / 1024) :=
          Real.one_sub_inv_le_log_of_pos (by norm_num)
        rw [e, e2]; norm_num at e3 ⊢; linarith
      norm_num at this ⊢; linarith
    · have e : 3 * Real.log 10 = Real.log (1000) := by
        rw [show (1000 : ℝ) = 10 ^ 3 by norm_num, Real.log_pow]; norm_num
      have e2 : Real.log 1000 < Real.log 2 * 10 := by
        rw [show Real.log 2 * 10 = Real.log (2 ^ 10) by rw [Real.log_pow]; push_cast; ring]
        exact Real.log_lt_log (by norm_num) (by norm_num)
      norm_num; linarith
  set xc : ℝ := x - Real.log 10 / 3.5 with hxc
  have hsig : Real.sigmoid (3.5 * (x - xc)) = 10 / 11 := by
    rw [hxc, show (3.5 : ℝ) * (x - (x - Real.log 10 / 3.5)) = -Real.log (1 / 10) by
      rw [one_div, Real.log_inv]; ring, sigmoid_neg_log (by norm_num)]
    norm_num
  -- the slope at `x` is negative for indices close enough to the corner (10, 0.1)
  set c : ℝ := 3.5 * (x - lgt0) with hc
  have hc1 : 11 / 9 < c := by rw [hc]; norm_num; linarith
  set q : ℝ := 10 / 11 * (1 + (1 - 10 / 11) * c) with hq
  have hq1 : 100 / 99 < q := by rw [hq]; linarith
  set ε : ℝ := min (q - 100 / 99) 1 / (4 * q) with hε
  have hq0 : 0 < q := by linarith
  have hmin0 : 0 < min (q - 100 / 99) 1 := lt_min (by linarith) one_pos
  have hε0 : 0 < ε := div_pos hmin0 (by linarith)
  have hε1 : ε * (4 * q) ≤ q - 100 / 99 := by
    rw [hε, div_mul_cancel₀ _ (by positivity)]; exact min_le_left _ _
  have hε2 : ε * (4 * q) ≤ 1 := by
    rw [hε, div_mul_cancel₀ _ (by positivity)]; exact min_le_right _ _
  have hε3 : ε < 1 / 4 := by nlinarith
  set tp : ℝ := ((10 : ℝ) ^ x + 20) / 2 with htp
  have hx20 : (10 : ℝ) ^ x < 20 := by
    have := Real.rpow_lt_rpow_of_exponent_lt (x := 10) (by norm_num) hx2
    rwa [pow10_logb (by norm_num)] at this
  have hxpos : (0 : ℝ) < 10 ^ x := by positivity
  refine ⟨⟨10, xc, 10 - ε, 0.1 + ε, tp⟩, ?_, ?_⟩
  · constructor
    · constructor <;> norm_num <;> norm_num at h20 hln <;> try linarith
      · rw [hxc]; norm_num; linarith [hln.2]
      · rw [hxc]; norm_num; linarith [hln.1]
    · norm_num; linarith
  · have hslope : (10 - ε) - ((10 - ε) - (0.1 + ε)) * (Real.sigmoid (3.5 * (x - xc)) *
        (1 + (1 - Real.sigmoid (3.5 * (x - xc))) * (3.5 * (x - lgt0)))) < 0 := by
      rw [hsig, ← hc, ← hq]
      norm_num
      nlinarith
    have hd := plaw_hasDerivAt x lgt0 10 xc (10 - ε) (0.1 + ε)
    have hev := (hd.hasDerivWithinAt (s := Ioi x)).limsup_slope_le' (lt_irrefl x) hslope
    have hlt : ∀ᶠ y in nhdsWithin x (Ioi x), y < Real.logb 10 tp := by
      apply eventually_nhdsWithin_of_eventually_nhds
      apply eventually_lt_nhds
      rw [Real.lt_logb_iff_rpow_lt (by norm_num) (by rw [htp]; positivity), htp]
      linarith
    obtain ⟨y, hy1, hy2, hy3⟩ := (hev.and (hlt.and self_mem_nhdsWithin)).exists
    have hytp : (10 : ℝ) ^ y < tp := by
      rwa [← Real.lt_logb_iff_rpow_lt (by norm_num) (by rw [htp]; positivity)]
    have hxy : (10 : ℝ) ^ x < 10 ^ y := Real.rpow_lt_rpow_of_exponent_lt (by norm_num) hy3
    refine ⟨10 ^ x, 10 ^ y, hxpos, hxy, hytp.le, ?_⟩
    simp only [logmh_at_t_obs]
    rw [log_mah_lt hytp, log_mah_lt (hxy.trans hytp), noq_real, noq_real, logb_pow10, logb_pow10]
    have hxy' : x < y := hy3
    rw [slope_def_field, div_neg_iff] at hy1
    rcases hy1 with h | h
    · linarith [h.2]
    · linarith [h.1]

/-! ## C04 -/

theorem mass_eq_noq {p : MahParams ℝ} {t lgt0 : ℝ} (h : t ≤ p.t_peak) :
    (10 : ℝ) ^ logmh_at_t_obs p t lgt0 = mah_noq_kern p t lgt0 := by
  rw [logmh_at_t_obs, log_mah_le h, mah_noq_eq]

theorem singlehalo_rate_getElem? (p : MahParams ℝ) (tarr : List ℝ) (lgt0 : ℝ) (j : ℕ) :
    (mah_singlehalo p tarr lgt0).1[j]? = tarr[j]?.map fun t => dmhdt_kern_scalar p t lgt0 := by
  simp only [mah_singlehalo, diffmah_kern, dmhdt_kern, dmhdt_noq_kern, dmhdt_kern_scalar]
  rw [List.zipWith_map_right, List.zipWith_self, List.getElem?_map]

/-- C04. At every positive time other than `t_peak` itself, the accretion rate returned by
`mah_singlehalo`, in mass per year, times `1e9`, is the derivative of the returned mass
`10**log_mah` with respect to time in Gyr. -/
theorem C04_rate_is_derivative (p : MahParams ℝ) (tarr : List ℝ) (lgt0 : ℝ) (j : ℕ) (t rate : ℝ)
    (hj : tarr[j]? = some t) (hr : (mah_singlehalo p tarr lgt0).1[j]? = some rate) (ht : 0 < t)
    (hne : t ≠ p.t_peak) :
    HasDerivAt (fun τ => (10 : ℝ) ^ logmh_at_t_obs p τ lgt0) (1e9 * rate) t := by
  rw [singlehalo_rate_getElem?, hj, Option.map_some, Option.some.injEq] at hr
  subst hr
  rcases lt_or_gt_of_ne hne with h | h
  · have e : dmhdt_kern_scalar p t lgt0 = dmhdt_noq_kern_scalar p t lgt0 :=
      if_neg (not_lt.2 h.le)
    rw [e]
    refine (noq_hasDerivAt p ht.ne' lgt0).congr_of_eventuallyEq ?_
    filter_upwards [eventually_lt_nhds h] with y hy
    exact mass_eq_noq hy.le
  · have e : dmhdt_kern_scalar p t lgt0 = 0 := by
      have : dmhdt_kern_scalar p t lgt0 = 0.0 := if_pos h
      rw [this]; norm_num
    rw [e, mul_zero]
    refine (hasDerivAt_const t ((10 : ℝ) ^ logmh_at_t_obs p p.t_peak lgt0)).congr_of_eventuallyEq ?_
    filter_upwards [eventually_gt_nhds h] with y hy
    rw [C02_frozen_after_peak p y lgt0 hy.le]

/-- C04 at `t_peak`: the returned rate is the left derivative of the mass. -/
theorem C04_rate_at_peak_is_left_derivative (p : MahParams ℝ) (lgt0 : ℝ) (ht : 0 < p.t_peak) :
    HasDerivWithinAt (fun τ => (10 : ℝ) ^ logmh_at_t_obs p τ lgt0)
      (1e9 * dmhdt_kern_scalar p p.t_peak lgt0) (Iic p.t_peak) p.t_peak := by
  have e : dmhdt_kern_scalar p p.t_peak lgt0 = dmhdt_noq_kern_scalar p p.t_peak lgt0 :=
    if_neg (lt_irrefl _)
  rw [e]
  refine (noq_hasDerivAt p ht.ne' lgt0).hasDerivWithinAt.congr ?_ ?_
  · intro y hy; exact mass_eq_noq hy
  · exact mass_eq_noq le_rfl

example : ([2, 5] : List ℝ)[1]? = some (5 : ℝ) ∧ (0 : ℝ) < 5 ∧
    (5 : ℝ) ≠ DEFAULT_MAH_PARAMS.t_peak :=
  ⟨rfl, by norm_num, by norm_num [DEFAULT_MAH_PARAMS]⟩

/-- C04: the differentiated clipped kernel (`_dmhdt_grad_kern_unscaled`) agrees with the rate
returned by the public function away from the peak. -/
theorem C04_two_gradients_agree (p : MahParams ℝ) (t lgt0 : ℝ) (ht : 0 < t) (htp : 0 < p.t_peak)
    (hne : t ≠ p.t_peak) :
    dmhdt_grad_kern_unscaled p t lgt0 = 1e9 * dmhdt_kern_scalar p t lgt0 := by
  have h1 := (isAD_log_mah (IsADParams.const p t) (IsAD.var t) (IsAD.const lgt0 _) ht.ne' htp.ne'
    hne).pow10.2
  have h2 := C04_rate_is_derivative p [t] lgt0 0 t (dmhdt_kern_scalar p t lgt0) rfl
    (by rw [singlehalo_rate_getElem?]; rfl) ht hne
  exact h1.unique h2

/-! ## C05 -/

/-- C05. Integrating the returned accretion rate recovers the returned mass, on every interval of
positive times, whether or not it contains `t_peak`. -/
theorem C05_rate_integrates_to_mass (p : MahParams ℝ) (lgt0 t1 t2 : ℝ) (h1 : 0 < t1)
    (h12 : t1 ≤ t2) (htp : 0 < p.t_peak) :
    ∫ t in t1..t2, 1e9 * dmhdt_kern_scalar p t lgt0 =
      (10 : ℝ) ^ logmh_at_t_obs p t2 lgt0 - (10 : ℝ) ^ logmh_at_t_obs p t1 lgt0 := by
  have hcontNoq : ContinuousOn (fun t => mah_noq_kern p t lgt0) (Ioi 0) := fun t ht =>
    (noq_hasDerivAt p (ne_of_gt ht) lgt0).continuousAt.continuousWithinAt
  have hcontRate : ContinuousOn (fun t => 1e9 * dmhdt_noq_kern_scalar p t lgt0) (Ioi 0) := by
    have hlog : ContinuousOn (fun t : ℝ => Real.logb 10 t) (Ioi 0) := fun t ht =>
      ((Real.continuousAt_log (ne_of_gt ht)).div_const _).continuousWithinAt
    have hf : ContinuousOn (fun t => (10 : ℝ) ^ log_mah_noq_kern p t lgt0 / t *
        (p.early_index - (p.early_index - p.late_index) *
          (Real.sigmoid (3.5 * (Real.logb 10 t - p.logtc)) *
            (1 + (1 - Real.sigmoid (3.5 * (Real.logb 10 t - p.logtc))) *
              (3.5 * (Real.logb 10 t - lgt0)))))) (Ioi 0) := by
      have hs : ContinuousOn (fun t => Real.sigmoid (3.5 * (Real.logb 10 t - p.logtc))) (Ioi 0) :=
        continuous_sigmoid.comp_continuousOn (continuousOn_const.mul (hlog.sub continuousOn_const))
      refine (hcontNoq.div continuousOn_id fun t ht => ne_of_gt ht).mul ?_
      refine continuousOn_const.sub (continuousOn_const.mul (hs.mul ?_))
      exact continuousOn_const.add ((continuousOn_const.sub hs).mul
        (continuousOn_const.mul (hlog.sub continuousOn_const)))
    exact hf.congr fun t ht => dmhdt_noq_formula p (ne_of_gt ht) lgt0
  have hmass : ContinuousOn (fun τ => (10 : ℝ) ^ logmh_at_t_obs p τ lgt0) (Icc t1 t2) := by
    have e : (fun τ => (10 : ℝ) ^ logmh_at_t_obs p τ lgt0) =
        fun τ => mah_noq_kern p (min τ p.t_peak) lgt0 := by
      funext τ; rw [logmh_at_t_obs, log_mah_min, mah_noq_eq]
    rw [e]
    refine hcontNoq.comp (continuous_id.min continuous_const).continuousOn ?_
    intro τ hτ
    exact lt_min (h1.trans_le hτ.1) htp
  refine integral_eq_of_hasDerivAt_off_countable_of_le _ _ h12
    (countable_singleton p.t_peak) hmass ?_ ?_
  · intro t ht
    exact C04_rate_is_derivative p [t] lgt0 0 t _ rfl (by rw [singlehalo_rate_getElem?]; rfl)
      (h1.trans ht.1.1) ht.2
  · have hi : MeasureTheory.IntegrableOn (fun t => 1e9 * dmhdt_noq_kern_scalar p t lgt0)
        (Icc t1 t2) :=
      (hcontRate.mono fun t ht => h1.trans_le ht.1).integrableOn_Icc
    have hi2 := hi.indicator (measurableSet_Iic (a := p.t_peak))
    rw [intervalIntegrable_iff_integrableOn_Icc_of_le h12]
    refine hi2.congr_fun ?_ measurableSet_Icc
    intro t _
    by_cases h : t ≤ p.t_peak
    · have e : dmhdt_kern_scalar p t lgt0 = dmhdt_noq_kern_scalar p t lgt0 := if_neg (not_lt.2 h)
      simp only [e]
      exact indicator_of_mem (s := Iic p.t_peak) h _
    · have e : dmhdt_kern_scalar p t lgt0 = 0.0 := if_pos (not_le.1 h)
      simp only [e]
      rw [indicator_of_notMem (s := Iic p.t_peak) h]; norm_num

example : (0 : ℝ) < 1 ∧ (1 : ℝ) ≤ 15 ∧ 0 < DEFAULT_MAH_PARAMS.t_peak := by
  norm_num [DEFAULT_MAH_PARAMS]

/-! ## C06 -/

/-- C06. The rate is exactly zero after `t_peak`. -/
theorem C06_rate_zero_after_peak (p : MahParams ℝ) (t lgt0 : ℝ) (h : p.t_peak < t) :
    dmhdt_kern_scalar p t lgt0 = 0 := by
  have : dmhdt_kern_scalar p t lgt0 = 0.0 := if_pos h
  rw [this]; norm_num

/-- C06. The rate is strictly positive up to and including `t_peak`. -/
theorem C06_rate_positive_until_peak (p : MahParams ℝ) (hp : Spec.InBox p)
    (hle : p.late_index ≤ p.early_index) (lgt0 : ℝ) (h0 : (9 : ℝ) ≤ 10 ^ lgt0) (t : ℝ) (ht : 0 < t)
    (htp : t ≤ p.t_peak) : 0 < dmhdt_kern_scalar p t lgt0 := by
  have e : dmhdt_kern_scalar p t lgt0 = dmhdt_noq_kern_scalar p t lgt0 := if_neg (not_lt.2 htp)
  rw [e]
  have hf := dmhdt_noq_formula p ht.ne' lgt0
  have hx : Real.logb 10 t < lgt0 + 22 / 63 := by
    rw [Real.logb_lt_iff_lt_rpow (by norm_num) ht]
    have := twenty_le h0
    linarith [hp.tpeak_hi]
  have hs := slope_pos_of_box hp hle hx
  have hm : 0 < (10 : ℝ) ^ log_mah_noq_kern p t lgt0 / t := by positivity
  have : 0 < 1e9 * dmhdt_noq_kern_scalar p t lgt0 := by rw [hf]; exact mul_pos hm hs
  norm_num at this
  exact this

/-- C06. No entry returned by `mah_singlehalo` at a positive time is negative. -/
theorem C06_array_nonneg (p : MahParams ℝ) (hp : Spec.InBox p)
    (hle : p.late_index ≤ p.early_index) (lgt0 : ℝ) (h0 : (9 : ℝ) ≤ 10 ^ lgt0) (tarr : List ℝ)
    (hpos : ∀ t ∈ tarr, 0 < t) : ∀ r ∈ (mah_singlehalo p tarr lgt0).1, 0 ≤ r := by
  intro r hr
  obtain ⟨j, hj⟩ := List.mem_iff_getElem?.1 hr
  rw [singlehalo_rate_getElem?, Option.map_eq_some_iff] at hj
  obtain ⟨t, ht, rfl⟩ := hj
  have ht0 := hpos t (List.mem_of_getElem? ht)
  rcases le_or_gt t p.t_peak with h | h
  · exact (C06_rate_positive_until_peak p hp hle lgt0 h0 t ht0 h).le
  · exact (C06_rate_zero_after_peak p t lgt0 h).ge

/-! ## C07 -/

/-- C07. Shifting `logm0` shifts `log_mah` and rescales the accretion rate. -/
theorem C07_logm0_rescales (p : MahParams ℝ) (d t lgt0 : ℝ) :
    logmh_at_t_obs { p with logm0 := p.logm0 + d } t lgt0 = logmh_at_t_obs p t lgt0 + d := by
  have h : ∀ τ, log_mah_noq_kern { p with logm0 := p.logm0 + d } τ lgt0
      = log_mah_noq_kern p τ lgt0 + d := by
    intro τ; simp only [noq_real, plaw_real]; ring
  simp only [logmh_at_t_obs]
  rw [log_mah_min, log_mah_min, h]

theorem C07_rate_rescales (p : MahParams ℝ) (d t lgt0 : ℝ) (ht : t ≠ 0) :
    dmhdt_kern_scalar { p with logm0 := p.logm0 + d } t lgt0
      = (10 : ℝ) ^ d * dmhdt_kern_scalar p t lgt0 := by
  have h : log_mah_noq_kern { p with logm0 := p.logm0 + d } t lgt0
      = log_mah_noq_kern p t lgt0 + d := by
    simp only [noq_real, plaw_real]; ring
  have h1 := dmhdt_noq_formula { p with logm0 := p.logm0 + d } ht lgt0
  have h2 := dmhdt_noq_formula p ht lgt0
  rw [h, Real.rpow_add (by norm_num)] at h1
  have h3 : dmhdt_noq_kern_scalar { p with logm0 := p.logm0 + d } t lgt0
      = (10 : ℝ) ^ d * dmhdt_noq_kern_scalar p t lgt0 := by
    apply mul_left_cancel₀ (show (1e9 : ℝ) ≠ 0 by norm_num)
    rw [h1, mul_left_comm (1e9 : ℝ), h2]; ring
  by_cases hc : t > p.t_peak
  · rw [C06_rate_zero_after_peak p _ _ hc, mul_zero]
    exact C06_rate_zero_after_peak { p with logm0 := p.logm0 + d } _ _ hc
  · have e1 : dmhdt_kern_scalar p t lgt0 = dmhdt_noq_kern_scalar p t lgt0 := if_neg hc
    have e2 : dmhdt_kern_scalar { p with logm0 := p.logm0 + d } t lgt0
      = dmhdt_noq_kern_scalar { p with logm0 := p.logm0 + d } t lgt0 := if_neg hc
    rw [e1, e2, h3]

/-! ## C08 -/

/-- C08. Of two haloes that differ only in `t_peak`, the one peaking later is at least as massive
at every positive time (agreement before the earlier peak is `C02_independent_before_peak`). -/
theorem C08_later_peak_more_massive (p : MahParams ℝ) (tp : ℝ) (hp : Spec.InBox p)
    (hp' : Spec.InBox { p with t_peak := tp }) (hle : p.late_index ≤ p.early_index)
    (htp : p.t_peak ≤ tp) (lgt0 : ℝ) (h0 : (9 : ℝ) ≤ 10 ^ lgt0) (t : ℝ) (ht : 0 < t) :
    logmh_at_t_obs p t lgt0 ≤ logmh_at_t_obs { p with t_peak := tp } t lgt0 := by
  have hpos : 0 < p.t_peak := by have := hp.tpeak_lo; norm_num at this; linarith
  rcases le_total t p.t_peak with h | h
  · rw [C02_independent_before_peak p tp t lgt0 h (h.trans htp)]
  · rw [C02_frozen_after_peak p t lgt0 h,
      ← C02_independent_before_peak p tp p.t_peak lgt0 le_rfl htp]
    exact C03_never_decreases { p with t_peak := tp } hp' hle lgt0 h0 hpos ht h

example : Spec.InBox { DEFAULT_MAH_PARAMS with t_peak := 16 } := by
  constructor <;> norm_num [DEFAULT_MAH_PARAMS]

/-! ## C09 -/

/-- C09. Up to today (and before the peak) the history lies between its two power laws. -/
theorem C09_power_law_envelope (p : MahParams ℝ) (hle : p.late_index ≤ p.early_index)
    (t lgt0 : ℝ) (ht : 0 < t) (htoday : t ≤ 10 ^ lgt0) (htp : t ≤ p.t_peak) :
    p.logm0 + p.early_index * (Real.logb 10 t - lgt0) ≤ logmh_at_t_obs p t lgt0 ∧
      logmh_at_t_obs p t lgt0 ≤ p.logm0 + p.late_index * (Real.logb 10 t - lgt0) := by
  have hx : Real.logb 10 t - lgt0 ≤ 0 := by
    have := logb_mono ht htoday
    rw [logb_pow10] at this; linarith
  rw [logmh_at_t_obs, log_mah_le htp, noq_real, plaw_real]
  have h1 := Real.sigmoid_pos (3.5 * (Real.logb 10 t - p.logtc))
  have h2 := Real.sigmoid_lt_one (3.5 * (Real.logb 10 t - p.logtc))
  set s := Real.sigmoid (3.5 * (Real.logb 10 t - p.logtc))
  have a1 : p.late_index ≤ p.early_index + (p.late_index - p.early_index) * s := by nlinarith
  have a2 : p.early_index + (p.late_index - p.early_index) * s ≤ p.early_index := by nlinarith
  constructor <;> nlinarith

example : DEFAULT_MAH_PARAMS.late_index ≤ DEFAULT_MAH_PARAMS.early_index ∧ (0 : ℝ) < 5 ∧
    (5 : ℝ) ≤ 10 ^ (1 : ℝ) ∧ (5 : ℝ) ≤ DEFAULT_MAH_PARAMS.t_peak := by
  norm_num [DEFAULT_MAH_PARAMS]

/-! ## C10 -/

/-- Row `i` of a namedtuple of arrays, as a user would index it. -/
def MahPopArrays.row? (p : MahPopArrays) (i : ℕ) : Option (MahParams ℝ) := do
  some ⟨← p.logm0[i]?, ← p.logtc[i]?, ← p.early_index[i]?, ← p.late_index[i]?, ← p.t_peak[i]?⟩

theorem MahPopArrays.rows_getElem? (p : MahPopArrays) (i : ℕ) : p.rows[i]? = p.row? i := by
  unfold rows row?
  rw [List.getElem?_zipWith]
  simp only [List.zip, List.getElem?_zipWith]
  cases p.logm0[i]? <;> cases p.logtc[i]? <;> cases p.early_index[i]? <;>
    cases p.late_index[i]? <;> cases p.t_peak[i]? <;> rfl

/-- C10. Row `i` of both outputs of `mah_halopop` is `mah_singlehalo` on halo `i`, and no more rows
than haloes are returned. -/
theorem C10_rows_are_single_haloes (p : MahPopArrays) (tarr : List ℝ) (lgt0 : ℝ)
    (rates logmahs : List (List ℝ)) (h : mah_halopop p tarr lgt0 = .ok (rates, logmahs)) (i : ℕ) :
    rates[i]? = (p.row? i).map (fun q => (mah_singlehalo q tarr lgt0).1) ∧
    logmahs[i]? = (p.row? i).map (fun q => (mah_singlehalo q tarr lgt0).2) := by
  unfold mah_halopop at h
  split at h
  · simp only [mah_halopop_rows, Except.ok.injEq, Prod.mk.injEq] at h
    obtain ⟨rfl, rfl⟩ := h
    rw [← p.rows_getElem? i]
    simp only [List.getElem?_map, Option.map_map]
    exact ⟨rfl, rfl⟩
  · cases h

/-- C10. Output shape `(n_halos, n_times)`; the call succeeds exactly when the five parameter arrays
have one common length. -/
theorem C10_shape (p : MahPopArrays) (tarr : List ℝ) (lgt0 : ℝ) (n : ℕ)
    (h1 : p.logm0.length = n) (h2 : p.logtc.length = n) (h3 : p.early_index.length = n)
    (h4 : p.late_index.length = n) (h5 : p.t_peak.length = n) :
    ∃ rates logmahs, mah_halopop p tarr lgt0 = .ok (rates, logmahs) ∧ rates.length = n ∧
      logmahs.length = n ∧ (∀ r ∈ rates, r.length = tarr.length) ∧
      (∀ r ∈ logmahs, r.length = tarr.length) := by
  refine ⟨_, _, if_pos ⟨by omega, by omega, by omega, by omega⟩, ?_, ?_, ?_, ?_⟩
  · simp [MahPopArrays.rows, *]
  · simp [MahPopArrays.rows, *]
  · intro r hr
    simp only [List.map_map, List.mem_map, Function.comp] at hr
    obtain ⟨q, -, rfl⟩ := hr
    simp [diffmah_kern, dmhdt_kern, dmhdt_noq_kern]
  · intro r hr
    simp only [List.map_map, List.mem_map, Function.comp] at hr
    obtain ⟨q, -, rfl⟩ := hr
    simp [diffmah_kern]

theorem C10_size_mismatch_rejected (p : MahPopArrays) (tarr : List ℝ) (lgt0 : ℝ)
    (h : ¬(p.logtc.length = p.logm0.length ∧ p.early_index.length = p.logm0.length ∧
      p.late_index.length = p.logm0.length ∧ p.t_peak.length = p.logm0.length)) :
    mah_halopop p tarr lgt0 = .error .sizeMismatch := if_neg h

/-- C10. Selecting or reordering haloes selects or reorders the output rows in the same way: if halo
`i` of one population is halo `σ i` of another, so are the rows of both outputs. -/
theorem C10_permutation (p q : MahPopArrays) (σ : ℕ → ℕ) (tarr : List ℝ) (lgt0 : ℝ)
    (rp lp rq lq : List (List ℝ)) (hp : mah_halopop p tarr lgt0 = .ok (rp, lp))
    (hq : mah_halopop q tarr lgt0 = .ok (rq, lq)) (i : ℕ) (h : q.row? i = p.row? (σ i)) :
    rq[i]? = rp[σ i]? ∧ lq[i]? = lp[σ i]? := by
  rw [(C10_rows_are_single_haloes p tarr lgt0 rp lp hp _).1,
    (C10_rows_are_single_haloes p tarr lgt0 rp lp hp _).2,
    (C10_rows_are_single_haloes q tarr lgt0 rq lq hq _).1,
    (C10_rows_are_single_haloes q tarr lgt0 rq lq hq _).2, h]
  exact ⟨rfl, rfl⟩

/-- Two haloes in the opposite order. -/
example : ∀ i < 2, (⟨[12, 11], [0, 0.5], [2, 3], [1, 1], [14, 9]⟩ : MahPopArrays).row? i
    = (⟨[11, 12], [0.5, 0], [3, 2], [1, 1], [9, 14]⟩ : MahPopArrays).row? (1 - i) := by
  intro i hi
  interval_cases i <;> rfl


/-! ## C11 -/

/-- C11. Each output entry depends on its own time only; `log_mah` entries are `logmh_at_t_obs`. -/
theorem C11_pointwise (p : MahParams ℝ) (tarr : List ℝ) (lgt0 : ℝ) (j : ℕ) :
    (mah_singlehalo p tarr lgt0).2[j]? = tarr[j]?.map (fun t => logmh_at_t_obs p t lgt0) ∧
    (mah_singlehalo p tarr lgt0).1[j]? = tarr[j]?.map (fun t => dmhdt_kern_scalar p t lgt0) :=
  ⟨by simp [mah_singlehalo, diffmah_kern, logmh_at_t_obs], singlehalo_rate_getElem? p tarr lgt0 j⟩

theorem C11_grid_independent (p : MahParams ℝ) (tarr tarr' : List ℝ) (lgt0 : ℝ) (j j' : ℕ)
    (h : tarr[j]? = tarr'[j']?) :
    (mah_singlehalo p tarr lgt0).1[j]? = (mah_singlehalo p tarr' lgt0).1[j']? ∧
    (mah_singlehalo p tarr lgt0).2[j]? = (mah_singlehalo p tarr' lgt0).2[j']? := by
  simp only [(C11_pointwise _ _ _ _).1, (C11_pointwise _ _ _ _).2, h, and_self]

/-- C11. The kernel for one time returns the entries that `mah_singlehalo` returns for that time. -/
theorem C11_scalar_kernel (p : MahParams ℝ) (tarr : List ℝ) (lgt0 : ℝ) (j : ℕ) (t : ℝ) (h : tarr[j]? = some t) :
    (mah_singlehalo p tarr lgt0).1[j]? = some (diffmah_kern_scalar p t lgt0).1 ∧
    (mah_singlehalo p tarr lgt0).2[j]? = some (diffmah_kern_scalar p t lgt0).2 := by
  rw [(C11_pointwise _ _ _ _).1, (C11_pointwise _ _ _ _).2, h]
  exact ⟨rfl, rfl⟩

/-- C02. The same for the arrays of `mah_singlehalo`: all entries at times from `t_peak` on are the mass at
`t_peak`, and the entries at times up to `t_peak` do not depend on it. -/
theorem C02_array (p : MahParams ℝ) (tp : ℝ) (tarr : List ℝ) (lgt0 : ℝ) (j : ℕ) (t : ℝ) (h : tarr[j]? = some t) :
    (p.t_peak ≤ t → (mah_singlehalo p tarr lgt0).2[j]? = some (logmh_at_t_obs p p.t_peak lgt0)) ∧
    (t ≤ p.t_peak → t ≤ tp → (mah_singlehalo { p with t_peak := tp } tarr lgt0).2[j]?
      = (mah_singlehalo p tarr lgt0).2[j]?) := by
  simp only [(C11_pointwise _ _ _ _).1, h, Option.map_some, Option.some.injEq]
  exact ⟨C02_frozen_after_peak p t lgt0, C02_independent_before_peak p tp t lgt0⟩

example : ([1, 2] : List ℝ)[1]? = ([2, 7, 9] : List ℝ)[0]? := rfl

/-! ## C17 -/

/-- C17. The entry points taking unbounded parameters agree with the public functions applied to
`get_bounded_mah_params`. -/
theorem C17_u_params_entry_points (u : MahUParams ℝ) (tarr : List ℝ) (lgt0 : ℝ) :
    diffmah_kern_u_params u tarr lgt0 = mah_singlehalo (get_bounded_mah_params u) tarr lgt0 ∧
    dmhdt_kern_u_params u tarr lgt0 = (mah_singlehalo (get_bounded_mah_params u) tarr lgt0).1 ∧
    (∀ t, log_mah_kern_u_params u t lgt0 = logmh_at_t_obs (get_bounded_mah_params u) t lgt0) :=
  ⟨rfl, rfl, fun _ => rfl⟩

end Diffmah

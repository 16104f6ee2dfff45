import Verif.Props.TPeakLaw

/-!
# Densities of peak times (C111)

The densities to which peak-time models are fitted, the distribution functions and the Monte Carlo draws
describe the same distribution.
-/

set_option maxRecDepth 10000

namespace Diffmah

open Pop TPeak PopParams MC MeasureTheory ProbabilityTheory

/-! ## The truncated normal distribution -/

section
variable {a b loc s : ℝ}

theorem truncnorm_pdf_nonneg (hs : 0 < s) (hab : a < b) (x : ℝ) : 0 ≤ truncnorm_pdf x a b loc s := by
  unfold truncnorm_pdf
  simp only
  split_ifs
  · exact le_rfl
  · exact div_nonneg (gaussianPDFReal_nonneg 0 1 _)
      (mul_nonneg hs.le (sub_nonneg.2 (ndtr_strictMono hab).le))

theorem truncnorm_pdf_outside (hs : 0 < s) {x : ℝ} (hx : x < loc + a * s ∨ loc + b * s < x) :
    truncnorm_pdf x a b loc s = 0 := by
  unfold truncnorm_pdf
  simp only
  rw [if_pos]
  refine hx.imp (fun h => ?_) fun h => ?_
  · rw [div_lt_iff₀ hs]; linarith
  · rw [lt_div_iff₀ hs]; linarith

theorem truncnorm_pdf_inside (hs : 0 < s) {x : ℝ} (h1 : loc + a * s ≤ x) (h2 : x ≤ loc + b * s) :
    truncnorm_pdf x a b loc s = gaussianPDFReal 0 1 ((x - loc) / s) / (s * (ndtr b - ndtr a)) := by
  unfold truncnorm_pdf
  simp only
  rw [if_neg]
  rintro (h | h)
  · rw [div_lt_iff₀ hs] at h; linarith
  · rw [lt_div_iff₀ hs] at h; linarith

theorem truncnorm_between (hs : 0 < s) {x : ℝ} (h1 : loc + a * s ≤ x) (h2 : x ≤ loc + b * s) :
    ∫ t in (loc + a * s)..x, truncnorm_pdf t a b loc s =
      (ndtr ((x - loc) / s) - ndtr a) / (ndtr b - ndtr a) := by
  have e : ∫ t in (loc + a * s)..x, truncnorm_pdf t a b loc s =
      ∫ t in (loc + a * s)..x, gaussianPDFReal 0 1 ((t - loc) / s) / (s * (ndtr b - ndtr a)) := by
    apply intervalIntegral.integral_congr
    intro t ht
    rw [Set.uIcc_of_le h1] at ht
    exact truncnorm_pdf_inside hs ht.1 (ht.2.trans h2)
  rw [e, intervalIntegral.integral_eq_sub_of_hasDerivAt (f := fun t => ndtr ((t - loc) / s) / (ndtr b - ndtr a))]
  · rw [show (loc + a * s - loc) / s = a by field_simp; ring]
    ring
  · intro t _
    have h := (ndtr_hasDerivAt ((t - loc) / s)).comp t (((hasDerivAt_id t).sub_const loc).div_const s)
    have h' := h.div_const (ndtr b - ndtr a)
    rw [mul_one_div, div_div] at h'
    exact h'
  · apply Continuous.intervalIntegrable
    exact (gaussian_pdf_continuous.comp (by fun_prop)).div_const _

/-- The modelled `truncnorm.pdf` is the density of the modelled `truncnorm.cdf`. -/
theorem truncnorm_cdf_integral (hs : 0 < s) (hab : a < b) (x : ℝ) :
    truncnorm_cdf x a b loc s = ∫ t in Set.Iic x, truncnorm_pdf t a b loc s := by
  have hAB : loc + a * s < loc + b * s := by nlinarith
  have hZ : 0 < ndtr b - ndtr a := sub_pos.2 (ndtr_strictMono hab)
  have hy : ∀ y, y ≤ (x - loc) / s ↔ loc + y * s ≤ x := by
    intro y; rw [le_div_iff₀ hs]; constructor <;> intro h <;> linarith
  have hy' : (x - loc) / s ≤ a ↔ x ≤ loc + a * s := by
    rw [div_le_iff₀ hs]; constructor <;> intro h <;> linarith
  -- the integral up to `x` is the integral over the part of the truncation interval below `x`
  have key : ∀ c, loc + a * s ≤ c → c ≤ loc + b * s → (c = x ∨ (c = loc + b * s ∧ c ≤ x)) →
      ∫ t in Set.Iic x, truncnorm_pdf t a b loc s = (ndtr ((c - loc) / s) - ndtr a) / (ndtr b - ndtr a) := by
    intro c h1 h2 h3
    rw [← truncnorm_between hs h1 h2, intervalIntegral.integral_of_le h1, ← integral_Icc_eq_integral_Ioc]
    have hcx : c ≤ x := by rcases h3 with h | h; exacts [h.le, h.2]
    apply setIntegral_eq_of_subset_of_forall_sdiff_eq_zero measurableSet_Iic
    · exact fun t ht => ht.2.trans hcx
    · rintro t ⟨ht, ht'⟩
      apply truncnorm_pdf_outside hs
      by_contra hc
      push Not at hc
      refine ht' ⟨hc.1, ?_⟩
      rcases h3 with h | h
      · rw [h]; exact ht
      · rw [h.1]; exact hc.2
  unfold truncnorm_cdf
  simp only [hy, hy']
  split_ifs with h1 h2
  · rw [key _ hAB.le le_rfl (Or.inr ⟨rfl, h1⟩), show (loc + b * s - loc) / s = b by field_simp; ring, div_self hZ.ne']
  · rw [setIntegral_congr_set (Iio_ae_eq_Iic (a := x) (μ := volume)).symm]
    symm
    apply setIntegral_eq_zero_of_forall_eq_zero
    intro t ht
    exact truncnorm_pdf_outside hs (Or.inl (lt_of_lt_of_le ht h2))
  · push Not at h1 h2
    rw [key x h2.le h1.le (Or.inl rfl)]

theorem truncnorm_pdf_integral (hs : 0 < s) (hab : a < b) : ∫ t, truncnorm_pdf t a b loc s = 1 := by
  have h := truncnorm_cdf_integral (loc := loc) hs hab (loc + b * s)
  have h1 : truncnorm_cdf (loc + b * s) a b loc s = 1 := by
    unfold truncnorm_cdf
    simp only
    rw [if_pos]
    rw [show (loc + b * s - loc) / s = b by field_simp; ring]
  rw [← h1, h]
  symm
  apply setIntegral_eq_integral_of_forall_compl_eq_zero
  intro t ht
  exact truncnorm_pdf_outside hs (Or.inr (not_le.1 ht))

end

/-! ## C111 -/

variable {Ω : Type} [MeasurableSpace Ω]

theorem utp_interval (loc : ℝ) {s : ℝ} (hs : 0 < s) :
    loc + (X_MIN - loc) / s * s = 0.1 ∧ loc + (X_MAX - loc) / s * s = 1 ∧ (X_MIN - loc) / s < (X_MAX - loc) / s := by
  rw [div_mul_cancel₀ _ hs.ne', div_mul_cancel₀ _ hs.ne']
  refine ⟨by rw [X_MIN]; ring, by rw [X_MAX]; norm_num, div_lt_div_of_pos_right (by norm_num [X_MIN, X_MAX]) hs⟩

/-- C111. The density of peak times in units of the final time, for every location and positive scale: it is
a probability density on [0.1, 1], and the distribution function is its integral. -/
theorem C111_density (eps loc s : ℝ) (hs : 0 < s) :
    ∃ f : ℝ → ℝ, (∀ xs, tp_pdf_kern (Ext.normal eps) xs loc s = xs.map f) ∧ IsDensityOn f 0.1 1 ∧
      ∀ xs, tp_cdf_kern (Ext.normal eps) xs loc s = xs.map fun x => ∫ t in Set.Iic x, f t := by
  obtain ⟨h1, h2, h3⟩ := utp_interval loc hs
  refine ⟨fun x => truncnorm_pdf x ((X_MIN - loc) / s) ((X_MAX - loc) / s) loc s, fun xs => rfl,
    ⟨truncnorm_pdf_nonneg hs h3, fun x hx => truncnorm_pdf_outside hs (by rwa [h1, h2]),
      truncnorm_pdf_integral hs h3⟩, fun xs => ?_⟩
  unfold tp_cdf_kern
  apply List.map_congr_left
  intro x _
  exact truncnorm_cdf_integral hs h3 x

/-- The law of the draws, against the density. -/
theorem draw_density {P : Measure Ω} {eps : ℝ} (he : 0 ≤ eps) {rng : Ω → Rng} {key : Key}
    (hu : IsUniform P fun ω => (rng ω).uniform key) {loc s : ℝ} (l1 : 0.15 < loc) (l2 : loc < 0.96) (s1 : 0.1 < s)
    {v : Ω → ℝ} (hv : ∀ ω, mc_tp_pdf_singlesat (Ext.normal eps) (rng ω) key loc s = .ok (v ω, [key])) (x : ℝ) :
    |P.real {ω | v ω ≤ x} - ∫ t in Set.Iic x, truncnorm_pdf t ((X_MIN - loc) / s) ((X_MAX - loc) / s) loc s| ≤
      0.001 + eps := by
  have hs : 0 < s := by norm_num at s1; linarith
  obtain ⟨h1, h2, h3⟩ := utp_interval loc hs
  have h := sat_law he hu l1 l2 s1 hv x
  have e := truncnorm_cdf_eq (x := x) (loc := loc) hs h3 (v := (s ^ 2).toNNReal)
    (Real.coe_toNNReal _ (sq_nonneg s))
  rw [h1, h2] at e
  rwa [← e, truncnorm_cdf_integral hs h3] at h

/-- C111, satellites. The peak times drawn for a satellite, in units of the time of observation, are
distributed with the density of `_tp_pdf_kern` at the model's location and scale, up to 0.001 and the
tolerance of `jnp.interp` in the distribution function. -/
theorem C111_satellites (P : Measure Ω) (eps : ℝ) (he : 0 ≤ eps) (rng : Ω → Rng) (p : NT ℝ)
    (hb : Spec.Bounded TPSATS.bounds p) (lgm t_obs : ℝ) (ht : 0 < t_obs) (key : Key)
    (hu : IsUniform P fun ω => (rng ω).uniform key) (tp : Ω → ℝ)
    (h : ∀ ω, (mc_tpeak_singlesat (Ext.normal eps) (rng ω) p key lgm t_obs).val? = some (tp ω)) :
    ∃ (loc s : ℝ) (f : ℝ → ℝ), get_utp_loc p lgm t_obs = .ok loc ∧ get_utp_scale p lgm t_obs = .ok s ∧
      (∀ xs, tp_pdf_kern (Ext.normal eps) xs loc s = xs.map f) ∧ IsDensityOn f 0.1 1 ∧
      ∀ x, |P.real {ω | tp ω ≤ x * t_obs} - ∫ t in Set.Iic x, f t| ≤ 0.001 + eps := by
  obtain ⟨loc, s, hl, hs, s0, hx⟩ := C108_satellites P eps he rng p hb lgm t_obs ht key hu tp h
  obtain ⟨h1, h2, h3⟩ := utp_interval loc s0
  refine ⟨loc, s, fun x => truncnorm_pdf x ((X_MIN - loc) / s) ((X_MAX - loc) / s) loc s, hl, hs, fun xs => rfl,
    ⟨truncnorm_pdf_nonneg s0 h3, fun x hx => truncnorm_pdf_outside s0 (by rwa [h1, h2]),
      truncnorm_pdf_integral s0 h3⟩, fun x => ?_⟩
  have e := truncnorm_cdf_eq (x := x) (loc := loc) s0 h3 (v := (s ^ 2).toNNReal)
    (Real.coe_toNNReal _ (sq_nonneg s))
  rw [h1, h2] at e
  have := hx x
  rwa [← e, truncnorm_cdf_integral s0 h3] at this

/-- C111, centrals of `tp_pdf_cens.py`. For every halo the density returned for an array of peak times is a
probability density on [0.1 t_0, t_0], and the peak times drawn for that halo are distributed with it, up to
0.001 and the tolerance of `jnp.interp` in the distribution function. The returned distribution function is
the integral of that density divided by `t_0` (C66). -/
theorem C111_centrals (P : Measure Ω) (eps : ℝ) (he : 0 ≤ eps) (rng : Ω → Rng) (p : NT ℝ)
    (hb : Spec.Bounded TPCENS_OLD.bounds p) (lgm t_obs t_0 : ℝ) (ht : 0 < t_0) (key : Key)
    (hu : IsUniform P fun ω => (rng ω).uniform key) :
    ∃ (f : ℝ → ℝ) (tp : Ω → ℝ),
      (∀ ts, t_peak_cen_pdf_singlehalo_kern (Ext.normal eps) p lgm t_obs ts t_0 = .ok (ts.map f)) ∧
      IsDensityOn f (0.1 * t_0) t_0 ∧
      (∀ ω, (old_mc_tpeak_singlecen (Ext.normal eps) (rng ω) p key lgm t_obs t_0).val? = some (tp ω)) ∧
      (∀ t, |P.real {ω | tp ω ≤ t} - ∫ x in Set.Iic t, f x| ≤ 0.001 + eps) ∧
      ∀ ts, t_peak_cen_cdf_singlehalo_kern (Ext.normal eps) p lgm t_obs ts t_0 =
        .ok (ts.map fun t => (∫ x in Set.Iic t, f x) / t_0) := by
  obtain ⟨s, b, hs, hbo, s1, b1⟩ := old_scale_ok hb lgm t_obs t_0
  have s1' : 0.1 < s + b := by linarith
  have s0 : 0 < s + b := by norm_num at s1; linarith
  set w := s + b with hw
  obtain ⟨h1, h2, h3⟩ := utp_interval 0.95 s0
  set A := (X_MIN - 0.95) / w
  set B := (X_MAX - 0.95) / w
  have hint : ∀ t, ∫ x in Set.Iic t, truncnorm_pdf (x / t_0) A B 0.95 w / t_0 =
      ∫ x in Set.Iic (t / t_0), truncnorm_pdf x A B 0.95 w := by
    intro t
    rw [integral_div]
    rw [← integral_indicator measurableSet_Iic, ← integral_indicator measurableSet_Iic]
    have e : (Set.Iic t).indicator (fun x => truncnorm_pdf (x / t_0) A B 0.95 w) =
        fun x => (Set.Iic (t / t_0)).indicator (fun x => truncnorm_pdf x A B 0.95 w) (x / t_0) := by
      funext x
      simp only [Set.indicator, Set.mem_Iic, div_le_div_iff_of_pos_right ht]
    rw [e, Measure.integral_comp_div, abs_of_pos ht, smul_eq_mul, mul_div_cancel_left₀ _ ht.ne']
  have hloc : 0.0 * w + DEFAULT_TRUNCNORM_LOC = 0.95 := by norm_num [DEFAULT_TRUNCNORM_LOC]
  have hd : ∀ ω, ∃ v, mc_tp_pdf_singlesat (Ext.normal eps) (rng ω) key 0.95 w = .ok (v, [key]) := fun ω =>
    ⟨_, rfl⟩
  choose v hv using hd
  refine ⟨fun t => truncnorm_pdf (t / t_0) A B 0.95 w / t_0, fun ω => v ω * t_0, ?_, ⟨?_, ?_, ?_⟩, ?_, ?_, ?_⟩
  · intro ts
    unfold t_peak_cen_pdf_singlehalo_kern
    rw [hs, hbo]
    simp only [bind, Except.bind, pure, Except.pure, t_peak_cens_pdf_kern, tp_pdf_kern, List.map_map]
    rfl
  · exact fun x => div_nonneg (truncnorm_pdf_nonneg s0 h3 _) ht.le
  · intro x hx
    rw [truncnorm_pdf_outside s0, zero_div]
    rw [h1, h2, div_lt_iff₀ ht, lt_div_iff₀ ht, one_mul]
    exact hx
  · rw [integral_div]
    have := Measure.integral_comp_div (fun x => truncnorm_pdf x A B 0.95 w) t_0
    rw [this, truncnorm_pdf_integral s0 h3, abs_of_pos ht, smul_eq_mul, mul_one, div_self ht.ne']
  · intro ω
    have : old_mc_tpeak_singlecen (Ext.normal eps) (rng ω) p key lgm t_obs t_0 = .ok (v ω * t_0, [key]) := by
      unfold old_mc_tpeak_singlecen
      rw [hs, hbo]
      refine RandM.bind_of (ks := []) rfl (RandM.bind_of (ks := []) rfl ?_)
      show (mc_tp_pdf_singlesat (Ext.normal eps) (rng ω) key (0.0 * w + DEFAULT_TRUNCNORM_LOC) w >>=
        fun utp => (pure (utp * t_0) : RandM ℝ)) = _
      rw [hloc]
      exact RandM.bind_of (ks' := []) (hv ω) rfl
    rw [this]; rfl
  · intro t
    have hset : {ω | v ω * t_0 ≤ t} = {ω | v ω ≤ t / t_0} := by
      ext ω; exact (le_div_iff₀ ht).symm
    rw [hset, hint]
    exact draw_density he hu (by norm_num) (by norm_num) s1' hv _
  · intro ts
    unfold t_peak_cen_cdf_singlehalo_kern
    rw [hs, hbo]
    simp only [bind, Except.bind, pure, Except.pure, t_peak_cens_cdf_kern, tp_cdf_kern, List.map_map]
    congr 1
    apply List.map_congr_left
    intro t _
    simp only [Function.comp, hint]
    rw [← truncnorm_cdf_integral s0 h3]
    rfl

/-- The hypotheses can be met: by the default parameters, and by a generator whose numbers are those of a
point of the unit interval. -/
example (key : Key) : Spec.Bounded TPCENS_OLD.bounds TPCENS_OLD.pdict ∧ Spec.Bounded TPSATS.bounds TPSATS.pdict ∧
    ∃ (Ω : Type) (_ : MeasurableSpace Ω) (P : Measure Ω) (rng : Ω → Rng),
      IsUniform P fun ω => (rng ω).uniform key := by
  refine ⟨?_, ?_, ℝ, inferInstance, volume.restrict (Set.Ico 0 1), fun ω => Rng.normal (fun _ => Int.fract ω)
      (fun _ n => List.replicate n 0) (fun _ => 0), ?_⟩
  · intro b hb
    simp only [TPCENS_OLD, List.mem_cons, List.not_mem_nil, or_false] at hb
    rcases hb with rfl | rfl | rfl
    all_goals
      refine ⟨_, rfl, ?_, ?_⟩ <;> norm_num
  · intro b hb
    simp only [TPSATS, List.mem_cons, List.not_mem_nil, or_false] at hb
    rcases hb with rfl | rfl | rfl | rfl | rfl | rfl | rfl
    all_goals
      refine ⟨_, rfl, ?_, ?_⟩ <;> norm_num
  · have h : IsUniform (volume.restrict (Set.Ico (0 : ℝ) 1)) (id : ℝ → ℝ) := ⟨measurable_id, Measure.map_id⟩
    exact uniform_fract h

end Diffmah

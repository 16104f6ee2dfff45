import Verif.Lemmas.HaloFun

/-!
# Scatter and drawn peak times (C113)

A halo whose peak time is drawn: is its scatter about the mean parameters independent of the peak time? For
the late draw it is. The early draw takes its normal numbers from the key that also gives the peak time, so
nothing that JAX promises makes it so, and there are generators with which it is not.
-/

set_option maxRecDepth 10000

namespace Diffmah

open Pop TPeak PopParams MC MeasureTheory ProbabilityTheory

section
variable {Ω : Type} [MeasurableSpace Ω]

/-- A halo with a drawn peak time, in terms of the random numbers. -/
theorem drawn_single {ext : Ext} (hext : ext.Lawful) (kind : Kind) {p : NT ℝ} (hp : p.map Prod.fst = FIELDS)
    (hb : AllInBounds p) {lgm t_obs : ℝ} (key : Key) {lgt0 : ℝ} (hg : GoodInput kind lgm t_obs lgt0 none) :
    ∃ φ : ℝ → ℝ, Measurable φ ∧ ∃ C : Matrix (Fin 4) (Fin 4) ℝ, get_diffmahpop_cov p lgm = .ok C ∧ C.PosDef ∧
      ∀ u us z, (Rng.normal u us z).Lawful → ∃ e l f E L,
        (draw_t_peak ext (Rng.normal u us z) kind p lgm t_obs key lgt0).val? = some (φ (u (Key.child key 2 0))) ∧
        mean_diffmah_params_t_peak kind p lgm t_obs (φ (u (Key.child key 2 0))) = .ok (e, l, f) ∧
        (mc_diffmah_params_single ext (Rng.normal u us z) kind p lgm t_obs key lgt0 none).val? = some (E, L, f) ∧
        E.t_peak = φ (u (Key.child key 2 0)) ∧ L.t_peak = φ (u (Key.child key 2 0)) ∧
        uvec E = uvec e + WithLp.toLp 2 (Matrix.mulVec (Matrix.of (cholesky C)) (z (Key.child key 2 0))) ∧
        uvec L = uvec l + WithLp.toLp 2 (Matrix.mulVec (Matrix.of (cholesky C)) (z (Key.child key 2 1))) := by
  have ht : 0 < t_obs := by have := hg.2.2.1; norm_num at this; linarith
  obtain ⟨φ, h1, h2⟩ := t_peak_fun hext kind hp hb lgm t_obs ht lgt0
  obtain ⟨C, s, hC, -, hpd, -⟩ := C51_covariance p (Or.inr hp) hb.2.2.2.2.2.2.2.2 lgm
  have hs := posDef_symm (A := C) hpd
  refine ⟨φ, h1.measurable, C, hC, hpd, fun u us z hr => ?_⟩
  obtain ⟨e, l, f, ks, hm, he', hl'⟩ := good_mean ext (Rng.normal u us z) hext kind p hp hb lgm t_obs key lgt0 none hg
  obtain ⟨E, L, C', g1, gC, g2, g3⟩ := C58_single ext (Rng.normal u us z) hr kind p hp hb lgm t_obs key lgt0 none e l f ks
    hm he' hl'
  rw [hC] at gC
  cases gC
  obtain ⟨tp, e1, l1, f1, h4, h5, h6⟩ := mean_res_none ext (Rng.normal u us z) hext kind p hp hb lgm t_obs ht key lgt0
  rw [hm] at h4
  obtain ⟨h7, -⟩ := RandM.ok_inj h4
  obtain ⟨e2, l2, f2, h8, -, -, -, h9, h10⟩ := mean_t_peak_ok hp hb kind lgm t_obs tp
  rw [h5] at h8
  have h8 := Except.ok.inj h8
  simp only [Prod.mk.injEq] at h7 h8
  obtain ⟨rfl, rfl, rfl⟩ := h7
  obtain ⟨rfl, rfl, rfl⟩ := h8
  have htp : tp = φ (u (Key.child key 2 0)) := by
    rw [h2] at h6
    exact (RandM.ok_inj h6).1
  subst htp
  refine ⟨e1, l1, f1, E, L, ?_, h5, ?_, ?_, ?_, ?_, ?_⟩
  · rw [h2]; rfl
  · rw [g1]; rfl
  · rw [g2.t_peak, h9.t_peak]
  · rw [g3.t_peak, h10.t_peak]
  · have := g2.normal
    change multivariate_normal (z (Key.child key 2 0)) (first4 (get_unbounded_mah_params e1)) C =
      first4 (get_unbounded_mah_params E) at this
    rw [← vec4_first4, ← this, (multivariate_normal_eq _ _ rfl hs).2, vec4_first4]
  · have := g3.normal
    change multivariate_normal (z (Key.child key 2 1)) (first4 (get_unbounded_mah_params l1)) C =
      first4 (get_unbounded_mah_params L) at this
    rw [← vec4_first4, ← this, (multivariate_normal_eq _ _ rfl hs).2, vec4_first4]

theorem scatter_law {P : Measure Ω} {Z : Ω → Fin 4 → ℝ} (hZ : IsStdNormal P Z)
    {C : Matrix (Fin 4) (Fin 4) ℝ} (hC : C.PosDef) :
    Measurable (fun z : Fin 4 → ℝ => WithLp.toLp 2 (Matrix.mulVec (Matrix.of (cholesky C)) z)) ∧
    P.map (fun ω => WithLp.toLp 2 (Matrix.mulVec (Matrix.of (cholesky C)) (Z ω))) = multivariateGaussian 0 C := by
  have hm : Measurable fun z : Fin 4 → ℝ => WithLp.toLp 2 (Matrix.mulVec (Matrix.of (cholesky C)) z) := by
    have h : Continuous fun z : Fin 4 → ℝ => Matrix.mulVec (Matrix.of (cholesky C)) z :=
      continuous_const.matrix_mulVec continuous_id
    fun_prop
  refine ⟨hm, ?_⟩
  have e : (fun ω => WithLp.toLp 2 (Matrix.mulVec (Matrix.of (cholesky C)) (Z ω))) =
      (fun z : Fin 4 → ℝ => WithLp.toLp 2 (Matrix.mulVec (Matrix.of (cholesky C)) z)) ∘ Z := rfl
  rw [e, ← Measure.map_map hm hZ.measurable, hZ.law]
  have := affine_law 0 _ C (cholesky_mul hC)
  simpa only [zero_add] using this

/-- C113 for the late draw. A halo with a drawn peak time: whatever the peak time, the unbounded parameters of
the late draw scatter about the late mean parameters for that peak time, the scatter is Gaussian with the
covariance of the population model, and it is independent of the peak time. All that is needed is that the
normal numbers of one key are independent of the uniform number of the other.
Missing: the same for the early draw, which is false, see `C113_early_dependent`. -/
theorem C113_late_partial (P : Measure Ω) (ext : Ext) (hext : ext.Lawful) (u : Ω → Key → ℝ)
    (us : Ω → Key → ℕ → List ℝ) (z : Ω → Key → Fin 4 → ℝ) (hr : ∀ ω, (Rng.normal (u ω) (us ω) (z ω)).Lawful)
    (kind : Kind) (p : NT ℝ) (hp : p.map Prod.fst = FIELDS) (hb : AllInBounds p) (lgm t_obs : ℝ) (key : Key)
    (lgt0 : ℝ) (hg : GoodInput kind lgm t_obs lgt0 none)
    (hz : IsStdNormal P fun ω => z ω (Key.child key 2 1))
    (hi : IndepFun (fun ω => u ω (Key.child key 2 0)) (fun ω => z ω (Key.child key 2 1)) P) :
    ∃ (C : Matrix (Fin 4) (Fin 4) ℝ) (E L m : Ω → MahParams ℝ) (f : Ω → ℝ), get_diffmahpop_cov p lgm = .ok C ∧
      (∀ ω, (mc_diffmah_params_single ext (Rng.normal (u ω) (us ω) (z ω)) kind p lgm t_obs key lgt0 none).val? =
        some (E ω, L ω, f ω)) ∧
      (∀ ω, mean_diffmah_params_late_t_peak kind p lgm t_obs (L ω).t_peak = .ok (m ω)) ∧
      P.map (fun ω => uvec (L ω) - uvec (m ω)) = multivariateGaussian 0 C ∧
      IndepFun (fun ω => (L ω).t_peak) (fun ω => uvec (L ω) - uvec (m ω)) P := by
  obtain ⟨φ, hφ, C, hC, hpd, h⟩ := drawn_single hext kind hp hb key hg
  have h' := fun ω => h (u ω) (us ω) (z ω) (hr ω)
  choose e l f E L h1 h2 h3 h4 h5 h6 h7 using h'
  obtain ⟨hm, hl⟩ := scatter_law hz hpd
  have hd : (fun ω => uvec (L ω) - uvec (l ω)) = fun ω =>
      WithLp.toLp 2 (Matrix.mulVec (Matrix.of (cholesky C)) (z ω (Key.child key 2 1))) := by
    funext ω; rw [h7]; simp
  refine ⟨C, E, L, l, f, hC, h3, fun ω => ?_, ?_, ?_⟩
  · obtain ⟨e2, l2, f2, h8, -, h9, -⟩ := mean_t_peak_ok hp hb kind lgm t_obs (φ (u ω (Key.child key 2 0)))
    rw [h2 ω] at h8
    cases h8
    rw [h5]; exact h9
  · rw [hd, hl]
  · rw [hd]
    have : (fun ω => (L ω).t_peak) = φ ∘ fun ω => u ω (Key.child key 2 0) := by funext ω; exact h5 ω
    rw [this]
    exact hi.comp hφ hm

/-- C113 for the early draw, if the generator did more than JAX promises: the early scatter is Gaussian
with the covariance of the population model, and it is independent of the peak time if the normal numbers and
the uniform number of one and the same key are independent. -/
theorem C113_early_partial (P : Measure Ω) (ext : Ext) (hext : ext.Lawful) (u : Ω → Key → ℝ)
    (us : Ω → Key → ℕ → List ℝ) (z : Ω → Key → Fin 4 → ℝ) (hr : ∀ ω, (Rng.normal (u ω) (us ω) (z ω)).Lawful)
    (kind : Kind) (p : NT ℝ) (hp : p.map Prod.fst = FIELDS) (hb : AllInBounds p) (lgm t_obs : ℝ) (key : Key)
    (lgt0 : ℝ) (hg : GoodInput kind lgm t_obs lgt0 none)
    (hz : IsStdNormal P fun ω => z ω (Key.child key 2 0)) :
    ∃ (C : Matrix (Fin 4) (Fin 4) ℝ) (E L m : Ω → MahParams ℝ) (f : Ω → ℝ), get_diffmahpop_cov p lgm = .ok C ∧
      (∀ ω, (mc_diffmah_params_single ext (Rng.normal (u ω) (us ω) (z ω)) kind p lgm t_obs key lgt0 none).val? =
        some (E ω, L ω, f ω)) ∧
      (∀ ω, mean_diffmah_params_early_t_peak kind p lgm t_obs (E ω).t_peak = .ok (m ω)) ∧
      P.map (fun ω => uvec (E ω) - uvec (m ω)) = multivariateGaussian 0 C ∧
      (IndepFun (fun ω => u ω (Key.child key 2 0)) (fun ω => z ω (Key.child key 2 0)) P →
        IndepFun (fun ω => (E ω).t_peak) (fun ω => uvec (E ω) - uvec (m ω)) P) := by
  obtain ⟨φ, hφ, C, hC, hpd, h⟩ := drawn_single hext kind hp hb key hg
  have h' := fun ω => h (u ω) (us ω) (z ω) (hr ω)
  choose e l f E L h1 h2 h3 h4 h5 h6 h7 using h'
  obtain ⟨hm, hl⟩ := scatter_law hz hpd
  have hd : (fun ω => uvec (E ω) - uvec (e ω)) = fun ω =>
      WithLp.toLp 2 (Matrix.mulVec (Matrix.of (cholesky C)) (z ω (Key.child key 2 0))) := by
    funext ω; rw [h6]; simp
  refine ⟨C, E, L, e, f, hC, h3, fun ω => ?_, ?_, fun hi => ?_⟩
  · obtain ⟨e2, l2, f2, h8, h9, -⟩ := mean_t_peak_ok hp hb kind lgm t_obs (φ (u ω (Key.child key 2 0)))
    rw [h2 ω] at h8
    cases h8
    rw [h4]; exact h9
  · rw [hd, hl]
  · rw [hd]
    have : (fun ω => (E ω).t_peak) = φ ∘ fun ω => u ω (Key.child key 2 0) := by funext ω; exact h4 ω
    rw [this]
    exact hi.comp hφ hm

/-- The distribution function of a standard normal number, evaluated at that number, is uniform. -/
theorem uniform_ndtr {P : Measure Ω} {X : Ω → ℝ} (hX : Measurable X) (hl : P.map X = gaussianReal 0 1) :
    IsUniform P fun ω => ndtr (X ω) where
  measurable := ndtr_strictMono.monotone.measurable.comp hX
  law := by
    have e : (fun ω => ndtr (X ω)) = ndtr ∘ X := rfl
    rw [e, ← Measure.map_map ndtr_strictMono.monotone.measurable hX, hl]
    have hP : IsProbabilityMeasure ((gaussianReal 0 1).map ndtr) :=
      Measure.isProbabilityMeasure_map ndtr_strictMono.monotone.measurable.aemeasurable
    have hc : Continuous ndtr := continuous_iff_continuousAt.2 fun x => (ndtr_hasDerivAt x).continuousAt
    have hlo : ∀ x, 0 < ndtr x := fun x => lt_of_le_of_lt (cdf_nonneg _ _) (ndtr_strictMono (sub_one_lt x))
    have hhi : ∀ x, ndtr x < 1 := fun x => lt_of_lt_of_le (ndtr_strictMono (lt_add_one x)) (cdf_le_one _ _)
    refine Measure.ext_of_Iic _ _ fun a => ?_
    rw [Measure.map_apply ndtr_strictMono.monotone.measurable measurableSet_Iic,
      Measure.restrict_apply measurableSet_Iic]
    by_cases h0 : a ≤ 0
    · have h1 : ndtr ⁻¹' Set.Iic a = ∅ := by
        ext x; simp only [Set.mem_preimage, Set.mem_Iic, Set.mem_empty_iff_false, iff_false, not_le]
        exact lt_of_le_of_lt h0 (hlo x)
      have h2 : Set.Iic a ∩ Set.Ico 0 1 ⊆ {0} := by
        rintro x ⟨x1, x2, x3⟩
        exact le_antisymm (le_trans x1 h0) x2
      rw [h1, measure_empty]
      exact (measure_mono_null h2 (by simp)).symm
    by_cases h3 : 1 ≤ a
    · have h1 : ndtr ⁻¹' Set.Iic a = Set.univ := by
        ext x; simp only [Set.mem_preimage, Set.mem_Iic, Set.mem_univ, iff_true]
        exact le_trans (hhi x).le h3
      have h2 : Set.Iic a ∩ Set.Ico 0 1 = Set.Ico 0 1 := by
        apply Set.inter_eq_right.2
        intro x hx
        exact le_trans hx.2.le h3
      rw [h1, h2, measure_univ, Real.volume_Ico]; norm_num
    push Not at h0 h3
    obtain ⟨x, hx⟩ : ∃ x, ndtr x = a := by
      have l1 : Filter.Tendsto ndtr Filter.atBot (nhds 0) := tendsto_cdf_atBot _
      have l2 : Filter.Tendsto ndtr Filter.atTop (nhds 1) := tendsto_cdf_atTop _
      obtain ⟨x1, hx1⟩ := (l1.eventually (gt_mem_nhds h0)).exists
      obtain ⟨x2, hx2⟩ := (l2.eventually (lt_mem_nhds h3)).exists
      exact mem_range_of_exists_le_of_exists_ge hc ⟨x1, hx1.le⟩ ⟨x2, hx2.le⟩
    have h1 : ndtr ⁻¹' Set.Iic a = Set.Iic x := by
      ext y; simp only [Set.mem_preimage, Set.mem_Iic, ← hx]
      exact ndtr_strictMono.le_iff_le
    have h2 : Set.Iic a ∩ Set.Ico 0 1 = Set.Icc 0 a := by
      ext y; simp only [Set.mem_inter_iff, Set.mem_Iic, Set.mem_Ico, Set.mem_Icc]
      constructor
      · rintro ⟨a, b, c⟩; exact ⟨b, a⟩
      · rintro ⟨a, b⟩; exact ⟨b, a, by linarith⟩
    rw [h1, h2, Real.volume_Icc, sub_zero, ← hx, ndtr, ofReal_cdf]

/-- A truncated normal distribution has a median. -/
theorem exists_median {loc sc : ℝ} (hs : 0 < sc) :
    ∃ x, ((gaussianReal loc (sc ^ 2).toNNReal)[|Set.Icc 0.1 1]).real (Set.Iic x) = 1 / 2 := by
  have hc : Continuous ndtr := continuous_iff_continuousAt.2 fun x => (ndtr_hasDerivAt x).continuousAt
  have hab : (0.1 - loc) / sc < (1 - loc) / sc := div_lt_div_of_pos_right (by norm_num) hs
  obtain ⟨y, ⟨hy1, hy2⟩, hy⟩ := intermediate_value_Icc hab.le hc.continuousOn
    (show (ndtr ((0.1 - loc) / sc) + ndtr ((1 - loc) / sc)) / 2 ∈ _ from by
      have := ndtr_strictMono hab
      constructor <;> linarith)
  have hm := ndtr_strictMono hab
  refine ⟨loc + y * sc, ?_⟩
  have h := truncnorm_cdf_eq (x := loc + y * sc) (loc := loc) hs hab (v := (sc ^ 2).toNNReal)
    (Real.coe_toNNReal _ (sq_nonneg sc))
  rw [div_mul_cancel₀ _ hs.ne', div_mul_cancel₀ _ hs.ne', add_sub_cancel, add_sub_cancel] at h
  rw [← h]
  have e : (loc + y * sc - loc) / sc = y := by field_simp; ring
  have n1 : ¬ (1 - loc) / sc ≤ y := by
    intro h; rw [le_antisymm hy2 h] at hy; linarith
  have n2 : ¬ y ≤ (0.1 - loc) / sc := by
    intro h; rw [le_antisymm h hy1] at hy; linarith
  unfold truncnorm_cdf
  rw [e, if_neg n1, if_neg n2, hy, div_eq_iff (by linarith)]
  ring

/-- The drawn peak time of a halo is not certain: some set of peak times has a probability strictly between zero
and one. -/
theorem peak_not_certain (P : Measure Ω) (eps : ℝ) (he : 0 ≤ eps) (rng : Ω → Rng) (hr : ∀ ω, (rng ω).Lawful) (kind : Kind)
    (p : NT ℝ) (hp : p.map Prod.fst = FIELDS) (hb : AllInBounds p) (lgm t_obs : ℝ) (key : Key) (lgt0 : ℝ)
    (hg : GoodInput kind lgm t_obs lgt0 none) (heps : kind = .sats → eps ≤ 0.4)
    (hu : IsUniform P fun ω => (rng ω).uniform (Key.child key 2 0)) (E L : Ω → MahParams ℝ) (f : Ω → ℝ)
    (h : ∀ ω, (mc_diffmah_params_single (Ext.normal eps) (rng ω) kind p lgm t_obs key lgt0 none).val? =
        some (E ω, L ω, f ω)) :
    ∃ S : Set ℝ, MeasurableSet S ∧ 0 < P.real {ω | (E ω).t_peak ∈ S} ∧ P.real {ω | (E ω).t_peak ∈ S} < 1 := by
  obtain ⟨c, E', L', f', hc, a1, -, a2, a3⟩ := C108_halos P eps he _ hr kind p hp hb lgm t_obs key lgt0 hg hu
  have hEE : ∀ ω, E' ω = E ω := by
    intro ω
    have := a1 ω
    rw [h ω] at this
    simp only [Option.some.injEq, Prod.mk.injEq] at this
    exact this.1.symm
  simp only [hEE] at a2 a3
  cases kind
  · obtain ⟨F, b1, -, b2⟩ := a2 rfl
    refine ⟨{(10 : ℝ) ^ lgt0}, measurableSet_singleton _, ?_⟩
    simp only [Set.mem_singleton_iff]
    rw [b2]
    have hF : 0 < F 1 ∧ F 1 < 1 := by
      obtain ⟨c', hc', hcb⟩ := components_bounded hp hb
      rw [hc] at hc'
      cases hc'
      obtain ⟨x0, hx0⟩ := utp_x0_ok hcb.tp_cens lgm t_obs
      have := b1 1
      unfold frac_peaked_vs_lgm at this
      rw [hx0] at this
      have e1 : Utils.sigmoid (1 : ℝ) x0 (JOps.lit 5.0) (JOps.lit 0.0) (JOps.lit 1.0) = F 1 := by
        have := Except.ok.inj this
        simpa using this
      rw [← e1]
      have e2 : Utils.sigmoid (1 : ℝ) x0 (JOps.lit 5.0) (JOps.lit 0.0) (JOps.lit 1.0) =
          Real.sigmoid (5 * (1 - x0)) := by
        show (0.0 : ℝ) + (1.0 - 0.0) * Real.sigmoid (5.0 * (1 - x0)) = _
        norm_num
      rw [e2]
      exact ⟨Real.sigmoid_pos _, Real.sigmoid_lt_one _⟩
    constructor <;> linarith [hF.1, hF.2]
  · obtain ⟨loc, sc, -, -, hs, hlaw⟩ := a3 rfl
    obtain ⟨x, hx⟩ := exists_median (loc := loc) hs
    refine ⟨Set.Iic (x * t_obs), measurableSet_Iic, ?_⟩
    have := hlaw x
    rw [hx] at this
    have h4 := heps rfl
    norm_num at h4
    rw [abs_le] at this
    norm_num at this
    simp only [Set.mem_Iic]
    constructor <;> linarith [this.1, this.2]

/-- C113 fails for the early draw: for every halo there is a generator that keeps all that JAX promises
(the uniform number of every key is uniform, the normal numbers of every key are independent and standard
normal, and the numbers of different keys are independent), with which the early scatter depends on the peak
time. It makes the uniform number and the first normal number of a key from the same bits, and the code uses
one key for both. -/
theorem C113_early_dependent (eps : ℝ) (he : 0 ≤ eps) (kind : Kind) (heps : kind = .sats → eps ≤ 0.4) (p : NT ℝ) (hp : p.map Prod.fst = FIELDS)
    (hb : AllInBounds p) (lgm t_obs : ℝ) (key : Key) (lgt0 : ℝ) (hg : GoodInput kind lgm t_obs lgt0 none) :
    ∃ (Ω : Type) (_ : MeasurableSpace Ω) (P : Measure Ω) (u : Ω → Key → ℝ) (us : Ω → Key → ℕ → List ℝ)
      (z : Ω → Key → Fin 4 → ℝ), IsProbabilityMeasure P ∧
      (∀ ω, (Rng.normal (u ω) (us ω) (z ω)).Lawful) ∧
      (∀ k, IsUniform P fun ω => u ω k) ∧ (∀ k, IsStdNormal P fun ω => z ω k) ∧
      iIndepFun (fun k ω => (u ω k, z ω k)) P ∧
      ∃ (E L m : Ω → MahParams ℝ) (f : Ω → ℝ),
        (∀ ω, (mc_diffmah_params_single (Ext.normal eps) (Rng.normal (u ω) (us ω) (z ω)) kind p lgm t_obs key lgt0
          none).val? = some (E ω, L ω, f ω)) ∧
        (∀ ω, mean_diffmah_params_early_t_peak kind p lgm t_obs (E ω).t_peak = .ok (m ω)) ∧
        ¬ IndepFun (fun ω => (E ω).t_peak) (fun ω => uvec (E ω) - uvec (m ω)) P := by
  obtain ⟨Ω, mΩ, P, X, h1, h2, h3, hP⟩ := exists_iid Key (Measure.pi fun _ : Fin 4 => gaussianReal 0 1)
  have hz : ∀ k, IsStdNormal P fun ω => X k ω := fun k => ⟨h1 k, (h2 k).map_eq⟩
  have hx0 : ∀ k, Measurable fun ω => X k ω 0 := fun k => (measurable_pi_apply 0).comp (h1 k)
  have hu : ∀ k, IsUniform P fun ω => ndtr (X k ω 0) := by
    intro k
    apply uniform_ndtr (hx0 k)
    have : (fun ω => X k ω 0) = (fun z : Fin 4 → ℝ => z 0) ∘ X k := rfl
    rw [this, ← Measure.map_map (measurable_pi_apply 0) (h1 k), (h2 k).map_eq]
    exact (measurePreserving_eval (fun _ : Fin 4 => gaussianReal 0 1) 0).map_eq
  have hlo : ∀ x, 0 < ndtr x := fun x => lt_of_le_of_lt (cdf_nonneg _ _) (ndtr_strictMono (sub_one_lt x))
  have hhi : ∀ x, ndtr x < 1 := fun x => lt_of_lt_of_le (ndtr_strictMono (lt_add_one x)) (cdf_le_one _ _)
  have hr : ∀ ω, (Rng.normal (fun k => ndtr (X k ω 0)) (fun _ n => List.replicate n 0) fun k => X k ω).Lawful := by
    intro ω
    refine rng_normal_lawful (fun k => ⟨(hlo _).le, hhi _⟩) (by simp) ?_
    intro k n x hx
    rw [List.eq_of_mem_replicate hx]; norm_num
  refine ⟨Ω, mΩ, P, fun ω k => ndtr (X k ω 0), fun ω _ n => List.replicate n 0, fun ω k => X k ω, hP, hr, hu, hz,
    ?_, ?_⟩
  · have hg' : ∀ _ : Key, Measurable fun z : Fin 4 → ℝ => (ndtr (z 0), z) := fun _ =>
      (ndtr_strictMono.monotone.measurable.comp (measurable_pi_apply 0)).prodMk measurable_id
    exact h3.comp _ hg'
  obtain ⟨φ, hφ, C, hC, hpd, h⟩ := drawn_single (normal_lawful he) kind hp hb key hg
  have h' := fun ω => h _ _ _ (hr ω)
  choose e l f E L g1 g2 g3 g4 g5 g6 g7 using h'
  refine ⟨E, L, e, f, g3, fun ω => ?_, fun hi => ?_⟩
  · obtain ⟨e2, l2, f2, h8, h9, -⟩ := mean_t_peak_ok hp hb kind lgm t_obs (φ (ndtr (X (Key.child key 2 0) ω 0)))
    rw [g2 ω] at h8
    cases h8
    rw [g4]; exact h9
  obtain ⟨S, hS, hS0, hS1⟩ := peak_not_certain P eps he _ hr kind p hp hb lgm t_obs key lgt0 hg heps
    (hu (Key.child key 2 0)) E L f g3
  have hd := cholesky_diag_pos (A := C) hpd 0
  have hdev : ∀ ω, (uvec (E ω) - uvec (e ω)) 0 = cholesky C 0 0 * X (Key.child key 2 0) ω 0 := by
    intro ω
    rw [g6]
    simp only [add_sub_cancel_left]
    rw [Matrix.mulVec, dotProduct, Fin.sum_univ_four]
    simp only [Matrix.of_apply, cholesky_upper C 0 1 (by decide), cholesky_upper C 0 2 (by decide),
      cholesky_upper C 0 3 (by decide), zero_mul, add_zero]
  set A := {ω | (E ω).t_peak ∈ S} with hA
  have e1 : A = (fun ω => (E ω).t_peak) ⁻¹' S := rfl
  have hB : MeasurableSet {v : EuclideanSpace ℝ (Fin 4) | φ (ndtr (v 0 / cholesky C 0 0)) ∈ S} := by
    have : Measurable fun v : EuclideanSpace ℝ (Fin 4) => φ (ndtr (v 0 / cholesky C 0 0)) :=
      hφ.comp (ndtr_strictMono.monotone.measurable.comp (by fun_prop))
    exact this hS
  have e2 : A = (fun ω => uvec (E ω) - uvec (e ω)) ⁻¹'
      {v : EuclideanSpace ℝ (Fin 4) | φ (ndtr (v 0 / cholesky C 0 0)) ∈ S} := by
    ext ω
    simp only [hA, Set.mem_ofPred_eq, Set.mem_preimage, hdev, g4, mul_div_cancel_left₀ _ hd.ne']
  have hmul := hi.measure_inter_preimage_eq_mul _ _ hS hB
  rw [← e1, ← e2, Set.inter_self] at hmul
  have hreal := congrArg ENNReal.toReal hmul
  rw [ENNReal.toReal_mul] at hreal
  change P.real A = P.real A * P.real A at hreal
  nlinarith [hS0, hS1]

/-- The hypotheses of C113 can be met: lawful generators whose keys have independent numbers, in-bounds
parameters and haloes in the range of the model. -/
example (key : Key) : (∃ p : NT ℝ, p.map Prod.fst = FIELDS ∧ AllInBounds p) ∧ GoodInput .sats 12 10 1.1 none ∧
    ∃ (Ω : Type) (_ : MeasurableSpace Ω) (P : Measure Ω) (u : Ω → Key → ℝ) (us : Ω → Key → ℕ → List ℝ)
      (z : Ω → Key → Fin 4 → ℝ), (∀ ω, (Rng.normal (u ω) (us ω) (z ω)).Lawful) ∧
      IsUniform P (fun ω => u ω (Key.child key 2 0)) ∧ IsStdNormal P (fun ω => z ω (Key.child key 2 1)) ∧
      IndepFun (fun ω => u ω (Key.child key 2 0)) (fun ω => z ω (Key.child key 2 1)) P := by
  obtain ⟨p, hp, hb⟩ := exists_allInBounds
  have h0 : (1 : ℝ) < (10 : ℝ) ^ (1 : ℝ) ∧ (10 : ℝ) ^ (1 : ℝ) < 20 := by norm_num
  obtain ⟨Ω, mΩ, P, u, us, z, -, h1, h2, h3, h4, -⟩ := C113_early_dependent 0 le_rfl .cens (by simp) p hp hb 12 10 key 1
    ⟨by norm_num, by norm_num, by norm_num, by norm_num, h0⟩
  refine ⟨⟨p, hp, hb⟩, ⟨by norm_num, by norm_num, by norm_num, by norm_num, trivial⟩,
    Ω, mΩ, P, u, us, z, h1, h2 _, h3 _, ?_⟩
  have hne : Key.child key 2 0 ≠ Key.child key 2 1 := by simp
  exact (h4.indepFun hne).comp measurable_fst measurable_snd

end

end Diffmah

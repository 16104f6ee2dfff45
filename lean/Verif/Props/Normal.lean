import Verif.Lemmas.Normal
import Verif.SpecRandom
import Verif.Props.MCDep
import Mathlib.Probability.HasLawExists

/-!
# The law of Monte Carlo haloes (C106)

Generators are functions of a point `ω` of a probability space, with the normal draws of Model/Normal.lean.
`IsStdNormal` and `uvec` are defined in `Verif/SpecRandom.lean`.
-/

set_option maxRecDepth 10000

namespace Diffmah

open Pop TPeak PopParams MC MeasureTheory ProbabilityTheory

section
variable {Ω : Type} [MeasurableSpace Ω]

theorem vec4_first4 (p : MahParams ℝ) : vec4 (first4 (get_unbounded_mah_params p)) = uvec p := by
  ext i
  fin_cases i <;> rfl

theorem measurable_mvn (m : List ℝ) (hm : m.length = 4) {C : Fin 4 → Fin 4 → ℝ} (hC : ∀ i j, C i j = C j i) :
    Measurable fun z => vec4 (multivariate_normal z m C) := by
  have : (fun z => vec4 (multivariate_normal z m C)) =
      fun z => vec4 m + WithLp.toLp 2 (Matrix.mulVec (Matrix.of (cholesky C)) z) := by
    funext z
    exact (multivariate_normal_eq z m hm hC).2
  rw [this]
  have h : Continuous fun z : Fin 4 → ℝ => Matrix.mulVec (Matrix.of (cholesky C)) z :=
    continuous_const.matrix_mulVec continuous_id
  fun_prop

theorem draw_law {P : Measure Ω} {Z : Ω → Fin 4 → ℝ} (hZ : IsStdNormal P Z) {m : MahParams ℝ}
    {C : Matrix (Fin 4) (Fin 4) ℝ} (hC : C.PosDef) {X : Ω → MahParams ℝ}
    (hX : ∀ ω, multivariate_normal (Z ω) (first4 (get_unbounded_mah_params m)) C =
      first4 (get_unbounded_mah_params (X ω))) :
    Measurable (fun ω => uvec (X ω)) ∧ P.map (fun ω => uvec (X ω)) = multivariateGaussian (uvec m) C := by
  have hm := measurable_mvn (first4 (get_unbounded_mah_params m)) rfl (posDef_symm (A := C) hC)
  have e : (fun ω => uvec (X ω)) =
      (fun z => vec4 (multivariate_normal z (first4 (get_unbounded_mah_params m)) C)) ∘ Z := by
    funext ω
    simp only [Function.comp]
    rw [hX, vec4_first4]
  refine ⟨by rw [e]; exact hm.comp hZ.measurable, ?_⟩
  rw [e, ← Measure.map_map hm hZ.measurable, hZ.law, multivariate_normal_law _ rfl hC, vec4_first4]
  rfl

/-- A halo with a given peak time: its draws use the normal numbers of two keys. -/
theorem normal_single (ext : Ext) (kind : Kind) (p : NT ℝ)
    (lgm t_obs : ℝ) (key : Key) (lgt0 tp : ℝ) (e l : MahParams ℝ) (f : ℝ)
    (hmean : mean_diffmah_params_t_peak kind p lgm t_obs tp = .ok (e, l, f))
    (he : Spec.Valid e) (hl : Spec.Valid l) (C : Matrix (Fin 4) (Fin 4) ℝ) (hC : get_diffmahpop_cov p lgm = .ok C)
    (u : Key → ℝ) (us : Key → ℕ → List ℝ) (z : Key → Fin 4 → ℝ) :
    ∃ E L, (mc_diffmah_params_single ext (Rng.normal u us z) kind p lgm t_obs key lgt0 (some tp)).val?
        = some (E, L, f) ∧
      Spec.Valid E ∧ Spec.Valid L ∧
      multivariate_normal (z (Key.child key 2 0)) (first4 (get_unbounded_mah_params e)) C =
        first4 (get_unbounded_mah_params E) ∧
      multivariate_normal (z (Key.child key 2 1)) (first4 (get_unbounded_mah_params l)) C =
        first4 (get_unbounded_mah_params L) := by
  have hr : (Rng.normal (fun _ => 0) (fun _ n => List.replicate n 0) z).Lawful := by
    refine rng_normal_lawful (by simp) (by simp) ?_
    intro k n x hx; rw [List.eq_of_mem_replicate hx]; norm_num
  obtain ⟨E, hE, hE'⟩ := scatter_isDraw _ hr (Key.child key 2 0) e he C
  obtain ⟨L, hL, hL'⟩ := scatter_isDraw _ hr (Key.child key 2 1) l hl C
  refine ⟨E, L, ?_, hE'.valid, hL'.valid, hE'.normal, hL'.normal⟩
  have : mc_diffmah_params_single ext (Rng.normal u us z) kind p lgm t_obs key lgt0 (some tp) =
      .ok ((E, L, f), [Key.child key 2 0, Key.child key 2 1]) := by
    unfold mc_diffmah_params_single
    refine RandM.bind_of (b := (e, l, f)) (ks := []) ?_ ?_
    · change RandM.lift (mean_diffmah_params_t_peak kind p lgm t_obs tp) = _
      rw [hmean]; rfl
    rw [hC]
    refine RandM.bind_of (ks := []) (ks' := [Key.child key 2 0, Key.child key 2 1]) rfl ?_
    refine RandM.bind_of (ks := [Key.child key 2 0]) (ks' := [Key.child key 2 1]) hE ?_
    exact RandM.bind_of (ks := [Key.child key 2 1]) (ks' := []) hL rfl
  rw [this]; rfl

/-- C106. A halo with a given peak time, any in-bounds population parameters, any inputs that give valid mean
parameters: if the normal numbers of the keys are independent standard normal, then the unbounded parameters
of the early draw are jointly Gaussian, with mean the unbounded mean parameters, and covariance the matrix of
the population model at the halo's mass; likewise those of the late draw. -/
theorem C106_scatter_law (P : Measure Ω) (ext : Ext) (u : Ω → Key → ℝ) (us : Ω → Key → ℕ → List ℝ)
    (z : Ω → Key → Fin 4 → ℝ) (hz : ∀ k, IsStdNormal P fun ω => z ω k) (kind : Kind) (p : NT ℝ)
    (hp : p.map Prod.fst = FIELDS) (hb : AllInBounds p) (lgm t_obs : ℝ) (key : Key) (lgt0 tp : ℝ)
    (e l : MahParams ℝ) (f : ℝ) (hmean : mean_diffmah_params_t_peak kind p lgm t_obs tp = .ok (e, l, f))
    (he : Spec.Valid e) (hl : Spec.Valid l) :
    ∃ (C : Matrix (Fin 4) (Fin 4) ℝ) (E L : Ω → MahParams ℝ), get_diffmahpop_cov p lgm = .ok C ∧
      (∀ ω, (mc_diffmah_params_single ext (Rng.normal (u ω) (us ω) (z ω)) kind p lgm t_obs key lgt0
        (some tp)).val? = some (E ω, L ω, f)) ∧
      P.map (fun ω => uvec (E ω)) = multivariateGaussian (uvec e) C ∧
      P.map (fun ω => uvec (L ω)) = multivariateGaussian (uvec l) C ∧
      (IndepFun (fun ω => z ω (Key.child key 2 0)) (fun ω => z ω (Key.child key 2 1)) P →
        IndepFun (fun ω => uvec (E ω)) (fun ω => uvec (L ω)) P) := by
  obtain ⟨C, s, hC, -, hpd, -⟩ := C51_covariance p (Or.inr hp) hb.2.2.2.2.2.2.2.2 lgm
  have h := fun ω => normal_single ext kind p lgm t_obs key lgt0 tp e l f hmean he hl C hC (u ω) (us ω) (z ω)
  choose E L h1 h2 h3 h4 h5 using h
  refine ⟨C, E, L, hC, h1, (draw_law (hz _) hpd h4).2, (draw_law (hz _) hpd h5).2, fun hi => ?_⟩
  have hs := posDef_symm (A := C) hpd
  have := hi.comp (measurable_mvn (first4 (get_unbounded_mah_params e)) rfl hs)
    (measurable_mvn (first4 (get_unbounded_mah_params l)) rfl hs)
  simp only [Function.comp_def, h4, h5, vec4_first4] at this
  exact this

/-- C106, quantiles: in the unbounded space each parameter of the early draw scatters about its mean with the
standard deviation that the population model gives it at the halo's mass: the probability of being at most
`q` standard deviations above the mean is the normal distribution function at `q`. Likewise for the late
draw. -/
theorem C106_quantiles (P : Measure Ω) (ext : Ext) (u : Ω → Key → ℝ) (us : Ω → Key → ℕ → List ℝ)
    (z : Ω → Key → Fin 4 → ℝ) (hz : ∀ k, IsStdNormal P fun ω => z ω k) (kind : Kind) (p : NT ℝ)
    (hp : p.map Prod.fst = FIELDS) (hb : AllInBounds p) (lgm t_obs : ℝ) (key : Key) (lgt0 tp : ℝ)
    (e l : MahParams ℝ) (f : ℝ) (hmean : mean_diffmah_params_t_peak kind p lgm t_obs tp = .ok (e, l, f))
    (he : Spec.Valid e) (hl : Spec.Valid l) (E L : Ω → MahParams ℝ)
    (hE : ∀ ω, (mc_diffmah_params_single ext (Rng.normal (u ω) (us ω) (z ω)) kind p lgm t_obs key lgt0
        (some tp)).val? = some (E ω, L ω, f)) (i : Fin 4) (n : String)
    (hn : (i, n) ∈ [((0 : Fin 4), "logm0"), (1, "logtc"), (2, "early"), (3, "late")]) :
    ∃ ylo yhi x0, p.lookup ("std_u_" ++ n ++ "_ylo") = some ylo ∧
      p.lookup ("std_u_" ++ n ++ "_yhi") = some yhi ∧ p.lookup ("cov_lgm_x0_" ++ n) = some x0 ∧
      ∀ q, P {ω | uvec (E ω) i ≤ uvec e i + q * stdStep ylo yhi x0 lgm} =
          ENNReal.ofReal (cdf (gaussianReal 0 1) q) ∧
        P {ω | uvec (L ω) i ≤ uvec l i + q * stdStep ylo yhi x0 lgm} =
          ENNReal.ofReal (cdf (gaussianReal 0 1) q) := by
  obtain ⟨C, s, hC, -, hpd, h4, h5, -⟩ := C51_covariance p (Or.inr hp) hb.2.2.2.2.2.2.2.2 lgm
  obtain ⟨ylo, yhi, x0, e1, e2, e3, e4⟩ := h5 i n hn
  refine ⟨ylo, yhi, x0, e1, e2, e3, fun q => ?_⟩
  rw [← e4]
  have hs : 0 < s i := by have := (h4 i).1; norm_num at this; linarith
  have hv : ((C i i).toNNReal : ℝ) = s i ^ 2 := by
    rw [(h4 i).2.2, Real.coe_toNNReal _ (sq_nonneg _)]
  have main : ∀ (k : Key) (m : MahParams ℝ) (X : Ω → MahParams ℝ),
      (∀ ω, multivariate_normal (z ω k) (first4 (get_unbounded_mah_params m)) C =
        first4 (get_unbounded_mah_params (X ω))) →
      P {ω | uvec (X ω) i ≤ uvec m i + q * s i} = ENNReal.ofReal (cdf (gaussianReal 0 1) q) := by
    intro k m X hX
    obtain ⟨hm, hlaw⟩ := draw_law (hz k) hpd hX
    have hmp := (measurePreserving_eval_multivariateGaussian (μ := uvec m) hpd.posSemidef (i := i)).map_eq
    rw [← hlaw, Measure.map_map (by fun_prop) hm] at hmp
    rw [← gaussian_Iic (uvec m i) q hs hv, ← hmp, Measure.map_apply (by fun_prop) measurableSet_Iic]
    rfl
  have h := fun ω => normal_single ext kind p lgm t_obs key lgt0 tp e l f hmean he hl C hC (u ω) (us ω) (z ω)
  constructor
  · apply main (Key.child key 2 0)
    intro ω
    obtain ⟨E', L', h1, -, -, h2, h3⟩ := h ω
    rw [hE ω] at h1
    cases h1
    exact h2
  · apply main (Key.child key 2 1)
    intro ω
    obtain ⟨E', L', h1, -, -, h2, h3⟩ := h ω
    rw [hE ω] at h1
    cases h1
    exact h3

theorem bounded_le_iff {b : ℝ × ℝ} (hb : b.1 < b.2) {x y : ℝ} (hx : b.1 < x ∧ x < b.2) (hy : b.1 < y ∧ y < b.2) :
    get_unbounded_diffmah_param x b ≤ get_unbounded_diffmah_param y b ↔ x ≤ y := by
  have hm : StrictMono fun u => get_bounded_diffmah_param u b := sigmoid_strictMono BOUNDING_K_pos hb
  rw [← hm.le_iff_le]
  simp only [bounded_unbounded hx.1 hx.2, bounded_unbounded hy.1 hy.2]

/-- C106, medians: the mean parameters of the population model are the medians of the haloes: half of the
early draws have a present-day mass at most that of the mean parameters, half a transition time at most
theirs, half a late index at most theirs. Likewise for the late draws. (The early index is bounded from below
by the scattered late index, so its median is another one.) -/
theorem C106_medians (P : Measure Ω) (ext : Ext) (u : Ω → Key → ℝ) (us : Ω → Key → ℕ → List ℝ)
    (z : Ω → Key → Fin 4 → ℝ) (hz : ∀ k, IsStdNormal P fun ω => z ω k) (kind : Kind) (p : NT ℝ)
    (hp : p.map Prod.fst = FIELDS) (hb : AllInBounds p) (lgm t_obs : ℝ) (key : Key) (lgt0 tp : ℝ)
    (e l : MahParams ℝ) (f : ℝ) (hmean : mean_diffmah_params_t_peak kind p lgm t_obs tp = .ok (e, l, f))
    (he : Spec.Valid e) (hl : Spec.Valid l) (E L : Ω → MahParams ℝ)
    (hE : ∀ ω, (mc_diffmah_params_single ext (Rng.normal (u ω) (us ω) (z ω)) kind p lgm t_obs key lgt0
        (some tp)).val? = some (E ω, L ω, f)) :
    (P {ω | (E ω).logm0 ≤ e.logm0} = 1 / 2 ∧ P {ω | (E ω).logtc ≤ e.logtc} = 1 / 2 ∧
      P {ω | (E ω).late_index ≤ e.late_index} = 1 / 2) ∧
    (P {ω | (L ω).logm0 ≤ l.logm0} = 1 / 2 ∧ P {ω | (L ω).logtc ≤ l.logtc} = 1 / 2 ∧
      P {ω | (L ω).late_index ≤ l.late_index} = 1 / 2) := by
  obtain ⟨C, s, hC, -⟩ := C51_covariance p (Or.inr hp) hb.2.2.2.2.2.2.2.2 lgm
  have hv : ∀ ω, Spec.Valid (E ω) ∧ Spec.Valid (L ω) := by
    intro ω
    obtain ⟨E', L', h1, h2, h3, -⟩ :=
      normal_single ext kind p lgm t_obs key lgt0 tp e l f hmean he hl C hC (u ω) (us ω) (z ω)
    rw [hE ω] at h1
    cases h1
    exact ⟨h2, h3⟩
  have hq : ∀ i n, (i, n) ∈ [((0 : Fin 4), "logm0"), (1, "logtc"), (2, "early"), (3, "late")] →
      P {ω | uvec (E ω) i ≤ uvec e i} = 1 / 2 ∧ P {ω | uvec (L ω) i ≤ uvec l i} = 1 / 2 := by
    intro i n hn
    obtain ⟨_, _, _, -, -, -, h⟩ := C106_quantiles P ext u us z hz kind p hp hb lgm t_obs key lgt0 tp e l f hmean
      he hl E L hE i n hn
    have := h 0
    rw [cdf_half, ENNReal.ofReal_div_of_pos (by norm_num)] at this
    simpa using this
  have m0 : ∀ a b : MahParams ℝ, Spec.Valid a → Spec.Valid b → (uvec a 0 ≤ uvec b 0 ↔ a.logm0 ≤ b.logm0) := by
    intro a b ha hb
    apply bounded_le_iff (b := MAH_PBOUNDS.logm0) <;> norm_num [MAH_PBOUNDS]
    · have := ha.logm0_lo; have := ha.logm0_hi; norm_num at *; constructor <;> linarith
    · have := hb.logm0_lo; have := hb.logm0_hi; norm_num at *; constructor <;> linarith
  have m1 : ∀ a b : MahParams ℝ, Spec.Valid a → Spec.Valid b → (uvec a 1 ≤ uvec b 1 ↔ a.logtc ≤ b.logtc) := by
    intro a b ha hb
    apply bounded_le_iff (b := MAH_PBOUNDS.logtc) <;> norm_num [MAH_PBOUNDS]
    · have := ha.logtc_lo; have := ha.logtc_hi; norm_num at *; constructor <;> linarith
    · have := hb.logtc_lo; have := hb.logtc_hi; norm_num at *; constructor <;> linarith
  have m3 : ∀ a b : MahParams ℝ, Spec.Valid a → Spec.Valid b → (uvec a 3 ≤ uvec b 3 ↔ a.late_index ≤ b.late_index) := by
    intro a b ha hb
    apply bounded_le_iff (b := MAH_PBOUNDS.late_index) <;> norm_num [MAH_PBOUNDS]
    · have := ha.late_lo; have := ha.late_hi; norm_num at *; constructor <;> linarith
    · have := hb.late_lo; have := hb.late_hi; norm_num at *; constructor <;> linarith
  refine ⟨⟨?_, ?_, ?_⟩, ?_, ?_, ?_⟩
  · simpa only [m0 _ _ (hv _).1 he] using (hq 0 "logm0" (by simp)).1
  · simpa only [m1 _ _ (hv _).1 he] using (hq 1 "logtc" (by simp)).1
  · simpa only [m3 _ _ (hv _).1 he] using (hq 3 "late" (by simp)).1
  · simpa only [m0 _ _ (hv _).2 hl] using (hq 0 "logm0" (by simp)).2
  · simpa only [m1 _ _ (hv _).2 hl] using (hq 1 "logtc" (by simp)).2
  · simpa only [m3 _ _ (hv _).2 hl] using (hq 3 "late" (by simp)).2

/-- The hypotheses of C106 can be met: a generator all of whose keys have independent standard normal numbers,
independent of those of other keys, and in-bounds parameters with valid means. -/
example : ∃ (Ω : Type) (_ : MeasurableSpace Ω) (P : Measure Ω) (z : Ω → Key → Fin 4 → ℝ) (p : NT ℝ)
    (e l : MahParams ℝ) (f : ℝ), (∀ k, IsStdNormal P fun ω => z ω k) ∧
    (∀ k k', k ≠ k' → IndepFun (fun ω => z ω k) (fun ω => z ω k') P) ∧
    p.map Prod.fst = FIELDS ∧ AllInBounds p ∧ mean_diffmah_params_t_peak .cens p 12 10 5 = .ok (e, l, f) ∧
    Spec.Valid e ∧ Spec.Valid l := by
  obtain ⟨ext, hext⟩ := ext_lawful_exists
  obtain ⟨p, hp, hb⟩ := exists_allInBounds
  obtain ⟨Ω, mΩ, P, X, h1, h2, h3, -⟩ :=
    exists_iid Key (Measure.pi fun _ : Fin 4 => gaussianReal 0 1)
  obtain ⟨e, l, f, ks, h, he, hl⟩ := good_mean ext ⟨fun _ => 0, fun _ n => List.replicate n 0, fun _ m _ => m⟩ hext
    .cens p hp hb 12 10 (Key.root 0) 1 (some 5) (by unfold GoodInput; norm_num)
  obtain ⟨e', l', f', h', h''⟩ := mean_res_some ext ⟨fun _ => 0, fun _ n => List.replicate n 0, fun _ m _ => m⟩
    .cens p hp hb 12 10 (Key.root 0) 1 5
  rw [h] at h'
  obtain ⟨h', -⟩ := RandM.ok_inj h'
  obtain ⟨rfl, rfl, rfl⟩ : e' = e ∧ l' = l ∧ f' = f := by simpa using h'
  exact ⟨Ω, mΩ, P, fun ω k => X k ω, p, e', l', f', fun k => ⟨h1 k, (h2 k).map_eq⟩,
    fun k k' hk => h3.indepFun hk, hp, hb, h'', he, hl⟩

end

end Diffmah

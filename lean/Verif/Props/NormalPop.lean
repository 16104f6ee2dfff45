import Verif.Props.Normal
import Mathlib.MeasureTheory.Function.Floor

/-!
# The law of a Monte Carlo population (C107)

`PopRandom` says which random numbers of a population are independent of which.
-/

set_option maxRecDepth 10000

namespace Diffmah

open Pop TPeak PopParams MC MeasureTheory ProbabilityTheory

section
variable {Ω : Type} [MeasurableSpace Ω]

/-- The random numbers that a population of `n` haloes with given peak times is made from: one uniform number
per halo and the normal numbers of two keys per halo. They have the advertised distributions, those of
different haloes are independent, and the uniform number of a halo is independent of each of its two sets of
normal numbers. -/
structure PopRandom (P : Measure Ω) (us : Ω → Key → ℕ → List ℝ) (z : Ω → Key → Fin 4 → ℝ) (key : Key) (n : ℕ) :
    Prop where
  uniform : ∀ i < n, IsUniform P fun ω => (us ω (Key.child key 2 0) n).getD i 0
  normal : ∀ i < n, ∀ j < 2, IsStdNormal P fun ω => z ω (Key.child (Key.child (Key.child key 2 1) n i) 2 j)
  indep : ∀ i < n, ∀ j < 2, IndepFun (fun ω => (us ω (Key.child key 2 0) n).getD i 0)
    (fun ω => z ω (Key.child (Key.child (Key.child key 2 1) n i) 2 j)) P
  halos : iIndepFun (fun (i : Fin n) ω => ((us ω (Key.child key 2 0) n).getD i 0,
    z ω (Key.child (Key.child (Key.child key 2 1) n i) 2 0),
    z ω (Key.child (Key.child (Key.child key 2 1) n i) 2 1))) P

theorem IsUniform.lt {P : Measure Ω} {U : Ω → ℝ} (h : IsUniform P U) {f : ℝ} (h1 : f ≤ 1) :
    P {ω | U ω < f} = ENNReal.ofReal f := by
  have : P {ω | U ω < f} = P.map U (Set.Iio f) := by
    rw [Measure.map_apply h.measurable measurableSet_Iio]; rfl
  rw [this, h.law, Measure.restrict_apply measurableSet_Iio]
  have : Set.Iio f ∩ Set.Ico 0 1 = Set.Ico 0 f := by
    ext x; simp only [Set.mem_inter_iff, Set.mem_Iio, Set.mem_Ico]; constructor
    · rintro ⟨a, b, c⟩; exact ⟨b, a⟩
    · rintro ⟨a, b⟩; exact ⟨b, a, by linarith⟩
  rw [this, Real.volume_Ico, sub_zero]

theorem IsUniform.ge {P : Measure Ω} {U : Ω → ℝ} (h : IsUniform P U) {f : ℝ} (h0 : 0 ≤ f) :
    P {ω | ¬ U ω < f} = ENNReal.ofReal (1 - f) := by
  have : P {ω | ¬ U ω < f} = P.map U (Set.Ici f) := by
    rw [Measure.map_apply h.measurable measurableSet_Ici]; congr 1; ext ω; simp
  rw [this, h.law, Measure.restrict_apply measurableSet_Ici]
  have : Set.Ici f ∩ Set.Ico 0 1 = Set.Ico f 1 := by
    ext x; simp only [Set.mem_inter_iff, Set.mem_Ici, Set.mem_Ico]; constructor
    · rintro ⟨a, b, c⟩; exact ⟨a, c⟩
    · rintro ⟨a, b⟩; exact ⟨a, by linarith, b⟩
  rw [this, Real.volume_Ico]

/-- Choosing between two random vectors by a uniform number that is independent of each: a mixture. -/
theorem mixture_law {β : Type} [MeasurableSpace β] {P : Measure Ω} {U : Ω → ℝ} (hU : IsUniform P U) {f : ℝ}
    (h0 : 0 ≤ f) (h1 : f ≤ 1) {X Y : Ω → β} (hX : Measurable X) (hY : Measurable Y) (iX : IndepFun U X P)
    (iY : IndepFun U Y P) [∀ ω, Decidable (U ω < f)] :
    P.map (fun ω => if U ω < f then X ω else Y ω) =
      ENNReal.ofReal f • P.map X + ENNReal.ofReal (1 - f) • P.map Y := by
  have hS : MeasurableSet {ω | U ω < f} := hU.measurable measurableSet_Iio
  ext A hA
  rw [Measure.map_apply (Measurable.ite hS hX hY) hA]
  rw [← measure_inter_add_sdiff _ hS]
  have e1 : (fun ω => if U ω < f then X ω else Y ω) ⁻¹' A ∩ {ω | U ω < f} = U ⁻¹' Set.Iio f ∩ X ⁻¹' A := by
    ext ω
    simp only [Set.mem_inter_iff, Set.mem_preimage, Set.mem_ofPred_eq, Set.mem_Iio]
    constructor
    · rintro ⟨a, b⟩; rw [if_pos b] at a; exact ⟨b, a⟩
    · rintro ⟨a, b⟩; rw [if_pos a]; exact ⟨b, a⟩
  have e2 : (fun ω => if U ω < f then X ω else Y ω) ⁻¹' A \ {ω | U ω < f} = U ⁻¹' (Set.Iio f)ᶜ ∩ Y ⁻¹' A := by
    ext ω
    simp only [Set.mem_sdiff, Set.mem_inter_iff, Set.mem_preimage, Set.mem_ofPred_eq, Set.mem_Iio,
      Set.mem_compl_iff]
    constructor
    · rintro ⟨a, b⟩; rw [if_neg b] at a; exact ⟨b, a⟩
    · rintro ⟨a, b⟩; rw [if_neg a]; exact ⟨b, a⟩
  rw [e1, e2, iX.measure_inter_preimage_eq_mul _ _ measurableSet_Iio hA,
    iY.measure_inter_preimage_eq_mul _ _ measurableSet_Iio.compl hA]
  have e3 : P (U ⁻¹' Set.Iio f) = ENNReal.ofReal f := hU.lt h1
  have e4 : P (U ⁻¹' (Set.Iio f)ᶜ) = ENNReal.ofReal (1 - f) := hU.ge h0
  rw [e3, e4, Measure.add_apply, Measure.smul_apply, Measure.smul_apply, Measure.map_apply hX hA,
    Measure.map_apply hY hA]
  rfl

theorem params_single_frac {ext : Ext} {rng : Rng} {kind : Kind} {p : NT ℝ} {lgm t_obs : ℝ} {key : Key} {lgt0 : ℝ}
    {tp : Option ℝ} {r : MahParams ℝ × MahParams ℝ × ℝ} {ks : List Key}
    (h : mc_diffmah_params_single ext rng kind p lgm t_obs key lgt0 tp = .ok (r, ks)) :
    frac_early_cens_kern p lgm t_obs = .ok r.2.2 := by
  unfold mc_diffmah_params_single at h
  obtain ⟨res, k1, k2, h1, h2, -⟩ := RandM.bind_inv h
  obtain ⟨C, k3, k4, -, h3, -⟩ := RandM.bind_inv h2
  obtain ⟨E, k5, k6, -, h4, -⟩ := RandM.bind_inv h3
  obtain ⟨L, k7, k8, -, h5, -⟩ := RandM.bind_inv h4
  obtain ⟨rfl, -⟩ := RandM.pure_inv h5
  show _ = Except.ok res.2.2
  cases tp with
  | none =>
    change mean_diffmah_params ext rng kind p lgm t_obs key lgt0 = _ at h1
    unfold mean_diffmah_params at h1
    obtain ⟨e, a1, a2, -, g1, -⟩ := RandM.bind_inv h1
    obtain ⟨l, a3, a4, -, g2, -⟩ := RandM.bind_inv g1
    obtain ⟨f, a5, a6, g3, g4, -⟩ := RandM.bind_inv g2
    obtain ⟨rfl, -⟩ := RandM.pure_inv g4
    exact (RandM.lift_inv g3).1
  | some t =>
    have := (RandM.lift_inv h1).1
    unfold mean_diffmah_params_t_peak at this
    cases h1 : mean_diffmah_params_early_t_peak kind p lgm t_obs t with
    | error e => rw [h1] at this; cases this
    | ok e =>
      cases h2 : mean_diffmah_params_late_t_peak kind p lgm t_obs t with
      | error e => rw [h1, h2] at this; cases this
      | ok l =>
        cases h3 : frac_early_cens_kern p lgm t_obs with
        | error e => rw [h1, h2, h3] at this; cases this
        | ok f => rw [h1, h2, h3] at this; cases this; rfl

/-- C107, types: in every population, with peak times drawn or given, each halo is of early type with the
probability that the population model advertises for its mass and time of observation. -/
theorem C107_early_probability (P : Measure Ω) (ext : Ext) (rng : Ω → Rng) (hr : ∀ ω, (rng ω).Lawful) (kind : Kind)
    (p : NT ℝ) (hb : Spec.Bounded FEC.bounds p) (lgm t_obs : List ℝ) (key : Key) (lgt0 : ℝ)
    (tp : Option (List ℝ)) (pop : Ω → HaloPop) (ks : Ω → List Key)
    (h : ∀ ω, mc_diffmah_pop ext (rng ω) kind p lgm t_obs key lgt0 tp = .ok (pop ω, ks ω)) (i : ℕ)
    (hi : i < lgm.length)
    (hu : IsUniform P fun ω => ((rng ω).uniforms (Key.child key 2 0) lgm.length).getD i 0) :
    ∃ f, frac_early_cens_kern p (lgm.getD i 0) (t_obs.getD i 0) = .ok f ∧ 1 / 4 < f ∧ f < 3 / 4 ∧
      (∀ ω, (pop ω).frac_early_cens[i]? = some f) ∧
      P {ω | (pop ω).mc_early[i]? = some true} = ENNReal.ofReal f ∧
      P {ω | (pop ω).mc_early[i]? = some false} = ENNReal.ofReal (1 - f) := by
  obtain ⟨f, hf, f1, f2⟩ := C52_frac_early p hb (lgm.getD i 0) (t_obs.getD i 0)
  have hpop : ∀ ω, (pop ω).frac_early_cens[i]? = some f ∧ ∃ b, (pop ω).mc_early[i]? = some b ∧
      (b = true ↔ ((rng ω).uniforms (Key.child key 2 0) lgm.length).getD i 0 < f) := by
    intro ω
    obtain ⟨-, -, -, -, h3⟩ := C59_early_or_late ext (rng ω) (hr ω) kind p lgm t_obs key lgt0 tp _ _ (h ω)
    obtain ⟨b, E, L, f', u, b1, -, -, -, b2, b3, b4⟩ := h3 i hi
    obtain ⟨rows, kss, -, -, -, h1, -, -, h4, -⟩ := pop_inv ext (rng ω) (h ω)
    obtain ⟨r, k, hr', -, hs⟩ := h1 i hi
    have := params_single_frac hs
    rw [hf] at this
    have e : f' = f := by
      rw [h4, List.getElem?_map, hr'] at b2
      simp only [Option.map_some, Option.some.injEq] at b2
      cases this
      exact b2.symm
    rw [e] at b2 b4
    refine ⟨b2, b, b1, ?_⟩
    rw [b4, List.getD_eq_getElem?_getD, b3]
    rfl
  refine ⟨f, hf, f1, f2, fun ω => (hpop ω).1, ?_, ?_⟩
  · rw [← hu.lt (by linarith)]
    congr 1
    ext ω
    obtain ⟨-, b, b1, b2⟩ := hpop ω
    show (pop ω).mc_early[i]? = some true ↔ _
    rw [b1, Option.some.injEq, b2]; rfl
  · rw [← hu.ge (by linarith)]
    congr 1
    ext ω
    obtain ⟨-, b, b1, b2⟩ := hpop ω
    show (pop ω).mc_early[i]? = some false ↔ _
    rw [b1, Option.some.injEq, ← Bool.not_eq_true, b2]; rfl

/-- One halo of a population with given peak times, in terms of the random numbers. -/
theorem pop_row {ext : Ext} {u : Key → ℝ} {us : Key → ℕ → List ℝ} {z : Key → Fin 4 → ℝ}
    (hr : (Rng.normal u us z).Lawful) {kind : Kind} {p : NT ℝ} {lgm t_obs tp : List ℝ} {key : Key} {lgt0 : ℝ}
    {pop : HaloPop} {ks : List Key}
    (h : mc_diffmah_pop ext (Rng.normal u us z) kind p lgm t_obs key lgt0 (some tp) = .ok (pop, ks)) {i : ℕ}
    (hi : i < lgm.length) {e l : MahParams ℝ} {f : ℝ} {C : Matrix (Fin 4) (Fin 4) ℝ}
    (hmean : mean_diffmah_params_t_peak kind p (lgm.getD i 0) (t_obs.getD i 0) (tp.getD i 0) = .ok (e, l, f))
    (he : Spec.Valid e) (hl : Spec.Valid l) (hC : get_diffmahpop_cov p (lgm.getD i 0) = .ok C) :
    ∃ E L, pop.mah_params.rows[i]? =
        some (if (us (Key.child key 2 0) lgm.length).getD i 0 < f then E else L) ∧
      E.t_peak = e.t_peak ∧ L.t_peak = l.t_peak ∧
      multivariate_normal (z (Key.child (Key.child (Key.child key 2 1) lgm.length i) 2 0))
        (first4 (get_unbounded_mah_params e)) C = first4 (get_unbounded_mah_params E) ∧
      multivariate_normal (z (Key.child (Key.child (Key.child key 2 1) lgm.length i) 2 1))
        (first4 (get_unbounded_mah_params l)) C = first4 (get_unbounded_mah_params L) := by
  obtain ⟨-, -, -, -, h3⟩ := C59_early_or_late ext _ hr kind p lgm t_obs key lgt0 _ _ _ h
  obtain ⟨b, E, L, f', v, b1, b5, b6, b7, b2, b3, b4⟩ := h3 i hi
  obtain ⟨rows, kss, -, -, -, h1, h8, h9, h4, -⟩ := pop_inv ext _ h
  obtain ⟨r, k, hr', -, hs⟩ := h1 i hi
  obtain ⟨E', hE, hE'⟩ := scatter_isDraw _ hr
    (Key.child (Key.child (Key.child key 2 1) lgm.length i) 2 0) e he C
  obtain ⟨L', hL, hL'⟩ := scatter_isDraw _ hr
    (Key.child (Key.child (Key.child key 2 1) lgm.length i) 2 1) l hl C
  have hsingle : mc_diffmah_params_single ext (Rng.normal u us z) kind p (lgm.getD i 0) (t_obs.getD i 0)
      (Key.child (Key.child key 2 1) lgm.length i) lgt0 (some (tp.getD i 0)) =
      .ok ((E', L', f), [Key.child (Key.child (Key.child key 2 1) lgm.length i) 2 0,
        Key.child (Key.child (Key.child key 2 1) lgm.length i) 2 1]) := by
    unfold mc_diffmah_params_single
    refine RandM.bind_of (b := (e, l, f)) (ks := []) ?_ ?_
    · change RandM.lift (mean_diffmah_params_t_peak kind p _ _ _) = _
      rw [hmean]; rfl
    rw [hC]
    refine RandM.bind_of (ks := []) rfl ?_
    refine RandM.bind_of (ks := [_]) (ks' := [_]) hE ?_
    exact RandM.bind_of (ks := [_]) (ks' := []) hL rfl
  have hrr : r = (E', L', f) := by
    rw [Option.map_some, hsingle] at hs
    exact (RandM.ok_inj hs).1
  subst hrr
  rw [h8, stack_rows, List.getElem?_map, hr'] at b5
  rw [h9, stack_rows, List.getElem?_map, hr'] at b6
  rw [h4, List.getElem?_map, hr'] at b2
  simp only [Option.map_some, Option.some.injEq] at b5 b6 b2
  subst b5 b6 b2
  refine ⟨E', L', ?_, hE'.t_peak, hL'.t_peak, hE'.normal, hL'.normal⟩
  rw [b7]
  have : (us (Key.child key 2 0) lgm.length).getD i 0 = v := by
    rw [List.getD_eq_getElem?_getD]
    change ((Rng.normal u us z).uniforms (Key.child key 2 0) lgm.length)[i]?.getD 0 = v
    rw [b3]; rfl
  rw [this]
  simp only [b4]

/-- C107, laws: a population of any size with given peak times. Its haloes are independent, and the unbounded
parameters of each follow the mixture that the population model advertises for its mass, time of observation
and peak time: with the early fraction the Gaussian around the early mean parameters, otherwise the one
around the late mean parameters. -/
theorem C107_population_law (P : Measure Ω) (ext : Ext) (hext : ext.Lawful) (u : Ω → Key → ℝ)
    (us : Ω → Key → ℕ → List ℝ) (z : Ω → Key → Fin 4 → ℝ)
    (hl : ∀ ω, (Rng.normal (u ω) (us ω) (z ω)).Lawful) (kind : Kind) (p : NT ℝ)
    (hp : p.map Prod.fst = FIELDS) (hb : AllInBounds p) (lgm t_obs tp : List ℝ) (key : Key) (lgt0 : ℝ)
    (hr : PopRandom P us z key lgm.length) (h1 : t_obs.length = lgm.length) (h2 : tp.length = lgm.length)
    (hg : ∀ i < lgm.length, GoodInput kind (lgm.getD i 0) (t_obs.getD i 0) lgt0 (some (tp.getD i 0))) :
    ∃ (pop : Ω → HaloPop) (X : ℕ → Ω → MahParams ℝ),
      (∀ ω, (mc_diffmah_pop ext (Rng.normal (u ω) (us ω) (z ω)) kind p lgm t_obs key lgt0 (some tp)).val? =
        some (pop ω)) ∧
      (∀ ω, (pop ω).mah_params.rows = (List.range lgm.length).map fun i => X i ω) ∧
      (∀ i < lgm.length, ∀ ω, (X i ω).t_peak = tp.getD i 0) ∧
      iIndepFun (fun (i : Fin lgm.length) ω => uvec (X i ω)) P ∧
      ∀ i < lgm.length, ∃ e l f C,
        mean_diffmah_params_t_peak kind p (lgm.getD i 0) (t_obs.getD i 0) (tp.getD i 0) = .ok (e, l, f) ∧
        get_diffmahpop_cov p (lgm.getD i 0) = .ok C ∧
        P.map (fun ω => uvec (X i ω)) = ENNReal.ofReal f • multivariateGaussian (uvec e) C +
          ENNReal.ofReal (1 - f) • multivariateGaussian (uvec l) C := by
  classical
  have hpop : ∀ ω, ∃ pop ks, mc_diffmah_pop ext (Rng.normal (u ω) (us ω) (z ω)) kind p lgm t_obs key lgt0
      (some tp) = .ok (pop, ks) := fun ω =>
    pop_ok ext _ (hl ω) kind p hp hb lgm t_obs key lgt0 (some tp) h1 (by rintro t ⟨⟩; exact h2)
      (good_means ext _ hext kind p hp hb _ _ _ _ _ hg)
  choose pop ks hpop using hpop
  -- the mean parameters of each halo
  have hm : ∀ i : Fin lgm.length, ∃ e l f C,
      mean_diffmah_params_t_peak kind p (lgm.getD i 0) (t_obs.getD i 0) (tp.getD i 0) = .ok (e, l, f) ∧
      Spec.Valid e ∧ Spec.Valid l ∧ e.t_peak = tp.getD i 0 ∧ l.t_peak = tp.getD i 0 ∧ 0 ≤ f ∧ f ≤ 1 ∧
      get_diffmahpop_cov p (lgm.getD i 0) = .ok C ∧ Matrix.PosDef C := by
    intro i
    obtain ⟨e, l, f, ks', g1, g2, g3⟩ := good_mean ext (Rng.normal (fun _ => 0) (fun _ _ => []) fun _ _ => 0) hext kind p hp hb (lgm.getD i 0)
      (t_obs.getD i 0) key lgt0 _ (hg i i.2)
    obtain ⟨e', l', f', g4, g5⟩ := mean_res_some ext (Rng.normal (fun _ => 0) (fun _ _ => []) fun _ _ => 0) kind p hp hb (lgm.getD i 0)
      (t_obs.getD i 0) key lgt0 (tp.getD i 0)
    obtain ⟨e'', l'', f'', g6, -, -, g7, g8, g9⟩ := mean_t_peak_ok hp hb kind (lgm.getD i 0) (t_obs.getD i 0)
      (tp.getD i 0)
    obtain ⟨f3, hf3, f1, f2⟩ := C52_frac_early p hb.2.2.2.2.2.2.2.1 (lgm.getD i 0) (t_obs.getD i 0)
    rw [g5] at g6
    cases g6
    rw [g7] at hf3
    cases hf3
    rw [g1] at g4
    obtain ⟨g4, -⟩ := RandM.ok_inj g4
    cases g4
    obtain ⟨C, s, hC, -, hpd, -⟩ := C51_covariance p (Or.inr hp) hb.2.2.2.2.2.2.2.2 (lgm.getD i 0)
    exact ⟨e, l, f, C, g5, g2, g3, g8.t_peak, g9.t_peak, by linarith, by linarith, hC, hpd⟩
  choose e l f C m1 m2 m3 m4 m5 m6 m7 m8 m9 using hm
  have hrow := fun ω (i : Fin lgm.length) => pop_row (hl ω) (hpop ω) i.2 (m1 i) (m2 i) (m3 i) (m8 i)
  choose E L r1 r2 r3 r4 r5 using hrow
  let X : ℕ → Ω → MahParams ℝ := fun i ω => (pop ω).mah_params.rows.getD i ⟨0, 0, 0, 0, 0⟩
  have hX : ∀ (i : Fin lgm.length) ω, X i ω =
      if (us ω (Key.child key 2 0) lgm.length).getD i 0 < f i then E ω i else L ω i := by
    intro i ω
    simp only [X, List.getD_eq_getElem?_getD, r1 ω i, Option.getD_some]
  have huX : ∀ (i : Fin lgm.length), (fun ω => uvec (X i ω)) = fun ω =>
      if (us ω (Key.child key 2 0) lgm.length).getD i 0 < f i then uvec (E ω i) else uvec (L ω i) := by
    intro i
    funext ω
    rw [hX, apply_ite uvec]
  have hs : ∀ i, ∀ a b, C i a b = C i b a := fun i => posDef_symm (A := C i) (m9 i)
  refine ⟨pop, X, fun ω => by rw [hpop ω]; rfl, ?_, ?_, ?_, ?_⟩
  · intro ω
    obtain ⟨ha, -⟩ := C59_early_or_late ext _ (hl ω) kind p lgm t_obs key lgt0 _ _ _ (hpop ω)
    apply List.ext_getElem?
    intro i
    by_cases hi : i < lgm.length
    · have := r1 ω ⟨i, hi⟩
      have h' := hX ⟨i, hi⟩ ω
      simp only at this h'
      rw [this, List.getElem?_map, List.getElem?_range hi, Option.map_some, h']
    · have h' : (pop ω).mah_params.rows.length = lgm.length := by
        obtain ⟨a1, a2, a3, a4, a5⟩ := ha
        simp [MahPopArrays.rows, a1, a2, a3, a4, a5]
      rw [List.getElem?_eq_none (by omega), List.getElem?_eq_none (by simp; omega)]
  · intro i hi ω
    have h' := hX ⟨i, hi⟩ ω
    simp only at h'
    rw [h']
    split_ifs
    · rw [r2, m4]
    · rw [r3, m5]
  · have hg : ∀ i : Fin lgm.length, Measurable fun t : ℝ × (Fin 4 → ℝ) × (Fin 4 → ℝ) =>
        if t.1 < f i then vec4 (multivariate_normal t.2.1 (first4 (get_unbounded_mah_params (e i))) (C i))
        else vec4 (multivariate_normal t.2.2 (first4 (get_unbounded_mah_params (l i))) (C i)) := by
      intro i
      refine Measurable.ite (measurableSet_lt measurable_fst measurable_const) ?_ ?_
      · exact (measurable_mvn _ rfl (hs i)).comp (measurable_fst.comp measurable_snd)
      · exact (measurable_mvn _ rfl (hs i)).comp (measurable_snd.comp measurable_snd)
    have := hr.halos.comp _ hg
    convert this using 2 with i
    rw [huX i]
    funext ω
    simp only [Function.comp]
    rw [r4, r5, vec4_first4, vec4_first4]
  · intro i hi
    refine ⟨e ⟨i, hi⟩, l ⟨i, hi⟩, f ⟨i, hi⟩, C ⟨i, hi⟩, m1 ⟨i, hi⟩, m8 ⟨i, hi⟩, ?_⟩
    obtain ⟨mE, lE⟩ := draw_law (X := fun ω => E ω ⟨i, hi⟩) (hr.normal i hi 0 (by norm_num)) (m9 ⟨i, hi⟩) (fun ω => r4 ω ⟨i, hi⟩)
    obtain ⟨mL, lL⟩ := draw_law (X := fun ω => L ω ⟨i, hi⟩) (hr.normal i hi 1 (by norm_num)) (m9 ⟨i, hi⟩) (fun ω => r5 ω ⟨i, hi⟩)
    have iE := (hr.indep i hi 0 (by norm_num)).comp measurable_id
      (measurable_mvn (first4 (get_unbounded_mah_params (e ⟨i, hi⟩))) rfl (hs ⟨i, hi⟩))
    have iL := (hr.indep i hi 1 (by norm_num)).comp measurable_id
      (measurable_mvn (first4 (get_unbounded_mah_params (l ⟨i, hi⟩))) rfl (hs ⟨i, hi⟩))
    have e1 := fun ω => r4 ω ⟨i, hi⟩
    have e2 := fun ω => r5 ω ⟨i, hi⟩
    simp only at e1 e2
    simp only [Function.comp_def, e1, e2, vec4_first4, id] at iE iL
    have hmix := mixture_law (hr.uniform i hi) (m6 ⟨i, hi⟩) (m7 ⟨i, hi⟩) mE mL iE iL
    rw [lE, lL] at hmix
    rw [← hmix]
    exact congrArg (fun g => P.map g) (huX ⟨i, hi⟩)

theorem uniform_fract {P : Measure Ω} {U : Ω → ℝ} (h : IsUniform P U) : IsUniform P fun ω => Int.fract (U ω) where
  measurable := measurable_fract.comp h.measurable
  law := by
    have : (fun ω => Int.fract (U ω)) = Int.fract ∘ U := rfl
    rw [this, ← Measure.map_map measurable_fract h.measurable, h.law]
    have h2 : Int.fract =ᵐ[volume.restrict (Set.Ico (0 : ℝ) 1)] id := by
      filter_upwards [ae_restrict_mem measurableSet_Ico] with x hx
      exact Int.fract_eq_self.2 hx
    rw [Measure.map_congr h2, Measure.map_id]

instance : IsProbabilityMeasure (volume.restrict (Set.Ico (0 : ℝ) 1)) :=
  ⟨by rw [Measure.restrict_apply_univ, Real.volume_Ico]; norm_num⟩

/-- The normal numbers of a key in the witness below: those of one of the two children of halo `i`. -/
private def pick (x : ℕ → (Fin 4 → ℝ) × (Fin 4 → ℝ)) : Key → Fin 4 → ℝ
  | .child (.child _ _ i) _ 0 => (x i).1
  | .child (.child _ _ i) _ _ => (x i).2
  | _ => 0

/-- The hypotheses of C107 can be met, for every key and number of haloes: there are lawful generators with
independent uniform and normal numbers. -/
example (key : Key) (n : ℕ) : ∃ (Ω : Type) (_ : MeasurableSpace Ω) (P : Measure Ω) (u : Ω → Key → ℝ)
    (us : Ω → Key → ℕ → List ℝ) (z : Ω → Key → Fin 4 → ℝ),
    (∀ ω, (Rng.normal (u ω) (us ω) (z ω)).Lawful) ∧ PopRandom P us z key n := by
  let N := Measure.pi fun _ : Fin 4 => gaussianReal 0 1
  obtain ⟨Ω, mΩ, P, X, h1, h2, h3, hP⟩ := exists_iid ℕ ((volume.restrict (Set.Ico (0 : ℝ) 1)).prod (N.prod N))
  have hU : ∀ i, IsUniform P fun ω => (X i ω).1 := fun i =>
    ⟨measurable_fst.comp (h1 i), by
      have : (fun ω => (X i ω).1) = Prod.fst ∘ X i := rfl
      rw [this, ← Measure.map_map measurable_fst (h1 i), (h2 i).map_eq]
      exact measurePreserving_fst.map_eq⟩
  have hS : ∀ i, P.map (fun ω => (X i ω).2) = N.prod N := fun i => by
      have : (fun ω => (X i ω).2) = Prod.snd ∘ X i := rfl
      rw [this, ← Measure.map_map measurable_snd (h1 i), (h2 i).map_eq]
      exact measurePreserving_snd.map_eq
  have m2 : ∀ i, Measurable fun ω => (X i ω).2 := fun i => measurable_snd.comp (h1 i)
  have m1 : ∀ i, Measurable fun ω => (X i ω).1 := fun i => measurable_fst.comp (h1 i)
  have hZ0 : ∀ i, IsStdNormal P fun ω => (X i ω).2.1 := fun i =>
    ⟨measurable_fst.comp (measurable_snd.comp (h1 i)), by
      have : (fun ω => (X i ω).2.1) = Prod.fst ∘ fun ω => (X i ω).2 := rfl
      rw [this, ← Measure.map_map measurable_fst (m2 i), hS i]
      exact measurePreserving_fst.map_eq⟩
  have hZ1 : ∀ i, IsStdNormal P fun ω => (X i ω).2.2 := fun i =>
    ⟨measurable_snd.comp (measurable_snd.comp (h1 i)), by
      have : (fun ω => (X i ω).2.2) = Prod.snd ∘ fun ω => (X i ω).2 := rfl
      rw [this, ← Measure.map_map measurable_snd (m2 i), hS i]
      exact measurePreserving_snd.map_eq⟩
  have hi : ∀ i, IndepFun (fun ω => (X i ω).1) (fun ω => (X i ω).2) P := fun i => by
    rw [indepFun_iff_map_prod_eq_prod_map_map (m1 i).aemeasurable (m2 i).aemeasurable, hS i, (hU i).law]
    exact (h2 i).map_eq
  have hget : ∀ ω, ∀ i < n, ((List.range n).map fun j => Int.fract (X j ω).1).getD i 0 = Int.fract (X i ω).1 := by
    intro ω i hi
    rw [List.getD_eq_getElem?_getD, List.getElem?_map, List.getElem?_range hi]; rfl
  refine ⟨Ω, mΩ, P, fun _ _ => 0, fun ω _ m => (List.range m).map fun j => Int.fract (X j ω).1,
    fun ω => pick fun i => (X i ω).2, fun ω => ?_, ?_, ?_, ?_, ?_⟩
  · refine rng_normal_lawful (by simp) (by simp) ?_
    intro k m x hx
    obtain ⟨j, -, rfl⟩ := List.mem_map.1 hx
    exact ⟨Int.fract_nonneg _, Int.fract_lt_one _⟩
  · intro i hi
    simp only [hget _ i hi]
    exact uniform_fract (hU i)
  · intro i hi j hj
    interval_cases j
    · exact hZ0 i
    · exact hZ1 i
  · intro i hi' j hj
    simp only [hget _ i hi']
    interval_cases j
    · exact (hi i).comp measurable_fract measurable_fst
    · exact (hi i).comp measurable_fract measurable_snd
  · have hg : ∀ i : Fin n, Measurable fun t : ℝ × (Fin 4 → ℝ) × (Fin 4 → ℝ) => (Int.fract t.1, t.2) := fun _ =>
      (measurable_fract.comp measurable_fst).prodMk measurable_snd
    have h4 := (h3.precomp (g := fun i : Fin n => (i : ℕ)) Fin.val_injective).comp _ hg
    convert h4 using 2 with i
    funext ω
    simp only [hget _ i i.2]
    rfl

end

end Diffmah

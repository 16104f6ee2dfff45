import Verif.Props.Predict

/-!
# Populations with drawn peak times as random samples (C114)
-/

set_option maxRecDepth 10000

namespace Diffmah

open Pop TPeak PopParams MC MeasureTheory ProbabilityTheory

/-- The five parameters of a halo as a vector. -/
def pvec (p : MahParams ℝ) : Fin 5 → ℝ := ![p.logm0, p.logtc, p.early_index, p.late_index, p.t_peak]

section
variable {Ω : Type} [MeasurableSpace Ω]

/-- The random numbers that halo `i` of a population of `n` haloes with drawn peak times is made from: the
uniform number that decides its type, that of its peak time and the normal numbers of its two draws. -/
def popNumbers (u : Key → ℝ) (us : Key → ℕ → List ℝ) (z : Key → Fin 4 → ℝ) (key : Key) (n i : ℕ) :
    ℝ × ℝ × (Fin 4 → ℝ) × (Fin 4 → ℝ) :=
  ((us (Key.child key 2 0) n).getD i 0, haloNumbers u z (Key.child (Key.child key 2 1) n i))

theorem measurable_pvec {S : Type} [MeasurableSpace S] (x : MahParams (MF S)) :
    Measurable fun s => pvec (x.map (MF.eval s).φ) := by
  rw [measurable_pi_iff]
  intro i
  fin_cases i
  · exact x.logm0.meas
  · exact x.logtc.meas
  · exact x.early_index.meas
  · exact x.late_index.meas
  · exact x.t_peak.meas

/-- The chosen one of two draws, as a function of the random numbers. -/
theorem measurable_choice {a b : ℝ → (Fin 4 → ℝ) → Fin 5 → ℝ} (f : ℝ)
    (ha : Measurable fun s : ℝ × (Fin 4 → ℝ) => a s.1 s.2) (hb : Measurable fun s : ℝ × (Fin 4 → ℝ) => b s.1 s.2)
    [∀ s : ℝ × ℝ × (Fin 4 → ℝ) × (Fin 4 → ℝ), Decidable (s.1 < f)] :
    Measurable fun s : ℝ × ℝ × (Fin 4 → ℝ) × (Fin 4 → ℝ) => if s.1 < f then a s.2.1 s.2.2.1 else b s.2.1 s.2.2.2 := by
  refine Measurable.ite (measurableSet_lt measurable_fst measurable_const) ?_ ?_
  · have h : Measurable fun s : ℝ × ℝ × (Fin 4 → ℝ) × (Fin 4 → ℝ) => (s.2.1, s.2.2.1) :=
      (measurable_fst.comp measurable_snd).prodMk (measurable_fst.comp (measurable_snd.comp measurable_snd))
    exact ha.comp h
  · have h : Measurable fun s : ℝ × ℝ × (Fin 4 → ℝ) × (Fin 4 → ℝ) => (s.2.1, s.2.2.2) :=
      (measurable_fst.comp measurable_snd).prodMk (measurable_snd.comp (measurable_snd.comp measurable_snd))
    exact hb.comp h

/-- Type and parameters of a halo of a population, as a function of its random numbers. -/
theorem pop_halo_fun {ext : Ext} (hext : ext.Lawful) (kind : Kind) {p : NT ℝ} (hp : p.map Prod.fst = FIELDS)
    (hb : AllInBounds p) {m t lgt0 : ℝ} (hg : GoodInput kind m t lgt0 none) :
    ∃ (g : ℝ × ℝ × (Fin 4 → ℝ) × (Fin 4 → ℝ) → MahParams ℝ) (f : ℝ), Measurable (fun s => pvec (g s)) ∧
      frac_early_cens_kern p m t = .ok f ∧
      ∀ u us z, (Rng.normal u us z).Lawful → ∀ (lgm t_obs : List ℝ) key pop ks,
        mc_diffmah_pop ext (Rng.normal u us z) kind p lgm t_obs key lgt0 none = .ok (pop, ks) →
        ∀ i < lgm.length, lgm.getD i 0 = m → t_obs.getD i 0 = t →
        pop.mah_params.rows[i]? = some (g (popNumbers u us z key lgm.length i)) ∧
        pop.mc_early[i]? = some (decide ((popNumbers u us z key lgm.length i).1 < f)) := by
  classical
  obtain ⟨T, e, l, f, C, hT, he, hl, ve, vl, hf, f0, f1, hs⟩ := halo_value hext kind hp hb hg
  have gen : ∀ m : ℝ → MahParams ℝ, (∃ m' : MahParams (MF (ℝ × (Fin 4 → ℝ))), ∀ s, m s.1 = m'.map (MF.eval s).φ) →
      Measurable fun s : ℝ × (Fin 4 → ℝ) => pvec (drawn C (m s.1) s.2) := by
    rintro m ⟨m', hm⟩
    obtain ⟨x', hx⟩ := MF.draw_meas m' (z := fun s => s.2) measurable_snd C
      (x := fun s => drawn C (m s.1) s.2) (fun s => by rw [← hm]; rfl)
    have : (fun s : ℝ × (Fin 4 → ℝ) => pvec (drawn C (m s.1) s.2)) = fun s => pvec (x'.map (MF.eval s).φ) := by
      funext s; rw [← hx]
    rw [this]
    exact measurable_pvec x'
  let T' : MF (ℝ × (Fin 4 → ℝ)) := ⟨fun s => T s.1, hT.comp measurable_fst⟩
  have mE := gen e (MF.mean_early_meas kind p m t T' fun s => he s.1)
  have mL := gen l (MF.mean_late_meas kind p m t T' fun s => hl s.1)
  refine ⟨fun s => if s.1 < f then drawn C (e s.2.1) s.2.2.1 else drawn C (l s.2.1) s.2.2.2, f, ?_, hf, ?_⟩
  · have : (fun s : ℝ × ℝ × (Fin 4 → ℝ) × (Fin 4 → ℝ) =>
        pvec (if s.1 < f then drawn C (e s.2.1) s.2.2.1 else drawn C (l s.2.1) s.2.2.2)) =
        fun s => if s.1 < f then pvec (drawn C (e s.2.1) s.2.2.1) else pvec (drawn C (l s.2.1) s.2.2.2) := by
      funext s; rw [apply_ite pvec]
    rw [this]
    exact measurable_choice (a := fun x y => pvec (drawn C (e x) y)) (b := fun x y => pvec (drawn C (l x) y)) f mE mL
  · intro u us z hr lgm t_obs key pop ks h i hi hm ht
    obtain ⟨-, -, -, -, h3⟩ := C59_early_or_late ext _ hr kind p lgm t_obs key lgt0 _ _ _ h
    obtain ⟨b, E, L, f', v, b1, b5, b6, b7, b2, b3, b4⟩ := h3 i hi
    obtain ⟨rows, kss, -, -, -, h1, h8, h9, h4, -⟩ := pop_inv ext _ h
    obtain ⟨r, k, hr', -, hs'⟩ := h1 i hi
    obtain ⟨ks', hs''⟩ := hs u us z (Key.child (Key.child key 2 1) lgm.length i)
    rw [Option.map_none, hm, ht, hs''] at hs'
    have hrr := (RandM.ok_inj hs').1
    subst hrr
    rw [h8, stack_rows, List.getElem?_map, hr'] at b5
    rw [h9, stack_rows, List.getElem?_map, hr'] at b6
    rw [h4, List.getElem?_map, hr'] at b2
    simp only [Option.map_some, Option.some.injEq] at b5 b6 b2
    subst b5 b6 b2
    have hv : (popNumbers u us z key lgm.length i).1 = v := by
      change (us (Key.child key 2 0) lgm.length).getD i 0 = v
      rw [List.getD_eq_getElem?_getD]
      change ((Rng.normal u us z).uniforms (Key.child key 2 0) lgm.length)[i]?.getD 0 = v
      rw [b3]; rfl
    refine ⟨?_, ?_⟩
    · rw [b7]
      simp only [hv, b4]
      rfl
    · rw [b1, hv]
      cases b
      · have : ¬ v < f := fun hc => by simpa using b4.2 hc
        simp [this]
      · simp [b4.1 rfl]

/-- C114, a random sample. A population of any size with drawn peak times, any in-bounds population parameters, any
haloes in the range of the model: if the random numbers of different haloes are independent, then so are the
haloes, that is their types together with all five parameters, the drawn peak time included. Two haloes of the
same mass and time of observation are identically distributed, if their random numbers are. -/
theorem C114_independent (P : Measure Ω) (ext : Ext) (hext : ext.Lawful) (u : Ω → Key → ℝ)
    (us : Ω → Key → ℕ → List ℝ) (z : Ω → Key → Fin 4 → ℝ)
    (hl : ∀ ω, (Rng.normal (u ω) (us ω) (z ω)).Lawful) (kind : Kind) (p : NT ℝ)
    (hp : p.map Prod.fst = FIELDS) (hb : AllInBounds p) (lgm t_obs : List ℝ) (key : Key) (lgt0 : ℝ)
    (h1 : t_obs.length = lgm.length)
    (hg : ∀ i < lgm.length, GoodInput kind (lgm.getD i 0) (t_obs.getD i 0) lgt0 none)
    (hm : ∀ i < lgm.length, Measurable fun ω => popNumbers (u ω) (us ω) (z ω) key lgm.length i)
    (hi : iIndepFun (fun (i : Fin lgm.length) ω => popNumbers (u ω) (us ω) (z ω) key lgm.length i) P) :
    ∃ (pop : Ω → HaloPop) (X : ℕ → Ω → MahParams ℝ) (b : ℕ → Ω → Bool),
      (∀ ω, (mc_diffmah_pop ext (Rng.normal (u ω) (us ω) (z ω)) kind p lgm t_obs key lgt0 none).val? =
        some (pop ω)) ∧
      (∀ ω, (pop ω).mah_params.rows = (List.range lgm.length).map fun i => X i ω) ∧
      (∀ ω, (pop ω).mc_early = (List.range lgm.length).map fun i => b i ω) ∧
      iIndepFun (fun (i : Fin lgm.length) ω => (b i ω, pvec (X i ω))) P ∧
      (∀ i < lgm.length, ∀ j < lgm.length, lgm.getD i 0 = lgm.getD j 0 → t_obs.getD i 0 = t_obs.getD j 0 →
        IdentDistrib (fun ω => popNumbers (u ω) (us ω) (z ω) key lgm.length i)
          (fun ω => popNumbers (u ω) (us ω) (z ω) key lgm.length j) P P →
        IdentDistrib (fun ω => (b i ω, pvec (X i ω))) (fun ω => (b j ω, pvec (X j ω))) P P) ∧
      ∀ i < lgm.length, Measurable fun ω => (b i ω, pvec (X i ω)) := by
  classical
  have hpop : ∀ ω, ∃ pop ks, mc_diffmah_pop ext (Rng.normal (u ω) (us ω) (z ω)) kind p lgm t_obs key lgt0 none =
      .ok (pop, ks) := fun ω =>
    pop_ok ext _ (hl ω) kind p hp hb lgm t_obs key lgt0 none h1 (by rintro t ⟨⟩)
      (good_means ext _ hext kind p hp hb _ _ _ _ _ (by simpa using hg))
  choose pop ks hpop using hpop
  have hfun : ∀ q : ℝ × ℝ, GoodInput kind q.1 q.2 lgt0 none →
      ∃ (g : ℝ × ℝ × (Fin 4 → ℝ) × (Fin 4 → ℝ) → MahParams ℝ) (f : ℝ), Measurable (fun s => pvec (g s)) ∧
      frac_early_cens_kern p q.1 q.2 = .ok f ∧
      ∀ u us z, (Rng.normal u us z).Lawful → ∀ (lgm t_obs : List ℝ) key pop ks,
        mc_diffmah_pop ext (Rng.normal u us z) kind p lgm t_obs key lgt0 none = .ok (pop, ks) →
        ∀ i < lgm.length, lgm.getD i 0 = q.1 → t_obs.getD i 0 = q.2 →
        pop.mah_params.rows[i]? = some (g (popNumbers u us z key lgm.length i)) ∧
        pop.mc_early[i]? = some (decide ((popNumbers u us z key lgm.length i).1 < f)) :=
    fun q hq => pop_halo_fun hext kind hp hb hq
  have : Inhabited (MahParams ℝ) := ⟨⟨0, 0, 0, 0, 0⟩⟩
  choose! g f mg hf hgf using hfun
  let q : ℕ → ℝ × ℝ := fun i => (lgm.getD i 0, t_obs.getD i 0)
  have hq : ∀ i < lgm.length, GoodInput kind (q i).1 (q i).2 lgt0 none := hg
  have hG : ∀ i < lgm.length, Measurable fun s : ℝ × ℝ × (Fin 4 → ℝ) × (Fin 4 → ℝ) =>
      (decide (s.1 < f (q i)), pvec (g (q i) s)) := by
    intro i hi
    refine Measurable.prodMk ?_ (mg _ (hq i hi))
    refine measurable_to_bool ?_
    have : (fun s : ℝ × ℝ × (Fin 4 → ℝ) × (Fin 4 → ℝ) => decide (s.1 < f (q i))) ⁻¹' {true} = {s | s.1 < f (q i)} := by
      ext s; simp
    rw [this]
    exact measurableSet_lt measurable_fst measurable_const
  refine ⟨pop, fun i ω => g (q i) (popNumbers (u ω) (us ω) (z ω) key lgm.length i),
    fun i ω => decide ((popNumbers (u ω) (us ω) (z ω) key lgm.length i).1 < f (q i)),
    fun ω => by rw [hpop ω]; rfl, ?_, ?_, ?_, ?_, fun i hi => (hG i hi).comp (hm i hi)⟩
  · intro ω
    obtain ⟨ha, -⟩ := C59_early_or_late ext _ (hl ω) kind p lgm t_obs key lgt0 _ _ _ (hpop ω)
    apply List.ext_getElem?
    intro i
    by_cases hi : i < lgm.length
    · rw [(hgf (q i) (hq i hi) _ _ _ (hl ω) _ _ _ _ _ (hpop ω) i hi rfl rfl).1, List.getElem?_map,
        List.getElem?_range hi, Option.map_some]
    · have h' : (pop ω).mah_params.rows.length = lgm.length := by
        obtain ⟨a1, a2, a3, a4, a5⟩ := ha
        simp [MahPopArrays.rows, a1, a2, a3, a4, a5]
      rw [List.getElem?_eq_none (by omega), List.getElem?_eq_none (by simp; omega)]
  · intro ω
    obtain ⟨-, -, -, ha, -⟩ := C59_early_or_late ext _ (hl ω) kind p lgm t_obs key lgt0 _ _ _ (hpop ω)
    apply List.ext_getElem?
    intro i
    by_cases hi : i < lgm.length
    · rw [(hgf (q i) (hq i hi) _ _ _ (hl ω) _ _ _ _ _ (hpop ω) i hi rfl rfl).2, List.getElem?_map,
        List.getElem?_range hi, Option.map_some]
    · rw [List.getElem?_eq_none (by omega), List.getElem?_eq_none (by simp; omega)]
  · exact hi.comp _ fun i => hG i i.2
  · intro i hi j hj e1 e2 hid
    have e : q i = q j := by simp only [q]; rw [e1, e2]
    have := hid.comp (hG i hi)
    simp only [Function.comp_def] at this
    have e' : (fun ω => (decide ((popNumbers (u ω) (us ω) (z ω) key lgm.length j).1 < f (q j)),
        pvec (g (q j) (popNumbers (u ω) (us ω) (z ω) key lgm.length j)))) =
      fun ω => (decide ((popNumbers (u ω) (us ω) (z ω) key lgm.length j).1 < f (q i)),
        pvec (g (q i) (popNumbers (u ω) (us ω) (z ω) key lgm.length j))) := by rw [e]
    exact e' ▸ this

/-- The average of `n` pairwise independent numbers in the unit interval is close to the average of their
expectations. -/
theorem average_close {P : Measure Ω} [IsProbabilityMeasure P] {n : ℕ} (hn : 0 < n) {Y : ℕ → Ω → ℝ}
    (hm : ∀ i < n, Measurable (Y i)) (h0 : ∀ i < n, ∀ ω, Y i ω ∈ Set.Icc 0 1)
    (hi : ∀ i < n, ∀ j < n, i ≠ j → IndepFun (Y i) (Y j) P) {ε : ℝ} (hε : 0 < ε) :
    P {ω | ε ≤ |(∑ i ∈ Finset.range n, Y i ω) / n - (∑ i ∈ Finset.range n, P[Y i]) / n|} ≤
      ENNReal.ofReal (1 / (4 * n * ε ^ 2)) := by
  have hn' : (0 : ℝ) < n := by exact_mod_cast hn
  have LY : ∀ i < n, MemLp (Y i) 2 P := fun i hin =>
    memLp_of_bounded (Filter.Eventually.of_forall fun ω => h0 i hin ω) (hm i hin).aestronglyMeasurable 2
  have VY : ∀ i < n, Var[Y i; P] ≤ 1 / 4 := fun i hin => by
    have := variance_le_sq_of_bounded (X := Y i) (μ := P) (a := 0) (b := 1)
      (Filter.Eventually.of_forall fun ω => h0 i hin ω) (hm i hin).aemeasurable
    norm_num at this ⊢
    exact this
  let a : Ω → ℝ := fun ω => (∑ i ∈ Finset.range n, Y i ω) / n
  have e : a = fun ω => (1 / n : ℝ) * (∑ i ∈ Finset.range n, Y i) ω := by
    funext ω
    simp only [a, Finset.sum_apply]
    ring
  have La : MemLp a 2 P := by
    rw [e]
    exact (memLp_finsetSum' _ fun i hi => LY i (Finset.mem_range.1 hi)).const_mul _
  have Ea : (P[a] : ℝ) = (∑ i ∈ Finset.range n, P[Y i]) / (n : ℝ) := by
    simp only [a]
    rw [integral_div, integral_finsetSum _ fun i hi => (LY i (Finset.mem_range.1 hi)).integrable (by norm_num)]
  have Va : Var[a; P] ≤ 1 / (4 * n) := by
    rw [e, variance_const_mul, IndepFun.variance_sum (fun i hi => LY i (Finset.mem_range.1 hi))]
    · have : ∑ i ∈ Finset.range n, Var[Y i; P] ≤ ∑ i ∈ Finset.range n, (1 / 4 : ℝ) :=
        Finset.sum_le_sum fun i hi => VY i (Finset.mem_range.1 hi)
      rw [Finset.sum_const, Finset.card_range, nsmul_eq_mul] at this
      calc (1 / n : ℝ) ^ 2 * ∑ i ∈ Finset.range n, Var[Y i; P] ≤ (1 / n : ℝ) ^ 2 * (n * (1 / 4)) :=
            mul_le_mul_of_nonneg_left this (sq_nonneg _)
        _ = 1 / (4 * n) := by field_simp
    · intro i hi' j hj hij
      exact hi i (by simpa using hi') j (by simpa using hj) hij
  have := meas_ge_le_variance_div_sq La hε
  rw [Ea] at this
  refine this.trans (ENNReal.ofReal_le_ofReal ?_)
  calc Var[a; P] / ε ^ 2 ≤ 1 / (4 * n) / ε ^ 2 := div_le_div_of_nonneg_right Va (sq_nonneg _)
    _ = 1 / (4 * n * ε ^ 2) := by field_simp

/-- C114, averages. The average over a population of any quantity between 0 and 1 (say, whether the halo is of early
type, or has peaked by some time, or has a mass in some bin) differs by `ε` or more from the average of its
expectations with probability at most `1 / (4 n ε²)`. -/
theorem C114_averages (P : Measure Ω) (ext : Ext) (hext : ext.Lawful) (u : Ω → Key → ℝ)
    (us : Ω → Key → ℕ → List ℝ) (z : Ω → Key → Fin 4 → ℝ)
    (hl : ∀ ω, (Rng.normal (u ω) (us ω) (z ω)).Lawful) (kind : Kind) (p : NT ℝ)
    (hp : p.map Prod.fst = FIELDS) (hb : AllInBounds p) (lgm t_obs : List ℝ) (key : Key) (lgt0 : ℝ)
    (h0 : lgm ≠ []) (h1 : t_obs.length = lgm.length)
    (hg : ∀ i < lgm.length, GoodInput kind (lgm.getD i 0) (t_obs.getD i 0) lgt0 none)
    (hm : ∀ i < lgm.length, Measurable fun ω => popNumbers (u ω) (us ω) (z ω) key lgm.length i)
    (hi : iIndepFun (fun (i : Fin lgm.length) ω => popNumbers (u ω) (us ω) (z ω) key lgm.length i) P)
    (pop : Ω → HaloPop)
    (hpop : ∀ ω, (mc_diffmah_pop ext (Rng.normal (u ω) (us ω) (z ω)) kind p lgm t_obs key lgt0 none).val? =
        some (pop ω))
    (Q : Bool → (Fin 5 → ℝ) → ℝ) (hQ : ∀ b, Measurable (Q b)) (h01 : ∀ b x, 0 ≤ Q b x ∧ Q b x ≤ 1)
    (ε : ℝ) (hε : 0 < ε) :
    ∃ q : ℕ → Ω → ℝ,
      (∀ ω, List.zipWith (fun b x => Q b (pvec x)) (pop ω).mc_early (pop ω).mah_params.rows =
        (List.range lgm.length).map fun i => q i ω) ∧
      P {ω | ε ≤ |(∑ i ∈ Finset.range lgm.length, q i ω) / lgm.length -
        (∑ i ∈ Finset.range lgm.length, P[q i]) / lgm.length|} ≤
      ENNReal.ofReal (1 / (4 * lgm.length * ε ^ 2)) := by
  have hP : IsProbabilityMeasure P := hi.isProbabilityMeasure
  obtain ⟨pop', X, b, g1, g2, g3, g4, -, g5⟩ := C114_independent P ext hext u us z hl kind p hp hb lgm t_obs key lgt0
    h1 hg hm hi
  have hpp : pop' = pop := by
    funext ω
    have := g1 ω
    rw [hpop ω] at this
    exact (Option.some.inj this).symm
  subst hpp
  have hQ' : Measurable fun s : Bool × (Fin 5 → ℝ) => Q s.1 s.2 := measurable_from_prod_countable_right hQ
  refine ⟨fun i ω => Q (b i ω) (pvec (X i ω)), fun ω => ?_, ?_⟩
  · rw [g2, g3, List.zipWith_map, List.zipWith_self]
  · refine average_close (List.length_pos_iff.2 h0) ?_ (fun i _ ω => h01 _ _) ?_ hε
    · intro i hin
      exact hQ'.comp (g5 i hin)
    · intro i hin j hjn hij
      have := g4.indepFun (i := ⟨i, hin⟩) (j := ⟨j, hjn⟩) (by simpa using hij)
      exact this.comp hQ' hQ'

/-- C114, types. The fraction of haloes of a population that are of early type differs by `ε` or more from the average
of the early fractions of the population model with probability at most `1 / (4 n ε²)`. -/
theorem C114_early_fraction (P : Measure Ω) (ext : Ext) (hext : ext.Lawful) (u : Ω → Key → ℝ)
    (us : Ω → Key → ℕ → List ℝ) (z : Ω → Key → Fin 4 → ℝ)
    (hl : ∀ ω, (Rng.normal (u ω) (us ω) (z ω)).Lawful) (kind : Kind) (p : NT ℝ)
    (hp : p.map Prod.fst = FIELDS) (hb : AllInBounds p) (lgm t_obs : List ℝ) (key : Key) (lgt0 : ℝ)
    (h0 : lgm ≠ []) (h1 : t_obs.length = lgm.length)
    (hg : ∀ i < lgm.length, GoodInput kind (lgm.getD i 0) (t_obs.getD i 0) lgt0 none)
    (hm : ∀ i < lgm.length, Measurable fun ω => popNumbers (u ω) (us ω) (z ω) key lgm.length i)
    (hi : iIndepFun (fun (i : Fin lgm.length) ω => popNumbers (u ω) (us ω) (z ω) key lgm.length i) P)
    (hu : ∀ i < lgm.length, IsUniform P fun ω => (us ω (Key.child key 2 0) lgm.length).getD i 0)
    (pop : Ω → HaloPop)
    (hpop : ∀ ω, (mc_diffmah_pop ext (Rng.normal (u ω) (us ω) (z ω)) kind p lgm t_obs key lgt0 none).val? =
        some (pop ω)) (ε : ℝ) (hε : 0 < ε) :
    ∃ f : List ℝ, (∀ ω, (pop ω).frac_early_cens = f) ∧ f.length = lgm.length ∧
      P {ω | ε ≤ |((pop ω).mc_early.count true : ℝ) / lgm.length - f.sum / lgm.length|} ≤
      ENNReal.ofReal (1 / (4 * lgm.length * ε ^ 2)) := by
  classical
  have hP : IsProbabilityMeasure P := hi.isProbabilityMeasure
  obtain ⟨q, q1, q2⟩ := C114_averages P ext hext u us z hl kind p hp hb lgm t_obs key lgt0 h0 h1 hg hm hi pop hpop
    (fun b _ => if b then 1 else 0) (fun _ => measurable_const) (by intro b _; cases b <;> simp) ε hε
  have hks : ∀ ω, ∃ ks, mc_diffmah_pop ext (Rng.normal (u ω) (us ω) (z ω)) kind p lgm t_obs key lgt0 none =
      .ok (pop ω, ks) := by
    intro ω
    have := hpop ω
    cases h : mc_diffmah_pop ext (Rng.normal (u ω) (us ω) (z ω)) kind p lgm t_obs key lgt0 none with
    | error x => rw [h] at this; cases this
    | ok v => rw [h] at this; exact ⟨v.2, by rw [← Option.some.inj this]⟩
  choose ks hks using hks
  have hf : ∀ i, ∃ f, frac_early_cens_kern p (lgm.getD i 0) (t_obs.getD i 0) = .ok f := fun i =>
    let ⟨f, h, _⟩ := C52_frac_early p hb.2.2.2.2.2.2.2.1 (lgm.getD i 0) (t_obs.getD i 0)
    ⟨f, h⟩
  choose F hF using hf
  have hrow : ∀ i < lgm.length, (∀ ω, (pop ω).frac_early_cens[i]? = some (F i)) ∧
      P {ω | (pop ω).mc_early[i]? = some true} = ENNReal.ofReal (F i) ∧ 0 ≤ F i := by
    intro i hin
    obtain ⟨f, hf, f1, f2, h3, h4, -⟩ := C107_early_probability P ext _ hl kind p hb.2.2.2.2.2.2.2.1 lgm t_obs key lgt0
      none pop ks hks i hin (hu i hin)
    rw [hF i] at hf
    cases hf
    exact ⟨h3, h4, by linarith⟩
  have hrow' := fun ω => C59_early_or_late ext _ (hl ω) kind p lgm t_obs key lgt0 _ _ _ (hks ω)
  refine ⟨(List.range lgm.length).map F, fun ω => ?_, by simp, ?_⟩
  · apply List.ext_getElem?
    intro i
    obtain ⟨rows, kss, l1, -, -, -, -, -, h4, -⟩ := pop_inv ext _ (hks ω)
    by_cases hin : i < lgm.length
    · rw [(hrow i hin).1, List.getElem?_map, List.getElem?_range hin, Option.map_some]
    · rw [List.getElem?_eq_none (by rw [h4, List.length_map]; omega), List.getElem?_eq_none (by simp; omega)]
  · have hq : ∀ i < lgm.length, q i = Set.indicator {ω | (pop ω).mc_early[i]? = some true} 1 := by
      intro i hin
      funext ω
      have := congrArg (fun l => l[i]?) (q1 ω)
      simp only [List.getElem?_zipWith, List.getElem?_map, List.getElem?_range hin, Option.map_some] at this
      obtain ⟨b, E, L, f', v, b1, -, -, b7, -⟩ := (hrow' ω).2.2.2.2 i hin
      rw [b1, b7] at this
      have hb' : (if b = true then (1 : ℝ) else 0) = q i ω := Option.some.inj this
      rw [← hb']
      cases b <;> simp [b1]
    have hE : ∀ i < lgm.length, P[q i] = F i := by
      intro i hin
      have hms : MeasurableSet {ω | (pop ω).mc_early[i]? = some true} := by
        have e : {ω | (pop ω).mc_early[i]? = some true} =
            (fun ω => (popNumbers (u ω) (us ω) (z ω) key lgm.length i).1) ⁻¹' Set.Iio (F i) := by
          ext ω
          obtain ⟨g, f, -, hf, hgf⟩ := pop_halo_fun hext kind hp hb (hg i hin)
          rw [hF i] at hf
          cases hf
          have := (hgf _ _ _ (hl ω) lgm t_obs key _ _ (hks ω) i hin rfl rfl).2
          simp [this]
        rw [e]
        exact (measurable_fst.comp (hm i hin)) measurableSet_Iio
      rw [hq i hin, integral_indicator_one hms, measureReal_def, (hrow i hin).2.1,
        ENNReal.toReal_ofReal (hrow i hin).2.2]
    have hc : ∀ ω, ((pop ω).mc_early.count true : ℝ) = ∑ i ∈ Finset.range lgm.length, q i ω := by
      intro ω
      have h2 := congrArg List.sum (q1 ω)
      rw [Finset.sum_range, ← List.sum_ofFn]
      have e1 : (List.ofFn fun i : Fin lgm.length => q i ω) = (List.range lgm.length).map fun i => q i ω := by
        rw [List.ofFn_eq_map, ← List.map_coe_finRange_eq_range, List.map_map]; rfl
      rw [e1, ← h2]
      have hlen : (pop ω).mc_early.length = (pop ω).mah_params.rows.length := by
        obtain ⟨a1, a2, a3, a4, a5⟩ := (hrow' ω).1
        rw [(hrow' ω).2.2.2.1]
        simp [MahPopArrays.rows, a1, a2, a3, a4, a5]
      have : ∀ (l : List Bool) (r : List (MahParams ℝ)), l.length = r.length →
          ((l.count true : ℕ) : ℝ) = (List.zipWith (fun (b : Bool) (_ : MahParams ℝ) => if b = true then (1 : ℝ) else 0) l r).sum := by
        intro l
        induction l with
        | nil => intro r _; simp
        | cons a l ih =>
          intro r hr
          cases r with
          | nil => simp at hr
          | cons c r =>
            rw [List.zipWith_cons_cons, List.sum_cons, ← ih r (by simpa using hr)]
            cases a <;> simp [add_comm]
      exact this _ _ hlen
    have hs : ((List.range lgm.length).map F).sum = ∑ i ∈ Finset.range lgm.length, P[q i] := by
      rw [Finset.sum_congr rfl fun i hi => hE i (Finset.mem_range.1 hi), Finset.sum_range, ← List.sum_ofFn]
      congr 1
      rw [List.ofFn_eq_map, ← List.map_coe_finRange_eq_range, List.map_map]; rfl
    simp only [hc, hs]
    exact q2

/-- In the witness below, the numbers of a key: those of halo `i` if the key is a child of the `i`-th key of a split. -/
private def at' {β : Type} (d : β) (x : ℕ → β × β) : Key → β
  | .child (.child _ _ i) _ 0 => (x i).1
  | .child (.child _ _ i) _ _ => (x i).2
  | _ => d

/-- The hypotheses of C114 can be met, for every key and number of haloes. -/
example (key : Key) (n : ℕ) : (∃ p : NT ℝ, p.map Prod.fst = FIELDS ∧ AllInBounds p) ∧
    (∀ i < n, GoodInput .sats ((List.replicate n 12).getD i 0) ((List.replicate n 10).getD i 0) 1.1 none) ∧
    ∃ (Ω : Type) (_ : MeasurableSpace Ω) (P : Measure Ω) (u : Ω → Key → ℝ)
      (us : Ω → Key → ℕ → List ℝ) (z : Ω → Key → Fin 4 → ℝ),
      (∀ ω, (Rng.normal (u ω) (us ω) (z ω)).Lawful) ∧
      (∀ i < n, Measurable fun ω => popNumbers (u ω) (us ω) (z ω) key n i) ∧
      iIndepFun (fun (i : Fin n) ω => popNumbers (u ω) (us ω) (z ω) key n i) P ∧
      (∀ i < n, IsUniform P fun ω => (us ω (Key.child key 2 0) n).getD i 0) ∧
      ∀ i < n, ∀ j < n, IdentDistrib (fun ω => popNumbers (u ω) (us ω) (z ω) key n i)
        (fun ω => popNumbers (u ω) (us ω) (z ω) key n j) P P := by
  refine ⟨exists_allInBounds, ?_, ?_⟩
  · intro i hi
    have : ∀ x : ℝ, (List.replicate n x).getD i 0 = x := fun x => by
      rw [List.getD_eq_getElem _ _ (by rw [List.length_replicate]; exact hi), List.getElem_replicate]
    rw [this, this]
    exact ⟨by norm_num, by norm_num, by norm_num, by norm_num, trivial⟩
  let N := Measure.pi fun _ : Fin 4 => gaussianReal 0 1
  let V := volume.restrict (Set.Ico (0 : ℝ) 1)
  obtain ⟨Ω, mΩ, P, X, h1, h2, h3, hP⟩ := exists_iid ℕ (V.prod (V.prod (N.prod N)))
  have hU : ∀ i, IsUniform P fun ω => (X i ω).1 := fun i =>
    ⟨measurable_fst.comp (h1 i), by
      have : (fun ω => (X i ω).1) = Prod.fst ∘ X i := rfl
      rw [this, ← Measure.map_map measurable_fst (h1 i), (h2 i).map_eq]
      exact measurePreserving_fst.map_eq⟩
  have hget : ∀ ω, ∀ i < n, ((List.range n).map fun j => Int.fract (X j ω).1).getD i 0 = Int.fract (X i ω).1 := by
    intro ω i hi
    rw [List.getD_eq_getElem?_getD, List.getElem?_map, List.getElem?_range hi]; rfl
  let g : ℝ × ℝ × (Fin 4 → ℝ) × (Fin 4 → ℝ) → ℝ × ℝ × (Fin 4 → ℝ) × (Fin 4 → ℝ) := fun t =>
    (Int.fract t.1, Int.fract t.2.1, t.2.2)
  have hg : Measurable g := (measurable_fract.comp measurable_fst).prodMk
    ((measurable_fract.comp (measurable_fst.comp measurable_snd)).prodMk (measurable_snd.comp measurable_snd))
  let u : Ω → Key → ℝ := fun ω => at' 0 fun i => (Int.fract (X i ω).2.1, 0)
  let us : Ω → Key → ℕ → List ℝ := fun ω _ m => (List.range m).map fun j => Int.fract (X j ω).1
  let z : Ω → Key → Fin 4 → ℝ := fun ω => at' 0 fun i => (X i ω).2.2
  have hnum : ∀ i < n, (fun ω => popNumbers (u ω) (us ω) (z ω) key n i) = fun ω => g (X i ω) := by
    intro i hi
    funext ω
    simp only [popNumbers, us, hget ω i hi]
    rfl
  refine ⟨Ω, mΩ, P, u, us, z, fun ω => ?_, ?_, ?_, ?_, ?_⟩
  · refine rng_normal_lawful ?_ (by simp [us]) ?_
    · intro k
      simp only [u]
      unfold at'
      split <;> simp [Int.fract_nonneg, Int.fract_lt_one]
    · intro k m x hx
      obtain ⟨j, -, rfl⟩ := List.mem_map.1 hx
      exact ⟨Int.fract_nonneg _, Int.fract_lt_one _⟩
  · intro i hi
    rw [hnum i hi]
    exact hg.comp (h1 i)
  · have h4 := (h3.precomp (g := fun i : Fin n => (i : ℕ)) Fin.val_injective).comp (fun _ => g) fun _ => hg
    convert h4 using 2 with i
    exact hnum i i.2
  · intro i hi
    simp only [us, hget _ i hi]
    exact uniform_fract (hU i)
  · intro i hi j hj
    rw [hnum i hi, hnum j hj]
    have : IdentDistrib (X i) (X j) P P := ⟨(h1 i).aemeasurable, (h1 j).aemeasurable, by
      rw [(h2 i).map_eq, (h2 j).map_eq]⟩
    exact this.comp hg

end

end Diffmah

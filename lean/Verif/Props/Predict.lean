import Verif.Lemmas.HaloFun
import Verif.Props.Moments
import Mathlib.Probability.IdentDistrib
import Mathlib.Probability.Moments.Variance

/-!
# Predicted moments and Monte Carlo populations (C109)
-/

set_option maxRecDepth 10000

namespace Diffmah

open Pop TPeak PopParams MC MeasureTheory ProbabilityTheory

section
variable {Ω : Type} [MeasurableSpace Ω]

/-- The random numbers from which a halo with key `k` is drawn: the uniform number of its first child key
(for the peak time) and the normal numbers of its two child keys. -/
def haloNumbers (u : Key → ℝ) (z : Key → Fin 4 → ℝ) (k : Key) : ℝ × (Fin 4 → ℝ) × (Fin 4 → ℝ) :=
  (u (Key.child k 2 0), z (Key.child k 2 0), z (Key.child k 2 1))

/-- Two values of a halo, weighted by the probabilities of the two types. -/
noncomputable def mixed (f : ℝ) (a b : ℝ × (Fin 4 → ℝ) → ℝ) (w : ℝ × (Fin 4 → ℝ) × (Fin 4 → ℝ)) : ℝ :=
  f * a (w.1, w.2.1) + (1 - f) * b (w.1, w.2.2)

theorem mixed_meas {f : ℝ} {a b : ℝ × (Fin 4 → ℝ) → ℝ} (ha : Measurable a) (hb : Measurable b) :
    Measurable (mixed f a b) := by
  unfold mixed
  have h1 : Measurable fun w : ℝ × (Fin 4 → ℝ) × (Fin 4 → ℝ) => (w.1, w.2.1) := by fun_prop
  have h2 : Measurable fun w : ℝ × (Fin 4 → ℝ) × (Fin 4 → ℝ) => (w.1, w.2.2) := by fun_prop
  exact (measurable_const.mul (ha.comp h1)).add (measurable_const.mul (hb.comp h2))

theorem mixture_sum (n : ℕ) (E L : ℕ → ℝ) (f : ℝ) (g : ℝ → ℝ) :
    ((Spec.mixture ((List.range n).map E) ((List.range n).map L) ((List.range n).map fun _ => f)).map
      fun q => q.1 * g q.2).sum = (∑ i ∈ Finset.range n, (f * g (E i) + (1 - f) * g (L i))) / n := by
  unfold Spec.mixture
  have key : ∀ (c : ℝ) (X : ℕ → ℝ) (l : List ℕ), ((List.zipWith (fun (f x : ℝ) => (f / c, x))
      (l.map fun _ => f) (l.map X)).map fun q => q.1 * g q.2).sum = (l.map fun i => f * g (X i) / c).sum := by
    intro c X l
    induction l with
    | nil => rfl
    | cons a l ih => simp only [List.map_cons, List.zipWith_cons_cons, List.sum_cons, ih]; ring
  have key' : ∀ (c : ℝ) (X : ℕ → ℝ) (l : List ℕ), ((List.zipWith (fun (f x : ℝ) => ((1 - f) / c, x))
      (l.map fun _ => f) (l.map X)).map fun q => q.1 * g q.2).sum = (l.map fun i => (1 - f) * g (X i) / c).sum := by
    intro c X l
    induction l with
    | nil => rfl
    | cons a l ih => simp only [List.map_cons, List.zipWith_cons_cons, List.sum_cons, ih]; ring
  rw [List.map_append, List.sum_append, key, key', List.length_map, List.length_range, Finset.sum_div]
  have fin : ∀ F : ℕ → ℝ, ((List.range n).map F).sum = ∑ i ∈ Finset.range n, F i := by
    intro F
    rw [Finset.sum_eq_multiset_sum]
    rfl
  rw [fin, fin, ← Finset.sum_add_distrib]
  refine Finset.sum_congr rfl fun i _ => ?_
  ring

/-- The predicted moments in terms of the random numbers of the sample. -/
theorem predict_value {ext : Ext} {kind : Kind} {p : NT ℝ} (hb : AllInBounds p) {lgm t_obs lgt0 : ℝ}
    {xE xL : ℝ → ℝ × (Fin 4 → ℝ) → ℝ} {f : ℝ}
    (hx : ∀ u us z key tarr r ks,
      mc_diffmah_single ext (Rng.normal u us z) kind p tarr lgm t_obs key lgt0 = .ok (r, ks) →
      r.log_mah_early = tarr.map (fun t => xE t (u (Key.child key 2 0), z (Key.child key 2 0))) ∧
      r.log_mah_late = tarr.map (fun t => xL t (u (Key.child key 2 0), z (Key.child key 2 1))) ∧
      r.frac_early = f)
    {u : Key → ℝ} {us : Key → ℕ → List ℝ} {z : Key → Fin 4 → ℝ} {tarr : List ℝ} {key : Key}
    {out : List (ℝ × ℝ × ℝ)}
    (h : (predict_mah_moments_singlebin ext (Rng.normal u us z) kind p tarr lgm t_obs key lgt0).val? = some out)
    {it : ℕ} {t : ℝ} (ht : tarr[it]? = some t) :
    ∃ s, out[it]? = some ((∑ i ∈ Finset.range 200,
        mixed f (xE t) (xL t) (haloNumbers u z (Key.child key 200 i))) / 200, s, 0.5) ∧
      s ^ 2 = (∑ i ∈ Finset.range 200,
          mixed f (fun q => xE t q ^ 2) (fun q => xL t q ^ 2) (haloNumbers u z (Key.child key 200 i))) / 200 -
        ((∑ i ∈ Finset.range 200, mixed f (xE t) (xL t) (haloNumbers u z (Key.child key 200 i))) / 200) ^ 2 := by
  cases h' : predict_mah_moments_singlebin ext (Rng.normal u us z) kind p tarr lgm t_obs key lgt0 with
  | error e => rw [h'] at h; cases h
  | ok r =>
    obtain ⟨o, ks⟩ := r
    rw [h'] at h
    obtain rfl : o = out := Option.some.inj h
    obtain ⟨sample, h1, h2, -, -, h3⟩ := C62_moments_of_mixture ext _ kind p hb tarr lgm t_obs key lgt0 _ _ h'
    have hit : it < tarr.length := (List.getElem?_eq_some_iff.1 ht).1
    obtain ⟨pts, hpts, -, -, h4, -, -, h5, h6⟩ := h3 it hit
    -- the sample, halo by halo
    have hs : ∀ i < 200, ∃ s k, sample[i]? = some s ∧ mc_diffmah_single ext (Rng.normal u us z) kind p tarr lgm
        t_obs (Key.child key 200 i) lgt0 = .ok (s, k) := by
      intro i hi
      unfold mc_diffmah_halo_sample at h1
      obtain ⟨kss, -, l1, l2, h5⟩ := RandM.all_inv h1
      obtain ⟨v, k, hv, -, h6⟩ := h5 i _ (by
        rw [Key.split, List.map_map, List.getElem?_map, List.getElem?_range hi]; rfl)
      exact ⟨v, k, hv, by simpa only [Function.comp, add_zero] using h6⟩
    have hget : ∀ F : ℝ → ℝ, (tarr.map F).getD it 0 = F t := by
      intro F
      rw [List.getD_eq_getElem?_getD, List.getElem?_map, ht]; rfl
    have cols : ∀ (G : SingleHistories → ℝ) (H : ℕ → ℝ), (∀ i < 200, ∀ s, sample[i]? = some s → G s = H i) →
        sample.map G = (List.range 200).map H := by
      intro G H hG
      apply List.ext_getElem?
      intro i
      rw [List.getElem?_map, List.getElem?_map]
      by_cases hi : i < 200
      · obtain ⟨s, k, hs, -⟩ := hs i hi
        rw [hs, List.getElem?_range hi, Option.map_some, Option.map_some, hG i hi s hs]
      · rw [List.getElem?_eq_none (by omega), List.getElem?_eq_none (by simp; omega)]; rfl
    have c1 := cols (fun s => s.log_mah_early.getD it 0)
      (fun i => xE t (u (Key.child (Key.child key 200 i) 2 0), z (Key.child (Key.child key 200 i) 2 0))) (by
        intro i hi s hsi
        obtain ⟨s', k, hs', hh⟩ := hs i hi
        rw [hsi] at hs'; cases hs'
        rw [(hx _ _ _ _ _ _ _ hh).1, hget])
    have c2 := cols (fun s => s.log_mah_late.getD it 0)
      (fun i => xL t (u (Key.child (Key.child key 200 i) 2 0), z (Key.child (Key.child key 200 i) 2 1))) (by
        intro i hi s hsi
        obtain ⟨s', k, hs', hh⟩ := hs i hi
        rw [hsi] at hs'; cases hs'
        rw [(hx _ _ _ _ _ _ _ hh).2.1, hget])
    have c3 := cols (fun s => s.frac_early) (fun _ => f) (by
        intro i hi s hsi
        obtain ⟨s', k, hs', hh⟩ := hs i hi
        rw [hsi] at hs'; cases hs'
        exact (hx _ _ _ _ _ _ _ hh).2.2)
    rw [c1, c2, c3] at hpts
    have m1 := mixture_sum 200
      (fun i => xE t (u (Key.child (Key.child key 200 i) 2 0), z (Key.child (Key.child key 200 i) 2 0)))
      (fun i => xL t (u (Key.child (Key.child key 200 i) 2 0), z (Key.child (Key.child key 200 i) 2 1))) f
    have e1 := m1 fun x => x
    have e2 := m1 fun x => x ^ 2
    rw [← hpts] at e1 e2
    norm_num at e1 e2
    have e1' : Spec.wmean pts = (∑ i ∈ Finset.range 200,
        mixed f (xE t) (xL t) (haloNumbers u z (Key.child key 200 i))) / 200 := e1
    refine ⟨Real.sqrt (Spec.wvar pts), by rw [h4, e1'], ?_⟩
    rw [Real.sq_sqrt h6, h5, e1', e2]
    rfl

/-- One halo of a Monte Carlo population with histories, in terms of its random numbers. -/
theorem hist_value {ext : Ext} {kind : Kind} {p : NT ℝ} {lgm t_obs : List ℝ} {lgt0 : ℝ} {i : ℕ}
    (hi : i < lgm.length) {xE xL : ℝ → ℝ × (Fin 4 → ℝ) → ℝ} {f : ℝ}
    (hx : ∀ u us z key tarr r ks,
      mc_diffmah_single ext (Rng.normal u us z) kind p tarr (lgm.getD i 0) (t_obs.getD i 0) key lgt0 = .ok (r, ks) →
      r.log_mah_early = tarr.map (fun t => xE t (u (Key.child key 2 0), z (Key.child key 2 0))) ∧
      r.log_mah_late = tarr.map (fun t => xL t (u (Key.child key 2 0), z (Key.child key 2 1))) ∧
      r.frac_early = f)
    {u : Key → ℝ} {us : Key → ℕ → List ℝ} {z : Key → Fin 4 → ℝ} (hr : (Rng.normal u us z).Lawful)
    {tarr : List ℝ} {key : Key} {pop : HaloHist}
    (h : (mc_pop ext (Rng.normal u us z) kind p tarr lgm t_obs key lgt0).val? = some pop)
    {it : ℕ} {t : ℝ} (ht : tarr[it]? = some t) :
    ∃ row, pop.log_mah[i]? = some row ∧ row[it]? = some
      (open Classical in if (us (Key.child key (lgm.length + 1) lgm.length) lgm.length).getD i 0 < f
        then xE t ((haloNumbers u z (Key.child key (lgm.length + 1) i)).1,
          (haloNumbers u z (Key.child key (lgm.length + 1) i)).2.1)
        else xL t ((haloNumbers u z (Key.child key (lgm.length + 1) i)).1,
          (haloNumbers u z (Key.child key (lgm.length + 1) i)).2.2)) := by
  cases h' : mc_pop ext (Rng.normal u us z) kind p tarr lgm t_obs key lgt0 with
  | error e => rw [h'] at h; cases h
  | ok r =>
    obtain ⟨o, ks⟩ := r
    rw [h'] at h
    obtain rfl : o = pop := Option.some.inj h
    obtain ⟨rows, kss, l1, -, -, h1, m, hm, -, -, h4, -⟩ := hist_inv ext _ h'
    obtain ⟨r, k, hrow, -, hs⟩ := h1 i hi
    obtain ⟨x1, x2, x3⟩ := hx _ _ _ _ _ _ _ hs
    have hu : (us (Key.child key (lgm.length + 1) lgm.length) lgm.length)[i]? =
        some ((us (Key.child key (lgm.length + 1) lgm.length) lgm.length).getD i 0) := by
      have hl : (us (Key.child key (lgm.length + 1) lgm.length) lgm.length).length = lgm.length :=
        hr.uniforms_length _ _
      rw [List.getD_eq_getElem?_getD, List.getElem?_eq_getElem (by omega)]; rfl
    set U := (us (Key.child key (lgm.length + 1) lgm.length) lgm.length).getD i 0 with hU
    classical
    have hm' : m[i]? = some (decide (U < f)) := by
      rw [hm]
      unfold below
      change (List.zipWith _ (us (Key.child key (lgm.length + 1) lgm.length) lgm.length) _)[i]? = _
      rw [List.getElem?_zipWith, hu, List.getElem?_map, hrow, Option.map_some, x3]
    refine ⟨if U < f then r.log_mah_early else r.log_mah_late, ?_, ?_⟩
    · rw [h4]
      unfold whereArr
      rw [List.getElem?_zipWith, hm', List.zip, List.getElem?_zipWith, List.getElem?_map, List.getElem?_map, hrow]
      simp
    · split_ifs
      · rw [x1, List.getElem?_map, ht]; rfl
      · rw [x2, List.getElem?_map, ht]; rfl

/-- Expectation over the two types. -/
theorem mixed_expect {P : Measure Ω} {U : Ω → ℝ} (hU : IsUniform P U) {f : ℝ} (f0 : 0 ≤ f) (f1 : f ≤ 1)
    {W : Ω → ℝ × (Fin 4 → ℝ) × (Fin 4 → ℝ)} (hW : Measurable W) (hi : IndepFun U W P)
    {a b : ℝ × (Fin 4 → ℝ) → ℝ} (ha : Measurable a) (hb : Measurable b) {g : ℝ → ℝ} (hg : Measurable g)
    {B : ℝ} (hB : ∀ s, |g (a s)| ≤ B) (hB' : ∀ s, |g (b s)| ≤ B) :
    ∫ ω, g (open Classical in if U ω < f then a ((W ω).1, (W ω).2.1) else b ((W ω).1, (W ω).2.2)) ∂P =
      ∫ ω, mixed f (g ∘ a) (g ∘ b) (W ω) ∂P := by
  classical
  have : IsProbabilityMeasure P := hU.prob
  have p1 : Measurable fun w : ℝ × (Fin 4 → ℝ) × (Fin 4 → ℝ) => (w.1, w.2.1) := by fun_prop
  have p2 : Measurable fun w : ℝ × (Fin 4 → ℝ) × (Fin 4 → ℝ) => (w.1, w.2.2) := by fun_prop
  have mX : Measurable fun ω => g (a ((W ω).1, (W ω).2.1)) := hg.comp (ha.comp (p1.comp hW))
  have mY : Measurable fun ω => g (b ((W ω).1, (W ω).2.2)) := hg.comp (hb.comp (p2.comp hW))
  have iX : IndepFun U (fun ω => g (a ((W ω).1, (W ω).2.1))) P :=
    hi.comp measurable_id (hg.comp (ha.comp p1))
  have iY : IndepFun U (fun ω => g (b ((W ω).1, (W ω).2.2))) P :=
    hi.comp measurable_id (hg.comp (hb.comp p2))
  have nX : Integrable (fun ω => g (a ((W ω).1, (W ω).2.1))) P :=
    Integrable.of_bound mX.aestronglyMeasurable B (.of_forall fun ω => hB _)
  have nY : Integrable (fun ω => g (b ((W ω).1, (W ω).2.2))) P :=
    Integrable.of_bound mY.aestronglyMeasurable B (.of_forall fun ω => hB' _)
  have hmix := mixture_law hU f0 f1 mX mY iX iY
  have e : (fun ω => g (if U ω < f then a ((W ω).1, (W ω).2.1) else b ((W ω).1, (W ω).2.2))) =
      fun ω => if U ω < f then g (a ((W ω).1, (W ω).2.1)) else g (b ((W ω).1, (W ω).2.2)) := by
    funext ω; rw [apply_ite g]
  have mZ : Measurable fun ω => if U ω < f then g (a ((W ω).1, (W ω).2.1)) else g (b ((W ω).1, (W ω).2.2)) :=
    Measurable.ite (measurableSet_lt hU.measurable measurable_const) mX mY
  rw [e]
  have h1 : ∫ ω, (if U ω < f then g (a ((W ω).1, (W ω).2.1)) else g (b ((W ω).1, (W ω).2.2))) ∂P =
      ∫ x, x ∂(P.map fun ω => if U ω < f then g (a ((W ω).1, (W ω).2.1)) else g (b ((W ω).1, (W ω).2.2))) :=
    (integral_map (φ := fun ω => if U ω < f then g (a ((W ω).1, (W ω).2.1)) else g (b ((W ω).1, (W ω).2.2)))
      mZ.aemeasurable (f := fun x => x) measurable_id.aestronglyMeasurable).symm
  have i1 : Integrable (fun x : ℝ => x) (P.map fun ω => g (a ((W ω).1, (W ω).2.1))) :=
    (integrable_map_measure measurable_id.aestronglyMeasurable mX.aemeasurable).2 nX
  have i2 : Integrable (fun x : ℝ => x) (P.map fun ω => g (b ((W ω).1, (W ω).2.2))) :=
    (integrable_map_measure measurable_id.aestronglyMeasurable mY.aemeasurable).2 nY
  rw [h1, hmix, integral_add_measure (i1.smul_measure ENNReal.ofReal_ne_top) (i2.smul_measure ENNReal.ofReal_ne_top),
    integral_smul_measure, integral_smul_measure,
    integral_map (f := fun x : ℝ => x) mX.aemeasurable measurable_id.aestronglyMeasurable,
    integral_map (f := fun x : ℝ => x) mY.aemeasurable measurable_id.aestronglyMeasurable,
    ENNReal.toReal_ofReal f0, ENNReal.toReal_ofReal (by linarith)]
  simp only [mixed, Function.comp]
  rw [integral_add (nX.const_mul f) (nY.const_mul (1 - f)), integral_const_mul, integral_const_mul]
  rfl

theorem mixed_abs {f : ℝ} (f0 : 0 ≤ f) (f1 : f ≤ 1) {a b : ℝ × (Fin 4 → ℝ) → ℝ} {B : ℝ} (ha : ∀ s, |a s| ≤ B)
    (hb : ∀ s, |b s| ≤ B) (w : ℝ × (Fin 4 → ℝ) × (Fin 4 → ℝ)) : |mixed f a b w| ≤ B := by
  unfold mixed
  have h1 := abs_le.1 (ha (w.1, w.2.1))
  have h2 := abs_le.1 (hb (w.1, w.2.2))
  rw [abs_le]
  constructor <;> nlinarith

/-- Predicted moments and one halo of a population, in terms of their random numbers. -/
structure Halo (P : Measure Ω) (x : Ω → ℝ) (y q : ℝ × (Fin 4 → ℝ) × (Fin 4 → ℝ) → ℝ)
    (W : Ω → ℝ × (Fin 4 → ℝ) × (Fin 4 → ℝ)) (B : ℝ) : Prop where
  meas : Measurable x
  bound : ∀ ω, |x ω| ≤ B
  mean : P[x] = P[fun ω => y (W ω)]
  sq : P[fun ω => x ω ^ 2] = P[fun ω => q (W ω)]

/-- The numbers of the sample and of the population in which the theorems are stated. -/
theorem predict_core {P : Measure Ω} {ext : Ext} (hext : ext.Lawful) {kind : Kind} {p : NT ℝ}
    (hp : p.map Prod.fst = FIELDS) (hb : AllInBounds p) {lgm t_obs lgt0 : ℝ}
    (hg : GoodInput kind lgm t_obs lgt0 none) (t : ℝ) :
    ∃ (y q : ℝ × (Fin 4 → ℝ) × (Fin 4 → ℝ) → ℝ) (B : ℝ), Measurable y ∧ Measurable q ∧
      (∀ w, |y w| ≤ B) ∧ (∀ w, |q w| ≤ B ^ 2) ∧ (∀ w, y w ^ 2 ≤ q w) ∧
      (∀ u us z (tarr : List ℝ) key (out : List (ℝ × ℝ × ℝ)) (it : ℕ), tarr[it]? = some t →
        (predict_mah_moments_singlebin ext (Rng.normal u us z) kind p tarr lgm t_obs key lgt0).val? = some out →
        ∃ s : ℝ, out[it]? = some ((∑ i ∈ Finset.range 200, y (haloNumbers u z (Key.child key 200 i))) / 200, s, 0.5) ∧
          s ^ 2 = (∑ i ∈ Finset.range 200, q (haloNumbers u z (Key.child key 200 i))) / 200 -
            ((∑ i ∈ Finset.range 200, y (haloNumbers u z (Key.child key 200 i))) / 200) ^ 2) ∧
      ∃ X : ℝ → ℝ × (Fin 4 → ℝ) × (Fin 4 → ℝ) → ℝ, Measurable (Function.uncurry X) ∧
        (∀ u us z, (Rng.normal u us z).Lawful → ∀ (tarr lgms ts : List ℝ) key (pop : HaloHist) (it i : ℕ),
          tarr[it]? = some t → i < lgms.length →
          lgms.getD i 0 = lgm → ts.getD i 0 = t_obs →
          (mc_pop ext (Rng.normal u us z) kind p tarr lgms ts key lgt0).val? = some pop →
          ∃ row, pop.log_mah[i]? = some row ∧ row[it]? = some
            (X ((us (Key.child key (lgms.length + 1) lgms.length) lgms.length).getD i 0)
              (haloNumbers u z (Key.child key (lgms.length + 1) i)))) ∧
        ∀ (U : Ω → ℝ) (W : Ω → ℝ × (Fin 4 → ℝ) × (Fin 4 → ℝ)), IsUniform P U → Measurable W → IndepFun U W P →
          Halo P (fun ω => X (U ω) (W ω)) y q W B := by
  classical
  obtain ⟨xE, xL, f, mE, mL, f0, f1, hB, hx⟩ := halo_fun hext kind hp hb hg
  obtain ⟨B, hE, hL⟩ := hB t
  have sE : ∀ s, |xE t s ^ 2| ≤ B ^ 2 := fun s => by
    rw [abs_pow]; exact pow_le_pow_left₀ (abs_nonneg _) (hE s) 2
  have sL : ∀ s, |xL t s ^ 2| ≤ B ^ 2 := fun s => by
    rw [abs_pow]; exact pow_le_pow_left₀ (abs_nonneg _) (hL s) 2
  refine ⟨mixed f (xE t) (xL t), mixed f (fun s => xE t s ^ 2) (fun s => xL t s ^ 2), B,
    mixed_meas (mE t) (mL t), mixed_meas ((mE t).pow_const 2) ((mL t).pow_const 2),
    mixed_abs f0 f1 hE hL, mixed_abs f0 f1 sE sL, ?_, ?_, ?_⟩
  · intro w
    unfold mixed
    nlinarith [mul_nonneg (mul_nonneg f0 (sub_nonneg.2 f1)) (sq_nonneg (xE t (w.1, w.2.1) - xL t (w.1, w.2.2)))]
  · intro u us z tarr key out it ht h
    exact predict_value hb hx h ht
  refine ⟨fun v w => if v < f then xE t (w.1, w.2.1) else xL t (w.1, w.2.2), ?_, ?_, ?_⟩
  · have h1 : Measurable fun w : ℝ × ℝ × (Fin 4 → ℝ) × (Fin 4 → ℝ) => (w.2.1, w.2.2.1) := by fun_prop
    have h2 : Measurable fun w : ℝ × ℝ × (Fin 4 → ℝ) × (Fin 4 → ℝ) => (w.2.1, w.2.2.2) := by fun_prop
    exact Measurable.ite (measurableSet_lt measurable_fst measurable_const) ((mE t).comp h1) ((mL t).comp h2)
  · rintro u us z hl tarr lgms ts key pop it i ht hi rfl rfl h
    obtain ⟨row, h1, h2⟩ := hist_value hi hx hl h ht
    exact ⟨row, h1, h2.trans (by congr)⟩
  · intro U W hU hW hi
    have h1 : Measurable fun w : ℝ × (Fin 4 → ℝ) × (Fin 4 → ℝ) => (w.1, w.2.1) := by fun_prop
    have h2 : Measurable fun w : ℝ × (Fin 4 → ℝ) × (Fin 4 → ℝ) => (w.1, w.2.2) := by fun_prop
    refine ⟨Measurable.ite (measurableSet_lt hU.measurable measurable_const) ((mE t).comp (h1.comp hW))
      ((mL t).comp (h2.comp hW)), ?_, ?_, ?_⟩
    · intro ω; dsimp only; split_ifs
      · exact hE _
      · exact hL _
    · have := mixed_expect hU f0 f1 hW hi (mE t) (mL t) (g := fun x => x) measurable_id hE hL
      exact (Eq.trans (by congr) this).trans rfl
    · have := mixed_expect hU f0 f1 hW hi (mE t) (mL t) (g := fun x => x ^ 2) (measurable_id.pow_const 2) sE sL
      exact (Eq.trans (by congr) this).trans rfl

theorem memLp_of_bound {P : Measure Ω} [IsProbabilityMeasure P] {x : Ω → ℝ} (hx : Measurable x) {B : ℝ}
    (hB : ∀ ω, |x ω| ≤ B) : MemLp x 2 P :=
  MemLp.of_bound hx.aestronglyMeasurable B (.of_forall hB)

/-- C109, expectations. The differentiable prediction and the Monte Carlo population agree on average, for any
in-bounds population parameters, any keys and any population. Suppose that the random numbers of all haloes
have the same joint law, whatever it is, and that the uniform number which picks the type of halo `i` of the
population is independent of the halo's other numbers. Then at every requested time the expectation of the
predicted mean for the mass and observation time of that halo is the expectation of its log mass, and the
expectation of the predicted second moment, the squared standard deviation plus the squared mean, is that of
its squared log mass. -/
theorem C109_expected_moments (P : Measure Ω) (ext : Ext) (hext : ext.Lawful) (u : Ω → Key → ℝ)
    (us : Ω → Key → ℕ → List ℝ) (z : Ω → Key → Fin 4 → ℝ) (hl : ∀ ω, (Rng.normal (u ω) (us ω) (z ω)).Lawful)
    (hid : ∀ k k', IdentDistrib (fun ω => haloNumbers (u ω) (z ω) k) (fun ω => haloNumbers (u ω) (z ω) k') P P)
    (hm : ∀ k, Measurable fun ω => haloNumbers (u ω) (z ω) k)
    (kind : Kind) (p : NT ℝ) (hp : p.map Prod.fst = FIELDS) (hb : AllInBounds p) (tarr lgm t_obs : List ℝ)
    (key key' : Key) (lgt0 : ℝ) (i : ℕ) (hi : i < lgm.length)
    (hg : GoodInput kind (lgm.getD i 0) (t_obs.getD i 0) lgt0 none)
    (hU : IsUniform P fun ω => (us ω (Key.child key' (lgm.length + 1) lgm.length) lgm.length).getD i 0)
    (hind : IndepFun (fun ω => (us ω (Key.child key' (lgm.length + 1) lgm.length) lgm.length).getD i 0)
      (fun ω => haloNumbers (u ω) (z ω) (Key.child key' (lgm.length + 1) i)) P)
    (out : Ω → List (ℝ × ℝ × ℝ)) (pop : Ω → HaloHist)
    (hout : ∀ ω, (predict_mah_moments_singlebin ext (Rng.normal (u ω) (us ω) (z ω)) kind p tarr (lgm.getD i 0)
      (t_obs.getD i 0) key lgt0).val? = some (out ω))
    (hpop : ∀ ω, (mc_pop ext (Rng.normal (u ω) (us ω) (z ω)) kind p tarr lgm t_obs key' lgt0).val? = some (pop ω))
    (it : ℕ) (t : ℝ) (ht : tarr[it]? = some t) (_ : 0 < t) :
    ∃ m s x : Ω → ℝ, (∀ ω, (out ω)[it]? = some (m ω, s ω, 0.5)) ∧
      (∀ ω, ∃ row, (pop ω).log_mah[i]? = some row ∧ row[it]? = some (x ω)) ∧
      Integrable m P ∧ Integrable (fun ω => s ω ^ 2 + m ω ^ 2) P ∧ Integrable x P ∧
      Integrable (fun ω => x ω ^ 2) P ∧
      P[m] = P[x] ∧ P[fun ω => s ω ^ 2 + m ω ^ 2] = P[fun ω => x ω ^ 2] := by
  have hP : IsProbabilityMeasure P := hU.prob
  obtain ⟨y, q, B, my, mq, by', bq, hyq, hpred, X, mX, hX, hH⟩ := predict_core (P := P) hext hp hb hg t
  have h1 := fun ω => hpred (u ω) (us ω) (z ω) tarr key (out ω) it ht (hout ω)
  choose s s1 s2 using h1
  have hH := hH _ _ hU (hm (Key.child key' (lgm.length + 1) i)) hind
  have iy : ∀ k, Integrable (fun ω => y (haloNumbers (u ω) (z ω) k)) P := fun k =>
    Integrable.of_bound (my.comp (hm k)).aestronglyMeasurable B (.of_forall fun ω => by' _)
  have iq : ∀ k, Integrable (fun ω => q (haloNumbers (u ω) (z ω) k)) P := fun k =>
    Integrable.of_bound (mq.comp (hm k)).aestronglyMeasurable (B ^ 2) (.of_forall fun ω => bq _)
  have hx := memLp_of_bound hH.meas hH.bound (P := P)
  have e2 : (fun ω => s ω ^ 2 + ((∑ i ∈ Finset.range 200, y (haloNumbers (u ω) (z ω) (Key.child key 200 i))) / 200) ^ 2)
      = fun ω => (∑ i ∈ Finset.range 200, q (haloNumbers (u ω) (z ω) (Key.child key 200 i))) / 200 := by
    funext ω; rw [s2]; ring
  refine ⟨_, s, _, s1, fun ω => hX (u ω) (us ω) (z ω) (hl ω) tarr lgm t_obs key' (pop ω) it i ht hi rfl rfl (hpop ω),
    (integrable_finsetSum _ fun k _ => iy _).div_const _, ?_, hx.integrable (by norm_num), hx.integrable_sq, ?_, ?_⟩
  · rw [e2]
    exact (integrable_finsetSum _ fun k _ => iq _).div_const _
  · rw [hH.mean, integral_div, integral_finsetSum _ fun k _ => iy _]
    have : ∀ k ∈ Finset.range 200, ∫ ω, y (haloNumbers (u ω) (z ω) (Key.child key 200 k)) ∂P =
        ∫ ω, y (haloNumbers (u ω) (z ω) (Key.child key' (lgm.length + 1) i)) ∂P := fun k _ =>
      ((hid _ _).comp my).integral_eq
    rw [Finset.sum_congr rfl this, Finset.sum_const, Finset.card_range]
    norm_num
  · rw [hH.sq, e2, integral_div, integral_finsetSum _ fun k _ => iq _]
    have : ∀ k ∈ Finset.range 200, ∫ ω, q (haloNumbers (u ω) (z ω) (Key.child key 200 k)) ∂P =
        ∫ ω, q (haloNumbers (u ω) (z ω) (Key.child key' (lgm.length + 1) i)) ∂P := fun k _ =>
      ((hid _ _).comp mq).integral_eq
    rw [Finset.sum_congr rfl this, Finset.sum_const, Finset.card_range]
    norm_num

/-- C109, spreads. If moreover the 200 haloes of the prediction's sample are pairwise independent, then the
predicted mean scatters about the expected log mass with at most 1/200 of the variance of the log mass, and the
predicted variance has that variance for its expectation up to a factor between 199/200 and 1. -/
theorem C109_expected_variance (P : Measure Ω) (ext : Ext) (hext : ext.Lawful) (u : Ω → Key → ℝ)
    (us : Ω → Key → ℕ → List ℝ) (z : Ω → Key → Fin 4 → ℝ) (hl : ∀ ω, (Rng.normal (u ω) (us ω) (z ω)).Lawful)
    (hid : ∀ k k', IdentDistrib (fun ω => haloNumbers (u ω) (z ω) k) (fun ω => haloNumbers (u ω) (z ω) k') P P)
    (hm : ∀ k, Measurable fun ω => haloNumbers (u ω) (z ω) k)
    (kind : Kind) (p : NT ℝ) (hp : p.map Prod.fst = FIELDS) (hb : AllInBounds p) (tarr lgm t_obs : List ℝ)
    (key key' : Key) (lgt0 : ℝ) (i : ℕ) (hi : i < lgm.length)
    (hg : GoodInput kind (lgm.getD i 0) (t_obs.getD i 0) lgt0 none)
    (hU : IsUniform P fun ω => (us ω (Key.child key' (lgm.length + 1) lgm.length) lgm.length).getD i 0)
    (hind : IndepFun (fun ω => (us ω (Key.child key' (lgm.length + 1) lgm.length) lgm.length).getD i 0)
      (fun ω => haloNumbers (u ω) (z ω) (Key.child key' (lgm.length + 1) i)) P)
    (hpair : ∀ j < 200, ∀ k < 200, j ≠ k → IndepFun (fun ω => haloNumbers (u ω) (z ω) (Key.child key 200 j))
      (fun ω => haloNumbers (u ω) (z ω) (Key.child key 200 k)) P)
    (out : Ω → List (ℝ × ℝ × ℝ)) (pop : Ω → HaloHist)
    (hout : ∀ ω, (predict_mah_moments_singlebin ext (Rng.normal (u ω) (us ω) (z ω)) kind p tarr (lgm.getD i 0)
      (t_obs.getD i 0) key lgt0).val? = some (out ω))
    (hpop : ∀ ω, (mc_pop ext (Rng.normal (u ω) (us ω) (z ω)) kind p tarr lgm t_obs key' lgt0).val? = some (pop ω))
    (it : ℕ) (t : ℝ) (ht : tarr[it]? = some t) (_ : 0 < t) :
    ∃ m s x : Ω → ℝ, (∀ ω, (out ω)[it]? = some (m ω, s ω, 0.5)) ∧
      (∀ ω, ∃ row, (pop ω).log_mah[i]? = some row ∧ row[it]? = some (x ω)) ∧
      P[m] = P[x] ∧ Var[m; P] ≤ Var[x; P] / 200 ∧
      199 / 200 * Var[x; P] ≤ P[fun ω => s ω ^ 2] ∧ P[fun ω => s ω ^ 2] ≤ Var[x; P] ∧
      ∀ ε : ℝ, 0 < ε → P {ω | ε ≤ |m ω - P[x]|} ≤ ENNReal.ofReal (Var[x; P] / (200 * ε ^ 2)) := by
  have hP : IsProbabilityMeasure P := hU.prob
  obtain ⟨y, q, B, my, mq, by', bq, hyq, hpred, X, mX, hX, hH⟩ := predict_core (P := P) hext hp hb hg t
  have h1 := fun ω => hpred (u ω) (us ω) (z ω) tarr key (out ω) it ht (hout ω)
  choose s s1 s2 using h1
  have hH := hH _ _ hU (hm (Key.child key' (lgm.length + 1) i)) hind
  set W : Key → Ω → ℝ × (Fin 4 → ℝ) × (Fin 4 → ℝ) := fun k ω => haloNumbers (u ω) (z ω) k with hW
  set x := fun ω => X ((us ω (Key.child key' (lgm.length + 1) lgm.length) lgm.length).getD i 0)
    (haloNumbers (u ω) (z ω) (Key.child key' (lgm.length + 1) i)) with hxdef
  set k0 := Key.child key' (lgm.length + 1) i with hk0
  have Ly : ∀ k, MemLp (fun ω => y (W k ω)) 2 P := fun k => memLp_of_bound (my.comp (hm k)) fun ω => by' _
  have iy : ∀ k, Integrable (fun ω => y (W k ω)) P := fun k => (Ly k).integrable (by norm_num)
  have iq : ∀ k, Integrable (fun ω => q (W k ω)) P := fun k =>
    Integrable.of_bound (mq.comp (hm k)).aestronglyMeasurable (B ^ 2) (.of_forall fun ω => bq _)
  have hx := memLp_of_bound hH.meas hH.bound (P := P)
  set m : Ω → ℝ := fun ω => (∑ j ∈ Finset.range 200, y (W (Key.child key 200 j) ω)) / 200 with hmdef
  have Ey : ∀ k, ∫ ω, y (W k ω) ∂P = P[x] := fun k => by
    rw [hH.mean]; exact ((hid _ _).comp my).integral_eq
  have Eq' : ∀ k, ∫ ω, q (W k ω) ∂P = P[fun ω => x ω ^ 2] := fun k => by
    rw [hH.sq]; exact ((hid _ _).comp mq).integral_eq
  have Em : P[m] = P[x] := by
    rw [hmdef, integral_div, integral_finsetSum _ fun k _ => iy _,
      Finset.sum_congr rfl fun k _ => Ey (Key.child key 200 k), Finset.sum_const, Finset.card_range]
    norm_num
  have Lm : MemLp m 2 P := by
    refine memLp_of_bound (B := B) ?_ fun ω => ?_
    · exact (Finset.measurable_sum _ fun k _ => my.comp (hm _)).div_const _
    · rw [hmdef]
      dsimp only
      rw [abs_div, div_le_iff₀ (by norm_num)]
      refine (Finset.abs_sum_le_sum_abs _ _).trans ?_
      refine (Finset.sum_le_sum fun k _ => by' _).trans ?_
      rw [Finset.sum_const, Finset.card_range]
      norm_num
      linarith
  have Vx : Var[x; P] = P[fun ω => x ω ^ 2] - P[x] ^ 2 := variance_eq_sub hx
  have Vm : Var[m; P] = P[fun ω => m ω ^ 2] - P[m] ^ 2 := variance_eq_sub Lm
  have Vy : ∀ k, Var[fun ω => y (W k ω); P] ≤ Var[x; P] := by
    intro k
    have : Var[fun ω => y (W k ω); P] = P[fun ω => y (W k ω) ^ 2] - P[fun ω => y (W k ω)] ^ 2 :=
      variance_eq_sub (Ly k)
    rw [this, Vx, Ey, ← Eq' k]
    have := integral_mono (Ly k).integrable_sq (iq k) fun ω => hyq (W k ω)
    linarith
  have Vsum : Var[m; P] ≤ Var[x; P] / 200 := by
    have e : m = fun ω => (1 / 200 : ℝ) * (∑ j ∈ Finset.range 200, fun ω => y (W (Key.child key 200 j) ω)) ω := by
      funext ω
      rw [hmdef, Finset.sum_apply]
      ring
    rw [e, variance_const_mul, IndepFun.variance_sum (fun j _ => Ly _)]
    · have := Finset.sum_le_sum fun j (_ : j ∈ Finset.range 200) => Vy (Key.child key 200 j)
      rw [Finset.sum_const, Finset.card_range] at this
      norm_num at this ⊢
      linarith
    · intro j hj k hk hjk
      exact (hpair j (by simpa using hj) k (by simpa using hk) hjk).comp my my
  have Es : P[fun ω => s ω ^ 2] = Var[x; P] - Var[m; P] := by
    have e2 : (fun ω => s ω ^ 2) = fun ω =>
        (∑ j ∈ Finset.range 200, q (W (Key.child key 200 j) ω)) / 200 - m ω ^ 2 := by
      funext ω; rw [s2]
    rw [e2, integral_sub ((integrable_finsetSum _ fun k _ => iq _).div_const _) Lm.integrable_sq, integral_div,
      integral_finsetSum _ fun k _ => iq _, Finset.sum_congr rfl fun k _ => Eq' (Key.child key 200 k),
      Finset.sum_const, Finset.card_range, Vx, Vm, Em]
    norm_num
  have V0 : 0 ≤ Var[m; P] := variance_nonneg _ _
  refine ⟨m, s, x, s1, fun ω => hX (u ω) (us ω) (z ω) (hl ω) tarr lgm t_obs key' (pop ω) it i ht hi rfl rfl (hpop ω),
    Em, Vsum, by rw [Es]; linarith, by rw [Es]; linarith, fun ε hε => ?_⟩
  rw [← Em]
  refine (meas_ge_le_variance_div_sq Lm hε).trans (ENNReal.ofReal_le_ofReal ?_)
  rw [div_le_iff₀ (by positivity)]
  have : Var[x; P] / (200 * ε ^ 2) * ε ^ 2 = Var[x; P] / 200 := by
    field_simp
  rw [this]
  exact Vsum

/-- C109, agreement. For a population of any positive number `n` of haloes with the same mass and observation
time, pairwise independent, the average log mass of the population at each time and the predicted mean agree
within the Monte Carlo error of the two: the probability that they differ by `2 ε` or more is at most the
variance of a halo's log mass, divided by `ε²`, times `1/200 + 1/n`. The prediction and the population may
have any keys, the same one too. -/
theorem C109_agreement (P : Measure Ω) (ext : Ext) (hext : ext.Lawful) (u : Ω → Key → ℝ)
    (us : Ω → Key → ℕ → List ℝ) (z : Ω → Key → Fin 4 → ℝ) (hl : ∀ ω, (Rng.normal (u ω) (us ω) (z ω)).Lawful)
    (hid : ∀ k k', IdentDistrib (fun ω => haloNumbers (u ω) (z ω) k) (fun ω => haloNumbers (u ω) (z ω) k') P P)
    (hm : ∀ k, Measurable fun ω => haloNumbers (u ω) (z ω) k)
    (kind : Kind) (p : NT ℝ) (hp : p.map Prod.fst = FIELDS) (hb : AllInBounds p) (tarr : List ℝ) (lgm t_obs : ℝ)
    (n : ℕ) (hn : 0 < n) (key key' : Key) (lgt0 : ℝ) (hg : GoodInput kind lgm t_obs lgt0 none)
    (hU : ∀ i < n, IsUniform P fun ω => (us ω (Key.child key' (n + 1) n) n).getD i 0)
    (hind : ∀ i < n, IndepFun (fun ω => (us ω (Key.child key' (n + 1) n) n).getD i 0)
      (fun ω => haloNumbers (u ω) (z ω) (Key.child key' (n + 1) i)) P)
    (hpair : ∀ j < 200, ∀ k < 200, j ≠ k → IndepFun (fun ω => haloNumbers (u ω) (z ω) (Key.child key 200 j))
      (fun ω => haloNumbers (u ω) (z ω) (Key.child key 200 k)) P)
    (hpair' : ∀ i < n, ∀ j < n, i ≠ j → IndepFun
      (fun ω => ((us ω (Key.child key' (n + 1) n) n).getD i 0, haloNumbers (u ω) (z ω) (Key.child key' (n + 1) i)))
      (fun ω => ((us ω (Key.child key' (n + 1) n) n).getD j 0, haloNumbers (u ω) (z ω) (Key.child key' (n + 1) j))) P)
    (out : Ω → List (ℝ × ℝ × ℝ)) (pop : Ω → HaloHist)
    (hout : ∀ ω, (predict_mah_moments_singlebin ext (Rng.normal (u ω) (us ω) (z ω)) kind p tarr lgm t_obs key
      lgt0).val? = some (out ω))
    (hpop : ∀ ω, (mc_pop ext (Rng.normal (u ω) (us ω) (z ω)) kind p tarr (List.replicate n lgm)
      (List.replicate n t_obs) key' lgt0).val? = some (pop ω))
    (it : ℕ) (t : ℝ) (ht : tarr[it]? = some t) (h0 : 0 < t) :
    ∃ (m s : Ω → ℝ) (x : ℕ → Ω → ℝ) (V : ℝ), (∀ ω, (out ω)[it]? = some (m ω, s ω, 0.5)) ∧
      (∀ i < n, ∀ ω, ∃ row, (pop ω).log_mah[i]? = some row ∧ row[it]? = some (x i ω)) ∧
      (∀ i < n, Var[x i; P] = V) ∧
      ∀ ε : ℝ, 0 < ε → P {ω | 2 * ε ≤ |m ω - (∑ i ∈ Finset.range n, x i ω) / n|} ≤
        ENNReal.ofReal (V / ε ^ 2 * (1 / 200 + 1 / n)) := by
  have hP : IsProbabilityMeasure P := (hU 0 hn).prob
  obtain ⟨y, q, B, my, mq, by', bq, hyq, hpred, X, mX, hX, hH⟩ := predict_core (P := P) hext hp hb hg t
  let x : ℕ → Ω → ℝ := fun i ω => X ((us ω (Key.child key' (n + 1) n) n).getD i 0)
    (haloNumbers (u ω) (z ω) (Key.child key' (n + 1) i))
  have hlen : (List.replicate n lgm).length = n := List.length_replicate
  have hlt : ∀ (a : ℝ) i, i < n → (List.replicate n a).getD i 0 = a := fun a i hi => by
    rw [List.getD_eq_getElem _ _ (by rw [List.length_replicate]; exact hi), List.getElem_replicate]
  have hx : ∀ i < n, ∀ ω, ∃ row, (pop ω).log_mah[i]? = some row ∧ row[it]? = some (x i ω) := by
    intro i hi ω
    have := hX (u ω) (us ω) (z ω) (hl ω) tarr (List.replicate n lgm) (List.replicate n t_obs) key' (pop ω) it i ht
      (by rw [hlen]; exact hi) (hlt _ _ hi) (hlt _ _ hi) (hpop ω)
    rw [hlen] at this
    exact this
  have hHi := fun i hi => hH _ _ (hU i hi) (hm (Key.child key' (n + 1) i)) (hind i hi)
  have Lx : ∀ i < n, MemLp (x i) 2 P := fun i hi => memLp_of_bound (hHi i hi).meas (hHi i hi).bound
  have Ex : ∀ i < n, P[x i] = P[x 0] := fun i hi =>
    ((hHi i hi).mean.trans ((hid _ _).comp my).integral_eq).trans (hHi 0 hn).mean.symm
  have Ex2 : ∀ i < n, P[fun ω => x i ω ^ 2] = P[fun ω => x 0 ω ^ 2] := fun i hi =>
    ((hHi i hi).sq.trans ((hid _ _).comp mq).integral_eq).trans (hHi 0 hn).sq.symm
  have Vx : ∀ i < n, Var[x i; P] = Var[x 0; P] := by
    intro i hi
    have h1 : Var[x i; P] = P[fun ω => x i ω ^ 2] - P[x i] ^ 2 := variance_eq_sub (Lx i hi)
    have h2 : Var[x 0; P] = P[fun ω => x 0 ω ^ 2] - P[x 0] ^ 2 := variance_eq_sub (Lx 0 hn)
    rw [h1, h2, Ex i hi, Ex2 i hi]
  obtain ⟨m, s, x', h1, h2, h3, h4, -, -, h5⟩ := C109_expected_variance P ext hext u us z hl hid hm kind p hp hb tarr
    (List.replicate n lgm) (List.replicate n t_obs) key key' lgt0 0 (by rw [hlen]; exact hn)
    (by rw [hlt _ _ hn, hlt _ _ hn]; exact hg) (by rw [hlen]; exact hU 0 hn) (by rw [hlen]; exact hind 0 hn) hpair out
    pop (by rw [hlt _ _ hn, hlt _ _ hn]; exact hout) hpop it t ht h0
  have hxx : x' = x 0 := by
    funext ω
    obtain ⟨row, a, b⟩ := h2 ω
    obtain ⟨row', a', b'⟩ := hx 0 hn ω
    rw [a] at a'; cases a'
    rw [b] at b'; exact Option.some.inj b'
  rw [hxx] at h3 h4 h5
  refine ⟨m, s, x, Var[x 0; P], h1, hx, Vx, fun ε hε => ?_⟩
  have hn' : (0 : ℝ) < n := by exact_mod_cast hn
  -- the average of the population
  let a : Ω → ℝ := fun ω => (∑ i ∈ Finset.range n, x i ω) / n
  have e : a = fun ω => (1 / n : ℝ) * (∑ i ∈ Finset.range n, x i) ω := by
    funext ω
    simp only [a, Finset.sum_apply]
    ring
  have La : MemLp a 2 P := by
    rw [e]
    exact (memLp_finsetSum' _ fun i hi => Lx i (Finset.mem_range.1 hi)).const_mul _
  have Ea : P[a] = P[x 0] := by
    simp only [a]
    rw [integral_div, integral_finsetSum _ fun i hi => (Lx i (Finset.mem_range.1 hi)).integrable (by norm_num),
      Finset.sum_congr rfl fun i hi => Ex i (Finset.mem_range.1 hi), Finset.sum_const, Finset.card_range,
      nsmul_eq_mul]
    field_simp
  have Va : Var[a; P] = Var[x 0; P] / n := by
    rw [e, variance_const_mul, IndepFun.variance_sum (fun i hi => Lx i (Finset.mem_range.1 hi)),
      Finset.sum_congr rfl fun i hi => Vx i (Finset.mem_range.1 hi), Finset.sum_const, Finset.card_range,
      nsmul_eq_mul]
    · field_simp
    · intro i hi j hj hij
      exact (hpair' i (by simpa using hi) j (by simpa using hj) hij).comp mX mX
  have ca := meas_ge_le_variance_div_sq La hε
  rw [Ea, Va] at ca
  have sub : {ω | 2 * ε ≤ |m ω - (∑ i ∈ Finset.range n, x i ω) / n|} ⊆
      {ω | ε ≤ |m ω - P[x 0]|} ∪ {ω | ε ≤ |a ω - P[x 0]|} := by
    intro ω hω
    by_contra hc
    simp only [Set.mem_union, Set.mem_ofPred_eq, not_or, not_le] at hc hω
    have := abs_sub_le (m ω) P[x 0] (a ω)
    rw [abs_sub_comm P[x 0] (a ω)] at this
    have hω' : 2 * ε ≤ |m ω - a ω| := hω
    linarith [hc.1, hc.2]
  refine (measure_mono sub).trans ((measure_union_le _ _).trans ((add_le_add (h5 ε hε) ca).trans ?_))
  rw [← ENNReal.ofReal_add (by have := variance_nonneg (x 0) P; positivity)
    (by have := variance_nonneg (x 0) P; positivity)]
  refine ENNReal.ofReal_le_ofReal (le_of_eq ?_)
  field_simp

/-- The hypotheses of the C109 theorems can be met, for any keys and size: lawful generators with independent
uniform and normal numbers, for which prediction and population both succeed. -/
example (key key' : Key) (n : ℕ) : ∃ (Ω : Type) (_ : MeasurableSpace Ω) (P : Measure Ω) (ext : Ext) (u : Ω → Key → ℝ)
    (us : Ω → Key → ℕ → List ℝ) (z : Ω → Key → Fin 4 → ℝ) (p : NT ℝ) (out : Ω → List (ℝ × ℝ × ℝ))
    (pop : Ω → HaloHist), ext.Lawful ∧ (∀ ω, (Rng.normal (u ω) (us ω) (z ω)).Lawful) ∧
    (∀ k, IsUniform P fun ω => u ω k) ∧ (∀ k, IsStdNormal P fun ω => z ω k) ∧
    (∀ k k', IdentDistrib (fun ω => haloNumbers (u ω) (z ω) k) (fun ω => haloNumbers (u ω) (z ω) k') P P) ∧
    (∀ k, Measurable fun ω => haloNumbers (u ω) (z ω) k) ∧ p.map Prod.fst = FIELDS ∧ AllInBounds p ∧
    GoodInput .cens 12 10 1 none ∧
    (∀ i < n, IsUniform P fun ω => (us ω (Key.child key' (n + 1) n) n).getD i 0) ∧
    (∀ i < n, IndepFun (fun ω => (us ω (Key.child key' (n + 1) n) n).getD i 0)
      (fun ω => haloNumbers (u ω) (z ω) (Key.child key' (n + 1) i)) P) ∧
    (∀ j < 200, ∀ k < 200, j ≠ k → IndepFun (fun ω => haloNumbers (u ω) (z ω) (Key.child key 200 j))
      (fun ω => haloNumbers (u ω) (z ω) (Key.child key 200 k)) P) ∧
    (∀ i < n, ∀ j < n, i ≠ j → IndepFun
      (fun ω => ((us ω (Key.child key' (n + 1) n) n).getD i 0, haloNumbers (u ω) (z ω) (Key.child key' (n + 1) i)))
      (fun ω => ((us ω (Key.child key' (n + 1) n) n).getD j 0, haloNumbers (u ω) (z ω) (Key.child key' (n + 1) j)))
      P) ∧
    (∀ ω, (predict_mah_moments_singlebin ext (Rng.normal (u ω) (us ω) (z ω)) .cens p [5, 10] 12 10 key 1).val? =
      some (out ω)) ∧
    ∀ ω, (mc_pop ext (Rng.normal (u ω) (us ω) (z ω)) .cens p [5, 10] (List.replicate n 12) (List.replicate n 10)
      key' 1).val? = some (pop ω) := by
  let N := Measure.pi fun _ : Fin 4 => gaussianReal 0 1
  obtain ⟨Ω, mΩ, P, X, h1, h2, h3, hP⟩ := exists_iid Key ((volume.restrict (Set.Ico (0 : ℝ) 1)).prod N)
  obtain ⟨ext, hext⟩ := ext_lawful_exists
  obtain ⟨p, hp, hb⟩ := exists_allInBounds
  let u : Ω → Key → ℝ := fun ω k => Int.fract (X k ω).1
  let us : Ω → Key → ℕ → List ℝ := fun ω k n => (List.range n).map fun i => Int.fract (X (Key.child k 0 i) ω).1
  let z : Ω → Key → Fin 4 → ℝ := fun ω k => (X k ω).2
  have mu : ∀ k, Measurable fun ω => (X k ω).1 := fun k => measurable_fst.comp (h1 k)
  have mz : ∀ k, Measurable fun ω => (X k ω).2 := fun k => measurable_snd.comp (h1 k)
  have hU : ∀ k, IsUniform P fun ω => (X k ω).1 := fun k =>
    ⟨mu k, by
      have : (fun ω => (X k ω).1) = Prod.fst ∘ X k := rfl
      rw [this, ← Measure.map_map measurable_fst (h1 k), (h2 k).map_eq]
      exact measurePreserving_fst.map_eq⟩
  have hZ : ∀ k, IsStdNormal P fun ω => (X k ω).2 := fun k =>
    ⟨mz k, by
      have : (fun ω => (X k ω).2) = Prod.snd ∘ X k := rfl
      rw [this, ← Measure.map_map measurable_snd (h1 k), (h2 k).map_eq]
      exact measurePreserving_snd.map_eq⟩
  have hlaw : ∀ ω, (Rng.normal (u ω) (us ω) (z ω)).Lawful := by
    intro ω
    refine rng_normal_lawful (fun k => ⟨Int.fract_nonneg _, Int.fract_lt_one _⟩) (by simp [us]) ?_
    intro k m x hx
    obtain ⟨j, -, rfl⟩ := List.mem_map.1 hx
    exact ⟨Int.fract_nonneg _, Int.fract_lt_one _⟩
  have hget : ∀ ω k m i, i < m → (us ω k m).getD i 0 = Int.fract (X (Key.child k 0 i) ω).1 := by
    intro ω k m i hi
    simp only [us]
    rw [List.getD_eq_getElem?_getD, List.getElem?_map, List.getElem?_range hi]; rfl
  -- the numbers of a halo
  let φ : (ℝ × (Fin 4 → ℝ)) × (ℝ × (Fin 4 → ℝ)) → ℝ × (Fin 4 → ℝ) × (Fin 4 → ℝ) :=
    fun q => (Int.fract q.1.1, q.1.2, q.2.2)
  have hφ : Measurable φ :=
    (measurable_fract.comp (measurable_fst.comp measurable_fst)).prodMk
      ((measurable_snd.comp measurable_fst).prodMk (measurable_snd.comp measurable_snd))
  have hne : ∀ k, Key.child k 2 0 ≠ Key.child k 2 1 := fun k h => by cases h
  have mpair : ∀ k, Measurable fun ω => (X (Key.child k 2 0) ω, X (Key.child k 2 1) ω) := fun k =>
    (h1 _).prodMk (h1 _)
  have hn : ∀ k, (fun ω => haloNumbers (u ω) (z ω) k) = φ ∘ fun ω => (X (Key.child k 2 0) ω, X (Key.child k 2 1) ω) :=
    fun k => rfl
  have hm : ∀ k, Measurable fun ω => haloNumbers (u ω) (z ω) k := fun k => by rw [hn]; exact hφ.comp (mpair k)
  have hpl : ∀ k, P.map (fun ω => (X (Key.child k 2 0) ω, X (Key.child k 2 1) ω)) =
      ((volume.restrict (Set.Ico (0 : ℝ) 1)).prod N).prod ((volume.restrict (Set.Ico (0 : ℝ) 1)).prod N) := by
    intro k
    rw [(indepFun_iff_map_prod_eq_prod_map_map (h1 _).aemeasurable (h1 _).aemeasurable).1 (h3.indepFun (hne k)),
      (h2 _).map_eq, (h2 _).map_eq]
  have hid : ∀ k k', IdentDistrib (fun ω => haloNumbers (u ω) (z ω) k) (fun ω => haloNumbers (u ω) (z ω) k') P P := by
    intro k k'
    refine ⟨(hm k).aemeasurable, (hm k').aemeasurable, ?_⟩
    rw [hn, hn, ← Measure.map_map hφ (mpair k), ← Measure.map_map hφ (mpair k'), hpl, hpl]
  have hindep : ∀ S T : Finset Key, Disjoint S T → ∀ {α β : Type} [MeasurableSpace α] [MeasurableSpace β]
      (F : (S → ℝ × (Fin 4 → ℝ)) → α) (G : (T → ℝ × (Fin 4 → ℝ)) → β), Measurable F → Measurable G →
      IndepFun (fun ω => F fun k => X k ω) (fun ω => G fun k => X k ω) P := fun S T hST _ _ _ _ F G hF hG =>
    (h3.indepFun_finset S T hST h1).comp hF hG
  have hg : GoodInput .cens 12 10 1 none := by unfold GoodInput; norm_num
  have hout := fun ω => predict_ok ext (Rng.normal (u ω) (us ω) (z ω)) hext (hlaw ω) .cens p hp hb [5, 10] 12 10 key 1 hg
  choose out ks ho ho' using hout
  have hpop := fun ω => C58_histories ext (Rng.normal (u ω) (us ω) (z ω)) (hlaw ω) .cens p hp hb [5, 10]
    (List.replicate n 12) (List.replicate n 10) key' 1 (by simp) (good_means ext _ hext .cens p hp hb _ _ _ _ _ (by
      intro i hi
      rw [List.length_replicate] at hi
      rw [List.getD_eq_getElem _ _ (by simpa using hi), List.getD_eq_getElem _ _ (by simpa using hi),
        List.getElem_replicate, List.getElem_replicate]
      exact hg))
  choose pop ks' hpo hpo' using hpop
  refine ⟨Ω, mΩ, P, ext, u, us, z, p, out, pop, hext, hlaw, fun k => uniform_fract (hU k), hZ, hid, hm, hp, hb, hg,
    ?_, ?_, ?_, ?_, fun ω => by rw [ho ω]; rfl, fun ω => by rw [hpo ω]; rfl⟩
  · intro i hi
    simp only [hget _ _ _ _ hi]
    exact uniform_fract (hU _)
  · intro i hi
    simp only [hget _ _ _ _ hi]
    have := (h3.indepFun_prodMk h1 (Key.child (Key.child key' (n + 1) i) 2 0) (Key.child (Key.child key' (n + 1) i) 2 1)
      (Key.child (Key.child key' (n + 1) n) 0 i) (fun h => by cases h) (fun h => by cases h)).symm
    exact this.comp (measurable_fract.comp measurable_fst) hφ
  · intro j _ k _ hjk
    have := h3.indepFun_prodMk_prodMk h1 (Key.child (Key.child key 200 j) 2 0) (Key.child (Key.child key 200 j) 2 1)
      (Key.child (Key.child key 200 k) 2 0) (Key.child (Key.child key 200 k) 2 1)
      (fun h => hjk (by cases h; rfl)) (fun h => by cases h) (fun h => by cases h) (fun h => hjk (by cases h; rfl))
    exact this.comp hφ hφ
  · intro i hi j hj hij
    simp only [hget _ _ _ _ hi, hget _ _ _ _ hj]
    let S (i : ℕ) : Finset Key := {Key.child (Key.child key' (n + 1) n) 0 i, Key.child (Key.child key' (n + 1) i) 2 0,
      Key.child (Key.child key' (n + 1) i) 2 1}
    have hS : Disjoint (S i) (S j) := by
      rw [Finset.disjoint_left]
      intro k h1 h2
      simp only [S, Finset.mem_insert, Finset.mem_singleton] at h1 h2
      rcases h1 with rfl | rfl | rfl <;> rcases h2 with h | h | h <;> cases h <;> exact hij rfl
    let F (i : ℕ) : (S i → ℝ × (Fin 4 → ℝ)) → ℝ × ℝ × (Fin 4 → ℝ) × (Fin 4 → ℝ) := fun q =>
      (Int.fract (q ⟨Key.child (Key.child key' (n + 1) n) 0 i, by simp [S]⟩).1,
        φ (q ⟨Key.child (Key.child key' (n + 1) i) 2 0, by simp [S]⟩,
          q ⟨Key.child (Key.child key' (n + 1) i) 2 1, by simp [S]⟩))
    have hF : ∀ i, Measurable (F i) := fun i =>
      (measurable_fract.comp (measurable_fst.comp (measurable_pi_apply _))).prodMk
        (hφ.comp ((measurable_pi_apply _).prodMk (measurable_pi_apply _)))
    exact hindep (S i) (S j) hS (F i) (F j) (hF i) (hF j)

end

end Diffmah

import Verif.Props.Kernels
import Verif.Props.Utils
import Mathlib.Analysis.Calculus.MeanValue
import Mathlib.Topology.UniformSpace.HeineCantor

/-!
# C142: accretion rates summed with the steps of `get_dt_array` give the history

A cumulative sum of the rates that `mah_singlehalo` returns, times the steps that `get_dt_array` returns for the same
times, tends to the growth of the mass as the steps get smaller, at all times at once, even though the rate jumps to
zero at the peak.
-/

namespace Diffmah

open Set Filter Topology

/-- The rate before the peak is cut off is continuous. -/
theorem noq_rate_continuousOn (p : MahParams ℝ) (lgt0 : ℝ) :
    ContinuousOn (fun t => 1e9 * dmhdt_noq_kern_scalar p t lgt0) (Ioi 0) := by
  have hcontNoq : ContinuousOn (fun t => mah_noq_kern p t lgt0) (Ioi 0) := fun t ht =>
    (noq_hasDerivAt p (ne_of_gt ht) lgt0).continuousAt.continuousWithinAt
  have hlog : ContinuousOn (fun t : ℝ => Real.logb 10 t) (Ioi 0) := fun t ht =>
    ((Real.continuousAt_log (ne_of_gt ht)).div_const _).continuousWithinAt
  have hf : ContinuousOn (fun t => (10 : ℝ) ^ log_mah_noq_kern p t lgt0 / t *
      (p.early_index - (p.early_index - p.late_index) *
        (Real.sigmoid (3.5 * (Real.logb 10 t - p.logtc)) *
          (1 + (1 - Real.sigmoid (3.5 * (Real.logb 10 t - p.logtc))) *
            (3.5 * (Real.logb 10 t - lgt0)))))) (Ioi 0) := by
    have hs : ContinuousOn (fun t => Real.sigmoid (3.5 * (Real.logb 10 t - p.logtc))) (Ioi 0) :=
      continuous_sigmoid.comp_continuousOn (continuousOn_const.mul (hlog.sub continuousOn_const))
    refine (hcontNoq.div continuousOn_id fun t ht => ne_of_gt ht).mul ?_
    refine continuousOn_const.sub (continuousOn_const.mul (hs.mul ?_))
    exact continuousOn_const.add ((continuousOn_const.sub hs).mul
      (continuousOn_const.mul (hlog.sub continuousOn_const)))
  exact hf.congr fun t ht => dmhdt_noq_formula p (ne_of_gt ht) lgt0

/-- Mean value: the growth over a cell before the peak is the rate at some time in it. -/
theorem growth_eq_rate (p : MahParams ℝ) (lgt0 : ℝ) {s t : ℝ} (hs : 0 < s) (hst : s < t) (ht : t ≤ p.t_peak) :
    ∃ ξ ∈ Ioo s t, (10 : ℝ) ^ logmh_at_t_obs p t lgt0 - (10 : ℝ) ^ logmh_at_t_obs p s lgt0
      = 1e9 * dmhdt_noq_kern_scalar p ξ lgt0 * (t - s) := by
  obtain ⟨ξ, hξ, h⟩ := exists_hasDerivAt_eq_slope (fun τ => mah_noq_kern p τ lgt0)
    (fun τ => 1e9 * dmhdt_noq_kern_scalar p τ lgt0) hst
    (fun τ hτ => (noq_hasDerivAt p (hs.trans_le hτ.1).ne' lgt0).continuousAt.continuousWithinAt)
    (fun τ hτ => noq_hasDerivAt p (hs.trans hτ.1).ne' lgt0)
  refine ⟨ξ, hξ, ?_⟩
  rw [h, mass_eq_noq ht, mass_eq_noq (hst.le.trans ht), div_mul_cancel₀ _ (sub_pos.2 hst).ne']

/-- **C142**. For any halo and any range of times, and any tolerance, there is a step size such that on every increasing
time array in the range with smaller steps, the cumulative sum of the returned rates times the steps of `get_dt_array`
is within the tolerance of the growth of the mass since the first time, at all times of the array. -/
theorem C142_summed_rates (p : MahParams ℝ) (lgt0 a b : ℝ) (ha : 0 < a) (hab : a ≤ b) (ε : ℝ) (hε : 0 < ε) :
    ∃ δ > 0, ∀ (ts dt : List ℝ), Utils.get_dt_array ts = .ok dt → ts.Pairwise (· < ·) → (∀ t ∈ ts, a ≤ t ∧ t ≤ b) →
      (∀ i, i + 1 < ts.length → ts.getD (i + 1) 0 - ts.getD i 0 < δ) →
      ∀ k < ts.length,
        |∑ i ∈ Finset.range (k + 1), 1e9 * (mah_singlehalo p ts lgt0).1.getD i 0 * dt.getD i 0
          - ((10 : ℝ) ^ logmh_at_t_obs p (ts.getD k 0) lgt0 - (10 : ℝ) ^ logmh_at_t_obs p (ts.getD 0 0) lgt0)| ≤ ε := by
  set h : ℝ → ℝ := fun t => 1e9 * dmhdt_noq_kern_scalar p t lgt0 with hh
  set F : ℝ → ℝ := fun t => (10 : ℝ) ^ logmh_at_t_obs p t lgt0 with hF
  set J := Icc (a / 2) (b + 1) with hJ
  have hJpos : ∀ t ∈ J, 0 < t := fun t ht => by have := ht.1; linarith
  have hcont : ContinuousOn h J := (noq_rate_continuousOn p lgt0).mono hJpos
  obtain ⟨B, hB⟩ := isCompact_Icc.exists_bound_of_continuousOn hcont
  have hB0 : 0 ≤ B := (norm_nonneg _).trans (hB a ⟨by linarith, by linarith⟩)
  have huc := isCompact_Icc.uniformContinuousOn_of_continuous hcont
  set η := ε / (2 * (b - a + 2)) with hη
  have hba : 0 < b - a + 2 := by linarith
  have hη0 : 0 < η := by positivity
  obtain ⟨δ1, hδ1, hu⟩ := Metric.uniformContinuousOn_iff.1 huc η hη0
  set δ := min (min δ1 (a / 2)) (min 1 (ε / (8 * (B + 1)))) with hδ
  have hδ0 : 0 < δ := by
    refine lt_min (lt_min hδ1 (by linarith)) (lt_min one_pos (by positivity))
  have d1 : δ ≤ δ1 := (min_le_left _ _).trans (min_le_left _ _)
  have d2 : δ ≤ a / 2 := (min_le_left _ _).trans (min_le_right _ _)
  have d3 : δ ≤ 1 := (min_le_right _ _).trans (min_le_left _ _)
  have d4 : B * δ ≤ ε / 8 := by
    have h1 : δ ≤ ε / (8 * (B + 1)) := (min_le_right _ _).trans (min_le_right _ _)
    rw [le_div_iff₀ (by positivity)] at h1
    nlinarith
  -- the mass is Lipschitz on the range
  have hlip : ∀ s ∈ J, ∀ t ∈ J, s ≤ t → |F t - F s| ≤ B * (t - s) := by
    intro s hs t ht hst
    rcases le_or_gt p.t_peak s with hp | hp
    · have e1 := C02_frozen_after_peak p s lgt0 hp
      have e2 := C02_frozen_after_peak p t lgt0 (hp.trans hst)
      simp only [hF, e1, e2, sub_self, abs_zero]
      exact mul_nonneg hB0 (by linarith)
    rcases hst.eq_or_lt with rfl | hst
    · simp
    have hm : F t = F (min t p.t_peak) := by
      rcases le_total t p.t_peak with h1 | h1
      · rw [min_eq_left h1]
      · rw [min_eq_right h1]; simp only [hF]; rw [C02_frozen_after_peak p t lgt0 h1]
    have hsm : s < min t p.t_peak := lt_min hst hp
    obtain ⟨ξ, hξ, e⟩ := growth_eq_rate p lgt0 (hJpos s hs) hsm (min_le_right _ _)
    have hξJ : ξ ∈ J := ⟨hs.1.trans hξ.1.le, (hξ.2.le.trans (min_le_left _ _)).trans ht.2⟩
    rw [hm, show F (min t p.t_peak) - F s = _ from e, abs_mul]
    have h1 : |1e9 * dmhdt_noq_kern_scalar p ξ lgt0| ≤ B := hB ξ hξJ
    have h2 : |min t p.t_peak - s| ≤ t - s := by
      rw [abs_of_pos (sub_pos.2 hsm)]; linarith [min_le_left t p.t_peak]
    exact mul_le_mul h1 h2 (abs_nonneg _) hB0
  -- one cell before the peak
  have hcell : ∀ s ∈ J, ∀ t ∈ J, ∀ u, s < u → u < t → t ≤ p.t_peak → t - s < δ →
      |h u * (t - s) - (F t - F s)| ≤ η * (t - s) := by
    intro s hs t ht u hsu hut htp hd
    obtain ⟨ξ, hξ, e⟩ := growth_eq_rate p lgt0 (hJpos s hs) (hsu.trans hut) htp
    have hξJ : ξ ∈ J := ⟨hs.1.trans hξ.1.le, hξ.2.le.trans ht.2⟩
    have huJ : u ∈ J := ⟨hs.1.trans hsu.le, hut.le.trans ht.2⟩
    rw [show F t - F s = _ from e, show 1e9 * dmhdt_noq_kern_scalar p ξ lgt0 = h ξ from rfl, ← sub_mul, abs_mul,
      abs_of_pos (show 0 < t - s by linarith)]
    have := hu u huJ ξ hξJ (by
      rw [Real.dist_eq, abs_lt]
      constructor <;> linarith [hξ.1, hξ.2])
    rw [Real.dist_eq] at this
    exact mul_le_mul_of_nonneg_right this.le (by linarith)
  refine ⟨δ, hδ0, fun ts dt hdt hs hr hst k hk => ?_⟩
  obtain ⟨edge, c1, c2, c3⟩ := C21_dt_tiling ts dt hdt
  obtain ⟨-, v1, v2, v3⟩ := C21_dt_values ts dt hdt
  have c3 := c3 hs
  have hlen : 2 ≤ ts.length := by
    by_contra hc
    rw [C22_too_short ts (by omega)] at hdt; cases hdt
  have hmem : ∀ i < ts.length, a ≤ ts.getD i 0 ∧ ts.getD i 0 ≤ b := by
    intro i hi
    rw [List.getD_eq_getElem?_getD, List.getElem?_eq_getElem hi]
    exact hr _ (List.getElem_mem hi)
  have hwpre : ∀ i, i + 1 < ts.length → edge (i + 1) - edge i < δ := by
    intro i hi
    rw [← c1 i (by omega)]
    rcases Nat.eq_zero_or_pos i with rfl | h0
    · rw [v1]; exact hst 0 hi
    · rw [v2 i h0 hi]
      have e1 := hst i hi
      have e2 := hst (i - 1) (by omega)
      rw [Nat.sub_add_cancel h0] at e2
      linarith
  have hw : ∀ i < ts.length, edge (i + 1) - edge i < δ := by
    intro i hi
    rcases Nat.lt_or_ge (i + 1) ts.length with h1 | h1
    · exact hwpre i h1
    · have hi' : i = ts.length - 1 := by omega
      subst hi'
      rw [← c1 _ hi, v3]
      have e1 := hst (ts.length - 2) (by omega)
      rw [show ts.length - 2 + 1 = ts.length - 1 by omega] at e1
      have e2 := hwpre (ts.length - 2) (by omega)
      rw [← c1 _ (by omega)] at e2
      linarith
  have hJt : ∀ i < ts.length, ts.getD i 0 ∈ J := fun i hi =>
    ⟨by linarith [(hmem i hi).1], by linarith [(hmem i hi).2]⟩
  have hJe : ∀ i ≤ ts.length, edge i ∈ J := by
    intro i hi
    rcases Nat.eq_zero_or_pos i with rfl | h0
    · have e1 := c3 0 (by omega)
      have e2 := hw 0 (by omega)
      have e3 := hmem 0 (by omega)
      exact ⟨by linarith, by linarith⟩
    · have e1 := c3 (i - 1) (by omega)
      have e2 := hw (i - 1) (by omega)
      have e3 := hmem (i - 1) (by omega)
      rw [Nat.sub_add_cancel h0] at e1 e2
      exact ⟨by linarith, by linarith⟩
  have hrate : ∀ i < ts.length, (mah_singlehalo p ts lgt0).1.getD i 0 = dmhdt_kern_scalar p (ts.getD i 0) lgt0 := by
    intro i hi
    rw [List.getD_eq_getElem?_getD, singlehalo_rate_getElem?, List.getD_eq_getElem?_getD, List.getElem?_eq_getElem hi]
    rfl
  -- the sum against the growth between cell edges
  have hsum : ∀ m ≤ ts.length,
      (edge m ≤ p.t_peak → |∑ i ∈ Finset.range m, 1e9 * (mah_singlehalo p ts lgt0).1.getD i 0 * dt.getD i 0
        - (F (edge m) - F (edge 0))| ≤ η * (edge m - edge 0)) ∧
      |∑ i ∈ Finset.range m, 1e9 * (mah_singlehalo p ts lgt0).1.getD i 0 * dt.getD i 0
        - (F (edge m) - F (edge 0))| ≤ η * (edge m - edge 0) + 2 * (B * δ) := by
    intro m
    induction m with
    | zero => intro _; simp; positivity
    | succ m ih =>
      intro hm
      obtain ⟨ih1, ih2⟩ := ih (by omega)
      have hml : m < ts.length := hm
      obtain ⟨t1, t2⟩ := c3 m hml
      have w := hw m hml
      have E1 := hJe m (by omega)
      have E2 := hJe (m + 1) hm
      rw [Finset.sum_range_succ, c1 m hml, hrate m hml]
      set Z := ∑ i ∈ Finset.range m, 1e9 * (mah_singlehalo p ts lgt0).1.getD i 0 * dt.getD i 0 with hZ
      have hsplit : Z + 1e9 * dmhdt_kern_scalar p (ts.getD m 0) lgt0 * (edge (m + 1) - edge m)
          - (F (edge (m + 1)) - F (edge 0)) = (Z - (F (edge m) - F (edge 0)))
          + (1e9 * dmhdt_kern_scalar p (ts.getD m 0) lgt0 * (edge (m + 1) - edge m)
            - (F (edge (m + 1)) - F (edge m))) := by ring
      rw [hsplit]
      have hbefore : edge (m + 1) ≤ p.t_peak →
          |Z - (F (edge m) - F (edge 0)) + (1e9 * dmhdt_kern_scalar p (ts.getD m 0) lgt0 * (edge (m + 1) - edge m)
            - (F (edge (m + 1)) - F (edge m)))| ≤ η * (edge (m + 1) - edge 0) := by
        intro hp
        have e1 := ih1 (by linarith)
        have e2 := hcell _ E1 _ E2 (ts.getD m 0) t1 t2 hp w
        have e3 : dmhdt_kern_scalar p (ts.getD m 0) lgt0 = dmhdt_noq_kern_scalar p (ts.getD m 0) lgt0 :=
          if_neg (not_lt.2 (t2.le.trans hp))
        rw [e3]
        refine (abs_add_le _ _).trans ?_
        have : η * (edge (m + 1) - edge 0) = η * (edge m - edge 0) + η * (edge (m + 1) - edge m) := by ring
        rw [this]
        exact add_le_add e1 e2
      refine ⟨hbefore, ?_⟩
      have hpos : 0 ≤ η * (edge (m + 1) - edge m) := mul_nonneg hη0.le (by linarith)
      rcases le_or_gt (edge (m + 1)) p.t_peak with hp | hp
      · exact (hbefore hp).trans (le_add_of_nonneg_right (by positivity))
      rcases le_or_gt (edge m) p.t_peak with hq | hq
      · have e1 := ih1 hq
        have e2 := hlip _ E1 _ E2 (by linarith)
        have e3 : |1e9 * dmhdt_kern_scalar p (ts.getD m 0) lgt0 * (edge (m + 1) - edge m)|
            ≤ B * (edge (m + 1) - edge m) := by
          rw [abs_mul, abs_of_pos (show 0 < edge (m + 1) - edge m by linarith)]
          refine mul_le_mul_of_nonneg_right ?_ (by linarith)
          rcases lt_or_ge p.t_peak (ts.getD m 0) with h1 | h1
          · rw [C06_rate_zero_after_peak p _ lgt0 h1]; simpa using hB0
          · rw [show dmhdt_kern_scalar p (ts.getD m 0) lgt0 = dmhdt_noq_kern_scalar p (ts.getD m 0) lgt0 from
              if_neg (not_lt.2 h1)]
            exact hB _ (hJt m hml)
        have e4 : B * (edge (m + 1) - edge m) ≤ B * δ := mul_le_mul_of_nonneg_left w.le hB0
        refine (abs_add_le _ _).trans ?_
        have e5 := abs_sub (1e9 * dmhdt_kern_scalar p (ts.getD m 0) lgt0 * (edge (m + 1) - edge m))
          (F (edge (m + 1)) - F (edge m))
        nlinarith
      · have e1 : F (edge (m + 1)) = F (edge m) := by
          simp only [hF]
          rw [C02_frozen_after_peak p _ lgt0 hp.le, C02_frozen_after_peak p _ lgt0 hq.le]
        rw [C06_rate_zero_after_peak p _ lgt0 (hq.trans t1), e1]
        simp only [mul_zero, zero_mul, sub_self, add_zero]
        rw [e1] at *
        refine ih2.trans ?_
        nlinarith
  have hfin := (hsum (k + 1) hk).2
  obtain ⟨t1, t2⟩ := c3 k hk
  obtain ⟨s1, -⟩ := c3 0 (by omega)
  have w0 := hw 0 (by omega)
  have wk := hw k hk
  have l1 := hlip _ (hJt k hk) _ (hJe (k + 1) hk) t2.le
  have l2 := hlip _ (hJe 0 (by omega)) _ (hJt 0 (by omega)) s1.le
  have s2 := (c3 0 (by omega)).2
  have b1 : B * (edge (k + 1) - ts.getD k 0) ≤ B * δ := mul_le_mul_of_nonneg_left (by linarith) hB0
  have b2 : B * (ts.getD 0 0 - edge 0) ≤ B * δ := mul_le_mul_of_nonneg_left (by linarith) hB0
  have hη1 : η * (edge (k + 1) - edge 0) ≤ ε / 2 := by
    have e1 : edge (k + 1) - edge 0 ≤ b - a + 2 := by
      have := hmem k hk
      have := hmem 0 (by omega)
      linarith
    calc η * (edge (k + 1) - edge 0) ≤ η * (b - a + 2) := mul_le_mul_of_nonneg_left e1 hη0.le
      _ = ε / 2 := by rw [hη]; field_simp
  rw [abs_le] at hfin l1 l2 ⊢
  simp only [hF] at hfin l1 l2 ⊢
  constructor <;> linarith

/-- `n + 2` equally spaced times from `a` to `b`, as `np.linspace(a, b, n + 2)` gives them. -/
noncomputable def linspace (a b : ℝ) (n : ℕ) : List ℝ :=
  (List.range (n + 2)).map fun i : ℕ => a + (b - a) * (i : ℝ) / (n + 1)

theorem linspace_getD (a b : ℝ) (n i : ℕ) (hi : i < n + 2) :
    (linspace a b n).getD i 0 = a + (b - a) * i / (n + 1) := by
  simp [linspace, List.getD_eq_getElem?_getD, hi]

theorem sum_eq_range (l : List ℝ) : l.sum = ∑ i ∈ Finset.range l.length, l.getD i 0 := by
  induction l with
  | nil => simp
  | cons x l ih => rw [List.sum_cons, List.length_cons, Finset.sum_range_succ', ih, add_comm]; simp

/-- Equally spaced times meet the hypotheses of `C142_summed_rates`. -/
theorem linspace_ok {a b : ℝ} (hab : a < b) (n : ℕ) :
    (∃ dt, Utils.get_dt_array (linspace a b n) = .ok dt) ∧ (linspace a b n).Pairwise (· < ·) ∧
    (∀ t ∈ linspace a b n, a ≤ t ∧ t ≤ b) ∧
    ∀ i, i + 1 < (linspace a b n).length →
      (linspace a b n).getD (i + 1) 0 - (linspace a b n).getD i 0 = (b - a) / (n + 1) := by
  have hn : (0 : ℝ) < n + 1 := by positivity
  have hlen : (linspace a b n).length = n + 2 := by simp [linspace]
  refine ⟨C21_dt_defined _ (by omega), ?_, ?_, ?_⟩
  · rw [linspace, List.pairwise_map]
    refine List.pairwise_lt_range.imp fun {i j} hij => ?_
    have hij : (i : ℝ) < j := by exact_mod_cast hij
    have : (b - a) * i / (n + 1) < (b - a) * j / (n + 1) :=
      div_lt_div_of_pos_right (mul_lt_mul_of_pos_left hij (by linarith)) hn
    linarith
  · intro t ht
    obtain ⟨i, hi, rfl⟩ := List.mem_map.1 ht
    have hi : (i : ℝ) ≤ n + 1 := by
      have := List.mem_range.1 hi
      exact_mod_cast Nat.le_of_lt_succ this
    have h1 : 0 ≤ (b - a) * i / (n + 1) := by
      have : 0 ≤ b - a := by linarith
      positivity
    have h2 : (b - a) * i / (n + 1) ≤ b - a := by
      rw [div_le_iff₀ hn]
      exact mul_le_mul_of_nonneg_left hi (by linarith)
    constructor <;> linarith
  · intro i hi
    rw [hlen] at hi
    rw [linspace_getD _ _ _ _ hi, linspace_getD _ _ _ _ (by omega)]
    push_cast
    ring

/-- **C142**, equally spaced times. On `np.linspace(a, b, n)` the rates summed with the steps of `get_dt_array` tend to
the growth of the mass from `a` to `b` as `n` grows. -/
theorem C142_linspace (p : MahParams ℝ) (lgt0 a b : ℝ) (ha : 0 < a) (hab : a < b) (dt : ℕ → List ℝ)
    (hdt : ∀ n, Utils.get_dt_array (linspace a b n) = .ok (dt n)) :
    Tendsto (fun n => (List.zipWith (fun r d => 1e9 * r * d) (mah_singlehalo p (linspace a b n) lgt0).1 (dt n)).sum)
      atTop (𝓝 ((10 : ℝ) ^ logmh_at_t_obs p b lgt0 - (10 : ℝ) ^ logmh_at_t_obs p a lgt0)) := by
  rw [Metric.tendsto_atTop]
  intro ε hε
  obtain ⟨δ, hδ, h⟩ := C142_summed_rates p lgt0 a b ha hab.le (ε / 2) (by positivity)
  obtain ⟨N, hN⟩ := exists_nat_gt ((b - a) / δ)
  refine ⟨N, fun n hn => ?_⟩
  obtain ⟨-, h1, h2, h3⟩ := linspace_ok hab n
  have hlen : (linspace a b n).length = n + 2 := by simp [linspace]
  have hn' : (0 : ℝ) < n + 1 := by positivity
  have hk := h _ _ (hdt n) h1 h2 (fun i hi => by
    rw [h3 i hi, div_lt_iff₀ hn']
    have : (N : ℝ) ≤ n := by exact_mod_cast hn
    rw [div_lt_iff₀ hδ] at hN
    nlinarith) (n + 1) (by omega)
  rw [linspace_getD _ _ _ _ (by omega), linspace_getD _ _ _ _ (by omega)] at hk
  have e1 : a + (b - a) * ((n + 1 : ℕ) : ℝ) / (n + 1) = b := by push_cast; field_simp; ring
  have e2 : a + (b - a) * ((0 : ℕ) : ℝ) / (n + 1) = a := by simp
  rw [e1, e2] at hk
  have hrl : (mah_singlehalo p (linspace a b n) lgt0).1.length = n + 2 := by
    simp [mah_singlehalo, diffmah_kern, dmhdt_kern, dmhdt_noq_kern, hlen]
  have hdl : (dt n).length = n + 2 := by rw [(C21_dt_values _ _ (hdt n)).1, hlen]
  have hs : (List.zipWith (fun r d => 1e9 * r * d) (mah_singlehalo p (linspace a b n) lgt0).1 (dt n)).sum
      = ∑ i ∈ Finset.range (n + 1 + 1), 1e9 * (mah_singlehalo p (linspace a b n) lgt0).1.getD i 0 * (dt n).getD i 0 := by
    rw [sum_eq_range, List.length_zipWith, hrl, hdl, min_self]
    refine Finset.sum_congr rfl fun i hi => ?_
    have hi := Finset.mem_range.1 hi
    simp only [List.getD_eq_getElem?_getD]
    rw [List.getElem?_zipWith, List.getElem?_eq_getElem (by omega), List.getElem?_eq_getElem (by omega)]
    rfl
  rw [hs, Real.dist_eq]
  linarith

/-- From 1 to 13 Gyr the limit is the growth of the default halo, which is positive. -/
example : (∃ dt : ℕ → List ℝ, ∀ n, Utils.get_dt_array (linspace 1 13 n) = .ok (dt n)) ∧
    0 < (10 : ℝ) ^ logmh_at_t_obs DEFAULT_MAH_PARAMS 13 1 - (10 : ℝ) ^ logmh_at_t_obs DEFAULT_MAH_PARAMS 1 1 := by
  refine ⟨⟨_, fun n => (linspace_ok (by norm_num) n).1.choose_spec⟩, sub_pos.2 ?_⟩
  have htp : DEFAULT_MAH_PARAMS.t_peak = 14 := by norm_num [DEFAULT_MAH_PARAMS]
  refine Real.rpow_lt_rpow_of_exponent_lt (by norm_num) ?_
  exact C03_strictly_increasing_until_peak DEFAULT_MAH_PARAMS default_valid.toInBox default_valid.late_lt_early.le 1
    (by norm_num) (by rw [htp]; constructor <;> norm_num) (by rw [htp]; constructor <;> norm_num) (by norm_num)

end Diffmah

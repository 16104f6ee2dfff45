import Verif.Lemmas.Float32Moments
import Verif.Props.Float32Peak
import Verif.Props.Float32Fit
import Verif.Lemmas.PopGradLoss

/-!
# C130: moments and losses of populations in single precision

The mean and the scatter of the mass histories of a simulated population, which the population fit compares with its targets,
are weighted sums over two hundred Monte Carlo haloes. In single precision they are close to the exact moments of the same
haloes, in whatever order the sums are taken, the square root never meets a negative number, and the loss of the fit is a
finite number that is not negative, whatever the unbounded parameters.
-/

namespace Diffmah.F32

set_option maxRecDepth 10000

open JOps XR JMinMax JFlow Pop TPeak PopParams MC PopGrad

/-! ## Specification -/

/-- What is assumed of the platform: the elementary functions, the random numbers and the tables of `jnp.linspace`. -/
structure McPlatform [Libm] (E : Env F32) (U : List ℝ) (tab : F32 → F32 → List F32) : Prop where
  sane : Libm.Sane
  rate : Libm.AccurateRate
  inverse : Libm.AccurateInverse
  env : EnvOk E
  tables : TablesOk U tab
  normal : ∃ z : Key → Fin 4 → ℝ, (∀ k i, |z k i| ≤ 2 ^ 64) ∧ ∀ k m c, E.mvn k m c = multivariate_normal (z k) m c

/-- And that `sum` adds up an array in some order. -/
structure PopPlatform [Libm] (sum : List F32 → F32) (E : Env F32) (U : List ℝ) (tab : F32 → F32 → List F32) : Prop
    extends McPlatform E U tab where
  sums : ∀ l, SumOf l (sum l)

/-- A full set of population parameters within their bounds, up to `2^-20`, as `C127_from_unbounded` provides it. -/
def LooseParams (p : NT ℝ) : Prop :=
  p.map Prod.fst = FIELDS ∧
    ∀ b ∈ FULL.bounds, ∃ v, p.lookup b.1 = some v ∧ b.2.1 - 2 ^ (-20 : ℤ) ≤ v ∧ v ≤ b.2.2 + 2 ^ (-20 : ℤ)

/-- A halo of the population: its early and its late parameters, and the probability of the early ones. -/
abbrev PopHalo := MahParams ℝ × MahParams ℝ × ℝ

/-- The exact distribution at time `t` of the log masses of the haloes `H`. -/
noncomputable def massesAt (H : List PopHalo) (t lgt0 : ℝ) : List (ℝ × ℝ) :=
  Spec.mixture (H.map fun h => log_mah_kern h.1 t lgt0) (H.map fun h => log_mah_kern h.2.1 t lgt0) (H.map fun h => h.2.2)

/-- One bin of the targets of a fit: ordinary masses and times, targets of any size that could be meant. -/
structure GoodBin (b : PopLoss.Bin) : Prop where
  ne : b.tarr ≠ []
  len : b.tarr.length ≤ 2 ^ 24
  len_mean : b.target_mean_log_mah.length = b.tarr.length
  len_std : b.target_std_log_mah.length = b.tarr.length
  times : ∀ t ∈ b.tarr, 0.06 ≤ t ∧ t ≤ 19.9
  lgm : 4.6 ≤ b.lgm_obs ∧ b.lgm_obs ≤ 13.3
  t_obs : 0.52 ≤ b.t_obs ∧ b.t_obs ≤ 14.9
  mean : ∀ x ∈ b.target_mean_log_mah, |x| ≤ 2 ^ (20 : ℕ)
  std : ∀ x ∈ b.target_std_log_mah, |x| ≤ 2 ^ (20 : ℕ)

/-! ## Histories -/

theorem rep_of_add {a b : F32} {y : ℝ} (h : a + b = num y) : Rep y := by
  have h' : rd (a.v + b.v) = fin y := congrArg F32.v h
  cases hc : a.v + b.v with
  | fin x =>
    rw [hc] at h'
    unfold rd at h'
    simp only at h'
    split_ifs at h'
    cases h'
    exact rep_round _
  | nan => rw [hc] at h'; cases h'
  | pinf => rw [hc] at h'; cases h'
  | ninf => rw [hc] at h'; cases h'

theorem kern_rep [Libm] {p : MahParams F32} {t lgt0 : F32} {y : ℝ} (h : log_mah_kern p t lgt0 = num y) : Rep y := by
  unfold log_mah_kern jwhere at h
  simp only at h
  split_ifs at h
  · exact rep_of_add h
  · exact rep_of_add h

theorem kern_abs_le' {p : MahParams ℝ} (hp : ClosedBox p) {t lgt0 : ℝ} (ht0 : 0.05 ≤ t)
    (ht1 : t ≤ 20) (hg0 : 0 ≤ lgt0) (hg1 : lgt0 ≤ 4 / 3) : |log_mah_kern p t lgt0| ≤ 31 := by
  have key : ∀ s, 0.05 ≤ s → s ≤ 20 → |log_mah_noq_kern p s lgt0| ≤ 31 := by
    intro s h1 h2
    rw [noq_real, plaw_real]
    have hL := abs_le.1 (abs_logb_le h1 h2)
    have s0 := Real.sigmoid_pos (3.5 * (Real.logb 10 s - p.logtc))
    have s1 := Real.sigmoid_lt_one (3.5 * (Real.logb 10 s - p.logtc))
    have a1 := hp.late_lo
    have a2 := hp.late_hi
    have a3 := hp.early_lo
    have a4 := hp.early_hi
    have i0 : 0 ≤ p.early_index + (p.late_index - p.early_index) * Real.sigmoid (3.5 * (Real.logb 10 s - p.logtc)) := by
      nlinarith
    have i1 : p.early_index + (p.late_index - p.early_index) * Real.sigmoid (3.5 * (Real.logb 10 s - p.logtc)) ≤ 10 := by
      nlinarith
    generalize p.early_index + (p.late_index - p.early_index) * Real.sigmoid (3.5 * (Real.logb 10 s - p.logtc)) = i at *
    have b0 := hp.logm0_lo
    have b1 := hp.logm0_hi
    rw [abs_le]
    constructor <;> nlinarith
  by_cases h : t < p.t_peak
  · rw [log_mah_lt h]; exact key t ht0 ht1
  · rw [log_mah_ge (not_lt.1 h)]; exact key _ hp.tpeak_lo hp.tpeak_hi

/-- A history of the population code at one time -/
theorem hist_near [Libm] (ha : Libm.Accurate) {p : MahParams ℝ} (hp : ClosedBox p) {t lgt0 : ℝ} (ht0 : 0.05 ≤ t)
    (ht1 : t ≤ 20) (hg0 : 0 ≤ lgt0) (hg1 : lgt0 ≤ 4 / 3) :
    ∃ y, PopGrad.log_mah (p.map num) (num t) (num lgt0) = num y ∧ Rep y ∧ |y| ≤ 32 ∧
      |y - log_mah_kern p t lgt0| ≤ 2 ^ (-15 : ℤ) := by
  obtain ⟨y, h1, h2⟩ := kern_near ha hp ht0 ht1 hg0 hg1
  refine ⟨y, h1, kern_rep h1, ?_, h2⟩
  have h3 := abs_le.1 (kern_abs_le' hp ht0 ht1 hg0 hg1)
  have h4 := abs_le.1 (h2.trans (show (2 : ℝ) ^ (-15 : ℤ) ≤ 1 by norm_num))
  exact abs_le.2 ⟨by linarith, by linarith⟩

theorem add_lit_zero [Libm] {x : ℝ} (h : Rep x) (hx : |x| ≤ 100) : num x + (lit 0 : F32) = num x := by
  have e : (lit 0 : F32) = num 0 := lit_zero'
  rw [e]
  refine (add_fin (b := 0) (by rw [add_zero]; exact hx.trans (by norm_num))).trans ?_
  rw [add_zero, round_rep h]; rfl

theorem lgt0_range {lgt0 : ℝ} (hl0 : 1.03 ≤ (10 : ℝ) ^ lgt0) (hl1 : (10 : ℝ) ^ lgt0 ≤ 19.98) : 0 ≤ lgt0 ∧ lgt0 ≤ 4 / 3 := by
  constructor
  · by_contra hc
    push Not at hc
    have := Real.rpow_le_rpow_of_exponent_le (x := 10) (by norm_num) hc.le
    rw [Real.rpow_zero] at this
    norm_num at hl0
    linarith
  · have h : Real.logb 10 ((10 : ℝ) ^ lgt0) = lgt0 := Real.logb_rpow (by norm_num) (by norm_num)
    have := (abs_le.1 (abs_logb_le (t := (10 : ℝ) ^ lgt0) (by norm_num at hl0 ⊢; linarith) (by norm_num at hl1 ⊢; linarith))).2
    rwa [h] at this

theorem val_ok {β : Type} {m : RandM β} {b : β} (h : m.val? = some b) : m = Except.ok (b, m.used) := by
  rcases m with e | ⟨a, ks⟩
  · cases h
  · cases h; rfl

/-! ## Moments -/

theorem moments_core [Libm] {sum : List F32 → F32} {E : Env F32} {U : List ℝ} {tab : F32 → F32 → List F32}
    (P : PopPlatform sum E U tab) {p : NT ℝ} (hp : LooseParams p) (kind : Kind) {lgm t_obs lgt0 : ℝ} (hlr : Rep lgm)
    (htr : Rep t_obs) (hm0 : 4.5 ≤ lgm) (hm1 : lgm ≤ 13.4) (ht0 : 0.51 ≤ t_obs) (ht1 : t_obs ≤ 15)
    (hl0 : 1.03 ≤ (10 : ℝ) ^ lgt0) (hl1 : (10 : ℝ) ^ lgt0 ≤ 19.98) {ts : List ℝ} (hts : ∀ t ∈ ts, 0.05 ≤ t ∧ t ≤ 20)
    (key : Key) :
    ∃ H : List PopHalo, H.length = 200 ∧
      (∀ (i : ℕ) h, H[i]? = some h → (mc_diffmah_params_single_tab (U.map num) tab E kind (p.mapv num) (num lgm) (num t_obs)
        (Key.child key 200 i) (num lgt0)).val? = some (h.1.map num, h.2.1.map num, num h.2.2)) ∧
      ∃ M : List (ℝ × ℝ), (predict_mah_moments_singlebin_tab sum (U.map num) tab E kind (p.mapv num) (ts.map num) (num lgm)
        (num t_obs) key (num lgt0)).val? = some (M.map fun q => (num q.1, num q.2)) ∧ M.length = ts.length ∧
        (∀ (j : ℕ) t, ts[j]? = some t → ∃ m s, M[j]? = some (m, s) ∧
          |m - Spec.wmean (massesAt H t lgt0)| ≤ 2 ^ (-10 : ℤ) ∧ 0 ≤ s ∧ |s - √(Spec.wvar (massesAt H t lgt0))| ≤ 2 ^ (-9 : ℤ)) ∧
        ∀ q ∈ M, |q.1| ≤ 2 ^ (7 : ℕ) ∧ |q.2| ≤ 2 ^ (7 : ℕ) := by
  obtain ⟨g0, g1⟩ := lgt0_range hl0 hl1
  obtain ⟨z, hz, hmvn⟩ := P.normal
  have draws := fun i => C129_monte_carlo P.sane P.rate P.inverse p hp.1 hp.2 E P.env U tab P.tables z hz hmvn kind lgm t_obs
    lgt0 hm0 hm1 ht0 ht1 hl0 hl1 (Key.child key 200 i)
  choose e l f tp d1 _ d3 d4 d5 using draws
  have cb : ∀ i, ∀ h ∈ [e i, l i], ClosedBox h := by
    intro i h hh
    obtain ⟨⟨a1, a2⟩, ⟨b1, b2⟩, ⟨c1, c2⟩, ⟨q1, q2⟩, ⟨r1, r2⟩, -⟩ := d3 i h hh
    exact ⟨a1, a2, b1, b2, c1.le, c2, c1.le.trans q1, q2, r1.le, r2⟩
  have ha : Libm.Accurate := P.inverse.toAccurate
  -- the histories
  have hist : ∀ i, ∀ h ∈ [e i, l i], ∀ t ∈ ts, ∃ y, PopGrad.log_mah (h.map num) (num t) (num lgt0) = num y ∧ Rep y ∧ |y| ≤ 32 ∧
      |y - log_mah_kern h t lgt0| ≤ 2 ^ (-15 : ℤ) := fun i h hh t ht =>
    hist_near ha (cb i h hh) (hts t ht).1 (hts t ht).2 g0 g1
  have he : ∀ i t, ∃ y, t ∈ ts → PopGrad.log_mah ((e i).map num) (num t) (num lgt0) = num y ∧ Rep y ∧ |y| ≤ 32 ∧
      |y - log_mah_kern (e i) t lgt0| ≤ 2 ^ (-15 : ℤ) := by
    intro i t
    by_cases ht : t ∈ ts
    · obtain ⟨y, hy⟩ := hist i (e i) (by simp) t ht
      exact ⟨y, fun _ => hy⟩
    · exact ⟨0, fun h => absurd h ht⟩
  have hl : ∀ i t, ∃ y, t ∈ ts → PopGrad.log_mah ((l i).map num) (num t) (num lgt0) = num y ∧ Rep y ∧ |y| ≤ 32 ∧
      |y - log_mah_kern (l i) t lgt0| ≤ 2 ^ (-15 : ℤ) := by
    intro i t
    by_cases ht : t ∈ ts
    · obtain ⟨y, hy⟩ := hist i (l i) (by simp) t ht
      exact ⟨y, fun _ => hy⟩
    · exact ⟨0, fun h => absurd h ht⟩
  choose ye hye using he
  choose yl hyl using hl
  -- the sample
  have sample : ∃ ks, mc_diffmah_halo_sample_tab (U.map num) tab E kind (p.mapv num) (ts.map num) (num lgm) (num t_obs) key
      (num lgt0) NH_PER_M0BIN = Except.ok ((List.range 200).map fun i => (ts.map fun t => num (ye i t),
        ts.map fun t => num (yl i t), num (f i)), ks) := by
    unfold mc_diffmah_halo_sample_tab
    rw [add_lit_zero hlr (abs_le.2 ⟨by norm_num at hm0; linarith, by norm_num at hm1; linarith⟩),
      add_lit_zero htr (abs_le.2 ⟨by norm_num at ht0; linarith, by linarith⟩)]
    unfold Key.split NH_PER_M0BIN
    rw [List.map_map]
    refine ⟨_, RandM.all_of (List.range 200) _ _ (fun i => (mc_diffmah_single_tab (U.map num) tab E kind (p.mapv num)
      (ts.map num) (num lgm) (num t_obs) (Key.child key 200 i) (num lgt0)).used) fun i _ => ?_⟩
    · refine val_ok (bindVal (d1 i) ?_)
      change some _ = some _
      simp only [List.map_map]
      congr 2
      · exact List.map_congr_left fun t ht => (hye i t ht).1
      · congr 1
        exact List.map_congr_left fun t ht => (hyl i t ht).1
  obtain ⟨ks, sample⟩ := sample
  have near := fun t (ht : t ∈ ts) => moments_near P.sums (L := List.range 200) (xe := fun i => ye i t) (xl := fun i => yl i t)
    (f := f) (Xe := fun i => log_mah_kern (e i) t lgt0) (Xl := fun i => log_mah_kern (l i) t lgt0) (by simp) (by simp)
    (fun i _ => (hye i t ht).2) (fun i _ => (hyl i t ht).2) fun i _ => by
      have h1 := d4 i
      have h2 := d5 i
      norm_num at h1 h2
      exact ⟨h1.le, h2.le⟩
  have near' : ∀ t, ∃ q : ℝ × ℝ, t ∈ ts →
      moments_with sum ((List.range 200).map fun i => num (ye i t)) ((List.range 200).map fun i => num (yl i t))
        ((List.range 200).map fun i => num (f i)) = (num q.1, num q.2) ∧
      |q.1 - Spec.wmean (Spec.mixture ((List.range 200).map fun i => log_mah_kern (e i) t lgt0)
        ((List.range 200).map fun i => log_mah_kern (l i) t lgt0) ((List.range 200).map f))| ≤ 2 ^ (-10 : ℤ) ∧
      |q.1| ≤ 33 ∧ 0 ≤ q.2 ∧ q.2 ≤ 67 ∧
      |q.2 - √(Spec.wvar (Spec.mixture ((List.range 200).map fun i => log_mah_kern (e i) t lgt0)
        ((List.range 200).map fun i => log_mah_kern (l i) t lgt0) ((List.range 200).map f)))| ≤ 2 ^ (-9 : ℤ) := fun t => by
    by_cases ht : t ∈ ts
    · obtain ⟨m, s, h⟩ := near t ht
      exact ⟨(m, s), fun _ => h⟩
    · exact ⟨(0, 0), fun h => absurd h ht⟩
  choose q hq using near'
  refine ⟨(List.range 200).map fun i => (e i, l i, f i), by simp, ?_, ts.map q, ?_, by simp, ?_, ?_⟩
  · intro i h hi
    rw [List.getElem?_map] at hi
    obtain ⟨j, hj, rfl⟩ := Option.map_eq_some_iff.1 hi
    obtain ⟨hj', rfl⟩ := List.getElem?_eq_some_iff.1 hj
    simp only [List.getElem_range]
    exact d1 i
  · refine bindVal (by rw [sample]; rfl) ?_
    change some _ = some _
    congr 1
    simp only [List.length_map, List.map_map]
    apply List.ext_getElem (by simp)
    intro j h1 h2
    have hj : j < ts.length := by simpa using h1
    simp only [List.getElem_map, List.getElem_range, Function.comp]
    rw [← (hq ts[j] (List.getElem_mem hj)).1]
    congr 1
    · refine List.map_congr_left fun i _ => ?_
      simp only [Function.comp]
      rw [List.getD_eq_getElem _ _ (by simpa using hj)]; simp
    · refine List.map_congr_left fun i _ => ?_
      simp only [Function.comp]
      rw [List.getD_eq_getElem _ _ (by simpa using hj)]; simp
  · intro j t hj
    have ht : t ∈ ts := List.mem_of_getElem? hj
    obtain ⟨-, h2, h3, h4, h5, h6⟩ := hq t ht
    refine ⟨(q t).1, (q t).2, by rw [List.getElem?_map, hj]; rfl, ?_, h4, ?_⟩
    · simpa only [massesAt, List.map_map, Function.comp_def] using h2
    · simpa only [massesAt, List.map_map, Function.comp_def] using h6
  · intro w hw
    obtain ⟨t, ht, rfl⟩ := List.mem_map.1 hw
    obtain ⟨-, h2, h3, h4, h5, h6⟩ := hq t ht
    refine ⟨h3.trans (by norm_num), ?_⟩
    rw [abs_of_nonneg h4]
    exact h5.trans (by norm_num)

/-- C130. The moments of a population in single precision: `predict_mah_moments_singlebin` raises no exception, and gives at
every time finite numbers, close to the exact mean and standard deviation of the very haloes that were drawn for the two
hundred keys; the order of the sums does not matter, and the variance under the square root is never negative. -/
theorem C130_moments_accurate [Libm] (sum : List F32 → F32) (E : Env F32) (U : List ℝ) (tab : F32 → F32 → List F32)
    (P : PopPlatform sum E U tab) (p : NT ℝ) (hp : LooseParams p) (kind : Kind) (lgm t_obs lgt0 : ℝ) (hlr : Rep lgm)
    (htr : Rep t_obs) (hm0 : 4.5 ≤ lgm) (hm1 : lgm ≤ 13.4) (ht0 : 0.51 ≤ t_obs) (ht1 : t_obs ≤ 15)
    (hl0 : 1.03 ≤ (10 : ℝ) ^ lgt0) (hl1 : (10 : ℝ) ^ lgt0 ≤ 19.98) (ts : List ℝ) (hts : ∀ t ∈ ts, 0.05 ≤ t ∧ t ≤ 20)
    (key : Key) :
    ∃ H : List PopHalo, H.length = 200 ∧
      (∀ (i : ℕ) h, H[i]? = some h → (mc_diffmah_params_single_tab (U.map num) tab E kind (p.mapv num) (num lgm) (num t_obs)
        (Key.child key 200 i) (num lgt0)).val? = some (h.1.map num, h.2.1.map num, num h.2.2)) ∧
      ∃ M : List (ℝ × ℝ), (predict_mah_moments_singlebin_tab sum (U.map num) tab E kind (p.mapv num) (ts.map num) (num lgm)
        (num t_obs) key (num lgt0)).val? = some (M.map fun q => (num q.1, num q.2)) ∧ M.length = ts.length ∧
        ∀ (j : ℕ) t, ts[j]? = some t → ∃ m s, M[j]? = some (m, s) ∧
          |m - Spec.wmean (massesAt H t lgt0)| ≤ 2 ^ (-10 : ℤ) ∧ 0 ≤ s ∧ |s - √(Spec.wvar (massesAt H t lgt0))| ≤ 2 ^ (-9 : ℤ) := by
  obtain ⟨H, h1, h2, M, h3, h4, h5, -⟩ := moments_core P hp kind hlr htr hm0 hm1 ht0 ht1 hl0 hl1 hts key
  exact ⟨H, h1, h2, M, h3, h4, h5⟩

/-! ## Losses -/

theorem pop_mse_range [Libm] {sum : List F32 → F32} (hsum : ∀ l, SumOf l (sum l)) {xs ys : List ℝ}
    (hl : xs.length = ys.length) (hne : ys ≠ []) (hle : ys.length ≤ 2 ^ 24) (hx : ∀ x ∈ xs, |x| ≤ 2 ^ (7 : ℕ))
    (hy : ∀ y ∈ ys, |y| ≤ 2 ^ (20 : ℕ)) :
    ∃ r, pop_mse_with sum (xs.map num) (ys.map lit) = .ok (num r) ∧ Rep r ∧ 0 ≤ r ∧ r ≤ 2 ^ (42 : ℤ) := by
  have hlit : ys.map (lit : ℝ → F32) = (ys.map round).map num := by
    rw [List.map_map]
    exact List.map_congr_left fun y h => lit_fin ((hy y h).trans (by norm_num))
  have hn0 : 0 < ys.length := List.length_pos_iff.2 hne
  have hnpos : (0 : ℝ) < ys.length := by exact_mod_cast hn0
  set d := (List.zipWith (fun a b : F32 => b - a) (xs.map num) ((ys.map round).map num)) with hd
  have hdl : d.length = ys.length := by simp [hd, hl]
  obtain ⟨S, S1, -, S2, S3, -⟩ := sum_nonneg_range (hsum (d.map fun a => a * a)) 42 (by norm_num) (by norm_num)
    (by rw [List.length_map, hdl]; exact hle) (by
      intro x hx'
      obtain ⟨w, hw, rfl⟩ := List.mem_map.1 hx'
      have hw' : ∃ a ∈ xs, ∃ b ∈ ys, w = num (round b) - num a := by
        rw [hd, List.map_map, List.zipWith_map, ← List.map_uncurry_zip_eq_zipWith] at hw
        obtain ⟨⟨a, b⟩, hab, rfl⟩ := List.mem_map.1 hw
        exact ⟨a, (List.of_mem_zip hab).1, b, (List.of_mem_zip hab).2, rfl⟩
      obtain ⟨a, ha, b, hb, rfl⟩ := hw'
      have h1 : |round b - a| ≤ 2 ^ (21 : ℕ) :=
        (abs_sub _ _).trans ((add_le_add (round_abs_le (hy b hb)) (hx a ha)).trans (by norm_num))
      have h2 := round_abs_le h1
      have h3 : |round (round b - a) * round (round b - a)| ≤ 2 ^ (42 : ℤ) := by
        rw [abs_mul]
        exact (mul_le_mul h2 h2 (abs_nonneg _) (by positivity)).trans (by norm_num)
      have e1 : num (round b) - num a = num (round (round b - a)) := sub_fin (h1.trans (by norm_num))
      rw [e1]
      refine ⟨_, mul_fin (h3.trans (by norm_num)), rep_round _, round_nonneg (mul_self_nonneg _),
        round_le ((le_abs_self _).trans h3) (rep_zpow (by norm_num))⟩)
  rw [List.length_map, hdl] at S3
  have hq0 : 0 ≤ S / ys.length := div_nonneg S2 hnpos.le
  have hq1 : S / ys.length ≤ 2 ^ (42 : ℤ) := by rw [div_le_iff₀ hnpos, mul_comm]; exact S3
  refine ⟨round (S / ys.length), ?_, rep_round _, round_nonneg hq0, round_le hq1 (rep_zpow (by norm_num))⟩
  unfold pop_mse_with
  rw [if_pos (by simp [hl]), hlit]
  simp only [← hd]
  rw [S1, hdl, lit_nat hle, div_fin hnpos.ne' (by rw [abs_of_nonneg hq0]; exact hq1.trans (by norm_num))]

theorem lit_near [Libm] {a : ℝ} (h : |a| ≤ 20) : (lit a : F32) = num (round a) ∧ |round a - a| ≤ 1 / 500000 := by
  have e0 := ε_pos
  have e1 := ε_le
  refine ⟨lit_fin (h.trans (by norm_num)), ?_⟩
  have h1 := round_ε a
  have h2 := mul_le_mul_of_nonneg_left h e0.le
  unfold ε at *
  norm_num at h1 h2 e1 ⊢
  linarith

theorem today_range {g : ℝ} (h0 : 1 / 60 ≤ g) (h1 : g ≤ 13 / 10) : 1.03 ≤ (10 : ℝ) ^ g ∧ (10 : ℝ) ^ g ≤ 19.98 := by
  constructor
  · have h : (1.03 : ℝ) ≤ 10 ^ (1 / 60 : ℝ) := by
      have e : ((10 : ℝ) ^ (1 / 60 : ℝ)) ^ (60 : ℕ) = 10 := by
        rw [← Real.rpow_natCast, ← Real.rpow_mul (by norm_num)]; norm_num
      by_contra hc
      push Not at hc
      have := pow_lt_pow_left₀ hc (by positivity) (show (60 : ℕ) ≠ 0 by norm_num)
      rw [e] at this; norm_num at this
    exact h.trans (Real.rpow_le_rpow_of_exponent_le (by norm_num) h0)
  · have h : (10 : ℝ) ^ (13 / 10 : ℝ) ≤ 19.98 := by
      have e : ((10 : ℝ) ^ (13 / 10 : ℝ)) ^ (10 : ℕ) = 10 ^ (13 : ℕ) := by
        rw [← Real.rpow_natCast, ← Real.rpow_mul (by norm_num), ← Real.rpow_natCast]; norm_num
      by_contra hc
      push Not at hc
      have := pow_lt_pow_left₀ hc (by norm_num) (show (10 : ℕ) ≠ 0 by norm_num)
      rw [e] at this; norm_num at this
    exact (Real.rpow_le_rpow_of_exponent_le (by norm_num) h1).trans h

theorem singlebin_range [Libm] {sum : List F32 → F32} {E : Env F32} {U : List ℝ} {tab : F32 → F32 → List F32}
    (P : PopPlatform sum E U tab) {p : NT ℝ} (hp : LooseParams p) (kind : Kind) {lgt0 : ℝ} (hg0 : 0.02 ≤ lgt0)
    (hg1 : lgt0 ≤ 1.29) {b : PopLoss.Bin} (hb : GoodBin b) (key : Key) :
    ∃ r, (loss_mah_moments_singlebin_tab sum (U.map num) tab E kind (p.mapv num) b key lgt0).val? = some (num r) ∧
      Rep r ∧ 0 ≤ r ∧ r ≤ 2 ^ (43 : ℤ) := by
  obtain ⟨l0, l1⟩ := hb.lgm
  obtain ⟨o0, o1⟩ := hb.t_obs
  norm_num at l0 l1 o0 o1 hg0 hg1
  obtain ⟨el, hl⟩ := lit_near (a := b.lgm_obs) (abs_le.2 ⟨by linarith, by linarith⟩)
  obtain ⟨eo, ho⟩ := lit_near (a := b.t_obs) (abs_le.2 ⟨by linarith, by linarith⟩)
  obtain ⟨eg, hg⟩ := lit_near (a := lgt0) (abs_le.2 ⟨by linarith, by linarith⟩)
  rw [abs_le] at hl ho hg
  have ht : b.tarr.map (lit : ℝ → F32) = (b.tarr.map round).map num := by
    rw [List.map_map]
    refine List.map_congr_left fun t h => ?_
    obtain ⟨t0, t1⟩ := hb.times t h
    norm_num at t0 t1
    exact (lit_near (abs_le.2 ⟨by linarith, by linarith⟩)).1
  obtain ⟨c0, c1⟩ := today_range (g := round lgt0) (by linarith) (by linarith)
  obtain ⟨H, -, -, M, m1, m2, -, m4⟩ := moments_core P hp kind (rep_round b.lgm_obs) (rep_round b.t_obs)
    (by norm_num; linarith) (by norm_num; linarith) (by norm_num; linarith) (by linarith) c0 c1
    (ts := b.tarr.map round) (by
      intro t' h'
      obtain ⟨t, h, rfl⟩ := List.mem_map.1 h'
      obtain ⟨t0, t1⟩ := hb.times t h
      norm_num at t0 t1
      have := abs_le.1 (lit_near (a := t) (abs_le.2 ⟨by linarith, by linarith⟩)).2
      exact ⟨by norm_num; linarith, by linarith⟩) key
  rw [List.length_map] at m2
  have n1 : b.target_mean_log_mah ≠ [] := by
    rw [← List.length_pos_iff, hb.len_mean]; exact List.length_pos_iff.2 hb.ne
  have n2 : b.target_std_log_mah ≠ [] := by
    rw [← List.length_pos_iff, hb.len_std]; exact List.length_pos_iff.2 hb.ne
  obtain ⟨r, r1, r2, r3, r4⟩ := pop_mse_range P.sums (xs := M.map Prod.fst) (by rw [List.length_map, m2, hb.len_mean]) n1
    (by rw [hb.len_mean]; exact hb.len) (by
      intro x hx
      obtain ⟨q, hq, rfl⟩ := List.mem_map.1 hx
      exact (m4 q hq).1) hb.mean
  obtain ⟨s, s1, s2, s3, s4⟩ := pop_mse_range P.sums (xs := M.map Prod.snd) (by rw [List.length_map, m2, hb.len_std]) n2
    (by rw [hb.len_std]; exact hb.len) (by
      intro x hx
      obtain ⟨q, hq, rfl⟩ := List.mem_map.1 hx
      exact (m4 q hq).2) hb.std
  have hle : r + s ≤ 2 ^ (43 : ℤ) := by norm_num at r4 s4 ⊢; linarith
  refine ⟨round (r + s), ?_, rep_round _, round_nonneg (add_nonneg r3 s3), round_le hle (rep_zpow (by norm_num))⟩
  unfold loss_mah_moments_singlebin_tab
  rw [ht, el, eo, eg]
  refine bindVal m1 ?_
  have e1 : List.map (fun p : F32 × F32 => p.1) (M.map fun q => (num q.1, num q.2)) = (M.map Prod.fst).map num := by
    simp only [List.map_map]; rfl
  have e2 : List.map (fun p : F32 × F32 => p.2) (M.map fun q => (num q.1, num q.2)) = (M.map Prod.snd).map num := by
    simp only [List.map_map]; rfl
  rw [e1, e2, r1, s1]
  refine bindVal (b := num r) rfl (bindVal (b := num s) rfl ?_)
  change some (num r + num s) = _
  rw [show num r + num s = num (round (r + s)) from add_fin (by rw [abs_of_nonneg (add_nonneg r3 s3)]; exact hle.trans (by norm_num))]

theorem multibin_range [Libm] {sum : List F32 → F32} {E : Env F32} {U : List ℝ} {tab : F32 → F32 → List F32}
    (P : PopPlatform sum E U tab) {p : NT ℝ} (hp : LooseParams p) (kind : Kind) {lgt0 : ℝ} (hg0 : 0.02 ≤ lgt0)
    (hg1 : lgt0 ≤ 1.29) {bins : List PopLoss.Bin} (hne : bins ≠ []) (hle : bins.length ≤ 2 ^ 24)
    (hb : ∀ b ∈ bins, GoodBin b) (key : Key) :
    ∃ r, (loss_mah_moments_multibin_tab sum (U.map num) tab E kind (p.mapv num) bins key lgt0).val? = some (num r) ∧
      Rep r ∧ 0 ≤ r ∧ r ≤ 2 ^ (43 : ℤ) := by
  have all : ∀ (bs : List PopLoss.Bin) (ks : List Key), bs.length = ks.length → (∀ b ∈ bs, GoodBin b) → ∃ R : List ℝ,
      (RandM.all (List.zipWith (fun bin k => loss_mah_moments_singlebin_tab sum (U.map num) tab E kind (p.mapv num) bin k lgt0)
        bs ks)).val? = some (R.map num) ∧ R.length = bs.length ∧ ∀ r ∈ R, Rep r ∧ 0 ≤ r ∧ r ≤ 2 ^ (43 : ℤ) := by
    intro bs
    induction bs with
    | nil => intro ks _ _; exact ⟨[], by simp [RandM.all, RandM.pure, RandM.val?], rfl, by simp⟩
    | cons b bs ih =>
      intro ks hk hg
      cases ks with
      | nil => simp at hk
      | cons k ks =>
        obtain ⟨r, r1, r2⟩ := singlebin_range P hp kind hg0 hg1 (hg b (by simp)) k
        obtain ⟨R, R1, R2, R3⟩ := ih ks (by simpa using hk) fun b' h => hg b' (by simp [h])
        refine ⟨r :: R, ?_, by simp [R2], ?_⟩
        · rw [List.zipWith_cons_cons, RandM.all]
          exact bindVal r1 (bindVal R1 rfl)
        · intro x hx
          rcases List.mem_cons.1 hx with rfl | hx
          · exact r2
          · exact R3 x hx
  obtain ⟨R, R1, R2, R3⟩ := all bins (key.split bins.length) (by simp [Key.split]) hb
  have hnpos : (0 : ℝ) < bins.length := by exact_mod_cast List.length_pos_iff.2 hne
  obtain ⟨S, S1, -, S2, S3, -⟩ := sum_nonneg_range (P.sums (R.map num)) 43 (by norm_num) (by norm_num)
    (by rw [List.length_map, R2]; exact hle) (by
      intro x hx
      obtain ⟨r, hr, rfl⟩ := List.mem_map.1 hx
      exact ⟨r, rfl, R3 r hr⟩)
  rw [List.length_map, R2] at S3
  have hq0 : 0 ≤ S / bins.length := div_nonneg S2 hnpos.le
  have hq1 : S / bins.length ≤ 2 ^ (43 : ℤ) := by rw [div_le_iff₀ hnpos, mul_comm]; exact S3
  refine ⟨round (S / bins.length), ?_, rep_round _, round_nonneg hq0, round_le hq1 (rep_zpow (by norm_num))⟩
  refine bindVal R1 ?_
  change some _ = some _
  rw [S1, List.length_map, R2, lit_nat hle, div_fin hnpos.ne' (by rw [abs_of_nonneg hq0]; exact hq1.trans (by norm_num))]

/-- C130. The loss of a set of mass bins, of centrals or of satellites, is a finite number that is not negative. -/
theorem C130_loss_finite [Libm] (sum : List F32 → F32) (E : Env F32) (U : List ℝ) (tab : F32 → F32 → List F32)
    (P : PopPlatform sum E U tab) (p : NT ℝ) (hp : LooseParams p) (kind : Kind) (lgt0 : ℝ) (hg0 : 0.02 ≤ lgt0)
    (hg1 : lgt0 ≤ 1.29) (bins : List PopLoss.Bin) (hne : bins ≠ []) (hle : bins.length ≤ 2 ^ 24)
    (hb : ∀ b ∈ bins, GoodBin b) (key : Key) :
    ∃ y : ℝ, 0 ≤ y ∧
      (loss_mah_moments_multibin_tab sum (U.map num) tab E kind (p.mapv num) bins key lgt0).val? = some (num y) := by
  obtain ⟨r, h1, -, h2, -⟩ := multibin_range P hp kind hg0 hg1 hne hle hb key
  exact ⟨r, h2, h1⟩

theorem params_of_u_f32 [Libm] (hs : Libm.Sane) {u : NT F32} (hu : u.map Prod.fst = FIELDS.map ("u_" ++ ·))
    (hn : ∀ kv ∈ u, kv.2.v ≠ nan) : ∃ p : NT ℝ, params_of_u_params u = .ok (p.mapv num) ∧ LooseParams p := by
  obtain ⟨p, h1, h2, h3⟩ := C127_from_unbounded hs u hu hn
  refine ⟨p, ?_, h2, h3⟩
  obtain ⟨base, hb1, hb2⟩ := default_u_ok
  have hu1 : u.fields = FULL.upnames := by rw [full_upnames]; exact hu
  have hb3 : (base.mapv (lit : ℝ → F32)).fields = FULL.upnames := by rw [← hb2]; simp [NT.fields, NT.mapv]
  unfold params_of_u_params
  rw [hb1]
  change ((base.mapv lit).replace u >>= _) = _
  have h := NT.replace_block (pre := []) (mid := base.mapv (lit : ℝ → F32)) (post := []) (x := u) (by rw [hb3, hu1]) (by
    simp only [NT.fields_nil, List.nil_append, List.append_nil]
    rw [hb3]; exact NAMES_U_nodup)
  rw [show (base.mapv (lit : ℝ → F32)).replace u = .ok u by simpa using h]
  exact h1

/-- C130. So the loss that the fit of the centrals minimises is finite and not negative for every unbounded parameters without
NaN, however large. -/
theorem C130_cens_loss_of_any_step [Libm] (sum : List F32 → F32) (E : Env F32) (U : List ℝ) (tab : F32 → F32 → List F32)
    (P : PopPlatform sum E U tab) (u : NT F32) (hu : u.map Prod.fst = FIELDS.map ("u_" ++ ·)) (hn : ∀ kv ∈ u, kv.2.v ≠ nan)
    (lgt0 : ℝ) (hg0 : 0.02 ≤ lgt0) (hg1 : lgt0 ≤ 1.29) (bins : List PopLoss.Bin) (hne : bins ≠ [])
    (hle : bins.length ≤ 2 ^ 24) (hb : ∀ b ∈ bins, GoodBin b) (key : Key) :
    ∃ y : ℝ, 0 ≤ y ∧
      (loss_mah_moments_multibin_u_params_tab sum (U.map num) tab E u bins key lgt0).val? = some (num y) := by
  obtain ⟨p, h1, h2⟩ := params_of_u_f32 P.sane hu hn
  obtain ⟨r, r1, -, r2, -⟩ := multibin_range P h2 .cens hg0 hg1 hne hle hb key
  refine ⟨r, r2, ?_⟩
  unfold loss_mah_moments_multibin_u_params_tab
  rw [h1]
  exact bindVal (b := p.mapv num) rfl r1

/-- C130. And so is the joint loss of centrals and satellites. -/
theorem C130_censat_loss_of_any_step [Libm] (sum : List F32 → F32) (E : Env F32) (U : List ℝ)
    (tab : F32 → F32 → List F32) (P : PopPlatform sum E U tab) (u : NT F32) (hu : u.map Prod.fst = FIELDS.map ("u_" ++ ·))
    (hn : ∀ kv ∈ u, kv.2.v ≠ nan) (lgt0 : ℝ) (hg0 : 0.02 ≤ lgt0) (hg1 : lgt0 ≤ 1.29) (bins bins' : List PopLoss.Bin)
    (hne : bins ≠ []) (hne' : bins' ≠ []) (hle : bins.length ≤ 2 ^ 24) (hle' : bins'.length ≤ 2 ^ 24)
    (hb : ∀ b ∈ bins, GoodBin b) (hb' : ∀ b ∈ bins', GoodBin b) (key : Key) :
    ∃ y : ℝ, 0 ≤ y ∧
      (loss_mah_moments_multibin_censat_u_params_tab sum (U.map num) tab E u bins bins' key lgt0).val? = some (num y) := by
  obtain ⟨p, h1, h2⟩ := params_of_u_f32 P.sane hu hn
  obtain ⟨r, r1, -, r2, r3⟩ := multibin_range P h2 .cens hg0 hg1 hne hle hb (Key.child key 2 0)
  obtain ⟨s, s1, -, s2, s3⟩ := multibin_range P h2 .sats hg0 hg1 hne' hle' hb' (Key.child key 2 1)
  have hle2 : r + s ≤ 2 ^ (44 : ℤ) := by norm_num at r3 s3 ⊢; linarith
  refine ⟨round (r + s), round_nonneg (add_nonneg r2 s2), ?_⟩
  unfold loss_mah_moments_multibin_censat_u_params_tab
  rw [h1]
  refine bindVal (b := p.mapv num) rfl ?_
  unfold loss_mah_moments_multibin_censat_tab
  have hrep : (DEFAULT_DIFFMAHPOP_PARAMS.mapv (lit : ℝ → F32)).replace (p.mapv num) = .ok (p.mapv num) := by
    have hf : (p.mapv num).fields = FIELDS := by rw [← h2.1]; simp [NT.fields, NT.mapv]
    have hf' : (DEFAULT_DIFFMAHPOP_PARAMS.mapv (lit : ℝ → F32)).fields = FIELDS := by
      simp [NT.fields, NT.mapv, FIELDS]
    have h := NT.replace_block (pre := []) (mid := DEFAULT_DIFFMAHPOP_PARAMS.mapv (lit : ℝ → F32)) (post := [])
      (x := p.mapv num) (by rw [hf, hf']) (by
        simp only [NT.fields_nil, List.nil_append, List.append_nil]
        rw [hf']; exact C50_no_collision.1)
    simpa using h
  rw [hrep]
  refine bindVal (b := p.mapv num) rfl (bindVal r1 (bindVal s1 ?_))
  change some (num r + num s) = _
  rw [show num r + num s = num (round (r + s)) from add_fin (by rw [abs_of_nonneg (add_nonneg r2 s2)]; exact hle2.trans (by norm_num))]

/-! ## The hypotheses can be met -/

example : ∃ (L : Libm) (sum : List F32 → F32) (E : Env F32) (U : List ℝ) (tab : F32 → F32 → List F32),
    @PopPlatform L sum E U tab ∧ (∃ p, LooseParams p) ∧ (∃ b, GoodBin b ∧ 2 ≤ b.tarr.length) ∧
    (∃ u : NT F32, u.map Prod.fst = FIELDS.map ("u_" ++ ·) ∧ ∀ kv ∈ u, kv.2.v ≠ nan) ∧
    ∃ lgm t_obs lgt0 : ℝ, Rep lgm ∧ Rep t_obs ∧ 4.5 ≤ lgm ∧ lgm ≤ 13.4 ∧ 0.51 ≤ t_obs ∧ t_obs ≤ 15 ∧
      1.03 ≤ (10 : ℝ) ^ lgt0 ∧ (10 : ℝ) ^ lgt0 ≤ 19.98 := by
  obtain ⟨p, hp, hb⟩ := exists_allInBounds
  rw [allInBounds_iff] at hb
  let := ideal
  refine ⟨ideal, PopGrad.jsum, ⟨fun _ => 1 / 2, fun k m c => multivariate_normal (fun i => 1 - 3 * (i : ℝ)) m c, 2 ^ (-46 : ℤ),
    fun x _ _ _ _ => jmin (jmax x (num 0)) (num 1)⟩, _, _, ⟨⟨ideal_sane, ideal_accurateRate, ideal_accurateInverse,
    ⟨fun _ => by norm_num, by norm_num, fun x _ _ _ _ _ => ⟨min (max x 0) 1, rfl, ?_⟩⟩, tablesOk_linspace,
    ⟨fun _ i => 1 - 3 * (i : ℝ), ?_, fun k m c => rfl⟩⟩, ?_⟩, ⟨p, hp, fun b hm => ?_⟩, ⟨⟨[1, 13], 12, 13.5, [11, 12], [0.5, 0]⟩,
    ⟨by simp, by simp, rfl, rfl, ?_, by norm_num, by norm_num, ?_, ?_⟩, by simp⟩,
    ⟨FIELDS.map fun n => ("u_" ++ n, num 7), by simp [Function.comp_def], ?_⟩,
    ⟨12, 13.5, 1, ⟨12, 0, by norm_num, by norm_num, by norm_num⟩, ⟨27, -1, by norm_num, by norm_num, by norm_num⟩, by norm_num,
      by norm_num, by norm_num, by norm_num, by norm_num, by norm_num⟩⟩
  · have h0 : (0 : ℝ) ≤ min (max x 0) 1 := le_min (le_max_right _ _) (by norm_num)
    have h1 : min (max x 0) 1 ≤ (1 : ℝ) := min_le_right _ _
    rw [abs_of_nonneg h0]; linarith
  · intro _ i; fin_cases i <;> norm_num
  · intro l
    exact sumOf_foldl l
  · obtain ⟨v, hv, h1, h2⟩ := hb b hm
    have := two_zpow_pos (-20)
    exact ⟨v, hv, by linarith, by linarith⟩
  · intro t ht; simp at ht; rcases ht with rfl | rfl <;> norm_num
  · intro t ht; simp at ht; rcases ht with rfl | rfl <;> norm_num
  · intro t ht; simp at ht; rcases ht with rfl | rfl <;> norm_num
  · intro kv hkv
    obtain ⟨n, -, rfl⟩ := List.mem_map.1 hkv
    exact fun h => by cases h

end Diffmah.F32

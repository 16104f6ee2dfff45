import Verif.Model.Float32Catalog
import Verif.Props.Float32Moments
import Verif.Lemmas.PopGradReal

/-!
# C131: Monte Carlo catalogues in single precision

What `mc_cenpop` and `mc_satpop` return, taken together: every halo of a catalogue has finite parameters within the bounds, is
either the early or the late one of the two that were drawn for it, and its mass history and accretion rates are close to the
exact ones of its parameters. `mc_diffmah_cenpop` and `mc_diffmah_satpop` likewise, also with given peak times.
-/

namespace Diffmah.F32

set_option maxRecDepth 10000

open JOps XR JMinMax JFlow Pop TPeak PopParams MC PopGrad

/-! ## Specification -/

/-- Halo `i` of the arrays has the parameters `h`. -/
structure RowIs {α : Type} (a : PopArrays α) (i : ℕ) (h : MahParams α) : Prop where
  logm0 : a.logm0[i]? = some h.logm0
  logtc : a.logtc[i]? = some h.logtc
  early_index : a.early_index[i]? = some h.early_index
  late_index : a.late_index[i]? = some h.late_index
  t_peak : a.t_peak[i]? = some h.t_peak

/-- There are `n` haloes. -/
structure HasLength {α : Type} (a : PopArrays α) (n : ℕ) : Prop where
  logm0 : a.logm0.length = n
  logtc : a.logtc.length = n
  early_index : a.early_index.length = n
  late_index : a.late_index.length = n
  t_peak : a.t_peak.length = n

/-- Parameters within the bounds, up to rounding at their ends, and late index at most the early one. -/
structure ValidHalo (h : MahParams ℝ) : Prop where
  logm0 : 0 ≤ h.logm0 ∧ h.logm0 ≤ 17
  logtc : -1 ≤ h.logtc ∧ h.logtc ≤ 1
  late_index : 0.1 < h.late_index ∧ h.late_index ≤ 5
  early_index : h.late_index ≤ h.early_index ∧ h.early_index ≤ 10
  t_peak : 0.05 < h.t_peak ∧ h.t_peak ≤ 20

/-- Ordinary observed masses and times -/
def GoodObs (lgm t_obs : ℝ) : Prop := (4.5 ≤ lgm ∧ lgm ≤ 13.4) ∧ 0.51 ≤ t_obs ∧ t_obs ≤ 15

/-! ## Lemmas -/

theorem ValidHalo.box {h : MahParams ℝ} (v : ValidHalo h) : ClosedBox h :=
  ⟨v.logm0.1, v.logm0.2, v.logtc.1, v.logtc.2, v.late_index.1.le, v.late_index.2, v.late_index.1.le.trans v.early_index.1,
    v.early_index.2, v.t_peak.1.le, v.t_peak.2⟩

theorem whereArr_get {β : Type} {mask : List Bool} {x y : List β} {i : ℕ} {m : Bool} {a b : β} (hm : mask[i]? = some m)
    (hx : x[i]? = some a) (hy : y[i]? = some b) : (whereArr mask x y)[i]? = some (if m then a else b) := by
  unfold whereArr
  rw [List.getElem?_zipWith, hm, List.getElem?_zip_eq_some (z := (a, b)).2 ⟨hx, hy⟩]

theorem whereArr_length {β : Type} {mask : List Bool} {x y : List β} {n : ℕ} (hm : mask.length = n)
    (hx : x.length = n) (hy : y.length = n) : (whereArr mask x y).length = n := by
  unfold whereArr
  simp [hm, hx, hy]

theorem stack_row {α : Type} {rows : List (MahParams α)} {i : ℕ} {h : MahParams α} (e : rows[i]? = some h) :
    RowIs (PopArrays.stack rows) i h := by
  constructor <;> simp [PopArrays.stack, e]

theorem select_row {α : Type} {a b : PopArrays α} {mask : List Bool} {i : ℕ} {m : Bool} {h k : MahParams α}
    (hm : mask[i]? = some m) (ha : RowIs a i h) (hb : RowIs b i k) : RowIs (a.select b mask) i (if m then h else k) := by
  cases m
  · exact ⟨whereArr_get hm ha.1 hb.1, whereArr_get hm ha.2 hb.2, whereArr_get hm ha.3 hb.3, whereArr_get hm ha.4 hb.4,
      whereArr_get hm ha.5 hb.5⟩
  · exact ⟨whereArr_get hm ha.1 hb.1, whereArr_get hm ha.2 hb.2, whereArr_get hm ha.3 hb.3, whereArr_get hm ha.4 hb.4,
      whereArr_get hm ha.5 hb.5⟩

theorem stack_length {α : Type} {rows : List (MahParams α)} {n : ℕ} (e : rows.length = n) :
    HasLength (PopArrays.stack rows) n := by
  constructor <;> simp [PopArrays.stack, e]

theorem select_length {α : Type} {a b : PopArrays α} {mask : List Bool} {n : ℕ} (hm : mask.length = n)
    (ha : HasLength a n) (hb : HasLength b n) : HasLength (a.select b mask) n :=
  ⟨whereArr_length hm ha.1 hb.1, whereArr_length hm ha.2 hb.2, whereArr_length hm ha.3 hb.3, whereArr_length hm ha.4 hb.4,
    whereArr_length hm ha.5 hb.5⟩

open Classical in
theorem belowOf_get [Libm] {u f : List F32} {i : ℕ} {x y : F32} (hu : u[i]? = some x) (hf : f[i]? = some y) :
    (belowOf u f)[i]? = some (decide (XR.lt x.v y.v)) := by
  unfold belowOf
  rw [List.getElem?_zipWith, hu, hf]
  rfl

theorem exists_of_draws {β : Type} {ι : Type} (l : List ι) (f : ι → RandM β) (v : ι → β) (h : ∀ i ∈ l, (f i).val? = some (v i)) :
    (RandM.all (l.map f)).val? = some (l.map v) := by
  rw [RandM.all_of l f v (fun i => (f i).used) fun i hi => val_ok (h i hi)]
  rfl

/-- One halo, drawn with or without given peak time -/
theorem draw_valid [Libm] {E : Env F32} {U : List ℝ} {tab : F32 → F32 → List F32}
    (P : McPlatform E U tab) {p : NT ℝ} (hp : LooseParams p) (kind : Kind) {lgm t_obs lgt0 : ℝ} (ho : GoodObs lgm t_obs)
    (hl0 : 1.03 ≤ (10 : ℝ) ^ lgt0) (hl1 : (10 : ℝ) ^ lgt0 ≤ 19.98) (tp : Option ℝ) (htp : ∀ x ∈ tp, 0.051 ≤ x ∧ x ≤ 19.99)
    (key : Key) :
    ∃ (e l : MahParams ℝ) (f : ℝ),
      (mc_diffmah_params_single_opt (U.map num) tab E kind (p.mapv num) (num lgm) (num t_obs) key (num lgt0)
        (tp.map num)).val? = some (e.map num, l.map num, num f) ∧ ValidHalo e ∧ ValidHalo l ∧
      (∀ x ∈ tp, |e.t_peak - x| ≤ 2 ^ (-15 : ℤ) ∧ |l.t_peak - x| ≤ 2 ^ (-15 : ℤ)) ∧ 0.249 < f ∧ f < 0.751 := by
  obtain ⟨z, hz, hmvn⟩ := P.normal
  obtain ⟨⟨m0, m1⟩, t0, t1⟩ := ho
  have valid : ∀ {h : MahParams ℝ} {x : ℝ}, ((0 ≤ h.logm0 ∧ h.logm0 ≤ 17) ∧ (-1 ≤ h.logtc ∧ h.logtc ≤ 1) ∧
      (0.1 < h.late_index ∧ h.late_index ≤ 5) ∧ (h.late_index ≤ h.early_index ∧ h.early_index ≤ 10) ∧
      (0.05 < h.t_peak ∧ h.t_peak ≤ 20) ∧ |h.t_peak - x| ≤ 2 ^ (-15 : ℤ)) → ValidHalo h :=
    fun v => ⟨v.1, v.2.1, v.2.2.1, v.2.2.2.1, v.2.2.2.2.1⟩
  cases tp with
  | none =>
    obtain ⟨e, l, f, x, h1, -, h2, h3⟩ := C129_monte_carlo P.sane P.rate P.inverse p hp.1 hp.2 E P.env U tab P.tables z hz hmvn
      kind lgm t_obs lgt0 m0 m1 t0 t1 hl0 hl1 key
    exact ⟨e, l, f, h1, valid (h2 e (by simp)), valid (h2 l (by simp)), by simp, h3⟩
  | some x =>
    obtain ⟨x0, x1⟩ := htp x rfl
    obtain ⟨e, l, f, h1, h2, h3⟩ := C128_monte_carlo P.sane P.inverse p hp.1 hp.2 kind lgm t_obs x m0 m1
      (by norm_num at t0; linarith) t1 x0 x1 E z hz hmvn key
    refine ⟨e, l, f, h1, valid (h2 e (by simp)), valid (h2 l (by simp)), ?_, h3⟩
    intro y hy
    cases hy
    exact ⟨(h2 e (by simp)).2.2.2.2.2, (h2 l (by simp)).2.2.2.2.2⟩

theorem getD_map_num [Libm] {xs : List ℝ} {i : ℕ} {x : ℝ} (h : xs[i]? = some x) : (xs.map num).getD i (lit 0) = num x := by
  rw [List.getD_eq_getElem?_getD, List.getElem?_map, h]; rfl

theorem getElem?_range_map {β : Type} {n i : ℕ} (h : i < n) (v : ℕ → β) : ((List.range n).map v)[i]? = some (v i) := by
  rw [List.getElem?_map, List.getElem?_range h]; rfl

/-! ## Histories and rates -/

/-- C131. Every catalogue that `mc_cenpop` or `mc_satpop` makes in single precision: no exception, one row per halo; halo `i` is
the early halo drawn for its key if its uniform number is below its early fraction, and the late one otherwise; its parameters
are valid; and at each time its log mass is within `2^-15` dex, its accretion rate not negative and within 1% (0.25% up to
today), of the exact ones. -/
theorem C131_catalogue [Libm] (E : Env F32) (U : List ℝ) (tab : F32 → F32 → List F32) (P : McPlatform E U tab)
    (uniforms : Key → ℕ → List F32) (hu : ∀ k n, (uniforms k n).length = n) (p : NT ℝ) (hp : LooseParams p) (kind : Kind)
    (ts lgm t_obs : List ℝ) (hlen : t_obs.length = lgm.length)
    (hobs : ∀ (i : ℕ) m t, lgm[i]? = some m → t_obs[i]? = some t → GoodObs m t) (hts : ∀ t ∈ ts, 0.05 ≤ t ∧ t ≤ 20)
    (lgt0 : ℝ) (hl0 : 9 ≤ (10 : ℝ) ^ lgt0) (hl1 : (10 : ℝ) ^ lgt0 ≤ 19.98) (key : Key) :
    ∃ r : HaloHistOf F32,
      (mc_pop_tab (U.map num) tab E uniforms kind (p.mapv num) (ts.map num) (lgm.map num) (t_obs.map num) key
        (num lgt0)).val? = some r ∧
      HasLength r.mah_params lgm.length ∧ r.dmhdt.length = lgm.length ∧ r.log_mah.length = lgm.length ∧
      ∀ (i : ℕ) m t, lgm[i]? = some m → t_obs[i]? = some t → ∃ (e l h : MahParams ℝ) (f : ℝ) (u : F32),
        (mc_diffmah_params_single_tab (U.map num) tab E kind (p.mapv num) (num m) (num t)
          (Key.child key (lgm.length + 1) i) (num lgt0)).val? = some (e.map num, l.map num, num f) ∧
        (uniforms (Key.child key (lgm.length + 1) lgm.length) lgm.length)[i]? = some u ∧
        (XR.lt u.v (fin f) → h = e) ∧ (¬ XR.lt u.v (fin f) → h = l) ∧
        ValidHalo h ∧ RowIs r.mah_params i (h.map num) ∧
        ∃ rates masses : List F32, r.dmhdt[i]? = some rates ∧ r.log_mah[i]? = some masses ∧ rates.length = ts.length ∧
          masses.length = ts.length ∧ ∀ (j : ℕ) s, ts[j]? = some s → ∃ x y : ℝ,
            masses[j]? = some (num x) ∧ |x - logmh_at_t_obs h s lgt0| ≤ 2 ^ (-15 : ℤ) ∧
            rates[j]? = some (num y) ∧ 0 ≤ y ∧
            |y - dmhdt_kern_scalar h s lgt0| ≤ dmhdt_kern_scalar h s lgt0 / 100 + 2 ^ (-149 : ℤ) ∧
            (s ≤ 10 ^ lgt0 → |y - dmhdt_kern_scalar h s lgt0| ≤ dmhdt_kern_scalar h s lgt0 / 400 + 2 ^ (-149 : ℤ)) := by
  classical
  have hl0' : 1.03 ≤ (10 : ℝ) ^ lgt0 := by norm_num; linarith
  obtain ⟨g0, g1⟩ := lgt0_range hl0' hl1
  have hdraw : ∀ i, ∃ (q : MahParams ℝ × MahParams ℝ × ℝ), ∀ m t, lgm[i]? = some m → t_obs[i]? = some t →
      (mc_diffmah_params_single_tab (U.map num) tab E kind (p.mapv num) (num m) (num t)
        (Key.child key (lgm.length + 1) i) (num lgt0)).val? = some (q.1.map num, q.2.1.map num, num q.2.2) ∧
      ValidHalo q.1 ∧ ValidHalo q.2.1 := by
    intro i
    by_cases hi : i < lgm.length
    · obtain ⟨e, l, f, h1, h2, h3, -⟩ := draw_valid P hp kind
        (hobs i lgm[i] (t_obs[i]'(by rw [hlen]; exact hi)) (List.getElem?_eq_getElem _) (List.getElem?_eq_getElem _))
        hl0' hl1 none (by simp) (Key.child key (lgm.length + 1) i)
      refine ⟨(e, l, f), fun m t hm ht => ?_⟩
      rw [List.getElem?_eq_getElem hi] at hm
      rw [List.getElem?_eq_getElem (by rw [hlen]; exact hi)] at ht
      cases hm
      cases ht
      exact ⟨h1, h2, h3⟩
    · refine ⟨⟨⟨0, 0, 0, 0, 0⟩, ⟨0, 0, 0, 0, 0⟩, 0⟩, fun m t hm => ?_⟩
      rw [List.getElem?_eq_none (by omega)] at hm
      cases hm
  choose q hq using hdraw
  set n := lgm.length with hn
  set S : ℕ → SingleHistoriesOf F32 := fun i =>
    ⟨(q i).1.map num, (mah_singlehalo_rev ((q i).1.map num) (ts.map num) (num lgt0)).1,
      (mah_singlehalo_rev ((q i).1.map num) (ts.map num) (num lgt0)).2, (q i).2.1.map num,
      (mah_singlehalo_rev ((q i).2.1.map num) (ts.map num) (num lgt0)).1,
      (mah_singlehalo_rev ((q i).2.1.map num) (ts.map num) (num lgt0)).2, num (q i).2.2⟩ with hS
  have hkeys : ∀ i, i < n → ((key.split (n + 1)).dropLast).getD i key = Key.child key (n + 1) i := by
    intro i hi
    rw [List.getD_eq_getElem?_getD, List.getElem?_dropLast, if_pos (by simp [Key.split]; omega)]
    simp [Key.split, List.getElem?_range (show i < n + 1 by omega)]
  have hkey : (key.split (n + 1)).getD n key = Key.child key (n + 1) n := by
    rw [List.getD_eq_getElem?_getD]
    simp [Key.split]
  have hres : (RandM.all ((List.range n).map fun i => mc_diffmah_single_hist (U.map num) tab E kind (p.mapv num) (ts.map num)
      ((lgm.map num).getD i (lit 0)) ((t_obs.map num).getD i (lit 0)) ((key.split (n + 1)).dropLast.getD i key)
      (num lgt0))).val? = some ((List.range n).map S) := by
    refine exists_of_draws _ _ _ fun i hi => ?_
    have hi' : i < n := List.mem_range.1 hi
    have hm : lgm[i]? = some lgm[i] := List.getElem?_eq_getElem _
    have ht : t_obs[i]? = some (t_obs[i]'(by rw [hlen]; exact hi')) := List.getElem?_eq_getElem _
    rw [getD_map_num hm, getD_map_num ht, hkeys i hi']
    exact bindVal (hq i _ _ hm ht).1 rfl
  set W := uniforms (Key.child key (n + 1) n) n with hW
  have hWl : W.length = n := hu _ _
  refine ⟨⟨(PopArrays.stack (((List.range n).map S).map (·.params_early))).select
      (PopArrays.stack (((List.range n).map S).map (·.params_late))) (belowOf W (((List.range n).map S).map (·.frac_early))),
    whereArr (belowOf W (((List.range n).map S).map (·.frac_early))) (((List.range n).map S).map (·.dmhdt_early))
      (((List.range n).map S).map (·.dmhdt_late)),
    whereArr (belowOf W (((List.range n).map S).map (·.frac_early))) (((List.range n).map S).map (·.log_mah_early))
      (((List.range n).map S).map (·.log_mah_late))⟩, ?_, ?_, ?_, ?_, ?_⟩
  · unfold mc_pop_tab
    have hc : (t_obs.map num).length = (lgm.map num).length := by simpa using hlen
    refine (congrArg RandM.val? (if_pos hc)).trans ?_
    simp only [List.length_map]
    refine bindVal hres ?_
    rw [← hn, hkey]
    exact bindVal (b := W) rfl rfl
  · have hb : (belowOf W (((List.range n).map S).map (·.frac_early))).length = n := by simp [belowOf, hWl]
    exact select_length hb (stack_length (by simp)) (stack_length (by simp))
  · exact whereArr_length (by simp [belowOf, hWl]) (by simp) (by simp)
  · exact whereArr_length (by simp [belowOf, hWl]) (by simp) (by simp)
  · intro i m t hm ht
    have hi : i < n := (List.getElem?_eq_some_iff.1 hm).1
    obtain ⟨h1, h2, h3⟩ := hq i m t hm ht
    have hWi : W[i]? = some (W[i]'(by rw [hWl]; exact hi)) := List.getElem?_eq_getElem _
    generalize W[i]'(by rw [hWl]; exact hi) = u at hWi
    have hb : (belowOf W (((List.range n).map S).map (·.frac_early)))[i]? = some (decide (XR.lt u.v (fin (q i).2.2))) := by
      refine belowOf_get hWi ?_
      rw [List.map_map]
      exact getElem?_range_map hi _
    have hrow := select_row hb (stack_row (rows := ((List.range n).map S).map (·.params_early)) (i := i) (h := (q i).1.map num) (by
        rw [List.map_map]; exact getElem?_range_map hi _))
      (stack_row (rows := ((List.range n).map S).map (·.params_late)) (i := i) (h := (q i).2.1.map num) (by
        rw [List.map_map]; exact getElem?_range_map hi _))
    have hrate := whereArr_get hb (x := ((List.range n).map S).map (·.dmhdt_early))
      (y := ((List.range n).map S).map (·.dmhdt_late)) (a := (S i).dmhdt_early) (b := (S i).dmhdt_late)
      (by rw [List.map_map]; exact getElem?_range_map hi _) (by rw [List.map_map]; exact getElem?_range_map hi _)
    have hmass := whereArr_get hb (x := ((List.range n).map S).map (·.log_mah_early))
      (y := ((List.range n).map S).map (·.log_mah_late)) (a := (S i).log_mah_early) (b := (S i).log_mah_late)
      (by rw [List.map_map]; exact getElem?_range_map hi _) (by rw [List.map_map]; exact getElem?_range_map hi _)
    have hist : ∀ h : MahParams ℝ, ValidHalo h → ∀ (j : ℕ) s, ts[j]? = some s → ∃ x y : ℝ,
        (mah_singlehalo_rev (h.map num) (ts.map num) (num lgt0)).2[j]? = some (num x) ∧
        |x - logmh_at_t_obs h s lgt0| ≤ 2 ^ (-15 : ℤ) ∧
        (mah_singlehalo_rev (h.map num) (ts.map num) (num lgt0)).1[j]? = some (num y) ∧ 0 ≤ y ∧
        |y - dmhdt_kern_scalar h s lgt0| ≤ dmhdt_kern_scalar h s lgt0 / 100 + 2 ^ (-149 : ℤ) ∧
        (s ≤ 10 ^ lgt0 → |y - dmhdt_kern_scalar h s lgt0| ≤ dmhdt_kern_scalar h s lgt0 / 400 + 2 ^ (-149 : ℤ)) := by
      intro h v j s hj
      obtain ⟨s0, s1⟩ := hts s (List.mem_of_getElem? hj)
      obtain ⟨x, x1, x2⟩ := kern_near P.inverse.toAccurate v.box s0 s1 g0 g1
      have hx : (mah_singlehalo_rev (h.map num) (ts.map num) (num lgt0)).2[j]? = some (num x) := by
        simp only [mah_singlehalo_rev, List.getElem?_map, hj, Option.map_some, x1]
      rcases lt_or_ge h.t_peak s with hp | hp
      · have z := C06_rate_zero_after_peak h s lgt0 hp
        refine ⟨x, 0, hx, x2, C122_zero_after_peak (h.map num) _ _ j (num s) (by simp [hj]) hp, le_rfl, ?_, fun _ => ?_⟩
        · rw [z]; have := two_zpow_pos (-149); simp
        · rw [z]; have := two_zpow_pos (-149); simp
      · obtain ⟨y, y1, y2, y3, y4⟩ := rate_before_peak P.rate h v.box v.early_index.1 lgt0 hl0 g1 s s0 s1
        have e : dmhdt_kern_scalar h s lgt0 = dmhdt_noq_kern_scalar h s lgt0 := if_neg (not_lt.2 hp)
        refine ⟨x, y, hx, x2, ?_, y2, by rw [e]; exact y3, fun hs => by rw [e]; exact y4 hs⟩
        simp only [mah_singlehalo_rev, List.getElem?_map, hj, Option.map_some, Option.some.injEq]
        exact (if_neg (not_lt.2 hp)).trans y1
    by_cases c : XR.lt u.v (fin (q i).2.2)
    · rw [decide_eq_true c] at hrow hrate hmass
      exact ⟨(q i).1, (q i).2.1, (q i).1, (q i).2.2, u, h1, hWi, fun _ => rfl, fun hc => absurd c hc, h2, hrow, _, _, hrate, hmass,
        by simp [S, mah_singlehalo_rev], by simp [S, mah_singlehalo_rev], hist (q i).1 h2⟩
    · rw [decide_eq_false c] at hrow hrate hmass
      exact ⟨(q i).1, (q i).2.1, (q i).2.1, (q i).2.2, u, h1, hWi, fun hc => absurd hc c, fun _ => rfl, h3, hrow, _, _, hrate, hmass,
        by simp [S, mah_singlehalo_rev], by simp [S, mah_singlehalo_rev], hist (q i).2.1 h3⟩

/-! ## Parameters only -/

/-- C131. The parameters alone, as `mc_diffmah_cenpop` and `mc_diffmah_satpop` make them, with drawn or with given peak times:
no exception, one row per halo; halo `i` is the early or the late halo drawn for its key, as its uniform number says; both are
valid; and where a peak time is given, theirs is within `2^-15` Gyr of it. -/
theorem C131_parameters [Libm] (E : Env F32) (U : List ℝ) (tab : F32 → F32 → List F32) (P : McPlatform E U tab)
    (uniforms : Key → ℕ → List F32) (hu : ∀ k n, (uniforms k n).length = n) (p : NT ℝ) (hp : LooseParams p) (kind : Kind)
    (lgm t_obs : List ℝ) (hlen : t_obs.length = lgm.length)
    (hobs : ∀ (i : ℕ) m t, lgm[i]? = some m → t_obs[i]? = some t → GoodObs m t) (t_peak : Option (List ℝ))
    (hpl : ∀ tp ∈ t_peak, tp.length = lgm.length) (htp : ∀ tp ∈ t_peak, ∀ x ∈ tp, 0.051 ≤ x ∧ x ≤ 19.99)
    (lgt0 : ℝ) (hl0 : 1.03 ≤ (10 : ℝ) ^ lgt0) (hl1 : (10 : ℝ) ^ lgt0 ≤ 19.98) (key : Key) :
    ∃ r : HaloPopOf F32,
      (mc_diffmah_pop_tab (U.map num) tab E uniforms kind (p.mapv num) (lgm.map num) (t_obs.map num) key (num lgt0)
        (t_peak.map (List.map num))).val? = some r ∧
      HasLength r.mah_params lgm.length ∧ HasLength r.mah_params_early lgm.length ∧
      HasLength r.mah_params_late lgm.length ∧ r.frac_early_cens.length = lgm.length ∧ r.mc_early.length = lgm.length ∧
      ∀ (i : ℕ) m t, lgm[i]? = some m → t_obs[i]? = some t → ∃ (e l h : MahParams ℝ) (f : ℝ) (u : F32) (b : Bool),
        (mc_diffmah_params_single_opt (U.map num) tab E kind (p.mapv num) (num m) (num t)
          (Key.child (Key.child key 2 1) lgm.length i) (num lgt0) (t_peak.bind fun tp => tp[i]?.map num)).val? =
            some (e.map num, l.map num, num f) ∧
        (uniforms (Key.child key 2 0) lgm.length)[i]? = some u ∧ (b = true ↔ XR.lt u.v (fin f)) ∧
        h = (if b then e else l) ∧ ValidHalo e ∧ ValidHalo l ∧
        (∀ tp ∈ t_peak, ∀ x, tp[i]? = some x → |h.t_peak - x| ≤ 2 ^ (-15 : ℤ)) ∧ 0.249 < f ∧ f < 0.751 ∧
        RowIs r.mah_params i (h.map num) ∧ RowIs r.mah_params_early i (e.map num) ∧
        RowIs r.mah_params_late i (l.map num) ∧ r.frac_early_cens[i]? = some (num f) ∧ r.mc_early[i]? = some b := by
  classical
  have hdraw : ∀ i, ∃ (q : MahParams ℝ × MahParams ℝ × ℝ), ∀ m t, lgm[i]? = some m → t_obs[i]? = some t →
      (mc_diffmah_params_single_opt (U.map num) tab E kind (p.mapv num) (num m) (num t)
        (Key.child (Key.child key 2 1) lgm.length i) (num lgt0) (t_peak.bind fun tp => tp[i]?.map num)).val? =
          some (q.1.map num, q.2.1.map num, num q.2.2) ∧
      ValidHalo q.1 ∧ ValidHalo q.2.1 ∧ (∀ tp ∈ t_peak, ∀ x, tp[i]? = some x → |q.1.t_peak - x| ≤ 2 ^ (-15 : ℤ) ∧
        |q.2.1.t_peak - x| ≤ 2 ^ (-15 : ℤ)) ∧ 0.249 < q.2.2 ∧ q.2.2 < 0.751 := by
    intro i
    by_cases hi : i < lgm.length
    · obtain ⟨e, l, f, h1, h2, h3, h4, h5⟩ := draw_valid P hp kind
        (hobs i lgm[i] (t_obs[i]'(by rw [hlen]; exact hi)) (List.getElem?_eq_getElem _) (List.getElem?_eq_getElem _))
        hl0 hl1 (t_peak.bind fun tp => tp[i]?) (by
          intro x hx
          obtain ⟨tp, htp', hx'⟩ := Option.bind_eq_some_iff.1 hx
          exact htp tp htp' x (List.mem_of_getElem? hx')) (Key.child (Key.child key 2 1) lgm.length i)
      refine ⟨(e, l, f), fun m t hm ht => ?_⟩
      rw [List.getElem?_eq_getElem hi] at hm
      rw [List.getElem?_eq_getElem (by rw [hlen]; exact hi)] at ht
      cases hm
      cases ht
      rw [Option.map_bind] at h1
      exact ⟨h1, h2, h3, fun tp h x hx => h4 x (Option.bind_eq_some_iff.2 ⟨tp, h, hx⟩), h5⟩
    · refine ⟨⟨⟨0, 0, 0, 0, 0⟩, ⟨0, 0, 0, 0, 0⟩, 0⟩, fun m t hm => ?_⟩
      rw [List.getElem?_eq_none (by omega)] at hm
      cases hm
  choose q hq using hdraw
  set n := lgm.length with hn
  set S : ℕ → MahParams F32 × MahParams F32 × F32 := fun i => ((q i).1.map num, (q i).2.1.map num, num (q i).2.2) with hS
  have hkeys : ∀ i, i < n → (((Key.child key 2 1).split n)).getD i (Key.child key 2 1) =
      Key.child (Key.child key 2 1) n i := by
    intro i hi
    rw [List.getD_eq_getElem?_getD]
    simp [Key.split, List.getElem?_range hi]
  have hres : (RandM.all ((List.range n).map fun i => mc_diffmah_params_single_opt (U.map num) tab E kind (p.mapv num)
      ((lgm.map num).getD i (lit 0)) ((t_obs.map num).getD i (lit 0))
      (((Key.child key 2 1).split n).getD i (Key.child key 2 1)) (num lgt0)
      ((t_peak.map (List.map num)).map fun tp => tp.getD i (lit 0)))).val? = some ((List.range n).map S) := by
    refine exists_of_draws _ _ _ fun i hi => ?_
    have hi' : i < n := List.mem_range.1 hi
    have hm : lgm[i]? = some lgm[i] := List.getElem?_eq_getElem _
    have ht : t_obs[i]? = some (t_obs[i]'(by rw [hlen]; exact hi')) := List.getElem?_eq_getElem _
    rw [getD_map_num hm, getD_map_num ht, hkeys i hi']
    have e : ((t_peak.map (List.map num)).map fun tp => tp.getD i (lit 0)) = t_peak.bind fun tp => tp[i]?.map num := by
      cases t_peak with
      | none => rfl
      | some tp =>
        have h : tp[i]? = some (tp[i]'(by rw [hpl tp rfl]; exact hi')) := List.getElem?_eq_getElem _
        simp only [Option.map_some, Option.bind_some, getD_map_num h]
        rw [h]
        rfl
    rw [e]
    exact (hq i _ _ hm ht).1
  set W := uniforms (Key.child key 2 0) n with hW
  have hWl : W.length = n := hu _ _
  have hb' : (belowOf W (((List.range n).map S).map fun r => r.2.2)).length = n := by simp [belowOf, hWl]
  refine ⟨⟨(PopArrays.stack (((List.range n).map S).map fun r => r.1)).select
      (PopArrays.stack (((List.range n).map S).map fun r => r.2.1)) (belowOf W (((List.range n).map S).map fun r => r.2.2)),
      PopArrays.stack (((List.range n).map S).map fun r => r.1), PopArrays.stack (((List.range n).map S).map fun r => r.2.1),
      ((List.range n).map S).map fun r => r.2.2, belowOf W (((List.range n).map S).map fun r => r.2.2)⟩,
    ?_, select_length hb' (stack_length (by simp)) (stack_length (by simp)), stack_length (by simp), stack_length (by simp),
    by simp, hb', ?_⟩
  · unfold mc_diffmah_pop_tab
    have hc : (t_obs.map num).length = (lgm.map num).length ∧
        ∀ tp ∈ t_peak.map (List.map num), tp.length = (lgm.map num).length := by
      refine ⟨by simpa using hlen, fun tp h => ?_⟩
      obtain ⟨tp', h', rfl⟩ := Option.map_eq_some_iff.1 h
      simpa using hpl tp' h'
    refine (congrArg RandM.val? (if_pos hc)).trans ?_
    simp only [List.length_map]
    refine bindVal hres ?_
    refine bindVal (b := W) ?_ rfl
    simp only [List.length_map, List.length_range]
    rfl
  · intro i m t hm ht
    have hi : i < n := (List.getElem?_eq_some_iff.1 hm).1
    obtain ⟨h1, h2, h3, h4, h5, h6⟩ := hq i m t hm ht
    have hWi : W[i]? = some (W[i]'(by rw [hWl]; exact hi)) := List.getElem?_eq_getElem _
    generalize W[i]'(by rw [hWl]; exact hi) = u at hWi
    have hf : (((List.range n).map S).map fun r => r.2.2)[i]? = some (num (q i).2.2) := by
      rw [List.map_map]
      exact getElem?_range_map hi _
    have hb : (belowOf W (((List.range n).map S).map fun r => r.2.2))[i]? = some (decide (XR.lt u.v (fin (q i).2.2))) :=
      belowOf_get hWi hf
    have he := stack_row (rows := ((List.range n).map S).map fun r => r.1) (i := i) (h := (q i).1.map num) (by
        rw [List.map_map]; exact getElem?_range_map hi _)
    have hl := stack_row (rows := ((List.range n).map S).map fun r => r.2.1) (i := i) (h := (q i).2.1.map num) (by
        rw [List.map_map]; exact getElem?_range_map hi _)
    have hrow := select_row hb he hl
    refine ⟨(q i).1, (q i).2.1, _, (q i).2.2, u, _, h1, hWi, decide_eq_true_iff, rfl, h2, h3, fun tp h x hx => ?_, h5, h6, ?_, he,
      hl, hf, hb⟩
    · split_ifs
      · exact (h4 tp h x hx).1
      · exact (h4 tp h x hx).2
    · convert hrow using 1
      split_ifs <;> rfl

/-! ## It is the function of the other theorems -/

/-- The same arrays in the types of this file -/
def ofArrays (a : MahPopArrays) : PopArrays ℝ := ⟨a.logm0, a.logtc, a.early_index, a.late_index, a.t_peak⟩

def ofPop (r : HaloPop) : HaloPopOf ℝ :=
  ⟨ofArrays r.mah_params, ofArrays r.mah_params_early, ofArrays r.mah_params_late, r.frac_early_cens, r.mc_early⟩

def ofHist (r : HaloHist) : HaloHistOf ℝ := ⟨ofArrays r.mah_params, r.dmhdt, r.log_mah⟩

def ofSingle (r : SingleHistories) : SingleHistoriesOf ℝ :=
  ⟨r.params_early, r.dmhdt_early, r.log_mah_early, r.params_late, r.dmhdt_late, r.log_mah_late, r.frac_early⟩

theorem params_opt_real (ext : Ext) (rng : Rng) (kind : Kind) (p : NT ℝ) (lgm t : ℝ) (k : Key) (lgt0 : ℝ) (tp : Option ℝ) :
    mc_diffmah_params_single_opt (UTP_TABLE.map lit) (fun a b => PopGrad.linspace a b NPTS_CDF_TABLE) (Env.real ext rng) kind p lgm t k lgt0
      tp = MC.mc_diffmah_params_single ext rng kind p lgm t k lgt0 tp := by
  cases tp with
  | none => exact params_single_real ext rng kind p lgm t k lgt0
  | some x =>
    unfold mc_diffmah_params_single_opt mc_diffmah_params_single_t_peak MC.mc_diffmah_params_single
    rw [cov_real]
    change RandM.bind _ _ = RandM.bind _ _
    refine congrArg (RandM.bind _) (funext fun res => ?_)
    rw [randLiftMap, randBindMap]
    simp only [scatter_real]

theorem single_hist_real (ext : Ext) (rng : Rng) (kind : Kind) (p : NT ℝ) (ts : List ℝ) (ht : ∀ t ∈ ts, 0 < t) (lgm t : ℝ)
    (k : Key) (lgt0 : ℝ) :
    mc_diffmah_single_hist (UTP_TABLE.map lit) (fun a b => PopGrad.linspace a b NPTS_CDF_TABLE) (Env.real ext rng) kind p ts lgm t k lgt0 =
      RandM.map ofSingle (MC.mc_diffmah_single ext rng kind p ts lgm t k lgt0) := by
  unfold mc_diffmah_single_hist MC.mc_diffmah_single
  have := params_single_real ext rng kind p lgm t k lgt0
  rw [mc_diffmah_params_single_tab_eq, this, randMapBind]
  congr 1
  funext r
  simp only [C122_same_function _ ts lgt0 ht]
  rfl

/-- C131. Over the real numbers these are the functions that the other theorems are about. -/
theorem C131_same_function (ext : Ext) (rng : Rng) (kind : Kind) (p : NT ℝ) (ts lgm t_obs : List ℝ) (ht : ∀ t ∈ ts, 0 < t)
    (key : Key) (lgt0 : ℝ) (t_peak : Option (List ℝ)) :
    mc_pop_tab (UTP_TABLE.map lit) (fun a b => PopGrad.linspace a b NPTS_CDF_TABLE) (Env.real ext rng) rng.uniforms kind p ts lgm t_obs key
        lgt0 = RandM.map ofHist (MC.mc_pop ext rng kind p ts lgm t_obs key lgt0) ∧
    mc_diffmah_pop_tab (UTP_TABLE.map lit) (fun a b => PopGrad.linspace a b NPTS_CDF_TABLE) (Env.real ext rng) rng.uniforms kind p lgm t_obs
        key lgt0 t_peak = RandM.map ofPop (MC.mc_diffmah_pop ext rng kind p lgm t_obs key lgt0 t_peak) := by
  constructor
  · unfold mc_pop_tab MC.mc_pop
    by_cases c : t_obs.length = lgm.length
    · refine (if_pos c).trans (Eq.trans ?_ (congrArg (RandM.map ofHist) (if_pos c)).symm)
      simp only [single_hist_real ext rng kind p ts ht]
      rw [randAllMap, randBindMap, randMapBind]
      congr 1
      funext r
      rw [randMapBind]
      simp only [List.map_map]
      rfl
    · refine (if_neg c).trans (Eq.trans ?_ (congrArg (RandM.map ofHist) (if_neg c)).symm)
      rfl
  · unfold mc_diffmah_pop_tab MC.mc_diffmah_pop
    by_cases c : t_obs.length = lgm.length ∧ ∀ tp ∈ t_peak, tp.length = lgm.length
    · refine (if_pos c).trans (Eq.trans ?_ (congrArg (RandM.map ofPop) (if_pos c)).symm)
      simp only [params_opt_real]
      rw [randMapBind]
      congr 1
    · refine (if_neg c).trans (Eq.trans ?_ (congrArg (RandM.map ofPop) (if_neg c)).symm)
      rfl

/-- A platform, parameters and two haloes, one with the peak time given, to which the theorems apply -/
example : ∃ (L : Libm) (E : Env F32) (U : List ℝ) (tab : F32 → F32 → List F32) (uniforms : Key → ℕ → List F32),
    @McPlatform L E U tab ∧ (∀ k n, (uniforms k n).length = n) ∧ (∃ p, LooseParams p) ∧
    (∀ (i : ℕ) m t, [(12 : ℝ), 13][i]? = some m → [(13.5 : ℝ), 7][i]? = some t → GoodObs m t) ∧
    (∀ t ∈ [(0.5 : ℝ), 6, 14], 0.05 ≤ t ∧ t ≤ 20) ∧ (∀ x ∈ [(9 : ℝ), 5], 0.051 ≤ x ∧ x ≤ 19.99) ∧
    ∃ lgt0 : ℝ, 9 ≤ (10 : ℝ) ^ lgt0 ∧ (10 : ℝ) ^ lgt0 ≤ 19.98 := by
  obtain ⟨p, hp, hb⟩ := exists_allInBounds
  rw [allInBounds_iff] at hb
  let := ideal
  refine ⟨ideal, ⟨fun _ => 1 / 2, fun k m c => multivariate_normal (fun i => 1 - 3 * (i : ℝ)) m c, 2 ^ (-46 : ℤ),
    fun x _ _ _ _ => jmin (jmax x (num 0)) (num 1)⟩, _, _, fun _ n => List.replicate n (num (1 / 2)),
    ⟨ideal_sane, ideal_accurateRate, ideal_accurateInverse,
    ⟨fun _ => by norm_num, by norm_num, fun x _ _ _ _ _ => ⟨min (max x 0) 1, rfl, ?_⟩⟩, tablesOk_linspace,
    ⟨fun _ i => 1 - 3 * (i : ℝ), ?_, fun k m c => rfl⟩⟩, by simp, ⟨p, hp, fun b hm => ?_⟩, ?_, ?_, ?_, 1, by norm_num,
    by norm_num⟩
  · have h0 : (0 : ℝ) ≤ min (max x 0) 1 := le_min (le_max_right _ _) (by norm_num)
    have h1 : min (max x 0) 1 ≤ (1 : ℝ) := min_le_right _ _
    rw [abs_of_nonneg h0]; linarith
  · intro _ i; fin_cases i <;> norm_num
  · obtain ⟨v, hv, h1, h2⟩ := hb b hm
    have := two_zpow_pos (-20)
    exact ⟨v, hv, by linarith, by linarith⟩
  · intro i m t hm ht
    match i with
    | 0 => cases hm; cases ht; norm_num [GoodObs]
    | 1 => cases hm; cases ht; norm_num [GoodObs]
    | _ + 2 => cases hm
  · intro t ht; simp at ht; rcases ht with rfl | rfl | rfl <;> norm_num
  · intro t ht; simp at ht; rcases ht with rfl | rfl <;> norm_num

end Diffmah.F32

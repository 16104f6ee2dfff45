import Verif.Props.ExactFit

/-!
# C135: the loss of a fit bounds its error at every time

With `n` target times and loss `L`, no point of the fitted history is further than `√(n L)` from its target, some point
is at least `√L` away, and between two target times the fitted history stays between the targets on either side, up to
the same error.
-/

namespace Diffmah.Fit

open XR hiding log10 pow10 ln sigm max lt le add sub mul div neg
open JOps Spec

/-! ## Means -/

theorem le_length_mul_mean {l : List ℝ} (h0 : ∀ x ∈ l, 0 ≤ x) {x : ℝ} (hx : x ∈ l) :
    x ≤ l.length * Spec.mean l := by
  have hl : (l.length : ℝ) ≠ 0 := by
    rw [Nat.cast_ne_zero, ne_eq, List.length_eq_zero_iff]; rintro rfl; cases hx
  unfold Spec.mean
  rw [mul_div_cancel₀ _ hl]
  exact List.single_le_sum h0 x hx

theorem exists_mean_le {l : List ℝ} (hne : l ≠ []) : ∃ x ∈ l, Spec.mean l ≤ x := by
  by_contra hc
  push Not at hc
  have hl : (0 : ℝ) < l.length := by
    rw [Nat.cast_pos]; exact List.length_pos_iff.2 hne
  have h : l.sum < l.length * Spec.mean l := by
    have key : ∀ (l : List ℝ) (m : ℝ), l ≠ [] → (∀ x ∈ l, x < m) → l.sum < l.length * m := by
      intro l m
      induction l with
      | nil => intro h; exact absurd rfl h
      | cons a l ih =>
        intro _ h
        have h1 := h a (by simp)
        rw [List.sum_cons, List.length_cons]
        push_cast
        rcases eq_or_ne l [] with rfl | hl
        · simp; linarith
        · have := ih hl fun x hx => h x (by simp [hx])
          linarith
    exact key l _ hne hc
  unfold Spec.mean at h
  rw [mul_div_cancel₀ _ hl.ne'] at h
  exact lt_irrefl _ h

theorem mse_eq_mean (f : ℝ → ℝ) (T M : List ℝ) :
    mse (T.map f) M = Spec.mean ((T.zip M).map fun q => (f q.1 - q.2) ^ 2) := by
  have hz : List.zipWith (fun p t : ℝ => (p - t) * (p - t)) (T.map f) M
      = (T.zip M).map fun q => (f q.1 - q.2) ^ 2 := by
    rw [List.zipWith_map_left, ← List.map_uncurry_zip_eq_zipWith]
    apply List.map_congr_left
    rintro ⟨a, b⟩ _
    simp only [Function.uncurry_apply_pair]
    ring
  unfold mse jmean Spec.mean
  rw [hz, show (lit 0 : ℝ) = 0 from rfl, ← List.sum_eq_foldl]
  rfl

theorem mse_fin {T M : List ℝ} (hlen : T.length = M.length) (hne : T ≠ []) :
    mse (T.map fin) (M.map fin) = fin (mse T M) := by
  have hz : ∀ a b : List ℝ, List.zipWith (fun p t : XR => (p - t) * (p - t)) (a.map fin) (b.map fin)
      = (List.zipWith (fun p t : ℝ => (p - t) * (p - t)) a b).map fin := by
    intro a b
    induction a generalizing b with
    | nil => rfl
    | cons x a ih =>
      cases b with
      | nil => rfl
      | cons y b => simp only [List.map_cons, List.zipWith_cons_cons, ih, fin_sub, fin_mul]
  unfold mse
  rw [hz, jmean_fin]
  intro h0
  have := congrArg List.length h0
  simp only [List.length_zipWith, ← hlen, min_self, List.length_nil] at this
  exact hne (List.length_eq_zero_iff.1 this)

theorem error_le (f : ℝ → ℝ) (T M : List ℝ) (k : ℕ) (t m : ℝ) (ht : T[k]? = some t)
    (hm : M[k]? = some m) : |f t - m| ≤ √(T.length * mse (T.map f) M) := by
  apply Real.abs_le_sqrt
  rw [mse_eq_mean]
  set l := (T.zip M).map fun q => (f q.1 - q.2) ^ 2 with hl
  have h0 : ∀ x ∈ l, 0 ≤ x := by
    intro x hx
    obtain ⟨q, -, rfl⟩ := List.mem_map.1 hx
    positivity
  have hmem : (f t - m) ^ 2 ∈ l := by
    have : (T.zip M)[k]? = some (t, m) := by
      rw [List.getElem?_zip_eq_some]; exact ⟨ht, hm⟩
    exact List.mem_map.2 ⟨(t, m), List.mem_of_getElem? this, rfl⟩
  refine (le_length_mul_mean h0 hmem).trans ?_
  have hle : (l.length : ℝ) ≤ T.length := by
    rw [hl, List.length_map, List.length_zip, Nat.cast_le]; exact min_le_left _ _
  have hmean : 0 ≤ Spec.mean l := div_nonneg (List.sum_nonneg h0) (Nat.cast_nonneg _)
  exact mul_le_mul_of_nonneg_right hle hmean

theorem error_ge (f : ℝ → ℝ) (T M : List ℝ) (hlen : T.length = M.length) (hne : T ≠ []) :
    ∃ (k : ℕ) (t m : ℝ), T[k]? = some t ∧ M[k]? = some m ∧ √(mse (T.map f) M) ≤ |f t - m| := by
  have hz : (T.zip M).map (fun q => (f q.1 - q.2) ^ 2) ≠ [] := by
    intro h0
    have := congrArg List.length h0
    simp only [List.length_map, List.length_zip, ← hlen, min_self, List.length_nil] at this
    exact hne (List.length_eq_zero_iff.1 this)
  obtain ⟨x, hx, hle⟩ := exists_mean_le hz
  obtain ⟨q, hq, rfl⟩ := List.mem_map.1 hx
  obtain ⟨k, hk⟩ := List.mem_iff_getElem?.1 hq
  obtain ⟨h1, h2⟩ := List.getElem?_zip_eq_some.1 hk
  refine ⟨k, q.1, q.2, h1, h2, ?_⟩
  rw [mse_eq_mean, ← Real.sqrt_sq_eq_abs]
  exact Real.sqrt_le_sqrt hle

/-! ## The loss that is minimised -/

/-- The history the loss compares with its target. -/
noncomputable abbrev fitted (u : VariedU ℝ) (ld : LossData ℝ) (t : ℝ) : ℝ :=
  logmh_at_t_obs (get_bounded_mah_params ⟨u.u_logm0, u.u_logtc, u.u_early_index, u.u_late_index, ld.u_t_peak⟩) t
    ld.logt0

/-- **C135** (error at a target time). At every target time the predicted log-mass is within `√(n L)` of the target,
for `n` target times and loss `L`. -/
theorem C135_at_target (u : VariedU ℝ) (ld : LossData ℝ) (k : ℕ) (t m : ℝ) (ht : ld.t_target[k]? = some t)
    (hm : ld.log_mah_target[k]? = some m) :
    |fitted u ld t - m| ≤ √(ld.t_target.length * log_mah_loss_uparams u ld) :=
  error_le (fitted u ld) _ _ k t m ht hm

/-- **C135** (the bound is of the right size). At some target time the predicted log-mass is at least `√L` from the
target. -/
theorem C135_worst_point (u : VariedU ℝ) (ld : LossData ℝ) (hlen : ld.t_target.length = ld.log_mah_target.length)
    (hne : ld.t_target ≠ []) :
    ∃ (k : ℕ) (t m : ℝ), ld.t_target[k]? = some t ∧ ld.log_mah_target[k]? = some m ∧
      √(log_mah_loss_uparams u ld) ≤ |fitted u ld t - m| :=
  error_ge (fitted u ld) _ _ hlen hne

theorem between_of {f : ℝ → ℝ} {T M : List ℝ} (hmono : MonotoneOn f (Set.Ioi 0)) {ka kb : ℕ} {ta tb ma mb t : ℝ}
    (h1 : T[ka]? = some ta) (h2 : M[ka]? = some ma) (h3 : T[kb]? = some tb) (h4 : M[kb]? = some mb) (h0 : 0 < ta)
    (ha : ta ≤ t) (hb : t ≤ tb) :
    ma - √(T.length * mse (T.map f) M) ≤ f t ∧ f t ≤ mb + √(T.length * mse (T.map f) M) := by
  have e1 := abs_le.1 (error_le f T M ka ta ma h1 h2)
  have e2 := abs_le.1 (error_le f T M kb tb mb h3 h4)
  have m1 := hmono (a := ta) (b := t) h0 (h0.trans_le ha) ha
  have m2 := hmono (a := t) (b := tb) (h0.trans_le ha) (h0.trans_le (ha.trans hb)) hb
  constructor <;> linarith

/-- **C135** (error between target times). At any time between two target times the predicted log-mass lies between
the two targets, up to `√(n L)`. -/
theorem C135_between_targets (u : VariedU ℝ) (ld : LossData ℝ) (h9 : (9 : ℝ) ≤ 10 ^ ld.logt0) (ka kb : ℕ)
    (ta tb ma mb t : ℝ) (h1 : ld.t_target[ka]? = some ta) (h2 : ld.log_mah_target[ka]? = some ma)
    (h3 : ld.t_target[kb]? = some tb) (h4 : ld.log_mah_target[kb]? = some mb) (h0 : 0 < ta) (ha : ta ≤ t)
    (hb : t ≤ tb) :
    ma - √(ld.t_target.length * log_mah_loss_uparams u ld) ≤ fitted u ld t ∧
      fitted u ld t ≤ mb + √(ld.t_target.length * log_mah_loss_uparams u ld) := by
  have hv := C12_bounded_params_valid
    ⟨u.u_logm0, u.u_logtc, u.u_early_index, u.u_late_index, ld.u_t_peak⟩
  exact between_of (C03_never_decreases _ hv.toInBox hv.late_lt_early.le ld.logt0 h9) h1 h2 h3 h4 h0 ha hb

/-- Loss data with three target times, today being 10 Gyr. -/
example : ∃ ld : LossData ℝ, ld.t_target.length = ld.log_mah_target.length ∧ ld.t_target ≠ [] ∧
    (9 : ℝ) ≤ 10 ^ ld.logt0 ∧ ld.t_target[0]? = some 2 ∧ ld.log_mah_target[0]? = some 10 ∧
    ld.t_target[1]? = some 5 ∧ ld.log_mah_target[1]? = some 11 :=
  ⟨⟨[2, 5, 10], [10, 11, 12], 3, 1⟩, rfl, by simp, by norm_num, rfl, rfl, rfl, rfl⟩

/-! ## The result of the fitter -/

section

variable {S : Type} (lbfgs : (PVec → XR × PVec) → PVec → LbfgsResult) (adam : ℝ → AdamOpt S)
  (f4 : XR → XR) (grad : LossData XR → PVec → PVec) (lgm_min : XR) (nstep n_warmup : ℕ) (tp : Option XR) (force : Bool)
  (p : MahParams ℝ) (ts ms : List ℝ) (tl dcut tmin x : ℝ)

include lbfgs adam f4 grad lgm_min nstep n_warmup tp force p ts ms tl dcut tmin x

/-- **C135** (the whole fit). Let the fitter return the valid parameters `p` and the loss `x`. At the `k`-th simulated
point inside the cuts, the history of `p` is within `√(n x)` of the running peak of the simulated log-masses up to that
point; at any time between two such points, it is between their running peaks up to the same error. -/
theorem C135_fit (hn : 1 ≤ nstep) (hbfgs : ∀ lg q, (lbfgs lg q).func = (lg (lbfgs lg q).x).1)
    (ho : ∀ s, SinglePrecision (adam s) f4) (r : FitResult)
    (h : diffmah_fitter lbfgs adam f4 grad (ts.map fin) (ms.map fin) lgm_min (fin dcut) (fin tmin) nstep n_warmup tp
      force = .ok r) (hs : r.skip_fit = false)
    (hstart : ∀ u s, get_loss_data f4 (ts.map fin) (ms.map fin) lgm_min (fin dcut) (fin tmin) 3 tp
      = .ok (u, r.loss_data, s) → u.map f4 = u ∧ FiniteAt (fit_lg grad r.loss_data) u)
    (htmin : 0 < tmin) {floor : ℝ} (hfloor : (JOps.pow10 lgm_min : XR) = fin floor)
    (htl : ts.getLast? = some tl) (h9 : 9 ≤ tl) (hp : r.p_best = p.map fin) (hv : Spec.Valid p)
    (hx : r.loss_best = fin x) :
    ∃ mlast, ms.getLast? = some mlast ∧
      let sel := insideCuts (flooredLog floor mlast) dcut tmin lgm_min (ts.zip (ms.map (flooredLog floor)))
      let err := √(sel.length * x)
      (∀ (k : ℕ) (q : ℝ × ℝ) (y : ℝ), sel[k]? = some q →
        IsGreatest {z | ∃ j ≤ k, ∃ q', sel[j]? = some q' ∧ z = q'.2} y →
        |logmh_at_t_obs p q.1 (Real.logb 10 tl) - y| ≤ err) ∧
      (∀ (ka kb : ℕ) (qa qb : ℝ × ℝ) (ya yb t : ℝ), sel[ka]? = some qa → sel[kb]? = some qb →
        IsGreatest {z | ∃ j ≤ ka, ∃ q', sel[j]? = some q' ∧ z = q'.2} ya →
        IsGreatest {z | ∃ j ≤ kb, ∃ q', sel[j]? = some q' ∧ z = q'.2} yb → qa.1 ≤ t → t ≤ qb.1 →
        ya - err ≤ logmh_at_t_obs p t (Real.logb 10 tl) ∧ logmh_at_t_obs p t (Real.logb 10 tl) ≤ yb + err) := by
  have htl0 : 0 < tl := by linarith
  obtain ⟨t_last, ht', hloss⟩ := C79_fit_loss_is_distance_of_best_fit _ _ _ _ _ _ _ _ _ _ _ _ _ hn hbfgs ho r h hs
    hstart
  have htle : t_last = fin tl := by
    rw [List.getLast?_map, htl] at ht'; exact (Option.some.inj ht').symm
  subst htle
  obtain ⟨mlast, hml, hT⟩ := C33_target_times _ _ _ _ _ _ _ _ _ _ _ _ _ r h htmin hfloor
  obtain ⟨ml', M, hml', hM, -, hlen, hpeak, -, -⟩ := C34_running_peak _ _ _ _ _ _ _ _ _ _ _ _ _ r h hfloor
  obtain rfl : mlast = ml' := by rw [hml] at hml'; exact Option.some.inj hml'
  refine ⟨mlast, hml, ?_⟩
  intro sel err
  have hT' : r.loss_data.t_target = (sel.map Prod.fst).map fin := by rw [hT, List.map_map]; rfl
  have hpos : ∀ q ∈ sel, 0 < q.1 := fun q hq => lt_of_lt_of_le htmin (mem_insideCuts_t _ _ _ hq)
  have hmlen : M.length = sel.length := by rw [hlen, List.length_map]
  set f : ℝ → ℝ := fun t => logmh_at_t_obs p t (Real.logb 10 tl) with hf
  have htp : 0 < p.t_peak := by have := hv.tpeak_lo; norm_num at this; linarith
  have hpred : (r.loss_data.t_target.map fun t => log_mah_kern r.p_best t (JOps.log10 (fin tl)))
      = ((sel.map Prod.fst).map f).map fin := by
    rw [hT', List.map_map, List.map_map, List.map_map, List.map_map]
    apply List.map_congr_left
    intro q hq
    simp only [Function.comp, hp, log10_pos htl0]
    exact C16_finite_history p q.1 _ (hpos q hq) htp
  rw [hpred, hM] at hloss
  have hsel : ∀ (k : ℕ) (q : ℝ × ℝ), sel[k]? = some q → (sel.map Prod.fst)[k]? = some q.1 := by
    intro k q hk; rw [List.getElem?_map, hk]; rfl
  have hset : ∀ k : ℕ, {z | ∃ j ≤ k, ∃ q', sel[j]? = some q' ∧ z = q'.2}
      = {z | ∃ j ≤ k, (sel.map Prod.snd)[j]? = some z} := by
    intro k
    ext z
    simp only [Set.mem_ofPred_eq, List.getElem?_map, Option.map_eq_some_iff]
    constructor
    · rintro ⟨j, hj, q', h1, h2⟩; exact ⟨j, hj, q', h1, h2.symm⟩
    · rintro ⟨j, hj, q', h1, h2⟩; exact ⟨j, hj, q', h1, h2.symm⟩
  have htar : ∀ (k : ℕ) (q : ℝ × ℝ) (y : ℝ), sel[k]? = some q →
      IsGreatest {z | ∃ j ≤ k, ∃ q', sel[j]? = some q' ∧ z = q'.2} y → M[k]? = some y := by
    intro k q y hk hy
    have hlt : k < M.length := by
      rw [hmlen]; exact (List.getElem?_eq_some_iff.1 hk).1
    have := hpeak k M[k] (List.getElem?_eq_getElem hlt)
    rw [hset] at hy
    rw [List.getElem?_eq_getElem hlt, this.unique hy]
  have hmono : MonotoneOn f (Set.Ioi 0) := C03_never_decreases p hv.toInBox hv.late_lt_early.le _
    (by rwa [pow10_logb htl0])
  have herr : ∀ (k : ℕ) (q : ℝ × ℝ), sel[k]? = some q →
      err = √((sel.map Prod.fst).length * mse ((sel.map Prod.fst).map f) M) := by
    intro k q hk
    have hne : (sel.map Prod.fst).map f ≠ [] := by
      intro h0
      have := congrArg List.length h0
      simp only [List.length_map, List.length_nil] at this
      rw [List.length_eq_zero_iff.1 this] at hk; simp at hk
    rw [mse_fin (by simp [hmlen]) hne] at hloss
    rw [hx] at hloss
    rw [← XR.fin.inj hloss, List.length_map]
  refine ⟨?_, ?_⟩
  · intro k q y hk hy
    rw [herr k q hk]
    exact error_le f _ M k q.1 y (hsel k q hk) (htar k q y hk hy)
  · intro ka kb qa qb ya yb t ha hb hya hyb h1 h2
    rw [herr ka qa ha]
    exact between_of hmono (hsel _ _ ha) (htar _ _ _ ha hya) (hsel _ _ hb) (htar _ _ _ hb hyb)
      (hpos qa (List.mem_of_getElem? ha)) h1 h2

end

/-! ## A concrete run -/

/-- An optimiser that goes to the origin and reports the loss there. -/
noncomputable def honestLbfgs : (PVec → XR × PVec) → PVec → LbfgsResult :=
  fun lg _ => ⟨[fin 0, fin 0, fin 0, fin 0], (lg [fin 0, fin 0, fin 0, fin 0]).1, true⟩

/-- The default halo on four times ending at 12 Gyr, fitted by going to the origin: every hypothesis of `C135_fit` is
met. -/
theorem honest_run : ∃ (r : FitResult) (p : MahParams ℝ) (x : ℝ),
    (∀ lg q, (honestLbfgs lg q).func = (lg (honestLbfgs lg q).x).1) ∧ (∀ s, SinglePrecision (gdOpt s) id) ∧
    diffmah_fitter honestLbfgs gdOpt id (fun _ _ => []) (([3, 6, 9, 12] : List ℝ).map fin)
      ((inputMass DEFAULT_MAH_PARAMS [3, 6, 9, 12] 12).map fin) ninf (fin 2.5) (fin 1) 200 1 none false = .ok r ∧
    r.skip_fit = false ∧
    (∀ u s, get_loss_data id (([3, 6, 9, 12] : List ℝ).map fin)
      ((inputMass DEFAULT_MAH_PARAMS [3, 6, 9, 12] 12).map fin) ninf (fin 2.5) (fin 1) 3 none
      = .ok (u, r.loss_data, s) → u.map id = u ∧ FiniteAt (fit_lg (fun _ _ => []) r.loss_data) u) ∧
    r.p_best = p.map fin ∧ Spec.Valid p ∧ r.loss_best = fin x ∧ 0 < x ∧
    p.t_peak = 12 := by
  obtain ⟨r0, hr0⟩ := origin_ok gdOpt id
    (fun _ _ => []) (([3, 6, 9, 12] : List ℝ).map fin)
    ((inputMass DEFAULT_MAH_PARAMS [3, 6, 9, 12] 12).map fin) ninf (fin 2.5) (fin 1) 200 1 none rfl
    (by simp)
  have htp : DEFAULT_MAH_PARAMS.t_peak = 14 := by norm_num [DEFAULT_MAH_PARAMS]
  have h12 : (10 : ℝ) ^ Real.logb 10 12 = 12 := pow10_logb (by norm_num)
  have hskip0 := default_run_not_skipped _ _ _ r0 hr0
  obtain ⟨up, hup, hut, -, hall⟩ := C119_own_parameters_fit_exactly originLbfgs _ id _ 200 1 false 2.5 1
    default_valid (ts := [3, 6, 9, 12]) (tl := 12)
    (by intro t ht; simp at ht; rcases ht with rfl | rfl | rfl | rfl <;> norm_num)
    (by norm_num) rfl (by norm_num) (by norm_num)
    (.inr (by rw [htp]; norm_num)) (by norm_num) (fun x => ⟨x, rfl⟩) (fun _ _ => rfl)
    (fun a _ b _ h => XR.fin.inj h) r0 hr0 hskip0
  obtain ⟨hlen, hne, u, s, hg, hs', -⟩ := fitter_ok _ _ _ _ _ _ _ _ _ _ _ _ _ r0 hr0
  have hs : s = false := by rw [hskip0] at hs'; simpa using hs'.symm
  subst hs
  obtain ⟨x, hx, hx0, hz⟩ := hall ⟨0, 0, 0, 0⟩
  have hpk : (get_bounded_mah_params (⟨0, 0, 0, 0, up.u_t_peak⟩ : MahUParams ℝ)).t_peak = 12 := by
    have := congrArg MahParams.t_peak hup
    rw [show (get_bounded_mah_params (⟨0, 0, 0, 0, up.u_t_peak⟩ : MahUParams ℝ)).t_peak
      = (get_bounded_mah_params up).t_peak from rfl, this, htp]
    norm_num
  have hxpos : 0 < x := by
    rcases hx0.lt_or_eq with h | h
    · exact h
    exfalso
    obtain ⟨ml, hml, hT⟩ := C33_target_times _ _ _ _ _ _ _ _ _ _ _ _ _ r0 hr0 (by norm_num) (floor := 0) rfl
    have hml' : ml = (10 : ℝ) ^ inputLog DEFAULT_MAH_PARAMS 12 12 := by
      have := input_last (p := DEFAULT_MAH_PARAMS) (ts := [3, 6, 9, 12]) (tl := 12) rfl
      rw [hml] at this; exact Option.some.inj this
    rw [input_zip, hml', flooredLog_zero_pow] at hT
    have hmem : fin (12 : ℝ) ∈ r0.loss_data.t_target := by
      rw [hT]
      refine List.mem_map.2 ⟨(12, inputLog DEFAULT_MAH_PARAMS 12 12), ?_, rfl⟩
      unfold insideCuts
      rw [List.mem_filter]
      refine ⟨List.mem_map.2 ⟨12, by simp, rfl⟩, ?_⟩
      simp only [decide_eq_true_eq]
      exact ⟨by norm_num, trivial, by norm_num⟩
    have e := hz h.symm 12 hmem
    have k1 := C01_mass_today DEFAULT_MAH_PARAMS (Real.logb 10 12) (by rw [h12, htp]; norm_num)
    have k2 := C01_mass_today (get_bounded_mah_params (⟨0, 0, 0, 0, up.u_t_peak⟩ : MahUParams ℝ)) (Real.logb 10 12)
      (by rw [h12, hpk])
    rw [h12] at k1 k2
    rw [show inputLog _ 12 12 = _ from k2, show inputLog DEFAULT_MAH_PARAMS 12 12 = _ from k1] at e
    have e' : get_bounded_diffmah_param (0 : ℝ) MAH_PBOUNDS.logm0 = 12.0 := e
    simp only [get_bounded_diffmah_param, sigmoid_real, MAH_PBOUNDS] at e'
    have hsg : Real.sigmoid (BOUNDING_K * (0 - (0.5 * (0.0 + 17.0)))) ≤ Real.sigmoid 0 :=
      Real.sigmoid_monotone (by have := BOUNDING_K_pos; nlinarith)
    rw [Real.sigmoid_zero] at hsg
    change (0.0 : ℝ) + (17.0 - 0.0) * Real.sigmoid (BOUNDING_K * (0 - (0.5 * (0.0 + 17.0)))) = 12.0 at e'
    norm_num at e' hsg
    linarith
  obtain ⟨w, hw⟩ := check_ok hne
  have hlg : (fit_lg (fun _ _ => []) r0.loss_data [fin 0, fin 0, fin 0, fin 0]).1 = fin x := hx
  have hb : bfgs_adam_fallback honestLbfgs gdOpt id (fit_lg (fun _ _ => []) r0.loss_data) u 200 1
      = .ok ⟨[fin 0, fin 0, fin 0, fin 0], fin x, true, 0⟩ := by
    have : (honestLbfgs (fit_lg (fun _ _ => []) r0.loss_data) u).success = true ∧
        XR.IsFin (honestLbfgs (fit_lg (fun _ _ => []) r0.loss_data) u).func ∧
        XR.lt (XR.fin 0) (honestLbfgs (fit_lg (fun _ _ => []) r0.loss_data) u).func := by
      refine ⟨rfl, ?_, ?_⟩
      · simp only [honestLbfgs, hlg]; trivial
      · simp only [honestLbfgs, hlg]; exact hxpos
    unfold bfgs_adam_fallback
    simp only [this, and_self, if_true]
    simp only [honestLbfgs, hlg, pure, Except.pure]
  have hrun : ∃ r, diffmah_fitter honestLbfgs gdOpt id (fun _ _ => []) (([3, 6, 9, 12] : List ℝ).map fin)
      ((inputMass DEFAULT_MAH_PARAMS [3, 6, 9, 12] 12).map fin) ninf (fin 2.5) (fin 1) 200 1 none false = .ok r ∧
      r.loss_data = r0.loss_data ∧ r.loss_best = fin x ∧
      r.p_best = (get_bounded_mah_params ⟨0, 0, 0, 0, up.u_t_peak⟩ : MahParams ℝ).map fin := by
    unfold diffmah_fitter
    simp only [ne_eq, hlen, not_true, if_false, bind, Except.bind, hw, pure, Except.pure]
    rw [show NPTS_FIT_MIN = 3 from rfl, hg]
    simp only [Bool.false_or, Bool.false_eq_true, if_false, hb, makeU]
    refine ⟨_, rfl, rfl, rfl, ?_⟩
    rw [← bounded_params_fin, hut]; rfl
  obtain ⟨r, hr, e1, e2, e3⟩ := hrun
  refine ⟨r, _, x, fun _ _ => rfl, fun s => ⟨fun p _ => rfl, fun lg p k _ => by simp⟩, hr,
    default_run_not_skipped _ _ _ r hr, ?_, e3, C12_bounded_params_valid _, e2, hxpos, hpk⟩
  intro u' s' hg'
  rw [e1] at hg' ⊢
  rw [hg] at hg'
  cases hg'
  refine ⟨by simp, ?_⟩
  obtain ⟨f1, f2, f3, f4, -⟩ := (C15_finite_iff_valid DEFAULT_MAH_PARAMS).2 default_valid
  have htl' : (([3, 6, 9, 12] : List ℝ).map fin).getLast? = some (fin 12) := rfl
  have hml : ((inputMass DEFAULT_MAH_PARAMS [3, 6, 9, 12] 12).map fin).getLast?
      = some (fin ((10 : ℝ) ^ inputLog DEFAULT_MAH_PARAMS 12 12)) := by
    rw [List.getLast?_map, input_last rfl]; rfl
  obtain ⟨tpk, -, e⟩ := get_loss_data_eq id _ _ ninf (fin 2.5) (fin 1) 3 none (fin 12) _ htl' hml hlen
  have k1 := C01_mass_today DEFAULT_MAH_PARAMS (Real.logb 10 12) (by rw [h12, htp]; norm_num)
  rw [h12] at k1
  rw [clipLog_pos (by positivity), logb_pow10, show inputLog DEFAULT_MAH_PARAMS 12 12 = _ from k1, hg] at e
  split at e
  · exact absurd (congrArg (fun x => x.2.2) (Except.ok.inj e)) (by simp)
  have hu := congrArg Prod.fst (Except.ok.inj e)
  simp only at hu
  obtain ⟨a, ha⟩ := isFin_iff.1 f1
  obtain ⟨b, hb'⟩ := isFin_iff.1 f2
  obtain ⟨c, hc⟩ := isFin_iff.1 f3
  obtain ⟨d, hd⟩ := isFin_iff.1 f4
  have hu' : u = [fin a, fin b, fin c, fin d] := by
    rw [hu, ← ha, ← hb', ← hc, ← hd]; rfl
  obtain ⟨y, hy, -⟩ := hall ⟨a, b, c, d⟩
  refine ⟨?_, ?_, by simp [fit_lg]⟩
  · rw [hu']; simp
  · rw [hu']
    have : (fit_lg (fun _ _ => []) r0.loss_data [fin a, fin b, fin c, fin d]).1 = fin y := hy
    rw [this]; trivial

end Diffmah.Fit

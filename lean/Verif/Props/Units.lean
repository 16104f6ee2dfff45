import Verif.Props.FitterTarget

/-!
# C133: histories and fits do not depend on the units of mass and time
-/

namespace Diffmah

open JOps

/-! ## Specification -/

/-- The same halo with masses counted in a unit that is `10^d` times smaller, and times in a unit that is `lam` times smaller. -/
noncomputable def MahParams.inUnits (p : MahParams ℝ) (d lam : ℝ) : MahParams ℝ :=
  ⟨p.logm0 + d, p.logtc + Real.logb 10 lam, p.early_index, p.late_index, lam * p.t_peak⟩

/-! ## Lemmas -/

theorem noq_units (p : MahParams ℝ) (d : ℝ) {lam t : ℝ} (hl : 0 < lam) (ht : 0 < t) (lgt0 : ℝ) :
    log_mah_noq_kern (p.inUnits d lam) (lam * t) (lgt0 + Real.logb 10 lam) = log_mah_noq_kern p t lgt0 + d := by
  simp only [noq_real, plaw_real, MahParams.inUnits]
  rw [Real.logb_mul hl.ne' ht.ne',
    show Real.logb 10 lam + Real.logb 10 t - (p.logtc + Real.logb 10 lam) = Real.logb 10 t - p.logtc by ring]
  ring

theorem log_mah_units (p : MahParams ℝ) (d : ℝ) {lam t : ℝ} (hl : 0 < lam) (ht : 0 < t) (hp : 0 < p.t_peak) (lgt0 : ℝ) :
    log_mah_kern (p.inUnits d lam) (lam * t) (lgt0 + Real.logb 10 lam) = log_mah_kern p t lgt0 + d := by
  rw [log_mah_min, log_mah_min, show (p.inUnits d lam).t_peak = lam * p.t_peak from rfl, ← mul_min_of_nonneg _ _ hl.le]
  exact noq_units p d hl (lt_min ht hp) lgt0

theorem rate_units (p : MahParams ℝ) (d : ℝ) {lam t : ℝ} (hl : 0 < lam) (ht : 0 < t) (lgt0 : ℝ) :
    dmhdt_kern_scalar (p.inUnits d lam) (lam * t) (lgt0 + Real.logb 10 lam) = (10 : ℝ) ^ d / lam * dmhdt_kern_scalar p t lgt0 := by
  have h1 := dmhdt_noq_formula (p.inUnits d lam) (mul_pos hl ht).ne' (lgt0 + Real.logb 10 lam)
  have h2 := dmhdt_noq_formula p ht.ne' lgt0
  rw [noq_units p d hl ht, Real.rpow_add (by norm_num), Real.logb_mul hl.ne' ht.ne'] at h1
  simp only [MahParams.inUnits] at h1
  rw [show Real.logb 10 lam + Real.logb 10 t - (p.logtc + Real.logb 10 lam) = Real.logb 10 t - p.logtc by ring,
    show Real.logb 10 lam + Real.logb 10 t - (lgt0 + Real.logb 10 lam) = Real.logb 10 t - lgt0 by ring] at h1
  have h3 : dmhdt_noq_kern_scalar (p.inUnits d lam) (lam * t) (lgt0 + Real.logb 10 lam)
      = (10 : ℝ) ^ d / lam * dmhdt_noq_kern_scalar p t lgt0 := by
    have h4 : (1e9 : ℝ) * dmhdt_noq_kern_scalar (p.inUnits d lam) (lam * t) (lgt0 + Real.logb 10 lam)
        = 1e9 * ((10 : ℝ) ^ d / lam * dmhdt_noq_kern_scalar p t lgt0) := by
      rw [show (1e9 : ℝ) * ((10 : ℝ) ^ d / lam * dmhdt_noq_kern_scalar p t lgt0)
        = (10 : ℝ) ^ d / lam * (1e9 * dmhdt_noq_kern_scalar p t lgt0) by ring, h2]
      refine h1.trans ?_
      field_simp
    exact mul_left_cancel₀ (by norm_num) h4
  unfold dmhdt_kern_scalar
  rw [h3]
  by_cases hc : p.t_peak < t
  · have hc' : (p.inUnits d lam).t_peak < lam * t := mul_lt_mul_of_pos_left hc hl
    rw [jwhere, jwhere, if_pos hc', if_pos hc]
    change (0.0 : ℝ) = _ * (0.0 : ℝ)
    norm_num
  · have hc' : ¬ (p.inUnits d lam).t_peak < lam * t := not_lt.2 (mul_le_mul_of_nonneg_left (not_lt.1 hc) hl.le)
    rw [jwhere, jwhere, if_neg hc', if_neg hc]

/-! ## C133 -/

/-- C133. If masses and times are given in other units, `mah_singlehalo` returns the same accretion rates and the same masses in
the new units. -/
theorem C133_history (p : MahParams ℝ) (hp : 0 < p.t_peak) (ts : List ℝ) (hts : ∀ t ∈ ts, 0 < t) (lgt0 d : ℝ) {lam : ℝ}
    (hl : 0 < lam) :
    mah_singlehalo (p.inUnits d lam) (ts.map (lam * ·)) (lgt0 + Real.logb 10 lam) =
      ((mah_singlehalo p ts lgt0).1.map ((10 : ℝ) ^ d / lam * ·), (mah_singlehalo p ts lgt0).2.map (· + d)) := by
  refine Prod.ext ?_ ?_
  · refine List.ext_getElem? fun i => ?_
    rw [singlehalo_rate_getElem?, List.getElem?_map, List.getElem?_map, singlehalo_rate_getElem?, Option.map_map, Option.map_map]
    cases hi : ts[i]? with
    | none => rfl
    | some t => exact congrArg some (rate_units p d hl (hts t (List.mem_of_getElem? hi)) lgt0)
  · unfold mah_singlehalo diffmah_kern
    simp only [List.map_map]
    exact List.map_congr_left fun t ht => log_mah_units p d hl (hts t ht) hp lgt0

/-- A halo that peaks in the middle of the table, from solar masses and Gyr to units of `10^-3` solar masses and Myr. -/
example : (0 : ℝ) < (⟨12, 0.5, 2, 0.5, 7⟩ : MahParams ℝ).t_peak ∧ (∀ t ∈ ([1, 5, 13] : List ℝ), 0 < t) ∧ (0 : ℝ) < 1000 ∧
    ((⟨12, 0.5, 2, 0.5, 7⟩ : MahParams ℝ).inUnits 3 1000).logm0 = 15 ∧
    ((⟨12, 0.5, 2, 0.5, 7⟩ : MahParams ℝ).inUnits 3 1000).t_peak = 7000 := by
  simp only [MahParams.inUnits]
  norm_num

namespace Fit

open XR hiding log10 pow10 ln sigm max lt le add sub mul div neg
open Diffmah.Utils Spec

/-- C133. The loss that a fit minimizes has the same value for the same halo and the same data in other units. -/
theorem C133_loss (u u' : VariedU ℝ) (ld ld' : LossData ℝ) (d : ℝ) {lam : ℝ} (hl : 0 < lam)
    (hu : get_bounded_mah_params ⟨u'.u_logm0, u'.u_logtc, u'.u_early_index, u'.u_late_index, ld'.u_t_peak⟩ =
      (get_bounded_mah_params ⟨u.u_logm0, u.u_logtc, u.u_early_index, u.u_late_index, ld.u_t_peak⟩).inUnits d lam)
    (hpk : 0 < (get_bounded_mah_params
      (⟨u.u_logm0, u.u_logtc, u.u_early_index, u.u_late_index, ld.u_t_peak⟩ : MahUParams ℝ)).t_peak)
    (hts : ∀ t ∈ ld.t_target, 0 < t) (ht : ld'.t_target = ld.t_target.map (lam * ·))
    (hm : ld'.log_mah_target = ld.log_mah_target.map (· + d)) (h0 : ld'.logt0 = ld.logt0 + Real.logb 10 lam) :
    log_mah_loss_uparams u' ld' = log_mah_loss_uparams u ld := by
  rw [C40_mean_square, C40_mean_square, hu, ht, hm, h0, List.zip_map, List.map_map]
  congr 1
  refine List.map_congr_left ?_
  rintro ⟨t, m⟩ hq
  have := log_mah_units _ d hl (hts t (List.of_mem_zip hq).1) hpk ld.logt0
  simp only [Function.comp, Prod.map]
  rw [this]
  ring

/-- The losses of a halo in two units of mass and time, for a table of three times -/
example : ∃ (u u' : VariedU ℝ) (ld ld' : LossData ℝ),
    get_bounded_mah_params ⟨u'.u_logm0, u'.u_logtc, u'.u_early_index, u'.u_late_index, ld'.u_t_peak⟩ =
      (get_bounded_mah_params ⟨u.u_logm0, u.u_logtc, u.u_early_index, u.u_late_index, ld.u_t_peak⟩).inUnits 1 (3 / 2) ∧
    0 < (get_bounded_mah_params
      (⟨u.u_logm0, u.u_logtc, u.u_early_index, u.u_late_index, ld.u_t_peak⟩ : MahUParams ℝ)).t_peak ∧
    ld.t_target = [1, 5, 13] ∧ ld'.t_target = ld.t_target.map (3 / 2 * ·) ∧
    ld'.log_mah_target = ld.log_mah_target.map (· + 1) ∧ ld'.logt0 = ld.logt0 + Real.logb 10 (3 / 2) := by
  have hb : 0 < Real.logb 10 (3 / 2) ∧ Real.logb 10 (3 / 2) < 1 / 2 := by
    refine ⟨Real.logb_pos (by norm_num) (by norm_num), ?_⟩
    rw [Real.logb_lt_iff_lt_rpow (by norm_num) (by norm_num), ← Real.sqrt_eq_rpow]
    exact Real.lt_sqrt_of_sq_lt (by norm_num)
  obtain ⟨h1, h2⟩ := hb
  have v : Spec.Valid (⟨12, 0, 2, 1, 7⟩ : MahParams ℝ) := by
    refine ⟨?_, by norm_num⟩
    constructor <;> norm_num
  have v' : Spec.Valid ((⟨12, 0, 2, 1, 7⟩ : MahParams ℝ).inUnits 1 (3 / 2)) := by
    refine ⟨?_, by norm_num [MahParams.inUnits]⟩
    constructor <;> simp only [MahParams.inUnits] <;> linarith
  have e := C14_bounded_of_unbounded _ v
  have e' := C14_bounded_of_unbounded _ v'
  generalize get_unbounded_mah_params (⟨12, 0, 2, 1, 7⟩ : MahParams ℝ) = w at e
  generalize get_unbounded_mah_params ((⟨12, 0, 2, 1, 7⟩ : MahParams ℝ).inUnits 1 (3 / 2)) = w' at e'
  refine ⟨⟨w.u_logm0, w.u_logtc, w.u_early_index, w.u_late_index⟩, ⟨w'.u_logm0, w'.u_logtc, w'.u_early_index, w'.u_late_index⟩,
    ⟨[1, 5, 13], [11, 12, 12], w.u_t_peak, 1⟩,
    ⟨[1, 5, 13].map (3 / 2 * ·), [11, 12, 12].map (· + 1), w'.u_t_peak, 1 + Real.logb 10 (3 / 2)⟩, ?_, ?_, rfl, rfl, rfl, rfl⟩
  · exact e'.trans (congrArg (fun p => MahParams.inUnits p 1 (3 / 2)) e.symm)
  · exact (congrArg MahParams.t_peak e).symm ▸ (by norm_num : (0 : ℝ) < 7)

variable {S : Type} (lbfgs : (PVec → XR × PVec) → PVec → LbfgsResult) (adam : ℝ → AdamOpt S)
  (f4 : XR → XR) (grad : LossData XR → PVec → PVec) (ts ms : List ℝ) (dcut tmin : ℝ) (nstep n_warmup : ℕ) (tp : Option XR)
  (force : Bool)

theorem flooredLog_zero {m : ℝ} (hm : 0 < m) : flooredLog 0 m = Real.logb 10 m := by
  unfold flooredLog; rw [if_neg (not_le.2 hm)]

theorem raccFrom_shift (d a : ℝ) (l : List ℝ) : raccFrom (a + d) (l.map (· + d)) = (raccFrom a l).map (· + d) := by
  induction l generalizing a with
  | nil => rfl
  | cons x l ih => simp only [List.map_cons, raccFrom, max_add_add_right, ih]

theorem racc_shift (d : ℝ) (l : List ℝ) : racc (l.map (· + d)) = (racc l).map (· + d) := by
  cases l with
  | nil => rfl
  | cons x l => simp only [List.map_cons, racc, raccFrom_shift]

theorem logs_scaled {c : ℝ} (hc : 0 < c) (hpos : ∀ m ∈ ms, 0 < m) :
    (ms.map (c * ·)).map (flooredLog 0) = (ms.map (flooredLog 0)).map (· + Real.logb 10 c) := by
  rw [List.map_map, List.map_map]
  refine List.map_congr_left fun m hm => ?_
  have h := hpos m hm
  simp only [Function.comp]
  rw [flooredLog_zero h, flooredLog_zero (mul_pos hc h), Real.logb_mul hc.ne' h.ne', add_comm]

theorem insideCuts_shift (d final : ℝ) (pts : List (ℝ × ℝ)) :
    insideCuts (final + d) dcut tmin ninf (pts.map fun q => (q.1, q.2 + d)) =
      (insideCuts final dcut tmin ninf pts).map fun q => (q.1, q.2 + d) := by
  classical
  unfold insideCuts
  rw [List.filter_map]
  congr 1
  apply List.filter_congr
  rintro ⟨t, m⟩ -
  simp only [Function.comp, decide_eq_decide]
  refine and_congr ⟨fun h => by linarith, fun h => by linarith⟩ (and_congr ?_ Iff.rfl)
  exact ⟨fun _ => trivial, fun _ => trivial⟩

/-- C133. A simulated history whose masses are all multiplied by the same factor is fitted at the same times, its target masses
are multiplied by that factor, and it is skipped in the same cases. -/
theorem C133_fit_target (hpos : ∀ m ∈ ms, 0 < m) {c : ℝ} (hc : 0 < c) (r r' : FitResult)
    (h : diffmah_fitter lbfgs adam f4 grad (ts.map fin) (ms.map fin) ninf (fin dcut) (fin tmin) nstep n_warmup tp force = .ok r)
    (h' : diffmah_fitter lbfgs adam f4 grad (ts.map fin) ((ms.map (c * ·)).map fin) ninf (fin dcut) (fin tmin) nstep n_warmup tp
      force = .ok r') :
    r'.loss_data.t_target = r.loss_data.t_target ∧
    (∃ target : List ℝ, r.loss_data.log_mah_target = target.map fin ∧
      r'.loss_data.log_mah_target = (target.map (· + Real.logb 10 c)).map fin) ∧
    r'.skip_fit = r.skip_fit := by
  obtain ⟨m, hm, a1, a2⟩ := fit_target lbfgs adam f4 grad ts ms ninf dcut tmin nstep n_warmup tp force r h (fl := 0) rfl
  obtain ⟨m', hm', b1, b2⟩ := fit_target lbfgs adam f4 grad ts (ms.map (c * ·)) ninf dcut tmin nstep n_warmup tp force r' h'
    (fl := 0) rfl
  have em : m' = c * m := by
    rw [List.getLast?_map, hm] at hm'
    exact (Option.some.inj hm').symm
  have hmp := hpos m (List.mem_of_getLast? hm)
  have hsel : insideCuts (flooredLog 0 m') dcut tmin ninf (ts.zip ((ms.map (c * ·)).map (flooredLog 0))) =
      (insideCuts (flooredLog 0 m) dcut tmin ninf (ts.zip (ms.map (flooredLog 0)))).map
        fun q => (q.1, q.2 + Real.logb 10 c) := by
    rw [em, flooredLog_zero (mul_pos hc hmp), Real.logb_mul hc.ne' hmp.ne', add_comm, logs_scaled ms hc hpos,
      flooredLog_zero hmp, ← insideCuts_shift]
    congr 1
    rw [← List.map_id ts, List.zip_map, List.map_id]
    rfl
  rw [hsel] at b1 b2
  set sel := insideCuts (flooredLog 0 m) dcut tmin ninf (ts.zip (ms.map (flooredLog 0))) with hs
  have e1 : r.loss_data.log_mah_target = (racc (sel.map Prod.snd)).map fin := by rw [a2, accumulate_fin]
  have e2 : r'.loss_data.log_mah_target = ((racc (sel.map Prod.snd)).map (· + Real.logb 10 c)).map fin := by
    rw [b2, accumulate_fin, ← racc_shift]
    simp only [List.map_map, Function.comp_def]
  refine ⟨?_, ⟨_, e1, e2⟩, ?_⟩
  · rw [a1, b1]; simp only [List.map_map, Function.comp_def]
  · have s := C29_skip_iff _ _ _ _ _ _ _ _ _ _ _ _ _ r h
    have s' := C29_skip_iff _ _ _ _ _ _ _ _ _ _ _ _ _ r' h'
    have hcount : countBelowLast r'.loss_data.log_mah_target = countBelowLast r.loss_data.log_mah_target := by
      rw [e1, e2]
      unfold countBelowLast
      simp only [List.getLast?_map]
      cases (racc (sel.map Prod.snd)).getLast? with
      | none => rfl
      | some y =>
        simp only [Option.map_some, List.filter_map, List.length_map]
        congr 1
        apply List.filter_congr
        intro x _
        simp only [Function.comp, decide_eq_decide]
        change x + Real.logb 10 c < y + Real.logb 10 c ↔ x < y
        exact add_lt_add_iff_right _
    rw [hcount] at s'
    have := s'.trans s.symm
    cases hr : r'.skip_fit <;> cases hr2 : r.skip_fit <;> simp_all

/-- A rising history of four points and the same history in units ten times smaller -/
example : ∃ r r', (∀ m ∈ ([10 ^ 11, 2 * 10 ^ 11, 10 ^ 12, 2 * 10 ^ 12] : List ℝ), 0 < m) ∧
    diffmah_fitter lbfgs adam f4 grad (([2, 3, 4, 5] : List ℝ).map fin)
      (([10 ^ 11, 2 * 10 ^ 11, 10 ^ 12, 2 * 10 ^ 12] : List ℝ).map fin) ninf (fin 2.5) (fin 1) nstep n_warmup tp true = .ok r ∧
    diffmah_fitter lbfgs adam f4 grad (([2, 3, 4, 5] : List ℝ).map fin)
      ((([10 ^ 11, 2 * 10 ^ 11, 10 ^ 12, 2 * 10 ^ 12] : List ℝ).map (10 * ·)).map fin) ninf (fin 2.5) (fin 1) nstep n_warmup tp
      true = .ok r' := by
  obtain ⟨r, hr⟩ := (C29_errors lbfgs adam f4 grad (([2, 3, 4, 5] : List ℝ).map fin)
    (([10 ^ 11, 2 * 10 ^ 11, 10 ^ 12, 2 * 10 ^ 12] : List ℝ).map fin) ninf (fin 2.5) (fin 1) nstep n_warmup tp false).2.2 rfl
    (by simp)
  obtain ⟨r', hr'⟩ := (C29_errors lbfgs adam f4 grad (([2, 3, 4, 5] : List ℝ).map fin)
    ((([10 ^ 11, 2 * 10 ^ 11, 10 ^ 12, 2 * 10 ^ 12] : List ℝ).map (10 * ·)).map fin) ninf (fin 2.5) (fin 1) nstep n_warmup tp
    false).2.2 rfl (by simp)
  refine ⟨r, r', ?_, hr, hr'⟩
  intro m hm
  simp only [List.mem_cons, List.not_mem_nil, or_false] at hm
  rcases hm with rfl | rfl | rfl | rfl <;> norm_num

theorem npts_fin (l : List ℝ) (d : ℝ) :
    compute_non_trivial_npts ((l.map (· + d)).map fin) = compute_non_trivial_npts (l.map fin) := by
  unfold compute_non_trivial_npts
  cases hl : l.getLast? with
  | none => rw [List.getLast?_eq_none_iff.1 hl]; rfl
  | some y =>
    rw [List.countP_map, List.countP_map, List.countP_map]
    refine List.countP_congr fun x _ => ?_
    simp only [Function.comp, decide_eq_true_eq, List.getLast?_map, hl, Option.map_some, Option.getD_some]
    change x + d < y + d ↔ x < y
    exact add_lt_add_iff_right _

theorem argmax_shift (l : List ℝ) (y d : ℝ) :
    argmaxBool (fun x => xeq x (fin (y + d))) ((l.map (· + d)).map fin) = argmaxBool (fun x => xeq x (fin y)) (l.map fin) := by
  classical
  have e : ∀ (l : List ℝ), (((l.map (· + d)).map fin).findIdx fun x => decide (xeq x (fin (y + d)))) =
      ((l.map fin).findIdx fun x => decide (xeq x (fin y))) := by
    intro l
    induction l with
    | nil => rfl
    | cons a l ih =>
      have hd : decide (xeq (fin (a + d)) (fin (y + d))) = decide (xeq (fin a) (fin y)) := by
        rw [decide_eq_decide]
        unfold xeq
        simp
      simp only [List.map_cons, List.findIdx_cons, hd, ih]
  have h := e l
  have hlen : ((l.map (· + d)).map fin).length = (l.map fin).length := by simp
  unfold argmaxBool
  rw [hlen]
  simp only at h ⊢
  rw [h]

/-- C133. In exact arithmetic the peak time inferred for the fit does not depend on the unit of mass either. -/
theorem C133_fit_peak (hpos : ∀ m ∈ ms, 0 < m) {c : ℝ} (hc : 0 < c) (r r' : FitResult)
    (h : diffmah_fitter lbfgs adam id grad (ts.map fin) (ms.map fin) ninf (fin dcut) (fin tmin) nstep n_warmup tp force = .ok r)
    (h' : diffmah_fitter lbfgs adam id grad (ts.map fin) ((ms.map (c * ·)).map fin) ninf (fin dcut) (fin tmin) nstep n_warmup tp
      force = .ok r') :
    r'.loss_data.u_t_peak = r.loss_data.u_t_peak ∧ r'.loss_data.logt0 = r.loss_data.logt0 := by
  obtain ⟨-, ⟨tar, t1, t2⟩, -⟩ := C133_fit_target lbfgs adam id grad ts ms dcut tmin nstep n_warmup tp force hpos hc r r' h h'
  obtain ⟨hlen, hne, u, s, hg, -, -⟩ := fitter_ok _ _ _ _ _ _ _ _ _ _ _ _ _ r h
  obtain ⟨hlen', hne', u', s', hg', -, -⟩ := fitter_ok _ _ _ _ _ _ _ _ _ _ _ _ _ r' h'
  have htne : ts.map fin ≠ [] := by
    intro h0; rw [h0] at hlen; exact hne (List.length_eq_zero_iff.1 hlen)
  obtain ⟨tl, htl⟩ := last_exists htne
  have hmne : ms ≠ [] := by simpa using hne
  obtain ⟨m, hm⟩ := last_exists hmne
  have hml : (ms.map fin).getLast? = some (fin m) := by rw [List.getLast?_map, hm]; rfl
  have hml' : ((ms.map (c * ·)).map fin).getLast? = some (fin (c * m)) := by
    rw [List.getLast?_map, List.getLast?_map, hm]; rfl
  have hmp := hpos m (List.mem_of_getLast? hm)
  obtain ⟨k, hk, e⟩ := get_loss_data_eq id (ts.map fin) (ms.map fin) ninf (fin dcut) (fin tmin) 3 tp tl _ htl hml hlen
  obtain ⟨k', hk', e'⟩ := get_loss_data_eq id (ts.map fin) ((ms.map (c * ·)).map fin) ninf (fin dcut) (fin tmin) 3 tp tl _ htl
    hml' hlen'
  have hkk : k' = k := by
    rcases hk with rfl | ⟨rfl, hk⟩
    · rcases hk' with h | ⟨h, -⟩
      · exact (Option.some.inj h).symm
      · cases h
    · rcases hk' with h | ⟨-, hk'⟩
      · cases h
      · have eL : ∀ l : List ℝ, get_clipped_log_mah (l.map fin) ninf = (l.map (flooredLog 0)).map fin := by
          intro l
          unfold get_clipped_log_mah
          rw [List.map_map, List.map_map]
          exact List.map_congr_left fun m _ => clipLog_floor ninf (fl := 0) rfl m
        rw [eL, clipLog_floor ninf (fl := 0) rfl, List.map_id] at hk hk'
        rw [logs_scaled ms hc hpos, flooredLog_zero (mul_pos hc hmp), Real.logb_mul hc.ne' hmp.ne', add_comm,
          ← flooredLog_zero hmp] at hk'
        have := argmax_shift (ms.map (flooredLog 0)) (flooredLog 0 m) (Real.logb 10 c)
        simp only [id] at hk hk'
        rw [this, hk] at hk'
        exact (Option.some.inj hk').symm
  subst hkk
  rw [e] at hg
  rw [e'] at hg'
  have key : ∀ {A B : PVec × LossData XR × Bool}, (Except.ok A : Except PyErr _) = .ok B → B = A := by
    intro A B h; cases h; rfl
  have k1 := key hg
  have k2 := key hg'
  have q1 := congrArg (fun x => x.2.1) k1
  have q2 := congrArg (fun x => x.2.1) k2
  simp only at q1 q2
  have hn1 : r.loss_data.log_mah_target = accumulate ((selected (ts.map fin) (get_clipped_log_mah (ms.map fin) ninf)
      (clipLog ninf (fin m)) ninf (fin dcut) (fin tmin)).map Prod.snd) := by rw [q1]; split <;> rfl
  have hn2 : r'.loss_data.log_mah_target = accumulate ((selected (ts.map fin)
      (get_clipped_log_mah ((ms.map (c * ·)).map fin) ninf)
      (clipLog ninf (fin (c * m))) ninf (fin dcut) (fin tmin)).map Prod.snd) := by rw [q2]; split <;> rfl
  rw [← hn1, t1] at q1
  rw [← hn2, t2, npts_fin] at q2
  rw [q1, q2]
  split <;> exact ⟨rfl, rfl⟩

end Fit

end Diffmah

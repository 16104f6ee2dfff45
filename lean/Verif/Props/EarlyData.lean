import Verif.Props.ExactFit

/-!
# C145: snapshots outside the cuts do not change a fit

Whatever is stored for the times before `t_fit_min`, or for times at which the halo was lighter than the cut, the result of the fitter is
the same, in every part, as without these snapshots.
-/

namespace Diffmah.Fit

open XR hiding log10 pow10 ln sigm max lt le add sub mul div neg
open JOps Diffmah.Utils Spec

/-! ## Specification -/

/-- A snapshot that the cuts of the fitter exclude, for a halo with the final mass `mlast`: it is too early or too light. -/
def Excluded (dcut tmin mlast : ℝ) (q : ℝ × ℝ) : Prop :=
  q.1 < tmin ∨ q.2 ≤ (10 : ℝ) ^ (-dcut) * mlast

open Classical in
/-- The snapshots that are not excluded, in order -/
noncomputable def usedSnapshots (dcut tmin mlast : ℝ) (ts ms : List ℝ) : List (ℝ × ℝ) :=
  (ts.zip ms).filter fun q => decide (¬ Excluded dcut tmin mlast q)

/-! ## Lemmas -/

variable {S : Type} (lbfgs : (PVec → XR × PVec) → PVec → LbfgsResult) (adam : ℝ → AdamOpt S)
  (f4 : XR → XR) (grad : LossData XR → PVec → PVec)

theorem clipped_pos {ms : List ℝ} (hms : ∀ m ∈ ms, 0 < m) :
    get_clipped_log_mah (ms.map fin) ninf = (ms.map (Real.logb 10)).map fin := by
  unfold get_clipped_log_mah
  rw [List.map_map, List.map_map]
  exact List.map_congr_left fun m hm => clipLog_pos (hms m hm)

theorem target_pos {ts ms : List ℝ} (hms : ∀ m ∈ ms, 0 < m) {mlast : ℝ} (hl : ms.getLast? = some mlast) (dcut tmin : ℝ) :
    get_target_data (ts.map fin) ((ms.map (Real.logb 10)).map fin) ninf (fin dcut) (fin tmin) =
      .ok ((usedSnapshots dcut tmin mlast ts ms).map fun q => log10 (fin q.1),
        accumulate ((usedSnapshots dcut tmin mlast ts ms).map fun q => fin (Real.logb 10 q.2))) := by
  classical
  have hlast := hms mlast (List.mem_of_getLast? hl)
  unfold get_target_data
  rw [List.getLast?_map, List.getLast?_map, hl]
  simp only [Option.map_some]
  rw [List.map_map, List.zip_map, List.filter_map, List.map_map, List.map_map]
  have e : (ts.zip ms).filter ((fun q : XR × XR => decide (XR.lt (fin (Real.logb 10 mlast) - fin dcut) q.2 ∧ XR.lt ninf q.2 ∧
      XR.le (fin tmin) q.1)) ∘ Prod.map fin (fin ∘ Real.logb 10)) = usedSnapshots dcut tmin mlast ts ms := by
    unfold usedSnapshots
    apply List.filter_congr
    rintro ⟨t, m⟩ hq
    have hm := hms m (List.of_mem_zip hq).2
    have hp : (0 : ℝ) < 10 ^ (-dcut) := by positivity
    simp only [Function.comp, Prod.map, decide_eq_decide, Excluded, not_or, not_lt, not_le]
    rw [← Real.logb_lt_logb_iff (b := 10) (by norm_num) (mul_pos hp hlast) hm, Real.logb_mul hp.ne' hlast.ne',
      Real.logb_rpow (by norm_num) (by norm_num)]
    change (Real.logb 10 mlast - dcut < Real.logb 10 m ∧ True ∧ tmin ≤ t) ↔ _
    constructor
    · rintro ⟨h1, -, h2⟩; exact ⟨h2, by linarith⟩
    · rintro ⟨h1, h2⟩; exact ⟨by linarith, trivial, h1⟩
  rw [e]
  rfl

/-- The fitter uses its tables only through what `get_loss_data` makes of them. -/
theorem fitter_congr {ts ms ts' ms' : List XR} (h : ms.length = ts.length) (h' : ms'.length = ts'.length) (hne : ms ≠ [])
    (hne' : ms' ≠ []) {lgm dcut tmin : XR} (nstep n_warmup : ℕ) (tp : Option XR) (force : Bool)
    (e : get_loss_data f4 ts ms lgm dcut tmin NPTS_FIT_MIN tp = get_loss_data f4 ts' ms' lgm dcut tmin NPTS_FIT_MIN tp) :
    diffmah_fitter lbfgs adam f4 grad ts ms lgm dcut tmin nstep n_warmup tp force =
      diffmah_fitter lbfgs adam f4 grad ts' ms' lgm dcut tmin nstep n_warmup tp force := by
  obtain ⟨w, hw⟩ := check_ok hne
  obtain ⟨w', hw'⟩ := check_ok hne'
  unfold diffmah_fitter
  simp only [ne_eq, h, h', not_true, if_false, bind, Except.bind, hw, hw', e]

theorem argmaxBool_append {α : Type} (c : α → Prop) (l l' : List α) (h : ∀ x ∈ l, ¬ c x) (h' : ∃ x ∈ l', c x) :
    argmaxBool c (l ++ l') = argmaxBool c l' + l.length := by
  classical
  have h1 : l'.findIdx (fun x => decide (c x)) < l'.length := by
    rw [List.findIdx_lt_length]
    obtain ⟨x, hx, hc⟩ := h'
    exact ⟨x, hx, decide_eq_true hc⟩
  have h2 : (l ++ l').findIdx (fun x => decide (c x)) = l'.findIdx (fun x => decide (c x)) + l.length := by
    rw [List.findIdx_append, if_neg]
    rw [List.findIdx_lt_length]
    rintro ⟨x, hx, hc⟩
    exact h x hx (of_decide_eq_true hc)
  unfold argmaxBool
  simp only [h2, h1, if_true, List.length_append]
  rw [if_pos (by omega)]

theorem getLast?_append_some {α : Type} {l l' : List α} {x : α} (h : l'.getLast? = some x) : (l ++ l').getLast? = some x := by
  rw [List.getLast?_append, h]; rfl

/-! ## C145 -/

/-- C145. With a supplied peak time, two tables of positive masses with the same last time and the same last mass give the same result,
in every part, if the same snapshots are left after the cuts. -/
theorem C145_only_used_snapshots (ts ms ts' ms' : List ℝ) (hlen : ms.length = ts.length) (hlen' : ms'.length = ts'.length)
    (hms : ∀ m ∈ ms, 0 < m) (hms' : ∀ m ∈ ms', 0 < m) (tlast mlast dcut tmin : ℝ) (ht : ts.getLast? = some tlast)
    (ht' : ts'.getLast? = some tlast) (hm : ms.getLast? = some mlast) (hm' : ms'.getLast? = some mlast)
    (hused : usedSnapshots dcut tmin mlast ts ms = usedSnapshots dcut tmin mlast ts' ms') (nstep n_warmup : ℕ) (tpeak : XR)
    (force : Bool) :
    diffmah_fitter lbfgs adam f4 grad (ts.map fin) (ms.map fin) ninf (fin dcut) (fin tmin) nstep n_warmup (some tpeak) force =
      diffmah_fitter lbfgs adam f4 grad (ts'.map fin) (ms'.map fin) ninf (fin dcut) (fin tmin) nstep n_warmup (some tpeak) force := by
  have ne : ms.map fin ≠ [] := by rintro h; rw [List.map_eq_nil_iff] at h; subst h; simp at hm
  have ne' : ms'.map fin ≠ [] := by rintro h; rw [List.map_eq_nil_iff] at h; subst h; simp at hm'
  refine fitter_congr lbfgs adam f4 grad (by simpa) (by simpa) ne ne' nstep n_warmup _ force ?_
  obtain ⟨w, hw⟩ := check_ok ne
  obtain ⟨w', hw'⟩ := check_ok ne'
  unfold get_loss_data
  simp only [bind, Except.bind, hw, hw', clipped_pos hms, clipped_pos hms', target_pos hms hm, target_pos hms' hm', hused,
    List.getLast?_map, ht, ht', hm, hm', Option.map_some]

/-- C145. Snapshots before the others that the cuts exclude do not change the result in any part, also if the peak time is inferred,
provided that single precision can tell their masses from the last mass. -/
theorem C145_early_snapshots (te me ts ms : List ℝ) (hlene : me.length = te.length) (hlen : ms.length = ts.length)
    (hme : ∀ m ∈ me, 0 < m) (hms : ∀ m ∈ ms, 0 < m) (mlast dcut tmin : ℝ) (hm : ms.getLast? = some mlast)
    (hex : ∀ q ∈ te.zip me, Excluded dcut tmin mlast q) (hnan : f4 (fin (Real.logb 10 mlast)) ≠ nan)
    (hdist : ∀ m ∈ me, f4 (fin (Real.logb 10 m)) ≠ f4 (fin (Real.logb 10 mlast))) (nstep n_warmup : ℕ) (tpeak : Option XR)
    (force : Bool) :
    diffmah_fitter lbfgs adam f4 grad ((te ++ ts).map fin) ((me ++ ms).map fin) ninf (fin dcut) (fin tmin) nstep n_warmup tpeak force =
      diffmah_fitter lbfgs adam f4 grad (ts.map fin) (ms.map fin) ninf (fin dcut) (fin tmin) nstep n_warmup tpeak force := by
  classical
  have ne : ms.map fin ≠ [] := by rintro h; rw [List.map_eq_nil_iff] at h; subst h; simp at hm
  have ne' : (me ++ ms).map fin ≠ [] := by
    rw [List.map_append]; exact List.append_ne_nil_of_right_ne_nil _ ne
  have htne : ts ≠ [] := by
    rintro rfl
    rw [List.length_nil, List.length_eq_zero_iff] at hlen
    subst hlen; simp at hm
  obtain ⟨tlast, ht⟩ : ∃ t, ts.getLast? = some t := ⟨_, List.getLast?_eq_some_getLast htne⟩
  have hpos : ∀ m ∈ me ++ ms, 0 < m := fun m h => (List.mem_append.1 h).elim (hme m) (hms m)
  have hused : usedSnapshots dcut tmin mlast (te ++ ts) (me ++ ms) = usedSnapshots dcut tmin mlast ts ms := by
    unfold usedSnapshots
    rw [List.zip_append hlene.symm, List.filter_append, List.filter_eq_nil_iff.2, List.nil_append]
    intro q hq
    simpa using hex q hq
  cases tpeak with
  | some t =>
    exact C145_only_used_snapshots lbfgs adam f4 grad (te ++ ts) (me ++ ms) ts ms (by simp [hlene, hlen]) hlen hpos hms tlast mlast
      dcut tmin (getLast?_append_some ht) ht (getLast?_append_some hm) hm hused nstep n_warmup t force
  | none =>
    refine fitter_congr lbfgs adam f4 grad (by simp [hlene, hlen]) (by simpa) ne' ne nstep n_warmup _ force ?_
    obtain ⟨w, hw⟩ := check_ok ne
    obtain ⟨w', hw'⟩ := check_ok ne'
    have hidx : compute_indx_t_peak_singlehalo ((((me ++ ms).map (Real.logb 10)).map fin).map f4) =
        (compute_indx_t_peak_singlehalo (((ms.map (Real.logb 10)).map fin).map f4)).map (· + te.length) := by
      unfold compute_indx_t_peak_singlehalo
      simp only [List.getLast?_map, getLast?_append_some hm, hm, Option.map_some, Except.map]
      rw [List.map_append, List.map_append, List.map_append, argmaxBool_append]
      · simp [hlene]
      · intro x hx hc
        simp only [List.map_map, List.mem_map, Function.comp] at hx
        obtain ⟨m, hmm, rfl⟩ := hx
        exact hdist m hmm hc.1
      · refine ⟨f4 (fin (Real.logb 10 mlast)), ?_, rfl, hnan⟩
        simp only [List.map_map, List.mem_map, Function.comp]
        exact ⟨mlast, List.mem_of_getLast? hm, rfl⟩
    have hget : ∀ i : ℕ, ((te ++ ts).map fin)[i + te.length]? = (ts.map fin)[i]? := fun i => by
      rw [List.map_append, List.getElem?_append_right (by simp), List.length_map, Nat.add_sub_cancel]
    obtain ⟨i, hi⟩ : ∃ i, compute_indx_t_peak_singlehalo (((ms.map (Real.logb 10)).map fin).map f4) = .ok i := by
      unfold compute_indx_t_peak_singlehalo
      simp only [List.getLast?_map, hm, Option.map_some]
      exact ⟨_, rfl⟩
    rw [hi] at hidx
    have hidx' : compute_indx_t_peak_singlehalo ((((me ++ ms).map (Real.logb 10)).map fin).map f4) = .ok (i + te.length) := hidx
    unfold get_loss_data
    simp only [bind, Except.bind, hw, hw', clipped_pos hms, clipped_pos hpos, target_pos hms hm,
      target_pos hpos (getLast?_append_some hm), hused, hidx', hi, hget]
    simp only [List.getLast?_map, getLast?_append_some ht, ht, getLast?_append_some hm, hm, Option.map_some]

/-- C145. The proviso is needed: a first snapshot with the same mass as the last one becomes the inferred peak time, also if the cuts
exclude it from the fit. -/
theorem C145_excluded_snapshot_as_peak (t0 mlast : ℝ) (ts ms : List ℝ) (hm : ms.getLast? = some mlast) (hpos : ∀ m ∈ ms, 0 < m)
    (hf4 : ∀ x : ℝ, ∃ y : ℝ, f4 (fin x) = fin y) (dcut tmin : ℝ) (nstep n_warmup : ℕ) (force : Bool) (r : FitResult)
    (h : diffmah_fitter lbfgs adam f4 grad ((t0 :: ts).map fin) ((mlast :: ms).map fin) ninf (fin dcut) (fin tmin) nstep n_warmup none
      force = .ok r) (hs : r.skip_fit = false) (τ : ℝ) (hτ : f4 (fin t0) = fin τ) (h1 : 0.05 < τ) (h2 : τ < 20) :
    r.p_best.t_peak = fin τ := by
  have hpos' : ∀ m ∈ mlast :: ms, 0 < m := by
    intro m hmem
    rcases List.mem_cons.1 hmem with rfl | hmem
    · exact hpos _ (List.mem_of_getLast? hm)
    · exact hpos m hmem
  obtain ⟨i, t, m, ml, ht, -, hl, -, hmin, hr⟩ :=
    C31_tpeak_inferred lbfgs adam f4 grad (fin dcut) (fin tmin) nstep n_warmup force (t0 :: ts) (mlast :: ms) hpos' hf4 r h hs
  have e : ml = mlast := by
    rw [show mlast :: ms = [mlast] ++ ms from rfl, getLast?_append_some hm] at hl
    exact (Option.some.inj hl).symm
  subst e
  rcases Nat.eq_zero_or_pos i with rfl | hi
  · have : t = t0 := (Option.some.inj ht).symm
    subst this
    exact hr τ hτ h1 h2
  · exact absurd rfl (hmin 0 hi ml rfl)

/-- A run that is not skipped, in which the first snapshot is excluded and has the mass of the last one. -/
example (adam : ℝ → AdamOpt S) (nstep n_warmup : ℕ) : ∃ r,
    diffmah_fitter originLbfgs adam id grad (((0.5 : ℝ) :: [1, 2, 3, 4]).map fin)
      (((10 : ℝ) ^ (12 : ℝ) :: [(10 : ℝ) ^ (11 : ℝ), (10 : ℝ) ^ (11.5 : ℝ), (10 : ℝ) ^ (11.75 : ℝ), (10 : ℝ) ^ (12 : ℝ)]).map fin) ninf
      (fin 2.5) (fin 1) nstep n_warmup none false = .ok r ∧ r.skip_fit = false ∧
    Excluded 2.5 1 ((10 : ℝ) ^ (12 : ℝ)) (0.5, (10 : ℝ) ^ (12 : ℝ)) := by
  obtain ⟨r0, h0, hs0⟩ := fitted_example adam id grad nstep n_warmup (fin 4)
  obtain ⟨r, h⟩ := origin_ok adam id grad (((0.5 : ℝ) :: [1, 2, 3, 4]).map fin)
    (((10 : ℝ) ^ (12 : ℝ) :: [(10 : ℝ) ^ (11 : ℝ), (10 : ℝ) ^ (11.5 : ℝ), (10 : ℝ) ^ (11.75 : ℝ), (10 : ℝ) ^ (12 : ℝ)]).map fin) ninf
    (fin 2.5) (fin 1) nstep n_warmup none rfl (by simp)
  refine ⟨r, h, ?_, .inl (by norm_num)⟩
  by_contra hc
  have hc : r.skip_fit = true := by simpa using hc
  rcases (C29_skip_iff _ _ _ _ _ _ _ _ _ _ _ _ _ r h).1 hc with hf | hf
  · cases hf
  obtain ⟨ml, hml, -, e⟩ := fit_target _ _ _ _ _ _ _ _ _ _ _ _ _ r h (fl := 0) rfl
  obtain ⟨ml0, hml0, -, e0⟩ := fit_target _ _ _ _ _ _ _ _ _ _ _ _ _ r0 h0 (fl := 0) rfl
  have hl : (10 : ℝ) ^ (12 : ℝ) = ml := Option.some.inj hml
  have hl0 : (10 : ℝ) ^ (12 : ℝ) = ml0 := Option.some.inj hml0
  subst hl hl0
  have hsel : ∀ l, insideCuts (flooredLog 0 ((10 : ℝ) ^ (12 : ℝ))) 2.5 1 ninf (((0.5 : ℝ), flooredLog 0 ((10 : ℝ) ^ (12 : ℝ))) :: l) =
      insideCuts (flooredLog 0 ((10 : ℝ) ^ (12 : ℝ))) 2.5 1 ninf l := fun l => by
    unfold insideCuts
    rw [List.filter_cons, if_neg]
    simp only [decide_eq_true_eq]
    rintro ⟨-, -, hh⟩
    norm_num at hh
  simp only [List.map_cons, List.zip_cons_cons, hsel] at e e0
  rw [e, ← e0] at hf
  have := (C29_skip_iff _ _ _ _ _ _ _ _ _ _ _ _ _ r0 h0).2 (.inr hf)
  rw [hs0] at this
  cases this

/-- Two early snapshots, one of which is heavier than the halo at the end, and two light ones, in front of four others, in exact
arithmetic. -/
example : ∃ mlast, ([10 ^ 11, 2 * 10 ^ 11, 5 * 10 ^ 11, 10 ^ 12] : List ℝ).getLast? = some mlast ∧
    (∀ m ∈ ([10 ^ 13, 10 ^ 11, 10 ^ 9, 2 * 10 ^ 8] : List ℝ), 0 < m) ∧
    (∀ m ∈ ([10 ^ 11, 2 * 10 ^ 11, 5 * 10 ^ 11, 10 ^ 12] : List ℝ), 0 < m) ∧
    (∀ q ∈ ([0.3, 0.6, 1.5, 2] : List ℝ).zip [10 ^ 13, 10 ^ 11, 10 ^ 9, 2 * 10 ^ 8], Excluded DLOGM_CUT T_FIT_MIN mlast q) ∧
    (fin (Real.logb 10 mlast)) ≠ nan ∧
    ∀ m ∈ ([10 ^ 13, 10 ^ 11, 10 ^ 9, 2 * 10 ^ 8] : List ℝ), fin (Real.logb 10 m) ≠ fin (Real.logb 10 mlast) := by
  have hp : (10 : ℝ) ^ (-3 : ℝ) ≤ (10 : ℝ) ^ (-DLOGM_CUT) :=
    Real.rpow_le_rpow_of_exponent_le (by norm_num) (by norm_num [DLOGM_CUT])
  have h3 : (10 : ℝ) ^ (-3 : ℝ) = 1 / 1000 := by
    rw [Real.rpow_neg (by norm_num), show (3 : ℝ) = (3 : ℕ) by norm_num, Real.rpow_natCast]; norm_num
  rw [h3] at hp
  refine ⟨10 ^ 12, rfl, by norm_num, by norm_num, ?_, by simp, ?_⟩
  · simp only [List.zip_cons_cons, List.zip_nil_left, List.mem_cons, List.not_mem_nil, or_false, Excluded, T_FIT_MIN]
    rintro q (rfl | rfl | rfl | rfl)
    · left; norm_num
    · left; norm_num
    · right; norm_num; linarith
    · right; norm_num; linarith
  · intro m hm h
    have hm0 : 0 < m := by
      have : ∀ m ∈ ([10 ^ 13, 10 ^ 11, 10 ^ 9, 2 * 10 ^ 8] : List ℝ), 0 < m := by norm_num
      exact this m hm
    have := Real.logb_injOn_pos (b := 10) (by norm_num) hm0 (show (0 : ℝ) < 10 ^ 12 by norm_num) (XR.fin.inj h)
    subst this
    norm_num at hm

end Diffmah.Fit

import Verif.Lemmas.Fitter
import Verif.Props.Optim
import Verif.Props.Bounding

/-!
# Properties of the single-halo fitter (C29-C35, C40, C41, C79)
-/

namespace Diffmah.Fit

open XR hiding log10 pow10 ln sigm max lt le add sub mul div neg
open JOps Diffmah.Utils Spec

variable {S : Type} (lbfgs : (PVec → XR × PVec) → PVec → LbfgsResult) (adam : ℝ → AdamOpt S)
  (f4 : XR → XR) (grad : LossData XR → PVec → PVec) (t_sim mah_sim : List XR)
  (lgm_min dlogm_cut t_fit_min : XR) (nstep n_warmup : ℕ) (tp : Option XR) (force : Bool)

/-! ## Decomposition of a successful call -/

theorem fitter_ok (r : FitResult)
    (h : diffmah_fitter lbfgs adam f4 grad t_sim mah_sim lgm_min dlogm_cut t_fit_min nstep n_warmup
      tp force = .ok r) :
    mah_sim.length = t_sim.length ∧ mah_sim ≠ [] ∧
    ∃ u s, get_loss_data f4 t_sim mah_sim lgm_min dlogm_cut t_fit_min 3 tp = .ok (u, r.loss_data, s) ∧
      r.skip_fit = (s || force) ∧
      ((r.skip_fit = true ∧ r = ⟨⟨fin (-99.0), fin (-99.0), fin (-99.0), fin (-99.0), fin (-99.0)⟩,
          fin (-99.0), true, false, -1, r.loss_data⟩) ∨
       (r.skip_fit = false ∧ ∃ res up, bfgs_adam_fallback lbfgs adam f4 (fit_lg grad r.loss_data) u
            nstep n_warmup = .ok res ∧ makeU res.p_best r.loss_data.u_t_peak = .ok up ∧
          r.p_best = get_bounded_mah_params up ∧ r.loss_best = res.loss_best ∧
          r.fit_terminates = res.fit_terminates ∧ r.code_used = res.code_used)) := by
  unfold diffmah_fitter at h
  by_cases hlen : mah_sim.length = t_sim.length
  · have hne : mah_sim ≠ [] := by
      rintro rfl
      simp only [ne_eq, hlen, not_true, if_false, bind, Except.bind] at h
      cases h
    obtain ⟨w, hw⟩ := check_ok hne
    refine ⟨hlen, hne, ?_⟩
    simp only [ne_eq, hlen, not_true, if_false, bind, Except.bind, hw, pure, Except.pure] at h
    cases hg : get_loss_data f4 t_sim mah_sim lgm_min dlogm_cut t_fit_min NPTS_FIT_MIN tp with
    | error e => simp only [hg] at h; cases h
    | ok a =>
      obtain ⟨u, ld, s⟩ := a
      simp only [hg] at h
      cases hs : (s || force) with
      | true =>
        simp only [hs, if_true] at h
        cases h
        exact ⟨u, s, hg, hs.symm, .inl ⟨rfl, rfl⟩⟩
      | false =>
        simp only [hs, Bool.false_eq_true, if_false] at h
        cases hb : bfgs_adam_fallback lbfgs adam f4 (fit_lg grad ld) u nstep n_warmup with
        | error e => simp only [hb] at h; cases h
        | ok res =>
          simp only [hb] at h
          cases hm : makeU res.p_best ld.u_t_peak with
          | error e => simp only [hm] at h; cases h
          | ok up =>
            simp only [hm] at h
            cases h
            exact ⟨u, s, hg, hs.symm, .inr ⟨rfl, res, up, hb, hm, rfl, rfl, rfl, rfl⟩⟩
  · simp only [ne_eq, hlen, not_false_eq_true, if_true, bind, Except.bind] at h
    cases h

theorem last_exists {α : Type} {l : List α} (h : l ≠ []) : ∃ a, l.getLast? = some a :=
  ⟨l.getLast h, List.getLast?_eq_some_getLast h⟩

theorem npts_eq_countBelowLast (l : List XR) : compute_non_trivial_npts l = countBelowLast l := by
  classical
  unfold compute_non_trivial_npts countBelowLast
  cases h : l.getLast? with
  | none =>
    have : l = [] := List.getLast?_eq_none_iff.1 h
    subst this; rfl
  | some a => simp only [Option.getD_some, List.countP_eq_length_filter]

/-! ## C29 -/

/-- C29. The optimiser is skipped exactly when asked to, or when fewer than 3 target points lie
below the final target mass. -/
theorem C29_skip_iff (r : FitResult)
    (h : diffmah_fitter lbfgs adam f4 grad t_sim mah_sim lgm_min dlogm_cut t_fit_min nstep n_warmup
      tp force = .ok r) :
    r.skip_fit = true ↔ force = true ∨ countBelowLast r.loss_data.log_mah_target < 3 := by
  obtain ⟨hlen, hne, u, s, hg, hs, -⟩ := fitter_ok _ _ _ _ _ _ _ _ _ _ _ _ _ r h
  have htne : t_sim ≠ [] := by rintro rfl; exact hne (List.length_eq_zero_iff.1 hlen)
  obtain ⟨tl, htl⟩ := last_exists htne
  obtain ⟨ml, hml⟩ := last_exists hne
  obtain ⟨tpk, -, e⟩ := get_loss_data_eq f4 t_sim mah_sim lgm_min dlogm_cut t_fit_min 3 tp tl ml htl
    hml hlen
  rw [e] at hg
  rw [hs]
  split at hg
  · rename_i hlt
    have hs2 := congrArg (fun x => x.2.2) (Except.ok.inj hg)
    have hl2 := congrArg (fun x => x.2.1.log_mah_target) (Except.ok.inj hg)
    simp only at hs2 hl2
    simp only [← hs2, Bool.true_or, true_iff]
    right; rw [← npts_eq_countBelowLast, ← hl2]; exact hlt
  · rename_i hlt
    have hs2 := congrArg (fun x => x.2.2) (Except.ok.inj hg)
    have hl2 := congrArg (fun x => x.2.1.log_mah_target) (Except.ok.inj hg)
    simp only at hs2 hl2
    simp only [← hs2, Bool.false_or]
    rw [npts_eq_countBelowLast] at hlt
    rw [← hl2]
    constructor
    · exact .inl
    · rintro (h | h)
      · exact h
      · exact absurd h hlt

/-- C29. A skipped fit returns the fill values and does not depend on the optimisers at all. -/
theorem C29_skipped (r : FitResult)
    (h : diffmah_fitter lbfgs adam f4 grad t_sim mah_sim lgm_min dlogm_cut t_fit_min nstep n_warmup
      tp force = .ok r) (hs : r.skip_fit = true) :
    r.p_best = ⟨fin (-99), fin (-99), fin (-99), fin (-99), fin (-99)⟩ ∧ r.loss_best = fin (-99) ∧
    r.fit_terminates = false ∧ r.code_used = -1 ∧
    ∀ (S' : Type) (lbfgs' : (PVec → XR × PVec) → PVec → LbfgsResult) (adam' : ℝ → AdamOpt S'),
      diffmah_fitter lbfgs' adam' f4 grad t_sim mah_sim lgm_min dlogm_cut t_fit_min nstep n_warmup
        tp force = .ok r := by
  have h0 := h
  obtain ⟨hlen, hne, u, s, hg, hs', hcase⟩ := fitter_ok _ _ _ _ _ _ _ _ _ _ _ _ _ r h
  rcases hcase with ⟨-, e⟩ | ⟨e, -⟩
  · have h99 : (-99.0 : ℝ) = -99 := by norm_num
    rw [h99] at e
    refine ⟨by rw [e], by rw [e], by rw [e], by rw [e], ?_⟩
    intro S' lbfgs' adam'
    obtain ⟨w, hw⟩ := check_ok hne
    unfold diffmah_fitter
    have hg' : get_loss_data f4 t_sim mah_sim lgm_min dlogm_cut t_fit_min NPTS_FIT_MIN tp
      = .ok (u, r.loss_data, s) := hg
    have hsf : (s || force) = true := by rw [← hs']; exact hs
    simp only [ne_eq, hlen, not_true, if_false, bind, Except.bind, hw, pure, Except.pure, hg', hsf,
      if_true]
    simp only [NOFIT_FILL, h99]
    exact congrArg Except.ok e.symm
  · rw [e] at hs; cases hs

/-- C29. If the fit is not skipped, `code_used` is 0 or 1. -/
theorem C29_fitted (r : FitResult)
    (h : diffmah_fitter lbfgs adam f4 grad t_sim mah_sim lgm_min dlogm_cut t_fit_min nstep n_warmup
      tp force = .ok r) (hs : r.skip_fit = false) : r.code_used = 0 ∨ r.code_used = 1 := by
  obtain ⟨hlen, hne, u, s, hg, hs', hcase⟩ := fitter_ok _ _ _ _ _ _ _ _ _ _ _ _ _ r h
  rcases hcase with ⟨e, -⟩ | ⟨-, res, up, hb, -, -, -, -, e⟩
  · rw [e] at hs; cases hs
  · rw [e]
    rcases C36_code_used _ _ _ _ _ _ _ _ hb with ⟨h, -⟩ | ⟨h, -⟩
    · exact .inl h
    · exact .inr h

/-- C29. The error cases: mismatched shapes raise AssertionError, empty arrays ValueError; and any
other call with `force_skip_fit` succeeds. -/
theorem C29_errors :
    (mah_sim.length ≠ t_sim.length → diffmah_fitter lbfgs adam f4 grad t_sim mah_sim lgm_min
      dlogm_cut t_fit_min nstep n_warmup tp force = .error .assertionError) ∧
    (diffmah_fitter lbfgs adam f4 grad [] [] lgm_min
      dlogm_cut t_fit_min nstep n_warmup tp force = .error .valueError) ∧
    (mah_sim.length = t_sim.length → mah_sim ≠ [] → ∃ r, diffmah_fitter lbfgs adam f4 grad t_sim
      mah_sim lgm_min dlogm_cut t_fit_min nstep n_warmup tp true = .ok r) := by
  refine ⟨?_, rfl, ?_⟩
  · intro hlen
    unfold diffmah_fitter
    simp only [ne_eq, hlen, not_false_eq_true, if_true]
    rfl
  · intro hlen hne
    have htne : t_sim ≠ [] := by rintro rfl; exact hne (List.length_eq_zero_iff.1 hlen)
    obtain ⟨tl, htl⟩ := last_exists htne
    obtain ⟨ml, hml⟩ := last_exists hne
    obtain ⟨tpk, -, e⟩ := get_loss_data_eq f4 t_sim mah_sim lgm_min dlogm_cut t_fit_min 3 tp tl ml
      htl hml hlen
    generalize hA : (if _ < 3 then _ else _ : PVec × LossData XR × Bool) = A at e
    obtain ⟨u, ld, s⟩ := A
    obtain ⟨w, hw⟩ := check_ok hne
    have hg' : get_loss_data f4 t_sim mah_sim lgm_min dlogm_cut t_fit_min NPTS_FIT_MIN tp
      = .ok (u, ld, s) := e
    refine ⟨⟨⟨fin NOFIT_FILL, fin NOFIT_FILL, fin NOFIT_FILL, fin NOFIT_FILL, fin NOFIT_FILL⟩,
      fin NOFIT_FILL, true, false, -1, ld⟩, ?_⟩
    unfold diffmah_fitter
    simp only [ne_eq, hlen, not_true, if_false, bind, Except.bind, hw, pure, Except.pure, hg',
      Bool.or_true, if_true]

/-! ## C30 -/

/-- C30. Whatever the optimisers do: if they return finite values (and `t_peak` is admissible), the
best-fit parameters are finite, strictly inside the bounds, with late index below early index. -/
theorem C30_fitted_parameters_valid (r : FitResult)
    (h : diffmah_fitter lbfgs adam f4 grad t_sim mah_sim lgm_min dlogm_cut t_fit_min nstep n_warmup
      tp force = .ok r) (hs : r.skip_fit = false) :
    ∃ u u_best : PVec, (∃ s, get_loss_data f4 t_sim mah_sim lgm_min dlogm_cut t_fit_min 3 tp
        = .ok (u, r.loss_data, s)) ∧
      (bfgs_adam_fallback lbfgs adam f4 (fit_lg grad r.loss_data) u nstep n_warmup
        = .ok ⟨u_best, r.loss_best, r.fit_terminates, r.code_used⟩) ∧
      ((∀ x ∈ u_best, IsFin x) → IsFin r.loss_data.u_t_peak →
        ∃ p : MahParams ℝ, r.p_best = p.map fin ∧ Spec.Valid p) := by
  obtain ⟨hlen, hne, u, s, hg, hs', hcase⟩ := fitter_ok _ _ _ _ _ _ _ _ _ _ _ _ _ r h
  rcases hcase with ⟨e, -⟩ | ⟨-, res, up, hb, hm, e1, e2, e3, e4⟩
  · rw [e] at hs; cases hs
  refine ⟨u, res.p_best, ⟨s, hg⟩, by rw [hb, e2, e3, e4], ?_⟩
  intro hfin htp
  unfold makeU at hm
  split at hm
  · rename_i a b c d hab
    cases hm
    rw [hab] at hfin
    obtain ⟨a', rfl⟩ := isFin_iff.1 (hfin a (by simp))
    obtain ⟨b', rfl⟩ := isFin_iff.1 (hfin b (by simp))
    obtain ⟨c', rfl⟩ := isFin_iff.1 (hfin c (by simp))
    obtain ⟨d', rfl⟩ := isFin_iff.1 (hfin d (by simp))
    obtain ⟨t', ht'⟩ := isFin_iff.1 htp
    refine ⟨get_bounded_mah_params ⟨a', b', c', d', t'⟩, ?_, C12_bounded_params_valid _⟩
    rw [e1, ht', ← bounded_params_fin]; rfl
  · cases hm

/-! ## C31 -/

theorem tpeak_of_u (up : MahUParams XR) (τ : ℝ) (h1 : 0.05 < τ) (h2 : τ < 20)
    (h : up.u_t_peak = get_unbounded_diffmah_param (fin τ) MAH_PBOUNDS.t_peak) :
    (get_bounded_mah_params up).t_peak = fin τ := by
  have hb1 : MAH_PBOUNDS.t_peak.1 < τ := h1
  have hb2 : τ < MAH_PBOUNDS.t_peak.2 := by simp only [MAH_PBOUNDS]; linarith
  change get_bounded_diffmah_param up.u_t_peak MAH_PBOUNDS.t_peak = fin τ
  rw [h, unbounded_fin_in hb1 hb2, bounded_fin, bounded_unbounded hb1 hb2]

theorem fit_u_t_peak (r : FitResult)
    (h : diffmah_fitter lbfgs adam f4 grad t_sim mah_sim lgm_min dlogm_cut t_fit_min nstep n_warmup
      tp force = .ok r) (hs : r.skip_fit = false) :
    ∃ tpk ml, mah_sim.getLast? = some ml ∧ (tp = some tpk ∨ (tp = none ∧
        t_sim[argmaxBool (fun x => xeq x (f4 (clipLog lgm_min ml)))
          ((get_clipped_log_mah mah_sim lgm_min).map f4)]? = some tpk)) ∧
      ∀ τ : ℝ, f4 tpk = fin τ → 0.05 < τ → τ < 20 → r.p_best.t_peak = fin τ := by
  obtain ⟨hlen, hne, u, s, hg, hs', hcase⟩ := fitter_ok _ _ _ _ _ _ _ _ _ _ _ _ _ r h
  rcases hcase with ⟨e, -⟩ | ⟨-, res, up, hb, hm, e1, e2, e3, e4⟩
  · rw [e] at hs; cases hs
  have htne : t_sim ≠ [] := by rintro rfl; exact hne (List.length_eq_zero_iff.1 hlen)
  obtain ⟨tl, htl⟩ := last_exists htne
  obtain ⟨ml, hml⟩ := last_exists hne
  obtain ⟨tpk, htpk, e⟩ := get_loss_data_eq f4 t_sim mah_sim lgm_min dlogm_cut t_fit_min 3 tp tl ml
    htl hml hlen
  refine ⟨tpk, ml, hml, htpk, ?_⟩
  intro τ hτ h1 h2
  rw [e] at hg
  split at hg
  · have : s = true := by
      have := congrArg (fun x => x.2.2) (Except.ok.inj hg)
      exact this.symm
    rw [hs', this] at hs; cases hs
  · have hu : r.loss_data.u_t_peak = get_unbounded_diffmah_param (f4 tpk) MAH_PBOUNDS.t_peak := by
      have := congrArg (fun x => x.2.1.u_t_peak) (Except.ok.inj hg)
      exact this.symm
    rw [e1]
    apply tpeak_of_u _ _ h1 h2
    unfold makeU at hm
    split at hm
    · cases hm
      change r.loss_data.u_t_peak = _
      rw [hu, hτ]
    · cases hm

/-- C31. A supplied `tpeak_fixed` (in single precision) inside (0.05, 20) is returned as the
best-fit `t_peak`, whatever the optimisers do. -/
theorem C31_tpeak_fixed (x : XR) (τ : ℝ) (hx : f4 x = fin τ) (h1 : 0.05 < τ) (h2 : τ < 20)
    (r : FitResult)
    (h : diffmah_fitter lbfgs adam f4 grad t_sim mah_sim lgm_min dlogm_cut t_fit_min nstep n_warmup
      (some x) force = .ok r) (hs : r.skip_fit = false) : r.p_best.t_peak = fin τ := by
  obtain ⟨tpk, ml, -, ht, hr⟩ := fit_u_t_peak _ _ _ _ _ _ _ _ _ _ _ _ _ r h hs
  rcases ht with ht | ⟨ht, -⟩
  · cases ht; exact hr τ hx h1 h2
  · cases ht

theorem clipLog_pos {m : ℝ} (hm : 0 < m) : clipLog ninf (fin m) = fin (Real.logb 10 m) := by
  have : ¬ XR.le (fin m) (pow10 ninf : XR) := by
    change ¬ m ≤ 0; linarith
  unfold clipLog
  rw [jwhere, if_neg this, log10_pos hm]

/-- C31. Otherwise (positive masses, default `lgm_min`) `t_peak` is the first time at which the
single-precision log mass equals the final one, whatever the optimisers do. -/
theorem C31_tpeak_inferred (ts ms : List ℝ) (hms : ∀ m ∈ ms, 0 < m)
    (hf4 : ∀ x : ℝ, ∃ y : ℝ, f4 (fin x) = fin y) (r : FitResult)
    (h : diffmah_fitter lbfgs adam f4 grad (ts.map fin) (ms.map fin) ninf dlogm_cut t_fit_min nstep
      n_warmup none force = .ok r) (hs : r.skip_fit = false) :
    ∃ (i : ℕ) (t m mlast : ℝ), ts[i]? = some t ∧ ms[i]? = some m ∧ ms.getLast? = some mlast ∧
      f4 (fin (Real.logb 10 m)) = f4 (fin (Real.logb 10 mlast)) ∧
      (∀ j < i, ∀ m', ms[j]? = some m' →
        f4 (fin (Real.logb 10 m')) ≠ f4 (fin (Real.logb 10 mlast))) ∧
      ∀ τ : ℝ, f4 (fin t) = fin τ → 0.05 < τ → τ < 20 → r.p_best.t_peak = fin τ := by
  obtain ⟨tpk, ml, hml, ht, hr⟩ := fit_u_t_peak _ _ _ _ _ _ _ _ _ _ _ _ _ r h hs
  rcases ht with ht | ⟨-, ht⟩
  · cases ht
  rw [List.getLast?_map] at hml
  obtain ⟨mlast, hml', rfl⟩ := Option.map_eq_some_iff.1 hml
  have hmpos : 0 < mlast := hms _ (List.mem_of_getLast? hml')
  have hclip : (get_clipped_log_mah (ms.map fin) ninf).map f4
      = ms.map fun m => f4 (fin (Real.logb 10 m)) := by
    unfold get_clipped_log_mah
    rw [List.map_map, List.map_map]
    apply List.map_congr_left
    intro m hm
    exact congrArg f4 (clipLog_pos (hms m hm))
  rw [hclip, clipLog_pos hmpos] at ht
  set i := argmaxBool (fun x => xeq x (f4 (fin (Real.logb 10 mlast))))
    (ms.map fun m => f4 (fin (Real.logb 10 m)))
  obtain ⟨x, hx, hc, hmin⟩ := argmaxBool_spec (fun x => xeq x (f4 (fin (Real.logb 10 mlast))))
    (ms.map fun m => f4 (fin (Real.logb 10 m)))
    ⟨_, List.mem_map_of_mem (List.mem_of_getLast? hml'), rfl, by
      obtain ⟨y, hy⟩ := hf4 (Real.logb 10 mlast)
      simp only [hy]; intro h; cases h⟩
  rw [List.getElem?_map] at hx ht
  obtain ⟨m, hm, rfl⟩ := Option.map_eq_some_iff.1 hx
  obtain ⟨t, ht', rfl⟩ := Option.map_eq_some_iff.1 ht
  refine ⟨i, t, m, mlast, ht', hm, hml', hc.1, ?_, hr⟩
  intro j hj m' hm' heq
  refine hmin j hj _ (by rw [List.getElem?_map, hm']; rfl) ⟨heq, ?_⟩
  obtain ⟨y, hy⟩ := hf4 (Real.logb 10 m')
  rw [hy]; intro h; cases h

/-- C31. A `tpeak_fixed` outside (0.05, 20) is not honoured: on the boundary the stored
`u_t_peak` is infinite, outside the fitted `t_peak` is NaN. -/
theorem C31_tpeak_out_of_bounds (x : XR) (τ : ℝ) (hx : f4 x = fin τ) (h1 : τ < 0.05 ∨ 20 < τ)
    (r : FitResult)
    (h : diffmah_fitter lbfgs adam f4 grad t_sim mah_sim lgm_min dlogm_cut t_fit_min nstep n_warmup
      (some x) force = .ok r) (hs : r.skip_fit = false) : r.p_best.t_peak = nan := by
  obtain ⟨hlen, hne, u, s, hg, hs', hcase⟩ := fitter_ok _ _ _ _ _ _ _ _ _ _ _ _ _ r h
  rcases hcase with ⟨e, -⟩ | ⟨-, res, up, hb, hm, e1, e2, e3, e4⟩
  · rw [e] at hs; cases hs
  have htne : t_sim ≠ [] := by rintro rfl; exact hne (List.length_eq_zero_iff.1 hlen)
  obtain ⟨tl, htl⟩ := last_exists htne
  obtain ⟨ml, hml⟩ := last_exists hne
  obtain ⟨tpk, htpk, e⟩ := get_loss_data_eq f4 t_sim mah_sim lgm_min dlogm_cut t_fit_min 3 (some x) tl ml
    htl hml hlen
  rcases htpk with ht | ⟨ht, -⟩
  · cases ht
    rw [e] at hg
    split at hg
    · have : s = true := by
        have := congrArg (fun x => x.2.2) (Except.ok.inj hg)
        exact this.symm
      rw [hs', this] at hs; cases hs
    · have hu : r.loss_data.u_t_peak = get_unbounded_diffmah_param (f4 x) MAH_PBOUNDS.t_peak := by
        have := congrArg (fun x => x.2.1.u_t_peak) (Except.ok.inj hg)
        exact this.symm
      have hnan : r.loss_data.u_t_peak = nan := by
        rw [hu, hx]
        simp only [get_unbounded_diffmah_param, lit_fin, fin_add, fin_mul]
        apply inverse_sigmoid_out
        · norm_num [MAH_PBOUNDS]
        · rcases h1 with h1 | h1
          · exact .inl h1
          · right; simp only [MAH_PBOUNDS]; linarith
      unfold makeU at hm
      split at hm
      · cases hm
        rw [e1]
        change get_bounded_diffmah_param r.loss_data.u_t_peak MAH_PBOUNDS.t_peak = nan
        rw [hnan]
        simp [get_bounded_diffmah_param, sigmoid]
      · cases hm
  · cases ht

/-! ## C32 -/

/-- C32. For every non-empty table, the index is that of the first entry equal to the last one. -/
theorem C32_first_index_of_last (xs : List ℝ) (last : ℝ) (hl : xs.getLast? = some last) :
    ∃ i, compute_indx_t_peak_singlehalo (xs.map fin) = .ok i ∧ xs[i]? = some last ∧
      ∀ j < i, ∀ y, xs[j]? = some y → y ≠ last := by
  obtain ⟨x, hx, hc, hmin⟩ := argmaxBool_spec (fun x => xeq x (fin last)) (xs.map fin)
    ⟨fin last, List.mem_map_of_mem (List.mem_of_getLast? hl), rfl, by intro h; cases h⟩
  refine ⟨argmaxBool (fun x => xeq x (fin last)) (xs.map fin), ?_, ?_, ?_⟩
  · unfold compute_indx_t_peak_singlehalo
    rw [List.getLast?_map, hl]; rfl
  · rw [List.getElem?_map] at hx
    obtain ⟨y, hy, rfl⟩ := Option.map_eq_some_iff.1 hx
    rw [hy, fin_injective hc.1]
  · intro j hj y hy he
    exact hmin j hj (fin y) (by rw [List.getElem?_map, hy]; rfl) ⟨by rw [he], by intro h; cases h⟩

/-- C32. For a non-decreasing history this is the least index at which the maximum is attained. -/
theorem C32_first_peak (xs : List ℝ) (hne : xs ≠ []) (hmono : xs.Pairwise (· ≤ ·)) :
    ∃ i x, compute_indx_t_peak_singlehalo (xs.map fin) = .ok i ∧ xs[i]? = some x ∧
      (∀ y ∈ xs, y ≤ x) ∧ ∀ j < i, ∀ y, xs[j]? = some y → y < x := by
  obtain ⟨last, hl⟩ := last_exists hne
  obtain ⟨i, h1, h2, h3⟩ := C32_first_index_of_last xs last hl
  have hmax : ∀ y ∈ xs, y ≤ last := by
    intro y hy
    obtain ⟨j, hj, rfl⟩ := List.getElem_of_mem hy
    have hlen : xs.length - 1 < xs.length := by omega
    have hlast : xs[xs.length - 1] = last := by
      rw [List.getLast?_eq_getElem?, List.getElem?_eq_getElem hlen] at hl
      exact Option.some.inj hl
    rcases Nat.lt_or_ge j (xs.length - 1) with h | h
    · rw [← hlast]; exact List.pairwise_iff_getElem.1 hmono j _ hj hlen h
    · have : j = xs.length - 1 := by omega
      subst this; exact hlast.le
  refine ⟨i, last, h1, h2, hmax, ?_⟩
  intro j hj y hy
  exact lt_of_le_of_ne (hmax y (List.mem_of_getElem? hy)) (h3 j hj y hy)

/-- C32. For a history that is not monotone the answer need not be the peak: the peak of
`[1, 3, 2]` is at index 1, the function returns 2. -/
theorem C32_not_peak_if_not_monotone :
    compute_indx_t_peak_singlehalo (([1, 3, 2] : List ℝ).map fin) = .ok 2 := by
  obtain ⟨i, h1, h2, h3⟩ := C32_first_index_of_last [1, 3, 2] 2 rfl
  rw [h1]
  match i, h2 with
  | 0, h2 => simp at h2
  | 1, h2 => simp at h2
  | 2, _ => rfl
  | n + 3, h2 => simp at h2

/-- C32, for populations: each halo separately. -/
theorem C32_halopop (tables : List (List XR)) (is : List ℕ)
    (h : compute_indx_t_peak_halopop tables = .ok is) :
    is.length = tables.length ∧ ∀ (k : ℕ) (tab : List XR) (i : ℕ), tables[k]? = some tab →
      is[k]? = some i → compute_indx_t_peak_singlehalo tab = .ok i := by
  unfold compute_indx_t_peak_halopop at h
  induction tables generalizing is with
  | nil => cases h; exact ⟨rfl, by simp⟩
  | cons tab tables ih =>
    rw [List.mapM_cons] at h
    cases ht : compute_indx_t_peak_singlehalo tab with
    | error e => rw [ht] at h; cases h
    | ok i =>
      rw [ht] at h
      cases hr : tables.mapM compute_indx_t_peak_singlehalo with
      | error e => rw [hr] at h; cases h
      | ok is' =>
        rw [hr] at h
        cases h
        obtain ⟨a, b⟩ := ih is' hr
        refine ⟨by simp [a], ?_⟩
        intro k tab' i' h1 h2
        rcases k with _ | k
        · simp only [List.getElem?_cons_zero, Option.some.injEq] at h1 h2
          rw [← h1, ← h2]; exact ht
        · exact b k tab' i' (by simpa using h1) (by simpa using h2)

example : ([1, 2, 5, 5] : List ℝ).Pairwise (· ≤ ·) := by norm_num

end Diffmah.Fit

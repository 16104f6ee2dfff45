import Verif.Props.FitterTarget

/-!
# C119: a history made by the model is fitted exactly by its own parameters

The input of the fitter is the mass history of a valid halo on a grid of times that ends today.
-/

namespace Diffmah.Fit

open XR hiding log10 pow10 ln sigm max lt le add sub mul div neg
open JOps Spec

/-! ## The loss on finite data -/

theorem jmean_fin (l : List ℝ) (h : l ≠ []) : jmean (l.map fin) = fin (jmean l) := by
  have key : ∀ (l : List ℝ) (a : ℝ), (l.map fin).foldl (· + ·) (fin a) = fin (l.foldl (· + ·) a) := by
    intro l
    induction l with
    | nil => intro a; rfl
    | cons x l ih => intro a; simp only [List.map_cons, List.foldl_cons, fin_add]; exact ih _
  have hl : (l.length : ℝ) ≠ 0 := by
    rw [Nat.cast_ne_zero, ne_eq, List.length_eq_zero_iff]; exact h
  unfold jmean
  rw [List.length_map, lit_fin, lit_fin, key, fin_div hl]
  rfl

theorem loss_fin (u : VariedU ℝ) (ld : LossData ℝ) (ld' : LossData XR)
    (h1 : ld'.t_target = ld.t_target.map fin) (h2 : ld'.log_mah_target = ld.log_mah_target.map fin)
    (h3 : ld'.u_t_peak = fin ld.u_t_peak) (h4 : ld'.logt0 = fin ld.logt0)
    (hne : ld.t_target ≠ []) (hlen : ld.t_target.length = ld.log_mah_target.length)
    (hpos : ∀ t ∈ ld.t_target, 0 < t) :
    log_mah_loss_uparams ⟨fin u.u_logm0, fin u.u_logtc, fin u.u_early_index, fin u.u_late_index⟩ ld'
      = fin (log_mah_loss_uparams u ld) := by
  set up : MahUParams ℝ := ⟨u.u_logm0, u.u_logtc, u.u_early_index, u.u_late_index, ld.u_t_peak⟩
  have hv := C12_bounded_params_valid up
  have htp : 0 < (get_bounded_mah_params up).t_peak := by
    have := hv.tpeak_lo; norm_num at this; linarith
  have hpred : (ld.t_target.map fin).map (fun t => log_mah_kern_u_params (up.map fin) t (fin ld.logt0))
      = (ld.t_target.map fun t => log_mah_kern_u_params up t ld.logt0).map fin := by
    rw [List.map_map, List.map_map]
    apply List.map_congr_left
    intro t ht
    simp only [Function.comp, log_mah_kern_u_params, bounded_params_fin]
    exact C16_finite_history _ t ld.logt0 (hpos t ht) htp
  have hz : ∀ a b : List ℝ, List.zipWith (fun p t : XR => (p - t) * (p - t)) (a.map fin) (b.map fin)
      = (List.zipWith (fun p t : ℝ => (p - t) * (p - t)) a b).map fin := by
    intro a b
    induction a generalizing b with
    | nil => rfl
    | cons x a ih =>
      cases b with
      | nil => rfl
      | cons y b => simp only [List.map_cons, List.zipWith_cons_cons, ih, fin_sub, fin_mul]
  unfold log_mah_loss_uparams mse
  simp only [h1, h2, h3, h4]
  rw [show (⟨fin u.u_logm0, fin u.u_logtc, fin u.u_early_index, fin u.u_late_index,
    fin ld.u_t_peak⟩ : MahUParams XR) = up.map fin from rfl, hpred, hz, jmean_fin]
  intro h0
  have := congrArg List.length h0
  simp only [List.length_zipWith, List.length_map, ← hlen, min_self, List.length_nil] at this
  exact hne (List.length_eq_zero_iff.1 this)

/-! ## What the fitter makes of a model history -/

section

variable {S : Type} (lbfgs : (PVec → XR × PVec) → PVec → LbfgsResult) (adam : ℝ → AdamOpt S)
  (f4 : XR → XR) (grad : LossData XR → PVec → PVec) (nstep n_warmup : ℕ) (force : Bool)
  (p : MahParams ℝ) (ts : List ℝ) (tl dcut tmin : ℝ)

/-- Log-mass of the input halo at time `t`, today being `tl`. -/
noncomputable abbrev inputLog (t : ℝ) : ℝ := logmh_at_t_obs p t (Real.logb 10 tl)

/-- The input masses. -/
noncomputable abbrev inputMass : List ℝ := ts.map fun t => (10 : ℝ) ^ inputLog p tl t

theorem flooredLog_zero_pow (x : ℝ) : flooredLog 0 ((10 : ℝ) ^ x) = x := by
  unfold flooredLog
  rw [if_neg (not_le.2 (by positivity)), logb_pow10]

theorem input_zip : ts.zip ((inputMass p ts tl).map (flooredLog 0))
    = ts.map fun t => (t, inputLog p tl t) := by
  have : (inputMass p ts tl).map (flooredLog 0) = ts.map (inputLog p tl) := by
    rw [List.map_map]
    apply List.map_congr_left
    intro t _
    exact flooredLog_zero_pow _
  rw [this]
  induction ts with
  | nil => rfl
  | cons a l ih => simp only [List.map_cons, List.zip_cons_cons]; rw [ih]; simp [inputMass, flooredLog_zero_pow]

variable {p ts tl}

theorem input_last (htl : ts.getLast? = some tl) :
    (inputMass p ts tl).getLast? = some ((10 : ℝ) ^ inputLog p tl tl) := by
  rw [List.getLast?_map, htl]; rfl

/-- Loss data of a run that was not skipped. -/
theorem run_loss_data (tp : Option XR) (htl : ts.getLast? = some tl) (htl0 : 0 < tl) (r : FitResult)
    (h : diffmah_fitter lbfgs adam f4 grad (ts.map fin) ((inputMass p ts tl).map fin) ninf (fin dcut)
      (fin tmin) nstep n_warmup tp force = .ok r) (hs : r.skip_fit = false) :
    r.loss_data.logt0 = fin (Real.logb 10 tl) ∧ r.loss_data.log_mah_target ≠ [] ∧
    ∃ tpk, (tp = some tpk ∨ (tp = none ∧
        (ts.map fin)[argmaxBool (fun x => xeq x (f4 (fin (inputLog p tl tl))))
          (ts.map fun t => f4 (fin (inputLog p tl t)))]? = some tpk)) ∧
      r.loss_data.u_t_peak = get_unbounded_diffmah_param (f4 tpk) MAH_PBOUNDS.t_peak := by
  obtain ⟨hlen, hne, u, s, hg, hs', -⟩ := fitter_ok _ _ _ _ _ _ _ _ _ _ _ _ _ r h
  have htl' : (ts.map fin).getLast? = some (fin tl) := by rw [List.getLast?_map, htl]; rfl
  have hml : ((inputMass p ts tl).map fin).getLast? = some (fin ((10 : ℝ) ^ inputLog p tl tl)) := by
    rw [List.getLast?_map, input_last htl]; rfl
  obtain ⟨tpk, htpk, e⟩ := get_loss_data_eq f4 (ts.map fin) ((inputMass p ts tl).map fin) ninf
    (fin dcut) (fin tmin) 3 tp (fin tl) _ htl' hml hlen
  have hcl : ∀ x : ℝ, clipLog ninf (fin ((10 : ℝ) ^ x)) = fin x := by
    intro x; rw [clipLog_pos (by positivity), logb_pow10]
  have hclip : (get_clipped_log_mah ((inputMass p ts tl).map fin) ninf).map f4
      = ts.map fun t => f4 (fin (inputLog p tl t)) := by
    unfold get_clipped_log_mah
    rw [List.map_map, List.map_map, List.map_map]
    apply List.map_congr_left
    intro t _
    exact congrArg f4 (hcl _)
  rw [hcl] at e htpk
  rw [hclip] at htpk
  rw [e] at hg
  split at hg
  · have : s = true := (congrArg (fun x => x.2.2) (Except.ok.inj hg)).symm
    rw [hs', this] at hs; cases hs
  · rename_i hn
    have k1 : r.loss_data.logt0 = log10 (fin tl) :=
      (congrArg (fun x => x.2.1.logt0) (Except.ok.inj hg)).symm
    have k2 := (congrArg (fun x => x.2.1.log_mah_target) (Except.ok.inj hg)).symm
    have k3 : r.loss_data.u_t_peak = get_unbounded_diffmah_param (f4 tpk) MAH_PBOUNDS.t_peak :=
      (congrArg (fun x => x.2.1.u_t_peak) (Except.ok.inj hg)).symm
    refine ⟨by rw [k1, log10_pos htl0], ?_, tpk, htpk, k3⟩
    simp only at k2
    rw [k2]
    intro h0
    rw [h0] at hn
    exact hn (by simp [compute_non_trivial_npts])

/-- **C119** (peak time). On a history made by the model, the inferred peak time is the first grid
time that is not before the true peak, or the last grid time if the halo is still growing then. -/
theorem C119_inferred_peak (hp : Spec.Valid p) (hpos : ∀ t ∈ ts, 0 < t)
    (hsort : ts.Pairwise (· < ·)) (htl : ts.getLast? = some tl) (h9 : 9 ≤ tl) (h20 : tl < 20)
    (hf4 : ∀ x : ℝ, ∃ y : ℝ, f4 (fin x) = fin y) (hft : ∀ t ∈ ts, f4 (fin t) = fin t)
    (hfm : ∀ a ∈ ts, ∀ b ∈ ts, f4 (fin (inputLog p tl a)) = f4 (fin (inputLog p tl b)) →
      inputLog p tl a = inputLog p tl b) (r : FitResult)
    (h : diffmah_fitter lbfgs adam f4 grad (ts.map fin) ((inputMass p ts tl).map fin) ninf (fin dcut)
      (fin tmin) nstep n_warmup none force = .ok r) (hs : r.skip_fit = false)
    (h05 : ∀ t ∈ ts, 0.05 < t) :
    ∃ τ ∈ ts, (p.t_peak ≤ τ ∨ τ = tl) ∧ (∀ t ∈ ts, t < τ → t < p.t_peak) ∧
      r.p_best.t_peak = fin τ ∧
      r.loss_data.u_t_peak = fin (get_unbounded_diffmah_param τ MAH_PBOUNDS.t_peak) := by
  have hmem := List.mem_of_getLast? htl
  have htl0 : 0 < tl := by linarith
  have h0 : (9 : ℝ) ≤ 10 ^ Real.logb 10 tl := by rwa [pow10_logb htl0]
  have hmax : ∀ t ∈ ts, t ≤ tl := by
    intro t ht
    obtain ⟨j, hj, rfl⟩ := List.getElem_of_mem ht
    have hl : ts.length - 1 < ts.length := by omega
    have hlast : ts[ts.length - 1] = tl := by
      rw [List.getLast?_eq_getElem?, List.getElem?_eq_getElem hl] at htl
      exact Option.some.inj htl
    rcases Nat.lt_or_ge j (ts.length - 1) with hlt | hge
    · rw [← hlast]; exact (List.pairwise_iff_getElem.1 hsort j _ hj hl hlt).le
    · have : j = ts.length - 1 := by omega
      subst this; exact hlast.le
  obtain ⟨-, -, tpk, htpk, hu⟩ := run_loss_data lbfgs adam f4 grad nstep n_warmup force dcut tmin
    none htl htl0 r h hs
  rcases htpk with ht | ⟨-, ht⟩
  · cases ht
  obtain ⟨y0, hy0⟩ := hf4 (inputLog p tl tl)
  set i := argmaxBool (fun x => xeq x (f4 (fin (inputLog p tl tl))))
    (ts.map fun t => f4 (fin (inputLog p tl t)))
  obtain ⟨x, hx, hc, hmin⟩ := argmaxBool_spec (fun x => xeq x (f4 (fin (inputLog p tl tl))))
    (ts.map fun t => f4 (fin (inputLog p tl t)))
    ⟨_, List.mem_map_of_mem hmem, rfl, by simp only [hy0]; intro h; cases h⟩
  rw [List.getElem?_map] at hx ht
  obtain ⟨τ, hτ, rfl⟩ := Option.map_eq_some_iff.1 ht
  rw [show ts[i]? = some τ from hτ] at hx
  have hxe : f4 (fin (inputLog p tl τ)) = x := Option.some.inj hx
  have hτmem := List.mem_of_getElem? hτ
  have hsame : inputLog p tl τ = inputLog p tl tl := hfm τ hτmem tl hmem (by rw [hxe]; exact hc.1)
  have hstrict := C03_strictly_increasing_until_peak p hp.toInBox hp.late_lt_early.le
    (Real.logb 10 tl) h0
  refine ⟨τ, hτmem, ?_, ?_, ?_, ?_⟩
  · by_contra hcon
    push Not at hcon
    obtain ⟨c1, c2⟩ := hcon
    have c3 : τ < tl := lt_of_le_of_ne (hmax τ hτmem) c2
    have htp : 0 < p.t_peak := (hpos τ hτmem).trans c1
    have e1 : inputLog p tl τ < inputLog p tl (min tl p.t_peak) :=
      hstrict ⟨hpos τ hτmem, c1.le⟩ ⟨lt_min htl0 htp, min_le_right _ _⟩ (lt_min c3 c1)
    have e2 : inputLog p tl (min tl p.t_peak) = inputLog p tl tl := by
      simp only [inputLog, logmh_at_t_obs]
      rw [log_mah_min p (min tl p.t_peak), log_mah_min p tl, min_assoc, min_self]
    linarith
  · intro t htm hlt
    by_contra hge
    have hge := not_lt.1 hge
    obtain ⟨j, hj, rfl⟩ := List.getElem_of_mem htm
    have hji : j < i := by
      by_contra hcon
      obtain ⟨hi, e⟩ := List.getElem?_eq_some_iff.1 hτ
      rcases (not_lt.1 hcon).lt_or_eq with h' | h'
      · have := List.pairwise_iff_getElem.1 hsort i j hi hj h'
        rw [e] at this; linarith
      · subst h'; rw [e] at hlt; exact lt_irrefl _ hlt
    refine hmin j hji (f4 (fin (inputLog p tl ts[j])))
      (by rw [List.getElem?_map, List.getElem?_eq_getElem hj]; rfl) ⟨?_, ?_⟩
    · have e1 : inputLog p tl ts[j] = inputLog p tl tl := by
        simp only [inputLog]
        rw [C02_frozen_after_peak p _ _ hge, C02_frozen_after_peak p tl _ (hge.trans (hmax _ htm))]
      rw [e1]
    · obtain ⟨y, hy⟩ := hf4 (inputLog p tl ts[j])
      rw [hy]; intro h'; cases h'
  · obtain ⟨tpk, ml, hml, ht', hr⟩ := fit_u_t_peak _ _ _ _ _ _ _ _ _ _ _ _ _ r h hs
    obtain ⟨hlen, hne, u, s, hg, hs', hcase⟩ := fitter_ok _ _ _ _ _ _ _ _ _ _ _ _ _ r h
    rcases hcase with ⟨e, -⟩ | ⟨-, res, up, hb, hm, e1, e2, e3, e4⟩
    · rw [e] at hs; cases hs
    rw [e1]
    apply tpeak_of_u _ _ (h05 τ hτmem) ((hmax τ hτmem).trans_lt h20)
    unfold makeU at hm
    split at hm
    · cases hm
      change r.loss_data.u_t_peak = _
      rw [hu, hft τ hτmem]
    · cases hm
  · rw [hu, hft τ hτmem]
    refine unbounded_fin_in (h05 τ hτmem) ?_
    have := (hmax τ hτmem).trans_lt h20
    simp only [MAH_PBOUNDS]; linarith

/-- Loss data whose peak time `τ` does not change the input history. -/
theorem exact_of_peak (hp : Spec.Valid p) (hpos : ∀ t ∈ ts, 0 < t)
    (hsort : ts.Pairwise (· < ·)) (htl : ts.getLast? = some tl) (h9 : 9 ≤ tl)
    (htmin : 0 < tmin) (tp : Option XR) (r : FitResult)
    (h : diffmah_fitter lbfgs adam f4 grad (ts.map fin) ((inputMass p ts tl).map fin) ninf (fin dcut)
      (fin tmin) nstep n_warmup tp force = .ok r) (hs : r.skip_fit = false) (τ : ℝ)
    (h1 : 0.05 < τ) (h2 : τ < 20)
    (hu : r.loss_data.u_t_peak = fin (get_unbounded_diffmah_param τ MAH_PBOUNDS.t_peak))
    (hsame : ∀ t ∈ ts, inputLog { p with t_peak := τ } tl t = inputLog p tl t) :
    ∃ up : MahUParams ℝ, get_bounded_mah_params up = { p with t_peak := τ } ∧
      r.loss_data.u_t_peak = fin up.u_t_peak ∧
      log_mah_loss_uparams ⟨fin up.u_logm0, fin up.u_logtc, fin up.u_early_index,
        fin up.u_late_index⟩ r.loss_data = fin 0 ∧
      ∀ v : VariedU ℝ, ∃ x, log_mah_loss_uparams ⟨fin v.u_logm0, fin v.u_logtc,
          fin v.u_early_index, fin v.u_late_index⟩ r.loss_data = fin x ∧ 0 ≤ x ∧
        (x = 0 → ∀ t, fin t ∈ r.loss_data.t_target →
          inputLog (get_bounded_mah_params ⟨v.u_logm0, v.u_logtc, v.u_early_index, v.u_late_index,
            up.u_t_peak⟩) tl t = inputLog p tl t) := by
  have htl0 : 0 < tl := by linarith
  have h0 : (9 : ℝ) ≤ 10 ^ Real.logb 10 tl := by rwa [pow10_logb htl0]
  have hv : Spec.Valid { p with t_peak := τ } :=
    ⟨⟨hp.logm0_lo, hp.logm0_hi, hp.logtc_lo, hp.logtc_hi, hp.early_lo, hp.early_hi, hp.late_lo,
      hp.late_hi, h1, h2⟩, hp.late_lt_early⟩
  set up := get_unbounded_mah_params { p with t_peak := τ } with hup
  have hb : get_bounded_mah_params up = { p with t_peak := τ } := C14_bounded_of_unbounded _ hv
  have hut : up.u_t_peak = get_unbounded_diffmah_param τ MAH_PBOUNDS.t_peak := rfl
  obtain ⟨hlt0, hne, -⟩ := run_loss_data lbfgs adam f4 grad nstep n_warmup force dcut tmin
    tp htl htl0 r h hs
  obtain ⟨mlast, hml, hT⟩ := C33_target_times _ _ _ _ _ _ _ _ _ _ _ _ _ r h htmin
    (floor := 0) rfl
  obtain ⟨mlast', target, hml', hM, -, -, -, -, hmono⟩ := C34_running_peak _ _ _ _ _ _ _ _ _ _ _ _ _
    r h (floor := 0) rfl
  rw [hml] at hml'; cases hml'
  rw [input_zip] at hT hmono
  set sel := insideCuts (flooredLog 0 mlast) dcut tmin ninf (ts.map fun t => (t, inputLog p tl t))
    with hsel
  have hsub : sel.Sublist (ts.map fun t => (t, inputLog p tl t)) := by
    rw [hsel]; unfold insideCuts; exact List.filter_sublist
  have hin : ∀ q ∈ sel, q.1 ∈ ts ∧ q.2 = inputLog p tl q.1 := by
    intro q hq
    obtain ⟨t, ht, rfl⟩ := List.mem_map.1 (hsub.subset hq)
    exact ⟨ht, rfl⟩
  have htgt : target = sel.map Prod.snd := by
    refine hmono ?_
    rw [List.pairwise_map]
    refine List.Pairwise.sublist hsub ?_
    rw [List.pairwise_map]
    refine hsort.imp_of_mem ?_
    intro a b ha hb hab
    exact C03_never_decreases p hp.toInBox hp.late_lt_early.le _ h0 (hpos a ha) (hpos b hb) hab.le
  subst htgt
  -- the loss data as plain numbers
  set ld : LossData ℝ := ⟨sel.map Prod.fst, sel.map Prod.snd, up.u_t_peak, Real.logb 10 tl⟩ with hld
  have g1 : r.loss_data.t_target = ld.t_target.map fin := by
    rw [hT]; simp [hld, List.map_map, Function.comp_def]
  have gne : ld.t_target ≠ [] := by
    intro hc
    have hs0 : sel = [] := List.map_eq_nil_iff.1 hc
    apply hne
    rw [hM, hs0]; rfl
  have glen : ld.t_target.length = ld.log_mah_target.length := by simp [hld]
  have gpos : ∀ t ∈ ld.t_target, 0 < t := by
    intro t ht
    obtain ⟨q, hq, rfl⟩ := List.mem_map.1 ht
    exact hpos _ (hin q hq).1
  have hloss := fun v : VariedU ℝ => loss_fin v ld r.loss_data g1 hM hu hlt0 gne glen gpos
  have hget : ∀ (k : ℕ) (t m : ℝ), ld.t_target[k]? = some t → ld.log_mah_target[k]? = some m →
      t ∈ ts ∧ m = inputLog p tl t := by
    intro k t m ht hm
    simp only [hld, List.getElem?_map] at ht hm
    obtain ⟨q, hq, rfl⟩ := Option.map_eq_some_iff.1 ht
    rw [hq] at hm
    cases hm
    exact hin q (List.mem_of_getElem? hq)
  refine ⟨up, hb, by rw [hu, hut], ?_, ?_⟩
  · rw [hloss ⟨up.u_logm0, up.u_logtc, up.u_early_index, up.u_late_index⟩]
    congr 1
    rw [C40_zero_iff _ ld glen gne]
    intro k t m ht hm
    obtain ⟨k1, k2⟩ := hget k t m ht hm
    rw [k2, ← hsame t k1]
    change log_mah_kern (get_bounded_mah_params up) t (Real.logb 10 tl) = _
    rw [hb]; rfl
  · intro v
    refine ⟨_, hloss v, C40_nonneg _ _, ?_⟩
    intro hz t ht
    rw [g1] at ht
    obtain ⟨t', ht', e⟩ := List.mem_map.1 ht
    cases e
    obtain ⟨k, hk, e⟩ := List.getElem_of_mem ht'
    have hk1 : ld.t_target[k]? = some t := by rw [List.getElem?_eq_getElem hk, e]
    have hk2 : ld.log_mah_target[k]? = some ld.log_mah_target[k] := List.getElem?_eq_getElem _
    have := (C40_zero_iff v ld glen gne).1 hz k t _ hk1 hk2
    obtain ⟨-, k2⟩ := hget k t _ hk1 hk2
    rw [k2] at this
    exact this

/-- **C119**. On a history made by the model, whose true peak is a grid time or not before the last
one, the loss that is minimised is zero at the true parameters (with the peak moved to the last grid
time if the halo is still growing). Every other set of parameters has a non-negative loss, and if it
is zero, its history agrees with the input at every target time. -/
theorem C119_own_parameters_fit_exactly (hp : Spec.Valid p) (h05 : ∀ t ∈ ts, 0.05 < t)
    (hsort : ts.Pairwise (· < ·)) (htl : ts.getLast? = some tl) (h9 : 9 ≤ tl) (h20 : tl < 20)
    (hpeak : p.t_peak ∈ ts ∨ tl ≤ p.t_peak) (htmin : 0 < tmin)
    (hf4 : ∀ x : ℝ, ∃ y : ℝ, f4 (fin x) = fin y) (hft : ∀ t ∈ ts, f4 (fin t) = fin t)
    (hfm : ∀ a ∈ ts, ∀ b ∈ ts, f4 (fin (inputLog p tl a)) = f4 (fin (inputLog p tl b)) →
      inputLog p tl a = inputLog p tl b) (r : FitResult)
    (h : diffmah_fitter lbfgs adam f4 grad (ts.map fin) ((inputMass p ts tl).map fin) ninf (fin dcut)
      (fin tmin) nstep n_warmup none force = .ok r) (hs : r.skip_fit = false) :
    ∃ up : MahUParams ℝ, get_bounded_mah_params up = { p with t_peak := min p.t_peak tl } ∧
      r.loss_data.u_t_peak = fin up.u_t_peak ∧
      log_mah_loss_uparams ⟨fin up.u_logm0, fin up.u_logtc, fin up.u_early_index,
        fin up.u_late_index⟩ r.loss_data = fin 0 ∧
      ∀ v : VariedU ℝ, ∃ x, log_mah_loss_uparams ⟨fin v.u_logm0, fin v.u_logtc,
          fin v.u_early_index, fin v.u_late_index⟩ r.loss_data = fin x ∧ 0 ≤ x ∧
        (x = 0 → ∀ t, fin t ∈ r.loss_data.t_target →
          inputLog (get_bounded_mah_params ⟨v.u_logm0, v.u_logtc, v.u_early_index, v.u_late_index,
            up.u_t_peak⟩) tl t = inputLog p tl t) := by
  have hpos : ∀ t ∈ ts, 0 < t := by
    intro t ht; have := h05 t ht; norm_num at this; linarith
  obtain ⟨τ, hτ, hor, hfirst, -, hu⟩ := C119_inferred_peak lbfgs adam f4 grad nstep n_warmup force
    dcut tmin hp hpos hsort htl h9 h20 hf4 hft hfm r h hs h05
  have hmax : ∀ t ∈ ts, t ≤ tl := by
    intro t ht
    obtain ⟨j, hj, rfl⟩ := List.getElem_of_mem ht
    have hl : ts.length - 1 < ts.length := by omega
    have hlast : ts[ts.length - 1] = tl := by
      rw [List.getLast?_eq_getElem?, List.getElem?_eq_getElem hl] at htl
      exact Option.some.inj htl
    rcases Nat.lt_or_ge j (ts.length - 1) with hlt | hge
    · rw [← hlast]; exact (List.pairwise_iff_getElem.1 hsort j _ hj hl hlt).le
    · have : j = ts.length - 1 := by omega
      subst this; exact hlast.le
  have hmem := List.mem_of_getLast? htl
  have hτe : τ = min p.t_peak tl := by
    rcases hpeak with hm | hge
    · rw [min_eq_left (hmax _ hm)]
      apply le_antisymm
      · by_contra hc
        exact lt_irrefl _ (hfirst _ hm (not_le.1 hc))
      · rcases hor with h' | h'
        · exact h'
        · rw [h']; exact hmax _ hm
    · rw [min_eq_right hge]
      apply le_antisymm (hmax τ hτ)
      rcases hor with h' | h'
      · exact hge.trans h'
      · exact h'.ge
  rw [← hτe]
  refine exact_of_peak lbfgs adam f4 grad nstep n_warmup force dcut tmin hp hpos hsort htl h9 htmin
    none r h hs τ (h05 τ hτ) ((hmax τ hτ).trans_lt h20) hu ?_
  intro t ht
  simp only [inputLog, logmh_at_t_obs]
  rw [log_mah_min { p with t_peak := τ }, log_mah_min p]
  simp only [hτe]
  rw [← min_assoc, min_right_comm, min_eq_left (hmax t ht)]
  rfl

/-- **C119** (known peak). If the true peak time is supplied, the same holds wherever it falls. -/
theorem C119_known_peak (hp : Spec.Valid p) (hpos : ∀ t ∈ ts, 0 < t)
    (hsort : ts.Pairwise (· < ·)) (htl : ts.getLast? = some tl) (h9 : 9 ≤ tl) (htmin : 0 < tmin)
    (hft : f4 (fin p.t_peak) = fin p.t_peak) (r : FitResult)
    (h : diffmah_fitter lbfgs adam f4 grad (ts.map fin) ((inputMass p ts tl).map fin) ninf (fin dcut)
      (fin tmin) nstep n_warmup (some (fin p.t_peak)) force = .ok r) (hs : r.skip_fit = false) :
    ∃ up : MahUParams ℝ, get_bounded_mah_params up = p ∧
      r.loss_data.u_t_peak = fin up.u_t_peak ∧
      log_mah_loss_uparams ⟨fin up.u_logm0, fin up.u_logtc, fin up.u_early_index,
        fin up.u_late_index⟩ r.loss_data = fin 0 ∧
      ∀ v : VariedU ℝ, ∃ x, log_mah_loss_uparams ⟨fin v.u_logm0, fin v.u_logtc,
          fin v.u_early_index, fin v.u_late_index⟩ r.loss_data = fin x ∧ 0 ≤ x ∧
        (x = 0 → ∀ t, fin t ∈ r.loss_data.t_target →
          inputLog (get_bounded_mah_params ⟨v.u_logm0, v.u_logtc, v.u_early_index, v.u_late_index,
            up.u_t_peak⟩) tl t = inputLog p tl t) := by
  have htl0 : 0 < tl := by linarith
  obtain ⟨-, -, tpk, htpk, hu⟩ := run_loss_data lbfgs adam f4 grad nstep n_warmup force dcut tmin
    (some (fin p.t_peak)) htl htl0 r h hs
  rcases htpk with ht | ⟨ht, -⟩
  · cases ht
    refine exact_of_peak lbfgs adam f4 grad nstep n_warmup force dcut tmin hp hpos hsort htl h9 htmin
      _ r h hs p.t_peak hp.tpeak_lo hp.tpeak_hi ?_ fun t _ => rfl
    rw [hu, hft]
    refine unbounded_fin_in hp.tpeak_lo ?_
    have := hp.tpeak_hi
    simp only [MAH_PBOUNDS]; linarith
  · cases ht

end

/-! ## A concrete run -/

/-- An optimiser that always reports success at the origin. -/
noncomputable def originLbfgs : (PVec → XR × PVec) → PVec → LbfgsResult :=
  fun _ _ => ⟨[fin 0, fin 0, fin 0, fin 0], fin 1, true⟩

theorem origin_ok {S : Type} (adam : ℝ → AdamOpt S) (f4 : XR → XR)
    (grad : LossData XR → PVec → PVec) (t_sim mah_sim : List XR) (lgm_min dlogm_cut t_fit_min : XR)
    (nstep n_warmup : ℕ) (tp : Option XR) (hlen : mah_sim.length = t_sim.length)
    (hne : mah_sim ≠ []) :
    ∃ r, diffmah_fitter originLbfgs adam f4 grad t_sim mah_sim lgm_min dlogm_cut t_fit_min nstep
      n_warmup tp false = .ok r := by
  have htne : t_sim ≠ [] := by rintro rfl; exact hne (List.length_eq_zero_iff.1 hlen)
  obtain ⟨tl, htl⟩ := last_exists htne
  obtain ⟨ml, hml⟩ := last_exists hne
  obtain ⟨tpk, -, e⟩ := get_loss_data_eq f4 t_sim mah_sim lgm_min dlogm_cut t_fit_min 3 tp tl ml
    htl hml hlen
  obtain ⟨w, hw⟩ := check_ok hne
  generalize hX : (if compute_non_trivial_npts _ < 3 then _ else _ : PVec × LossData XR × Bool) = X
    at e
  obtain ⟨u, ld, s⟩ := X
  have hb : bfgs_adam_fallback originLbfgs adam f4 (fit_lg grad ld) u nstep n_warmup
      = .ok ⟨[fin 0, fin 0, fin 0, fin 0], fin 1, true, 0⟩ := by
    have : (originLbfgs (fit_lg grad ld) u).success = true ∧
        XR.IsFin (originLbfgs (fit_lg grad ld) u).func ∧
        XR.lt (XR.fin 0) (originLbfgs (fit_lg grad ld) u).func :=
      ⟨rfl, trivial, show (0 : ℝ) < 1 by norm_num⟩
    unfold bfgs_adam_fallback
    simp only [this, and_self, if_true]
    rfl
  unfold diffmah_fitter
  simp only [ne_eq, hlen, not_true, if_false, bind, Except.bind, hw, pure, Except.pure]
  rw [show NPTS_FIT_MIN = 3 from rfl, e]
  simp only
  cases s
  · simp only [Bool.false_or, Bool.false_eq_true, if_false, hb, makeU]
    exact ⟨_, rfl⟩
  · exact ⟨_, rfl⟩

/-- The default halo on four times ending at 12 Gyr is not skipped, whatever the optimisers. -/
theorem default_run_not_skipped {S : Type} (lbfgs : (PVec → XR × PVec) → PVec → LbfgsResult)
    (adam : ℝ → AdamOpt S) (grad : LossData XR → PVec → PVec) (r : FitResult)
    (hr : diffmah_fitter lbfgs adam id grad (([3, 6, 9, 12] : List ℝ).map fin)
      ((inputMass DEFAULT_MAH_PARAMS [3, 6, 9, 12] 12).map fin) ninf (fin 2.5) (fin 1) 200 1 none
      false = .ok r) : r.skip_fit = false := by
  have h12 : (10 : ℝ) ^ Real.logb 10 12 = 12 := pow10_logb (by norm_num)
  have h0 : (9 : ℝ) ≤ 10 ^ Real.logb 10 12 := by rw [h12]; norm_num
  have htp : DEFAULT_MAH_PARAMS.t_peak = 14 := by norm_num [DEFAULT_MAH_PARAMS]
  have hinc := C03_strictly_increasing_until_peak DEFAULT_MAH_PARAMS default_valid.toInBox
    default_valid.late_lt_early.le (Real.logb 10 12) h0
  have a1 : inputLog DEFAULT_MAH_PARAMS 12 3 < inputLog DEFAULT_MAH_PARAMS 12 6 :=
    hinc (by rw [htp]; constructor <;> norm_num) (by rw [htp]; constructor <;> norm_num)
      (by norm_num)
  have a2 : inputLog DEFAULT_MAH_PARAMS 12 6 < inputLog DEFAULT_MAH_PARAMS 12 9 :=
    hinc (by rw [htp]; constructor <;> norm_num) (by rw [htp]; constructor <;> norm_num)
      (by norm_num)
  have a3 : inputLog DEFAULT_MAH_PARAMS 12 9 < inputLog DEFAULT_MAH_PARAMS 12 12 :=
    hinc (by rw [htp]; constructor <;> norm_num) (by rw [htp]; constructor <;> norm_num)
      (by norm_num)
  have hcut : inputLog DEFAULT_MAH_PARAMS 12 12 - 2.5 < inputLog DEFAULT_MAH_PARAMS 12 3 := by
    have e1 := (C09_power_law_envelope DEFAULT_MAH_PARAMS default_valid.late_lt_early.le 3
      (Real.logb 10 12) (by norm_num) (by rw [h12]; norm_num) (by rw [htp]; norm_num)).1
    have e2 : inputLog DEFAULT_MAH_PARAMS 12 12 = DEFAULT_MAH_PARAMS.logm0 := by
      have := C01_mass_today DEFAULT_MAH_PARAMS (Real.logb 10 12) (by rw [h12, htp]; norm_num)
      rwa [h12] at this
    have e3 : Real.logb 10 12 - Real.logb 10 3 ≤ 0.9 := by
      rw [← Real.logb_div (by norm_num) (by norm_num), Real.logb_le_iff_le_rpow (by norm_num)
        (by norm_num), show (0.9 : ℝ) = ((9 : ℕ) : ℝ) * ((10 : ℝ)⁻¹) by norm_num,
        Real.rpow_mul (by norm_num), Real.rpow_natCast,
        Real.le_rpow_inv_iff_of_pos (by norm_num) (by norm_num) (by norm_num)]
      norm_num
    have e4 : DEFAULT_MAH_PARAMS.early_index = 2.6137643 := rfl
    rw [e2]
    change _ < logmh_at_t_obs DEFAULT_MAH_PARAMS 3 (Real.logb 10 12)
    rw [e4] at e1
    norm_num at e1 e3 ⊢
    linarith
  by_contra hc
  have hc : r.skip_fit = true := by simpa using hc
  rcases (C29_skip_iff _ _ _ _ _ _ _ _ _ _ _ _ _ r hr).1 hc with h | h
  · cases h
  obtain ⟨ml, target, hml, hM, -, -, -, -, hmono⟩ := C34_running_peak _ _ _ _ _ _ _ _ _ _ _ _ _ r hr
    (floor := 0) rfl
  have hml' : ml = (10 : ℝ) ^ inputLog DEFAULT_MAH_PARAMS 12 12 := by
    have := input_last (p := DEFAULT_MAH_PARAMS) (ts := [3, 6, 9, 12]) (tl := 12) rfl
    rw [hml] at this; exact Option.some.inj this
  rw [input_zip, hml', flooredLog_zero_pow] at hmono
  have hsel : insideCuts (inputLog DEFAULT_MAH_PARAMS 12 12) 2.5 1 ninf
      (([3, 6, 9, 12] : List ℝ).map fun t => (t, inputLog DEFAULT_MAH_PARAMS 12 t))
      = ([3, 6, 9, 12] : List ℝ).map fun t => (t, inputLog DEFAULT_MAH_PARAMS 12 t) := by
    unfold insideCuts
    rw [List.filter_eq_self]
    intro q hq
    simp only [List.map_cons, List.map_nil, List.mem_cons, List.not_mem_nil, or_false] at hq
    rcases hq with rfl | rfl | rfl | rfl <;> simp only [decide_eq_true_eq] <;>
      exact ⟨by linarith, trivial, by norm_num⟩
  rw [hsel] at hmono
  have ht := hmono (by
    simp only [List.map_cons, List.map_nil, List.pairwise_cons, List.mem_cons,
      List.not_mem_nil, or_false, forall_eq_or_imp, forall_eq, List.Pairwise.nil, and_true,
      IsEmpty.forall_iff, implies_true]
    refine ⟨⟨?_, ?_, ?_⟩, ⟨?_, ?_⟩, ?_⟩ <;> linarith)
  rw [hM, ht] at h
  classical
  simp only [List.map_cons, List.map_nil, countBelowLast, List.getLast?_cons_cons,
    List.getLast?_singleton] at h
  have b1 : XR.lt (fin (inputLog DEFAULT_MAH_PARAMS 12 3)) (fin (inputLog DEFAULT_MAH_PARAMS 12 12)) :=
    show _ < _ by linarith
  have b2 : XR.lt (fin (inputLog DEFAULT_MAH_PARAMS 12 6)) (fin (inputLog DEFAULT_MAH_PARAMS 12 12)) :=
    show _ < _ by linarith
  have b3 : XR.lt (fin (inputLog DEFAULT_MAH_PARAMS 12 9)) (fin (inputLog DEFAULT_MAH_PARAMS 12 12)) :=
    show _ < _ by linarith
  have b4 : ¬ XR.lt (fin (inputLog DEFAULT_MAH_PARAMS 12 12))
      (fin (inputLog DEFAULT_MAH_PARAMS 12 12)) := fun h => lt_irrefl _ h
  simp [b1, b2, b3, b4] at h

/-- The default halo on four times ending at 12 Gyr: the fit runs, and the theorem applies. -/
example : ∃ r : FitResult,
    diffmah_fitter originLbfgs (S := Unit) (fun _ => ⟨fun _ => (), fun _ _ _ => (), fun _ => []⟩) id
      (fun _ _ => []) (([3, 6, 9, 12] : List ℝ).map fin)
      ((inputMass DEFAULT_MAH_PARAMS [3, 6, 9, 12] 12).map fin) ninf (fin 2.5) (fin 1) 200 1 none
      false = .ok r ∧ r.skip_fit = false ∧
    ∃ up : MahUParams ℝ, get_bounded_mah_params up = { DEFAULT_MAH_PARAMS with t_peak := 12 } ∧
      log_mah_loss_uparams ⟨fin up.u_logm0, fin up.u_logtc, fin up.u_early_index,
        fin up.u_late_index⟩ r.loss_data = fin 0 := by
  obtain ⟨r, hr⟩ := origin_ok (S := Unit) (fun _ => ⟨fun _ => (), fun _ _ _ => (), fun _ => []⟩) id
    (fun _ _ => []) (([3, 6, 9, 12] : List ℝ).map fin)
    ((inputMass DEFAULT_MAH_PARAMS [3, 6, 9, 12] 12).map fin) ninf (fin 2.5) (fin 1) 200 1 none rfl
    (by simp)
  have htp : DEFAULT_MAH_PARAMS.t_peak = 14 := by norm_num [DEFAULT_MAH_PARAMS]
  have hskip := default_run_not_skipped _ _ _ r hr
  refine ⟨r, hr, hskip, ?_⟩
  obtain ⟨up, h1, -, h3, -⟩ := C119_own_parameters_fit_exactly originLbfgs _ id _ 200 1 false 2.5 1
    default_valid (ts := [3, 6, 9, 12]) (tl := 12)
    (by intro t ht; simp at ht; rcases ht with rfl | rfl | rfl | rfl <;> norm_num)
    (by norm_num) rfl (by norm_num) (by norm_num)
    (.inr (by rw [htp]; norm_num)) (by norm_num) (fun x => ⟨x, rfl⟩) (fun _ _ => rfl)
    (fun a _ b _ h => XR.fin.inj h) r hr hskip
  refine ⟨up, ?_, h3⟩
  rw [h1, htp]; norm_num

end Diffmah.Fit

import Verif.Props.Fitter

/-!
# Properties of the target data and the loss of the single-halo fitter (C33-C35, C40, C41, C79)
-/

namespace Diffmah.Fit

open XR hiding log10 pow10 ln sigm max lt le add sub mul div neg
open JOps Diffmah.Utils Spec

variable {S : Type} (lbfgs : (PVec → XR × PVec) → PVec → LbfgsResult) (adam : ℝ → AdamOpt S)
  (f4 : XR → XR) (grad : LossData XR → PVec → PVec) (ts ms : List ℝ)
  (lgm_min : XR) (dcut tmin : ℝ) (nstep n_warmup : ℕ) (tp : Option XR) (force : Bool)

theorem clipLog_floor {fl : ℝ} (hfl : (pow10 lgm_min : XR) = fin fl) (m : ℝ) :
    clipLog lgm_min (fin m) = fin (flooredLog fl m) := by
  have h0 : 0 ≤ fl := by
    cases lgm_min with
    | fin a =>
      have : (10 : ℝ) ^ a = fl := XR.fin.inj hfl
      rw [← this]; positivity
    | ninf => exact (XR.fin.inj hfl).le
    | pinf => cases hfl
    | nan => cases hfl
  unfold clipLog flooredLog
  rw [hfl]
  by_cases h : m ≤ fl
  · have h' : XR.le (fin m) (fin fl) := h
    rw [jwhere, if_pos h', if_pos h]
    simp only [lit_fin, fin_add, EPSILON]
    exact log10_pos (by positivity)
  · have h' : ¬ XR.le (fin m) (fin fl) := h
    rw [jwhere, if_neg h', if_neg h]
    exact log10_pos (by linarith [not_le.1 h])

theorem selected_real {fl : ℝ} (hfl : (pow10 lgm_min : XR) = fin fl) (final : ℝ) :
    selected (ts.map fin) (get_clipped_log_mah (ms.map fin) lgm_min) (fin final) lgm_min (fin dcut)
      (fin tmin) = (insideCuts final dcut tmin lgm_min (ts.zip (ms.map (flooredLog fl)))).map
        fun q => (fin q.1, fin q.2) := by
  classical
  have e : (get_clipped_log_mah (ms.map fin) lgm_min) = (ms.map (flooredLog fl)).map fin := by
    unfold get_clipped_log_mah
    rw [List.map_map, List.map_map]
    apply List.map_congr_left
    intro m _
    exact clipLog_floor lgm_min hfl m
  unfold selected insideCuts
  rw [e, List.zip_map, List.filter_map]
  rfl
  
theorem fit_target (r : FitResult)
    (h : diffmah_fitter lbfgs adam f4 grad (ts.map fin) (ms.map fin) lgm_min (fin dcut) (fin tmin)
      nstep n_warmup tp force = .ok r) {fl : ℝ} (hfl : (pow10 lgm_min : XR) = fin fl) :
    ∃ mlast, ms.getLast? = some mlast ∧
      let sel := insideCuts (flooredLog fl mlast) dcut tmin lgm_min (ts.zip (ms.map (flooredLog fl)))
      r.loss_data.t_target = sel.map (fun q => (pow10 (log10 (fin q.1)) : XR)) ∧
      r.loss_data.log_mah_target = accumulate ((sel.map Prod.snd).map fin) := by
  obtain ⟨hlen, hne, u, s, hg, hs', -⟩ := fitter_ok _ _ _ _ _ _ _ _ _ _ _ _ _ r h
  have htne : ts.map fin ≠ [] := by
    intro h0; rw [h0] at hlen; exact hne (List.length_eq_zero_iff.1 hlen)
  obtain ⟨tl, htl⟩ := last_exists htne
  obtain ⟨ml, hml⟩ := last_exists hne
  obtain ⟨tpk, -, e⟩ := get_loss_data_eq f4 (ts.map fin) (ms.map fin) lgm_min (fin dcut) (fin tmin)
    3 tp tl ml htl hml hlen
  rw [List.getLast?_map] at hml
  obtain ⟨mlast, hml', rfl⟩ := Option.map_eq_some_iff.1 hml
  rw [clipLog_floor lgm_min hfl, selected_real ts ms lgm_min dcut tmin hfl] at e
  rw [e] at hg
  refine ⟨mlast, hml', ?_⟩
  have key : ∀ {A B : PVec × LossData XR × Bool}, (Except.ok A : Except PyErr _) = .ok B →
      B.2.1.t_target = A.2.1.t_target ∧ B.2.1.log_mah_target = A.2.1.log_mah_target := by
    intro A B h; cases h; exact ⟨rfl, rfl⟩
  obtain ⟨k1, k2⟩ := key hg
  simp only at k1 k2
  rw [k1, k2]
  split <;> simp [List.map_map, Function.comp_def]

theorem mem_insideCuts_t {final : ℝ} {pts : List (ℝ × ℝ)} {q : ℝ × ℝ}
    (h : q ∈ insideCuts final dcut tmin lgm_min pts) : tmin ≤ q.1 := by
  classical
  unfold insideCuts at h
  have := (List.mem_filter.1 h).2
  simp only [decide_eq_true_eq] at this
  exact this.2.2

/-- C33. The target times are exactly, in order, the input times inside the three cuts (`floor` is
`10**lgm_min`, 0 by default). -/
theorem C33_target_times (r : FitResult)
    (h : diffmah_fitter lbfgs adam f4 grad (ts.map fin) (ms.map fin) lgm_min (fin dcut) (fin tmin)
      nstep n_warmup tp force = .ok r) (htmin : 0 < tmin) {floor : ℝ}
    (hfloor : (pow10 lgm_min : XR) = fin floor) :
    ∃ mlast, ms.getLast? = some mlast ∧
      r.loss_data.t_target = (insideCuts (flooredLog floor mlast) dcut tmin lgm_min
        (ts.zip (ms.map (flooredLog floor)))).map (fun q => fin q.1) := by
  obtain ⟨mlast, hml, h1, -⟩ := fit_target _ _ _ _ _ _ _ _ _ _ _ _ _ r h hfloor
  refine ⟨mlast, hml, ?_⟩
  rw [h1]
  apply List.map_congr_left
  intro q hq
  have hq0 : 0 < q.1 := lt_of_lt_of_le htmin (mem_insideCuts_t _ _ _ hq)
  rw [log10_pos hq0, pow10_fin, Real.rpow_logb (by norm_num) (by norm_num) hq0]

/-- C33. With the default cuts, and positive masses: the target times are those at or after 1 Gyr at which the halo has more
than `10^-2.5` of its final mass. -/
theorem C33_default_cuts (hpos : ∀ m ∈ ms, 0 < m) (r : FitResult)
    (h : diffmah_fitter lbfgs adam f4 grad (ts.map fin) (ms.map fin) (nstep := nstep) (n_warmup := n_warmup)
      (tpeak_fixed := tp) (force_skip_fit := force) = .ok r) :
    ∃ mlast, ms.getLast? = some mlast ∧
      r.loss_data.t_target = open Classical in ((ts.zip ms).filter fun q =>
        decide (1 ≤ q.1 ∧ (10 : ℝ) ^ (-2.5 : ℝ) * mlast < q.2)).map (fun q => fin q.1) := by
  classical
  obtain ⟨mlast, hml, e⟩ := C33_target_times lbfgs adam f4 grad ts ms ninf DLOGM_CUT T_FIT_MIN nstep n_warmup tp force r h
    (by norm_num [T_FIT_MIN]) (floor := 0) rfl
  refine ⟨mlast, hml, ?_⟩
  rw [e]
  have hl := hpos mlast (List.mem_of_getLast? hml)
  have hfl : ∀ m, 0 < m → flooredLog 0 m = Real.logb 10 m := fun m hm => by
    unfold flooredLog; rw [if_neg (not_le.2 hm)]
  have hz : ts.zip (ms.map (flooredLog 0)) = (ts.zip ms).map (fun q => (q.1, flooredLog 0 q.2)) := by
    rw [← List.map_id ts, List.zip_map, List.map_id]; rfl
  unfold insideCuts
  rw [hz, List.filter_map, List.map_map]
  have hc : (ts.zip ms).filter ((fun q : ℝ × ℝ => decide (flooredLog 0 mlast - DLOGM_CUT < q.2 ∧
      XR.lt ninf (fin q.2) ∧ T_FIT_MIN ≤ q.1)) ∘ fun q => (q.1, flooredLog 0 q.2)) =
      (ts.zip ms).filter fun q => decide (1 ≤ q.1 ∧ (10 : ℝ) ^ (-2.5 : ℝ) * mlast < q.2) := by
    apply List.filter_congr
    rintro ⟨t, m⟩ hq
    have hm := hpos m (List.of_mem_zip hq).2
    have hpow : (0 : ℝ) < 10 ^ (-2.5 : ℝ) := by positivity
    simp only [Function.comp, decide_eq_decide]
    rw [hfl _ hl, hfl _ hm, ← Real.logb_lt_logb_iff (b := 10) (by norm_num) (mul_pos hpow hl) hm,
      Real.logb_mul hpow.ne' hl.ne', Real.logb_rpow (by norm_num) (by norm_num)]
    unfold DLOGM_CUT T_FIT_MIN
    norm_num
    constructor
    · rintro ⟨h1, -, h2⟩; exact ⟨h2, by linarith⟩
    · rintro ⟨h1, h2⟩; exact ⟨by linarith, trivial, h1⟩
  rw [hc]
  rfl

/-- A fit with the default cuts, in which one of four times is too early and one mass is too small. -/
example : ∃ r mlast, diffmah_fitter lbfgs adam f4 grad (([0.5, 2, 3, 4] : List ℝ).map fin)
      (([10 ^ 11, 10 ^ 8, 2 * 10 ^ 11, 10 ^ 12] : List ℝ).map fin) (nstep := nstep) (n_warmup := n_warmup)
      (tpeak_fixed := tp) (force_skip_fit := true) = .ok r ∧
    ([10 ^ 11, 10 ^ 8, 2 * 10 ^ 11, 10 ^ 12] : List ℝ).getLast? = some mlast ∧
    ∀ m ∈ ([10 ^ 11, 10 ^ 8, 2 * 10 ^ 11, 10 ^ 12] : List ℝ), 0 < m := by
  obtain ⟨r, hr⟩ := (C29_errors lbfgs adam f4 grad (([0.5, 2, 3, 4] : List ℝ).map fin)
    (([10 ^ 11, 10 ^ 8, 2 * 10 ^ 11, 10 ^ 12] : List ℝ).map fin) ninf (fin DLOGM_CUT) (fin T_FIT_MIN) nstep
    n_warmup tp false).2.2 rfl (by simp)
  exact ⟨r, _, hr, rfl, by simp⟩

/-- C34. The target history has one entry per target time; entry `k` is the greatest selected log
mass up to `k`; it is non-decreasing, and equals the selected values if these already are. -/
theorem C34_running_peak (r : FitResult)
    (h : diffmah_fitter lbfgs adam f4 grad (ts.map fin) (ms.map fin) lgm_min (fin dcut) (fin tmin)
      nstep n_warmup tp force = .ok r) {floor : ℝ}
    (hfloor : (pow10 lgm_min : XR) = fin floor) :
    ∃ (mlast : ℝ) (target : List ℝ), ms.getLast? = some mlast ∧
      r.loss_data.log_mah_target = target.map fin ∧
      let sel := (insideCuts (flooredLog floor mlast) dcut tmin lgm_min
        (ts.zip (ms.map (flooredLog floor)))).map Prod.snd
      target.length = r.loss_data.t_target.length ∧ target.length = sel.length ∧
      (∀ (k : ℕ) (y : ℝ), target[k]? = some y → IsGreatest {x | ∃ j ≤ k, sel[j]? = some x} y) ∧
      target.Pairwise (· ≤ ·) ∧ (sel.Pairwise (· ≤ ·) → target = sel) := by
  obtain ⟨mlast, hml, h1, h2⟩ := fit_target _ _ _ _ _ _ _ _ _ _ _ _ _ r h hfloor
  set sel := (insideCuts (flooredLog floor mlast) dcut tmin lgm_min
        (ts.zip (ms.map (flooredLog floor)))) with hsel
  refine ⟨mlast, racc (sel.map Prod.snd), hml, by rw [h2, accumulate_fin], ?_, ?_, ?_, ?_, ?_⟩
  · rw [h1]; simp
  · rw [racc_length]
  · intro k y hy; exact racc_get _ k y hy
  · rw [List.pairwise_iff_getElem]
    intro i j hi hj hij
    have gi := racc_get _ i _ (List.getElem?_eq_getElem hi)
    have gj := racc_get _ j _ (List.getElem?_eq_getElem hj)
    obtain ⟨a, ha, hb⟩ := gi.1
    exact gj.2 ⟨a, by omega, hb⟩
  · intro hp
    apply List.ext_getElem (by rw [racc_length])
    intro k h1 h2
    have gk := racc_get _ k _ (List.getElem?_eq_getElem h1)
    apply le_antisymm
    · obtain ⟨a, ha, hb⟩ := gk.1
      rcases Nat.lt_or_ge a k with hlt | hge
      · obtain ⟨ha', hb'⟩ := List.getElem?_eq_some_iff.1 hb
        rw [← hb']
        exact List.pairwise_iff_getElem.1 hp a k ha' h2 hlt
      · have : a = k := by omega
        subst this
        rw [List.getElem?_eq_getElem h2] at hb
        exact (Option.some.inj hb).ge
    · exact gk.2 ⟨k, le_rfl, List.getElem?_eq_getElem h2⟩

/-! ## C35 -/

/-- The floored log mass always exceeds `lgm_min`, so the `lgm_min` cut removes nothing. -/
theorem flooredLog_gt (L m : ℝ) : L < flooredLog ((10 : ℝ) ^ L) m := by
  unfold flooredLog
  rw [Real.lt_logb_iff_rpow_lt (by norm_num)]
  · split
    · linarith
    · rename_i h; exact not_le.1 h
  · have : (0 : ℝ) < 10 ^ L := by positivity
    split
    · positivity
    · rename_i h; linarith [not_le.1 h]

/-- C35, negation. `lgm_min` alone removes no point: with `lgm_min = 10` and the default
`dlogm_cut`, the mass 1e8 at time 1 enters the target data. -/
theorem C35_low_mass_point_used :
    ∃ r, diffmah_fitter lbfgs adam f4 grad (([1, 2, 3, 4] : List ℝ).map fin)
      (([10 ^ 8, 10 ^ 11, 2 * 10 ^ 11, 10 ^ 12] : List ℝ).map fin) (fin 10) (fin 2.5) (fin 1) nstep
      n_warmup tp true = .ok r ∧ fin 1 ∈ r.loss_data.t_target := by
  obtain ⟨r, hr⟩ := (C29_errors lbfgs adam f4 grad (([1, 2, 3, 4] : List ℝ).map fin)
    (([10 ^ 8, 10 ^ 11, 2 * 10 ^ 11, 10 ^ 12] : List ℝ).map fin) (fin 10) (fin 2.5) (fin 1) nstep
    n_warmup tp false).2.2 rfl (by simp)
  refine ⟨r, hr, ?_⟩
  obtain ⟨mlast, hml, e⟩ := C33_target_times _ _ _ _ _ _ _ _ _ _ _ _ _ r hr (by norm_num)
    (floor := (10 : ℝ) ^ (10 : ℝ)) rfl
  have hml' : mlast = 10 ^ 12 := by
    have : (some (10 ^ 12) : Option ℝ) = some mlast := hml
    exact (Option.some.inj this).symm
  subst hml'
  rw [e]
  refine List.mem_map.2 ⟨(1, flooredLog ((10 : ℝ) ^ (10 : ℝ)) (10 ^ 8)), ?_, rfl⟩
  unfold insideCuts
  rw [List.mem_filter]
  refine ⟨by simp, ?_⟩
  simp only [decide_eq_true_eq]
  refine ⟨?_, flooredLog_gt 10 _, le_rfl⟩
  have h1 : flooredLog ((10 : ℝ) ^ (10 : ℝ)) (10 ^ 12) = 12 := by
    unfold flooredLog
    rw [if_neg]
    · rw [show ((10 : ℝ) ^ 12) = (10 : ℝ) ^ (12 : ℝ) by norm_cast]
      exact Real.logb_rpow (by norm_num) (by norm_num)
    · rw [show (10 : ℝ) ^ (10 : ℝ) = (10 : ℝ) ^ (10 : ℕ) by norm_cast]; norm_num
  rw [h1]
  refine lt_trans ?_ (flooredLog_gt 10 (10 ^ 8))
  norm_num

/-- C35, partial: if the floor `10**lgm_min + 1e-7` lies at or below the `dlogm_cut` threshold (so
that the other cut removes the floored points), exactly the points with mass above `10**lgm_min`
inside the other two cuts are used. Missing: the case where the floor lies above the threshold, in
which the code violates the property. -/
theorem C35_partial (L : ℝ) (r : FitResult)
    (h : diffmah_fitter lbfgs adam f4 grad (ts.map fin) (ms.map fin) (fin L) (fin dcut) (fin tmin)
      nstep n_warmup tp force = .ok r) (htmin : 0 < tmin) (mlast : ℝ)
    (hl : ms.getLast? = some mlast)
    (hthr : Real.logb 10 (1e-7 + (10 : ℝ) ^ L) ≤ flooredLog ((10 : ℝ) ^ L) mlast - dcut) :
    r.loss_data.t_target = open Classical in ((ts.zip ms).filter fun q =>
      decide (flooredLog ((10 : ℝ) ^ L) mlast - dcut < Real.logb 10 q.2 ∧ (10 : ℝ) ^ L < q.2 ∧
        tmin ≤ q.1)).map (fun q => fin q.1) := by
  classical
  obtain ⟨mlast', hml, e⟩ := C33_target_times _ _ _ _ _ _ _ _ _ _ _ _ _ r h htmin
    (floor := (10 : ℝ) ^ L) rfl
  rw [hl] at hml; cases hml
  rw [e]
  unfold insideCuts
  have hz : ts.zip (ms.map (flooredLog ((10 : ℝ) ^ L)))
      = (ts.zip ms).map (fun q => (q.1, flooredLog ((10 : ℝ) ^ L) q.2)) := by
    rw [← List.map_id ts, List.zip_map, List.map_id]; rfl
  rw [hz, List.filter_map, List.map_map]
  have hf : ∀ q : ℝ × ℝ, (flooredLog ((10 : ℝ) ^ L) mlast - dcut < flooredLog ((10 : ℝ) ^ L) q.2 ∧
      XR.lt (fin L) (fin (flooredLog ((10 : ℝ) ^ L) q.2)) ∧ tmin ≤ q.1) ↔
      (flooredLog ((10 : ℝ) ^ L) mlast - dcut < Real.logb 10 q.2 ∧ (10 : ℝ) ^ L < q.2 ∧
        tmin ≤ q.1) := by
    intro q
    rcases lt_or_ge ((10 : ℝ) ^ L) q.2 with hq | hq
    · have e1 : flooredLog ((10 : ℝ) ^ L) q.2 = Real.logb 10 q.2 := by
        unfold flooredLog; rw [if_neg (not_le.2 hq)]
      have e2 : XR.lt (fin L) (fin (flooredLog ((10 : ℝ) ^ L) q.2)) := flooredLog_gt L _
      rw [e1] at e2 ⊢
      simp only [e2, hq, true_and]
    · have e1 : flooredLog ((10 : ℝ) ^ L) q.2 = Real.logb 10 (1e-7 + (10 : ℝ) ^ L) := by
        unfold flooredLog; rw [if_pos hq]
      constructor
      · rintro ⟨a, -⟩; rw [e1] at a; linarith
      · rintro ⟨-, a, -⟩; linarith
  simp only [Function.comp_def, hf]

/-- The hypotheses of C33-C35 hold for a plain history. -/
example : ∃ r, diffmah_fitter lbfgs adam f4 grad (([1, 2, 3, 4] : List ℝ).map fin)
      (([10 ^ 8, 10 ^ 11, 2 * 10 ^ 11, 10 ^ 12] : List ℝ).map fin) (fin 9) (fin 2.5) (fin 1) nstep
      n_warmup tp true = .ok r :=
  (C29_errors lbfgs adam f4 grad (([1, 2, 3, 4] : List ℝ).map fin)
    (([10 ^ 8, 10 ^ 11, 2 * 10 ^ 11, 10 ^ 12] : List ℝ).map fin) (fin 9) (fin 2.5) (fin 1) nstep
    n_warmup tp false).2.2 rfl (by simp)

/-- The threshold hypothesis of `C35_partial` holds for `lgm_min = 9`, final mass 1e12. -/
example : Real.logb 10 (1e-7 + (10 : ℝ) ^ (9 : ℝ)) ≤ flooredLog ((10 : ℝ) ^ (9 : ℝ)) (10 ^ 12) - 2.5 := by
  have h9 : (10 : ℝ) ^ (9 : ℝ) = 10 ^ 9 := by norm_cast
  have h1 : flooredLog ((10 : ℝ) ^ (9 : ℝ)) (10 ^ 12) = 12 := by
    unfold flooredLog
    rw [if_neg]
    · rw [show ((10 : ℝ) ^ 12) = (10 : ℝ) ^ (12 : ℝ) by norm_cast]
      exact Real.logb_rpow (by norm_num) (by norm_num)
    · rw [h9]; norm_num
  rw [h1, Real.logb_le_iff_le_rpow (by norm_num) (by positivity), h9]
  have h3 : (10 : ℝ) ^ (9.25 : ℝ) ≤ 10 ^ (12 - 2.5 : ℝ) :=
    Real.rpow_le_rpow_of_exponent_le (by norm_num) (by norm_num)
  have h4 : (10 : ℝ) ^ (9.25 : ℝ) = 10 ^ 9 * 10 ^ (0.25 : ℝ) := by
    rw [← h9, ← Real.rpow_add (by norm_num)]; norm_num
  have h5 : (1.1 : ℝ) ≤ 10 ^ (0.25 : ℝ) := by
    have : ((1.1 : ℝ) ^ (4 : ℝ)) ^ (0.25 : ℝ) ≤ 10 ^ (0.25 : ℝ) := by
      apply Real.rpow_le_rpow (by positivity) _ (by norm_num)
      norm_num
    rw [← Real.rpow_mul (by norm_num)] at this
    norm_num at this ⊢
    exact this
  nlinarith

theorem flooredLog_pow (x : ℝ) : flooredLog 0 ((10 : ℝ) ^ x) = x := by
  unfold flooredLog
  rw [if_neg (not_le.2 (by positivity))]
  exact Real.logb_rpow (by norm_num) (by norm_num)

/-- A fit that is not skipped: the hypotheses of C29 (fitted branch), C30 and C31 hold for the
history below, with any single-precision rounding and an L-BFGS that returns the origin. -/
theorem fitted_example (x : XR) : ∃ r, diffmah_fitter
      (fun _ _ => ⟨[fin 0, fin 0, fin 0, fin 0], fin 1, true⟩) adam f4 grad
      (([1, 2, 3, 4] : List ℝ).map fin)
      (([(10 : ℝ) ^ (11 : ℝ), (10 : ℝ) ^ (11.5 : ℝ), (10 : ℝ) ^ (11.75 : ℝ), (10 : ℝ) ^ (12 : ℝ)]
        : List ℝ).map fin) ninf (fin 2.5) (fin 1) nstep n_warmup (some x) false = .ok r ∧
      r.skip_fit = false := by
  set ts : List ℝ := [1, 2, 3, 4] with hts
  set ms : List ℝ := [(10 : ℝ) ^ (11 : ℝ), (10 : ℝ) ^ (11.5 : ℝ), (10 : ℝ) ^ (11.75 : ℝ),
    (10 : ℝ) ^ (12 : ℝ)] with hms
  obtain ⟨tpk, -, e⟩ := get_loss_data_eq f4 (ts.map fin) (ms.map fin) ninf (fin 2.5) (fin 1) 3
    (some x) (fin 4) (fin ((10 : ℝ) ^ (12 : ℝ))) rfl rfl rfl
  rw [clipLog_floor ninf (fl := 0) rfl, selected_real ts ms ninf 2.5 1 (fl := 0) rfl] at e
  have hsel : insideCuts (flooredLog 0 ((10 : ℝ) ^ (12 : ℝ))) 2.5 1 ninf
      (ts.zip (ms.map (flooredLog 0))) = [(1, 11), (2, 11.5), (3, 11.75), (4, 12)] := by
    unfold insideCuts
    simp only [hts, hms, List.map_cons, List.map_nil, flooredLog_pow, List.zip_cons_cons,
      List.zip_nil_right, XR.lt, true_and]
    norm_num [List.filter_cons]
  have hacc : accumulate [fin 11, fin 11.5, fin 11.75, fin 12] = [fin 11, fin 11.5, fin 11.75, fin 12]
      := by
    simp only [accumulate, accumulateFrom, XR.max]
    norm_num
  have hnp : compute_non_trivial_npts [fin 11, fin 11.5, fin 11.75, fin 12] = 3 := by
    unfold compute_non_trivial_npts
    have h12 : ([fin 11, fin 11.5, fin 11.75, fin 12] : List XR).getLast?.getD ninf = fin 12 := rfl
    rw [h12]
    have h1 : XR.lt (fin 11) (fin 12) := by change (11 : ℝ) < 12; norm_num
    have h2 : XR.lt (fin 11.5) (fin 12) := by change (11.5 : ℝ) < 12; norm_num
    have h3 : XR.lt (fin 11.75) (fin 12) := by change (11.75 : ℝ) < 12; norm_num
    have h4 : ¬ XR.lt (fin 12) (fin 12) := lt_irrefl (12 : ℝ)
    simp [h1, h2, h3, h4]
  simp only [hsel, List.map_cons, List.map_nil, hacc, hnp, lt_irrefl, if_false] at e
  obtain ⟨w, hw⟩ := check_ok (l := ms.map fin) (by simp [hms])
  unfold diffmah_fitter
  have hlen : (ms.map fin).length = (ts.map fin).length := rfl
  have e' : get_loss_data f4 (ts.map fin) (ms.map fin) ninf (fin 2.5) (fin 1) NPTS_FIT_MIN (some x)
    = _ := e
  simp only [ne_eq, hlen, not_true, if_false, bind, Except.bind, hw, pure, Except.pure, e',
    Bool.or_false, Bool.false_eq_true]
  rw [C36_bfgs_used _ adam f4 _ _ nstep n_warmup _ rfl rfl 1 rfl (by norm_num)]
  exact ⟨_, rfl, rfl⟩

/-! ## C40, C41 -/

/-- The value of the fit loss: the mean squared distance between the predicted and the target
history. -/
theorem C40_mean_square (u : VariedU ℝ) (ld : LossData ℝ) :
    log_mah_loss_uparams u ld = Spec.mean ((ld.t_target.zip ld.log_mah_target).map fun q =>
      (log_mah_kern (get_bounded_mah_params
        ⟨u.u_logm0, u.u_logtc, u.u_early_index, u.u_late_index, ld.u_t_peak⟩) q.1 ld.logt0 - q.2)
          ^ 2) := by
  have hz : ∀ (f : ℝ → ℝ) (l1 l2 : List ℝ),
      List.zipWith (fun p t : ℝ => (p - t) * (p - t)) (l1.map f) l2
        = (l1.zip l2).map fun q => (f q.1 - q.2) ^ 2 := by
    intro f l1 l2
    rw [List.zipWith_map_left, ← List.map_uncurry_zip_eq_zipWith]
    apply List.map_congr_left
    intro q _
    simp [Function.uncurry, sq]
  unfold log_mah_loss_uparams mse jmean Spec.mean
  simp only
  rw [hz, show (lit 0 : ℝ) = 0 from rfl, ← List.sum_eq_foldl]
  rfl

/-- C40. The fit loss is never negative. -/
theorem C40_nonneg (u : VariedU ℝ) (ld : LossData ℝ) : 0 ≤ log_mah_loss_uparams u ld := by
  rw [C40_mean_square u ld]
  apply div_nonneg _ (Nat.cast_nonneg _)
  apply List.sum_nonneg
  intro x hx
  obtain ⟨q, -, rfl⟩ := List.mem_map.1 hx
  positivity

theorem sum_sq_zero_iff {β : Type} (f : β → ℝ) (l : List β) :
    (l.map fun b => f b ^ 2).sum = 0 ↔ ∀ b ∈ l, f b = 0 := by
  induction l with
  | nil => simp
  | cons a l ih =>
    have h1 : 0 ≤ f a ^ 2 := sq_nonneg _
    have h2 : 0 ≤ (l.map fun b => f b ^ 2).sum := by
      apply List.sum_nonneg
      intro x hx
      obtain ⟨b, -, rfl⟩ := List.mem_map.1 hx
      positivity
    simp only [List.map_cons, List.sum_cons, List.mem_cons, forall_eq_or_imp]
    rw [← ih]
    constructor
    · intro h
      refine ⟨pow_eq_zero_iff (two_ne_zero) |>.1 (by linarith), by linarith⟩
    · rintro ⟨a, b⟩; rw [a, b]; simp

/-- C40. On a non-empty target the fit loss vanishes iff the predicted history agrees with the
target at every target time. -/
theorem C40_zero_iff (u : VariedU ℝ) (ld : LossData ℝ)
    (hlen : ld.t_target.length = ld.log_mah_target.length) (hne : ld.t_target ≠ []) :
    log_mah_loss_uparams u ld = 0 ↔ ∀ (k : ℕ) (t m : ℝ), ld.t_target[k]? = some t →
      ld.log_mah_target[k]? = some m → log_mah_kern (get_bounded_mah_params
        ⟨u.u_logm0, u.u_logtc, u.u_early_index, u.u_late_index, ld.u_t_peak⟩) t ld.logt0 = m := by
  rw [C40_mean_square u ld]
  unfold Spec.mean
  have hl : (((ld.t_target.zip ld.log_mah_target).map fun q => (log_mah_kern (get_bounded_mah_params
        ⟨u.u_logm0, u.u_logtc, u.u_early_index, u.u_late_index, ld.u_t_peak⟩) q.1 ld.logt0 - q.2)
          ^ 2).length : ℝ) ≠ 0 := by
    have : ld.t_target.length ≠ 0 := by
      rw [ne_eq, List.length_eq_zero_iff]; exact hne
    simp only [List.length_map, List.length_zip, ← hlen, min_self]
    exact_mod_cast this
  rw [div_eq_zero_iff, or_iff_left hl, sum_sq_zero_iff (fun q : ℝ × ℝ => log_mah_kern
    (get_bounded_mah_params ⟨u.u_logm0, u.u_logtc, u.u_early_index, u.u_late_index, ld.u_t_peak⟩)
      q.1 ld.logt0 - q.2)]
  constructor
  · intro h k t m ht hm
    have := h (t, m) (List.mem_of_getElem? (i := k) (by
      rw [List.getElem?_zip_eq_some]; exact ⟨ht, hm⟩))
    simp only at this
    linarith
  · rintro h ⟨t, m⟩ hq
    obtain ⟨k, hk⟩ := List.mem_iff_getElem?.1 hq
    rw [List.getElem?_zip_eq_some] at hk
    have := h k t m hk.1 hk.2
    simp only; linarith

theorem isAD_foldl {β : Type} (f : β → ℝ → ℝ) (D : β → Dual) (x : ℝ) (l : List β)
    (h : ∀ b ∈ l, IsAD (f b) x (D b)) (g : ℝ → ℝ) (G : Dual) (hg : IsAD g x G) :
    IsAD (fun y => (l.map fun b => f b y).foldl (· + ·) (g y)) x
      ((l.map D).foldl (· + ·) G) := by
  induction l generalizing g G with
  | nil => exact hg
  | cons a l ih =>
    simp only [List.map_cons, List.foldl_cons]
    exact ih (fun b hb => h b (List.mem_cons_of_mem _ hb)) _ _ (hg.add (h a List.mem_cons_self))

theorem isAD_log_mah_fixed {p : ℝ → MahParams ℝ} {x : ℝ} {P : MahParams Dual}
    (hp : IsADParams p x P) (t l tpk : ℝ) (htp : ∀ y, (p y).t_peak = tpk) (h0 : t ≠ 0)
    (h1 : tpk ≠ 0) :
    IsAD (fun y => log_mah_kern (p y) t l) x (log_mah_kern P (Dual.const t) (Dual.const l)) := by
  have hc : (lt (Dual.const t) P.t_peak : Prop) = (t < tpk) := by
    change ((Dual.const t).v < P.t_peak.v) = _
    rw [hp.t_peak.1]; simp only [htp x]; rfl
  unfold log_mah_kern
  simp only [hc, htp]
  by_cases h : t < tpk
  · simp only [jwhere, if_pos h, if_pos (show (lt t tpk : Prop) from h)]
    exact isAD_log_mah_noq hp (IsAD.const t x) (IsAD.const l x) h0
  · simp only [jwhere, if_neg h, if_neg (show ¬ (lt t tpk : Prop) from h)]
    have := isAD_log_mah_noq hp hp.t_peak (IsAD.const l x) (by rw [htp]; exact h1)
    simpa only [htp] using this

theorem isAD_bounded {f : ℝ → ℝ} {x : ℝ} {D : Dual} (h : IsAD f x D) (b : ℝ × ℝ) :
    IsAD (fun y => get_bounded_diffmah_param (f y) b) x (get_bounded_diffmah_param D b) := by
  unfold get_bounded_diffmah_param
  simp only
  exact IsAD.sigmoid h ((IsAD.lit _ _).mul ((IsAD.lit _ _).add (IsAD.lit _ _))) (IsAD.lit _ _)
    (IsAD.lit _ _) (IsAD.lit _ _)

theorem isAD_loss {a b c d : ℝ → ℝ} {x : ℝ} {A B C D : Dual} (ha : IsAD a x A) (hb : IsAD b x B)
    (hc : IsAD c x C) (hd : IsAD d x D) (ld : LossData ℝ)
    (hlen : ld.t_target.length = ld.log_mah_target.length) (hne : ld.t_target ≠ [])
    (ht : ∀ t ∈ ld.t_target, t ≠ 0) :
    IsAD (fun y => log_mah_loss_uparams ⟨a y, b y, c y, d y⟩ ld) x
      (log_mah_loss_uparams ⟨A, B, C, D⟩ ld.const) := by
  have hp : IsADParams (fun y => get_bounded_mah_params ⟨a y, b y, c y, d y, ld.u_t_peak⟩) x
      (get_bounded_mah_params ⟨A, B, C, D, Dual.const ld.u_t_peak⟩) := by
    have hlate := isAD_bounded hd MAH_PBOUNDS.late_index
    exact ⟨isAD_bounded ha _, isAD_bounded hb _,
      IsAD.sigmoid hc (IsAD.lit _ _) (IsAD.lit _ _) hlate (IsAD.lit _ _), hlate,
      isAD_bounded (IsAD.const _ _) _⟩
  have htp0 : get_bounded_diffmah_param ld.u_t_peak MAH_PBOUNDS.t_peak ≠ 0 := by
    have := (bounded_mem ld.u_t_peak (b := MAH_PBOUNDS.t_peak) (by norm_num [MAH_PBOUNDS])).1
    have h2 : (0 : ℝ) < MAH_PBOUNDS.t_peak.1 := by norm_num [MAH_PBOUNDS]
    linarith
  have hR : ∀ (f : ℝ → ℝ) (l1 l2 : List ℝ),
      List.zipWith (fun p t : ℝ => (p - t) * (p - t)) (l1.map f) l2
        = (l1.zip l2).map fun q => (f q.1 - q.2) * (f q.1 - q.2) := by
    intro f l1 l2
    rw [List.zipWith_map_left, ← List.map_uncurry_zip_eq_zipWith]; rfl
  have hD : ∀ (f : Dual → Dual) (l1 l2 : List ℝ),
      List.zipWith (fun p t : Dual => (p - t) * (p - t)) ((l1.map Dual.const).map f)
        (l2.map Dual.const)
        = (l1.zip l2).map fun q => (f (Dual.const q.1) - Dual.const q.2)
          * (f (Dual.const q.1) - Dual.const q.2) := by
    intro f l1 l2
    rw [List.map_map, List.zipWith_map, ← List.map_uncurry_zip_eq_zipWith]; rfl
  unfold log_mah_loss_uparams mse jmean LossData.const
  simp only [hR, hD, List.length_map]
  apply IsAD.div
  · apply isAD_foldl (fun (q : ℝ × ℝ) y => (log_mah_kern_u_params ⟨a y, b y, c y, d y, ld.u_t_peak⟩
      q.1 ld.logt0 - q.2) * (log_mah_kern_u_params ⟨a y, b y, c y, d y, ld.u_t_peak⟩
      q.1 ld.logt0 - q.2)) _ x _ _ _ _ (IsAD.lit 0 x)
    rintro ⟨t, m⟩ hq
    have hk := isAD_log_mah_fixed hp t ld.logt0 _ (fun y => rfl)
      (ht t (List.of_mem_zip hq).1) htp0
    exact (hk.sub (IsAD.const m x)).mul (hk.sub (IsAD.const m x))
  · exact IsAD.lit _ x
  · have : ld.t_target.length ≠ 0 := by
      rw [ne_eq, List.length_eq_zero_iff]; exact hne
    simp only [List.length_zip, ← hlen, min_self]
    change ((ld.t_target.length : ℕ) : ℝ) ≠ 0
    exact_mod_cast this

/-- C41. The first output of `loss_and_grads_kern` is the loss, and each component of the second is
the partial derivative of the loss with respect to that unbounded parameter. -/
theorem C41_gradient (u : VariedU ℝ) (ld : LossData ℝ)
    (hlen : ld.t_target.length = ld.log_mah_target.length) (hne : ld.t_target ≠ [])
    (ht : ∀ t ∈ ld.t_target, t ≠ 0) :
    (loss_and_grads_kern u ld).1 = log_mah_loss_uparams u ld ∧
    HasDerivAt (fun y => log_mah_loss_uparams ⟨y, u.u_logtc, u.u_early_index, u.u_late_index⟩ ld)
      (loss_and_grads_kern u ld).2.u_logm0 u.u_logm0 ∧
    HasDerivAt (fun y => log_mah_loss_uparams ⟨u.u_logm0, y, u.u_early_index, u.u_late_index⟩ ld)
      (loss_and_grads_kern u ld).2.u_logtc u.u_logtc ∧
    HasDerivAt (fun y => log_mah_loss_uparams ⟨u.u_logm0, u.u_logtc, y, u.u_late_index⟩ ld)
      (loss_and_grads_kern u ld).2.u_early_index u.u_early_index ∧
    HasDerivAt (fun y => log_mah_loss_uparams ⟨u.u_logm0, u.u_logtc, u.u_early_index, y⟩ ld)
      (loss_and_grads_kern u ld).2.u_late_index u.u_late_index := by
  refine ⟨rfl, ?_, ?_, ?_, ?_⟩
  · exact (isAD_loss (IsAD.var _) (IsAD.const _ _) (IsAD.const _ _) (IsAD.const _ _) ld hlen hne
      ht).2
  · exact (isAD_loss (IsAD.const _ _) (IsAD.var _) (IsAD.const _ _) (IsAD.const _ _) ld hlen hne
      ht).2
  · exact (isAD_loss (IsAD.const _ _) (IsAD.const _ _) (IsAD.var _) (IsAD.const _ _) ld hlen hne
      ht).2
  · exact (isAD_loss (IsAD.const _ _) (IsAD.const _ _) (IsAD.const _ _) (IsAD.var _) ld hlen hne
      ht).2

/-- A loss-data value meeting the hypotheses of C40 and C41. -/
example : ∃ ld : LossData ℝ, ld.t_target.length = ld.log_mah_target.length ∧ ld.t_target ≠ [] ∧
    ∀ t ∈ ld.t_target, t ≠ 0 :=
  ⟨⟨[1, 5, 13], [10, 11, 12], 3, 1⟩, rfl, by simp, by simp⟩

/-! ## C79 -/

/-- C79. If L-BFGS reports the loss of the point it returns, and the starting point is finite, the
loss reported by the fitter is the mean squared distance between the history predicted by the
reported best-fit parameters and the target, the present day of the prediction being the last
time of the input. -/
theorem C79_fit_loss_is_distance_of_best_fit (t_sim mah_sim : List XR) (dlogm_cut t_fit_min : XR)
    (hn : 1 ≤ nstep)
    (hbfgs : ∀ lg p, (lbfgs lg p).func = (lg (lbfgs lg p).x).1)
    (ho : ∀ s, SinglePrecision (adam s) f4) (r : FitResult)
    (h : diffmah_fitter lbfgs adam f4 grad t_sim mah_sim lgm_min dlogm_cut t_fit_min nstep n_warmup
      tp force = .ok r) (hs : r.skip_fit = false)
    (hstart : ∀ u s, get_loss_data f4 t_sim mah_sim lgm_min dlogm_cut t_fit_min 3 tp
      = .ok (u, r.loss_data, s) → u.map f4 = u ∧ FiniteAt (fit_lg grad r.loss_data) u) :
    ∃ t_last, t_sim.getLast? = some t_last ∧
      r.loss_best = mse (r.loss_data.t_target.map fun t => log_mah_kern r.p_best t (log10 t_last))
        r.loss_data.log_mah_target := by
  obtain ⟨hlen, hne, u, s, hg, hs', hcase⟩ := fitter_ok _ _ _ _ _ _ _ _ _ _ _ _ _ r h
  obtain ⟨tl, htl⟩ := last_exists (l := t_sim)
    (by rintro rfl; exact hne (List.length_eq_zero_iff.1 hlen))
  obtain ⟨ml, hml⟩ := last_exists hne
  refine ⟨tl, htl, ?_⟩
  have hlogt0 : r.loss_data.logt0 = log10 tl := by
    obtain ⟨tpk, -, e⟩ := get_loss_data_eq f4 t_sim mah_sim lgm_min dlogm_cut t_fit_min 3 tp tl ml
      htl hml hlen
    rw [e] at hg
    split at hg
    · simp only [Except.ok.injEq, Prod.mk.injEq] at hg
      rw [hs'] at hs
      rw [← hg.2.2] at hs
      cases hs
    · simp only [Except.ok.injEq, Prod.mk.injEq] at hg
      rw [← hg.2.1]
  rw [← hlogt0]
  obtain ⟨hu4, hfin⟩ := hstart u s hg
  rcases hcase with ⟨e, -⟩ | ⟨-, res, up, hb, hm, e1, e2, e3, e4⟩
  · rw [e] at hs; cases hs
  have hloss : res.loss_best = (fit_lg grad r.loss_data res.p_best).1 := by
    rcases C36_code_used _ _ _ _ _ _ _ _ hb with ⟨-, -, -, e⟩ | ⟨-, a, term, hw, e⟩
    · rw [e]; exact hbfgs _ _
    · rw [e]
      obtain ⟨r', term', hw', -, -, hl⟩ := C39_never_worse_than_start adam (fit_lg grad r.loss_data)
        f4 u nstep n_warmup 50 0.01 none 0.0 hn (by norm_num) ho hu4 hfin
      have : jax_adam_wrapper adam (fit_lg grad r.loss_data) f4 u nstep n_warmup = .ok (r', term') :=
        hw'
      rw [this] at hw; cases hw
      exact hl.symm
  rw [e2, hloss]
  unfold makeU at hm
  split at hm
  · rename_i a b c d hab
    cases hm
    rw [e1, hab]
    rfl
  · cases hm

end Diffmah.Fit

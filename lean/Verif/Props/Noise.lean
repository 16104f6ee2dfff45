import Verif.Props.FitError
import Verif.Props.Units
import Mathlib.Algebra.Order.Chebyshev

/-!
# C137: errors in the simulated masses change a fit no more than their size

Two histories on the same times whose log-masses differ by at most `δ`, and of which the same points pass the cuts, have
target histories that differ by at most `δ`, and at any parameters root-mean-square distances that differ by at most `δ`.
-/

namespace Diffmah.Fit

open XR hiding log10 pow10 ln sigm max lt le add sub mul div neg
open JOps Spec

/-! ## Root-mean-square distances -/

theorem sum_abs_sq_le (l : List ℝ) : (l.map fun b => |b|).sum ^ 2 ≤ l.length * (l.map fun b => b ^ 2).sum := by
  have h := sq_sum_le_card_mul_sum_sq (s := (Finset.univ : Finset (Fin l.length))) (f := fun i => |l[i]|)
  simp only [Finset.card_univ, Fintype.card_fin, sq_abs] at h
  have e1 : (l.map fun b => |b|).sum = ∑ i : Fin l.length, |l[i]| := by
    rw [← List.sum_ofFn]; congr 1
    exact (List.ofFn_getElem_eq_map l fun b => |b|).symm
  have e2 : (l.map fun b => b ^ 2).sum = ∑ i : Fin l.length, l[i] ^ 2 := by
    rw [← List.sum_ofFn]; congr 1
    exact (List.ofFn_getElem_eq_map l fun b => b ^ 2).symm
  rw [e1, e2]
  exact h

theorem rms_le {β : Type} (l : List β) (a b : β → ℝ) (δ : ℝ) (hδ : 0 ≤ δ) (h : ∀ x ∈ l, |a x| ≤ |b x| + δ) :
    √(Spec.mean (l.map fun x => a x ^ 2)) ≤ √(Spec.mean (l.map fun x => b x ^ 2)) + δ := by
  rcases eq_or_ne l [] with rfl | hne
  · simp [Spec.mean, hδ]
  have hn : (0 : ℝ) < l.length := by rw [Nat.cast_pos]; exact List.length_pos_iff.2 hne
  set n : ℝ := (l.length : ℝ) with hndef
  set B := (l.map fun x => b x ^ 2).sum with hB
  set S := (l.map fun x => |b x|).sum with hS
  have hB0 : 0 ≤ B := List.sum_nonneg (by
    intro x hx; obtain ⟨y, -, rfl⟩ := List.mem_map.1 hx; positivity)
  have hS0 : 0 ≤ S := List.sum_nonneg (by
    intro x hx; obtain ⟨y, -, rfl⟩ := List.mem_map.1 hx; positivity)
  have hcs : S ^ 2 ≤ n * B := by
    have := sum_abs_sq_le (l.map b)
    simpa only [List.map_map, List.length_map, Function.comp_def] using this
  have hsum : (l.map fun x => a x ^ 2).sum ≤ B + 2 * δ * S + n * δ ^ 2 := by
    have key : ∀ l : List β, (∀ x ∈ l, |a x| ≤ |b x| + δ) → (l.map fun x => a x ^ 2).sum ≤
        (l.map fun x => b x ^ 2).sum + 2 * δ * (l.map fun x => |b x|).sum + l.length * δ ^ 2 := by
      intro l
      induction l with
      | nil => intro _; simp
      | cons y l ih =>
        intro h
        have h1 := h y (by simp)
        have h2 := ih fun x hx => h x (by simp [hx])
        simp only [List.map_cons, List.sum_cons, List.length_cons]
        push_cast
        have h3 : a y ^ 2 ≤ (|b y| + δ) ^ 2 := by
          rw [← sq_abs (a y)]; exact pow_le_pow_left₀ (abs_nonneg _) h1 2
        have h4 : |b y| ^ 2 = b y ^ 2 := sq_abs _
        nlinarith
    exact key l h
  have hmb : Spec.mean (l.map fun x => b x ^ 2) = B / n := by simp only [Spec.mean, List.length_map, hB, n]
  have hma : Spec.mean (l.map fun x => a x ^ 2) = (l.map fun x => a x ^ 2).sum / n := by
    simp only [Spec.mean, List.length_map, n]
  rw [hmb, hma]
  have hq := Real.sqrt_nonneg (B / n)
  apply Real.sqrt_le_iff.2
  refine ⟨by linarith, ?_⟩
  have hsq : √(B / n) ^ 2 = B / n := Real.sq_sqrt (div_nonneg hB0 hn.le)
  have hSn : S / n ≤ √(B / n) := by
    apply Real.le_sqrt_of_sq_le
    rw [div_pow, div_le_div_iff₀ (by positivity) hn]
    nlinarith
  have e : (B + 2 * δ * S + n * δ ^ 2) / n = B / n + 2 * δ * (S / n) + δ ^ 2 := by
    field_simp
  calc (l.map fun x => a x ^ 2).sum / n ≤ (B + 2 * δ * S + n * δ ^ 2) / n := by gcongr
    _ = B / n + 2 * δ * (S / n) + δ ^ 2 := e
    _ ≤ (√(B / n) + δ) ^ 2 := by nlinarith

theorem mean_zip_eq (f : ℝ → ℝ) (T M M' : List ℝ) (hlen : M.length = M'.length) :
    Spec.mean ((T.zip M).map fun q => (f q.1 - q.2) ^ 2)
      = Spec.mean ((T.zip (M.zip M')).map fun q => (f q.1 - q.2.1) ^ 2) ∧
    Spec.mean ((T.zip M').map fun q => (f q.1 - q.2) ^ 2)
      = Spec.mean ((T.zip (M.zip M')).map fun q => (f q.1 - q.2.2) ^ 2) := by
  have k1 : T.zip M = (T.zip (M.zip M')).map fun q => (q.1, q.2.1) := by
    conv_lhs => rw [← List.map_fst_zip (l₁ := M) (l₂ := M') hlen.le]
    rw [List.zip_map_right]; rfl
  have k2 : T.zip M' = (T.zip (M.zip M')).map fun q => (q.1, q.2.2) := by
    conv_lhs => rw [← List.map_snd_zip (l₁ := M) (l₂ := M') hlen.ge]
    rw [List.zip_map_right]; rfl
  constructor
  · conv_lhs => rw [k1]
    rw [List.map_map]; rfl
  · conv_lhs => rw [k2]
    rw [List.map_map]; rfl

/-- The root of the mean squared distance is 1-Lipschitz in the target. -/
theorem rms_lipschitz (f : ℝ → ℝ) (T M M' : List ℝ) (δ : ℝ) (hδ : 0 ≤ δ) (hlen : M.length = M'.length)
    (h : ∀ (k : ℕ) (m m' : ℝ), M[k]? = some m → M'[k]? = some m' → |m - m'| ≤ δ) :
    |√(mse (T.map f) M) - √(mse (T.map f) M')| ≤ δ := by
  obtain ⟨k1, k2⟩ := mean_zip_eq f T M M' hlen
  rw [mse_eq_mean, mse_eq_mean, k1, k2]
  have hd : ∀ q ∈ T.zip (M.zip M'), |q.2.1 - q.2.2| ≤ δ := by
    intro q hq
    obtain ⟨k, hk⟩ := List.mem_iff_getElem?.1 (List.of_mem_zip hq).2
    obtain ⟨h1, h2⟩ := List.getElem?_zip_eq_some.1 hk
    exact h k _ _ h1 h2
  have a1 := rms_le (T.zip (M.zip M')) (fun q => f q.1 - q.2.1) (fun q => f q.1 - q.2.2) δ hδ (by
    intro q hq
    have := abs_sub_abs_le_abs_sub (f q.1 - q.2.1) (f q.1 - q.2.2)
    rw [show f q.1 - q.2.1 - (f q.1 - q.2.2) = -(q.2.1 - q.2.2) by ring, abs_neg] at this
    linarith [hd q hq])
  have a2 := rms_le (T.zip (M.zip M')) (fun q => f q.1 - q.2.2) (fun q => f q.1 - q.2.1) δ hδ (by
    intro q hq
    have := abs_sub_abs_le_abs_sub (f q.1 - q.2.2) (f q.1 - q.2.1)
    rw [show f q.1 - q.2.2 - (f q.1 - q.2.1) = q.2.1 - q.2.2 by ring] at this
    linarith [hd q hq])
  rw [abs_le]
  constructor <;> linarith

/-- **C137** (loss). If two targets on the same times differ by at most `δ` at each, the root-mean-square distances of any
parameters from them differ by at most `δ`. -/
theorem C137_loss (u : VariedU ℝ) (ld : LossData ℝ) (M' : List ℝ) (δ : ℝ) (hδ : 0 ≤ δ)
    (hlen : ld.log_mah_target.length = M'.length)
    (h : ∀ (k : ℕ) (m m' : ℝ), ld.log_mah_target[k]? = some m → M'[k]? = some m' → |m - m'| ≤ δ) :
    |√(log_mah_loss_uparams u ld) - √(log_mah_loss_uparams u { ld with log_mah_target := M' })| ≤ δ :=
  rms_lipschitz (fun t => log_mah_kern_u_params
    ⟨u.u_logm0, u.u_logtc, u.u_early_index, u.u_late_index, ld.u_t_peak⟩ t ld.logt0) _ _ _ δ hδ hlen h

/-- Two targets that differ by a tenth of a dex at most. -/
example : ∃ (ld : LossData ℝ) (M' : List ℝ), ld.log_mah_target.length = M'.length ∧ ld.log_mah_target ≠ M' ∧
    ∀ (k : ℕ) (m m' : ℝ), ld.log_mah_target[k]? = some m → M'[k]? = some m' → |m - m'| ≤ 0.1 := by
  refine ⟨⟨[2, 5, 10], [10, 11, 12], 3, 1⟩, [10.1, 11, 11.95], rfl, by norm_num, ?_⟩
  intro k m m' h1 h2
  match k with
  | 0 => cases h1; cases h2; rw [abs_le]; constructor <;> norm_num
  | 1 => cases h1; cases h2; rw [abs_le]; constructor <;> norm_num
  | 2 => cases h1; cases h2; rw [abs_le]; constructor <;> norm_num
  | k + 3 => cases h1

/-! ## The fitter -/

section

variable {S : Type} (lbfgs : (PVec → XR × PVec) → PVec → LbfgsResult) (adam : ℝ → AdamOpt S)
  (f4 : XR → XR) (grad : LossData XR → PVec → PVec) (lgm_min : XR) (nstep n_warmup : ℕ) (tp tp' : Option XR)
  (force force' : Bool) (ts ms ms' : List ℝ) (dcut tmin δ : ℝ)

variable {lbfgs adam f4 grad lgm_min nstep n_warmup tp force ts ms dcut tmin} in
/-- What a run that is not skipped passes to the optimisers. -/
theorem run_data {tl : ℝ} (r : FitResult)
    (h : diffmah_fitter lbfgs adam f4 grad (ts.map fin) (ms.map fin) lgm_min (fin dcut) (fin tmin) nstep n_warmup tp
      force = .ok r) (hs : r.skip_fit = false) (htl : ts.getLast? = some tl) (htl0 : 0 < tl) :
    r.loss_data.logt0 = fin (Real.logb 10 tl) ∧ r.loss_data.log_mah_target ≠ [] := by
  obtain ⟨hlen, hne, u, s, hg, hs', -⟩ := fitter_ok _ _ _ _ _ _ _ _ _ _ _ _ _ r h
  have htl' : (ts.map fin).getLast? = some (fin tl) := by rw [List.getLast?_map, htl]; rfl
  obtain ⟨ml, hml⟩ := last_exists hne
  obtain ⟨tpk, htpk, e⟩ := get_loss_data_eq f4 (ts.map fin) (ms.map fin) lgm_min (fin dcut) (fin tmin) 3 tp (fin tl) ml
    htl' hml hlen
  rw [e] at hg
  split at hg
  · have : s = true := (congrArg (fun x => x.2.2) (Except.ok.inj hg)).symm
    rw [hs', this] at hs; cases hs
  · rename_i hn
    have k1 : r.loss_data.logt0 = log10 (fin tl) :=
      (congrArg (fun x => x.2.1.logt0) (Except.ok.inj hg)).symm
    have k2 := (congrArg (fun x => x.2.1.log_mah_target) (Except.ok.inj hg)).symm
    refine ⟨by rw [k1, log10_pos htl0], ?_⟩
    simp only at k2
    rw [k2]
    intro h0
    rw [h0] at hn
    exact hn (by simp [compute_non_trivial_npts])

variable {lbfgs adam f4 grad lgm_min nstep n_warmup tp tp' force force' ts ms ms' dcut tmin δ}

/-- **C137** (target). Two histories on the same increasing times, whose log-masses (floored) differ by at most `δ` at
each, and of which the same times are used, have targets that differ by at most `δ` at each target time. -/
theorem C137_target (r r' : FitResult)
    (h : diffmah_fitter lbfgs adam f4 grad (ts.map fin) (ms.map fin) lgm_min (fin dcut) (fin tmin) nstep n_warmup tp
      force = .ok r)
    (h' : diffmah_fitter lbfgs adam f4 grad (ts.map fin) (ms'.map fin) lgm_min (fin dcut) (fin tmin) nstep n_warmup tp'
      force' = .ok r')
    (htmin : 0 < tmin) {floor : ℝ} (hfloor : (JOps.pow10 lgm_min : XR) = fin floor)
    (hsort : ts.Pairwise (· < ·))
    (hd : ∀ (i : ℕ) (m m' : ℝ), ms[i]? = some m → ms'[i]? = some m' → |flooredLog floor m - flooredLog floor m'| ≤ δ)
    (hT : r.loss_data.t_target = r'.loss_data.t_target) :
    ∃ M M' : List ℝ, r.loss_data.log_mah_target = M.map fin ∧ r'.loss_data.log_mah_target = M'.map fin ∧
      M.length = M'.length ∧
      ∀ (k : ℕ) (m m' : ℝ), M[k]? = some m → M'[k]? = some m' → |m - m'| ≤ δ := by
  obtain ⟨ml, hml, ht⟩ := C33_target_times _ _ _ _ _ _ _ _ _ _ _ _ _ r h htmin hfloor
  obtain ⟨ml1, M, hml1, hM, hl1, hl2, hpk, -, -⟩ := C34_running_peak _ _ _ _ _ _ _ _ _ _ _ _ _ r h hfloor
  obtain rfl : ml = ml1 := by rw [hml] at hml1; exact Option.some.inj hml1
  obtain ⟨ml', hml', ht'⟩ := C33_target_times _ _ _ _ _ _ _ _ _ _ _ _ _ r' h' htmin hfloor
  obtain ⟨ml1', M', hml1', hM', hl1', hl2', hpk', -, -⟩ := C34_running_peak _ _ _ _ _ _ _ _ _ _ _ _ _ r' h' hfloor
  obtain rfl : ml' = ml1' := by rw [hml'] at hml1'; exact Option.some.inj hml1'
  set sel := insideCuts (flooredLog floor ml) dcut tmin lgm_min (ts.zip (ms.map (flooredLog floor))) with hsel
  set sel' := insideCuts (flooredLog floor ml') dcut tmin lgm_min (ts.zip (ms'.map (flooredLog floor))) with hsel'
  have hlen : M.length = M'.length := by rw [hl1, hl1', hT]
  have hfst : sel.map Prod.fst = sel'.map Prod.fst := by
    rw [ht, ht'] at hT
    have hi : Function.Injective (fin : ℝ → XR) := fun a b e => XR.fin.inj e
    apply hi.list_map
    rw [List.map_map, List.map_map]; exact hT
  have hin : ∀ (ms : List ℝ) (f : ℝ) (q : ℝ × ℝ),
      q ∈ insideCuts f dcut tmin lgm_min (ts.zip (ms.map (flooredLog floor))) →
      ∃ (i : ℕ) (m : ℝ), ts[i]? = some q.1 ∧ ms[i]? = some m ∧ q.2 = flooredLog floor m := by
    intro ms f q hq
    have hq' : q ∈ ts.zip (ms.map (flooredLog floor)) := by
      unfold insideCuts at hq; exact (List.mem_filter.1 hq).1
    obtain ⟨i, hi⟩ := List.mem_iff_getElem?.1 hq'
    obtain ⟨h1, h2⟩ := List.getElem?_zip_eq_some.1 hi
    rw [List.getElem?_map] at h2
    obtain ⟨m, hm, e⟩ := Option.map_eq_some_iff.1 h2
    exact ⟨i, m, h1, hm, e.symm⟩
  have hsd : ∀ (j : ℕ) (y y' : ℝ), (sel.map Prod.snd)[j]? = some y → (sel'.map Prod.snd)[j]? = some y' →
      |y - y'| ≤ δ := by
    intro j y y' hy hy'
    rw [List.getElem?_map] at hy hy'
    obtain ⟨q, hq, rfl⟩ := Option.map_eq_some_iff.1 hy
    obtain ⟨q', hq', rfl⟩ := Option.map_eq_some_iff.1 hy'
    have e1 : q.1 = q'.1 := by
      have := congrArg (fun l => l[j]?) hfst
      simp only [List.getElem?_map, hq, hq', Option.map_some, Option.some.injEq] at this
      exact this
    obtain ⟨i, m, a1, a2, a3⟩ := hin ms _ q (List.mem_of_getElem? hq)
    obtain ⟨i', m', b1, b2, b3⟩ := hin ms' _ q' (List.mem_of_getElem? hq')
    have hii : i = i' := by
      obtain ⟨hi, ei⟩ := List.getElem?_eq_some_iff.1 a1
      obtain ⟨hi', ei'⟩ := List.getElem?_eq_some_iff.1 b1
      rcases lt_trichotomy i i' with hlt | heq | hgt
      · have := List.pairwise_iff_getElem.1 hsort i i' hi hi' hlt
        rw [ei, ei', e1] at this; exact absurd this (lt_irrefl _)
      · exact heq
      · have := List.pairwise_iff_getElem.1 hsort i' i hi' hi hgt
        rw [ei, ei', e1] at this; exact absurd this (lt_irrefl _)
    subst hii
    rw [a3, b3]
    exact hd i m m' a2 b2
  have hslen : (sel.map Prod.snd).length = (sel'.map Prod.snd).length := by rw [← hl2, ← hl2', hlen]
  refine ⟨M, M', hM, hM', hlen, ?_⟩
  intro k m m' hm hm'
  obtain ⟨⟨j, hj, hjm⟩, hub⟩ := hpk k m hm
  obtain ⟨⟨j', hj', hjm'⟩, hub'⟩ := hpk' k m' hm'
  rw [abs_le]
  constructor
  · have hlt : j' < (sel.map Prod.snd).length := by
      rw [hslen]; exact (List.getElem?_eq_some_iff.1 hjm').1
    have e := List.getElem?_eq_getElem hlt
    have h1 := hub ⟨j', hj', e⟩
    have h2 := abs_le.1 (hsd j' _ _ e hjm')
    linarith [h2.1]
  · have hlt : j < (sel'.map Prod.snd).length := by
      rw [← hslen]; exact (List.getElem?_eq_some_iff.1 hjm).1
    have e := List.getElem?_eq_getElem hlt
    have h1 := hub' ⟨j, hj, e⟩
    have h2 := abs_le.1 (hsd j _ _ hjm e)
    linarith [h2.2]

/-- **C137** (fit). If moreover neither fit is skipped and both keep the same peak time fixed, then the losses that the
two fits minimise are finite at all parameters, and their roots differ by at most `δ`. -/
theorem C137_fit {tl τ : ℝ} (r r' : FitResult)
    (h : diffmah_fitter lbfgs adam f4 grad (ts.map fin) (ms.map fin) lgm_min (fin dcut) (fin tmin) nstep n_warmup tp
      force = .ok r)
    (h' : diffmah_fitter lbfgs adam f4 grad (ts.map fin) (ms'.map fin) lgm_min (fin dcut) (fin tmin) nstep n_warmup tp'
      force' = .ok r')
    (htmin : 0 < tmin) {floor : ℝ} (hfloor : (JOps.pow10 lgm_min : XR) = fin floor) (hδ : 0 ≤ δ)
    (hsort : ts.Pairwise (· < ·)) (htl : ts.getLast? = some tl) (htl0 : 0 < tl)
    (hd : ∀ (i : ℕ) (m m' : ℝ), ms[i]? = some m → ms'[i]? = some m' → |flooredLog floor m - flooredLog floor m'| ≤ δ)
    (hT : r.loss_data.t_target = r'.loss_data.t_target) (hs : r.skip_fit = false) (hs' : r'.skip_fit = false)
    (hu : r.loss_data.u_t_peak = fin τ) (hu' : r'.loss_data.u_t_peak = fin τ) (v : VariedU ℝ) :
    ∃ x x' : ℝ,
      log_mah_loss_uparams ⟨fin v.u_logm0, fin v.u_logtc, fin v.u_early_index, fin v.u_late_index⟩ r.loss_data = fin x ∧
      log_mah_loss_uparams ⟨fin v.u_logm0, fin v.u_logtc, fin v.u_early_index, fin v.u_late_index⟩ r'.loss_data
        = fin x' ∧ |√x - √x'| ≤ δ := by
  obtain ⟨M, M', hM, hM', hlen, hdM⟩ := C137_target r r' h h' htmin hfloor hsort hd hT
  obtain ⟨ml, hml, ht⟩ := C33_target_times _ _ _ _ _ _ _ _ _ _ _ _ _ r h htmin hfloor
  obtain ⟨-, M2, -, hM2, hl1, -⟩ := C34_running_peak _ _ _ _ _ _ _ _ _ _ _ _ _ r h hfloor
  obtain ⟨hlt, hne⟩ := run_data r h hs htl htl0
  obtain ⟨hlt', -⟩ := run_data r' h' hs' htl htl0
  set sel := insideCuts (flooredLog floor ml) dcut tmin lgm_min (ts.zip (ms.map (flooredLog floor))) with hsel
  set T := sel.map Prod.fst with hTdef
  have hT1 : r.loss_data.t_target = T.map fin := by rw [ht, hTdef, List.map_map]; rfl
  have hMlen : T.length = M.length := by
    have e1 : r.loss_data.log_mah_target.length = M.length := by rw [hM, List.length_map]
    have e2 : r.loss_data.log_mah_target.length = M2.length := by rw [hM2, List.length_map]
    have e3 : r.loss_data.t_target.length = T.length := by rw [hT1, List.length_map]
    omega
  have hTne : T ≠ [] := by
    intro h0
    rw [h0] at hMlen
    apply hne
    rw [hM, List.length_eq_zero_iff.1 hMlen.symm]; rfl
  have hpos : ∀ t ∈ T, 0 < t := by
    intro t ht
    obtain ⟨q, hq, rfl⟩ := List.mem_map.1 ht
    exact lt_of_lt_of_le htmin (mem_insideCuts_t _ _ _ hq)
  refine ⟨_, _, loss_fin v ⟨T, M, τ, Real.logb 10 tl⟩ r.loss_data hT1 hM hu hlt hTne hMlen hpos,
    loss_fin v ⟨T, M', τ, Real.logb 10 tl⟩ r'.loss_data (by rw [← hT, hT1]) hM' hu' hlt' hTne
      (by simp only; rw [hMlen, hlen]) hpos, ?_⟩
  exact C137_loss v ⟨T, M, τ, Real.logb 10 tl⟩ M' δ hδ hlen hdM

end

/-- The default halo on four times, and the same halo with every mass doubled: all hypotheses of `C137_target` and
`C137_fit` are met with `δ = log10 2`. -/
example : ∃ (r r' : FitResult) (τ : ℝ),
    diffmah_fitter originLbfgs gdOpt id (fun _ _ => []) (([3, 6, 9, 12] : List ℝ).map fin)
      ((inputMass DEFAULT_MAH_PARAMS [3, 6, 9, 12] 12).map fin) ninf (fin 2.5) (fin 1) 200 1 none false = .ok r ∧
    diffmah_fitter originLbfgs gdOpt id (fun _ _ => []) (([3, 6, 9, 12] : List ℝ).map fin)
      (((inputMass DEFAULT_MAH_PARAMS [3, 6, 9, 12] 12).map (2 * ·)).map fin) ninf (fin 2.5) (fin 1) 200 1 none false
        = .ok r' ∧
    (∀ (i : ℕ) (m m' : ℝ), (inputMass DEFAULT_MAH_PARAMS [3, 6, 9, 12] 12)[i]? = some m →
      ((inputMass DEFAULT_MAH_PARAMS [3, 6, 9, 12] 12).map (2 * ·))[i]? = some m' →
      |flooredLog 0 m - flooredLog 0 m'| ≤ Real.logb 10 2) ∧
    r.loss_data.t_target = r'.loss_data.t_target ∧ r.skip_fit = false ∧ r'.skip_fit = false ∧
    r.loss_data.u_t_peak = fin τ ∧ r'.loss_data.u_t_peak = fin τ := by
  have htp : DEFAULT_MAH_PARAMS.t_peak = 14 := by norm_num [DEFAULT_MAH_PARAMS]
  have hpos : ∀ m ∈ inputMass DEFAULT_MAH_PARAMS [3, 6, 9, 12] 12, 0 < m := by
    intro m hm
    obtain ⟨t, -, rfl⟩ := List.mem_map.1 hm
    exact Real.rpow_pos_of_pos (by norm_num) _
  obtain ⟨r, hr⟩ := origin_ok gdOpt id (fun _ _ => []) (([3, 6, 9, 12] : List ℝ).map fin)
    ((inputMass DEFAULT_MAH_PARAMS [3, 6, 9, 12] 12).map fin) ninf (fin 2.5) (fin 1) 200 1 none rfl (by simp)
  obtain ⟨r', hr'⟩ := origin_ok gdOpt id (fun _ _ => []) (([3, 6, 9, 12] : List ℝ).map fin)
    (((inputMass DEFAULT_MAH_PARAMS [3, 6, 9, 12] 12).map (2 * ·)).map fin) ninf (fin 2.5) (fin 1) 200 1 none rfl (by simp)
  have hskip := default_run_not_skipped _ _ _ r hr
  obtain ⟨c1, -, c3⟩ := C133_fit_target _ _ _ _ _ _ _ _ _ _ _ _ hpos (by norm_num) r r' hr hr'
  obtain ⟨c4, -⟩ := C133_fit_peak _ _ _ _ _ _ _ _ _ _ _ hpos (by norm_num) r r' hr hr'
  obtain ⟨up, -, hut, -, -⟩ := C119_own_parameters_fit_exactly originLbfgs _ id _ 200 1 false 2.5 1
    default_valid (ts := [3, 6, 9, 12]) (tl := 12)
    (by intro t ht; simp at ht; rcases ht with rfl | rfl | rfl | rfl <;> norm_num)
    (by norm_num) rfl (by norm_num) (by norm_num)
    (.inr (by rw [htp]; norm_num)) (by norm_num) (fun x => ⟨x, rfl⟩) (fun _ _ => rfl)
    (fun a _ b _ h => XR.fin.inj h) r hr hskip
  refine ⟨r, r', up.u_t_peak, hr, hr', ?_, c1.symm, hskip, by rw [c3, hskip], hut, by rw [c4, hut]⟩
  intro i m m' h1 h2
  rw [List.getElem?_map, h1] at h2
  obtain rfl := (Option.some.inj h2).symm
  have hm := hpos m (List.mem_of_getElem? h1)
  have e : flooredLog 0 m - flooredLog 0 (2 * m) = -Real.logb 10 2 := by
    rw [flooredLog_zero hm, flooredLog_zero (by positivity), Real.logb_mul (by norm_num) hm.ne']; ring
  rw [e, abs_neg, abs_of_nonneg (Real.logb_nonneg (by norm_num) (by norm_num))]

end Diffmah.Fit

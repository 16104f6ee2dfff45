import Verif.Props.FitError
import Verif.Props.Identify

/-!
# C139: six times determine the parameters, and so a fit to a model history has one solution

C117 needs the history over a whole period. A fit sees finitely many times. Six of them, before the peak, are enough.
-/

namespace Diffmah

open Set

/-! ## Counting zeros -/

/-- `f` vanishes at `n + 1` increasing points. -/
def ZeroSeq (f : ℝ → ℝ) (n : ℕ) : Prop :=
  ∃ z : ℕ → ℝ, (∀ i < n, z i < z (i + 1)) ∧ ∀ i ≤ n, f (z i) = 0

theorem ZeroSeq.mono {f : ℝ → ℝ} {m n : ℕ} (h : ZeroSeq f n) (hmn : m ≤ n) : ZeroSeq f m := by
  obtain ⟨z, h1, h2⟩ := h
  exact ⟨z, fun i hi => h1 i (by omega), fun i hi => h2 i (by omega)⟩

theorem ZeroSeq.rolle {f f' : ℝ → ℝ} {n : ℕ} (hd : ∀ x, HasDerivAt f (f' x) x)
    (h : ZeroSeq f (n + 1)) : ZeroSeq f' n := by
  obtain ⟨z, h1, h2⟩ := h
  have hc : ∀ i, ∃ c, i ≤ n → z i < c ∧ c < z (i + 1) ∧ f' c = 0 := by
    intro i
    by_cases hi : i ≤ n
    · obtain ⟨c, hc, hc'⟩ := exists_hasDerivAt_eq_zero (f := f) (f' := f') (h1 i (by omega))
        (fun x _ => (hd x).continuousAt.continuousWithinAt)
        ((h2 i (by omega)).trans (h2 (i + 1) (by omega)).symm) fun x _ => hd x
      exact ⟨c, fun _ => ⟨hc.1, hc.2, hc'⟩⟩
    · exact ⟨0, fun h => absurd h hi⟩
  choose c hc using hc
  refine ⟨c, fun i hi => ?_, fun i hi => (hc i hi).2.2⟩
  exact (hc i (by omega)).2.1.trans (hc (i + 1) (by omega)).1

theorem ZeroSeq.of_mul {f g h : ℝ → ℝ} {n : ℕ} (hz : ZeroSeq f n) (he : ∀ x, f x = g x * h x)
    (hg : ∀ x, g x ≠ 0) : ZeroSeq h n := by
  obtain ⟨z, h1, h2⟩ := hz
  refine ⟨z, h1, fun i hi => ?_⟩
  have := h2 i hi
  rw [he] at this
  exact (mul_eq_zero.1 this).resolve_left (hg _)

theorem ZeroSeq.linear {a b : ℝ} (h : ZeroSeq (fun x => a + b * x) 1) : a = 0 ∧ b = 0 := by
  obtain ⟨z, h1, h2⟩ := h
  have e0 := h2 0 (by omega)
  have e1 := h2 1 (by omega)
  have hlt := h1 0 (by omega)
  simp only [zero_add] at e0 e1 hlt
  have hb : b * (z 1 - z 0) = 0 := by linarith
  have hb' : b = 0 := (mul_eq_zero.1 hb).resolve_right (by linarith)
  subst hb'
  exact ⟨by linarith, rfl⟩

theorem hasDerivAt_linExp (a b k x : ℝ) :
    HasDerivAt (fun x => (a + b * x) * Real.exp (k * x))
      (((k * a + b) + k * b * x) * Real.exp (k * x)) x := by
  have h1 : HasDerivAt (fun x : ℝ => a + b * x) b x := by
    simpa using ((hasDerivAt_id x).const_mul b).const_add a
  have h2 : HasDerivAt (fun x : ℝ => Real.exp (k * x)) (Real.exp (k * x) * k) x := by
    simpa using ((hasDerivAt_id x).const_mul k).exp
  exact (h1.mul h2).congr_deriv (by ring)

theorem hasDerivAt_lin (a b x : ℝ) : HasDerivAt (fun x => a + b * x) b x := by
  simpa using ((hasDerivAt_id x).const_mul b).const_add a

/-- `(a + b x) + (c + d x) e^{kx}` has at most three zeros. -/
theorem two_terms {a b c d k : ℝ} (hk : k ≠ 0)
    (h : ZeroSeq (fun x => (a + b * x) + (c + d * x) * Real.exp (k * x)) 3) :
    a = 0 ∧ b = 0 ∧ c = 0 ∧ d = 0 := by
  have h1 := h.rolle (n := 2) fun x => (hasDerivAt_lin a b x).add (hasDerivAt_linExp c d k x)
  have h2 := h1.rolle (n := 1) fun x =>
    (hasDerivAt_const x b).add (hasDerivAt_linExp (k * c + d) (k * d) k x)
  have h3 : ZeroSeq (fun x => (k * (k * c + d) + k * d) + k * (k * d) * x) 1 := by
    refine h2.of_mul (g := fun x => Real.exp (k * x)) (fun x => by simp; ring) fun x => (Real.exp_pos _).ne'
  obtain ⟨e1, e2⟩ := h3.linear
  have hd : d = 0 := by
    rcases mul_eq_zero.1 e2 with h | h
    · exact absurd h hk
    · exact (mul_eq_zero.1 h).resolve_left hk
  subst hd
  have hc : c = 0 := by
    have : k * (k * c) = 0 := by linarith
    exact (mul_eq_zero.1 ((mul_eq_zero.1 this).resolve_left hk)).resolve_left hk
  subst hc
  have h4 : ZeroSeq (fun x => a + b * x) 3 := by simpa using h
  obtain ⟨ha, hb⟩ := (h4.mono (m := 1) (by omega)).linear
  exact ⟨ha, hb, rfl, rfl⟩

/-- `(a + b x) + (c + d x) e^{kx} + (e + f x) e^{2kx}` has at most five zeros. -/
theorem three_terms {a b c d e f k : ℝ} (hk : k ≠ 0)
    (h : ZeroSeq (fun x => (a + b * x) + (c + d * x) * Real.exp (k * x)
      + (e + f * x) * Real.exp (2 * k * x)) 5) :
    a = 0 ∧ b = 0 ∧ c = 0 ∧ d = 0 ∧ e = 0 ∧ f = 0 := by
  have h1 := h.rolle (n := 4) fun x => ((hasDerivAt_lin a b x).add (hasDerivAt_linExp c d k x)).add
    (hasDerivAt_linExp e f (2 * k) x)
  have h2 := h1.rolle (n := 3) fun x =>
    ((hasDerivAt_const x b).add (hasDerivAt_linExp (k * c + d) (k * d) k x)).add
      (hasDerivAt_linExp (2 * k * e + f) (2 * k * f) (2 * k) x)
  have h3 : ZeroSeq (fun x => ((k * (k * c + d) + k * d) + k * (k * d) * x)
      + ((2 * k * (2 * k * e + f) + 2 * k * f) + 2 * k * (2 * k * f) * x) * Real.exp (k * x)) 3 := by
    refine h2.of_mul (g := fun x => Real.exp (k * x)) (fun x => ?_) fun x => (Real.exp_pos _).ne'
    rw [show 2 * k * x = k * x + k * x by ring, Real.exp_add]
    ring
  obtain ⟨e1, e2, e3, e4⟩ := two_terms hk h3
  have h2k : 2 * k ≠ 0 := mul_ne_zero two_ne_zero hk
  have hf : f = 0 := (mul_eq_zero.1 ((mul_eq_zero.1 e4).resolve_left h2k)).resolve_left h2k
  subst hf
  have he : e = 0 := by
    have : 2 * k * (2 * k * e) = 0 := by linarith
    exact (mul_eq_zero.1 ((mul_eq_zero.1 this).resolve_left h2k)).resolve_left h2k
  subst he
  have h4 : ZeroSeq (fun x => (a + b * x) + (c + d * x) * Real.exp (k * x)) 5 := by simpa using h
  obtain ⟨ha, hb, hc, hd⟩ := two_terms hk (h4.mono (m := 3) (by omega))
  exact ⟨ha, hb, hc, hd, rfl, rfl⟩

/-- A rolling power law is determined by its values at six log-times. -/
theorem plaw_six {x0 m c e l m' c' e' l' : ℝ} (hne : l ≠ e)
    (h : ZeroSeq (fun x => rolling_plaw_vs_logt x x0 m c e l - rolling_plaw_vs_logt x x0 m' c' e' l') 5) :
    m = m' ∧ c = c' ∧ e = e' ∧ l = l' := by
  set u := Real.exp (3.5 * c) with hu
  set u' := Real.exp (3.5 * c') with hu'
  have hup : 0 < u := Real.exp_pos _
  have hup' : 0 < u' := Real.exp_pos _
  have hsig : ∀ x c : ℝ, Real.sigmoid (3.5 * (x - c))
      = Real.exp (3.5 * x) / (Real.exp (3.5 * x) + Real.exp (3.5 * c)) := by
    intro x c
    rw [Real.sigmoid_def, show -(3.5 * (x - c)) = 3.5 * c - 3.5 * x by ring, Real.exp_sub]
    have := Real.exp_pos (3.5 * x)
    have := Real.exp_pos (3.5 * c)
    field_simp
  have h3 : ZeroSeq (fun x => ((u * u' * (m - m' - (e - e') * x0)) + u * u' * (e - e') * x)
      + (((u + u') * (m - m' - (e - e') * x0) - ((l - e) * u' - (l' - e') * u) * x0)
        + ((u + u') * (e - e') + ((l - e) * u' - (l' - e') * u)) * x) * Real.exp (3.5 * x)
      + (((m - m' - (e - e') * x0) - ((l - e) - (l' - e')) * x0)
        + ((e - e') + ((l - e) - (l' - e'))) * x) * Real.exp (2 * 3.5 * x)) 5 := by
    refine h.of_mul (g := fun x => ((Real.exp (3.5 * x) + u) * (Real.exp (3.5 * x) + u'))⁻¹)
      (fun x => ?_) fun x => ?_
    · simp only [plaw_real, hsig]
      rw [← hu, ← hu', show 2 * 3.5 * x = 3.5 * x + 3.5 * x by ring, Real.exp_add]
      have hw := Real.exp_pos (3.5 * x)
      generalize Real.exp (3.5 * x) = w at hw
      have h1 : w + u ≠ 0 := by positivity
      have h2 : w + u' ≠ 0 := by positivity
      field_simp
      ring
    · have hw := Real.exp_pos (3.5 * x)
      positivity
  obtain ⟨z1, z2, z3, z4, z5, z6⟩ := three_terms (by norm_num) h3
  have hee : e - e' = 0 := (mul_eq_zero.1 z2).resolve_left (by positivity)
  have hll : (l - e) - (l' - e') = 0 := by rw [hee] at z6; linarith
  have hmm : m - m' = 0 := by rw [hee, hll] at z5; linarith
  have hd : l' - e' = l - e := by linarith
  have huu : u' = u := by
    rw [hee, hd] at z4
    have : (l - e) * (u' - u) = 0 := by linarith
    have := (mul_eq_zero.1 this).resolve_left (sub_ne_zero.2 hne)
    linarith
  have hcc : c' = c := by
    have := Real.exp_injective huu
    linarith
  exact ⟨by linarith, hcc.symm, by linarith, by linarith⟩

theorem zeroSeq_of_finset {f : ℝ → ℝ} {n : ℕ} (S : Finset ℝ) (hc : n + 1 ≤ S.card)
    (h : ∀ x ∈ S, f x = 0) : ZeroSeq f n := by
  let o := S.orderEmbOfFin rfl
  refine ⟨fun i => if hi : i < S.card then o ⟨i, hi⟩ else 0, fun i hi => ?_, fun i hi => ?_⟩
  · simp only [show i < S.card by omega, show i + 1 < S.card by omega, dif_pos]
    exact o.strictMono (Fin.mk_lt_mk.2 (by omega))
  · simp only [show i < S.card by omega, dif_pos]
    exact h _ (Finset.orderEmbOfFin_mem S rfl _)

/-! ## C139 -/

/-- **C139**. Two haloes whose masses agree at six different times before either has peaked have the same `logm0`,
`logtc`, `early_index` and `late_index`. -/
theorem C139_six_times (p q : MahParams ℝ) (lgt0 : ℝ) (hne : p.late_index ≠ p.early_index) (S : Finset ℝ)
    (hS : 6 ≤ S.card) (hpos : ∀ t ∈ S, 0 < t) (hp : ∀ t ∈ S, t ≤ p.t_peak) (hq : ∀ t ∈ S, t ≤ q.t_peak)
    (h : ∀ t ∈ S, logmh_at_t_obs p t lgt0 = logmh_at_t_obs q t lgt0) :
    p.logm0 = q.logm0 ∧ p.logtc = q.logtc ∧ p.early_index = q.early_index ∧ p.late_index = q.late_index := by
  refine plaw_six (x0 := lgt0) hne (zeroSeq_of_finset (S.image (Real.logb 10)) ?_ ?_)
  · rw [Finset.card_image_of_injOn]
    · exact hS
    · intro a ha b hb hab
      exact Real.logb_injOn_pos (by norm_num) (hpos a ha) (hpos b hb) hab
  · intro x hx
    obtain ⟨t, ht, rfl⟩ := Finset.mem_image.1 hx
    have := h t ht
    simp only [logmh_at_t_obs] at this
    rw [log_mah_le (hp t ht), log_mah_le (hq t ht), noq_real, noq_real] at this
    rw [this, sub_self]

/-- **C139**, unbounded parameters: without any condition on them, with the same peak time. -/
theorem C139_unbounded (u v : MahUParams ℝ) (lgt0 : ℝ) (htp : u.u_t_peak = v.u_t_peak) (S : Finset ℝ) (hS : 6 ≤ S.card)
    (hpos : ∀ t ∈ S, 0 < t) (hpk : ∀ t ∈ S, t ≤ (get_bounded_mah_params u).t_peak)
    (h : ∀ t ∈ S, log_mah_kern_u_params u t lgt0 = log_mah_kern_u_params v t lgt0) : u = v := by
  have e5 : (get_bounded_mah_params u).t_peak = (get_bounded_mah_params v).t_peak := by
    simp only [get_bounded_mah_params, htp]
  obtain ⟨e1, e2, e3, e4⟩ := C139_six_times (get_bounded_mah_params u) (get_bounded_mah_params v) lgt0
    (C12_bounded_params_valid u).late_lt_early.ne S hS hpos hpk (fun t ht => e5 ▸ hpk t ht) h
  rw [← C13_unbounded_of_bounded u, MahParams.ext e1 e2 e3 e4 e5, C13_unbounded_of_bounded v]

/-- The hypotheses of C139 can be met: the default halo at six times. -/
example : DEFAULT_MAH_PARAMS.late_index ≠ DEFAULT_MAH_PARAMS.early_index ∧
    ∃ S : Finset ℝ, 6 ≤ S.card ∧ (∀ t ∈ S, 0 < t) ∧ ∀ t ∈ S, t ≤ DEFAULT_MAH_PARAMS.t_peak := by
  refine ⟨default_valid.late_lt_early.ne, (Finset.range 6).image (fun i : ℕ => (i : ℝ) + 1), ?_, ?_, ?_⟩
  · rw [Finset.card_image_of_injective _ (fun a b h => by simpa using h), Finset.card_range]
  · intro t ht
    obtain ⟨i, -, rfl⟩ := Finset.mem_image.1 ht
    positivity
  · intro t ht
    obtain ⟨i, hi, rfl⟩ := Finset.mem_image.1 ht
    have : (i : ℝ) ≤ 5 := by have := Finset.mem_range.1 hi; exact_mod_cast (by omega : i ≤ 5)
    have h14 : DEFAULT_MAH_PARAMS.t_peak = 14 := by norm_num [DEFAULT_MAH_PARAMS]
    rw [h14]; linarith

end Diffmah

namespace Diffmah.Fit

open XR hiding log10 pow10 ln sigm max lt le add sub mul div neg
open JOps Spec

section

variable {S : Type} (lbfgs : (PVec → XR × PVec) → PVec → LbfgsResult) (adam : ℝ → AdamOpt S)
  (f4 : XR → XR) (grad : LossData XR → PVec → PVec) (nstep n_warmup : ℕ) (force : Bool)
  (dcut tmin : ℝ) {p : MahParams ℝ} {ts : List ℝ} {tl : ℝ}

/-- An input time inside the cuts is a target time. -/
theorem target_mem (htl : ts.getLast? = some tl) (htmin : 0 < tmin) (tp : Option XR) (r : FitResult)
    (h : diffmah_fitter lbfgs adam f4 grad (ts.map fin) ((inputMass p ts tl).map fin) ninf (fin dcut)
      (fin tmin) nstep n_warmup tp force = .ok r) {t : ℝ} (ht : t ∈ ts) (h1 : tmin ≤ t)
    (h2 : inputLog p tl tl - dcut < inputLog p tl t) : fin t ∈ r.loss_data.t_target := by
  obtain ⟨ml, hml, hT⟩ := C33_target_times _ _ _ _ _ _ _ _ _ _ _ _ _ r h htmin (floor := 0) rfl
  have hml' : ml = (10 : ℝ) ^ inputLog p tl tl := by
    have := input_last (p := p) (ts := ts) (tl := tl) htl
    rw [hml] at this; exact Option.some.inj this
  rw [input_zip, hml', flooredLog_zero_pow] at hT
  rw [hT]
  refine List.mem_map.2 ⟨(t, inputLog p tl t), ?_, rfl⟩
  unfold insideCuts
  rw [List.mem_filter]
  refine ⟨List.mem_map.2 ⟨t, ht, rfl⟩, ?_⟩
  simp only [decide_eq_true_eq]
  exact ⟨h2, trivial, h1⟩

theorem unique_of_zero (r : FitResult) (up : MahUParams ℝ) (Q : Finset ℝ) (hQ : 6 ≤ Q.card)
    (hpos : ∀ t ∈ Q, 0 < t) (hpk : ∀ t ∈ Q, t ≤ (get_bounded_mah_params up).t_peak)
    (hin : ∀ t ∈ Q, inputLog p tl t = inputLog (get_bounded_mah_params up) tl t)
    (hmem : ∀ t ∈ Q, fin t ∈ r.loss_data.t_target)
    (h0 : log_mah_loss_uparams ⟨fin up.u_logm0, fin up.u_logtc, fin up.u_early_index,
        fin up.u_late_index⟩ r.loss_data = fin 0)
    (hall : ∀ v : VariedU ℝ, ∃ x, log_mah_loss_uparams ⟨fin v.u_logm0, fin v.u_logtc,
          fin v.u_early_index, fin v.u_late_index⟩ r.loss_data = fin x ∧ 0 ≤ x ∧
        (x = 0 → ∀ t, fin t ∈ r.loss_data.t_target →
          inputLog (get_bounded_mah_params ⟨v.u_logm0, v.u_logtc, v.u_early_index, v.u_late_index,
            up.u_t_peak⟩) tl t = inputLog p tl t)) (v : VariedU ℝ) :
    log_mah_loss_uparams ⟨fin v.u_logm0, fin v.u_logtc, fin v.u_early_index, fin v.u_late_index⟩
      r.loss_data = fin 0 ↔ v = ⟨up.u_logm0, up.u_logtc, up.u_early_index, up.u_late_index⟩ := by
  constructor
  · intro hv
    obtain ⟨x, hx, -, hz⟩ := hall v
    rw [hv] at hx
    have hx0 : x = 0 := (XR.fin.inj hx).symm
    have e : up = ⟨v.u_logm0, v.u_logtc, v.u_early_index, v.u_late_index, up.u_t_peak⟩ :=
      C139_unbounded up _ (Real.logb 10 tl) rfl Q hQ hpos hpk fun t ht =>
        ((hin t ht).symm.trans (hz hx0 t (hmem t ht)).symm)
    have e1 := congrArg MahUParams.u_logm0 e
    have e2 := congrArg MahUParams.u_logtc e
    have e3 := congrArg MahUParams.u_early_index e
    have e4 := congrArg MahUParams.u_late_index e
    simp only at e1 e2 e3 e4
    rw [e1, e2, e3, e4]
  · rintro rfl; exact h0

/-- **C139**, fits. When at least six of the times of a history made by the model lie inside the cuts and before the
peak, the loss of the fit vanishes at one point only: the parameters of the halo (with the inferred peak time). -/
theorem C139_fit_has_one_solution (hp : Spec.Valid p) (h05 : ∀ t ∈ ts, 0.05 < t)
    (hsort : ts.Pairwise (· < ·)) (htl : ts.getLast? = some tl) (h9 : 9 ≤ tl) (h20 : tl < 20)
    (hpeak : p.t_peak ∈ ts ∨ tl ≤ p.t_peak) (htmin : 0 < tmin)
    (hf4 : ∀ x : ℝ, ∃ y : ℝ, f4 (fin x) = fin y) (hft : ∀ t ∈ ts, f4 (fin t) = fin t)
    (hfm : ∀ a ∈ ts, ∀ b ∈ ts, f4 (fin (inputLog p tl a)) = f4 (fin (inputLog p tl b)) →
      inputLog p tl a = inputLog p tl b) (r : FitResult)
    (h : diffmah_fitter lbfgs adam f4 grad (ts.map fin) ((inputMass p ts tl).map fin) ninf (fin dcut)
      (fin tmin) nstep n_warmup none force = .ok r) (hs : r.skip_fit = false)
    (Q : Finset ℝ) (hQ : 6 ≤ Q.card) (hQt : ∀ t ∈ Q, t ∈ ts ∧ tmin ≤ t ∧ t ≤ p.t_peak ∧
      inputLog p tl tl - dcut < inputLog p tl t) :
    ∃ up : MahUParams ℝ, get_bounded_mah_params up = { p with t_peak := min p.t_peak tl } ∧
      r.loss_data.u_t_peak = fin up.u_t_peak ∧
      ∀ v : VariedU ℝ, log_mah_loss_uparams ⟨fin v.u_logm0, fin v.u_logtc, fin v.u_early_index,
          fin v.u_late_index⟩ r.loss_data = fin 0
        ↔ v = ⟨up.u_logm0, up.u_logtc, up.u_early_index, up.u_late_index⟩ := by
  obtain ⟨up, hup, hut, h0, hall⟩ := C119_own_parameters_fit_exactly lbfgs adam f4 grad nstep n_warmup force dcut tmin
    hp h05 hsort htl h9 h20 hpeak htmin hf4 hft hfm r h hs
  have hmax : ∀ t ∈ ts, t ≤ tl := by
    intro t ht
    obtain ⟨j, hj, rfl⟩ := List.getElem_of_mem ht
    have hl : ts.length - 1 < ts.length := by omega
    have hlast : ts[ts.length - 1] = tl := by
      rw [List.getLast?_eq_getElem?, List.getElem?_eq_getElem hl] at htl
      exact Option.some.inj htl
    rcases Nat.lt_or_ge j (ts.length - 1) with hlt | hge
    · rw [← hlast]; exact (List.pairwise_iff_getElem.1 hsort j _ hj hl hlt).le
    · have : j = ts.length - 1 := by omega
      subst this; rw [hlast]
  have hpk : ∀ t ∈ Q, t ≤ (get_bounded_mah_params up).t_peak := fun t ht => by
    rw [hup]; exact le_min (hQt t ht).2.2.1 (hmax t (hQt t ht).1)
  refine ⟨up, hup, hut, unique_of_zero r up Q hQ
    (fun t ht => lt_of_lt_of_le htmin (hQt t ht).2.1) hpk (fun t ht => ?_) (fun t ht => ?_) h0 hall⟩
  · simp only [inputLog, logmh_at_t_obs]
    rw [log_mah_le (hpk t ht), log_mah_le (hQt t ht).2.2.1, hup]
    rfl
  · obtain ⟨q1, q2, -, q3⟩ := hQt t ht
    exact target_mem lbfgs adam f4 grad nstep n_warmup force dcut tmin htl htmin none r h q1 q2 q3

/-- **C139**, fits with a known peak time. -/
theorem C139_fit_known_peak (hp : Spec.Valid p) (hpos : ∀ t ∈ ts, 0 < t)
    (hsort : ts.Pairwise (· < ·)) (htl : ts.getLast? = some tl) (h9 : 9 ≤ tl) (htmin : 0 < tmin)
    (hft : f4 (fin p.t_peak) = fin p.t_peak) (r : FitResult)
    (h : diffmah_fitter lbfgs adam f4 grad (ts.map fin) ((inputMass p ts tl).map fin) ninf (fin dcut)
      (fin tmin) nstep n_warmup (some (fin p.t_peak)) force = .ok r) (hs : r.skip_fit = false)
    (Q : Finset ℝ) (hQ : 6 ≤ Q.card) (hQt : ∀ t ∈ Q, t ∈ ts ∧ tmin ≤ t ∧ t ≤ p.t_peak ∧
      inputLog p tl tl - dcut < inputLog p tl t) :
    ∃ up : MahUParams ℝ, get_bounded_mah_params up = p ∧
      r.loss_data.u_t_peak = fin up.u_t_peak ∧
      ∀ v : VariedU ℝ, log_mah_loss_uparams ⟨fin v.u_logm0, fin v.u_logtc, fin v.u_early_index,
          fin v.u_late_index⟩ r.loss_data = fin 0
        ↔ v = ⟨up.u_logm0, up.u_logtc, up.u_early_index, up.u_late_index⟩ := by
  obtain ⟨up, hup, hut, h0, hall⟩ := C119_known_peak lbfgs adam f4 grad nstep n_warmup force dcut tmin
    hp hpos hsort htl h9 htmin hft r h hs
  refine ⟨up, hup, hut, unique_of_zero r up Q hQ
    (fun t ht => lt_of_lt_of_le htmin (hQt t ht).2.1) (fun t ht => ?_) (fun t ht => by rw [hup])
    (fun t ht => ?_) h0 hall⟩
  · rw [hup]; exact (hQt t ht).2.2.1
  · obtain ⟨q1, q2, -, q3⟩ := hQt t ht
    exact target_mem lbfgs adam f4 grad nstep n_warmup force dcut tmin htl htmin _ r h q1 q2 q3

theorem best_peak (tp : Option XR) (t_sim mah_sim : List XR) (lgm_min c d : XR) (r : FitResult)
    (h : diffmah_fitter lbfgs adam f4 grad t_sim mah_sim lgm_min c d nstep n_warmup tp force = .ok r)
    (hs : r.skip_fit = false) {y : ℝ} (hy : r.loss_data.u_t_peak = fin y) :
    r.p_best.t_peak = fin (get_bounded_diffmah_param y MAH_PBOUNDS.t_peak) := by
  obtain ⟨hlen, hne, u, s, hg, hs', hcase⟩ := fitter_ok _ _ _ _ _ _ _ _ _ _ _ _ _ r h
  rcases hcase with ⟨e, -⟩ | ⟨-, res, up, hb, hm, e1, e2, e3, e4⟩
  · rw [e] at hs; cases hs
  have hup : up.u_t_peak = fin y := by
    unfold makeU at hm
    split at hm
    · rw [← Except.ok.inj hm]; exact hy
    · cases hm
  rw [e1]
  have := congrArg MahParams.t_peak (bounded_params_fin (⟨0, 0, 0, 0, y⟩ : MahUParams ℝ))
  simpa [get_bounded_mah_params, MahUParams.map, MahParams.map, hup] using this

/-- When the loss of a fit vanishes at one point only, its reported loss is zero exactly when it reports that point. -/
theorem recovered_of_unique (htl : ts.getLast? = some tl) (htl0 : 0 < tl) (r : FitResult)
    (h : diffmah_fitter lbfgs adam f4 grad (ts.map fin) ((inputMass p ts tl).map fin) ninf (fin dcut)
      (fin tmin) nstep n_warmup none force = .ok r) (hs : r.skip_fit = false)
    (hn : 1 ≤ nstep) (hbfgs : ∀ lg q, (lbfgs lg q).func = (lg (lbfgs lg q).x).1)
    (ho : ∀ s, SinglePrecision (adam s) f4)
    (hstart : ∀ u s, get_loss_data f4 (ts.map fin) ((inputMass p ts tl).map fin) ninf (fin dcut) (fin tmin) 3 none
      = .ok (u, r.loss_data, s) → u.map f4 = u ∧ FiniteAt (fit_lg grad r.loss_data) u)
    (q : MahParams ℝ) (hq : r.p_best = q.map fin) (hv : Spec.Valid q) (up : MahUParams ℝ)
    (hut : r.loss_data.u_t_peak = fin up.u_t_peak)
    (hiff : ∀ v : VariedU ℝ, log_mah_loss_uparams ⟨fin v.u_logm0, fin v.u_logtc, fin v.u_early_index,
          fin v.u_late_index⟩ r.loss_data = fin 0
        ↔ v = ⟨up.u_logm0, up.u_logtc, up.u_early_index, up.u_late_index⟩) :
    r.loss_best = fin 0 ↔ q = get_bounded_mah_params up := by
  obtain ⟨hlogt0, -⟩ := run_loss_data lbfgs adam f4 grad nstep n_warmup force dcut tmin none htl htl0 r h hs
  obtain ⟨t_last, ht', hloss⟩ := C79_fit_loss_is_distance_of_best_fit _ _ _ _ _ _ _ _ _ _ _ _ _ hn hbfgs ho r h hs
    hstart
  have htle : t_last = fin tl := by
    rw [List.getLast?_map, htl] at ht'; exact (Option.some.inj ht').symm
  subst htle
  have hbq : get_bounded_mah_params (get_unbounded_mah_params q) = q := C14_bounded_of_unbounded q hv
  have hqt : q.t_peak = (get_bounded_mah_params up).t_peak := by
    have := best_peak lbfgs adam f4 grad nstep n_warmup force none _ _ _ _ _ r h hs hut
    rw [hq] at this
    exact XR.fin.inj this
  have hwt : (get_unbounded_mah_params q).u_t_peak = up.u_t_peak := by
    have e := congrArg MahUParams.u_t_peak (C13_unbounded_of_bounded up)
    rw [← e]
    simp only [get_unbounded_mah_params, hqt]
  set w := get_unbounded_mah_params q with hw
  have hlw : log_mah_loss_uparams ⟨fin w.u_logm0, fin w.u_logtc, fin w.u_early_index, fin w.u_late_index⟩ r.loss_data
      = r.loss_best := by
    rw [hloss]
    unfold log_mah_loss_uparams
    simp only [hut, hlogt0, ← hwt]
    rw [show (⟨fin w.u_logm0, fin w.u_logtc, fin w.u_early_index, fin w.u_late_index, fin w.u_t_peak⟩ : MahUParams XR)
      = w.map fin from rfl]
    simp only [log_mah_kern_u_params, bounded_params_fin, hbq, hq, log10_pos htl0]
  rw [← hlw, hiff ⟨w.u_logm0, w.u_logtc, w.u_early_index, w.u_late_index⟩]
  constructor
  · intro e
    have e1 := congrArg VariedU.u_logm0 e
    have e2 := congrArg VariedU.u_logtc e
    have e3 := congrArg VariedU.u_early_index e
    have e4 := congrArg VariedU.u_late_index e
    simp only at e1 e2 e3 e4
    have : w = up := MahUParams.ext e1 e2 e3 e4 hwt
    rw [← hbq, this]
  · intro e
    have : w = up := by rw [hw, e, C13_unbounded_of_bounded]
    rw [this]

/-- **C139**, what a fit reports. The reported loss of a fit to a model history is zero exactly when the reported
parameters are those of the halo (with the inferred peak time). -/
theorem C139_zero_loss_iff_recovered (hp : Spec.Valid p) (h05 : ∀ t ∈ ts, 0.05 < t)
    (hsort : ts.Pairwise (· < ·)) (htl : ts.getLast? = some tl) (h9 : 9 ≤ tl) (h20 : tl < 20)
    (hpeak : p.t_peak ∈ ts ∨ tl ≤ p.t_peak) (htmin : 0 < tmin)
    (hf4 : ∀ x : ℝ, ∃ y : ℝ, f4 (fin x) = fin y) (hft : ∀ t ∈ ts, f4 (fin t) = fin t)
    (hfm : ∀ a ∈ ts, ∀ b ∈ ts, f4 (fin (inputLog p tl a)) = f4 (fin (inputLog p tl b)) →
      inputLog p tl a = inputLog p tl b) (r : FitResult)
    (h : diffmah_fitter lbfgs adam f4 grad (ts.map fin) ((inputMass p ts tl).map fin) ninf (fin dcut)
      (fin tmin) nstep n_warmup none force = .ok r) (hs : r.skip_fit = false)
    (Q : Finset ℝ) (hQ : 6 ≤ Q.card) (hQt : ∀ t ∈ Q, t ∈ ts ∧ tmin ≤ t ∧ t ≤ p.t_peak ∧
      inputLog p tl tl - dcut < inputLog p tl t)
    (hn : 1 ≤ nstep) (hbfgs : ∀ lg q, (lbfgs lg q).func = (lg (lbfgs lg q).x).1)
    (ho : ∀ s, SinglePrecision (adam s) f4)
    (hstart : ∀ u s, get_loss_data f4 (ts.map fin) ((inputMass p ts tl).map fin) ninf (fin dcut) (fin tmin) 3 none
      = .ok (u, r.loss_data, s) → u.map f4 = u ∧ FiniteAt (fit_lg grad r.loss_data) u)
    (q : MahParams ℝ) (hq : r.p_best = q.map fin) (hv : Spec.Valid q) :
    r.loss_best = fin 0 ↔ q = { p with t_peak := min p.t_peak tl } := by
  have htl0 : 0 < tl := by linarith
  obtain ⟨up, hup, hut, hiff⟩ := C139_fit_has_one_solution lbfgs adam f4 grad nstep n_warmup force dcut tmin
    hp h05 hsort htl h9 h20 hpeak htmin hf4 hft hfm r h hs Q hQ hQt
  rw [← hup]
  exact recovered_of_unique lbfgs adam f4 grad nstep n_warmup force dcut tmin htl htl0 r h hs hn hbfgs ho hstart q hq hv
    up hut hiff

end

/-! ## A concrete run -/

/-- The default halo has not grown by 2.5 dex since 3 Gyr. -/
theorem default_cut :
    inputLog DEFAULT_MAH_PARAMS 12 12 - 2.5 < inputLog DEFAULT_MAH_PARAMS 12 3 := by
  have h12 : (10 : ℝ) ^ Real.logb 10 12 = 12 := pow10_logb (by norm_num)
  have htp : DEFAULT_MAH_PARAMS.t_peak = 14 := by norm_num [DEFAULT_MAH_PARAMS]
  have e1 := (C09_power_law_envelope DEFAULT_MAH_PARAMS default_valid.late_lt_early.le 3
    (Real.logb 10 12) (by norm_num) (by rw [h12]; norm_num) (by rw [htp]; norm_num)).1
  have e2 : inputLog DEFAULT_MAH_PARAMS 12 12 = DEFAULT_MAH_PARAMS.logm0 := by
    have := C01_mass_today DEFAULT_MAH_PARAMS (Real.logb 10 12) (by rw [h12, htp]; norm_num)
    rwa [h12] at this
  have e3 : Real.logb 10 12 - Real.logb 10 3 ≤ 0.9 := by
    rw [← Real.logb_div (by norm_num) (by norm_num), Real.logb_le_iff_le_rpow (by norm_num)
      (by norm_num), show (0.9 : ℝ) = ((9 : ℕ) : ℝ) * ((10 : ℝ)⁻¹) by norm_num,
      Real.rpow_mul (by norm_num), Real.rpow_natCast,
      Real.le_rpow_inv_iff_of_pos (by norm_num) (by norm_num) (by norm_num)]
    norm_num
  have e4 : DEFAULT_MAH_PARAMS.early_index = 2.6137643 := rfl
  rw [e2]
  change _ < logmh_at_t_obs DEFAULT_MAH_PARAMS 3 (Real.logb 10 12)
  rw [e4] at e1
  norm_num at e1 e3 ⊢
  linarith

/-- The default halo on six times ending at 12 Gyr is not skipped, whatever the optimisers. -/
theorem default_six_not_skipped {S : Type} (lbfgs : (PVec → XR × PVec) → PVec → LbfgsResult)
    (adam : ℝ → AdamOpt S) (grad : LossData XR → PVec → PVec) (r : FitResult)
    (hr : diffmah_fitter lbfgs adam id grad (([7, 8, 9, 10, 11, 12] : List ℝ).map fin)
      ((inputMass DEFAULT_MAH_PARAMS [7, 8, 9, 10, 11, 12] 12).map fin) ninf (fin 2.5) (fin 1) 200 1 none
      false = .ok r) : r.skip_fit = false := by
  have h12 : (10 : ℝ) ^ Real.logb 10 12 = 12 := pow10_logb (by norm_num)
  have h0 : (9 : ℝ) ≤ 10 ^ Real.logb 10 12 := by rw [h12]; norm_num
  have htp : DEFAULT_MAH_PARAMS.t_peak = 14 := by norm_num [DEFAULT_MAH_PARAMS]
  have hinc := C03_strictly_increasing_until_peak DEFAULT_MAH_PARAMS default_valid.toInBox
    default_valid.late_lt_early.le (Real.logb 10 12) h0
  have hlt : ∀ a b : ℝ, 0 < a → a < b → b ≤ 12 →
      inputLog DEFAULT_MAH_PARAMS 12 a < inputLog DEFAULT_MAH_PARAMS 12 b := fun a b h1 h2 h3 =>
    hinc (by rw [htp]; constructor <;> linarith) (by rw [htp]; constructor <;> linarith) h2
  have hcut := default_cut
  by_contra hc
  have hc : r.skip_fit = true := by simpa using hc
  rcases (C29_skip_iff _ _ _ _ _ _ _ _ _ _ _ _ _ r hr).1 hc with h | h
  · cases h
  obtain ⟨ml, target, hml, hM, -, -, -, -, hmono⟩ := C34_running_peak _ _ _ _ _ _ _ _ _ _ _ _ _ r hr
    (floor := 0) rfl
  have hml' : ml = (10 : ℝ) ^ inputLog DEFAULT_MAH_PARAMS 12 12 := by
    have := input_last (p := DEFAULT_MAH_PARAMS) (ts := [7, 8, 9, 10, 11, 12]) (tl := 12) rfl
    rw [hml] at this; exact Option.some.inj this
  rw [input_zip, hml', flooredLog_zero_pow] at hmono
  have hsel : insideCuts (inputLog DEFAULT_MAH_PARAMS 12 12) 2.5 1 ninf
      (([7, 8, 9, 10, 11, 12] : List ℝ).map fun t => (t, inputLog DEFAULT_MAH_PARAMS 12 t))
      = ([7, 8, 9, 10, 11, 12] : List ℝ).map fun t => (t, inputLog DEFAULT_MAH_PARAMS 12 t) := by
    unfold insideCuts
    rw [List.filter_eq_self]
    intro q hq
    simp only [List.map_cons, List.map_nil, List.mem_cons, List.not_mem_nil, or_false] at hq
    have h7 : inputLog DEFAULT_MAH_PARAMS 12 3 < inputLog DEFAULT_MAH_PARAMS 12 q.1 := by
      refine hlt 3 _ (by norm_num) ?_ ?_ <;> rcases hq with rfl | rfl | rfl | rfl | rfl | rfl <;> norm_num
    rcases hq with rfl | rfl | rfl | rfl | rfl | rfl <;> simp only [decide_eq_true_eq] <;>
      exact ⟨by linarith, trivial, by norm_num⟩
  rw [hsel] at hmono
  have k1 := hlt 7 8 (by norm_num) (by norm_num) (by norm_num)
  have k2 := hlt 8 9 (by norm_num) (by norm_num) (by norm_num)
  have k3 := hlt 9 10 (by norm_num) (by norm_num) (by norm_num)
  have k4 := hlt 10 11 (by norm_num) (by norm_num) (by norm_num)
  have k5 := hlt 11 12 (by norm_num) (by norm_num) (by norm_num)
  have ht := hmono (by
    simp only [List.map_cons, List.map_nil, List.pairwise_cons, List.mem_cons,
      List.not_mem_nil, or_false, forall_eq_or_imp, forall_eq, List.Pairwise.nil, and_true,
      IsEmpty.forall_iff, implies_true]
    refine ⟨⟨?_, ?_, ?_, ?_, ?_⟩, ⟨?_, ?_, ?_, ?_⟩, ⟨?_, ?_, ?_⟩, ⟨?_, ?_⟩, ?_⟩ <;> linarith)
  rw [hM, ht] at h
  classical
  simp only [List.map_cons, List.map_nil, countBelowLast, List.getLast?_cons_cons,
    List.getLast?_singleton] at h
  have b : ∀ t : ℝ, inputLog DEFAULT_MAH_PARAMS 12 t < inputLog DEFAULT_MAH_PARAMS 12 12 →
      XR.lt (fin (inputLog DEFAULT_MAH_PARAMS 12 t)) (fin (inputLog DEFAULT_MAH_PARAMS 12 12)) := fun _ h => h
  have b1 := b 7 (by linarith)
  have b2 := b 8 (by linarith)
  have b3 := b 9 (by linarith)
  have b4 := b 10 (by linarith)
  have b5 := b 11 (by linarith)
  have b6 : ¬ XR.lt (fin (inputLog DEFAULT_MAH_PARAMS 12 12))
      (fin (inputLog DEFAULT_MAH_PARAMS 12 12)) := fun h => lt_irrefl _ h
  simp [b1, b2, b3, b4, b5, b6] at h

/-- The default halo on six times ending at 12 Gyr, fitted by going to the origin: every hypothesis of C139 about the
run is met, and the reported loss is positive. -/
example : ∃ (r : FitResult) (p : MahParams ℝ) (x : ℝ),
    (∀ lg q, (honestLbfgs lg q).func = (lg (honestLbfgs lg q).x).1) ∧ (∀ s, SinglePrecision (gdOpt s) id) ∧
    diffmah_fitter honestLbfgs gdOpt id (fun _ _ => []) (([7, 8, 9, 10, 11, 12] : List ℝ).map fin)
      ((inputMass DEFAULT_MAH_PARAMS [7, 8, 9, 10, 11, 12] 12).map fin) ninf (fin 2.5) (fin 1) 200 1 none false = .ok r ∧
    r.skip_fit = false ∧
    (∀ u s, get_loss_data id (([7, 8, 9, 10, 11, 12] : List ℝ).map fin)
      ((inputMass DEFAULT_MAH_PARAMS [7, 8, 9, 10, 11, 12] 12).map fin) ninf (fin 2.5) (fin 1) 3 none
      = .ok (u, r.loss_data, s) → u.map id = u ∧ FiniteAt (fit_lg (fun _ _ => []) r.loss_data) u) ∧
    r.p_best = p.map fin ∧ Spec.Valid p ∧ r.loss_best = fin x ∧ 0 < x := by
  obtain ⟨r0, hr0⟩ := origin_ok gdOpt id
    (fun _ _ => []) (([7, 8, 9, 10, 11, 12] : List ℝ).map fin)
    ((inputMass DEFAULT_MAH_PARAMS [7, 8, 9, 10, 11, 12] 12).map fin) ninf (fin 2.5) (fin 1) 200 1 none rfl
    (by simp)
  have htp : DEFAULT_MAH_PARAMS.t_peak = 14 := by norm_num [DEFAULT_MAH_PARAMS]
  have h12 : (10 : ℝ) ^ Real.logb 10 12 = 12 := pow10_logb (by norm_num)
  have hskip0 := default_six_not_skipped _ _ _ r0 hr0
  obtain ⟨up, hup, hut, -, hall⟩ := C119_own_parameters_fit_exactly originLbfgs _ id _ 200 1 false 2.5 1
    default_valid (ts := [7, 8, 9, 10, 11, 12]) (tl := 12)
    (by intro t ht; simp at ht; rcases ht with rfl | rfl | rfl | rfl | rfl | rfl <;> norm_num)
    (by norm_num) rfl (by norm_num) (by norm_num)
    (.inr (by rw [htp]; norm_num)) (by norm_num) (fun x => ⟨x, rfl⟩) (fun _ _ => rfl)
    (fun a _ b _ h => XR.fin.inj h) r0 hr0 hskip0
  obtain ⟨hlen, hne, u, s, hg, hs', -⟩ := fitter_ok _ _ _ _ _ _ _ _ _ _ _ _ _ r0 hr0
  have hs : s = false := by rw [hskip0] at hs'; simpa using hs'.symm
  subst hs
  obtain ⟨x, hx, hx0, hz⟩ := hall ⟨0, 0, 0, 0⟩
  have hxpos : 0 < x := by
    rcases hx0.lt_or_eq with h | h
    · exact h
    exfalso
    obtain ⟨ml, hml, hT⟩ := C33_target_times _ _ _ _ _ _ _ _ _ _ _ _ _ r0 hr0 (by norm_num) (floor := 0) rfl
    have hml' : ml = (10 : ℝ) ^ inputLog DEFAULT_MAH_PARAMS 12 12 := by
      have := input_last (p := DEFAULT_MAH_PARAMS) (ts := [7, 8, 9, 10, 11, 12]) (tl := 12) rfl
      rw [hml] at this; exact Option.some.inj this
    rw [input_zip, hml', flooredLog_zero_pow] at hT
    have hmem : fin (12 : ℝ) ∈ r0.loss_data.t_target := by
      rw [hT]
      refine List.mem_map.2 ⟨(12, inputLog DEFAULT_MAH_PARAMS 12 12), ?_, rfl⟩
      unfold insideCuts
      rw [List.mem_filter]
      refine ⟨List.mem_map.2 ⟨12, by simp, rfl⟩, ?_⟩
      simp only [decide_eq_true_eq]
      exact ⟨by norm_num, trivial, by norm_num⟩
    have e := hz h.symm 12 hmem
    have k1 := C01_mass_today DEFAULT_MAH_PARAMS (Real.logb 10 12) (by rw [h12, htp]; norm_num)
    have hpk : (get_bounded_mah_params (⟨0, 0, 0, 0, up.u_t_peak⟩ : MahUParams ℝ)).t_peak = 12 := by
      have := congrArg MahParams.t_peak hup
      rw [show (get_bounded_mah_params (⟨0, 0, 0, 0, up.u_t_peak⟩ : MahUParams ℝ)).t_peak
        = (get_bounded_mah_params up).t_peak from rfl, this, htp]
      norm_num
    have k2 := C01_mass_today (get_bounded_mah_params (⟨0, 0, 0, 0, up.u_t_peak⟩ : MahUParams ℝ)) (Real.logb 10 12)
      (by rw [h12, hpk])
    rw [h12] at k1 k2
    rw [show inputLog _ 12 12 = _ from k2, show inputLog DEFAULT_MAH_PARAMS 12 12 = _ from k1] at e
    have e' : get_bounded_diffmah_param (0 : ℝ) MAH_PBOUNDS.logm0 = 12.0 := e
    simp only [get_bounded_diffmah_param, sigmoid_real, MAH_PBOUNDS] at e'
    have hsg : Real.sigmoid (BOUNDING_K * (0 - (0.5 * (0.0 + 17.0)))) ≤ Real.sigmoid 0 :=
      Real.sigmoid_monotone (by have := BOUNDING_K_pos; nlinarith)
    rw [Real.sigmoid_zero] at hsg
    change (0.0 : ℝ) + (17.0 - 0.0) * Real.sigmoid (BOUNDING_K * (0 - (0.5 * (0.0 + 17.0)))) = 12.0 at e'
    norm_num at e' hsg
    linarith
  obtain ⟨w, hw⟩ := check_ok hne
  have hlg : (fit_lg (fun _ _ => []) r0.loss_data [fin 0, fin 0, fin 0, fin 0]).1 = fin x := hx
  have hb : bfgs_adam_fallback honestLbfgs gdOpt id (fit_lg (fun _ _ => []) r0.loss_data) u 200 1
      = .ok ⟨[fin 0, fin 0, fin 0, fin 0], fin x, true, 0⟩ := by
    have : (honestLbfgs (fit_lg (fun _ _ => []) r0.loss_data) u).success = true ∧
        XR.IsFin (honestLbfgs (fit_lg (fun _ _ => []) r0.loss_data) u).func ∧
        XR.lt (XR.fin 0) (honestLbfgs (fit_lg (fun _ _ => []) r0.loss_data) u).func := by
      refine ⟨rfl, ?_, ?_⟩
      · simp only [honestLbfgs, hlg]; trivial
      · simp only [honestLbfgs, hlg]; exact hxpos
    unfold bfgs_adam_fallback
    simp only [this, and_self, if_true]
    simp only [honestLbfgs, hlg, pure, Except.pure]
  have hrun : ∃ r, diffmah_fitter honestLbfgs gdOpt id (fun _ _ => []) (([7, 8, 9, 10, 11, 12] : List ℝ).map fin)
      ((inputMass DEFAULT_MAH_PARAMS [7, 8, 9, 10, 11, 12] 12).map fin) ninf (fin 2.5) (fin 1) 200 1 none false = .ok r ∧
      r.loss_data = r0.loss_data ∧ r.loss_best = fin x ∧
      r.p_best = (get_bounded_mah_params ⟨0, 0, 0, 0, up.u_t_peak⟩ : MahParams ℝ).map fin := by
    unfold diffmah_fitter
    simp only [ne_eq, hlen, not_true, if_false, bind, Except.bind, hw, pure, Except.pure]
    rw [show NPTS_FIT_MIN = 3 from rfl, hg]
    simp only [Bool.false_or, Bool.false_eq_true, if_false, hb, makeU]
    refine ⟨_, rfl, rfl, rfl, ?_⟩
    rw [← bounded_params_fin, hut]; rfl
  obtain ⟨r, hr, e1, e2, e3⟩ := hrun
  refine ⟨r, _, x, fun _ _ => rfl, fun s => ⟨fun p _ => rfl, fun lg p k _ => by simp⟩, hr,
    default_six_not_skipped _ _ _ r hr, ?_, e3, C12_bounded_params_valid _, e2, hxpos⟩
  intro u' s' hg'
  rw [e1] at hg' ⊢
  rw [hg] at hg'
  cases hg'
  refine ⟨by simp, ?_⟩
  obtain ⟨f1, f2, f3, f4, -⟩ := (C15_finite_iff_valid DEFAULT_MAH_PARAMS).2 default_valid
  have htl' : (([7, 8, 9, 10, 11, 12] : List ℝ).map fin).getLast? = some (fin 12) := rfl
  have hml : ((inputMass DEFAULT_MAH_PARAMS [7, 8, 9, 10, 11, 12] 12).map fin).getLast?
      = some (fin ((10 : ℝ) ^ inputLog DEFAULT_MAH_PARAMS 12 12)) := by
    rw [List.getLast?_map, input_last rfl]; rfl
  obtain ⟨tpk, -, e⟩ := get_loss_data_eq id _ _ ninf (fin 2.5) (fin 1) 3 none (fin 12) _ htl' hml hlen
  have k1 := C01_mass_today DEFAULT_MAH_PARAMS (Real.logb 10 12) (by rw [h12, htp]; norm_num)
  rw [h12] at k1
  rw [clipLog_pos (by positivity), logb_pow10, show inputLog DEFAULT_MAH_PARAMS 12 12 = _ from k1, hg] at e
  split at e
  · exact absurd (congrArg (fun x => x.2.2) (Except.ok.inj e)) (by simp)
  have hu := congrArg Prod.fst (Except.ok.inj e)
  simp only at hu
  obtain ⟨a, ha⟩ := isFin_iff.1 f1
  obtain ⟨b, hb'⟩ := isFin_iff.1 f2
  obtain ⟨c, hc⟩ := isFin_iff.1 f3
  obtain ⟨d, hd⟩ := isFin_iff.1 f4
  have hu' : u = [fin a, fin b, fin c, fin d] := by
    rw [hu, ← ha, ← hb', ← hc, ← hd]; rfl
  obtain ⟨y, hy, -⟩ := hall ⟨a, b, c, d⟩
  refine ⟨?_, ?_, by simp [fit_lg]⟩
  · rw [hu']; simp
  · rw [hu']
    have : (fit_lg (fun _ _ => []) r0.loss_data [fin a, fin b, fin c, fin d]).1 = fin y := hy
    rw [this]; trivial

/-- The six times of that run are inside the cuts and before the peak. -/
example : ∃ Q : Finset ℝ, 6 ≤ Q.card ∧ ∀ t ∈ Q, t ∈ ([7, 8, 9, 10, 11, 12] : List ℝ) ∧ 1 ≤ t ∧
    t ≤ DEFAULT_MAH_PARAMS.t_peak ∧
    inputLog DEFAULT_MAH_PARAMS 12 12 - 2.5 < inputLog DEFAULT_MAH_PARAMS 12 t := by
  have h12 : (10 : ℝ) ^ Real.logb 10 12 = 12 := pow10_logb (by norm_num)
  have htp : DEFAULT_MAH_PARAMS.t_peak = 14 := by norm_num [DEFAULT_MAH_PARAMS]
  have hinc := (C03_strictly_increasing_until_peak DEFAULT_MAH_PARAMS default_valid.toInBox
    default_valid.late_lt_early.le (Real.logb 10 12) (by rw [h12]; norm_num)).monotoneOn
  refine ⟨([7, 8, 9, 10, 11, 12] : List ℝ).toFinset, ?_, fun t ht => ?_⟩
  · rw [List.toFinset_card_of_nodup (by norm_num)]; simp
  · have hm := List.mem_toFinset.1 ht
    have h7 : 7 ≤ t ∧ t ≤ 12 := by
      simp only [List.mem_cons, List.not_mem_nil, or_false] at hm
      rcases hm with rfl | rfl | rfl | rfl | rfl | rfl <;> norm_num
    refine ⟨hm, by linarith, by rw [htp]; linarith, ?_⟩
    have := hinc (a := 3) (b := t) (by rw [htp]; constructor <;> norm_num)
      (by rw [htp]; constructor <;> linarith) (by linarith)
    have := default_cut
    simp only [inputLog] at *
    linarith

end Diffmah.Fit

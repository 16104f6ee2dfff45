import Verif.Lemmas.Optim

/-!
# Properties of the optimiser wrappers (C36-C39, C79, C80)

`Spec.stepParams opt lg p k`, `Spec.stepLoss …` and `Spec.StepFinite …` describe the trajectory of
the optimiser from `p` when nothing stops it.
-/

namespace Diffmah.Fit

open XR Spec Diffmah.Utils

variable {S : Type}

/-! ## C36: fallback decision -/

/-- C36. L-BFGS success with a finite positive loss: its result is returned, with code 0. -/
theorem C36_bfgs_used (lbfgs : (PVec → XR × PVec) → PVec → LbfgsResult) (adam : ℝ → AdamOpt S)
    (f4 : XR → XR) (lg : PVec → XR × PVec) (u : PVec) (nstep nw : ℕ) (r : LbfgsResult)
    (hr : lbfgs lg u = r) (h1 : r.success = true) (v : ℝ) (h2 : r.func = fin v) (h3 : 0 < v) :
    bfgs_adam_fallback lbfgs adam f4 lg u nstep nw = .ok ⟨r.x, r.func, true, 0⟩ := by
  subst hr
  unfold bfgs_adam_fallback
  simp only
  rw [if_pos ⟨h1, by rw [h2]; trivial, by rw [h2]; exact h3⟩, h1]
  rfl

/-- C36. In every other case (failure, NaN, infinite, zero or negative loss) the outcome is that of
the Adam wrapper, with code 1. -/
theorem C36_adam_used (lbfgs : (PVec → XR × PVec) → PVec → LbfgsResult) (adam : ℝ → AdamOpt S)
    (f4 : XR → XR) (lg : PVec → XR × PVec) (u : PVec) (nstep nw : ℕ) (r : LbfgsResult)
    (hr : lbfgs lg u = r)
    (h : r.success = false ∨ (∀ v, r.func ≠ fin v) ∨ ∃ v ≤ 0, r.func = fin v) :
    bfgs_adam_fallback lbfgs adam f4 lg u nstep nw =
      (jax_adam_wrapper adam lg f4 u nstep nw).map
        (fun a => ⟨a.1.params, a.1.loss, decide (a.2 ≠ 0), 1⟩) := by
  subst hr
  unfold bfgs_adam_fallback
  simp only
  rw [if_neg]
  · cases jax_adam_wrapper adam lg f4 u nstep nw <;> rfl
  · rintro ⟨h1, h2, h3⟩
    rcases h with h | h | ⟨v, hv, h⟩
    · rw [h] at h1; cases h1
    · obtain ⟨v, hv⟩ := isFin_iff.1 h2; exact h v hv
    · rw [h] at h3; exact absurd (show 0 < v from h3) (not_lt.2 hv)

/-- C36. The code reported says which optimiser produced the result. -/
theorem C36_code_used (lbfgs : (PVec → XR × PVec) → PVec → LbfgsResult) (adam : ℝ → AdamOpt S)
    (f4 : XR → XR) (lg : PVec → XR × PVec) (u : PVec) (nstep nw : ℕ) (res : FallbackResult)
    (h : bfgs_adam_fallback lbfgs adam f4 lg u nstep nw = .ok res) :
    (res.code_used = 0 ∧ (lbfgs lg u).success = true ∧ (∃ v > 0, (lbfgs lg u).func = fin v) ∧
        res = ⟨(lbfgs lg u).x, (lbfgs lg u).func, true, 0⟩) ∨
    (res.code_used = 1 ∧ ∃ r term, jax_adam_wrapper adam lg f4 u nstep nw = .ok (r, term) ∧
        res = ⟨r.params, r.loss, decide (term ≠ 0), 1⟩) := by
  by_cases hc : (lbfgs lg u).success = true ∧ ∃ v > 0, (lbfgs lg u).func = fin v
  · obtain ⟨h1, v, h3, h2⟩ := hc
    rw [C36_bfgs_used lbfgs adam f4 lg u nstep nw _ rfl h1 v h2 h3] at h
    cases h
    exact .inl ⟨rfl, h1, ⟨v, h3, h2⟩, rfl⟩
  · rw [C36_adam_used lbfgs adam f4 lg u nstep nw _ rfl] at h
    · right
      cases hj : jax_adam_wrapper adam lg f4 u nstep nw with
      | error e => rw [hj] at h; cases h
      | ok a => rw [hj] at h; cases h; exact ⟨rfl, a.1, a.2, rfl, rfl⟩
    · by_contra hcon
      push Not at hcon
      obtain ⟨a, ⟨v, b⟩, c⟩ := hcon
      apply hc
      refine ⟨by simpa using a, v, ?_, b⟩
      by_contra hv
      exact c v (not_lt.1 hv) b

/-- A perfect fit found by L-BFGS (loss exactly zero) is handed to Adam. -/
example (adam : ℝ → AdamOpt S) (f4 : XR → XR) (lg : PVec → XR × PVec) (u : PVec) :
    bfgs_adam_fallback (fun _ p => ⟨p, fin 0, true⟩) adam f4 lg u 200 1 =
      (jax_adam_wrapper adam lg f4 u 200 1).map
        (fun a => ⟨a.1.params, a.1.loss, decide (a.2 ≠ 0), 1⟩) :=
  C36_adam_used _ _ _ _ _ _ _ _ rfl (.inr (.inr ⟨0, le_rfl, rfl⟩))

/-! ## C37, C38: one run of Adam -/

/-- C37. If the loss is never negative, `tol = 0` and the first step is finite, the run returns the
(single-precision) parameters and the loss of the first best step among those visited before the
first non-finite one, together with the complete histories of those steps. -/
theorem C37_best_step (opt : AdamOpt S) (lg : PVec → XR × PVec) (f4 : XR → XR) (p : PVec) (n : ℕ)
    (hn : 1 ≤ n) (hpos : ∀ q, ¬ XR.lt (lg q).1 (fin 0)) (h0 : StepFinite opt lg p 0) :
    ∃ m i, 1 ≤ m ∧ m ≤ n ∧ (∀ j < m, StepFinite opt lg p j) ∧ (m < n → ¬ StepFinite opt lg p m) ∧
      FirstMinBelow m (stepLoss opt lg p) i ∧
      jax_adam_core opt lg f4 p n (fin 0) = .ok
        { params := (stepParams opt lg p i).map f4
          loss := stepLoss opt lg p i
          loss_arr := (List.range m).map (stepLoss opt lg p)
          params_arr := (List.range m).map fun j => (stepParams opt lg p j).map f4 } := by
  rcases run_cases opt lg p (fin 0) n with h | ⟨m, hm, hrun, hbad | ⟨-, ht⟩⟩
  · obtain ⟨i, hi, hr⟩ := core_full opt lg f4 p (fin 0) n (by omega) h
    exact ⟨n, i, hn, le_rfl, fun j hj => (h j hj).1, fun h => absurd h (lt_irrefl _), hi, hr⟩
  · rcases Nat.eq_zero_or_pos m with rfl | hm0
    · exact absurd h0 hbad
    · obtain ⟨i, hi, hr⟩ := core_fail opt lg f4 p (fin 0) n m hm hm0 hrun hbad
      exact ⟨m, i, hm0, hm.le, fun j hj => (hrun j hj).1, fun _ => hbad, hi, hr⟩
  · exact absurd ht (hpos _)

/-- C38. A failure at the very first step: the starting point comes back with the placeholder loss
999.99 and empty histories. -/
theorem C38_first_step_fails (opt : AdamOpt S) (lg : PVec → XR × PVec) (f4 : XR → XR) (p : PVec)
    (n : ℕ) (tol : XR) (hn : 1 ≤ n) (h0 : ¬ StepFinite opt lg p 0) :
    jax_adam_core opt lg f4 p n tol = .ok ⟨stepParams opt lg p 0, fin 999.99, [], []⟩ :=
  core_fail_zero opt lg f4 p tol n hn h0

/-- C38. A non-finite value first met at step `m` (before the tolerance is reached) truncates both
histories to the `m` steps before it; whatever is returned afterwards was visited before it. -/
theorem C38_truncated (opt : AdamOpt S) (lg : PVec → XR × PVec) (f4 : XR → XR) (p : PVec)
    (n m : ℕ) (tol : XR) (hm : m < n) (hfin : ∀ j < m, StepFinite opt lg p j)
    (htol : ∀ j < m, ¬ XR.lt (stepLoss opt lg p j) tol) (hbad : ¬ StepFinite opt lg p m) :
    ∃ r, jax_adam_core opt lg f4 p n tol = .ok r ∧
      r.loss_arr = (List.range m).map (stepLoss opt lg p) ∧
      r.params_arr = ((List.range m).map fun j => (stepParams opt lg p j).map f4) ∧
      (0 < m → ∃ i < m, r.params = (stepParams opt lg p i).map f4 ∧ r.loss = stepLoss opt lg p i) := by
  rcases Nat.eq_zero_or_pos m with rfl | hm0
  · exact ⟨_, core_fail_zero opt lg f4 p tol n hm hbad, rfl, rfl, fun h => absurd h (lt_irrefl _)⟩
  · obtain ⟨i, hi, hr⟩ := core_fail opt lg f4 p tol n m hm hm0 (fun j hj => ⟨hfin j hj, htol j hj⟩) hbad
    exact ⟨_, hr, rfl, rfl, fun _ => ⟨i, hi.1, rfl, rfl⟩⟩

theorem wrapper_no_warmup (adam : ℝ → AdamOpt S) (lg : PVec → XR × PVec) (f4 : XR → XR) (p : PVec)
    (n wn : ℕ) (ss : ℝ) (ws : Option ℝ) (τ : ℝ) :
    jax_adam_wrapper adam lg f4 p n 0 ss wn ws (fin τ) =
      (jax_adam_core (adam ss) lg f4 p n (fin τ)).map
        (fun r => (r, if r.loss_arr.length < n then 0 else 1)) := by
  unfold jax_adam_wrapper
  simp only [warmup_loop]
  have : XR.lt (fin τ) pinf := trivial
  simp only [bind, Except.bind, if_pos this, ite_self]
  cases jax_adam_core (adam ss) lg f4 p n (fin τ) <;> rfl

/-- C38. Without warmup and with a tolerance that is never undercut: the run completes all `n` steps
and reports `fit_terminates = 1` exactly when every one of the first `n` steps is finite. -/
theorem C38_terminates_iff (adam : ℝ → AdamOpt S) (lg : PVec → XR × PVec) (f4 : XR → XR) (p : PVec)
    (n wn : ℕ) (hn : 1 ≤ n) (ss : ℝ) (ws : Option ℝ) (τ : ℝ) (hpos : ∀ q, ¬ XR.lt (lg q).1 (fin τ)) :
    ∃ r term, jax_adam_wrapper adam lg f4 p n 0 ss wn ws (fin τ) = .ok (r, term) ∧
      (term = 0 ∨ term = 1) ∧
      (term = 1 ↔ ∀ j < n, StepFinite (adam ss) lg p j) ∧
      (term = 1 ↔ r.loss_arr.length = n) := by
  rw [wrapper_no_warmup]
  rcases run_cases (adam ss) lg p (fin τ) n with h | ⟨m, hm, hrun, hbad | ⟨-, ht⟩⟩
  · obtain ⟨i, hi, hr⟩ := core_full (adam ss) lg f4 p (fin τ) n (by omega) h
    rw [hr]
    refine ⟨_, _, rfl, ?_, ?_, ?_⟩
    · simp
    · simp only [lossesTo_length, lt_irrefl, if_false, true_iff]
      exact fun j hj => (h j hj).1
    · simp
  · have key : ∃ r, jax_adam_core (adam ss) lg f4 p n (fin τ) = .ok r ∧ r.loss_arr.length = m := by
      obtain ⟨r, hr, hl, -⟩ := C38_truncated (adam ss) lg f4 p n m (fin τ) hm
        (fun j hj => (hrun j hj).1) (fun j hj => (hrun j hj).2) hbad
      exact ⟨r, hr, by rw [hl]; simp⟩
    obtain ⟨r, hr, hl⟩ := key
    rw [hr]
    refine ⟨_, _, rfl, ?_, ?_, ?_⟩
    · simp [hl, hm]
    · simp only [hl, hm, if_true]
      constructor
      · intro h; cases h
      · intro h; exact absurd (h m hm) hbad
    · simp only [hl, hm, if_true]
      constructor
      · intro h; cases h
      · intro h; omega
  · exact absurd ht (hpos _)

/-- C38, the limits of the flag: reaching a tolerance early is also reported as
`fit_terminates = 0`, and the parameter history is then padded with zeros to `n` rows. -/
theorem C38_tolerance_flagged_as_failure (adam : ℝ → AdamOpt S) (lg : PVec → XR × PVec)
    (f4 : XR → XR) (p : PVec) (n m wn : ℕ) (ss : ℝ) (ws : Option ℝ) (τ : ℝ) (hm : m + 1 < n)
    (hrun : ∀ j < m, StepFinite (adam ss) lg p j ∧ ¬ XR.lt (stepLoss (adam ss) lg p j) (fin τ))
    (hfin : StepFinite (adam ss) lg p m) (ht : XR.lt (stepLoss (adam ss) lg p m) (fin τ)) :
    ∃ r, jax_adam_wrapper adam lg f4 p n 0 ss wn ws (fin τ) = .ok (r, 0) ∧
      r.params = stepParams (adam ss) lg p m ∧ r.loss = stepLoss (adam ss) lg p m ∧
      r.loss_arr.length = m + 1 ∧ r.params_arr.length = n := by
  rw [wrapper_no_warmup, core_tol (adam ss) lg f4 p (fin τ) n m (by omega) hrun hfin ht]
  simp only [Except.map, lossesTo_length, if_pos hm]
  exact ⟨_, rfl, rfl, rfl, by simp, by simp; omega⟩

/-- C80. Degenerate settings raise: no steps (`ValueError`); no warmup with an infinite tolerance
(`UnboundLocalError`). -/
theorem C80_degenerate_settings (adam : ℝ → AdamOpt S) (lg : PVec → XR × PVec) (f4 : XR → XR)
    (p : PVec) (n wn : ℕ) (ss : ℝ) (ws : Option ℝ) (τ : ℝ) :
    jax_adam_wrapper adam lg f4 p 0 0 ss wn ws (fin τ) = .error .valueError ∧
    jax_adam_wrapper adam lg f4 p n 0 ss wn ws pinf = .error .unboundLocalError := by
  refine ⟨?_, ?_⟩
  · rw [wrapper_no_warmup, core_zero]; rfl
  · unfold jax_adam_wrapper
    simp only [warmup_loop]
    have : ¬ XR.lt pinf pinf := fun h => h
    simp only [bind, Except.bind, if_neg this]

/-! ## C39, C79: improvement and consistency -/

/-- The optimiser stores single-precision numbers and starts where it is told to. -/
structure SinglePrecision (opt : AdamOpt S) (f4 : XR → XR) : Prop where
  start : ∀ p : PVec, p.map f4 = p → opt.get (opt.init p) = p
  steps : ∀ (lg : PVec → XR × PVec) (p : PVec) (k : ℕ), p.map f4 = p →
    (stepParams opt lg p k).map f4 = stepParams opt lg p k

/-- Loss and gradient are finite at the finite point `p`. -/
def FiniteAt (lg : PVec → XR × PVec) (p : PVec) : Prop :=
  (∀ x ∈ p, IsFin x) ∧ IsFin (lg p).1 ∧ ∀ x ∈ (lg p).2, IsFin x

theorem core_improves (opt : AdamOpt S) (lg : PVec → XR × PVec) (f4 : XR → XR) (p : PVec)
    (n : ℕ) (τ : ℝ) (hn : 0 < n) (ho : SinglePrecision opt f4) (hp : p.map f4 = p)
    (hf : FiniteAt lg p) :
    ∃ r, jax_adam_core opt lg f4 p n (fin τ) = .ok r ∧ XR.le r.loss (lg p).1 ∧
      r.params.map f4 = r.params ∧ FiniteAt lg r.params ∧ (lg r.params).1 = r.loss := by
  have e0 : stepParams opt lg p 0 = p := ho.start p hp
  have el : stepLoss opt lg p 0 = (lg p).1 := by unfold stepLoss; rw [e0]
  have h0 : StepFinite opt lg p 0 := by
    unfold StepFinite stepLoss stepGrad; rw [e0]; exact hf
  have hfin : ∀ i, StepFinite opt lg p i → FiniteAt lg (stepParams opt lg p i) := fun i h => h
  rcases run_cases opt lg p (fin τ) n with h | ⟨m, hm, hrun, hbad | ⟨hfm, ht⟩⟩
  · obtain ⟨i, hi, hr⟩ := core_full opt lg f4 p (fin τ) n hn h
    refine ⟨_, hr, ?_, ?_, ?_, ?_⟩
    · simp only; rw [← el]; exact hi.2.1 0 hn
    · simp only [ho.steps lg p i hp]
    · simp only [ho.steps lg p i hp]; exact hfin i (h i hi.1).1
    · simp only [ho.steps lg p i hp]; rfl
  · rcases Nat.eq_zero_or_pos m with rfl | hm0
    · exact absurd h0 hbad
    · obtain ⟨i, hi, hr⟩ := core_fail opt lg f4 p (fin τ) n m hm hm0 hrun hbad
      refine ⟨_, hr, ?_, ?_, ?_, ?_⟩
      · simp only; rw [← el]; exact hi.2.1 0 hm0
      · simp only [ho.steps lg p i hp]
      · simp only [ho.steps lg p i hp]; exact hfin i (hrun i hi.1).1
      · simp only [ho.steps lg p i hp]; rfl
  · refine ⟨_, core_tol opt lg f4 p (fin τ) n m hm hrun hfm ht, ?_, ?_, ?_, ?_⟩
    · simp only
      rcases Nat.eq_zero_or_pos m with rfl | hm0
      · rw [← el]; exact le_refl_fin h0.2.1
      · rw [← el]
        exact le_trans_fin hfm.2.1 (isFin_fin τ) h0.2.1 (le_of_lt_fin hfm.2.1 (isFin_fin τ) ht)
          (not_lt_fin h0.2.1 (isFin_fin τ) (hrun 0 hm0).2)
    · exact ho.steps lg p m hp
    · exact hfin m hfm
    · rfl

theorem warmup_improves (opt : AdamOpt S) (lg : PVec → XR × PVec) (f4 : XR → XR) (wn : ℕ) (τ : ℝ)
    (hwn : 0 < wn) (ho : SinglePrecision opt f4) (L : XR) (hL : IsFin L) :
    ∀ (k : ℕ) (p : PVec) (l : XR) (res : Option AdamResult), p.map f4 = p → FiniteAt lg p →
      XR.le (lg p).1 L →
      (∀ r, res = some r → r.params = p ∧ r.loss = l ∧ (lg p).1 = l) → (res = none → l = pinf) →
      ∃ p' l' res', warmup_loop opt lg f4 wn (fin τ) k (p, l, res) = .ok (p', l', res') ∧
        p'.map f4 = p' ∧ FiniteAt lg p' ∧ XR.le (lg p').1 L ∧
        (∀ r, res' = some r → r.params = p' ∧ r.loss = l' ∧ (lg p').1 = l') ∧
        (res' = none → l' = pinf) := by
  intro k
  induction k with
  | zero => intro p l res h1 h2 h3 h4 h5; exact ⟨p, l, res, rfl, h1, h2, h3, h4, h5⟩
  | succ k ih =>
    intro p l res h1 h2 h3 h4 h5
    obtain ⟨r, hr, a1, a2, a3, a4⟩ := core_improves opt lg f4 p wn τ hwn ho h1 h2
    have hstep : warmup_step opt lg f4 wn (fin τ) (p, l, res) = .ok (r.params, r.loss, some r) := by
      unfold warmup_step; simp only [hr]; rfl
    have := ih r.params r.loss (some r) a2 a3
      (by rw [a4]; exact le_trans_fin (by rw [← a4]; exact a3.2.1) h2.2.1 hL a1 h3)
      (by rintro r' hr'; cases hr'; exact ⟨rfl, rfl, a4⟩) (by intro h; cases h)
    obtain ⟨p', l', res', hw, rest⟩ := this
    refine ⟨p', l', res', ?_, rest⟩
    unfold warmup_loop
    rw [hstep]
    exact hw

/-- C39, C79. From a finite starting point, after any number of warmup rounds and steps, the Adam
wrapper succeeds; its loss is at most the loss at the starting point, its parameters are finite,
and the loss it reports is the loss of the parameters it reports. -/
theorem C39_never_worse_than_start (adam : ℝ → AdamOpt S) (lg : PVec → XR × PVec) (f4 : XR → XR)
    (p : PVec) (n nw wn : ℕ) (ss : ℝ) (ws : Option ℝ) (τ : ℝ) (hn : 1 ≤ n) (hwn : 1 ≤ wn)
    (ho : ∀ s, SinglePrecision (adam s) f4) (hp : p.map f4 = p) (hf : FiniteAt lg p) :
    ∃ r term, jax_adam_wrapper adam lg f4 p n nw ss wn ws (fin τ) = .ok (r, term) ∧
      XR.le r.loss (lg p).1 ∧ (∀ x ∈ r.params, IsFin x) ∧ (lg r.params).1 = r.loss := by
  obtain ⟨p', l', res', hw, b1, b2, b3, b4, b5⟩ :=
    warmup_improves (adam (ws.getD (5 * ss))) lg f4 wn τ hwn (ho _) (lg p).1 hf.2.1 nw p pinf none hp hf
      (le_refl_fin hf.2.1) (by intro r h; cases h) (fun _ => rfl)
  unfold jax_adam_wrapper
  simp only [hw, bind, Except.bind]
  have hA : AllFin p' := b2.1
  by_cases hlt : XR.lt (fin τ) l'
  · obtain ⟨r, hr, a1, a2, a3, a4⟩ := core_improves (adam ss) lg f4 p' n τ hn (ho _) b1 b2
    simp only [if_pos hA, if_pos hlt, hr, Except.map]
    exact ⟨r, _, rfl, le_trans_fin (by rw [← a4]; exact a3.2.1) b2.2.1 hf.2.1 a1 b3, a3.1, a4⟩
  · simp only [if_neg hlt]
    cases res' with
    | none => rw [b5 rfl] at hlt; exact absurd trivial hlt
    | some r =>
      obtain ⟨c1, c2, c3⟩ := b4 r rfl
      refine ⟨r, _, rfl, ?_, ?_, ?_⟩
      · rw [c2, ← c3]; exact b3
      · rw [c1]; exact b2.1
      · rw [c1, c2]; exact c3

/-- The loss `x ↦ x²` of one parameter, with its gradient. -/
noncomputable def sqLoss : PVec → XR × PVec
  | [x] => (x * x, [fin 2 * x])
  | _ => (nan, [])

/-- Plain gradient descent on `x ↦ x²` in exact arithmetic meets the hypotheses. -/
noncomputable def gdOpt (s : ℝ) : AdamOpt PVec where
  init := id
  update := fun _ g p => List.zipWith (fun a b => a - fin s * b) p g
  get := id

example : (∀ s, SinglePrecision (gdOpt s) id) ∧
    FiniteAt sqLoss [fin 3] := by
  refine ⟨fun s => ⟨fun p _ => rfl, fun lg p k _ => by simp⟩, ?_, ?_, ?_⟩ <;> simp [sqLoss]

/-- C37 and C38 apply to the same example: its first step is finite and the loss is never
negative. -/
example : StepFinite (gdOpt 0.1) sqLoss [fin 3] 0 ∧
    ∀ q, ¬ XR.lt (sqLoss q).1 (fin 0) := by
  refine ⟨⟨?_, ?_, ?_⟩, ?_⟩
  · simp [stepParams, optState, gdOpt]
  · simp [stepLoss, stepParams, optState, gdOpt, sqLoss]
  · simp [stepGrad, stepParams, optState, gdOpt, sqLoss]
  · intro q
    unfold sqLoss
    split
    · rename_i x
      cases x with
      | fin a => simp only [fin_mul]; exact not_lt.2 (mul_self_nonneg a)
      | nan => exact fun h => h
      | pinf => exact fun h => h
      | ninf => exact fun h => h
    · exact fun h => h

/-- C79. Whatever the optimiser and the loss do, the loss reported by the Adam wrapper is the loss
at some visited point whose single-precision copy (or itself) is reported, or the placeholder
999.99 with an empty history. -/
theorem C79_reported_loss (opt : AdamOpt S) (lg : PVec → XR × PVec) (f4 : XR → XR) (p : PVec)
    (n : ℕ) (tol : XR) (r : AdamResult) (h : jax_adam_core opt lg f4 p n tol = .ok r) :
    (∃ k < n, r.loss = (lg (stepParams opt lg p k)).1 ∧ IsFin r.loss ∧
      (r.params = stepParams opt lg p k ∨ r.params = (stepParams opt lg p k).map f4)) ∨
    (r.loss = fin 999.99 ∧ r.loss_arr = [] ∧ ¬ StepFinite opt lg p 0) := by
  rcases Nat.eq_zero_or_pos n with rfl | hn
  · rw [core_zero] at h; cases h
  rcases run_cases opt lg p tol n with hr | ⟨m, hm, hrun, hbad | ⟨hf, ht⟩⟩
  · obtain ⟨i, hi, e⟩ := core_full opt lg f4 p tol n hn hr
    rw [e] at h; cases h
    exact .inl ⟨i, hi.1, rfl, (hr i hi.1).1.2.1, .inr rfl⟩
  · rcases Nat.eq_zero_or_pos m with rfl | hm0
    · rw [core_fail_zero opt lg f4 p tol n hn hbad] at h; cases h
      exact .inr ⟨rfl, rfl, hbad⟩
    · obtain ⟨i, hi, e⟩ := core_fail opt lg f4 p tol n m hm hm0 hrun hbad
      rw [e] at h; cases h
      exact .inl ⟨i, by have := hi.1; omega, rfl, (hrun i hi.1).1.2.1, .inr rfl⟩
  · rw [core_tol opt lg f4 p tol n m hm hrun hf ht] at h; cases h
    exact .inl ⟨m, hm, rfl, hf.2.1, .inl rfl⟩

theorem warmup_is_core (opt : AdamOpt S) (lg : PVec → XR × PVec) (f4 : XR → XR) (wn : ℕ) (tol : XR) :
    ∀ (k : ℕ) (s s' : PVec × XR × Option AdamResult),
      (∀ r, s.2.2 = some r → s.2.1 = r.loss ∧ ∃ p, jax_adam_core opt lg f4 p wn tol = .ok r) →
      (s.2.2 = none → s.2.1 = pinf) →
      warmup_loop opt lg f4 wn tol k s = .ok s' →
      (∀ r, s'.2.2 = some r → s'.2.1 = r.loss ∧ ∃ p, jax_adam_core opt lg f4 p wn tol = .ok r) ∧
      (s'.2.2 = none → s'.2.1 = pinf) := by
  intro k
  induction k with
  | zero => intro s s' h h' e; cases e; exact ⟨h, h'⟩
  | succ k ih =>
    intro s s' h h' e
    unfold warmup_loop at e
    cases hc : jax_adam_core opt lg f4 s.1 wn tol with
    | error er =>
      have : warmup_step opt lg f4 wn tol s = .error er := by unfold warmup_step; rw [hc]; rfl
      rw [this] at e; cases e
    | ok r =>
      have : warmup_step opt lg f4 wn tol s = .ok (r.params, r.loss, some r) := by
        unfold warmup_step; rw [hc]; rfl
      rw [this] at e
      refine ih _ _ ?_ ?_ e
      · intro r' hr'; cases hr'; exact ⟨rfl, _, hc⟩
      · intro hr'; cases hr'

/-- Whatever the wrapper returns is the result of a single run: the final burn, or the last warmup
if that already met the tolerance. -/
theorem wrapper_is_core (adam : ℝ → AdamOpt S) (lg : PVec → XR × PVec) (f4 : XR → XR)
    (p : PVec) (n nw wn : ℕ) (ss : ℝ) (ws : Option ℝ) (tol : XR) (r : AdamResult) (term : ℕ)
    (h : jax_adam_wrapper adam lg f4 p n nw ss wn ws tol = .ok (r, term)) :
    term = (if r.loss_arr.length < n then 0 else 1) ∧
    ((∃ q, jax_adam_core (adam ss) lg f4 q n tol = .ok r) ∨
     (¬ XR.lt tol r.loss ∧ ∃ q, jax_adam_core (adam (ws.getD (5 * ss))) lg f4 q wn tol = .ok r)) := by
  unfold jax_adam_wrapper at h
  cases hw : warmup_loop (adam (ws.getD (5 * ss))) lg f4 wn tol nw (p, pinf, none) with
  | error e => simp only [hw, bind, Except.bind] at h; cases h
  | ok s' =>
    obtain ⟨h1, h2⟩ := warmup_is_core _ lg f4 wn tol nw _ s' (by intro r hr; cases hr) (fun _ => rfl) hw
    simp only [hw, bind, Except.bind] at h
    by_cases hlt : XR.lt tol s'.2.1
    · rw [if_pos hlt] at h
      generalize hq : (@ite _ (AllFin s'.1) (Classical.propDecidable _) s'.1 p) = q at h
      cases hc : jax_adam_core (adam ss) lg f4 q n tol with
      | error e => rw [hc] at h; cases h
      | ok r' => rw [hc] at h; cases h; exact ⟨rfl, .inl ⟨q, hc⟩⟩
    · rw [if_neg hlt] at h
      cases hs : s'.2.2 with
      | none => rw [hs] at h; cases h
      | some r' =>
        rw [hs] at h; cases h
        obtain ⟨a, b⟩ := h1 _ hs
        exact ⟨rfl, .inr ⟨by rw [← a]; exact hlt, b⟩⟩

/-- C37, for the full wrapper with any number of warmup rounds: with `tol = 0` and a loss that is
never negative, a non-empty loss history contains the returned loss as its minimum, at the same
position as the returned parameters in the parameter history. -/
theorem C37_wrapper_best_of_history (adam : ℝ → AdamOpt S) (lg : PVec → XR × PVec) (f4 : XR → XR)
    (p : PVec) (n nw wn : ℕ) (ss : ℝ) (ws : Option ℝ) (hpos : ∀ q, ¬ XR.lt (lg q).1 (fin 0))
    (r : AdamResult) (term : ℕ)
    (h : jax_adam_wrapper adam lg f4 p n nw ss wn ws (fin 0) = .ok (r, term))
    (hne : r.loss_arr ≠ []) :
    r.params_arr.length = r.loss_arr.length ∧ (∀ l ∈ r.loss_arr, IsFin l ∧ XR.le r.loss l) ∧
      ∃ i : ℕ, r.loss_arr[i]? = some r.loss ∧ r.params_arr[i]? = some r.params := by
  have key : ∀ (opt : AdamOpt S) q n', jax_adam_core opt lg f4 q n' (fin 0) = .ok r →
      r.params_arr.length = r.loss_arr.length ∧ (∀ l ∈ r.loss_arr, IsFin l ∧ XR.le r.loss l) ∧
      ∃ i : ℕ, r.loss_arr[i]? = some r.loss ∧ r.params_arr[i]? = some r.params := by
    intro opt q n' hr
    rcases Nat.eq_zero_or_pos n' with rfl | hn
    · rw [core_zero] at hr; cases hr
    by_cases h0 : StepFinite opt lg q 0
    · obtain ⟨m, i, -, -, hfin, -, hmin, e⟩ := C37_best_step opt lg f4 q n' hn hpos h0
      rw [hr] at e; cases e
      refine ⟨by simp, ?_, i, ?_, ?_⟩
      · intro l hl
        obtain ⟨j, hj, rfl⟩ := List.mem_map.1 hl
        exact ⟨(hfin j (List.mem_range.1 hj)).2.1, hmin.2.1 j (List.mem_range.1 hj)⟩
      · rw [List.getElem?_map, List.getElem?_range hmin.1]; rfl
      · rw [List.getElem?_map, List.getElem?_range hmin.1]; rfl
    · rw [core_fail_zero opt lg f4 q (fin 0) n' hn h0] at hr; cases hr
      exact absurd rfl hne
  obtain ⟨-, ⟨q, hq⟩ | ⟨-, q, hq⟩⟩ := wrapper_is_core adam lg f4 p n nw wn ss ws (fin 0) r term h
  · exact key _ _ _ hq
  · exact key _ _ _ hq

/-- C38, for the full wrapper with any number of warmup rounds and a loss that is positive or NaN:
`fit_terminates = 1` iff the final burn met no non-finite value in its `n` steps. -/
theorem C38_wrapper_terminates_iff (adam : ℝ → AdamOpt S) (lg : PVec → XR × PVec) (f4 : XR → XR)
    (p : PVec) (n nw wn : ℕ) (hn : 1 ≤ n) (ss : ℝ) (ws : Option ℝ)
    (hpos : ∀ q, ¬ XR.le (lg q).1 (fin 0))
    (r : AdamResult) (term : ℕ)
    (h : jax_adam_wrapper adam lg f4 p n nw ss wn ws (fin 0) = .ok (r, term)) :
    ∃ q, jax_adam_core (adam ss) lg f4 q n (fin 0) = .ok r ∧
      (term = 1 ↔ ∀ j < n, StepFinite (adam ss) lg q j) := by
  have hpos' : ∀ q, ¬ XR.lt (lg q).1 (fin 0) := by
    intro q hq
    apply hpos q
    cases hx : (lg q).1 with
    | fin a => rw [hx] at hq; exact le_of_lt (show a < 0 from hq)
    | nan => rw [hx] at hq; exact hq.elim
    | pinf => rw [hx] at hq; exact hq.elim
    | ninf => trivial
  obtain ⟨ht, hcase⟩ := wrapper_is_core adam lg f4 p n nw wn ss ws (fin 0) r term h
  have hq : ∃ q, jax_adam_core (adam ss) lg f4 q n (fin 0) = .ok r := by
    rcases hcase with hq | ⟨hlt, q, hq⟩
    · exact hq
    · exfalso
      apply hlt
      rcases C79_reported_loss _ lg f4 q wn (fin 0) r hq with ⟨k, -, e, hf, -⟩ | ⟨e, -⟩
      · obtain ⟨a, ha⟩ := isFin_iff.1 hf
        have := hpos (stepParams (adam (ws.getD (5 * ss))) lg q k)
        rw [← e, ha] at this
        rw [ha]; exact not_le.1 (show ¬ a ≤ 0 from this)
      · rw [e]; change (0 : ℝ) < 999.99; norm_num
  obtain ⟨q, hq⟩ := hq
  refine ⟨q, hq, ?_⟩
  obtain ⟨r', term', e, -, h2, h3⟩ := C38_terminates_iff adam lg f4 q n wn hn ss ws 0 hpos'
  rw [wrapper_no_warmup, hq] at e
  cases e
  rw [ht]; exact h2

end Diffmah.Fit

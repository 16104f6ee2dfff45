import Verif.Lemmas.Adam

/-!
# Properties of fits with the Adam optimiser (C104, C105)

`jaxAdam step_size` is the optimiser that the wrappers use; the trajectory it follows from `p` is
`Spec.stepParams (jaxAdam step_size) lg p k`.
-/

namespace Diffmah.Fit

open XR Spec Diffmah.Utils

/-! ## C104: no gradient, no movement -/

/-- C104. If component `i` of the gradient is zero wherever the loss is evaluated, then every point the
optimiser visits has the starting value in component `i`. Losses and the other components are arbitrary,
NaN and infinite values included. -/
theorem C104_trajectory (ss : ℝ) (lg : PVec → XR × PVec) (p : PVec) (i : ℕ) (x : XR) (hx : p[i]? = some x)
    (hg : ∀ q : PVec, q.length = p.length → (lg q).2.length = p.length ∧ (lg q).2[i]? = some (fin 0)) (k : ℕ) :
    (stepParams (jaxAdam ss) lg p k)[i]? = some x :=
  (adam_zero_params hx hg k).2

theorem adam_core_fixed (ss : ℝ) (lg : PVec → XR × PVec) (f4 : XR → XR) (p : PVec) (n : ℕ) (tol : XR) (i : ℕ) (x : XR)
    (hx : p[i]? = some x)
    (hg : ∀ q : PVec, q.length = p.length → (lg q).2.length = p.length ∧ (lg q).2[i]? = some (fin 0))
    (r : AdamResult) (h : jax_adam_core (jaxAdam ss) lg f4 p n tol = .ok r) :
    r.params.length = p.length ∧ (r.params[i]? = some x ∨ r.params[i]? = some (f4 x)) := by
  obtain ⟨k, -, -, e | e⟩ := core_visited _ lg f4 p n tol r h
  · rw [e]
    exact ⟨(adam_zero_params hx hg k).1, .inl (adam_zero_params hx hg k).2⟩
  · rw [e]
    refine ⟨by rw [List.length_map]; exact (adam_zero_params hx hg k).1, .inr ?_⟩
    rw [List.getElem?_map, (adam_zero_params hx hg k).2]; rfl

theorem adam_warmup_fixed (ws : ℝ) (lg : PVec → XR × PVec) (f4 : XR → XR) (hf : ∀ x, f4 (f4 x) = f4 x) (p : PVec)
    (wn : ℕ) (tol : XR) (i : ℕ) (x : XR)
    (hg : ∀ q : PVec, q.length = p.length → (lg q).2.length = p.length ∧ (lg q).2[i]? = some (fin 0)) :
    ∀ (nw : ℕ) (s s' : PVec × XR × Option AdamResult),
      (s.1.length = p.length ∧ (s.1[i]? = some x ∨ s.1[i]? = some (f4 x)) ∧ ∀ r, s.2.2 = some r → r.params = s.1) →
      warmup_loop (jaxAdam ws) lg f4 wn tol nw s = .ok s' →
      s'.1.length = p.length ∧ (s'.1[i]? = some x ∨ s'.1[i]? = some (f4 x)) ∧ ∀ r, s'.2.2 = some r → r.params = s'.1 := by
  intro nw
  induction nw with
  | zero => intro s s' h hs; cases hs; exact h
  | succ nw ih =>
    intro s s' h hs
    unfold warmup_loop warmup_step at hs
    cases hc : jax_adam_core (jaxAdam ws) lg f4 s.1 wn tol with
    | error e => rw [hc] at hs; cases hs
    | ok r =>
      rw [hc] at hs
      refine ih _ s' ?_ hs
      have hg' : ∀ q : PVec, q.length = s.1.length → (lg q).2.length = s.1.length ∧ (lg q).2[i]? = some (fin 0) := by
        intro q hq; rw [h.1] at hq ⊢; exact hg q hq
      rcases h.2.1 with hx | hx
      · obtain ⟨a, b⟩ := adam_core_fixed ws lg f4 s.1 wn tol i x hx hg' r hc
        exact ⟨a.trans h.1, b, fun r' hr' => by cases hr'; rfl⟩
      · obtain ⟨a, b⟩ := adam_core_fixed ws lg f4 s.1 wn tol i (f4 x) hx hg' r hc
        rw [hf] at b
        exact ⟨a.trans h.1, .inr (b.elim id id), fun r' hr' => by cases hr'; rfl⟩

/-- C104. Whatever the number of steps and of warmup rounds, the step sizes and the tolerance, the reported
parameters have the starting value in component `i`, or its single-precision copy. -/
theorem C104_reported (lg : PVec → XR × PVec) (f4 : XR → XR) (hf : ∀ x, f4 (f4 x) = f4 x) (p : PVec) (n nw wn : ℕ)
    (ss : ℝ) (ws : Option ℝ) (tol : XR) (i : ℕ) (x : XR) (hx : p[i]? = some x)
    (hg : ∀ q : PVec, q.length = p.length → (lg q).2.length = p.length ∧ (lg q).2[i]? = some (fin 0))
    (r : AdamResult) (term : ℕ) (h : jax_adam_wrapper jaxAdam lg f4 p n nw ss wn ws tol = .ok (r, term)) :
    r.params[i]? = some x ∨ r.params[i]? = some (f4 x) := by
  unfold jax_adam_wrapper at h
  cases hw : warmup_loop (jaxAdam (ws.getD (5 * ss))) lg f4 wn tol nw (p, pinf, none) with
  | error e => simp only [hw, bind, Except.bind] at h; cases h
  | ok s' =>
    obtain ⟨h1, h2, h3⟩ := adam_warmup_fixed _ lg f4 hf p wn tol i x hg nw _ s'
      ⟨rfl, .inl hx, by intro r hr; cases hr⟩ hw
    simp only [hw, bind, Except.bind] at h
    by_cases hlt : XR.lt tol s'.2.1
    · rw [if_pos hlt] at h
      generalize hq : (@ite _ (AllFin s'.1) (Classical.propDecidable _) s'.1 p) = q at h
      have hq' : q.length = p.length ∧ (q[i]? = some x ∨ q[i]? = some (f4 x)) := by
        rw [← hq]
        split
        · exact ⟨h1, h2⟩
        · exact ⟨rfl, .inl hx⟩
      have hg' : ∀ q' : PVec, q'.length = q.length → (lg q').2.length = q.length ∧ (lg q').2[i]? = some (fin 0) := by
        intro q' hq''; rw [hq'.1] at hq'' ⊢; exact hg q' hq''
      cases hc : jax_adam_core (jaxAdam ss) lg f4 q n tol with
      | error e => rw [hc] at h; cases h
      | ok r' =>
        rw [hc] at h; cases h
        rcases hq'.2 with hx | hx
        · exact (adam_core_fixed ss lg f4 q n tol i x hx hg' r hc).2
        · have := (adam_core_fixed ss lg f4 q n tol i (f4 x) hx hg' r hc).2
          rw [hf] at this
          exact .inr (this.elim id id)
    · rw [if_neg hlt] at h
      cases hs : s'.2.2 with
      | none => rw [hs] at h; cases h
      | some r' =>
        rw [hs] at h; cases h
        rw [h3 _ hs]; exact h2

/-- C104 for the fallback optimiser. When Adam is used (code 1), the component is unchanged too. -/
theorem C104_fallback (lbfgs : (PVec → XR × PVec) → PVec → LbfgsResult) (lg : PVec → XR × PVec) (f4 : XR → XR)
    (hf : ∀ x, f4 (f4 x) = f4 x) (p : PVec) (nstep nw : ℕ) (i : ℕ) (x : XR) (hx : p[i]? = some x)
    (hg : ∀ q : PVec, q.length = p.length → (lg q).2.length = p.length ∧ (lg q).2[i]? = some (fin 0))
    (res : FallbackResult) (h : bfgs_adam_fallback lbfgs jaxAdam f4 lg p nstep nw = .ok res)
    (hc : res.code_used = 1) : res.p_best[i]? = some x ∨ res.p_best[i]? = some (f4 x) := by
  unfold bfgs_adam_fallback at h
  simp only at h
  split at h
  · cases h; exact absurd hc (by norm_num)
  · cases hw : jax_adam_wrapper jaxAdam lg f4 p nstep nw with
    | error e => rw [hw] at h; cases h
    | ok a =>
      rw [hw] at h; cases h
      exact C104_reported lg f4 hf p nstep nw _ _ _ _ i x hx hg a.1 a.2 hw

/-- A loss of two parameters that does not depend on the second one. -/
noncomputable def sqLoss2 : PVec → XR × PVec
  | [x, _] => (x * x, [fin 2 * x, fin 0])
  | _ => (nan, [])

/-- The hypotheses of C104 are met, and the first parameter does move. -/
example : (∀ q : PVec, q.length = [fin 3, fin 5].length → (sqLoss2 q).2.length = [fin 3, fin 5].length ∧
      (sqLoss2 q).2[1]? = some (fin 0)) ∧
    ∃ y < 3, (stepParams (jaxAdam 0.1) sqLoss2 [fin 3, fin 5] 1)[0]? = some (fin y) := by
  constructor
  · intro q hq
    match q, hq with
    | [a, b], _ => exact ⟨rfl, rfl⟩
  · have e : (stepParams (jaxAdam 0.1) sqLoss2 [fin 3, fin 5] 1)[0]? =
        some (adamCell 0.1 0 (fin 2 * fin 3) (fin 3, fin 0, fin 0)).1 := rfl
    rw [e, fin_mul, adamCell_fin _ _ _ _ _ _ le_rfl]
    refine ⟨_, ?_, rfl⟩
    have h : 0 < 0.1 * ((0.1 * (2 * 3) + 0.9 * 0) / (1 - 0.9 ^ (0 + 1))) /
        (Real.sqrt ((0.001 * (2 * 3 * (2 * 3)) + 0.999 * 0) / (1 - 0.999 ^ (0 + 1))) + 1e-8) := by
      apply div_pos
      · norm_num
      · have := Real.sqrt_nonneg ((0.001 * (2 * 3 * (2 * 3)) + 0.999 * 0) / (1 - 0.999 ^ (0 + 1)))
        have h8 : (0 : ℝ) < 1e-8 := by norm_num
        linarith
    linarith

/-! ## C105: bounded steps -/

/-- C105. As long as parameters, loss and gradients are finite, `k` updates move no parameter by more than
`7.3 · step_size · k`, however large the gradients are. -/
theorem C105_trajectory (ss : ℝ) (lg : PVec → XR × PVec) (hlen : ∀ q, (lg q).2.length = q.length) (p : PVec)
    (i : ℕ) (x : ℝ) (hx : p[i]? = some (fin x)) (k : ℕ) (hf : ∀ j < k, StepFinite (jaxAdam ss) lg p j) :
    ∃ y, (stepParams (jaxAdam ss) lg p k)[i]? = some (fin y) ∧ |y - x| ≤ 7.3 * |ss| * k := by
  obtain ⟨-, y, m, v, h, -, -, hb⟩ := adam_state hx hlen k hf
  refine ⟨y, ?_, hb⟩
  change (List.map Prod.fst _)[i]? = _
  rw [List.getElem?_map, h]; rfl

/-- C105. Each single update moves each parameter by at most `7.3 · step_size`. -/
theorem C105_step (ss : ℝ) (lg : PVec → XR × PVec) (hlen : ∀ q, (lg q).2.length = q.length) (p : PVec)
    (i : ℕ) (x : ℝ) (hx : p[i]? = some (fin x)) (k : ℕ) (hf : ∀ j < k + 1, StepFinite (jaxAdam ss) lg p j) :
    ∃ y z, (stepParams (jaxAdam ss) lg p k)[i]? = some (fin y) ∧
      (stepParams (jaxAdam ss) lg p (k + 1))[i]? = some (fin z) ∧ |z - y| ≤ 7.3 * |ss| := by
  obtain ⟨hl, y, m, v, h, hv, hm, -⟩ := adam_state hx hlen k fun j hj => hf j (by omega)
  obtain ⟨z, hz, hb⟩ := adam_next hl hlen h hv hm (List.getElem?_eq_some_iff.1 hx).1 (hf k (by omega))
  refine ⟨y, z, ?_, hz, hb⟩
  change (List.map Prod.fst _)[i]? = _
  rw [List.getElem?_map, h]; rfl

theorem adam_core_moved (ss : ℝ) (lg : PVec → XR × PVec) (hlen : ∀ q, (lg q).2.length = q.length) (f4 : XR → XR)
    (p : PVec) (n : ℕ) (tol : XR) (i : ℕ) (x ε : ℝ) (hε : 0 ≤ ε)
    (hf : ∀ y, |y - x| ≤ 7.3 * |ss| * n → ∃ y', f4 (fin y) = fin y' ∧ |y' - y| ≤ ε)
    (hx : p[i]? = some (fin x)) (r : AdamResult) (h : jax_adam_core (jaxAdam ss) lg f4 p n tol = .ok r) :
    ∃ y, r.params[i]? = some (fin y) ∧ |y - x| ≤ 7.3 * |ss| * n + ε := by
  obtain ⟨k, hk, hfin, e⟩ := core_visited _ lg f4 p n tol r h
  obtain ⟨y, hy, hb⟩ := C105_trajectory ss lg hlen p i x hx k hfin
  have hkn : (7.3 * |ss|) * k ≤ 7.3 * |ss| * n :=
    mul_le_mul_of_nonneg_left (by exact_mod_cast hk.le) (by positivity)
  rcases e with e | e
  · exact ⟨y, by rw [e]; exact hy, by linarith⟩
  · obtain ⟨y', h1, h2⟩ := hf y (by linarith)
    refine ⟨y', by rw [e, List.getElem?_map, hy, Option.map_some, h1], ?_⟩
    calc |y' - x| = |(y' - y) + (y - x)| := by ring_nf
      _ ≤ |y' - y| + |y - x| := abs_add_le _ _
      _ ≤ _ := by linarith

theorem adam_warmup_moved (ws : ℝ) (lg : PVec → XR × PVec) (hlen : ∀ q, (lg q).2.length = q.length) (f4 : XR → XR)
    (wn : ℕ) (tol : XR) (i : ℕ) (x ε B : ℝ) (hε : 0 ≤ ε)
    (hf : ∀ y, |y - x| ≤ B → ∃ y', f4 (fin y) = fin y' ∧ |y' - y| ≤ ε) :
    ∀ (nw : ℕ) (s s' : PVec × XR × Option AdamResult) (C : ℝ), C + nw * (7.3 * |ws| * wn + ε) ≤ B →
      (∃ y, s.1[i]? = some (fin y) ∧ |y - x| ≤ C) → (∀ r, s.2.2 = some r → r.params = s.1) →
      warmup_loop (jaxAdam ws) lg f4 wn tol nw s = .ok s' →
      (∃ y, s'.1[i]? = some (fin y) ∧ |y - x| ≤ C + nw * (7.3 * |ws| * wn + ε)) ∧
        ∀ r, s'.2.2 = some r → r.params = s'.1 := by
  intro nw
  induction nw with
  | zero => intro s s' C _ h1 h2 hs; cases hs; exact ⟨by simpa using h1, h2⟩
  | succ nw ih =>
    intro s s' C hB h1 h2 hs
    have hpos : 0 ≤ 7.3 * |ws| * wn + ε := by positivity
    have hpos' : 0 ≤ nw * (7.3 * |ws| * wn + ε) := by positivity
    rw [Nat.cast_succ, add_mul, one_mul] at hB ⊢
    unfold warmup_loop warmup_step at hs
    cases hc : jax_adam_core (jaxAdam ws) lg f4 s.1 wn tol with
    | error e => rw [hc] at hs; cases hs
    | ok r =>
      rw [hc] at hs
      obtain ⟨y, hy, hyb⟩ := h1
      obtain ⟨z, hz, hzb⟩ := adam_core_moved ws lg hlen f4 s.1 wn tol i y ε hε
        (fun y' hy' => hf y' (by
          have : |y' - x| ≤ |y' - y| + |y - x| := by
            calc |y' - x| = |(y' - y) + (y - x)| := by ring_nf
              _ ≤ _ := abs_add_le _ _
          linarith)) hy r hc
      have hzx : |z - x| ≤ C + (7.3 * |ws| * wn + ε) := by
        calc |z - x| = |(z - y) + (y - x)| := by ring_nf
          _ ≤ |z - y| + |y - x| := abs_add_le _ _
          _ ≤ _ := by linarith
      have := ih (r.params, r.loss, some r) s' (C + (7.3 * |ws| * wn + ε)) (by linarith) ⟨z, hz, hzx⟩
        (fun r' hr' => by cases hr'; rfl) hs
      rwa [show C + (7.3 * |ws| * wn + ε) + nw * (7.3 * |ws| * wn + ε) =
        C + (nw * (7.3 * |ws| * wn + ε) + (7.3 * |ws| * wn + ε)) by ring] at this

/-- C105. The reported parameters lie within `7.3` times the sum of all step sizes of the start, plus the error
of storing them in single precision once per round. This holds whether or not the fit diverges. `ε` bounds the
storage error over that range. -/
theorem C105_reported (lg : PVec → XR × PVec) (hlen : ∀ q, (lg q).2.length = q.length) (f4 : XR → XR) (p : PVec)
    (n nw wn : ℕ) (ss : ℝ) (ws : Option ℝ) (tol : XR) (i : ℕ) (x ε : ℝ) (hε : 0 ≤ ε)
    (hf : ∀ y, |y - x| ≤ 7.3 * |ss| * n + nw * (7.3 * |ws.getD (5 * ss)| * wn + ε) →
      ∃ y', f4 (fin y) = fin y' ∧ |y' - y| ≤ ε)
    (hx : p[i]? = some (fin x)) (r : AdamResult) (term : ℕ)
    (h : jax_adam_wrapper jaxAdam lg f4 p n nw ss wn ws tol = .ok (r, term)) :
    ∃ y, r.params[i]? = some (fin y) ∧
      |y - x| ≤ (7.3 * |ss| * n + ε) + nw * (7.3 * |ws.getD (5 * ss)| * wn + ε) := by
  have p1 : 0 ≤ 7.3 * |ss| * n := by positivity
  have p2 : 0 ≤ nw * (7.3 * |ws.getD (5 * ss)| * wn + ε) := by positivity
  unfold jax_adam_wrapper at h
  cases hw : warmup_loop (jaxAdam (ws.getD (5 * ss))) lg f4 wn tol nw (p, pinf, none) with
  | error e => simp only [hw, bind, Except.bind] at h; cases h
  | ok s' =>
    obtain ⟨⟨y, hy, hyb⟩, h3⟩ := adam_warmup_moved _ lg hlen f4 wn tol i x ε _ hε hf nw (p, pinf, none) s' 0
      (by linarith) ⟨x, hx, by simp⟩ (by intro r hr; cases hr) hw
    rw [zero_add] at hyb
    simp only [hw, bind, Except.bind] at h
    by_cases hlt : XR.lt tol s'.2.1
    · rw [if_pos hlt] at h
      generalize hq : (@ite _ (AllFin s'.1) (Classical.propDecidable _) s'.1 p) = q at h
      obtain ⟨z, hz, hzb⟩ : ∃ z, q[i]? = some (fin z) ∧ |z - x| ≤ nw * (7.3 * |ws.getD (5 * ss)| * wn + ε) := by
        rw [← hq]
        split
        · exact ⟨y, hy, hyb⟩
        · exact ⟨x, hx, by simpa using p2⟩
      cases hc : jax_adam_core (jaxAdam ss) lg f4 q n tol with
      | error e => rw [hc] at h; cases h
      | ok r' =>
        rw [hc] at h; cases h
        obtain ⟨w, hw1, hw2⟩ := adam_core_moved ss lg hlen f4 q n tol i z ε hε
          (fun y' hy' => hf y' (by
            have : |y' - x| ≤ |y' - z| + |z - x| := by
              calc |y' - x| = |(y' - z) + (z - x)| := by ring_nf
                _ ≤ _ := abs_add_le _ _
            linarith)) hz r hc
        refine ⟨w, hw1, ?_⟩
        calc |w - x| = |(w - z) + (z - x)| := by ring_nf
          _ ≤ |w - z| + |z - x| := abs_add_le _ _
          _ ≤ _ := by linarith
    · rw [if_neg hlt] at h
      cases hs : s'.2.2 with
      | none => rw [hs] at h; cases h
      | some r' =>
        rw [hs] at h; cases h
        rw [h3 _ hs]
        exact ⟨y, hy, by linarith⟩

/-- The hypotheses of C105 are met: a loss with a finite gradient everywhere, and storage without error. -/
example : (∀ q : PVec, ((fun q : PVec => (fin 1, q.map fun _ => fin 1e9)) q).2.length = q.length) ∧
    (∀ j, StepFinite (jaxAdam 0.01) (fun q : PVec => (fin 1, q.map fun _ => fin 1e9)) [fin 3, fin 5] j) ∧
    ∀ x y : ℝ, |y - x| ≤ 7.3 → ∃ y', (id : XR → XR) (fin y) = fin y' ∧ |y' - y| ≤ 0 := by
  have hlen : ∀ q : PVec, ((fun q : PVec => ((fin 1 : XR), q.map fun _ => (fin 1e9 : XR))) q).2.length = q.length :=
    fun q => List.length_map _
  refine ⟨hlen, ?_, fun x y _ => ⟨y, rfl, by simp⟩⟩
  intro j
  induction j using Nat.strong_induction_on with
  | _ j ih =>
    refine ⟨?_, trivial, ?_⟩
    · intro z hz
      obtain ⟨i, hi⟩ := List.mem_iff_getElem?.1 hz
      have hl : (stepParams (jaxAdam 0.01) (fun q : PVec => ((fin 1 : XR), q.map fun _ => (fin 1e9 : XR))) [fin 3, fin 5] j).length = 2 := by
        have := (adam_state (p := [fin 3, fin 5]) (i := 0) (x := 3) rfl hlen j ih).1
        change (List.map Prod.fst _).length = _
        rw [List.length_map, this]; rfl
      have hi2 : i < 2 := by rw [← hl]; exact (List.getElem?_eq_some_iff.1 hi).1
      obtain ⟨x, hx⟩ : ∃ x, ([fin 3, fin 5] : PVec)[i]? = some (fin x) := by
        interval_cases i
        · exact ⟨3, rfl⟩
        · exact ⟨5, rfl⟩
      obtain ⟨y, hy, -⟩ := C105_trajectory 0.01 _ hlen _ i x hx j ih
      rw [hy] at hi
      cases hi; trivial
    · intro z hz
      obtain ⟨a, -, rfl⟩ := List.mem_map.1 hz
      trivial

end Diffmah.Fit

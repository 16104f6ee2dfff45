import Verif.Lemmas.Float32Adam
import Verif.Props.Float32Grad
import Verif.Props.Optim

/-!
# Fits with Adam in single precision (C125)

Every operation of the update rule rounds to binary32 and may overflow. The theorems say that the fallback fit of
a mass history nevertheless never meets a NaN or an infinity, so that the branch of `_jax_adam_wrapper` for
non-finite numbers is not taken, and what it returns.
-/

namespace Diffmah.F32

open JOps XR Spec
open Fit

section

/-! ## One coordinate -/

/-- One coordinate of the state after `n` updates with the gradients `g 0, g 1, ...`, started at `x0`. -/
noncomputable def cellAt [Libm] (A : AdamMath) (ss : ℝ) (g : ℕ → ℝ) (x0 : ℝ) : ℕ → AdamCell32
  | 0 => (fin x0, lit 0, lit 0)
  | n + 1 => adamCell32 A ss n (fin (g n)) (cellAt A ss g x0 n)

theorem mom_zero [Libm] (k : ℕ) : Mom k (lit 0) (lit 0) := by
  rw [lit_zero]
  refine ⟨0, rfl, by rw [abs_zero]; positivity, .inr ⟨0, rfl, le_rfl, ?_⟩⟩
  have := two_zpow_pos (-130)
  rw [zero_pow (by norm_num), zero_add]; linarith

theorem cell_num [Libm] {A : AdamMath} (hA : A.Good) {k : ℕ} (hk : k ≤ 110) {ss : ℝ} (hss : |ss| ≤ 2 ^ (10 : ℕ)) (i : ℕ)
    {g a : ℝ} (hg : |g| ≤ 2 ^ k) (ha : |a| ≤ 2 ^ (100 : ℕ)) {m v : F32} (hm : Mom k m v) :
    ∃ r, (adamCell32 A ss i (fin g) (fin a, m, v)).1 = fin (round (round a - r)) ∧
      |r| ≤ 600 * |round ss| + 2 ^ (-80 : ℤ) ∧
      Mom k (adamCell32 A ss i (fin g) (fin a, m, v)).2.1 (adamCell32 A ss i (fin g) (fin a, m, v)).2.2 := by
  obtain ⟨⟨a1, e1, h1⟩, a2, e2, h2, h3⟩ := corr hA i
  have hM := mom_step (by omega) (Bd.num hg) hm
  have es : (lit ss : F32) = num (round ss) := lit_fin (hss.trans (pow_le127 (by norm_num)))
  obtain ⟨r, er, hr⟩ := quot_bd hA hk hM h1 h2 h3 (round_abs_le hss)
  refine ⟨r, ?_, hr, hM⟩
  have ex : (⟨rd (fin a)⟩ : F32) = num (round a) := by rw [rd_fin (ha.trans (pow_le127 (by norm_num)))]; rfl
  have hr' : |r| ≤ 2 ^ (100 : ℕ) := by
    refine hr.trans ?_
    have h1 := round_abs_le hss
    have h2 : (2 : ℝ) ^ (-80 : ℤ) ≤ 1 := by
      rw [show (1 : ℝ) = 2 ^ (0 : ℤ) by norm_num]; exact zpow_mono2 (by norm_num)
    have h3 : (600 * 2 ^ (10 : ℕ) + 1 : ℝ) ≤ 2 ^ (100 : ℕ) := by norm_num
    linarith
  have hsub : num (round a) - num r = num (round (round a - r)) := by
    refine sub_fin (((abs_sub _ _).trans (add_le_add (round_abs_le ha) hr')).trans ?_)
    norm_num
  unfold adamCell32
  simp only
  rw [ex, e1, e2, es]
  exact congrArg F32.v ((congrArg (num (round a) - ·) er).trans hsub)

/-- C125, step length. Whatever the gradients, as long as none exceeds `2^110`, one coordinate of Adam in single
precision stays finite for sixteen million updates, and no update moves it by more than 601 step sizes, up to the
spacing of the numbers. -/
theorem C125_step_length [Libm] (A : AdamMath) (hA : A.Good) (ss : ℝ) (hss : |ss| ≤ 2 ^ (10 : ℕ)) (g : ℕ → ℝ)
    (hg : ∀ n, |g n| ≤ 2 ^ (110 : ℕ)) (x0 : ℝ) (hx : |x0| ≤ 2 ^ (60 : ℕ)) :
    ∃ y : ℕ → ℝ, y 0 = x0 ∧ ∀ n < 2 ^ 24, (cellAt A ss g x0 n).1 = fin (y n) ∧
      (n + 1 < 2 ^ 24 → |y (n + 1) - y n| ≤ 601 * |ss| + 2 ^ (-22 : ℤ) * |y n| + 2 ^ (-70 : ℤ)) := by
  have key : ∀ n < 2 ^ 24, ∃ a, (cellAt A ss g x0 n).1 = fin a ∧ |a| ≤ ((n + 1 : ℕ) : ℝ) * 2 ^ (60 : ℕ) ∧
      Mom 110 (cellAt A ss g x0 n).2.1 (cellAt A ss g x0 n).2.2 := by
    intro n
    induction n with
    | zero => exact fun _ => ⟨x0, rfl, by simpa using hx, mom_zero 110⟩
    | succ n ih =>
      intro hn
      obtain ⟨a, e1, h1, h2⟩ := ih (by omega)
      have h100 : |a| ≤ 2 ^ (100 : ℕ) := by
        refine h1.trans ?_
        have : ((n + 1 : ℕ) : ℝ) ≤ 2 ^ (24 : ℕ) := by exact_mod_cast hn.le
        calc ((n + 1 : ℕ) : ℝ) * 2 ^ (60 : ℕ) ≤ 2 ^ (24 : ℕ) * 2 ^ (60 : ℕ) := mul_le_mul_of_nonneg_right this (by positivity)
          _ ≤ 2 ^ (100 : ℕ) := by norm_num
      have ec : cellAt A ss g x0 n = (fin a, (cellAt A ss g x0 n).2.1, (cellAt A ss g x0 n).2.2) := by
        rw [← e1]
      obtain ⟨r, e2, h3, h4⟩ := cell_num hA le_rfl hss n (hg n) h100 h2
      rw [← ec] at e2 h4
      refine ⟨_, e2, ?_, h4⟩
      apply round_abs_le_rep (rep_mul_pow (by omega) 60)
      have hr : |r| ≤ 2 ^ (60 : ℕ) := by
        refine h3.trans ?_
        have h1 := round_abs_le hss
        have h2 : (2 : ℝ) ^ (-80 : ℤ) ≤ 1 := by
          rw [show (1 : ℝ) = 2 ^ (0 : ℤ) by norm_num]; exact zpow_mono2 (by norm_num)
        have h3 : (600 * 2 ^ (10 : ℕ) + 1 : ℝ) ≤ 2 ^ (60 : ℕ) := by norm_num
        linarith
      have hr2 := round_abs_le_rep (rep_mul_pow (m := n + 1) (by omega) 60) h1
      refine (abs_sub _ _).trans ((add_le_add hr2 hr).trans (le_of_eq ?_))
      push_cast; ring
  refine ⟨fun n => match (cellAt A ss g x0 n).1 with | fin a => a | _ => 0, rfl, ?_⟩
  intro n hn
  obtain ⟨a, e1, h1, h2⟩ := key n hn
  refine ⟨by simp only [e1], fun hn' => ?_⟩
  have h100 : |a| ≤ 2 ^ (100 : ℕ) := by
    refine h1.trans ?_
    have : ((n + 1 : ℕ) : ℝ) ≤ 2 ^ (24 : ℕ) := by exact_mod_cast hn
    calc ((n + 1 : ℕ) : ℝ) * 2 ^ (60 : ℕ) ≤ 2 ^ (24 : ℕ) * 2 ^ (60 : ℕ) := mul_le_mul_of_nonneg_right this (by positivity)
      _ ≤ 2 ^ (100 : ℕ) := by norm_num
  have ec : cellAt A ss g x0 n = (fin a, (cellAt A ss g x0 n).2.1, (cellAt A ss g x0 n).2.2) := by
    rw [← e1]
  obtain ⟨r, e2, h3, -⟩ := cell_num hA le_rfl hss n (hg n) h100 h2
  rw [← ec] at e2
  have e2' : (cellAt A ss g x0 (n + 1)).1 = fin (round (round a - r)) := e2
  simp only [e1, e2']
  have r1 := round_rel a
  have r2 := round_rel (round a - r)
  have r3 := round_up a
  have r4 := round_up ss
  have t1 : |round (round a - r) - a| ≤ |round (round a - r) - (round a - r)| + |round a - a| + |r| := by
    have e : round (round a - r) - a = (round (round a - r) - (round a - r)) + (round a - a) + (-r) := by ring
    rw [e]
    refine (abs_add_le _ _).trans ?_
    rw [abs_neg]
    exact add_le_add_left (abs_add_le _ _) _
  have t2 := abs_sub (round a) r
  have z22 : (2 : ℝ) ^ (-22 : ℤ) = 4 * 2 ^ (-24 : ℤ) := by
    rw [show (-22 : ℤ) = 2 + -24 by norm_num, zpow_add₀ (by norm_num)]; norm_num
  have z70 : (2 : ℝ) ^ (-70 : ℤ) = 1024 * 2 ^ (-80 : ℤ) := by
    rw [show (-70 : ℤ) = 10 + -80 by norm_num, zpow_add₀ (by norm_num)]; norm_num
  have z150 : (2 : ℝ) ^ (-150 : ℤ) ≤ 0.0001 * 2 ^ (-80 : ℤ) := by
    rw [show (-150 : ℤ) = -70 + -80 by norm_num, zpow_add₀ (by norm_num)]
    refine mul_le_mul_of_nonneg_right ?_ (two_zpow_pos _).le
    exact le_trans (zpow_mono2 (show (-70 : ℤ) ≤ -20 by norm_num)) (by norm_num)
  have z24 : (2 : ℝ) ^ (-24 : ℤ) ≤ 0.0000001 := by norm_num
  have p24 := two_zpow_pos (-24)
  have p80 := two_zpow_pos (-80)
  have p150 := two_zpow_pos (-150)
  rw [z22, z70]
  generalize (2 : ℝ) ^ (-24 : ℤ) = ε at *
  generalize (2 : ℝ) ^ (-80 : ℤ) = δ at *
  generalize (2 : ℝ) ^ (-150 : ℤ) = z at *
  have a0 := abs_nonneg a
  have s0 := abs_nonneg ss
  have w1 : ε * |ss| ≤ 0.0000001 * |ss| := mul_le_mul_of_nonneg_right z24 s0
  have w2 : |r| ≤ 600.001 * |ss| + 2 * δ := by nlinarith
  have w3 : ε * |round a - r| ≤ ε * ((1 + ε) * |a| + z + (600.001 * |ss| + 2 * δ)) :=
    mul_le_mul_of_nonneg_left (by linarith) p24.le
  have w4 : ε * (ε * |a|) ≤ ε * (1 * |a|) :=
    mul_le_mul_of_nonneg_left (mul_le_mul_of_nonneg_right (by linarith) a0) p24.le
  have w5 : ε * (z + (600.001 * |ss| + 2 * δ)) ≤ 0.0000001 * (z + (600.001 * |ss| + 2 * δ)) :=
    mul_le_mul_of_nonneg_right z24 (by positivity)
  have w6 : ε * ((1 + ε) * |a| + z + (600.001 * |ss| + 2 * δ)) =
      ε * |a| + ε * (ε * |a|) + ε * (z + (600.001 * |ss| + 2 * δ)) := by ring
  have w7 : 0 ≤ ε * |a| := by positivity
  linarith

/-! ## The fit -/

/-- What the theorems about the loop assume of a loss: at every finite point it is finite and not negative, its
gradient is finite and not above `2^k`, and it looks at the point in single precision. -/
structure GoodLoss (L k : ℕ) (lg : PVec → XR × PVec) : Prop where
  loss : ∀ p : PVec, p.length = L → AllFin p → ∃ y, (lg p).1 = fin y ∧ 0 ≤ y
  len : ∀ p : PVec, p.length = L → (lg p).2.length = L
  grad : ∀ p : PVec, p.length = L → AllFin p → ∀ x ∈ (lg p).2, ∃ r, x = fin r ∧ |r| ≤ 2 ^ k
  single : ∀ p : PVec, lg (p.map rd) = lg p

/-- `p` has `L` finite coordinates, none above `N 2^60`. -/
def InBox (L N : ℕ) (p : PVec) : Prop := p.length = L ∧ ∀ x ∈ p, ∃ a, x = fin a ∧ |a| ≤ (N : ℝ) * 2 ^ (60 : ℕ)

theorem InBox.fin {L N : ℕ} {p : PVec} (h : InBox L N p) : AllFin p := by
  intro x hx
  obtain ⟨a, rfl, -⟩ := h.2 x hx
  trivial

theorem InBox.mono {L N M : ℕ} {p : PVec} (h : InBox L N p) (hM : N ≤ M) : InBox L M p := by
  refine ⟨h.1, fun x hx => ?_⟩
  obtain ⟨a, e, ha⟩ := h.2 x hx
  exact ⟨a, e, ha.trans (mul_le_mul_of_nonneg_right (by exact_mod_cast hM) (by positivity))⟩

theorem box_le {N : ℕ} (hN : N ≤ 2 ^ 24) {a : ℝ} (h : |a| ≤ (N : ℝ) * 2 ^ (60 : ℕ)) : |a| ≤ 2 ^ (100 : ℕ) := by
  refine h.trans ?_
  have : (N : ℝ) ≤ 2 ^ (24 : ℕ) := by exact_mod_cast hN
  calc (N : ℝ) * 2 ^ (60 : ℕ) ≤ 2 ^ (24 : ℕ) * 2 ^ (60 : ℕ) := mul_le_mul_of_nonneg_right this (by positivity)
    _ ≤ 2 ^ (100 : ℕ) := by norm_num

theorem InBox.rd {L N : ℕ} {p : PVec} (h : InBox L N p) (hN : N ≤ 2 ^ 24) : InBox L N (p.map rd) := by
  refine ⟨by rw [List.length_map, h.1], fun x hx => ?_⟩
  obtain ⟨y, hy, rfl⟩ := List.mem_map.1 hx
  obtain ⟨a, rfl, ha⟩ := h.2 y hy
  exact ⟨_, rd_fin ((box_le hN ha).trans (pow_le127 (by norm_num))), round_abs_le_rep (rep_mul_pow hN 60) ha⟩

/-- A coordinate in the box, with moments in proportion. -/
def CellOk (k N : ℕ) (s : AdamCell32) : Prop :=
  (∃ a, s.1 = fin a ∧ |a| ≤ (N : ℝ) * 2 ^ (60 : ℕ)) ∧ Mom k s.2.1 s.2.2

theorem cell_ok [Libm] {A : AdamMath} (hA : A.Good) {k : ℕ} (hk : k ≤ 110) {ss : ℝ} (hss : |ss| ≤ 2 ^ (10 : ℕ)) (i : ℕ)
    {g : ℝ} (hg : |g| ≤ 2 ^ k) {N : ℕ} (hN : N + 1 ≤ 2 ^ 24) {s : AdamCell32} (h : CellOk k N s) :
    CellOk k (N + 1) (adamCell32 A ss i (fin g) s) := by
  obtain ⟨x, m, v⟩ := s
  obtain ⟨⟨a, ea, ha⟩, hm⟩ := h
  simp only at ea
  subst ea
  obtain ⟨r, e, hr, h2⟩ := cell_num hA hk hss i hg (box_le (by omega) ha) hm
  refine ⟨⟨_, e, ?_⟩, h2⟩
  apply round_abs_le_rep (rep_mul_pow hN 60)
  have hr' : |r| ≤ 2 ^ (60 : ℕ) := by
    refine hr.trans ?_
    have h1 := round_abs_le hss
    have h2 : (2 : ℝ) ^ (-80 : ℤ) ≤ 1 := by
      rw [show (1 : ℝ) = 2 ^ (0 : ℤ) by norm_num]; exact zpow_mono2 (by norm_num)
    have h3 : (600 * 2 ^ (10 : ℕ) + 1 : ℝ) ≤ 2 ^ (60 : ℕ) := by norm_num
    linarith
  refine (abs_sub _ _).trans ((add_le_add (round_abs_le_rep (rep_mul_pow (by omega) 60) ha) hr').trans (le_of_eq ?_))
  push_cast; ring

variable {lg : PVec → XR × PVec} {p : PVec}

theorem state_ok [Libm] {A : AdamMath} (hA : A.Good) {L k : ℕ} (hk : k ≤ 110) {ss : ℝ} (hss : |ss| ≤ 2 ^ (10 : ℕ))
    (hlg : GoodLoss L k lg) {N : ℕ} (hp : InBox L N p) (j : ℕ) (hj : N + j ≤ 2 ^ 24) :
    (optState (jaxAdam32 A ss) lg p j).length = L ∧ ∀ s ∈ optState (jaxAdam32 A ss) lg p j, CellOk k (N + j) s := by
  induction j with
  | zero =>
    refine ⟨by simp [optState, jaxAdam32, hp.1], fun s hs => ?_⟩
    obtain ⟨x, hx, rfl⟩ := List.mem_map.1 hs
    exact ⟨hp.2 x hx, mom_zero k⟩
  | succ j ih =>
    obtain ⟨h1, h2⟩ := ih (by omega)
    have hb : ((jaxAdam32 A ss).get (optState (jaxAdam32 A ss) lg p j)).length = L := by
      change (List.map Prod.fst _).length = _
      rw [List.length_map, h1]
    have hf : AllFin ((jaxAdam32 A ss).get (optState (jaxAdam32 A ss) lg p j)) := by
      intro x hx
      obtain ⟨s, hs, rfl⟩ := List.mem_map.1 hx
      obtain ⟨⟨a, e, -⟩, -⟩ := h2 s hs
      rw [e]; trivial
    change (List.zipWith (adamCell32 A ss j) _ _).length = _ ∧ ∀ s ∈ List.zipWith (adamCell32 A ss j) _ _, _
    refine ⟨by rw [List.length_zipWith, hlg.len _ hb, h1, min_self], fun s hs => ?_⟩
    rw [← List.map_uncurry_zip_eq_zipWith] at hs
    obtain ⟨⟨g, c⟩, hm, rfl⟩ := List.mem_map.1 hs
    obtain ⟨m1, m2⟩ := List.of_mem_zip hm
    obtain ⟨r, rfl, hr⟩ := hlg.grad _ hb hf g m1
    exact cell_ok hA hk hss j hr (by omega) (h2 c m2)

theorem params_ok [Libm] {A : AdamMath} (hA : A.Good) {L k : ℕ} (hk : k ≤ 110) {ss : ℝ} (hss : |ss| ≤ 2 ^ (10 : ℕ))
    (hlg : GoodLoss L k lg) {N : ℕ} (hp : InBox L N p) (j : ℕ) (hj : N + j ≤ 2 ^ 24) :
    InBox L (N + j) (stepParams (jaxAdam32 A ss) lg p j) := by
  obtain ⟨h1, h2⟩ := state_ok hA hk hss hlg hp j hj
  refine ⟨?_, fun x hx => ?_⟩
  · change (List.map Prod.fst _).length = _
    rw [List.length_map, h1]
  · obtain ⟨s, hs, rfl⟩ := List.mem_map.1 hx
    exact (h2 s hs).1

theorem step_finite [Libm] {A : AdamMath} (hA : A.Good) {L k : ℕ} (hk : k ≤ 110) {ss : ℝ} (hss : |ss| ≤ 2 ^ (10 : ℕ))
    (hlg : GoodLoss L k lg) {N : ℕ} (hp : InBox L N p) (j : ℕ) (hj : N + j ≤ 2 ^ 24) :
    StepFinite (jaxAdam32 A ss) lg p j ∧ ∃ y, stepLoss (jaxAdam32 A ss) lg p j = fin y ∧ 0 ≤ y := by
  have h := params_ok hA hk hss hlg hp j hj
  obtain ⟨y, e, hy⟩ := hlg.loss _ h.1 h.fin
  refine ⟨⟨h.fin, ?_, fun x hx => ?_⟩, y, e, hy⟩
  · unfold stepLoss; rw [e]; trivial
  · obtain ⟨r, rfl, -⟩ := hlg.grad _ h.1 h.fin x hx
    trivial

theorem stepLoss_zero [Libm] (A : AdamMath) (ss : ℝ) : stepLoss (jaxAdam32 A ss) lg p 0 = (lg p).1 := by
  have : (jaxAdam32 A ss).get ((jaxAdam32 A ss).init p) = p := by simp [jaxAdam32, Function.comp_def]
  unfold stepLoss stepParams optState
  rw [this]

/-- One call of `_jax_adam_wrapper` with the default tolerance. -/
theorem core_ok [Libm] {A : AdamMath} (hA : A.Good) {L k : ℕ} (hk : k ≤ 110) {ss : ℝ} (hss : |ss| ≤ 2 ^ (10 : ℕ))
    (hlg : GoodLoss L k lg) {N n : ℕ} (hp : InBox L N p) (hn : 1 ≤ n) (hN : N + n ≤ 2 ^ 24) :
    ∃ r, jax_adam_core (jaxAdam32 A ss) lg rd p n (fin 0) = .ok r ∧ InBox L (N + n) r.params ∧
      r.loss = (lg r.params).1 ∧ (∃ y, r.loss = fin y ∧ 0 ≤ y) ∧ XR.le r.loss (lg p).1 ∧ r.loss_arr.length = n ∧
      (∀ l ∈ r.loss_arr, IsFin l) ∧ r.params_arr.length = n := by
  have hrun : ∀ j < n, Running (jaxAdam32 A ss) lg p (fin 0) j := by
    intro j hj
    obtain ⟨h1, y, e, hy⟩ := step_finite hA hk hss hlg hp j (by omega)
    refine ⟨h1, ?_⟩
    rw [e]
    exact not_lt.2 hy
  obtain ⟨i, hi, e⟩ := core_full (jaxAdam32 A ss) lg rd p (fin 0) n (by omega) hrun
  have hin := hi.1
  refine ⟨_, e, ?_, ?_, ?_, ?_, by simp, ?_, by simp⟩
  · exact ((params_ok hA hk hss hlg hp i (by omega)).rd (by omega)).mono (by omega)
  · simp only [hlg.single]; rfl
  · exact (step_finite hA hk hss hlg hp i (by omega)).2
  · have := hi.2.1 0 (by omega)
    rwa [stepLoss_zero] at this
  · intro l hl
    obtain ⟨j, hj, rfl⟩ := List.mem_map.1 hl
    exact (hrun j (List.mem_range.1 hj)).1.2.1

/-- C125, the loop. A fit with Adam in single precision never meets a NaN or an infinity, whatever it starts from
and however its step sizes are chosen, if its loss and gradient are finite at finite points: with any number of
warm-up rounds it returns finite parameters, the loss of exactly these, not above the loss at the start, and reports
success, unless a warm-up round ended with a loss of exactly zero. -/
theorem C125_adam_succeeds [Libm] (A : AdamMath) (hA : A.Good) (L k : ℕ) (hk : k ≤ 110) (lg : PVec → XR × PVec)
    (hlg : GoodLoss L k lg) (p : PVec) (hp : p.length = L) (hb : ∀ x ∈ p, ∃ a, x = fin a ∧ |a| ≤ 2 ^ (60 : ℕ))
    (n nw wn : ℕ) (ss ws : ℝ) (hss : |ss| ≤ 2 ^ (10 : ℕ)) (hws : |ws| ≤ 2 ^ (10 : ℕ)) (hn : 1 ≤ n) (hwn : 1 ≤ wn)
    (htot : 1 + nw * wn + n ≤ 2 ^ 24) :
    ∃ r term, jax_adam_wrapper (jaxAdam32 A) lg rd p n nw ss wn (some ws) (fin 0) = .ok (r, term) ∧
      r.params.length = L ∧ AllFin r.params ∧ r.loss = (lg r.params).1 ∧ XR.le r.loss (lg p).1 ∧
      (∀ l ∈ r.loss_arr, IsFin l) ∧ ((term = 1 ∧ r.loss_arr.length = n) ∨ (nw ≠ 0 ∧ r.loss = fin 0)) := by
  have hbox : InBox L 1 p := ⟨hp, fun x hx => by simpa using hb x hx⟩
  obtain ⟨y0, e0, hy0⟩ := hlg.loss p hp hbox.fin
  -- the warm-up
  have hwarm : ∀ (m N : ℕ) (s : PVec × XR × Option AdamResult), N + m * wn ≤ 2 ^ 24 → InBox L N s.1 →
      XR.le (lg s.1).1 (lg p).1 → ((s.2.1 = pinf ∧ s.2.2 = none) ∨ ∃ r, s.2.2 = some r ∧ s.2.1 = r.loss ∧
        s.1 = r.params ∧ r.loss = (lg r.params).1 ∧ ∀ l ∈ r.loss_arr, IsFin l) →
      ∃ s', warmup_loop (jaxAdam32 A ws) lg rd wn (fin 0) m s = .ok s' ∧ InBox L (N + m * wn) s'.1 ∧
        XR.le (lg s'.1).1 (lg p).1 ∧ ((m = 0 ∧ s' = s) ∨ ∃ r, s'.2.2 = some r ∧ s'.2.1 = r.loss ∧ s'.1 = r.params ∧
          r.loss = (lg r.params).1 ∧ ∀ l ∈ r.loss_arr, IsFin l) := by
    intro m
    induction m with
    | zero => exact fun N s _ h1 h2 _ => ⟨s, rfl, by simpa using h1, h2, .inl ⟨rfl, rfl⟩⟩
    | succ m ih =>
      intro N s hN h1 h2 h3
      have hmw : (m + 1) * wn = wn + m * wn := by ring
      rw [hmw] at hN
      obtain ⟨r, e, r1, r2, ⟨y, r3, -⟩, r4, -, r5, -⟩ := core_ok hA hk hws hlg h1 hwn (by omega)
      have hle : XR.le (lg r.params).1 (lg p).1 := by
        obtain ⟨y1, e1, -⟩ := hlg.loss s.1 h1.1 h1.fin
        rw [← r2, r3, e0]
        rw [r3, e1] at r4
        rw [e1, e0] at h2
        exact le_trans (show y ≤ y1 from r4) (show y1 ≤ y0 from h2)
      obtain ⟨s', e', g1, g2, g3⟩ := ih (N + wn) (r.params, r.loss, some r) (by omega) r1 hle
        (.inr ⟨r, rfl, rfl, rfl, r2, r5⟩)
      refine ⟨s', ?_, ?_, g2, .inr ?_⟩
      · unfold warmup_loop warmup_step
        rw [e]; exact e'
      · rw [hmw, ← add_assoc]; exact g1
      · rcases g3 with ⟨-, rfl⟩ | g3
        · exact ⟨r, rfl, rfl, rfl, r2, r5⟩
        · exact g3
  obtain ⟨s, es, s1, s2, s3⟩ := hwarm nw 1 (p, pinf, none) (by omega) hbox
    (by rw [e0]; exact le_refl y0) (.inl ⟨rfl, rfl⟩)
  obtain ⟨q, l, res⟩ := s
  simp only at s1 s2 s3
  obtain ⟨y1, e1, hy1⟩ := hlg.loss q s1.1 s1.fin
  obtain ⟨r, er, r1, r2, ⟨y, r3, -⟩, r4, r5, r6, -⟩ := core_ok hA hk hss hlg s1 hn (by omega)
  have hrun : XR.lt (fin 0) l → jax_adam_wrapper (jaxAdam32 A) lg rd p n nw ss wn (some ws) (fin 0) = .ok (r, 1) := by
    intro hl
    unfold jax_adam_wrapper
    simp only [Option.getD_some, es, bind, Except.bind]
    rw [if_pos hl, if_pos s1.fin, er]
    simp only [Except.map, r5, lt_irrefl, if_false]; rfl
  have hle : XR.le r.loss (lg p).1 := by
    rw [r3, e1] at r4
    rw [e1, e0] at s2
    rw [r3, e0]
    exact le_trans (show y ≤ y1 from r4) (show y1 ≤ y0 from s2)
  rcases s3 with ⟨rfl, hs⟩ | ⟨r', h1, h2, h3, h4, h5⟩
  · cases hs
    exact ⟨r, 1, hrun trivial, r1.1, r1.fin, r2, hle, r6, .inl ⟨rfl, r5⟩⟩
  · have hl : l = fin y1 := by rw [h2, h4, ← h3, e1]
    rcases hy1.eq_or_lt with h0 | h0
    · -- the warm-up fitted exactly
      rcases Nat.eq_zero_or_pos nw with rfl | hnw
      · cases es
        cases hl
      refine ⟨r', if r'.loss_arr.length < n then 0 else 1, ?_, ?_, ?_, h4, ?_, h5, .inr ⟨by omega, ?_⟩⟩
      · unfold jax_adam_wrapper
        simp only [Option.getD_some, es, bind, Except.bind]
        rw [if_neg (by rw [hl, ← h0]; exact lt_irrefl _)]
        simp only [h1]; rfl
      · rw [← h3]; exact s1.1
      · rw [← h3]; exact s1.fin
      · rw [h4, ← h3]; exact s2
      · rw [← h2, hl, h0]
    · refine ⟨r, 1, hrun (by rw [hl]; exact h0), r1.1, r1.fin, r2, hle, r6, .inl ⟨rfl, r5⟩⟩

/-! ## Mass histories -/

theorem rd_fin_ne_nan (a : ℝ) : rd (fin a) ≠ nan := rd_ne_nan (fun h => by cases h)

theorem fit_good [Libm] (hs : Libm.Sane) (ha : Libm.Accurate) (sum : List F32 → F32) (hsum : ∀ l, SumOf l (sum l))
    (utp : F32) (h5 : utp.v ≠ nan) (ts ms : List ℝ) (lgt0 : ℝ) (hd : GoodTarget ts ms lgt0) :
    GoodLoss 4 109 (fit_lg32 sum (lossData ts ms utp lgt0)) := by
  have four : ∀ p : PVec, p.length = 4 → ∃ a b c d, p = [a, b, c, d] := by
    intro p hp
    match p, hp with
    | [a, b, c, d], _ => exact ⟨a, b, c, d, rfl⟩
  have nn : ∀ x : XR, IsFin x → rd x ≠ nan := by
    intro x hx
    obtain ⟨a, rfl⟩ := isFin_iff.1 hx
    exact rd_fin_ne_nan a
  refine ⟨?_, ?_, ?_, ?_⟩
  · intro p hp hf
    obtain ⟨a, b, c, d, rfl⟩ := four p hp
    obtain ⟨y, e, hy⟩ := C123_loss_finite hs ha sum hsum ⟨⟨rd a⟩, ⟨rd b⟩, ⟨rd c⟩, ⟨rd d⟩⟩ utp
      (nn a (hf a (by simp))) (nn b (hf b (by simp))) (nn c (hf c (by simp))) (nn d (hf d (by simp))) h5 ts ms lgt0 hd
    exact ⟨y, congrArg F32.v e, hy⟩
  · intro p hp
    obtain ⟨a, b, c, d, rfl⟩ := four p hp
    rfl
  · intro p hp hf
    obtain ⟨a, b, c, d, rfl⟩ := four p hp
    have n1 := nn a (hf a (by simp))
    have n2 := nn b (hf b (by simp))
    have n3 := nn c (hf c (by simp))
    have n4 := nn d (hf d (by simp))
    obtain ⟨x, y, z, w, bx, by', bz, bw, e⟩ := grad_parts hs ha sum hsum ⟨⟨rd a⟩, ⟨rd b⟩, ⟨rd c⟩, ⟨rd d⟩⟩ utp n1 n2 n3 n4 h5
      ts ms lgt0 hd
    have ea := bounded_bwd_bd hs n1 (u := ⟨rd a⟩) (b := MAH_PBOUNDS.logm0) bx
      (by simp only [MAH_PBOUNDS]; norm_num [abs_le]) (by simp only [MAH_PBOUNDS]; norm_num [abs_le]) (by norm_num)
    have eb := bounded_bwd_bd hs n2 (u := ⟨rd b⟩) (b := MAH_PBOUNDS.logtc) by'
      (by simp only [MAH_PBOUNDS]; norm_num [abs_le]) (by simp only [MAH_PBOUNDS]; norm_num [abs_le]) (by norm_num)
    have ec := logistic_bwd_bd hs (early_arg (u := ⟨rd c⟩) n3) bz bdK (by norm_num)
    have ed := bounded_bwd_bd hs n4 (u := ⟨rd d⟩) (b := MAH_PBOUNDS.late_index) bw
      (by simp only [MAH_PBOUNDS]; norm_num [abs_le]) (by simp only [MAH_PBOUNDS]; norm_num [abs_le]) (by norm_num)
    have fin' : ∀ {q : F32} {n : ℕ}, Bd q n → n ≤ 109 → ∃ r, q.v = fin r ∧ |r| ≤ 2 ^ (109 : ℕ) := by
      rintro q n ⟨r, rfl, hr⟩ hn
      exact ⟨r, rfl, hr.trans (pow_le_pow_right₀ (by norm_num) hn)⟩
    intro v hv
    unfold fit_lg32 at hv
    simp only [e, List.mem_cons, List.not_mem_nil, or_false] at hv
    rcases hv with rfl | rfl | rfl | rfl
    · exact fin' ea (by norm_num)
    · exact fin' eb (by norm_num)
    · exact fin' ec (by norm_num)
    · exact fin' ed (by norm_num)
  · intro p
    match p with
    | [a, b, c, d] => simp only [List.map_cons, List.map_nil, fit_lg32, rd_idem]
    | [] => rfl
    | [_] => rfl
    | [_, _] => rfl
    | [_, _, _] => rfl
    | _ :: _ :: _ :: _ :: _ :: _ => rfl

theorem wrapper_default [Libm] (A : AdamMath) (lg : PVec → XR × PVec) (p : PVec) (n nw : ℕ) :
    jax_adam_wrapper (jaxAdam32 A) lg rd p n nw =
      jax_adam_wrapper (jaxAdam32 A) lg rd p n nw 0.01 50 (some (5 * 0.01)) (fin 0) := by
  have z : (fin 0.0 : XR) = fin 0 := congrArg XR.fin (by norm_num)
  change jax_adam_wrapper (jaxAdam32 A) lg rd p n nw 0.01 50 none (fin 0.0) = _
  rw [z]
  rfl

/-- C125. The fallback fit of a mass history in single precision cannot break down. Whatever L-BFGS returned, and
from whatever finite point the fit starts, if Adam is used at all, the result has four finite parameters, the
reported loss is the loss of exactly these parameters and not above the loss at the start, and the fit is flagged
as terminated unless the loss is exactly zero. -/
theorem C125_fallback_succeeds [Libm] (hs : Libm.Sane) (ha : Libm.Accurate) (A : AdamMath) (hA : A.Good)
    (sum : List F32 → F32) (hsum : ∀ l, SumOf l (sum l)) (utp : F32) (h5 : utp.v ≠ nan) (ts ms : List ℝ) (lgt0 : ℝ)
    (hd : GoodTarget ts ms lgt0) (lbfgs : (PVec → XR × PVec) → PVec → LbfgsResult) (a b c d : ℝ)
    (hp : ∀ x ∈ [a, b, c, d], |x| ≤ 2 ^ (60 : ℕ)) (nstep n_warmup : ℕ) (hn : 1 ≤ nstep)
    (htot : 1 + n_warmup * 50 + nstep ≤ 2 ^ 24) :
    ∃ res, bfgs_adam_fallback lbfgs (jaxAdam32 A) rd (fit_lg32 sum (lossData ts ms utp lgt0)) [fin a, fin b, fin c, fin d]
        nstep n_warmup = .ok res ∧
      (res.code_used = 0 ∨ (res.code_used = 1 ∧ ∃ a' b' c' d' y y0 : ℝ,
        res.p_best = [fin a', fin b', fin c', fin d'] ∧ res.loss_best = fin y ∧ 0 ≤ y ∧
        (log_mah_loss_with sum ⟨⟨rd (fin a')⟩, ⟨rd (fin b')⟩, ⟨rd (fin c')⟩, ⟨rd (fin d')⟩⟩
          (lossData ts ms utp lgt0)) = num y ∧
        (log_mah_loss_with sum ⟨⟨rd (fin a)⟩, ⟨rd (fin b)⟩, ⟨rd (fin c)⟩, ⟨rd (fin d)⟩⟩ (lossData ts ms utp lgt0)) = num y0 ∧
        y ≤ y0 ∧ (res.fit_terminates = true ∨ y = 0))) := by
  have hlg := fit_good hs ha sum hsum utp h5 ts ms lgt0 hd
  have hb : ∀ x ∈ [fin a, fin b, fin c, fin d], ∃ r, x = fin r ∧ |r| ≤ 2 ^ (60 : ℕ) := by
    intro x hx
    simp only [List.mem_cons, List.not_mem_nil, or_false] at hx
    rcases hx with rfl | rfl | rfl | rfl
    · exact ⟨a, rfl, hp a (by simp)⟩
    · exact ⟨b, rfl, hp b (by simp)⟩
    · exact ⟨c, rfl, hp c (by simp)⟩
    · exact ⟨d, rfl, hp d (by simp)⟩
  obtain ⟨r, term, e, r1, r2, r3, r4, -, r5⟩ := C125_adam_succeeds A hA 4 109 (by norm_num) _ hlg
    [fin a, fin b, fin c, fin d] rfl hb nstep n_warmup 50 0.01 (5 * 0.01) (by norm_num [abs_le]) (by norm_num [abs_le]) hn
    (by norm_num) htot
  rw [← wrapper_default] at e
  unfold bfgs_adam_fallback
  simp only
  split
  · exact ⟨_, rfl, .inl rfl⟩
  · rw [e]
    refine ⟨_, rfl, .inr ⟨rfl, ?_⟩⟩
    obtain ⟨a', b', c', d', hpar⟩ : ∃ a' b' c' d' : ℝ, r.params = [fin a', fin b', fin c', fin d'] := by
      match hq : r.params, r1 with
      | [x, y, z, w], _ =>
        rw [hq] at r2
        obtain ⟨a', rfl⟩ := isFin_iff.1 (r2 x (by simp))
        obtain ⟨b', rfl⟩ := isFin_iff.1 (r2 y (by simp))
        obtain ⟨c', rfl⟩ := isFin_iff.1 (r2 z (by simp))
        obtain ⟨d', rfl⟩ := isFin_iff.1 (r2 w (by simp))
        exact ⟨a', b', c', d', rfl⟩
    obtain ⟨y, ey, hy⟩ := hlg.loss r.params r1 r2
    obtain ⟨y0, ey0, -⟩ := hlg.loss [fin a, fin b, fin c, fin d] rfl
      (fun x hx => by obtain ⟨r, rfl, -⟩ := hb x hx; trivial)
    rw [r3, ey, ey0] at r4
    rw [r3, ey] at r5
    refine ⟨a', b', c', d', y, y0, hpar, r3.trans ey, hy, ?_, ?_, r4, ?_⟩
    · rw [hpar] at ey
      exact F32.ext ey
    · exact F32.ext ey0
    · rcases r5 with ⟨rfl, -⟩ | ⟨-, h⟩
      · exact .inl rfl
      · exact .inr (XR.fin.inj h)

/-! ## Points that are never left -/

theorem cell_zero [Libm] {A : AdamMath} (hA : A.Good) {ss : ℝ} (hss : |ss| ≤ 2 ^ (10 : ℕ)) (i : ℕ) (a : ℝ)
    (ha : |a| ≤ 2 ^ (100 : ℕ)) :
    adamCell32 A ss i (fin 0) (fin a, num 0, num 0) = (fin (round a), num 0, num 0) := by
  obtain ⟨⟨a1, e1, h1⟩, a2, e2, h2, -⟩ := corr hA i
  have zz : ∀ {x : F32} {n : ℕ}, Bd x n → x * num 0 = num 0 := fun h => mul_zero_bd h
  have z1 : (lit (1 - 0.9) : F32) * num 0 + lit 0.9 * num 0 = num 0 := by
    rw [c1_lit, b1_lit, zz (n := 1) (Bd.num (by norm_num)), zz (n := 1) (Bd.num (by norm_num))]
    refine (add_fin (by norm_num)).trans ?_
    rw [add_zero, round_zero]; rfl
  have z2 : (lit (1 - 0.999) : F32) * (num 0 * num 0) + lit 0.999 * num 0 = num 0 := by
    obtain ⟨c, ec, c1, c2⟩ := c2_lit
    obtain ⟨b, eb, b1, b2⟩ := b2_lit
    rw [ec, eb, zz (n := 0) (Bd.num (by norm_num)), zz (n := 1) (Bd.num (by norm_num [abs_le]; constructor <;> linarith)),
      zz (n := 1) (Bd.num (by norm_num [abs_le]; constructor <;> linarith))]
    refine (add_fin (by norm_num)).trans ?_
    rw [add_zero, round_zero]; rfl
  have dz : ∀ {b : ℝ}, b ≠ 0 → num 0 / num b = num 0 := by
    intro b hb
    rw [div_fin hb (by rw [zero_div, abs_zero]; positivity), zero_div, round_zero]
  have es : (lit ss : F32) = num (round ss) := lit_fin (hss.trans (pow_le127 (by norm_num)))
  obtain ⟨y, ey, y0, y1, -⟩ := hA.sqrt_fin 0 le_rfl
  have hy : y = 0 := by rw [Real.sqrt_zero] at y1; linarith
  have ey' : (⟨A.sqrt (num 0).v⟩ : F32) = num 0 := by rw [← hy]; exact congrArg F32.mk (hy ▸ ey)
  have e8 : (lit 1e-8 : F32) = num (round 1e-8) := lit_fin (by rw [abs_of_pos (by norm_num)]; norm_num)
  have r8 : 2 ^ (-27 : ℤ) ≤ round 1e-8 := le_round (by norm_num) (rep_zpow (by norm_num))
  have r8' : round 1e-8 ≤ 1 := round_le (by norm_num) (by simpa using rep_nat 1 (by norm_num))
  have p8 : 0 < round 1e-8 := (two_zpow_pos _).trans_le r8
  have s8 : num 0 + num (round 1e-8) = num (round 1e-8) := by
    refine (add_fin (by rw [zero_add, abs_of_pos p8]; exact r8'.trans (by norm_num))).trans ?_
    rw [zero_add, round_rep (rep_round _)]; rfl
  have ex : (⟨rd (fin a)⟩ : F32) = num (round a) := by rw [rd_fin (ha.trans (pow_le127 (by norm_num)))]; rfl
  have hx : num (round a) - num 0 = num (round a) := by
    refine (sub_fin (by rw [sub_zero]; exact (round_abs_le ha).trans (pow_le127 (by norm_num)))).trans ?_
    rw [sub_zero, round_rep (rep_round _)]; rfl
  have p1 : a1 ≠ 0 := by linarith
  have p2 : a2 ≠ 0 := by linarith
  have hq : num (round a) - num (round ss) * (num 0 / num a1) / (⟨A.sqrt (num 0 / num a2).v⟩ + lit 1e-8)
      = num (round a) := by
    rw [dz p1, dz p2, ey', e8, s8, zz (Bd.num (round_abs_le hss)), dz p8.ne', hx]
  unfold adamCell32
  simp only
  change (_, (lit (1 - 0.9) : F32) * num 0 + lit 0.9 * num 0,
    (lit (1 - 0.999) : F32) * (num 0 * num 0) + lit 0.999 * num 0) = _
  rw [z1, z2, e1, e2, es, ex]
  refine Prod.ext ?_ rfl
  simp only
  rw [show (lit (1 - 0.9) : F32) * ⟨fin 0⟩ + lit 0.9 * num 0 = num 0 from z1,
    show (lit (1 - 0.999) : F32) * (⟨fin 0⟩ * ⟨fin 0⟩) + lit 0.999 * num 0 = num 0 from z2]
  exact congrArg F32.v hq

theorem zipWith_zero {β : Type} (f : XR → β → β) (h : XR → β) :
    ∀ (g q : PVec), g.length = q.length → (∀ x ∈ g, x = fin 0) →
      List.zipWith f g (q.map h) = q.map fun x => f (fin 0) (h x)
  | [], [], _, _ => rfl
  | x :: g, y :: q, hl, hz => by
    rw [List.map_cons, List.zipWith_cons_cons, List.map_cons, hz x (by simp),
      zipWith_zero f h g q (by simpa using hl) (fun z hz' => hz z (by simp [hz']))]

/-- Started where the gradient is zero, the optimiser stays there. -/
theorem state_stationary [Libm] {A : AdamMath} (hA : A.Good) {L : ℕ} {ss : ℝ} (hss : |ss| ≤ 2 ^ (10 : ℕ))
    (hsingle : ∀ p : PVec, lg (p.map rd) = lg p) {N : ℕ} (hN : N ≤ 2 ^ 24) (hp : InBox L N p) (hlen : (lg p).2.length = L)
    (hz : ∀ x ∈ (lg p).2, x = fin 0) (j : ℕ) :
    ∃ q, q.map rd = p.map rd ∧ InBox L N q ∧
      optState (jaxAdam32 A ss) lg p j = q.map fun x => (x, num 0, num 0) := by
  induction j with
  | zero =>
    refine ⟨p, rfl, hp, ?_⟩
    change (p.map fun x => (x, lit 0, lit 0)) = _
    rw [lit_zero]
  | succ j ih =>
    obtain ⟨q, h1, h2, h3⟩ := ih
    have hget : (jaxAdam32 A ss).get (optState (jaxAdam32 A ss) lg p j) = q := by
      change List.map Prod.fst _ = _
      rw [h3, List.map_map]
      exact List.map_id' q
    have hq : lg q = lg p := by rw [← hsingle q, h1, hsingle p]
    refine ⟨q.map rd, ?_, h2.rd hN, ?_⟩
    · rw [List.map_map, ← h1]
      exact List.map_congr_left fun x _ => rd_idem x
    · change List.zipWith (adamCell32 A ss j) (lg ((jaxAdam32 A ss).get _)).2 _ = _
      rw [hget, hq, h3, zipWith_zero _ _ _ _ (by rw [hlen, h2.1]) hz, List.map_map]
      refine List.map_congr_left fun x hx => ?_
      obtain ⟨a, rfl, ha⟩ := h2.2 x hx
      rw [cell_zero hA hss j a (box_le hN ha), Function.comp, rd_fin ((box_le hN ha).trans (pow_le127 (by norm_num)))]

theorem core_stationary [Libm] {A : AdamMath} (hA : A.Good) {L : ℕ} {ss : ℝ} (hss : |ss| ≤ 2 ^ (10 : ℕ))
    (hsingle : ∀ p : PVec, lg (p.map rd) = lg p) {N : ℕ} (hN : N ≤ 2 ^ 24) (hp : InBox L N p) (hlen : (lg p).2.length = L)
    (hz : ∀ x ∈ (lg p).2, x = fin 0) {y : ℝ} (hy : (lg p).1 = fin y) (hy0 : 0 ≤ y) {n : ℕ} (hn : 1 ≤ n) :
    ∃ r, jax_adam_core (jaxAdam32 A ss) lg rd p n (fin 0) = .ok r ∧ r.params = p.map rd ∧ r.loss = fin y ∧
      r.loss_arr.length = n := by
  have hpar : ∀ j, (stepParams (jaxAdam32 A ss) lg p j).map rd = p.map rd ∧ InBox L N (stepParams (jaxAdam32 A ss) lg p j) := by
    intro j
    obtain ⟨q, h1, h2, h3⟩ := state_stationary hA hss hsingle hN hp hlen hz j
    have hget : stepParams (jaxAdam32 A ss) lg p j = q := by
      change List.map Prod.fst _ = _
      rw [h3, List.map_map]
      exact List.map_id' q
    rw [hget]
    exact ⟨h1, h2⟩
  have hlg : ∀ j, lg (stepParams (jaxAdam32 A ss) lg p j) = lg p := by
    intro j
    rw [← hsingle, (hpar j).1, hsingle]
  have hl : ∀ j, stepLoss (jaxAdam32 A ss) lg p j = fin y := by
    intro j
    unfold stepLoss
    rw [hlg, hy]
  have hrun : ∀ j < n, Running (jaxAdam32 A ss) lg p (fin 0) j := by
    intro j _
    refine ⟨⟨(hpar j).2.fin, by rw [hl]; trivial, fun x hx => ?_⟩, by rw [hl]; exact not_lt.2 hy0⟩
    unfold stepGrad at hx
    rw [hlg] at hx
    rw [hz x hx]; trivial
  obtain ⟨i, -, e⟩ := core_full (jaxAdam32 A ss) lg rd p (fin 0) n (by omega) hrun
  exact ⟨_, e, (hpar i).1, hl i, by simp⟩

/-- C125, stationary points. Started at a point where the gradient is zero in single precision, Adam returns that
very point (in single precision) with its loss. If that loss is zero, and there is a warm-up with fewer rounds than the
fit, the fit is flagged as not terminated; if it is positive, as terminated. -/
theorem C125_stationary_start [Libm] (A : AdamMath) (hA : A.Good) (L : ℕ) (lg : PVec → XR × PVec)
    (hsingle : ∀ p : PVec, lg (p.map rd) = lg p) (p : PVec) (hp : p.length = L)
    (hb : ∀ x ∈ p, ∃ a, x = fin a ∧ |a| ≤ 2 ^ (60 : ℕ)) (hlen : (lg p).2.length = L) (hz : ∀ x ∈ (lg p).2, x = fin 0)
    (y : ℝ) (hy : (lg p).1 = fin y) (hy0 : 0 ≤ y) (n nw wn : ℕ) (ss ws : ℝ) (hss : |ss| ≤ 2 ^ (10 : ℕ))
    (hws : |ws| ≤ 2 ^ (10 : ℕ)) (hn : 1 ≤ n) (hwn : 1 ≤ wn) :
    ∃ r term, jax_adam_wrapper (jaxAdam32 A) lg rd p n nw ss wn (some ws) (fin 0) = .ok (r, term) ∧
      r.params = p.map rd ∧ r.loss = fin y ∧
      term = if y = 0 ∧ nw ≠ 0 ∧ wn < n then 0 else 1 := by
  have hbox : InBox L 1 p := ⟨hp, fun x hx => by simpa using hb x hx⟩
  have hbox' : InBox L 1 (p.map rd) := hbox.rd (by norm_num)
  have hrr : (p.map rd).map rd = p.map rd := by
    rw [List.map_map]; exact List.map_congr_left fun x _ => rd_idem x
  have core : ∀ ss : ℝ, |ss| ≤ 2 ^ (10 : ℕ) → ∀ q : PVec, q = p ∨ q = p.map rd → ∀ n, 1 ≤ n →
      ∃ r, jax_adam_core (jaxAdam32 A ss) lg rd q n (fin 0) = .ok r ∧ r.params = p.map rd ∧ r.loss = fin y ∧
        r.loss_arr.length = n := by
    rintro ss hss q (rfl | rfl) n hn
    · exact core_stationary hA hss hsingle (by norm_num) hbox hlen hz hy hy0 hn
    · obtain ⟨r, h1, h2, h3⟩ := core_stationary hA hss hsingle (by norm_num) hbox' (by rw [hsingle]; exact hlen)
        (by rw [hsingle]; exact hz) (by rw [hsingle]; exact hy) hy0 hn
      exact ⟨r, h1, h2.trans hrr, h3⟩
  have hwarm : ∀ (m : ℕ) (s : PVec × XR × Option AdamResult), (s.1 = p ∨ s.1 = p.map rd) →
      ∃ s', warmup_loop (jaxAdam32 A ws) lg rd wn (fin 0) m s = .ok s' ∧ ((m = 0 ∧ s' = s) ∨ (m ≠ 0 ∧
        ∃ r, s' = (p.map rd, fin y, some r) ∧ r.params = p.map rd ∧ r.loss = fin y ∧ r.loss_arr.length = wn)) := by
    intro m
    induction m with
    | zero => exact fun s _ => ⟨s, rfl, .inl ⟨rfl, rfl⟩⟩
    | succ m ih =>
      intro s hs
      obtain ⟨r, e, r1, r2, r3⟩ := core ws hws s.1 hs wn hwn
      obtain ⟨s', e', g⟩ := ih (r.params, r.loss, some r) (.inr r1)
      refine ⟨s', ?_, .inr ⟨by omega, ?_⟩⟩
      · unfold warmup_loop warmup_step
        rw [e]; exact e'
      · rcases g with ⟨-, rfl⟩ | ⟨-, g⟩
        · exact ⟨r, by rw [r1, r2], r1, r2, r3⟩
        · exact g
  obtain ⟨s, es, hs⟩ := hwarm nw (p, pinf, none) (.inl rfl)
  have run : ∀ q l res, s = (q, l, res) → (q = p ∨ q = p.map rd) → XR.lt (fin 0) l →
      ∃ r, jax_adam_wrapper (jaxAdam32 A) lg rd p n nw ss wn (some ws) (fin 0) = .ok (r, 1) ∧
      r.params = p.map rd ∧ r.loss = fin y := by
    rintro q l res rfl hq hl
    have hf : AllFin q := by
      rcases hq with rfl | rfl
      · exact hbox.fin
      · exact hbox'.fin
    obtain ⟨r, er, r1, r2, r3⟩ := core ss hss q hq n hn
    refine ⟨r, ?_, r1, r2⟩
    unfold jax_adam_wrapper
    simp only [Option.getD_some, es, bind, Except.bind]
    rw [if_pos hl, if_pos hf, er]
    simp only [Except.map, r3, lt_irrefl, if_false]; rfl
  rcases hs with ⟨h0, hs⟩ | ⟨h0, r, hs, r1, r2, r3⟩
  · obtain ⟨r, h1, h2, h3⟩ := run _ _ _ hs (.inl rfl) trivial
    exact ⟨r, 1, h1, h2, h3, by rw [if_neg]; exact fun h => h.2.1 h0⟩
  · rcases hy0.eq_or_lt with hy1 | hy1
    · refine ⟨r, if wn < n then 0 else 1, ?_, r1, r2, ?_⟩
      · unfold jax_adam_wrapper
        simp only [Option.getD_some, es, hs, bind, Except.bind]
        rw [if_neg (by rw [← hy1]; exact lt_irrefl _)]
        simp only [r3]; rfl
      · by_cases hw : wn < n
        · rw [if_pos hw, if_pos ⟨hy1.symm, h0, hw⟩]
        · rw [if_neg hw, if_neg (fun h => hw h.2.2)]
    · obtain ⟨r', h1, h2, h3⟩ := run _ _ _ hs (.inr rfl) hy1
      exact ⟨r', 1, h1, h2, h3, by rw [if_neg]; exact fun h => hy1.ne' h.1⟩

theorem four_bd {a b c d : ℝ} (hp : ∀ x ∈ [a, b, c, d], |x| ≤ 2 ^ (60 : ℕ)) :
    ∀ x ∈ [fin a, fin b, fin c, fin d], ∃ r, x = fin r ∧ |r| ≤ 2 ^ (60 : ℕ) := by
  intro x hx
  simp only [List.mem_cons, List.not_mem_nil, or_false] at hx
  rcases hx with rfl | rfl | rfl | rfl
  · exact ⟨a, rfl, hp a (by simp)⟩
  · exact ⟨b, rfl, hp b (by simp)⟩
  · exact ⟨c, rfl, hp c (by simp)⟩
  · exact ⟨d, rfl, hp d (by simp)⟩

/-- C125, exact start. If the history of the starting point passes exactly through all the target masses, then in single
precision the fallback fit returns the starting point with loss zero and flags the fit, in its default setting, as not
terminated. -/
theorem C125_exact_start_flagged [Libm] (hs : Libm.Sane) (ha : Libm.Accurate) (A : AdamMath) (hA : A.Good)
    (sum : List F32 → F32) (hsum : ∀ l, SumOf l (sum l)) (utp : F32) (h5 : utp.v ≠ nan) (ts ms : List ℝ) (lgt0 : ℝ)
    (hd : GoodTarget ts ms lgt0) (lbfgs : (PVec → XR × PVec) → PVec → LbfgsResult) (a b c d : ℝ)
    (hp : ∀ x ∈ [a, b, c, d], |x| ≤ 2 ^ (60 : ℕ))
    (hex : (ts.map num).map (fun t => log_mah_kern_u_params
      ⟨⟨rd (fin a)⟩, ⟨rd (fin b)⟩, ⟨rd (fin c)⟩, ⟨rd (fin d)⟩, utp⟩ t (num lgt0)) = ms.map num)
    (hl : (lbfgs (fit_lg32 sum (lossData ts ms utp lgt0)) [fin a, fin b, fin c, fin d]).func = fin 0) :
    bfgs_adam_fallback lbfgs (jaxAdam32 A) rd (fit_lg32 sum (lossData ts ms utp lgt0)) [fin a, fin b, fin c, fin d] =
      .ok ⟨[rd (fin a), rd (fin b), rd (fin c), rd (fin d)], fin 0, false, 1⟩ := by
  have hlg := fit_good hs ha sum hsum utp h5 ts ms lgt0 hd
  obtain ⟨l0, g0⟩ := C124_exact_fit_stationary hs ha sum hsum ⟨⟨rd (fin a)⟩, ⟨rd (fin b)⟩, ⟨rd (fin c)⟩, ⟨rd (fin d)⟩⟩ utp
    (rd_fin_ne_nan a) (rd_fin_ne_nan b) (rd_fin_ne_nan c) (rd_fin_ne_nan d) h5 ts ms lgt0 hd hex
  obtain ⟨r, term, e, r1, r2, r3⟩ := C125_stationary_start A hA 4 _ hlg.single [fin a, fin b, fin c, fin d] rfl (four_bd hp)
    (hlg.len _ rfl) (by
      intro x hx
      unfold fit_lg32 at hx
      simp only [g0, List.mem_cons, List.not_mem_nil, or_false, or_self] at hx
      exact hx) 0 (congrArg F32.v l0) le_rfl 200 1 50 0.01 (5 * 0.01) (by norm_num [abs_le]) (by norm_num [abs_le])
    (by norm_num) (by norm_num)
  rw [if_pos (by norm_num)] at r3
  subst r3
  unfold bfgs_adam_fallback
  simp only
  rw [if_neg (by rintro ⟨-, -, h⟩; rw [hl] at h; exact lt_irrefl _ (show (0 : ℝ) < 0 from h)), wrapper_default, e]
  simp only [bind, Except.bind, pure, Except.pure, r1, r2]
  rfl

/-- C125, saturated start. Started with all four parameters at 220 or more, where every bounding function is flat in
single precision, the fallback fit returns the starting point, whatever the target. -/
theorem C125_saturated_start_returned [Libm] (hs : Libm.Sane) (ha : Libm.Accurate)
    (hsat : ∀ x, 20 ≤ x → Libm.sg (fin x) = fin 1) (A : AdamMath) (hA : A.Good)
    (sum : List F32 → F32) (hsum : ∀ l, SumOf l (sum l)) (utp : F32) (h5 : utp.v ≠ nan) (ts ms : List ℝ) (lgt0 : ℝ)
    (hd : GoodTarget ts ms lgt0) (lbfgs : (PVec → XR × PVec) → PVec → LbfgsResult) (a b c d : ℝ)
    (hp : ∀ x ∈ [a, b, c, d], 220 ≤ x ∧ x ≤ 2 ^ (60 : ℕ)) (nstep n_warmup : ℕ) (hn : 1 ≤ nstep)
    (hl : (lbfgs (fit_lg32 sum (lossData ts ms utp lgt0)) [fin a, fin b, fin c, fin d]).success = false) :
    ∃ res, bfgs_adam_fallback lbfgs (jaxAdam32 A) rd (fit_lg32 sum (lossData ts ms utp lgt0)) [fin a, fin b, fin c, fin d]
        nstep n_warmup = .ok res ∧ res.p_best = [rd (fin a), rd (fin b), rd (fin c), rd (fin d)] ∧
      ⟨res.loss_best⟩ = log_mah_loss_with sum ⟨⟨rd (fin a)⟩, ⟨rd (fin b)⟩, ⟨rd (fin c)⟩, ⟨rd (fin d)⟩⟩
        (lossData ts ms utp lgt0) := by
  have hlg := fit_good hs ha sum hsum utp h5 ts ms lgt0 hd
  have hb : ∀ x ∈ [a, b, c, d], |x| ≤ 2 ^ (60 : ℕ) := by
    intro x hx
    obtain ⟨h1, h2⟩ := hp x hx
    rw [abs_of_pos (by linarith)]; exact h2
  have hr : ∀ x ∈ [a, b, c, d], (⟨rd (fin x)⟩ : F32) = num (round x) ∧ 220 ≤ round x ∧ round x ≤ 2 ^ (100 : ℕ) := by
    intro x hx
    refine ⟨by rw [rd_fin ((hb x hx).trans (pow_le127 (by norm_num)))]; rfl,
      le_round (hp x hx).1 (by exact_mod_cast rep_nat 220 (by norm_num)), ?_⟩
    exact round_le ((hp x hx).2.trans (by norm_num)) (rep_pow 100)
  have g0 := (C124_saturated hs ha hsat sum hsum (round a) (round b) (round c) (round d) (hr a (by simp)).2 (hr b (by simp)).2
    (hr c (by simp)).2 (hr d (by simp)).2 utp h5 ts ms lgt0 hd).1
  rw [← (hr a (by simp)).1, ← (hr b (by simp)).1, ← (hr c (by simp)).1, ← (hr d (by simp)).1] at g0
  obtain ⟨y, ey, hy⟩ := hlg.loss [fin a, fin b, fin c, fin d] rfl
    (fun x hx => by obtain ⟨r, rfl, -⟩ := four_bd hb x hx; trivial)
  obtain ⟨r, term, e, r1, r2, -⟩ := C125_stationary_start A hA 4 _ hlg.single [fin a, fin b, fin c, fin d] rfl (four_bd hb)
    (hlg.len _ rfl) (by
      intro x hx
      unfold fit_lg32 at hx
      simp only [g0, List.mem_cons, List.not_mem_nil, or_false, or_self] at hx
      exact hx) y ey hy nstep n_warmup 50 0.01 (5 * 0.01) (by norm_num [abs_le]) (by norm_num [abs_le]) hn (by norm_num)
  unfold bfgs_adam_fallback
  simp only
  rw [if_neg (by rintro ⟨h, -⟩; rw [hl] at h; cases h), wrapper_default, e]
  exact ⟨_, rfl, r1, F32.ext (r2.trans ey.symm)⟩

/-! ## The hypotheses are met -/

/-- Correctly rounded square root, with subnormal arguments flushed to zero, and correctly rounded powers. -/
noncomputable def idealMath : AdamMath where
  sqrt
    | .fin x => open Classical in if x < 0 then nan else if x < 2 ^ (-126 : ℤ) then fin 0 else fin (round √x)
    | .pinf => pinf
    | _ => nan
  pow
    | .fin b, n => fin (round (b ^ n))
    | _, _ => nan

theorem idealMath_good : idealMath.Good := by
  refine ⟨rfl, ?_, ?_⟩
  · intro x hx
    by_cases h : x < 2 ^ (-126 : ℤ)
    · refine ⟨0, ?_, le_rfl, by positivity, fun h' => absurd h (not_lt.2 h')⟩
      change (if x < 0 then nan else if x < 2 ^ (-126 : ℤ) then fin 0 else fin (round √x)) = _
      rw [if_neg (not_lt.2 hx), if_pos h]
    · have h' := not_lt.1 h
      have hs : (2 : ℝ) ^ (-63 : ℤ) ≤ √x := by
        apply Real.le_sqrt_of_sq_le
        rw [← zpow_natCast, ← zpow_mul]; exact h'
      have hs0 := Real.sqrt_nonneg x
      have h1 := round_up √x
      have h2 := round_down hs0
      rw [abs_of_nonneg hs0, abs_of_nonneg (round_nonneg hs0)] at h1
      have z1 : (2 : ℝ) ^ (-24 : ℤ) ≤ 0.1 := by norm_num
      have z2 : (2 : ℝ) ^ (-150 : ℤ) ≤ 0.1 * √x := by
        have : (2 : ℝ) ^ (-150 : ℤ) = 2 ^ (-87 : ℤ) * 2 ^ (-63 : ℤ) := by rw [← zpow_add₀ (by norm_num)]; norm_num
        rw [this]
        refine mul_le_mul ?_ hs (two_zpow_pos _).le (by norm_num)
        exact le_trans (zpow_mono2 (show (-87 : ℤ) ≤ -24 by norm_num)) z1
      generalize (2 : ℝ) ^ (-24 : ℤ) = ε at *
      generalize (2 : ℝ) ^ (-150 : ℤ) = z at *
      have w : ε * √x ≤ 0.1 * √x := mul_le_mul_of_nonneg_right z1 hs0
      refine ⟨round √x, ?_, round_nonneg hs0, by linarith only [h1, w, z2, hs0], fun _ => by linarith only [h2, w, z2, hs0]⟩
      change (if x < 0 then nan else if x < 2 ^ (-126 : ℤ) then fin 0 else fin (round √x)) = _
      rw [if_neg (not_lt.2 hx), if_neg h]
  · intro b b0 b1 n
    refine ⟨_, rfl, (round_rel _).trans ?_⟩
    have h1 : |b ^ n| ≤ 1 := by rw [abs_of_nonneg (by positivity)]; exact pow_le_one₀ b0 b1
    have h2 : (2 : ℝ) ^ (-24 : ℤ) * |b ^ n| ≤ 2 ^ (-24 : ℤ) * 1 := mul_le_mul_of_nonneg_left h1 (two_zpow_pos _).le
    have h3 : (2 : ℝ) ^ (-150 : ℤ) ≤ 2 ^ (-24 : ℤ) := zpow_mono2 (by norm_num)
    have h4 : (2 : ℝ) ^ (-24 : ℤ) + 2 ^ (-24 : ℤ) ≤ 2 ^ (-20 : ℤ) := by norm_num
    linarith only [h2, h3, h4]

/-- The hypotheses of C125 are met: correctly rounded platform, three masses, the start `(12, 0, 1, 2)`, 200 steps and one
warm-up round, gradients of size up to `1e30`. -/
example : ∃ (L : Libm) (A : AdamMath) (sum : List F32 → F32) (utp : F32) (ts ms : List ℝ) (lgt0 : ℝ) (g : ℕ → ℝ),
    @Libm.Sane L ∧ @Libm.Accurate L ∧ (∀ x, 20 ≤ x → @Libm.sg L (fin x) = fin 1) ∧ A.Good ∧ (∀ l, SumOf l (sum l)) ∧
    utp.v ≠ nan ∧ GoodTarget ts ms lgt0 ∧ ts.length = 3 ∧ (∀ x ∈ [(12 : ℝ), 0, 1, 2], |x| ≤ 2 ^ (60 : ℕ)) ∧
    (∀ x ∈ [(300 : ℝ), 220, 250, 400], 220 ≤ x ∧ x ≤ 2 ^ (60 : ℕ)) ∧ 1 + 1 * 50 + 200 ≤ 2 ^ 24 ∧
    (∀ n, |g n| ≤ 2 ^ (110 : ℕ)) ∧ g 7 = -10 ^ 30 ∧ |(0.01 : ℝ)| ≤ 2 ^ (10 : ℕ) ∧
    GoodLoss 4 109 (@fit_lg32 L sum (lossData ts ms utp lgt0)) := by
  let _ := ideal
  refine ⟨ideal, idealMath, fun l => List.foldl (· + ·) (lit 0) l, num 5, [1, 5, 13], [10, 11, 12], 1,
    fun n => if n = 7 then -10 ^ 30 else 1, ideal_sane, ideal_accurate, ideal_saturates, idealMath_good, sumOf_foldl,
    (fun h => by cases h), goodTarget_example, rfl, ?_, ?_, by norm_num, ?_, by simp, by norm_num [abs_le],
    fit_good ideal_sane ideal_accurate _ sumOf_foldl _ (fun h => by cases h) _ _ _ goodTarget_example⟩
  · simp only [List.mem_cons, List.not_mem_nil, or_false, forall_eq_or_imp, forall_eq]; norm_num
  · simp only [List.mem_cons, List.not_mem_nil, or_false, forall_eq_or_imp, forall_eq]; norm_num
  · intro n
    by_cases h : n = 7
    · simp only [if_pos h, abs_neg]; norm_num
    · simp only [if_neg h]; norm_num

/-- The hypotheses of `C125_exact_start_flagged` are met: by the history of the start `(12, 0, 1, 2)` and a minimiser that
returns what it is given. -/
example : ∃ (L : Libm) (utp : F32) (ts ms : List ℝ) (lgt0 : ℝ) (lbfgs : (PVec → XR × PVec) → PVec → LbfgsResult),
    GoodTarget ts ms lgt0 ∧ letI := L;
    (ts.map num).map (fun t => log_mah_kern_u_params
      ⟨⟨rd (fin 12)⟩, ⟨rd (fin 0)⟩, ⟨rd (fin 1)⟩, ⟨rd (fin 2)⟩, utp⟩ t (num lgt0)) = ms.map num ∧
    (lbfgs (fit_lg32 (fun l => List.foldl (· + ·) (lit 0) l) (lossData ts ms utp lgt0)) [fin 12, fin 0, fin 1, fin 2]).func
      = fin 0 := by
  let _ := ideal
  have hr : ∀ n : ℕ, n ≤ 12 → (⟨rd (fin (n : ℝ))⟩ : F32) = num n := by
    intro n hn
    have h' : (n : ℝ) ≤ 12 := by exact_mod_cast hn
    rw [rd_rep (by rw [abs_of_nonneg (by positivity)]; exact h'.trans (by norm_num)) (rep_nat n (by omega))]; rfl
  have r12 : (⟨rd (fin 12)⟩ : F32) = num 12 := by exact_mod_cast hr 12 le_rfl
  have r0 : (⟨rd (fin 0)⟩ : F32) = num 0 := by exact_mod_cast hr 0 (by norm_num)
  have r1 : (⟨rd (fin 1)⟩ : F32) = num 1 := by exact_mod_cast hr 1 (by norm_num)
  have r2 : (⟨rd (fin 2)⟩ : F32) = num 2 := by exact_mod_cast hr 2 (by norm_num)
  obtain ⟨p, e, hp, -⟩ := bounded_box ideal_sane ⟨num 12, num 0, num 1, num 2, num 5⟩ (fun h => by cases h)
    (fun h => by cases h) (fun h => by cases h) (fun h => by cases h) (fun h => by cases h)
  have key : ∀ t : ℝ, 0.05 ≤ t → t ≤ 20 → ∃ y, log_mah_kern_u_params ⟨num 12, num 0, num 1, num 2, num 5⟩ (num t)
      (num 1) = num y ∧ |y| ≤ 2 ^ (40 : ℕ) := by
    intro t h1 h2
    obtain ⟨y, y1, y2⟩ := kern_near ideal_accurate hp h1 h2 (lgt0 := 1) (by norm_num) (by norm_num)
    refine ⟨y, ?_, (abs_of_near y2 (kern_abs_le hp h1 h2 (by norm_num) (by norm_num))).trans (by norm_num)⟩
    unfold log_mah_kern_u_params
    rw [e, y1]
  obtain ⟨a, a1, a2⟩ := key 1 (by norm_num) (by norm_num)
  obtain ⟨b, b1, b2⟩ := key 5 (by norm_num) (by norm_num)
  obtain ⟨c, c1, c2⟩ := key 13 (by norm_num) (by norm_num)
  have hd : GoodTarget [1, 5, 13] [a, b, c] 1 := by
    refine ⟨rfl, by simp, by norm_num, ?_, ?_, by norm_num, by norm_num⟩
    · simp only [List.mem_cons, List.not_mem_nil, or_false, forall_eq_or_imp, forall_eq]; norm_num
    · simp only [List.mem_cons, List.not_mem_nil, or_false, forall_eq_or_imp, forall_eq]
      exact ⟨a2, b2, c2⟩
  have hex : ([1, 5, 13].map num).map (fun t => log_mah_kern_u_params
      ⟨⟨rd (fin 12)⟩, ⟨rd (fin 0)⟩, ⟨rd (fin 1)⟩, ⟨rd (fin 2)⟩, num 5⟩ t (num 1)) = [a, b, c].map num := by
    simp only [List.map_cons, List.map_nil, r12, r0, r1, r2, a1, b1, c1]
  refine ⟨ideal, num 5, [1, 5, 13], [a, b, c], 1, fun lg p => ⟨p, (lg p).1, true⟩, hd, hex, ?_⟩
  exact congrArg F32.v (C124_exact_fit_stationary ideal_sane ideal_accurate _ sumOf_foldl
    ⟨⟨rd (fin 12)⟩, ⟨rd (fin 0)⟩, ⟨rd (fin 1)⟩, ⟨rd (fin 2)⟩⟩ (num 5) (rd_fin_ne_nan _) (rd_fin_ne_nan _) (rd_fin_ne_nan _)
    (rd_fin_ne_nan _) (fun h => by cases h) _ _ _ hd hex).1

end

end Diffmah.F32

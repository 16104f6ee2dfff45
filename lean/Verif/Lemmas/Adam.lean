import Verif.Model.Adam
import Verif.Lemmas.Optim

/-!
# Lemmas about Adam
-/

namespace Diffmah.Fit

open XR Spec

theorem sub_fin_zero (x : XR) : x - fin 0 = x := by
  cases x with
  | fin a => change fin (a + -0) = fin a; simp
  | nan => rfl
  | pinf => rfl
  | ninf => rfl

theorem pow_lt_one' (b : ℝ) (h0 : 0 ≤ b) (h1 : b < 1) (i : ℕ) : 1 - b ^ (i + 1) ≠ 0 := by
  have : b ^ (i + 1) < 1 := pow_lt_one₀ h0 h1 (Nat.succ_ne_zero i)
  exact ne_of_gt (by linarith)

/-- The update on finite numbers -/
theorem adamCell_fin (ss : ℝ) (i : ℕ) (g x m v : ℝ) (hv : 0 ≤ v) :
    adamCell ss i (fin g) (fin x, fin m, fin v) =
      (fin (x - ss * ((0.1 * g + 0.9 * m) / (1 - 0.9 ^ (i + 1))) /
        (Real.sqrt ((0.001 * (g * g) + 0.999 * v) / (1 - 0.999 ^ (i + 1))) + 1e-8)),
        fin (0.1 * g + 0.9 * m), fin (0.001 * (g * g) + 0.999 * v)) := by
  have h1 := pow_lt_one' 0.9 (by norm_num) (by norm_num) i
  have h2 := pow_lt_one' 0.999 (by norm_num) (by norm_num) i
  have e1 : (1 : ℝ) - 0.9 = 0.1 := by norm_num
  have e2 : (1 : ℝ) - 0.999 = 0.001 := by norm_num
  have hd : 0 < (1 : ℝ) - 0.999 ^ (i + 1) := by
    have : (0.999 : ℝ) ^ (i + 1) < 1 := pow_lt_one₀ (by norm_num) (by norm_num) (Nat.succ_ne_zero i)
    linarith
  have hq : ¬ (0.001 * (g * g) + 0.999 * v) / (1 - 0.999 ^ (i + 1)) < 0 := by
    have : 0 ≤ g * g := mul_self_nonneg g
    rw [not_lt]
    apply div_nonneg _ hd.le
    nlinarith
  have hs : Real.sqrt ((0.001 * (g * g) + 0.999 * v) / (1 - 0.999 ^ (i + 1))) + 1e-8 ≠ 0 := by
    have := Real.sqrt_nonneg ((0.001 * (g * g) + 0.999 * v) / (1 - 0.999 ^ (i + 1)))
    have h8 : (0 : ℝ) < 1e-8 := by norm_num
    exact ne_of_gt (by linarith)
  unfold adamCell
  simp only [fin_mul, fin_add, fin_div h1, fin_div h2, e1, e2]
  simp only [Measure.sqrt, Utils.xsqrt, if_neg hq, fin_add, fin_div hs, fin_sub]

/-- A coordinate with no gradient stays put -/
theorem adamCell_zero (ss : ℝ) (i : ℕ) (x : XR) :
    adamCell ss i (fin 0) (x, fin 0, fin 0) = (x, fin 0, fin 0) := by
  have h1 := pow_lt_one' 0.9 (by norm_num) (by norm_num) i
  have h2 := pow_lt_one' 0.999 (by norm_num) (by norm_num) i
  unfold adamCell
  simp only [fin_mul, fin_add, fin_div h1, fin_div h2, mul_zero, add_zero, zero_div, Measure.sqrt, Utils.xsqrt,
    lt_irrefl, if_false, Real.sqrt_zero, zero_add]
  rw [fin_div (by norm_num), zero_div, sub_fin_zero]

/-- The bias corrections -/
theorem bias_le (n : ℕ) : 1 - (0.999 : ℝ) ^ (n + 1) ≤ (1 - 0.9 ^ (n + 1)) ^ 2 := by
  have key : 2 * (0.9 : ℝ) ^ (n + 1) - 0.81 ^ (n + 1) ≤ 0.999 ^ (n + 1) := by
    induction n with
    | zero => norm_num
    | succ n ih =>
      have h1 : (0.81 : ℝ) ^ (n + 1) ≤ 0.9 ^ (n + 1) := pow_le_pow_left₀ (by norm_num) (by norm_num) _
      have h2 : (0 : ℝ) ≤ 0.9 ^ (n + 1) := by positivity
      rw [pow_succ (0.9 : ℝ), pow_succ (0.81 : ℝ), pow_succ (0.999 : ℝ)]
      generalize (0.9 : ℝ) ^ (n + 1) = a at *
      generalize (0.81 : ℝ) ^ (n + 1) = b at *
      generalize (0.999 : ℝ) ^ (n + 1) = c at *
      linarith
  have e : (0.81 : ℝ) ^ (n + 1) = (0.9 ^ (n + 1)) ^ 2 := by
    rw [← pow_mul, mul_comm, pow_mul]; norm_num
  rw [e] at key
  nlinarith

/-- The first moment is controlled by the second -/
theorem moment_step {g m v : ℝ} (h : m ^ 2 ≤ 53 * v) :
    (0.1 * g + 0.9 * m) ^ 2 ≤ 53 * (0.001 * (g * g) + 0.999 * v) := by
  nlinarith [sq_nonneg (g - 90 / 43 * m), sq_nonneg m]

/-- One update moves a coordinate by at most 7.3 step sizes -/
theorem update_le (ss : ℝ) (n : ℕ) {m v : ℝ} (hv : 0 ≤ v) (h : m ^ 2 ≤ 53 * v) :
    |ss * (m / (1 - 0.9 ^ (n + 1))) / (Real.sqrt (v / (1 - 0.999 ^ (n + 1))) + 1e-8)| ≤ 7.3 * |ss| := by
  have hb := bias_le n
  have hA : 0 < 1 - (0.9 : ℝ) ^ (n + 1) := by
    have : (0.9 : ℝ) ^ (n + 1) < 1 := pow_lt_one₀ (by norm_num) (by norm_num) (Nat.succ_ne_zero n)
    linarith
  have hB : 0 < 1 - (0.999 : ℝ) ^ (n + 1) := by
    have : (0.999 : ℝ) ^ (n + 1) < 1 := pow_lt_one₀ (by norm_num) (by norm_num) (Nat.succ_ne_zero n)
    linarith
  generalize (1 : ℝ) - 0.9 ^ (n + 1) = A at *
  generalize (1 : ℝ) - 0.999 ^ (n + 1) = B at *
  have hS := Real.sqrt_nonneg (v / B)
  have hsq : Real.sqrt (v / B) ^ 2 = v / B := Real.sq_sqrt (div_nonneg hv hB.le)
  generalize Real.sqrt (v / B) = S at *
  have hv' : v = S ^ 2 * B := by rw [hsq]; field_simp
  have hm : |m / A| ≤ 7.3 * S := by
    apply abs_le_of_sq_le_sq _ (by positivity)
    rw [div_pow, div_le_iff₀ (by positivity)]
    calc m ^ 2 ≤ 53 * v := h
      _ = 53 * S ^ 2 * B := by rw [hv']; ring
      _ ≤ 53 * S ^ 2 * A ^ 2 := by
          apply mul_le_mul_of_nonneg_left hb; positivity
      _ ≤ (7.3 * S) ^ 2 * A ^ 2 := by
          apply mul_le_mul_of_nonneg_right _ (by positivity)
          nlinarith [sq_nonneg S]
  have h8 : (0 : ℝ) < 1e-8 := by norm_num
  have hpos : 0 < S + 1e-8 := by linarith
  rw [abs_div, abs_mul, abs_of_pos hpos, div_le_iff₀ hpos]
  calc |ss| * |m / A| ≤ |ss| * (7.3 * S) := mul_le_mul_of_nonneg_left hm (abs_nonneg _)
    _ ≤ 7.3 * |ss| * (S + 1e-8) := by nlinarith [abs_nonneg ss]

section
variable {ss : ℝ} {lg : PVec → XR × PVec} {p : PVec}

theorem adam_get_init (p : PVec) : (jaxAdam ss).get ((jaxAdam ss).init p) = p := by
  simp [jaxAdam, Function.comp_def]

theorem adam_zero_state {i : ℕ} {x : XR} (hx : p[i]? = some x)
    (hg : ∀ q : PVec, q.length = p.length → (lg q).2.length = p.length ∧ (lg q).2[i]? = some (fin 0)) (k : ℕ) :
    (optState (jaxAdam ss) lg p k).length = p.length ∧
      (optState (jaxAdam ss) lg p k)[i]? = some (x, fin 0, fin 0) := by
  induction k with
  | zero => simp [optState, jaxAdam, hx]
  | succ k ih =>
    have hl : ((jaxAdam ss).get (optState (jaxAdam ss) lg p k)).length = p.length := by
      change (List.map Prod.fst _).length = _
      rw [List.length_map, ih.1]
    obtain ⟨h1, h2⟩ := hg _ hl
    change (List.zipWith (adamCell ss k) _ _).length = _ ∧ (List.zipWith (adamCell ss k) _ _)[i]? = _
    refine ⟨by rw [List.length_zipWith, h1, ih.1, min_self], ?_⟩
    rw [List.getElem?_zipWith, h2, ih.2]
    exact congrArg some (adamCell_zero ss k x)

theorem adam_zero_params {i : ℕ} {x : XR} (hx : p[i]? = some x)
    (hg : ∀ q : PVec, q.length = p.length → (lg q).2.length = p.length ∧ (lg q).2[i]? = some (fin 0)) (k : ℕ) :
    (stepParams (jaxAdam ss) lg p k).length = p.length ∧ (stepParams (jaxAdam ss) lg p k)[i]? = some x := by
  obtain ⟨h1, h2⟩ := adam_zero_state (ss := ss) hx hg k
  unfold stepParams
  constructor
  · change (List.map Prod.fst _).length = _
    rw [List.length_map, h1]
  · change (List.map Prod.fst _)[i]? = _
    rw [List.getElem?_map, h2]; rfl

theorem adam_cell_next {i k : ℕ} {y m v : ℝ} (hl : (optState (jaxAdam ss) lg p k).length = p.length)
    (hlen : ∀ q, (lg q).2.length = q.length)
    (h : (optState (jaxAdam ss) lg p k)[i]? = some (fin y, fin m, fin v)) (hv : 0 ≤ v) (hm : m ^ 2 ≤ 53 * v)
    (hip : i < p.length) (hf : StepFinite (jaxAdam ss) lg p k) :
    (optState (jaxAdam ss) lg p (k + 1)).length = p.length ∧
    ∃ z m' v', (optState (jaxAdam ss) lg p (k + 1))[i]? = some (fin z, fin m', fin v') ∧ 0 ≤ v' ∧
      m' ^ 2 ≤ 53 * v' ∧ |z - y| ≤ 7.3 * |ss| := by
  have hgl := hlen ((jaxAdam ss).get (optState (jaxAdam ss) lg p k))
  have hl' : ((jaxAdam ss).get (optState (jaxAdam ss) lg p k)).length = p.length := by
    change (List.map Prod.fst _).length = _
    rw [List.length_map, hl]
  obtain ⟨g, hg⟩ : ∃ g, (lg ((jaxAdam ss).get (optState (jaxAdam ss) lg p k))).2[i]? = some (fin g) := by
    have hi : i < (lg ((jaxAdam ss).get (optState (jaxAdam ss) lg p k))).2.length := by rw [hgl, hl']; exact hip
    have := hf.2.2 _ (List.getElem_mem hi)
    obtain ⟨g, hg⟩ := isFin_iff.1 this
    exact ⟨g, by rw [List.getElem?_eq_getElem hi, ← hg]⟩
  change (List.zipWith (adamCell ss k) _ _).length = _ ∧ ∃ y' m' v', (List.zipWith (adamCell ss k) _ _)[i]? = _ ∧ _
  refine ⟨by rw [List.length_zipWith, hgl, hl', hl, min_self], ?_⟩
  rw [List.getElem?_zipWith, hg, h]
  have hv' : 0 ≤ 0.001 * (g * g) + 0.999 * v := by
    have : 0 ≤ g * g := mul_self_nonneg g
    nlinarith
  have hm' := moment_step (g := g) hm
  refine ⟨_, _, _, congrArg some (adamCell_fin ss k g y m v hv), hv', hm', ?_⟩
  rw [sub_sub_cancel_left, abs_neg]
  exact update_le ss k hv' hm'

theorem adam_next {i k : ℕ} {y m v : ℝ} (hl : (optState (jaxAdam ss) lg p k).length = p.length)
    (hlen : ∀ q, (lg q).2.length = q.length)
    (h : (optState (jaxAdam ss) lg p k)[i]? = some (fin y, fin m, fin v)) (hv : 0 ≤ v) (hm : m ^ 2 ≤ 53 * v)
    (hip : i < p.length) (hf : StepFinite (jaxAdam ss) lg p k) :
    ∃ z, (stepParams (jaxAdam ss) lg p (k + 1))[i]? = some (fin z) ∧ |z - y| ≤ 7.3 * |ss| := by
  obtain ⟨-, z, m', v', h1, -, -, h2⟩ := adam_cell_next hl hlen h hv hm hip hf
  refine ⟨z, ?_, h2⟩
  change (List.map Prod.fst _)[i]? = _
  rw [List.getElem?_map, h1]; rfl

theorem adam_state {i : ℕ} {x : ℝ} (hx : p[i]? = some (fin x)) (hlen : ∀ q, (lg q).2.length = q.length) (k : ℕ)
    (hf : ∀ j < k, StepFinite (jaxAdam ss) lg p j) :
    (optState (jaxAdam ss) lg p k).length = p.length ∧
      ∃ y m v, (optState (jaxAdam ss) lg p k)[i]? = some (fin y, fin m, fin v) ∧ 0 ≤ v ∧ m ^ 2 ≤ 53 * v ∧
        |y - x| ≤ 7.3 * |ss| * k := by
  induction k with
  | zero => refine ⟨by simp [optState, jaxAdam], x, 0, 0, by simp [optState, jaxAdam, hx], le_rfl, by simp, by simp⟩
  | succ k ih =>
    obtain ⟨h1, y, m, v, h2, h3, h4, h5⟩ := ih fun j hj => hf j (by omega)
    have hip : i < p.length := (List.getElem?_eq_some_iff.1 hx).1
    obtain ⟨hl, z, m', v', a1, a2, a3, a4⟩ := adam_cell_next h1 hlen h2 h3 h4 hip (hf k (by omega))
    refine ⟨hl, z, m', v', a1, a2, a3, ?_⟩
    calc |z - x| = |(z - y) + (y - x)| := by ring_nf
      _ ≤ |z - y| + |y - x| := abs_add_le _ _
      _ ≤ 7.3 * |ss| + 7.3 * |ss| * k := add_le_add a4 h5
      _ = 7.3 * |ss| * ((k + 1 : ℕ) : ℝ) := by push_cast; ring

end

/-- Whatever is reported is a visited point or its single-precision copy -/
theorem core_visited {S : Type} (opt : AdamOpt S) (lg : PVec → XR × PVec) (f4 : XR → XR) (p : PVec)
    (n : ℕ) (tol : XR) (r : AdamResult) (h : jax_adam_core opt lg f4 p n tol = .ok r) :
    ∃ k < n, (∀ j < k, StepFinite opt lg p j) ∧
      (r.params = stepParams opt lg p k ∨ r.params = (stepParams opt lg p k).map f4) := by
  rcases Nat.eq_zero_or_pos n with rfl | hn
  · rw [core_zero] at h; cases h
  rcases run_cases opt lg p tol n with hr | ⟨m, hm, hrun, hbad | ⟨hf, ht⟩⟩
  · obtain ⟨i, hi, e⟩ := core_full opt lg f4 p tol n hn hr
    rw [e] at h; cases h
    exact ⟨i, hi.1, fun j hj => (hr j (by have := hi.1; omega)).1, .inr rfl⟩
  · rcases Nat.eq_zero_or_pos m with rfl | hm0
    · rw [core_fail_zero opt lg f4 p tol n hn hbad] at h; cases h
      exact ⟨0, hn, fun j hj => absurd hj (by omega), .inl rfl⟩
    · obtain ⟨i, hi, e⟩ := core_fail opt lg f4 p tol n m hm hm0 hrun hbad
      rw [e] at h; cases h
      exact ⟨i, by have := hi.1; omega, fun j hj => (hrun j (by have := hi.1; omega)).1, .inr rfl⟩
  · rw [core_tol opt lg f4 p tol n m hm hrun hf ht] at h; cases h
    exact ⟨m, hm, fun j hj => (hrun j hj).1, .inl rfl⟩

end Diffmah.Fit

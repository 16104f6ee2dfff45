import Verif.Model.Float32Adam
import Verif.Lemmas.Float32Fit
import Verif.Lemmas.Float32Rate
import Verif.Lemmas.Optim
import Mathlib.Tactic.FieldSimp

/-! # One update of Adam in single precision -/

namespace Diffmah.F32

open JOps XR
open Fit (AdamMath)

section

/-! ## Roundings of the constants -/

theorem round_nine : round 0.9 = 15099494 * 2 ^ (-24 : ℤ) := by
  have := round_eq (x := 0.9) (m := 15099494) (e := -24) (by norm_num)
    (by rw [abs_of_pos (by norm_num)]; norm_num) (by rw [abs_of_pos (by norm_num)]; norm_num)
    (by rw [abs_lt]; constructor <;> norm_num)
  exact_mod_cast this

theorem rd_cases {x : ℝ} (hx : 0 ≤ x) : rd (fin x) = pinf ∨ rd (fin x) = fin (round x) := by
  have h := round_nonneg hx
  unfold rd
  simp only
  by_cases h1 : (2 : ℝ) ^ (128 : ℕ) ≤ round x
  · left; rw [if_pos h1]
  · right
    rw [if_neg h1, if_neg]
    have : (0 : ℝ) < 2 ^ (128 : ℕ) := by positivity
    linarith

theorem rd_idem (x : XR) : rd (rd x) = rd x := by
  cases x with
  | fin a =>
    have e : ∀ y, rd (fin y) = if 2 ^ (128 : ℕ) ≤ round y then .pinf
        else if round y ≤ -2 ^ (128 : ℕ) then .ninf else .fin (round y) := fun y => rfl
    by_cases h1 : (2 : ℝ) ^ (128 : ℕ) ≤ round a
    · rw [e, if_pos h1]; rfl
    · by_cases h2 : round a ≤ -2 ^ (128 : ℕ)
      · rw [e, if_neg h1, if_pos h2]; rfl
      · rw [e, if_neg h1, if_neg h2, e, round_rep (rep_round a), if_neg h1, if_neg h2]
  | _ => rfl

/-! ## Moments -/

/-- The moments of one coordinate: the first is finite and no larger than the gradients were, and either the
second is infinite or it bounds the first. -/
def Mom (k : ℕ) (m v : F32) : Prop :=
  ∃ a, m = num a ∧ |a| ≤ 2 ^ k ∧ (v = ⟨pinf⟩ ∨ ∃ w, v = num w ∧ 0 ≤ w ∧ a ^ 2 ≤ 64 * (w + 2 ^ (-130 : ℤ)))

theorem round_up (x : ℝ) : |round x| ≤ (1 + 2 ^ (-24 : ℤ)) * |x| + 2 ^ (-150 : ℤ) := by
  have h := round_rel x
  have := abs_sub_abs_le_abs_sub (round x) x
  linarith

theorem round_down {x : ℝ} (hx : 0 ≤ x) : (1 - 2 ^ (-24 : ℤ)) * x - 2 ^ (-150 : ℤ) ≤ round x := by
  have h := (abs_le.1 (round_rel x)).1
  rw [abs_of_nonneg hx] at h
  linarith

/-- The real inequality behind `mom_step`. -/
theorem moment_real {g m w a v e : ℝ} (he : 0 ≤ e) (he' : e ≤ 2 ^ (-147 : ℤ)) (hw : m ^ 2 ≤ 64 * (w + 2 ^ (-130 : ℤ)))
    (ha : |a| ≤ 0.1001 * |g| + 0.9001 * |m| + e) (hv : 0.00099 * g ^ 2 + 0.9989 * w - e ≤ v) :
    a ^ 2 ≤ 64 * (v + 2 ^ (-130 : ℤ)) := by
  have hsq : a ^ 2 ≤ (0.1001 * |g| + 0.9001 * |m| + e) ^ 2 := by
    rw [← sq_abs a]
    exact pow_le_pow_left₀ (abs_nonneg _) ha 2
  have hd : e ≤ 2 ^ (-17 : ℤ) * 2 ^ (-130 : ℤ) := by
    rw [← zpow_add₀ (by norm_num)]; exact he'
  have hd1 : (2 : ℝ) ^ (-17 : ℤ) ≤ 0.00001 := by norm_num
  have hd2 : (2 : ℝ) ^ (-130 : ℤ) ≤ 1 := by
    rw [show (1 : ℝ) = 2 ^ (0 : ℤ) by norm_num]; exact zpow_mono2 (by norm_num)
  have hd0 := two_zpow_pos (-130)
  rw [← sq_abs g] at hv
  rw [← sq_abs m] at hw
  generalize |g| = G at *
  generalize |m| = M at *
  generalize (2 : ℝ) ^ (-130 : ℤ) = δ at *
  generalize (2 : ℝ) ^ (-17 : ℤ) = η at *
  have he2 : e ≤ 0.00001 * δ := hd.trans (mul_le_mul_of_nonneg_right hd1 hd0.le)
  have he3 : e ^ 2 ≤ e := by nlinarith
  have h1 : (0.1001 * G + 0.9001 * M + e) ^ 2 ≤ 1.02 * (0.1001 * G + 0.9001 * M) ^ 2 + 51 * e ^ 2 := by
    nlinarith [sq_nonneg (0.1001 * G + 0.9001 * M - 50 * e)]
  have h2 : 1.02 * (0.1001 * G + 0.9001 * M) ^ 2 ≤ 0.06336 * G ^ 2 + 0.9989 * M ^ 2 := by
    nlinarith [sq_nonneg (G - 1.75 * M), sq_nonneg G, sq_nonneg M]
  nlinarith

theorem c1_lit [Libm] : (lit (1 - 0.9) : F32) = num (13421773 * 2 ^ (-27 : ℤ)) := by
  rw [lit_fin (by rw [show (1 : ℝ) - 0.9 = 0.1 by norm_num, abs_of_pos (by norm_num)]; norm_num),
    show (1 : ℝ) - 0.9 = 0.1 by norm_num, round_tenth]; rfl

theorem b1_lit [Libm] : (lit 0.9 : F32) = num (15099494 * 2 ^ (-24 : ℤ)) := by
  rw [lit_fin (by rw [abs_of_pos (by norm_num)]; norm_num), round_nine]; rfl

theorem c2_lit [Libm] : ∃ c, (lit (1 - 0.999) : F32) = num c ∧ 0.000999 ≤ c ∧ c ≤ 0.001001 := by
  have e : (1 : ℝ) - 0.999 = 0.001 := by norm_num
  have h := abs_le.1 (round_err (x := 0.001) (k := -9) (by norm_num) (by rw [abs_of_pos (by norm_num)]; norm_num))
  norm_num at h
  refine ⟨round 0.001, ?_, by norm_num; linarith, by norm_num; linarith⟩
  rw [lit_fin (by rw [e, abs_of_pos (by norm_num)]; norm_num), e]; rfl

theorem b2_lit [Libm] : ∃ c, (lit 0.999 : F32) = num c ∧ 0.99899 ≤ c ∧ c ≤ 0.99901 := by
  have h := abs_le.1 (round_err (x := 0.999) (k := 0) (by norm_num) (by rw [abs_of_pos (by norm_num)]; norm_num))
  norm_num at h
  refine ⟨round 0.999, ?_, by norm_num; linarith, by norm_num; linarith⟩
  rw [lit_fin (by rw [abs_of_pos (by norm_num)]; norm_num)]; rfl

theorem rep_scaled {m : ℤ} (hm : |m| ≤ 2 ^ 24) {e : ℤ} (he : -149 ≤ e) (k : ℕ) : Rep ((m : ℝ) * 2 ^ e * 2 ^ k) :=
  ⟨m, e + k, hm, by omega, by rw [zpow_add₀ (by norm_num), zpow_natCast]; ring⟩

theorem pinf_add_nonneg {y : F32} (hy : y = ⟨pinf⟩ ∨ ∃ w, y = num w) : (⟨pinf⟩ : F32) + y = ⟨pinf⟩ := by
  rcases hy with rfl | ⟨w, rfl⟩ <;> rfl

theorem add_pinf_nonneg {y : F32} (hy : y = ⟨pinf⟩ ∨ ∃ w, y = num w) : y + (⟨pinf⟩ : F32) = ⟨pinf⟩ := by
  rcases hy with rfl | ⟨w, rfl⟩ <;> rfl

theorem pos_mul_pinf {c : ℝ} (hc : 0 < c) : num c * ⟨pinf⟩ = ⟨pinf⟩ := by
  change (⟨rd (ofSign c)⟩ : F32) = _
  rw [ofSign, if_pos hc]; rfl

theorem mul_nonneg_cases {a b : ℝ} (h : 0 ≤ a * b) :
    num a * num b = ⟨pinf⟩ ∨ num a * num b = num (round (a * b)) := by
  rcases rd_cases h with e | e
  · left; change (⟨rd (fin (a * b))⟩ : F32) = _; rw [e]
  · right; change (⟨rd (fin (a * b))⟩ : F32) = _; rw [e]; rfl

theorem add_nonneg_cases {a b : ℝ} (h : 0 ≤ a + b) :
    num a + num b = ⟨pinf⟩ ∨ num a + num b = num (round (a + b)) := by
  rcases rd_cases h with e | e
  · left; change (⟨rd (fin (a + b))⟩ : F32) = _; rw [e]
  · right; change (⟨rd (fin (a + b))⟩ : F32) = _; rw [e]; rfl

theorem div_nonneg_cases {a b : ℝ} (hb : b ≠ 0) (h : 0 ≤ a / b) :
    num a / num b = ⟨pinf⟩ ∨ num a / num b = num (round (a / b)) := by
  have e0 : (num a / num b : F32) = ⟨rd (fin (a / b))⟩ := by
    change (⟨rd (fin a / fin b)⟩ : F32) = _
    rw [fin_div hb]
  rcases rd_cases h with e | e
  · left; rw [e0, e]
  · right; rw [e0, e]; rfl

/-- The second moment after an update: infinite, or nearly as large as in exact arithmetic. -/
theorem v_step {c b g : ℝ} (hc : 0.000999 ≤ c) (hb : 0.99899 ≤ b) {v : F32}
    (hv : v = ⟨pinf⟩ ∨ ∃ w, v = num w ∧ 0 ≤ w) :
    num c * (num g * num g) + num b * v = ⟨pinf⟩ ∨ ∃ w v', v = num w ∧ 0 ≤ w ∧
      num c * (num g * num g) + num b * v = num v' ∧ 0 ≤ v' ∧ 0.00099 * g ^ 2 + 0.9989 * w - 2 ^ (-147 : ℤ) ≤ v' := by
  have c0 : 0 < c := by linarith
  have b0 : 0 < b := by linarith
  have hg0 : 0 ≤ g * g := mul_self_nonneg g
  -- the new square
  have hA : num c * (num g * num g) = ⟨pinf⟩ ∨ ∃ y, num c * (num g * num g) = num y ∧ 0 ≤ y ∧
      0.0009989 * g ^ 2 - 2 ^ (-149 : ℤ) ≤ y := by
    rcases mul_nonneg_cases hg0 with e | e
    · left; rw [e, pos_mul_pinf c0]
    · have hr := round_nonneg hg0
      have h1 := round_down hg0
      rw [e]
      rcases mul_nonneg_cases (mul_nonneg c0.le hr) with e' | e'
      · exact .inl e'
      · right
        refine ⟨_, e', round_nonneg (mul_nonneg c0.le hr), ?_⟩
        have h2 := round_down (mul_nonneg c0.le hr)
        have z : (2 : ℝ) ^ (-149 : ℤ) = 2 * 2 ^ (-150 : ℤ) := by
          rw [show (-149 : ℤ) = 1 + -150 by norm_num, zpow_add₀ (by norm_num)]; norm_num
        have z0 := two_zpow_pos (-150)
        have z1 : (2 : ℝ) ^ (-24 : ℤ) ≤ 0.0000001 := by norm_num
        have z2 := two_zpow_pos (-24)
        rw [z]
        generalize (2 : ℝ) ^ (-150 : ℤ) = z at *
        generalize (2 : ℝ) ^ (-24 : ℤ) = ε at *
        generalize round (g * g) = r at *
        have h3 : 0.000999 * r ≤ c * r := mul_le_mul_of_nonneg_right hc hr
        have h4 : (1 - ε) * (c * r) ≥ 0.9999999 * (0.000999 * r) :=
          mul_le_mul (by linarith) h3 (by positivity) (by linarith)
        have h5 : 0.9999999 * (g * g) ≤ (1 - ε) * (g * g) := mul_le_mul_of_nonneg_right (by linarith) hg0
        nlinarith
  -- the old moment
  have hB : num b * v = ⟨pinf⟩ ∨ ∃ w y, v = num w ∧ 0 ≤ w ∧ num b * v = num y ∧ 0 ≤ y ∧
      0.99898 * w - 2 ^ (-150 : ℤ) ≤ y := by
    rcases hv with rfl | ⟨w, rfl, hw⟩
    · exact .inl (pos_mul_pinf b0)
    · rcases mul_nonneg_cases (mul_nonneg b0.le hw) with e | e
      · exact .inl e
      · right
        refine ⟨w, _, rfl, hw, e, round_nonneg (mul_nonneg b0.le hw), ?_⟩
        have h2 := round_down (mul_nonneg b0.le hw)
        have z1 : (2 : ℝ) ^ (-24 : ℤ) ≤ 0.0000001 := by norm_num
        have z2 := two_zpow_pos (-24)
        generalize (2 : ℝ) ^ (-150 : ℤ) = z at *
        generalize (2 : ℝ) ^ (-24 : ℤ) = ε at *
        have h4 : (1 - ε) * (b * w) ≥ 0.9999999 * (0.99899 * w) :=
          mul_le_mul (by linarith) (mul_le_mul_of_nonneg_right hb hw) (by positivity) (by linarith)
        nlinarith
  rcases hA with eA | ⟨y, eA, y0, y1⟩
  · left
    rw [eA]
    apply pinf_add_nonneg
    rcases hB with eB | ⟨_, x, -, -, eB, -⟩
    · exact .inl eB
    · exact .inr ⟨x, eB⟩
  · rcases hB with eB | ⟨w, x, ew, w0, eB, x0, x1⟩
    · left
      rw [eB, eA]
      exact add_pinf_nonneg (.inr ⟨y, rfl⟩)
    · rw [eA, eB]
      rcases add_nonneg_cases (add_nonneg y0 x0) with e | e
      · exact .inl e
      · right
        refine ⟨w, _, ew, w0, e, round_nonneg (add_nonneg y0 x0), ?_⟩
        have h2 := round_down (add_nonneg y0 x0)
        have z : (2 : ℝ) ^ (-149 : ℤ) = 2 * 2 ^ (-150 : ℤ) := by
          rw [show (-149 : ℤ) = 1 + -150 by norm_num, zpow_add₀ (by norm_num)]; norm_num
        have z' : (2 : ℝ) ^ (-147 : ℤ) = 8 * 2 ^ (-150 : ℤ) := by
          rw [show (-147 : ℤ) = 3 + -150 by norm_num, zpow_add₀ (by norm_num)]; norm_num
        have z0 := two_zpow_pos (-150)
        have z1 : (2 : ℝ) ^ (-24 : ℤ) ≤ 0.0000001 := by norm_num
        have z2 := two_zpow_pos (-24)
        rw [z] at y1
        rw [z']
        generalize (2 : ℝ) ^ (-150 : ℤ) = z at *
        generalize (2 : ℝ) ^ (-24 : ℤ) = ε at *
        have h4 : (1 - ε) * (y + x) ≥ 0.9999999 * (y + x) :=
          mul_le_mul_of_nonneg_right (by linarith) (add_nonneg y0 x0)
        nlinarith [sq_nonneg g]

/-- The first moment after an update. -/
theorem m_step {k : ℕ} (hk : k ≤ 126) {g m : ℝ} (hg : |g| ≤ 2 ^ k) (hm : |m| ≤ 2 ^ k) [Libm] :
    ∃ a, (lit (1 - 0.9) : F32) * num g + lit 0.9 * num m = num a ∧ |a| ≤ 2 ^ k ∧
      |a| ≤ 0.1001 * |g| + 0.9001 * |m| + 2 ^ (-147 : ℤ) := by
  rw [c1_lit, b1_lit]
  have hc : (0 : ℝ) < 13421773 * 2 ^ (-27 : ℤ) := by positivity
  have hb : (0 : ℝ) < 15099494 * 2 ^ (-24 : ℤ) := by positivity
  have hcb : (13421773 * 2 ^ (-27 : ℤ) + 15099494 * 2 ^ (-24 : ℤ) : ℝ) ≤ 1 := by norm_num
  have hc1 : (13421773 * 2 ^ (-27 : ℤ) : ℝ) ≤ 0.10001 := by norm_num
  have hb1 : (15099494 * 2 ^ (-24 : ℤ) : ℝ) ≤ 0.90001 := by norm_num
  have rc : Rep ((13421773 * 2 ^ (-27 : ℤ) : ℝ) * 2 ^ k) := by
    have := rep_scaled (m := 13421773) (by norm_num) (e := -27) (by norm_num) k
    exact_mod_cast this
  have rb : Rep ((15099494 * 2 ^ (-24 : ℤ) : ℝ) * 2 ^ k) := by
    have := rep_scaled (m := 15099494) (by norm_num) (e := -24) (by norm_num) k
    exact_mod_cast this
  generalize (13421773 * 2 ^ (-27 : ℤ) : ℝ) = c at *
  generalize (15099494 * 2 ^ (-24 : ℤ) : ℝ) = b at *
  have p0 : (0 : ℝ) < 2 ^ k := by positivity
  have hcg : |c * g| ≤ c * 2 ^ k := by rw [abs_mul, abs_of_pos hc]; exact mul_le_mul_of_nonneg_left hg hc.le
  have hbm : |b * m| ≤ b * 2 ^ k := by rw [abs_mul, abs_of_pos hb]; exact mul_le_mul_of_nonneg_left hm hb.le
  have l1 : c * 2 ^ k ≤ 2 ^ k := by nlinarith
  have l2 : b * 2 ^ k ≤ 2 ^ k := by nlinarith
  have k127 : (2 : ℝ) ^ k ≤ 2 ^ (127 : ℕ) := pow_le_pow_right₀ (by norm_num) (by omega)
  have e1 : num c * num g = num (round (c * g)) := mul_fin (hcg.trans (l1.trans k127))
  have e2 : num b * num m = num (round (b * m)) := mul_fin (hbm.trans (l2.trans k127))
  have r1 := round_abs_le_rep rc hcg
  have r2 := round_abs_le_rep rb hbm
  have hs : |round (c * g) + round (b * m)| ≤ 2 ^ k :=
    (abs_add_le _ _).trans ((add_le_add r1 r2).trans (by rw [← add_mul]; nlinarith))
  have e3 : num (round (c * g)) + num (round (b * m)) = num (round (round (c * g) + round (b * m))) :=
    add_fin (hs.trans k127)
  refine ⟨_, by rw [e1, e2, e3], round_abs_le hs, ?_⟩
  have u1 := round_up (c * g)
  have u2 := round_up (b * m)
  have u3 := round_up (round (c * g) + round (b * m))
  have u4 := abs_add_le (round (c * g)) (round (b * m))
  rw [abs_mul, abs_of_pos hc] at u1
  rw [abs_mul, abs_of_pos hb] at u2
  have z' : (2 : ℝ) ^ (-147 : ℤ) = 8 * 2 ^ (-150 : ℤ) := by
    rw [show (-147 : ℤ) = 3 + -150 by norm_num, zpow_add₀ (by norm_num)]; norm_num
  have z0 := two_zpow_pos (-150)
  have z1 : (2 : ℝ) ^ (-24 : ℤ) ≤ 0.0000001 := by norm_num
  have z2 := two_zpow_pos (-24)
  rw [z']
  have g0 := abs_nonneg g
  have m0 := abs_nonneg m
  generalize (2 : ℝ) ^ (-150 : ℤ) = z at *
  generalize (2 : ℝ) ^ (-24 : ℤ) = ε at *
  generalize |g| = G at *
  generalize |m| = M at *
  have v1 : (1 + ε) * (c * G) ≤ 1.0000001 * (0.10001 * G) :=
    mul_le_mul (by linarith) (mul_le_mul_of_nonneg_right hc1 g0) (by positivity) (by norm_num)
  have v2 : (1 + ε) * (b * M) ≤ 1.0000001 * (0.90001 * M) :=
    mul_le_mul (by linarith) (mul_le_mul_of_nonneg_right hb1 m0) (by positivity) (by norm_num)
  have v3 : (1 + ε) * |round (c * g) + round (b * m)| ≤
      1.0000001 * (1.0000001 * (0.10001 * G) + z + (1.0000001 * (0.90001 * M) + z)) :=
    mul_le_mul (by linarith) (by linarith) (abs_nonneg _) (by norm_num)
  linarith

/-- The moments stay in proportion. -/
theorem mom_step [Libm] {k : ℕ} (hk : k ≤ 126) {g : F32} (hg : Bd g k) {m v : F32} (h : Mom k m v) :
    Mom k (lit (1 - 0.9) * g + lit 0.9 * m) (lit (1 - 0.999) * (g * g) + lit 0.999 * v) := by
  obtain ⟨γ, rfl, hγ⟩ := hg
  obtain ⟨μ, rfl, hμ, hv⟩ := h
  obtain ⟨a, ea, a1, a2⟩ := m_step hk hγ hμ
  obtain ⟨c, ec, c1, -⟩ := c2_lit
  obtain ⟨b, eb, b1, -⟩ := b2_lit
  refine ⟨a, ea, a1, ?_⟩
  rw [ec, eb]
  rcases v_step (g := γ) c1 b1 (v := v) (hv.imp id fun ⟨w, e, h, _⟩ => ⟨w, e, h⟩) with e | ⟨w, v', ew, w0, e, v0, v1⟩
  · exact .inl e
  · right
    refine ⟨v', e, v0, ?_⟩
    rcases hv with rfl | ⟨w', ew', -, hw'⟩
    · cases ew
    · have : w' = w := by
        rw [ew'] at ew; cases ew; rfl
      subst this
      exact moment_real (two_zpow_pos (-147)).le le_rfl hw' a2 v1

/-! ## The quotient -/

theorem quot_real {a w T d σ : ℝ} (hσ : 0 ≤ σ) (hT : |T| ≤ 1.01 * σ * (25.1 * |a| + 2 ^ (-150 : ℤ)) + 2 ^ (-150 : ℤ))
    (hw : 0 ≤ w) (ha : a ^ 2 ≤ 64 * (w + 2 ^ (-130 : ℤ))) (hd : 2 ^ (-27 : ℤ) ≤ d)
    (hd' : 2 ^ (-124 : ℤ) ≤ w → 0.4 * √w ≤ d) : |T| ≤ (550 * σ + 2 ^ (-84 : ℤ)) * d := by
  have z150 : (2 : ℝ) ^ (-150 : ℤ) = 2 ^ (-88 : ℤ) * 2 ^ (-62 : ℤ) := by rw [← zpow_add₀ (by norm_num)]; norm_num
  have z130 : (2 : ℝ) ^ (-130 : ℤ) = 2 ^ (-6 : ℤ) * 2 ^ (-124 : ℤ) := by rw [← zpow_add₀ (by norm_num)]; norm_num
  have z124 : (2 : ℝ) ^ (-124 : ℤ) = 2 ^ (-62 : ℤ) * 2 ^ (-62 : ℤ) := by rw [← zpow_add₀ (by norm_num)]; norm_num
  have z62 : (2 : ℝ) ^ (-62 : ℤ) = 2 ^ (-35 : ℤ) * 2 ^ (-27 : ℤ) := by rw [← zpow_add₀ (by norm_num)]; norm_num
  have z84 : (2 : ℝ) ^ (-84 : ℤ) = 2 ^ (4 : ℤ) * 2 ^ (-88 : ℤ) := by rw [← zpow_add₀ (by norm_num)]; norm_num
  have s35 : (2 : ℝ) ^ (-35 : ℤ) ≤ 0.0001 := by norm_num
  have s88 : (2 : ℝ) ^ (-88 : ℤ) ≤ 0.0001 := by
    refine le_trans (zpow_mono2 (show (-88 : ℤ) ≤ -35 by norm_num)) s35
  have s6 : (2 : ℝ) ^ (-6 : ℤ) = 1 / 64 := by norm_num
  have s4 : (2 : ℝ) ^ (4 : ℤ) = 16 := by norm_num
  have p62 := two_zpow_pos (-62)
  have p88 := two_zpow_pos (-88)
  have p27 := two_zpow_pos (-27)
  have p35 := two_zpow_pos (-35)
  rw [z84, s4]
  rcases le_or_gt ((2 : ℝ) ^ (-124 : ℤ)) w with h | h
  · have hdw := hd' h
    have hr : (2 : ℝ) ^ (-62 : ℤ) ≤ √w := by
      apply Real.le_sqrt_of_sq_le
      rw [sq, ← z124]; exact h
    have haw : |a| ≤ 8.1 * √w := by
      apply abs_le_of_sq_le_sq _ (by positivity)
      rw [mul_pow, Real.sq_sqrt hw]
      rw [z130, s6] at ha
      clear hT hd hd' z150 z130 z124 z62 z84
      generalize (2 : ℝ) ^ (-124 : ℤ) = x at *
      norm_num
      linarith
    rw [z150] at hT
    generalize √w = r at *
    generalize (2 : ℝ) ^ (-62 : ℤ) = x at *
    generalize (2 : ℝ) ^ (-88 : ℤ) = y at *
    have h1 : y * x ≤ y * r := mul_le_mul_of_nonneg_left hr p88.le
    have r0 : 0 ≤ r := p62.le.trans hr
    have h2 : 25.1 * |a| + y * x ≤ 203.4 * r := by
      have : y * r ≤ 0.0001 * r := mul_le_mul_of_nonneg_right s88 r0
      linarith
    have h3 : 1.01 * σ * (25.1 * |a| + y * x) ≤ 1.01 * σ * (203.4 * r) := mul_le_mul_of_nonneg_left h2 (by positivity)
    have h4 : |T| ≤ (206 * σ + y) * r := by nlinarith
    have h5 : (206 * σ + y) * r ≤ (206 * σ + y) * (2.5 * d) := mul_le_mul_of_nonneg_left (by linarith) (by positivity)
    have d0 : 0 ≤ d := p27.le.trans hd
    nlinarith [mul_nonneg hσ d0, mul_nonneg p88.le d0]
  · have haw : |a| ≤ 9 * 2 ^ (-62 : ℤ) := by
      apply abs_le_of_sq_le_sq _ (by positivity)
      rw [mul_pow, sq ((2 : ℝ) ^ (-62 : ℤ)), ← z124]
      rw [z130, s6] at ha
      clear hT hd hd' z150 z130 z124 z62 z84
      generalize (2 : ℝ) ^ (-124 : ℤ) = x at *
      norm_num
      linarith
    have d0 : 0 ≤ d := p27.le.trans hd
    rw [z150] at hT
    have hx : (2 : ℝ) ^ (-62 : ℤ) ≤ 0.0001 * d := by
      rw [z62]; exact mul_le_mul s35 hd p27.le (by norm_num)
    generalize (2 : ℝ) ^ (-62 : ℤ) = x at *
    generalize (2 : ℝ) ^ (-88 : ℤ) = y at *
    have h2 : 25.1 * |a| + y * x ≤ 226 * x := by
      have : y * x ≤ 0.0001 * x := mul_le_mul_of_nonneg_right s88 p62.le
      linarith
    have h3 : 1.01 * σ * (25.1 * |a| + y * x) ≤ 1.01 * σ * (226 * x) := mul_le_mul_of_nonneg_left h2 (by positivity)
    have h4 : |T| ≤ (229 * σ + y) * x := by nlinarith
    have h5 : (229 * σ + y) * x ≤ (229 * σ + y) * (0.0001 * d) := mul_le_mul_of_nonneg_left hx (by positivity)
    nlinarith [mul_nonneg hσ d0, mul_nonneg p88.le d0]

/-- One step of the parameter is at most 600 step sizes long (and `2^-80`), whatever the gradients were. -/
theorem quot_bd [Libm] {A : AdamMath} (hA : A.Good) {k : ℕ} (hk : k ≤ 110) {m v : F32} (h : Mom k m v) {a1 a2 σ : ℝ}
    (h1 : 0.04 ≤ a1) (h2 : 0.0005 ≤ a2) (h3 : a2 ≤ 1.01) (hσ : |σ| ≤ 2 ^ (10 : ℕ)) :
    ∃ r, num σ * (m / num a1) / (⟨A.sqrt (v / num a2).v⟩ + lit 1e-8) = num r ∧ |r| ≤ 600 * |σ| + 2 ^ (-80 : ℤ) := by
  obtain ⟨a, rfl, ha, hv⟩ := h
  have p1 : 0 < a1 := by linarith
  have p2 : 0 < a2 := by linarith
  -- the first moment, corrected
  have q1 : |a / a1| ≤ 25 * |a| := by
    rw [abs_div, abs_of_pos p1, div_le_iff₀ p1]
    nlinarith [abs_nonneg a]
  have q2 : |a / a1| ≤ 2 ^ (k + 5) := by
    refine q1.trans ?_
    rw [pow_add]
    have : (0 : ℝ) < 2 ^ k := by positivity
    norm_num
    linarith
  have e1 : num a / num a1 = num (round (a / a1)) := div_fin p1.ne' (q2.trans (pow_le127 (by omega)))
  have r1 := round_abs_le q2
  have u1 := round_up (a / a1)
  -- times the step size
  have q3 : |σ * round (a / a1)| ≤ 2 ^ (10 + (k + 5)) := by
    rw [abs_mul, pow_add]; exact mul_le_mul hσ r1 (abs_nonneg _) (by positivity)
  have e2 : num σ * num (round (a / a1)) = num (round (σ * round (a / a1))) :=
    mul_fin (q3.trans (pow_le127 (by omega)))
  have r2 := round_abs_le q3
  have u2 := round_up (σ * round (a / a1))
  rw [e1, e2]
  have hT : |round (σ * round (a / a1))| ≤ 1.01 * |σ| * (25.1 * |a| + 2 ^ (-150 : ℤ)) + 2 ^ (-150 : ℤ) := by
    rw [abs_mul] at u2
    have z0 := two_zpow_pos (-150)
    have z1 : (2 : ℝ) ^ (-24 : ℤ) ≤ 0.0000001 := by norm_num
    have z2 := two_zpow_pos (-24)
    generalize (2 : ℝ) ^ (-150 : ℤ) = z at *
    generalize (2 : ℝ) ^ (-24 : ℤ) = ε at *
    have w1 : (1 + ε) * |a / a1| ≤ 1.0000001 * (25 * |a|) :=
      mul_le_mul (by linarith) q1 (abs_nonneg _) (by norm_num)
    have w2 : |round (a / a1)| ≤ 25.1 * |a| + z := by linarith [abs_nonneg a]
    have w3 : |σ| * |round (a / a1)| ≤ |σ| * (25.1 * |a| + z) := mul_le_mul_of_nonneg_left w2 (abs_nonneg _)
    have w4 : (1 + ε) * (|σ| * |round (a / a1)|) ≤ 1.01 * (|σ| * (25.1 * |a| + z)) :=
      mul_le_mul (by linarith) w3 (by positivity) (by norm_num)
    linarith
  generalize round (σ * round (a / a1)) = T at *
  -- the denominator
  have hinf : num T / ⟨pinf⟩ = num 0 := by
    change (⟨rd (fin 0)⟩ : F32) = _
    rw [rd_fin (by rw [abs_zero]; positivity), round_zero]; rfl
  obtain ⟨ε8, e8, e8', e8''⟩ : ∃ y, (lit 1e-8 : F32) = num y ∧ 2 ^ (-27 : ℤ) ≤ y ∧ y ≤ 1 := by
    refine ⟨round 1e-8, lit_fin (by rw [abs_of_pos (by norm_num)]; norm_num), ?_, ?_⟩
    · exact le_round (by norm_num) (rep_zpow (by norm_num))
    · exact round_le (by norm_num) (by simpa using rep_nat 1 (by norm_num))
  have hp : (⟨A.sqrt pinf⟩ : F32) + num ε8 = ⟨pinf⟩ := by rw [hA.sqrt_inf]; rfl
  have zr : |(0 : ℝ)| ≤ 600 * |σ| + 2 ^ (-80 : ℤ) := by rw [abs_zero]; positivity
  rw [e8]
  rcases hv with rfl | ⟨w, rfl, w0, hw⟩
  · have : ((⟨pinf⟩ : F32) / num a2).v = pinf := by
      change rd (if a2 < 0 then ninf else pinf) = _
      rw [if_neg (by linarith)]; rfl
    rw [this, hp, hinf]
    exact ⟨0, rfl, zr⟩
  rcases div_nonneg_cases p2.ne' (div_nonneg w0 p2.le) with e | e
  · rw [e, hp, hinf]
    exact ⟨0, rfl, zr⟩
  have vh0 := round_nonneg (div_nonneg w0 p2.le)
  have vlt : round (w / a2) ≤ 2 ^ (128 : ℕ) := by
    have : rd (fin (w / a2)) = fin (round (w / a2)) := by
      have e0 : (num w / num a2 : F32) = ⟨rd (fin (w / a2))⟩ := by
        change (⟨rd (fin w / fin a2)⟩ : F32) = _
        rw [fin_div p2.ne']
      rw [e0] at e
      exact congrArg F32.v e
    by_contra hc
    unfold rd at this
    simp only at this
    rw [if_pos (not_le.1 hc).le] at this
    cases this
  have vdn := round_down (div_nonneg w0 p2.le)
  rw [e]
  obtain ⟨y, ey, y0, y1, y2⟩ := hA.sqrt_fin _ vh0
  have ey' : (⟨A.sqrt (num (round (w / a2))).v⟩ : F32) = num y := congrArg F32.mk ey
  rw [ey']
  have yb : y ≤ 2 ^ (65 : ℕ) := by
    refine y1.trans ?_
    have : √(round (w / a2)) ≤ 2 ^ (64 : ℕ) := by
      rw [Real.sqrt_le_left (by positivity), ← pow_mul]; exact vlt
    rw [pow_succ]; linarith
  have hs0 : 0 ≤ y + ε8 := by have := two_zpow_pos (-27); linarith
  have hs : |y + ε8| ≤ 2 ^ (66 : ℕ) := by
    rw [abs_of_nonneg hs0]
    have : (2 : ℝ) ^ (66 : ℕ) = 2 * 2 ^ (65 : ℕ) := by rw [pow_succ]; ring
    have h1 : (1 : ℝ) ≤ 2 ^ (65 : ℕ) := one_le_pow₀ (by norm_num)
    linarith
  have e4 : num y + num ε8 = num (round (y + ε8)) := add_fin (hs.trans (pow_le127 (by norm_num)))
  rw [e4]
  have d1 : 2 ^ (-27 : ℤ) ≤ round (y + ε8) := le_round (by linarith) (rep_zpow (by norm_num))
  have d2 : 2 ^ (-124 : ℤ) ≤ w → 0.4 * √w ≤ round (y + ε8) := by
    intro hw124
    have hdn := round_down hs0
    have wa : 0.99 * w ≤ w / a2 := by
      rw [le_div_iff₀ p2]; nlinarith
    have z0 := two_zpow_pos (-150)
    have z1 : (2 : ℝ) ^ (-24 : ℤ) ≤ 0.0000001 := by norm_num
    have z2 := two_zpow_pos (-24)
    have z150 : (2 : ℝ) ^ (-150 : ℤ) = 2 ^ (-26 : ℤ) * 2 ^ (-124 : ℤ) := by rw [← zpow_add₀ (by norm_num)]; norm_num
    have z150' : (2 : ℝ) ^ (-150 : ℤ) ≤ 0.0001 * w := by
      rw [z150]; exact mul_le_mul (by norm_num) hw124 (two_zpow_pos _).le (by norm_num)
    have wv : 0.9 * w ≤ round (w / a2) := by
      have : 0.9999999 * (0.99 * w) ≤ (1 - 2 ^ (-24 : ℤ)) * (w / a2) :=
        mul_le_mul (by linarith only [z1]) wa (by positivity) (sub_nonneg.2 (z1.trans (by norm_num)))
      generalize (2 : ℝ) ^ (-24 : ℤ) = ε at this vdn
      generalize (2 : ℝ) ^ (-150 : ℤ) = z at z150' vdn
      linarith only [this, vdn, z150', w0]
    have h126 : (2 : ℝ) ^ (-126 : ℤ) ≤ round (w / a2) := by
      have : (2 : ℝ) ^ (-126 : ℤ) = 1 / 4 * 2 ^ (-124 : ℤ) := by
        rw [show (-126 : ℤ) = -2 + -124 by norm_num, zpow_add₀ (by norm_num)]; norm_num
      rw [this]
      have p := two_zpow_pos (-124)
      generalize (2 : ℝ) ^ (-124 : ℤ) = z at p hw124
      linarith only [p, hw124, wv]
    have hy := y2 h126
    have hsq : 0.9 * √w ≤ √(round (w / a2)) := by
      apply Real.le_sqrt_of_sq_le
      rw [mul_pow, Real.sq_sqrt w0]; linarith
    have zs : (2 : ℝ) ^ (-150 : ℤ) ≤ 0.0001 * 2 ^ (-27 : ℤ) := by
      rw [show (-150 : ℤ) = -123 + -27 by norm_num, zpow_add₀ (by norm_num)]
      refine mul_le_mul_of_nonneg_right ?_ (two_zpow_pos _).le
      refine le_trans (zpow_mono2 (show (-123 : ℤ) ≤ -24 by norm_num)) (z1.trans (by norm_num))
    have : 0.9999999 * (y + ε8) ≤ (1 - 2 ^ (-24 : ℤ)) * (y + ε8) := mul_le_mul_of_nonneg_right (by linarith) hs0
    have s0 := Real.sqrt_nonneg w
    have p27 := two_zpow_pos (-27)
    generalize (2 : ℝ) ^ (-24 : ℤ) = ε at this hdn
    generalize (2 : ℝ) ^ (-150 : ℤ) = z at zs hdn
    generalize (2 : ℝ) ^ (-27 : ℤ) = x at p27 zs e8'
    linarith only [this, hdn, zs, e8', hy, hsq, s0, p27]
  generalize round (y + ε8) = d at *
  have dpos : 0 < d := (two_zpow_pos _).trans_le d1
  have key := quot_real (abs_nonneg σ) hT w0 hw d1 d2
  have kq : |T / d| ≤ 550 * |σ| + 2 ^ (-84 : ℤ) := by
    rw [abs_div, abs_of_pos dpos, div_le_iff₀ dpos]; exact key
  have z84 : (2 : ℝ) ^ (-84 : ℤ) ≤ 1 := by
    rw [show (1 : ℝ) = 2 ^ (0 : ℤ) by norm_num]; exact zpow_mono2 (by norm_num)
  have kq' : |T / d| ≤ 2 ^ (127 : ℕ) := by
    refine kq.trans ?_
    have : (550 * 2 ^ 10 + 1 : ℝ) ≤ 2 ^ (127 : ℕ) := by norm_num
    linarith
  refine ⟨round (T / d), div_fin dpos.ne' kq', ?_⟩
  have u5 := round_up (T / d)
  have z1 : (2 : ℝ) ^ (-24 : ℤ) ≤ 0.0000001 := by norm_num
  have z150 : (2 : ℝ) ^ (-150 : ℤ) ≤ 2 ^ (-84 : ℤ) := zpow_mono2 (by norm_num)
  have z80 : (2 : ℝ) ^ (-80 : ℤ) = 16 * 2 ^ (-84 : ℤ) := by
    rw [show (-80 : ℤ) = 4 + -84 by norm_num, zpow_add₀ (by norm_num)]; norm_num
  have z0 := two_zpow_pos (-84)
  have : (1 + 2 ^ (-24 : ℤ)) * |T / d| ≤ 1.0000001 * (550 * |σ| + 2 ^ (-84 : ℤ)) :=
    mul_le_mul (by linarith) kq (abs_nonneg _) (by norm_num)
  rw [z80]
  linarith [abs_nonneg σ]

/-- The bias corrections. -/
theorem corr [Libm] {A : AdamMath} (hA : A.Good) (i : ℕ) :
    (∃ a1, (lit 1 - ⟨A.pow (lit 0.9 : F32).v (i + 1)⟩ : F32) = num a1 ∧ 0.04 ≤ a1) ∧
    ∃ a2, (lit 1 - ⟨A.pow (lit 0.999 : F32).v (i + 1)⟩ : F32) = num a2 ∧ 0.0005 ≤ a2 ∧ a2 ≤ 1.01 := by
  have l1 : (lit 1 : F32) = num 1 := by simpa using lit_nat (n := 1) (by norm_num)
  have key : ∀ b : ℝ, 0 ≤ b → b ≤ 0.99901 → ∃ a, (lit 1 - ⟨A.pow (fin b) (i + 1)⟩ : F32) = num a ∧
      1 - b - 0.0001 ≤ a ∧ a ≤ 1.01 := by
    intro b b0 b1
    obtain ⟨y, ey, hy⟩ := hA.pow_acc b b0 (by linarith) (i + 1)
    have hp : b ^ (i + 1) ≤ b := by
      rw [pow_succ]
      have : b ^ i ≤ 1 := pow_le_one₀ b0 (by linarith)
      nlinarith
    have hp0 : 0 ≤ b ^ (i + 1) := by positivity
    have z20 : (2 : ℝ) ^ (-20 : ℤ) ≤ 0.000001 := by norm_num
    obtain ⟨y1, y2⟩ := abs_le.1 (hy.trans z20)
    clear hy z20
    have hb : |1 - y| < 2 ^ (1 : ℤ) := by rw [zpow_one, abs_lt]; constructor <;> linarith
    have z24 : (2 : ℝ) ^ ((1 : ℤ) - 25) ≤ 0.000001 := by norm_num
    have he := abs_le.1 ((round_err (by norm_num) hb).trans z24)
    refine ⟨round (1 - y), ?_, by linarith only [he.1, y2, hp], by linarith only [he.2, y1, hp0]⟩
    rw [l1, ey]
    refine sub_fin (hb.le.trans ?_)
    norm_num
  constructor
  · obtain ⟨a, ea, h1, -⟩ := key (15099494 * 2 ^ (-24 : ℤ)) (by positivity) (by norm_num)
    refine ⟨a, ?_, ?_⟩
    · rw [b1_lit]; exact ea
    · refine le_trans ?_ h1; norm_num
  · obtain ⟨b, eb, b1, b2⟩ := b2_lit
    obtain ⟨a, ea, h1, h2⟩ := key b (by linarith) b2
    exact ⟨a, by rw [eb]; exact ea, by linarith, h2⟩

end

end Diffmah.F32

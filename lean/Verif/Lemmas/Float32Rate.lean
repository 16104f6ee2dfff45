import Verif.Lemmas.Float32Err
import Mathlib.Analysis.SpecialFunctions.Log.Deriv
import Mathlib.Analysis.Complex.ExponentialBounds

/-!
# Forward error analysis of the accretion rate in single precision

Errors before the multiplication by the mass are counted in units of `eps = 2^-22`, relative to the
derivative `g` of the mass by the log mass; after it, relative to the result.
-/

namespace Diffmah.F32

open JOps XR

/-! ### One rounding, relative -/

/-- The error of one rounding: relative `2^-24`, and `2^-150` in case of underflow. -/
theorem round_rel (x : ℝ) : |round x - x| ≤ 2 ^ (-24 : ℤ) * |x| + 2 ^ (-150 : ℤ) := by
  by_cases h0 : x = 0
  · rw [h0, round_zero]; simp
  have e : round x - x = (rne (x / 2 ^ ulpExp x) - x / 2 ^ ulpExp x) * 2 ^ ulpExp x := by
    unfold round; rw [sub_mul, div_mul_cancel₀ _ (two_zpow_pos _).ne']
  have h1 : |round x - x| ≤ 1 / 2 * 2 ^ ulpExp x := by
    rw [e, abs_mul, abs_of_pos (two_zpow_pos _)]
    exact mul_le_mul_of_nonneg_right (rne_err _) (two_zpow_pos _).le
  refine h1.trans ?_
  have hx := abs_nonneg x
  rcases le_total (Int.log 2 |x|) (-126) with h | h
  · have : ulpExp x = -149 := by unfold ulpExp; rw [max_eq_right h]; norm_num
    rw [this]
    have h2 : (1 / 2 : ℝ) * 2 ^ (-149 : ℤ) = 2 ^ (-150 : ℤ) := by norm_num
    rw [h2]
    have : 0 ≤ (2 : ℝ) ^ (-24 : ℤ) * |x| := mul_nonneg (two_zpow_pos _).le hx
    linarith
  · have : ulpExp x = Int.log 2 |x| - 23 := by unfold ulpExp; rw [max_eq_left h]
    rw [this, zpow_sub₀ (by norm_num)]
    have h2 := pow_log_le h0
    have h3 : (1 / 2 : ℝ) * (2 ^ Int.log 2 |x| / 2 ^ (23 : ℤ)) = 2 ^ (-24 : ℤ) * 2 ^ Int.log 2 |x| := by
      norm_num; ring
    rw [h3]
    have h4 : (2 : ℝ) ^ (-24 : ℤ) * 2 ^ Int.log 2 |x| ≤ 2 ^ (-24 : ℤ) * |x| :=
      mul_le_mul_of_nonneg_left h2 (two_zpow_pos _).le
    have := two_zpow_pos (-150)
    linarith

/-- `x` is within the fraction `ρ` of the positive number `X`. -/
def Rel (ρ x X : ℝ) : Prop := |x - X| ≤ ρ * X

theorem Rel.bounds {ρ x X : ℝ} (h : Rel ρ x X) : (1 - ρ) * X ≤ x ∧ x ≤ (1 + ρ) * X := by
  unfold Rel at h; rw [abs_le] at h; constructor <;> linarith [h.1, h.2]

theorem Rel.mono {ρ σ x X : ℝ} (hX : 0 ≤ X) (h : Rel ρ x X) (hs : ρ ≤ σ) : Rel σ x X :=
  le_trans h (mul_le_mul_of_nonneg_right hs hX)

theorem Rel.mul {ρ σ x X y Y : ℝ} (hX : 0 ≤ X) (hY : 0 ≤ Y) (hρ : 0 ≤ ρ) (h1 : Rel ρ x X) (h2 : Rel σ y Y) :
    Rel (ρ + σ + ρ * σ) (x * y) (X * Y) := by
  unfold Rel at *
  have e : x * y - X * Y = (x - X) * (y - Y) + (x - X) * Y + X * (y - Y) := by ring
  rw [e]
  calc _ ≤ |x - X| * |y - Y| + |x - X| * Y + X * |y - Y| := by
        refine (abs_add_le _ _).trans (add_le_add ((abs_add_le _ _).trans (add_le_add ?_ ?_)) ?_)
        · rw [abs_mul]
        · rw [abs_mul, abs_of_nonneg hY]
        · rw [abs_mul, abs_of_nonneg hX]
    _ ≤ (ρ * X) * (σ * Y) + (ρ * X) * Y + X * (σ * Y) := by
        have := mul_le_mul h1 h2 (abs_nonneg _) (mul_nonneg hρ hX)
        have := mul_le_mul_of_nonneg_right h1 hY
        have := mul_le_mul_of_nonneg_left h2 hX
        linarith
    _ = _ := by ring

theorem Rel.div {ρ σ x X y Y : ℝ} (hX : 0 ≤ X) (hY : 0 < Y) (hρ : 0 ≤ ρ) (hσ : 0 ≤ σ) (hσ1 : σ ≤ 1 / 2)
    (h1 : Rel ρ x X) (h2 : Rel σ y Y) : Rel (ρ + 2 * σ + 2 * ρ * σ) (x / y) (X / Y) := by
  have hy : 0 < y := by have := h2.bounds.1; nlinarith
  have h3 : Rel (2 * σ) y⁻¹ Y⁻¹ := by
    unfold Rel at *
    have e : y⁻¹ - Y⁻¹ = (Y - y) / (y * Y) := by field_simp
    rw [e, abs_div, abs_of_pos (mul_pos hy hY), div_le_iff₀ (mul_pos hy hY), abs_sub_comm]
    refine h2.trans ?_
    have h4 : Y / 2 ≤ y := by rw [abs_le] at h2; nlinarith [h2.1]
    have e2 : 2 * σ * Y⁻¹ * (y * Y) = 2 * σ * y := by field_simp
    rw [e2]; nlinarith
  have := Rel.mul hX (inv_nonneg.2 hY.le) hρ h1 h3
  rw [div_eq_mul_inv, div_eq_mul_inv]
  refine this.mono (mul_nonneg hX (inv_nonneg.2 hY.le)) (le_of_eq (by ring))

theorem Rel.round {ρ x X : ℝ} (hX : 2 ^ (-110 : ℤ) ≤ X) (hρ1 : ρ ≤ 1 / 2) (h : Rel ρ x X) :
    Rel (ρ + 2 ^ (-23 : ℤ)) (round x) X := by
  have hX0 : 0 < X := lt_of_lt_of_le (two_zpow_pos _) hX
  have h1 := round_rel x
  have hb := h.bounds
  have hx : |x| ≤ 3 / 2 * X := by
    rw [abs_le]; constructor <;> nlinarith [hb.1, hb.2]
  have h2 : (2 : ℝ) ^ (-150 : ℤ) ≤ 2 ^ (-40 : ℤ) * X := by
    have : (2 : ℝ) ^ (-150 : ℤ) = 2 ^ (-40 : ℤ) * 2 ^ (-110 : ℤ) := by
      rw [← zpow_add₀ (by norm_num)]; norm_num
    rw [this]; exact mul_le_mul_of_nonneg_left hX (two_zpow_pos _).le
  unfold Rel at *
  have e : F32.round x - X = (F32.round x - x) + (x - X) := by ring
  rw [e]
  refine (abs_add_le _ _).trans ?_
  have h3 : (2 : ℝ) ^ (-24 : ℤ) * |x| ≤ 2 ^ (-24 : ℤ) * (3 / 2 * X) :=
    mul_le_mul_of_nonneg_left hx (two_zpow_pos _).le
  have h4 : (2 : ℝ) ^ (-24 : ℤ) * (3 / 2 * X) + 2 ^ (-40 : ℤ) * X ≤ 2 ^ (-23 : ℤ) * X := by
    have : (2 : ℝ) ^ (-24 : ℤ) * (3 / 2) + 2 ^ (-40 : ℤ) ≤ 2 ^ (-23 : ℤ) := by norm_num
    nlinarith
  rw [add_mul]
  have h5 : |F32.round x - x| ≤ 2 ^ (-23 : ℤ) * X := h1.trans ((add_le_add h3 h2).trans h4)
  exact (add_le_add h5 h).trans_eq (add_comm _ _)

/-! ### Errors relative to a scale -/

/-- One rounding of a quantity of the order of `g`. -/
theorem round_scaled {g x X E M : ℝ} (hg : 2 ^ (-100 : ℤ) ≤ g) (h : |x - g * X| ≤ g * E) (hX : |X| ≤ M) :
    |round x - g * X| ≤ g * (E + (M + E) * (eps / 4) + eps / 1000) := by
  have hg0 : 0 < g := lt_of_lt_of_le (two_zpow_pos _) hg
  have h1 := round_rel x
  have hx : |x| ≤ g * (M + E) := by
    have : x = (x - g * X) + g * X := by ring
    rw [this]
    refine (abs_add_le _ _).trans ?_
    rw [abs_mul, abs_of_pos hg0]
    have := mul_le_mul_of_nonneg_left hX hg0.le
    linarith
  have h2 : (2 : ℝ) ^ (-150 : ℤ) ≤ g * (eps / 1000) := by
    have h3 : (2 : ℝ) ^ (-150 : ℤ) = 2 ^ (-100 : ℤ) * 2 ^ (-50 : ℤ) := by
      rw [← zpow_add₀ (by norm_num)]; norm_num
    have h4 : (2 : ℝ) ^ (-50 : ℤ) ≤ eps / 1000 := by unfold eps; norm_num
    rw [h3]
    exact mul_le_mul hg h4 (two_zpow_pos _).le hg0.le
  have e : F32.round x - g * X = (F32.round x - x) + (x - g * X) := by ring
  rw [e]
  refine (abs_add_le _ _).trans ?_
  have h5 : (2 : ℝ) ^ (-24 : ℤ) = eps / 4 := by unfold eps; norm_num
  rw [h5] at h1
  have h6 : eps / 4 * |x| ≤ eps / 4 * (g * (M + E)) :=
    mul_le_mul_of_nonneg_left hx (by have := eps_pos; linarith)
  nlinarith

/-- A quantity of the order of `g` times a number. -/
theorem mul_scaled {g x X y Y E F A B : ℝ} (hg : 0 < g) (h1 : |x - g * X| ≤ g * E) (h2 : |y - Y| ≤ F)
    (hX : |X| ≤ A) (hy : |y| ≤ B) : |x * y - g * (X * Y)| ≤ g * (E * B + A * F) := by
  have e : x * y - g * (X * Y) = (x - g * X) * y + g * (X * (y - Y)) := by ring
  rw [e]
  refine (abs_add_le _ _).trans ?_
  rw [abs_mul, abs_mul, abs_of_pos hg, abs_mul]
  have a1 := mul_le_mul h1 hy (abs_nonneg _) ((abs_nonneg _).trans h1)
  have a2 := mul_le_mul hX h2 (abs_nonneg _) ((abs_nonneg _).trans hX)
  nlinarith [mul_le_mul_of_nonneg_left a2 hg.le]

theorem scaled_le127 {g x X E M : ℝ} (hg0 : 0 < g) (hg1 : g ≤ 10 ^ 24) (h : |x - g * X| ≤ g * E)
    (hX : |X| ≤ M) (hM : M + E ≤ 1000) : |x| ≤ 2 ^ (127 : ℕ) := by
  have hx : |x| ≤ g * (M + E) := by
    have : x = (x - g * X) + g * X := by ring
    rw [this]
    refine (abs_add_le _ _).trans ?_
    rw [abs_mul, abs_of_pos hg0]
    have := mul_le_mul_of_nonneg_left hX hg0.le
    linarith
  calc |x| ≤ g * (M + E) := hx
    _ ≤ 10 ^ 24 * 1000 := by
        have := mul_le_mul_of_nonneg_left hM hg0.le
        nlinarith
    _ ≤ _ := by norm_num

/-- One rounded product. -/
theorem mul_step {g x X y Y E F A B M E1 : ℝ} (hg : 2 ^ (-100 : ℤ) ≤ g) (hg1 : g ≤ 10 ^ 24)
    (h1 : |x - g * X| ≤ g * E) (h2 : |y - Y| ≤ F) (hX : |X| ≤ A) (hy : |y| ≤ B) (hM : |X * Y| ≤ M)
    (hE : E * B + A * F ≤ E1) (hb : M + E1 ≤ 1000) :
    ∃ z, num x * num y = num z ∧ |z - g * (X * Y)| ≤ g * (E1 + (M + E1) * (eps / 4) + eps / 1000) := by
  have hg0 : 0 < g := lt_of_lt_of_le (two_zpow_pos _) hg
  have a := (mul_scaled hg0 h1 h2 hX hy).trans (mul_le_mul_of_nonneg_left hE hg0.le)
  exact ⟨_, mul_fin (scaled_le127 hg0 hg1 a hM hb), round_scaled hg a hM⟩

theorem eps_le {a b : ℝ} (h : a ≤ b) : a * eps ≤ b * eps := mul_le_mul_of_nonneg_right h eps_pos.le

set_option maxHeartbeats 1000000 in
/-- The backward pass from the derivative `g` of the mass by the log mass to its derivative by the log time. -/
theorem back_near [Libm] {g s S h H r R d D Dm : ℝ} (hg : 2 ^ (-100 : ℤ) ≤ g) (hg1 : g ≤ 10 ^ 24)
    (hs : |s - S| ≤ 3 * eps) (hh : |h - H| ≤ 2 * eps) (hr : |r - R| ≤ 36.2 * eps) (hd : |d - D| ≤ 1.5 * eps)
    (hS0 : 0 ≤ S) (hS1 : S ≤ 1) (hH : |H| ≤ 10) (hR : |R| ≤ 10) (hD : |D| ≤ Dm) (hDm : Dm ≤ 8 / 3) :
    ∃ z, num g * num r + num g * num d * num h * (lit 1 - num s) * num s * lit MAH_K = num z ∧
      |z - g * (R + D * H * (1 - S) * S * 3.5)| ≤ g * ((100 + 270 * Dm) * eps) := by
  have e0 := eps_pos
  have e1 := eps_small
  have hg0 : 0 < g := lt_of_lt_of_le (two_zpow_pos _) hg
  have hDm0 : 0 ≤ Dm := (abs_nonneg _).trans hD
  have hSabs : |S| ≤ 1 := by rw [abs_of_nonneg hS0]; exact hS1
  have hS1abs : |1 - S| ≤ 1 := by rw [abs_of_nonneg (by linarith)]; linarith
  have eD : 0 ≤ Dm * eps := mul_nonneg hDm0 e0.le
  have eD2 : Dm * eps ≤ 1 / 100000 := by nlinarith
  have base : |g - g * 1| ≤ g * 0 := by simp
  -- 1 - s
  have u1 : |1 - s - (1 - S)| ≤ 3 * eps := by
    rw [show 1 - s - (1 - S) = -(s - S) by ring, abs_neg]; exact hs
  have u2 : |1 - s| ≤ 1 + 3 * eps := abs_of_near u1 hS1abs
  have u3 := round_near (z := 1 - s) 1 (by norm_num) (by norm_num; linarith)
    (show (2 : ℝ) ^ ((1 : ℤ) - 25) = eps / 4 by unfold eps; norm_num) u1
  have u4 := abs_of_near u3 hS1abs
  have q1 : (lit 1 : F32) - num s = num (round (1 - s)) := by
    have : (lit 1 : F32) = num 1 := by
      rw [lit_fin (by norm_num)]
      have : Rep 1 := by have := rep_int (m := 1) (by norm_num); exact_mod_cast this
      rw [round_rep this]; rfl
    rw [this]; exact sub_fin (le127 (n := 100) (by push_cast; linarith) (by norm_num))
  have q2 : (lit MAH_K : F32) = num 3.5 := by
    have : Rep (3.5 : ℝ) := ⟨7, -1, by norm_num, by norm_num, by norm_num⟩
    rw [lit_fin (by rw [MAH_K, abs_of_pos (by norm_num)]; norm_num)]
    exact congrArg num (round_rep this)
  have hs' := abs_of_near hs hSabs
  have hh' := abs_of_near hh hH
  have hr' := abs_of_near hr hR
  have hd' := abs_of_near hd hD
  -- by the log time, directly
  obtain ⟨z1, p1, b1⟩ := mul_step (E1 := 36.2 * eps) (M := 10) hg hg1 base hr
    (A := 1) (by simp) hr' (by simpa using hR) (by linarith) (by nlinarith)
  have b1' : |z1 - g * R| ≤ g * (38.8 * eps) := by
    rw [one_mul] at b1
    exact b1.trans (mul_le_mul_of_nonneg_left (by nlinarith) hg0.le)
  -- by the index
  obtain ⟨z2, p2, b2⟩ := mul_step (E1 := 1.5 * eps) (M := Dm) hg hg1 base hd
    (A := 1) (by simp) hd' (by simpa using hD) (by linarith) (by nlinarith)
  have b2' : |z2 - g * D| ≤ g * ((1.51 + Dm / 4) * eps) := by
    rw [one_mul] at b2
    exact b2.trans (mul_le_mul_of_nonneg_left (by nlinarith) hg0.le)
  -- by the logistic function
  have mDH : |D * H| ≤ 10 * Dm := by
    rw [abs_mul]; nlinarith [mul_le_mul hD hH (abs_nonneg _) hDm0]
  obtain ⟨z3, p3, b3⟩ := mul_step (E1 := (15.2 + 4.51 * Dm) * eps) (M := 10 * Dm) hg hg1 b2' hh hD hh' mDH
    (by
      have : (1.51 + Dm / 4) * eps * (10 + 2 * eps) + Dm * (2 * eps)
        = ((1.51 + Dm / 4) * (10 + 2 * eps) + 2 * Dm) * eps := by ring
      rw [this]; exact eps_le (by nlinarith)) (by nlinarith)
  have b3' : |z3 - g * (D * H)| ≤ g * ((15.3 + 7.1 * Dm) * eps) := by
    refine b3.trans (mul_le_mul_of_nonneg_left ?_ hg0.le)
    have : (15.2 + 4.51 * Dm) * eps + (10 * Dm + (15.2 + 4.51 * Dm) * eps) * (eps / 4) + eps / 1000
      = ((15.2 + 4.51 * Dm) + (10 * Dm + (15.2 * eps + 4.51 * (Dm * eps))) / 4 + 1 / 1000) * eps := by ring
    rw [this]; exact eps_le (by linarith)
  have mDH1 : |D * H * (1 - S)| ≤ 10 * Dm := by
    rw [abs_mul]
    nlinarith [mul_le_mul mDH hS1abs (abs_nonneg _) (by linarith : 0 ≤ 10 * Dm)]
  obtain ⟨z4, p4, b4⟩ := mul_step (E1 := (15.4 + 39.7 * Dm) * eps) (M := 10 * Dm) hg hg1 b3' u3 mDH u4 mDH1
    (by
      have : (15.3 + 7.1 * Dm) * eps * (1 + (3 * eps + eps / 4)) + 10 * Dm * (3 * eps + eps / 4)
        = (15.3 + 7.1 * Dm + (15.3 + 7.1 * Dm) * (3.25 * eps) + 32.5 * Dm) * eps := by ring
      rw [this]; exact eps_le (by nlinarith)) (by nlinarith)
  have b4' : |z4 - g * (D * H * (1 - S))| ≤ g * ((15.5 + 42.3 * Dm) * eps) := by
    refine b4.trans (mul_le_mul_of_nonneg_left ?_ hg0.le)
    have : (15.4 + 39.7 * Dm) * eps + (10 * Dm + (15.4 + 39.7 * Dm) * eps) * (eps / 4) + eps / 1000
      = ((15.4 + 39.7 * Dm) + (10 * Dm + (15.4 * eps + 39.7 * (Dm * eps))) / 4 + 1 / 1000) * eps := by ring
    rw [this]; exact eps_le (by linarith)
  have hSS : |(1 - S) * S| ≤ 1 / 4 := by
    rw [abs_of_nonneg (mul_nonneg (by linarith) hS0)]; nlinarith [sq_nonneg (S - 1 / 2)]
  have mz : |D * H * (1 - S) * S| ≤ 2.5 * Dm := by
    rw [mul_assoc, abs_mul]
    nlinarith [mul_le_mul mDH hSS (abs_nonneg _) (by linarith : 0 ≤ 10 * Dm)]
  obtain ⟨z5, p5, b5⟩ := mul_step (E1 := (15.6 + 72.4 * Dm) * eps) (M := 2.5 * Dm) hg hg1 b4' hs mDH1 hs' mz
    (by
      have : (15.5 + 42.3 * Dm) * eps * (1 + 3 * eps) + 10 * Dm * (3 * eps)
        = (15.5 + 42.3 * Dm + (15.5 + 42.3 * Dm) * (3 * eps) + 30 * Dm) * eps := by ring
      rw [this]; exact eps_le (by nlinarith)) (by nlinarith)
  have b5' : |z5 - g * (D * H * (1 - S) * S)| ≤ g * ((15.7 + 73.1 * Dm) * eps) := by
    refine b5.trans (mul_le_mul_of_nonneg_left ?_ hg0.le)
    have : (15.6 + 72.4 * Dm) * eps + (2.5 * Dm + (15.6 + 72.4 * Dm) * eps) * (eps / 4) + eps / 1000
      = ((15.6 + 72.4 * Dm) + (2.5 * Dm + (15.6 * eps + 72.4 * (Dm * eps))) / 4 + 1 / 1000) * eps := by ring
    rw [this]; exact eps_le (by linarith)
  have mz2 : |D * H * (1 - S) * S * 3.5| ≤ 8.75 * Dm := by
    rw [abs_mul, abs_of_pos (by norm_num : (0 : ℝ) < 3.5)]; linarith
  obtain ⟨z6, p6, b6⟩ := mul_step (E1 := (55 + 255.9 * Dm) * eps) (M := 8.75 * Dm) hg hg1 b5'
    (self_near (3.5 : ℝ)) mz (B := 3.5) (by rw [abs_of_pos (by norm_num)]) mz2
    (by
      have : (15.7 + 73.1 * Dm) * eps * 3.5 + 2.5 * Dm * 0 = ((15.7 + 73.1 * Dm) * 3.5) * eps := by ring
      rw [this]; exact eps_le (by linarith)) (by nlinarith)
  have b6' : |z6 - g * (D * H * (1 - S) * S * 3.5)| ≤ g * ((55.1 + 258.2 * Dm) * eps) := by
    refine b6.trans (mul_le_mul_of_nonneg_left ?_ hg0.le)
    have : (55 + 255.9 * Dm) * eps + (8.75 * Dm + (55 + 255.9 * Dm) * eps) * (eps / 4) + eps / 1000
      = ((55 + 255.9 * Dm) + (8.75 * Dm + (55 * eps + 255.9 * (Dm * eps))) / 4 + 1 / 1000) * eps := by ring
    rw [this]; exact eps_le (by linarith)
  -- their sum
  have hsum : |z1 + z6 - g * (R + D * H * (1 - S) * S * 3.5)| ≤ g * ((93.9 + 258.2 * Dm) * eps) := by
    have := add_near b1' b6'
    rw [← mul_add] at this
    refine this.trans (le_of_eq (by ring))
  have mB : |R + D * H * (1 - S) * S * 3.5| ≤ 10 + 8.75 * Dm := (abs_add_le _ _).trans (add_le_add hR mz2)
  refine ⟨round (z1 + z6), ?_, ?_⟩
  · rw [q1, q2, p1, p2, p3, p4, p5, p6]
    exact add_fin (scaled_le127 hg0 hg1 hsum mB (by nlinarith))
  · refine (round_scaled hg hsum mB).trans (mul_le_mul_of_nonneg_left ?_ hg0.le)
    have : (93.9 + 258.2 * Dm) * eps + (10 + 8.75 * Dm + (93.9 + 258.2 * Dm) * eps) * (eps / 4) + eps / 1000
      = ((93.9 + 258.2 * Dm) + (10 + 8.75 * Dm + (93.9 * eps + 258.2 * (Dm * eps))) / 4 + 1 / 1000) * eps := by
      ring
    rw [this]; exact eps_le (by linarith)

/-! ### The forward pass and the final divisions -/

theorem log10_bounds : 2.2 < Real.log 10 ∧ Real.log 10 < 2.4 := by
  have e : Real.log 10 = 3 * Real.log 2 + Real.log (5 / 4) := by
    rw [← Real.log_rpow (by norm_num), ← Real.log_mul (by norm_num) (by norm_num)]
    norm_num
  have h1 := Real.log_two_gt_d9
  have h2 := Real.log_two_lt_d9
  have h3 : Real.log (5 / 4) ≤ 1 / 4 := by
    have := Real.log_le_sub_one_of_pos (x := 5 / 4) (by norm_num); linarith
  have h4 : 1 / 5 ≤ Real.log (5 / 4) := by
    have := Real.one_sub_inv_le_log_of_pos (x := 5 / 4) (by norm_num); norm_num at this ⊢; linarith
  rw [e]; constructor <;> linarith

theorem pow10_rel {y Y : ℝ} (h : |y - Y| ≤ 2 ^ (-15 : ℤ)) : Rel 0.00015 ((10 : ℝ) ^ y) ((10 : ℝ) ^ Y) := by
  have hl := log10_bounds
  have e : (10 : ℝ) ^ y = 10 ^ Y * Real.exp (Real.log 10 * (y - Y)) := by
    rw [← Real.rpow_def_of_pos (by norm_num), ← Real.rpow_add (by norm_num)]; congr 1; ring
  have h1 : |Real.log 10 * (y - Y)| ≤ 2.4 * 2 ^ (-15 : ℤ) := by
    rw [abs_mul, abs_of_pos (by linarith)]
    exact mul_le_mul hl.2.le h (abs_nonneg _) (by norm_num)
  have h2 := Real.abs_exp_sub_one_le (h1.trans (by norm_num))
  have h3 : (2.4 : ℝ) * 2 ^ (-15 : ℤ) ≤ 0.000075 := by norm_num
  unfold Rel
  rw [e, show (10 : ℝ) ^ Y * Real.exp (Real.log 10 * (y - Y)) - 10 ^ Y
    = 10 ^ Y * (Real.exp (Real.log 10 * (y - Y)) - 1) by ring, abs_mul, abs_of_pos (by positivity), mul_comm]
  exact mul_le_mul_of_nonneg_right (by linarith) (by positivity)

theorem pow10_le {Y : ℝ} (h1 : -27 ≤ Y) (h2 : Y ≤ 21) :
    (10 : ℝ) ^ (-27 : ℤ) ≤ (10 : ℝ) ^ Y ∧ (10 : ℝ) ^ Y ≤ 10 ^ (21 : ℕ) := by
  constructor
  · rw [← Real.rpow_intCast]
    exact Real.rpow_le_rpow_of_exponent_le (by norm_num) (by push_cast; linarith)
  · rw [← Real.rpow_natCast]
    exact Real.rpow_le_rpow_of_exponent_le (by norm_num) (by push_cast; linarith)

/-- The derivative of the mass by the log mass. -/
theorem front_near [Libm] (ha : Libm.AccurateRate) {y Y : ℝ} (h : |y - Y| ≤ 2 ^ (-15 : ℤ)) (h1 : -27 ≤ Y)
    (h2 : Y ≤ 21) : ∃ g, (JOps.ln (lit 10) : F32) * JOps.pow10 (num y) = num g ∧ Rel 0.0002 g (Real.log 10 * (10 : ℝ) ^ Y) := by
  have hl := log10_bounds
  have hh : |y - Y| ≤ 1 := h.trans (by norm_num)
  rw [abs_le] at hh
  obtain ⟨m, hm, hm'⟩ := ha.pow10_acc y (by linarith) (by linarith)
  obtain ⟨w, hw, hw'⟩ := ha.ln10_acc
  have hP : 0 < (10 : ℝ) ^ Y := by positivity
  have hp := pow10_rel h
  have r1 : Rel 0.00017 m ((10 : ℝ) ^ Y) := by
    unfold Rel at hp ⊢
    have hb := Rel.bounds hp
    have e : m - (10 : ℝ) ^ Y = (m - 10 ^ y) + (10 ^ y - 10 ^ Y) := by ring
    rw [e]
    refine (abs_add_le _ _).trans ((add_le_add hm' hp).trans ?_)
    have : (2 : ℝ) ^ (-16 : ℤ) ≤ 0.000016 := by norm_num
    have := mul_le_mul_of_nonneg_right this (show (0 : ℝ) ≤ 10 ^ y by positivity)
    nlinarith [hb.2]
  have r2 : Rel 0.000001 w (Real.log 10) := by
    unfold Rel
    have : (2 : ℝ) ^ (-20 : ℤ) ≤ 0.000001 := by norm_num
    refine hw'.trans (this.trans ?_)
    linarith
  have r3 := Rel.mul (by linarith) hP.le (by norm_num) r2 r1
  have hX0 : 0 < Real.log 10 * (10 : ℝ) ^ Y := mul_pos (by linarith) hP
  have hr := pow10_le h1 h2
  have hlow : (2 : ℝ) ^ (-110 : ℤ) ≤ Real.log 10 * (10 : ℝ) ^ Y := by
    calc (2 : ℝ) ^ (-110 : ℤ) ≤ 1 * (10 : ℝ) ^ (-27 : ℤ) := by norm_num
      _ ≤ _ := mul_le_mul (by linarith) hr.1 (by positivity) (by linarith)
  have hup : Real.log 10 * (10 : ℝ) ^ Y ≤ 2.4 * 10 ^ (21 : ℕ) :=
    mul_le_mul hl.2.le hr.2 hP.le (by norm_num)
  have r4 := r3.mono hX0.le (show _ ≤ (0.00018 : ℝ) by norm_num)
  have r5 := (Rel.round hlow (by norm_num) r4).mono hX0.le (show _ ≤ (0.0002 : ℝ) by norm_num)
  refine ⟨_, ?_, r5⟩
  have q1 : (lit 10 : F32) = num 10 := by
    rw [lit_fin (by norm_num)]
    have : Rep 10 := by have := rep_int (m := 10) (by norm_num); exact_mod_cast this
    rw [round_rep this]; rfl
  have q2 : (JOps.ln (num 10) : F32) = num w := congrArg F32.mk hw
  have q3 : (JOps.pow10 (num y) : F32) = num m := congrArg F32.mk hm
  rw [q1, q2, q3]
  refine mul_fin ?_
  have hb := r4.bounds
  rw [abs_of_nonneg (by nlinarith [hb.1])]
  have : w * m ≤ 1.00018 * (2.4 * 10 ^ (21 : ℕ)) := by nlinarith [hb.2]
  exact this.trans (by norm_num)

theorem div_num {a b : ℝ} (hb : b ≠ 0) (h : |a / b| ≤ 2 ^ (127 : ℕ)) : num a / num b = num (round (a / b)) := by
  change (⟨rd (fin a / fin b)⟩ : F32) = _
  have : (fin a / fin b : XR) = fin (a / b) := fin_div hb
  rw [this, rd_fin h]; rfl

theorem Rel.le127 {ρ x X : ℝ} (h : Rel ρ x X) (h0 : 0 ≤ X) (hρ : ρ ≤ 1) (hX : X ≤ 10 ^ (30 : ℕ)) :
    |x| ≤ 2 ^ (127 : ℕ) := by
  have hb := h.bounds
  rw [abs_of_nonneg (by nlinarith [hb.1])]
  calc x ≤ (1 + ρ) * X := hb.2
    _ ≤ 2 * 10 ^ (30 : ℕ) := mul_le_mul (by linarith) hX h0 (by norm_num)
    _ ≤ _ := by norm_num

/-- The divisions by `log 10`, the time and the number of years in a Gyr. -/
theorem tail_near [Libm] {ρ z A t : ℝ} (hρ0 : 0 ≤ ρ) (hρ : ρ ≤ 0.01) (hz : Rel ρ z (Real.log 10 * A))
    (hA : 10 ^ (-30 : ℤ) ≤ A) (hA1 : A ≤ 10 ^ (24 : ℕ)) (ht0 : 0.05 ≤ t) (ht1 : t ≤ 20) :
    ∃ y, num z / lit (Real.log 10) / num t / lit 1e9 = num y ∧ 0 ≤ y ∧
      |y - A / t / 1e9| ≤ (ρ + 0.000001) * (A / t / 1e9) + 2 ^ (-149 : ℤ) := by
  have hl := log10_bounds
  have hl0 : 0 < Real.log 10 := by linarith
  have hA0 : 0 < A := lt_of_lt_of_le (by positivity) hA
  have ht : 0 < t := by linarith
  have c23 : (2 : ℝ) ^ (-23 : ℤ) ≤ 0.00000012 := by norm_num
  have c24 : (2 : ℝ) ^ (-24 : ℤ) ≤ 0.00000006 := by norm_num
  have low : ∀ X : ℝ, 10 ^ (-32 : ℤ) ≤ X → (2 : ℝ) ^ (-110 : ℤ) ≤ X := fun X h => le_trans (by norm_num) h
  -- log 10
  have r0 : Rel 0.00000012 (round (Real.log 10)) (Real.log 10) :=
    ((Rel.round (ρ := 0) (low _ (le_trans (by norm_num) hl.1.le)) (by norm_num) (by unfold Rel; simp))).mono
      hl0.le (by linarith)
  have hR0 : 0 < round (Real.log 10) := by have := r0.bounds.1; nlinarith
  have q0 : (lit (Real.log 10) : F32) = num (round (Real.log 10)) :=
    lit_fin (le127 (n := 100) (by rw [abs_of_pos hl0]; push_cast; linarith) (by norm_num))
  have r1 := Rel.div (mul_nonneg hl0.le hA0.le) hl0 hρ0 (by norm_num) (by norm_num) hz r0
  rw [mul_div_cancel_left₀ _ hl0.ne'] at r1
  have r1' := r1.mono hA0.le (show _ ≤ ρ + 0.0000003 by nlinarith)
  have r2 := Rel.round (low _ (le_trans (by norm_num) hA)) (by linarith) r1'
  have q1 : num z / num (round (Real.log 10)) = num (round (z / round (Real.log 10))) :=
    div_num hR0.ne' (r1'.le127 hA0.le (by linarith) (hA1.trans (by norm_num)))
  -- the time
  have hAt0 : 0 < A / t := div_pos hA0 ht
  have hAt : 10 ^ (-32 : ℤ) ≤ A / t := by
    rw [le_div_iff₀ ht]
    calc (10 : ℝ) ^ (-32 : ℤ) * t ≤ 10 ^ (-32 : ℤ) * 20 := mul_le_mul_of_nonneg_left ht1 (by positivity)
      _ ≤ 10 ^ (-30 : ℤ) := by norm_num
      _ ≤ A := hA
  have hAt1 : A / t ≤ 10 ^ (27 : ℕ) := by
    rw [div_le_iff₀ ht]
    calc A ≤ 10 ^ (24 : ℕ) := hA1
      _ ≤ 10 ^ (27 : ℕ) * 0.05 := by norm_num
      _ ≤ _ := mul_le_mul_of_nonneg_left ht0 (by positivity)
  have s1 := Rel.div (σ := 0) (y := t) (Y := t) hA0.le ht (by have := two_zpow_pos (-23); linarith) le_rfl
    (by norm_num) r2 (by unfold Rel; simp)
  have s1' := s1.mono hAt0.le (show _ ≤ ρ + 0.0000005 by linarith)
  have s2 := (Rel.round (low _ hAt) (by linarith) s1').mono hAt0.le (show _ ≤ ρ + 0.0000007 by linarith)
  have q2 : num (round (z / round (Real.log 10))) / num t = num (round (round (z / round (Real.log 10)) / t)) :=
    div_num ht.ne' (s1'.le127 hAt0.le (by linarith) (hAt1.trans (by norm_num)))
  -- the number of years
  have q3 : (lit 1e9 : F32) = num 1e9 := by
    have : Rep (1e9 : ℝ) := ⟨1953125, 9, by norm_num, by norm_num, by norm_num⟩
    rw [lit_fin (by rw [abs_of_pos (by norm_num)]; norm_num), round_rep this]; rfl
  have h9 : 0 < A / t / 1e9 := div_pos hAt0 (by norm_num)
  have v1 := Rel.div (σ := 0) (y := 1e9) (Y := 1e9) hAt0.le (by norm_num) (by linarith) le_rfl
    (by norm_num) s2 (by unfold Rel; simp)
  have v1' := v1.mono h9.le (show _ ≤ ρ + 0.0000007 by linarith)
  refine ⟨round (round (round (z / round (Real.log 10)) / t) / 1e9), ?_, ?_, ?_⟩
  · rw [q0, q1, q2, q3]
    refine div_num (by norm_num) (v1'.le127 h9.le (by linarith) ?_)
    rw [div_le_iff₀ (by norm_num)]; refine hAt1.trans (by norm_num)
  · refine round_nonneg ?_
    have := v1'.bounds.1
    exact le_trans (mul_nonneg (by linarith) h9.le) this
  · set x := round (round (z / round (Real.log 10)) / t) / 1e9
    have hb := v1'.bounds
    have hx : |x| ≤ 1.1 * (A / t / 1e9) := by
      rw [abs_le]; constructor <;> nlinarith [hb.1, hb.2]
    have e : round x - A / t / 1e9 = (round x - x) + (x - A / t / 1e9) := by ring
    rw [e]
    refine (abs_add_le _ _).trans ((add_le_add (round_rel x) v1').trans ?_)
    have h150 : (2 : ℝ) ^ (-150 : ℤ) ≤ 2 ^ (-149 : ℤ) := zpow_mono2 (by norm_num)
    have h24 : (2 : ℝ) ^ (-24 : ℤ) * |x| ≤ 0.00000006 * (1.1 * (A / t / 1e9)) :=
      mul_le_mul c24 hx (abs_nonneg _) (by norm_num)
    linarith

set_option maxHeartbeats 1000000 in
/-- The accretion rate before the peak, in single precision. -/
theorem rate_near [Libm] (ha : Libm.AccurateRate) (p : MahParams ℝ) {t lgt0 Dm ρ : ℝ} (hm0 : 0 ≤ p.logm0)
    (hm1 : p.logm0 ≤ 17) (hc : |p.logtc| ≤ 1) (he0 : 0 ≤ p.early_index) (he1 : p.early_index ≤ 10)
    (hl0 : 0 ≤ p.late_index) (hl1 : p.late_index ≤ 10) (ht0 : 0.05 ≤ t) (ht1 : t ≤ 20)
    (hg0 : 0 ≤ lgt0) (hg1 : lgt0 ≤ 4 / 3) (hD : |Real.logb 10 t - lgt0| ≤ Dm) (hDm : Dm ≤ 8 / 3)
    (hup : Real.logb 10 t - lgt0 ≤ 0.4) (hρ : ρ ≤ 0.009)
    (hB0 : 0.001 ≤ p.early_index - (p.early_index - p.late_index) *
          (Real.sigmoid (3.5 * (Real.logb 10 t - p.logtc)) *
            (1 + (1 - Real.sigmoid (3.5 * (Real.logb 10 t - p.logtc))) * (3.5 * (Real.logb 10 t - lgt0)))))
    (hB : (100 + 270 * Dm) * eps ≤ ρ * (p.early_index - (p.early_index - p.late_index) *
          (Real.sigmoid (3.5 * (Real.logb 10 t - p.logtc)) *
            (1 + (1 - Real.sigmoid (3.5 * (Real.logb 10 t - p.logtc))) * (3.5 * (Real.logb 10 t - lgt0)))))) :
    ∃ y, dmhdt_noq_grad_rev (p.map num) (num t) (num lgt0) / lit 1e9 = num y ∧ 0 ≤ y ∧
      |y - dmhdt_noq_kern_scalar p t lgt0| ≤ (ρ + 0.0003) * dmhdt_noq_kern_scalar p t lgt0 + 2 ^ (-149 : ℤ) := by
  have e0 := eps_pos
  have ht : 0 < t := by linarith
  obtain ⟨l, hl, hl'⟩ := ha.log10_acc t ht0 ht1
  have hL := abs_logb_le ht0 ht1
  have hleps : |l - Real.logb 10 t| ≤ eps := hl'
  obtain ⟨s, h, i, a1, a2, a3, a4, a5, a6, a7⟩ := index_parts ha.toAccurate hleps hL hc he0 he1 hl0 hl1
  obtain ⟨d, y, b1, b2, b3, b4⟩ := plaw_parts hm0 hm1 hL hl' a6 a7 hg0 hg1
  set L := Real.logb 10 t
  set S := Real.sigmoid (3.5 * (L - p.logtc))
  set B := p.early_index - (p.early_index - p.late_index) * (S * (1 + (1 - S) * (3.5 * (L - lgt0))))
  set R := p.early_index + (p.late_index - p.early_index) * S
  have hS0 : 0 < S := Real.sigmoid_pos _
  have hS1 : S < 1 := Real.sigmoid_lt_one _
  have hBe : R + (L - lgt0) * (p.late_index - p.early_index) * (1 - S) * S * 3.5 = B := by
    simp only [R, B]; ring
  have hR0 : 0 ≤ R := by simp only [R]; nlinarith
  have hY : log_mah_noq_kern p t lgt0 = R * (L - lgt0) + p.logm0 := rfl
  set Y := R * (L - lgt0) + p.logm0
  have hR1 := (abs_le.1 a7).2
  have hD' := abs_le.1 (hD.trans hDm)
  have hY1 : -27 ≤ Y := by simp only [Y]; nlinarith
  have hY2 : Y ≤ 21 := by simp only [Y]; nlinarith
  obtain ⟨g, c1, c2⟩ := front_near ha b4 hY1 hY2
  have hlog := log10_bounds
  have hP : 0 < (10 : ℝ) ^ Y := by positivity
  have hP' := pow10_le hY1 hY2
  set G := Real.log 10 * (10 : ℝ) ^ Y
  have hG : 0 < G := mul_pos (by linarith) hP
  have hGlo : 10 ^ (-27 : ℤ) ≤ G := by
    calc (10 : ℝ) ^ (-27 : ℤ) = 1 * 10 ^ (-27 : ℤ) := by ring
      _ ≤ _ := mul_le_mul (by linarith) hP'.1 (by positivity) (by linarith)
  have hGup : G ≤ 2.4 * 10 ^ (21 : ℕ) := mul_le_mul hlog.2.le hP'.2 hP.le (by norm_num)
  have hgb := c2.bounds
  have hg_lo : (2 : ℝ) ^ (-100 : ℤ) ≤ g := by
    calc (2 : ℝ) ^ (-100 : ℤ) ≤ 0.9998 * 10 ^ (-27 : ℤ) := by norm_num
      _ ≤ 0.9998 * G := mul_le_mul_of_nonneg_left hGlo (by norm_num)
      _ ≤ g := by linarith [hgb.1]
  have hg_up : g ≤ 10 ^ 24 := by
    calc g ≤ 1.0002 * (2.4 * 10 ^ (21 : ℕ)) := by linarith [hgb.2]
      _ ≤ _ := by norm_num
  have hg : 0 < g := lt_of_lt_of_le (two_zpow_pos _) hg_lo
  have hH : |p.late_index - p.early_index| ≤ 10 := by rw [abs_le]; constructor <;> linarith
  obtain ⟨z, z1, z2⟩ := back_near hg_lo hg_up a4 a5 a6 b3 hS0.le hS1.le hH a7 hD hDm
  rw [hBe] at z2
  have hBpos : 0 < B := by linarith
  have hρ0 : 0 ≤ ρ := by
    have h1 : 0 ≤ (100 + 270 * Dm) * eps := mul_nonneg (by linarith [(abs_nonneg _).trans hD]) e0.le
    by_contra hneg
    push Not at hneg
    nlinarith [mul_neg_of_neg_of_pos hneg hBpos]
  have hz : Rel (ρ + 0.00025) z (Real.log 10 * ((10 : ℝ) ^ Y * B)) := by
    have e : Real.log 10 * ((10 : ℝ) ^ Y * B) = G * B := by simp only [G]; ring
    unfold Rel at c2 ⊢
    rw [e]
    have e2 : z - G * B = (z - g * B) + (g - G) * B := by ring
    rw [e2]
    refine (abs_add_le _ _).trans ?_
    rw [abs_mul (g - G), abs_of_pos hBpos]
    have h1 : g * ((100 + 270 * Dm) * eps) ≤ g * (ρ * B) := mul_le_mul_of_nonneg_left hB hg.le
    have h2 := mul_le_mul_of_nonneg_right c2 hBpos.le
    have h3 : g * (ρ * B) ≤ 1.0002 * (ρ * (G * B)) :=
      (mul_le_mul_of_nonneg_right (show g ≤ 1.0002 * G by linarith [hgb.2])
        (mul_nonneg hρ0 hBpos.le)).trans_eq (by ring)
    have h4 : ρ * (G * B) ≤ 0.009 * (G * B) := mul_le_mul_of_nonneg_right hρ (mul_pos hG hBpos).le
    have h5 := mul_pos hG hBpos
    rw [mul_assoc] at h2
    rw [add_mul]
    linarith
  have hB10 : B ≤ 200 := by
    have h1 := abs_le.1 (hD.trans hDm)
    have : |R + (L - lgt0) * (p.late_index - p.early_index) * (1 - S) * S * 3.5| ≤ 10 + 8 / 3 * 10 * 3.5 := by
      refine (abs_add_le _ _).trans (add_le_add a7 ?_)
      have hS : |(1 - S) * S| ≤ 1 := by
        rw [abs_of_nonneg (mul_nonneg (by linarith) hS0.le)]; nlinarith
      rw [abs_mul, abs_of_pos (by norm_num : (0 : ℝ) < 3.5), mul_assoc ((L - lgt0) * _), abs_mul, abs_mul]
      have h2 := mul_le_mul (hD.trans hDm) hH (abs_nonneg _) (by norm_num)
      have h3 := mul_le_mul h2 hS (abs_nonneg _) (by norm_num)
      linarith
    rw [hBe] at this
    have := (abs_le.1 this).2
    linarith
  have hA : 10 ^ (-30 : ℤ) ≤ (10 : ℝ) ^ Y * B := by
    calc (10 : ℝ) ^ (-30 : ℤ) = 10 ^ (-27 : ℤ) * 0.001 := by norm_num
      _ ≤ _ := mul_le_mul hP'.1 hB0 (by norm_num) hP.le
  have hA1 : (10 : ℝ) ^ Y * B ≤ 10 ^ (24 : ℕ) := by
    calc _ ≤ (10 : ℝ) ^ (21 : ℕ) * 200 := mul_le_mul hP'.2 hB10 hBpos.le (by positivity)
      _ ≤ _ := by norm_num
  obtain ⟨v, v1, v2, v3⟩ := tail_near (by linarith) (by linarith) hz hA hA1 ht0 ht1
  have hexact : dmhdt_noq_kern_scalar p t lgt0 = (10 : ℝ) ^ Y * B / t / 1e9 := by
    have := dmhdt_noq_formula p ht.ne' lgt0
    rw [hY] at this
    rw [eq_div_iff (by norm_num), mul_comm, this]
    ring
  refine ⟨v, ?_, v2, ?_⟩
  · rw [← v1, ← z1, ← c1]
    have q0 : (log10 (num t) : F32) = num l := congrArg F32.mk hl
    unfold dmhdt_noq_grad_rev
    simp only [MahParams.map]
    rw [q0, a1, a2, a3, b1, b2, c1]
  · rw [hexact]
    refine v3.trans (add_le_add_left (mul_le_mul_of_nonneg_right (by linarith) ?_) _)
    have : 0 < (10 : ℝ) ^ Y * B / t := div_pos (mul_pos hP hBpos) ht
    exact (div_pos this (by norm_num)).le

end Diffmah.F32

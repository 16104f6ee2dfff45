import Verif.Lemmas.Float32Mean
import Verif.Model.Float32Cov

/-!
# The Cholesky factorisation in single precision

Entry `(i, j)` of the covariance is about `s i * s j`, entry `(i, j)` of its factor about `s i`. In these units every number of
the factorisation is at most 3/2 and every operation has an error of at most `2 ε`.
-/

namespace Diffmah.F32

open JOps XR JFlow

/-- The range of the standard deviations. -/
def Std (σ : ℝ) : Prop := 1 / 128 ≤ σ ∧ σ ≤ 128

theorem Std.pos {σ : ℝ} (h : Std σ) : 0 < σ := lt_of_lt_of_le (by norm_num) h.1

/-- One rounding in units of `σ`. -/
theorem round_unit {σ x : ℝ} (h0 : 1 / 16384 ≤ σ) (h1 : σ ≤ 32768) (hx : |x| ≤ 3 / 2) :
    |σ * x| ≤ 2 ^ (127 : ℕ) ∧ ∃ v, round (σ * x) = σ * v ∧ |v - x| ≤ 2 * ε := by
  have hσ : 0 < σ := lt_of_lt_of_le (by norm_num) h0
  have e : |σ * x| = σ * |x| := by rw [abs_mul, abs_of_pos hσ]
  constructor
  · rw [e]
    have : σ * |x| ≤ 32768 * (3 / 2) := mul_le_mul h1 hx (abs_nonneg _) (by norm_num)
    exact this.trans (by norm_num)
  · refine ⟨round (σ * x) / σ, by field_simp, ?_⟩
    have h := round_rel (σ * x)
    have e2 : round (σ * x) / σ - x = (round (σ * x) - σ * x) / σ := by field_simp
    rw [e2, abs_div, abs_of_pos hσ, div_le_iff₀ hσ]
    refine h.trans ?_
    rw [e]
    have k : (2 : ℝ) ^ (-150 : ℤ) ≤ 2 ^ (-24 : ℤ) * (1 / 32768) := by norm_num
    have e3 : ε = 2 ^ (-24 : ℤ) := rfl
    rw [e3]
    have p : (0 : ℝ) < 2 ^ (-24 : ℤ) := two_zpow_pos _
    generalize (2 : ℝ) ^ (-24 : ℤ) = c at *
    generalize (2 : ℝ) ^ (-150 : ℤ) = d at *
    have m1 : c * (σ * |x|) ≤ c * (σ * (3 / 2)) :=
      mul_le_mul_of_nonneg_left (mul_le_mul_of_nonneg_left hx hσ.le) p.le
    have m2 : c * (1 / 16384) ≤ c * σ := mul_le_mul_of_nonneg_left h0 p.le
    linarith only [m1, m2, k]

theorem Std.mul {σ τ : ℝ} (h : Std σ) (k : Std τ) : 1 / 16384 ≤ σ * τ ∧ σ * τ ≤ 16384 := by
  have h1 := mul_le_mul h.1 k.1 (by norm_num) h.pos.le
  have h2 := mul_le_mul h.2 k.2 k.pos.le (by norm_num)
  constructor <;> linarith

theorem unit_mul {σ τ y w : ℝ} (hσ : Std σ) (hτ : Std τ) (h : |y * w| ≤ 3 / 2) :
    ∃ v, num (σ * y) * num (τ * w) = num (σ * τ * v) ∧ |v - y * w| ≤ 2 * ε := by
  obtain ⟨h1, v, h2, h3⟩ := round_unit (hσ.mul hτ).1 ((hσ.mul hτ).2.trans (by norm_num)) h
  have e : σ * y * (τ * w) = σ * τ * (y * w) := by ring
  exact ⟨v, by rw [← h2, ← e]; exact mul_fin (by rw [e]; exact h1), h3⟩

theorem unit_sub {σ τ y w : ℝ} (hσ : Std σ) (hτ : Std τ) (h : |y - w| ≤ 3 / 2) :
    ∃ v, num (σ * τ * y) - num (σ * τ * w) = num (σ * τ * v) ∧ |v - (y - w)| ≤ 2 * ε := by
  obtain ⟨h1, v, h2, h3⟩ := round_unit (hσ.mul hτ).1 ((hσ.mul hτ).2.trans (by norm_num)) h
  have e : σ * τ * y - σ * τ * w = σ * τ * (y - w) := by ring
  exact ⟨v, by rw [← h2, ← e]; exact sub_fin (by rw [e]; exact h1), h3⟩

theorem unit_div {σ τ y w : ℝ} (hσ : Std σ) (hτ : Std τ) (hw : 0 < w) (h : |y / w| ≤ 3 / 2) :
    ∃ v, num (σ * τ * y) / num (τ * w) = num (σ * v) ∧ |v - y / w| ≤ 2 * ε := by
  obtain ⟨h1, v, h2, h3⟩ := round_unit (σ := σ) (le_trans (by norm_num) hσ.1) (hσ.2.trans (by norm_num)) h
  have hp := hτ.pos
  have e : σ * τ * y / (τ * w) = σ * (y / w) := by field_simp
  exact ⟨v, by rw [← h2, ← e]; exact div_fin (mul_pos hp hw).ne' (by rw [e]; exact h1), h3⟩

theorem unit_sqrt {σ y : ℝ} (hσ : Std σ) (h0 : 0 ≤ y) (h : y ≤ 9 / 4) :
    ∃ v, JFlow.sqrt (num (σ * σ * y)) = num (σ * v) ∧ |v - √y| ≤ 2 * ε := by
  have hs : |√y| ≤ 3 / 2 := by
    rw [abs_of_nonneg (Real.sqrt_nonneg _)]
    exact Real.sqrt_le_iff.2 ⟨by norm_num, by linarith⟩
  obtain ⟨h1, v, h2, h3⟩ := round_unit (σ := σ) (le_trans (by norm_num) hσ.1) (hσ.2.trans (by norm_num)) hs
  have e : √(σ * σ * y) = σ * √y := by
    rw [Real.sqrt_mul (mul_self_nonneg σ), Real.sqrt_mul_self hσ.pos.le]
  refine ⟨v, ?_, h3⟩
  change (⟨if σ * σ * y < 0 then nan else rd (fin √(σ * σ * y))⟩ : F32) = _
  rw [if_neg (not_lt.2 (mul_nonneg (mul_self_nonneg σ) h0)), e, rd_fin h1, h2]; rfl

theorem abs_div_le {a l A L B : ℝ} (ha : |a| ≤ A) (hL : 0 < L) (hl : L ≤ l) (h : A ≤ B * L) : |a / l| ≤ B := by
  have hl0 : 0 < l := hL.trans_le hl
  have hB : 0 ≤ B := by
    have := (abs_nonneg a).trans (ha.trans h)
    exact nonneg_of_mul_nonneg_left this hL
  rw [abs_div, abs_of_pos hl0, div_le_iff₀ hl0]
  exact ha.trans (h.trans (mul_le_mul_of_nonneg_left hl hB))

theorem abs_mul_le {x y X Y : ℝ} (hx : |x| ≤ X) (hy : |y| ≤ Y) : |x * y| ≤ X * Y := by
  rw [abs_mul]; exact mul_le_mul hx hy (abs_nonneg _) ((abs_nonneg _).trans hx)

/-- The diagonal entry: from what is left of the variance to its root. -/
theorem pivot {v q d lo hi : ℝ} (hd : |v - √q| ≤ d) (hd1 : d ≤ 1 / 1000000) (h0 : 0 ≤ lo) (h1 : lo ^ 2 ≤ q) (h2 : q ≤ hi ^ 2)
    (hh : hi ≤ 1.01) (hi0 : 0 ≤ hi) :
    lo - 1 / 1000000 ≤ v ∧ v ≤ hi + 1 / 1000000 ∧ |v * v - q| ≤ 2.1 * d := by
  have s1 : lo ≤ √q := Real.le_sqrt_of_sq_le h1
  have s2 : √q ≤ hi := Real.sqrt_le_iff.2 ⟨hi0, h2⟩
  have hq : 0 ≤ q := (sq_nonneg lo).trans h1
  have h3 := abs_le.1 hd
  have hd0 : 0 ≤ d := (abs_nonneg _).trans hd
  refine ⟨by linarith [h3.1], by linarith [h3.2], ?_⟩
  have e : v * v - q = (v - √q) * (v + √q) := by
    have := Real.mul_self_sqrt hq
    linear_combination this
  have b : |v + √q| ≤ 2.1 := by
    norm_num at hh ⊢
    rw [abs_le]; constructor <;> linarith [h3.1, h3.2, Real.sqrt_nonneg q]
  rw [e, mul_comm (2.1 : ℝ)]
  exact abs_mul_le hd b

/-- An entry below the diagonal. -/
theorem quot {v w l d W L B : ℝ} (hd : |v - w / l| ≤ d) (hw : |w| ≤ W) (hL : 0 < L) (hl : L ≤ l) (hl1 : l ≤ 1.05) (h : W ≤ B * L) :
    |v| ≤ B + d ∧ |v * l - w| ≤ 1.05 * d := by
  have hl0 : 0 < l := hL.trans_le hl
  have q := abs_div_le hw hL hl h
  constructor
  · have := abs_sub_abs_le_abs_sub v (w / l)
    linarith
  · have e : v * l - w = (v - w / l) * l := by field_simp
    rw [e, mul_comm (1.05 : ℝ)]
    exact abs_mul_le hd (by rw [abs_of_pos hl0]; exact hl1)

/-- The factor, from its ten entries. -/
theorem cholesky_entries [Libm] {A : Fin 4 → Fin 4 → F32} {l00 l10 l20 l30 l11 l21 l31 l22 l32 l33 : F32}
    (h00 : JFlow.sqrt (A 0 0) = l00) (h10 : A 1 0 / l00 = l10) (h20 : A 2 0 / l00 = l20) (h30 : A 3 0 / l00 = l30)
    (h11 : JFlow.sqrt (A 1 1 - l10 * l10) = l11) (h21 : (A 2 1 - l20 * l10) / l11 = l21)
    (h31 : (A 3 1 - l30 * l10) / l11 = l31) (h22 : JFlow.sqrt (A 2 2 - l20 * l20 - l21 * l21) = l22)
    (h32 : (A 3 2 - l30 * l20 - l31 * l21) / l22 = l32)
    (h33 : JFlow.sqrt (A 3 3 - l30 * l30 - l31 * l31 - l32 * l32) = l33) :
    cholesky A = ![![l00, lit 0, lit 0, lit 0], ![l10, l11, lit 0, lit 0], ![l20, l21, l22, lit 0], ![l30, l31, l32, l33]] := by
  subst h00 h10 h20 h30 h11 h21 h31 h22 h32 h33
  funext i j
  fin_cases i <;> fin_cases j <;> rfl

set_option maxHeartbeats 1000000 in
/-- The factorisation of a matrix with unit diagonal and correlations up to 0.3, in units of the standard deviations. -/
theorem cholesky_unit [Libm] {A : Fin 4 → Fin 4 → F32} {s : Fin 4 → ℝ} {a : Fin 4 → Fin 4 → ℝ} (hs : ∀ i, Std (s i))
    (hA : ∀ i j, A i j = num (s i * s j * a i j)) (hd : ∀ i, |a i i - 1| ≤ 1 / 10000)
    (ho : ∀ i j, i ≠ j → |a i j| ≤ 0.3001) :
    ∃ l : Fin 4 → Fin 4 → ℝ, (∀ i j, cholesky A i j = num (s i * l i j)) ∧ (∀ i j, i < j → l i j = 0) ∧
      (∀ i, 0.5 ≤ l i i) ∧ (∀ i j, |l i j| ≤ 1.01) ∧
      ∀ i j, j ≤ i → |∑ k, l i k * l j k - a i j| ≤ 18 * ε := by
  have e0 := ε_pos
  have e1 : 2 * ε ≤ 1 / 1000000 := by have := ε_le; linarith
  have e2 : 18 * ε = 9 * (2 * ε) := by ring
  rw [e2]
  have d0 : 0 < 2 * ε := by linarith
  norm_num at ho
  -- first column
  have D0 := abs_le.1 (hd 0)
  have D1 := abs_le.1 (hd 1)
  have D2 := abs_le.1 (hd 2)
  have D3 := abs_le.1 (hd 3)
  obtain ⟨x00, q00, r00⟩ := unit_sqrt (hs 0) (y := a 0 0) (by linarith) (by linarith)
  obtain ⟨p00, p00', b00⟩ := pivot r00 e1 (lo := 0.9999) (hi := 1.0001) (by norm_num) (by norm_num; linarith)
    (by norm_num; linarith) (by norm_num) (by norm_num)
  norm_num at p00 p00'
  have O10 := ho 1 0 (by decide)
  have O20 := ho 2 0 (by decide)
  have O30 := ho 3 0 (by decide)
  have O21 := ho 2 1 (by decide)
  have O31 := ho 3 1 (by decide)
  have O32 := ho 3 2 (by decide)
  have h00 : 0 < x00 := by linarith
  have first : ∀ i, |a i 0| ≤ 3001 / 10000 → ∃ x, num (s i * s 0 * a i 0) / num (s 0 * x00) = num (s i * x) ∧ |x| ≤ 0.3003 ∧
      |x * x00 - a i 0| ≤ 1.05 * (2 * ε) := by
    intro i hi
    have hq := abs_div_le hi (L := 0.9998) (B := 0.3002) (by norm_num) (l := x00) (by norm_num; linarith) (by norm_num)
    obtain ⟨x, q, r⟩ := unit_div (hs i) (hs 0) h00 (hq.trans (by norm_num))
    obtain ⟨u, v⟩ := quot r hi (L := 0.9998) (B := 0.3002) (by norm_num) (by norm_num; linarith) (by norm_num; linarith) (by norm_num)
    exact ⟨x, q, by norm_num at u ⊢; linarith, v⟩
  obtain ⟨x10, q10, B10, b10⟩ := first 1 O10
  obtain ⟨x20, q20, B20, b20⟩ := first 2 O20
  obtain ⟨x30, q30, B30, b30⟩ := first 3 O30
  -- products
  have prod : ∀ i j x y X Y, |x| ≤ X → |y| ≤ Y → X * Y ≤ 1 → ∃ v, num (s i * x) * num (s j * y) = num (s i * s j * v) ∧
      |v - x * y| ≤ 2 * ε ∧ |v| ≤ X * Y + 1 / 1000000 := by
    intro i j x y X Y hx hy hXY
    have h := abs_mul_le hx hy
    obtain ⟨v, q, r⟩ := unit_mul (hs i) (hs j) (h.trans (hXY.trans (by norm_num)))
    refine ⟨v, q, r, ?_⟩
    have := abs_sub_abs_le_abs_sub v (x * y)
    linarith
  have diff : ∀ i j y w Y W, |y| ≤ Y → |w| ≤ W → Y + W ≤ 3 / 2 → ∃ v, num (s i * s j * y) - num (s i * s j * w) =
      num (s i * s j * v) ∧ |v - (y - w)| ≤ 2 * ε ∧ |v| ≤ Y + W + 1 / 1000000 := by
    intro i j y w Y W hy hw hYW
    have h : |y - w| ≤ Y + W := (abs_sub _ _).trans (add_le_add hy hw)
    obtain ⟨v, q, r⟩ := unit_sub (hs i) (hs j) (h.trans hYW)
    refine ⟨v, q, r, ?_⟩
    have := abs_sub_abs_le_abs_sub v (y - w)
    linarith
  have diag : ∀ i, |a i i| ≤ 1.0001 := by
    intro i
    have := abs_le.1 (hd i)
    norm_num
    rw [abs_le]; constructor <;> linarith [this.1, this.2]
  -- second column
  obtain ⟨m10, qm10, rm10, Bm10⟩ := prod 1 1 x10 x10 _ _ B10 B10 (by norm_num)
  obtain ⟨t1, qt1, rt1, -⟩ := diff 1 1 (a 1 1) m10 _ _ (diag 1) Bm10 (by norm_num)
  have n10 := abs_le.1 rm10
  have w1 := abs_le.1 rt1
  have s10 := abs_mul_le B10 B10
  have s10' := mul_self_nonneg x10
  rw [abs_of_nonneg s10'] at s10
  norm_num at s10 Bm10
  obtain ⟨x11, q11, r11⟩ := unit_sqrt (hs 1) (y := t1) (by linarith) (by linarith)
  obtain ⟨p11, p11', b11⟩ := pivot r11 e1 (lo := 0.953) (hi := 1.0002) (by norm_num) (by norm_num; linarith)
    (by norm_num; linarith) (by norm_num) (by norm_num)
  norm_num at p11 p11'
  have h11 : 0 < x11 := by linarith
  have second : ∀ i xi, |a i 1| ≤ 3001 / 10000 → |xi| ≤ 0.3003 → ∃ m t x, num (s i * xi) * num (s 1 * x10) = num (s i * s 1 * m) ∧
      num (s i * s 1 * a i 1) - num (s i * s 1 * m) = num (s i * s 1 * t) ∧
      num (s i * s 1 * t) / num (s 1 * x11) = num (s i * x) ∧ |x| ≤ 0.4098 ∧
      |m - xi * x10| ≤ 2 * ε ∧ |t - (a i 1 - m)| ≤ 2 * ε ∧ |x * x11 - t| ≤ 1.05 * (2 * ε) := by
    intro i xi hi hxi
    obtain ⟨m, qm, rm, Bm⟩ := prod i 1 xi x10 _ _ hxi B10 (by norm_num)
    obtain ⟨t, qt, rt, Bt⟩ := diff i 1 (a i 1) m _ _ hi Bm (by norm_num)
    have Bt' : |t| ≤ 0.3904 := Bt.trans (by norm_num)
    have hq := abs_div_le Bt' (L := 0.9529) (B := 0.4097) (by norm_num) (l := x11) (by norm_num; linarith) (by norm_num)
    obtain ⟨x, q, r⟩ := unit_div (hs i) (hs 1) h11 (hq.trans (by norm_num))
    obtain ⟨u, v⟩ := quot r Bt' (L := 0.9529) (B := 0.4097) (by norm_num) (by norm_num; linarith) (by norm_num; linarith) (by norm_num)
    exact ⟨m, t, x, qm, qt, q, by norm_num at u ⊢; linarith, rm, rt, v⟩
  obtain ⟨m21, t21, x21, qm21, qt21, q21, B21, rm21, rt21, b21⟩ := second 2 x20 O21 B20
  obtain ⟨m31, t31, x31, qm31, qt31, q31, B31, rm31, rt31, b31⟩ := second 3 x30 O31 B30
  -- third column
  obtain ⟨m20, qm20, rm20, Bm20⟩ := prod 2 2 x20 x20 _ _ B20 B20 (by norm_num)
  obtain ⟨t2, qt2, rt2, Bt2⟩ := diff 2 2 (a 2 2) m20 _ _ (diag 2) Bm20 (by norm_num)
  obtain ⟨n21, qn21, rn21, Bn21⟩ := prod 2 2 x21 x21 _ _ B21 B21 (by norm_num)
  obtain ⟨u2, qu2, ru2, -⟩ := diff 2 2 t2 n21 _ _ Bt2 Bn21 (by norm_num)
  have s20 := abs_mul_le B20 B20
  have s20' := mul_self_nonneg x20
  rw [abs_of_nonneg s20'] at s20
  have s21 := abs_mul_le B21 B21
  have s21' := mul_self_nonneg x21
  rw [abs_of_nonneg s21'] at s21
  norm_num at s20 s21
  have w20 := abs_le.1 rm20
  have w21 := abs_le.1 rn21
  have w2 := abs_le.1 rt2
  have w2' := abs_le.1 ru2
  obtain ⟨x22, q22, r22⟩ := unit_sqrt (hs 2) (y := u2) (by linarith) (by linarith)
  obtain ⟨p22, p22', b22⟩ := pivot r22 e1 (lo := 0.861) (hi := 1.0002) (by norm_num) (by norm_num; linarith)
    (by norm_num; linarith) (by norm_num) (by norm_num)
  norm_num at p22 p22'
  have h22 : 0 < x22 := by linarith
  obtain ⟨m32, qm32, rm32, Bm32⟩ := prod 3 2 x30 x20 _ _ B30 B20 (by norm_num)
  obtain ⟨t32, qt32, rt32, Bt32⟩ := diff 3 2 (a 3 2) m32 _ _ O32 Bm32 (by norm_num)
  obtain ⟨n32, qn32, rn32, Bn32⟩ := prod 3 2 x31 x21 _ _ B31 B21 (by norm_num)
  obtain ⟨u32, qu32, ru32, Bu32⟩ := diff 3 2 t32 n32 _ _ Bt32 Bn32 (by norm_num)
  have Bu32' : |u32| ≤ 0.5584 := Bu32.trans (by norm_num)
  have hq := abs_div_le Bu32' (L := 0.8609) (B := 0.6487) (by norm_num) (l := x22) (by norm_num; linarith) (by norm_num)
  obtain ⟨x32, q32, r32⟩ := unit_div (hs 3) (hs 2) h22 (hq.trans (by norm_num))
  obtain ⟨B32', b32⟩ := quot r32 Bu32' (L := 0.8609) (B := 0.6487) (by norm_num) (by norm_num; linarith) (by norm_num; linarith)
    (by norm_num)
  have B32 : |x32| ≤ 0.6488 := by norm_num at B32' ⊢; linarith
  -- fourth column
  obtain ⟨m30, qm30, rm30, Bm30⟩ := prod 3 3 x30 x30 _ _ B30 B30 (by norm_num)
  obtain ⟨t3, qt3, rt3, Bt3⟩ := diff 3 3 (a 3 3) m30 _ _ (diag 3) Bm30 (by norm_num)
  obtain ⟨n31, qn31, rn31, Bn31⟩ := prod 3 3 x31 x31 _ _ B31 B31 (by norm_num)
  obtain ⟨u3, qu3, ru3, -⟩ := diff 3 3 t3 n31 _ _ Bt3 Bn31 (by norm_num)
  obtain ⟨o32, qo32, ro32, Bo32⟩ := prod 3 3 x32 x32 _ _ B32 B32 (by norm_num)
  have s30 := abs_mul_le B30 B30
  have s30' := mul_self_nonneg x30
  rw [abs_of_nonneg s30'] at s30
  have s31 := abs_mul_le B31 B31
  have s31' := mul_self_nonneg x31
  rw [abs_of_nonneg s31'] at s31
  have s32 := abs_mul_le B32 B32
  have s32' := mul_self_nonneg x32
  rw [abs_of_nonneg s32'] at s32
  norm_num at s30 s31 s32
  have w30 := abs_le.1 rm30
  have w31 := abs_le.1 rn31
  have w32 := abs_le.1 ro32
  have w3 := abs_le.1 rt3
  have w3' := abs_le.1 ru3
  have hu3 : |u3| ≤ 1.001 := by norm_num; rw [abs_le]; constructor <;> linarith
  obtain ⟨v3, qv3, rv3, -⟩ := diff 3 3 u3 o32 _ _ hu3 Bo32 (by norm_num)
  have w3'' := abs_le.1 rv3
  obtain ⟨x33, q33, r33⟩ := unit_sqrt (hs 3) (y := v3) (by linarith) (by linarith)
  obtain ⟨p33, p33', b33⟩ := pivot r33 e1 (lo := 0.56) (hi := 1.0002) (by norm_num) (by norm_num; linarith)
    (by norm_num; linarith) (by norm_num) (by norm_num)
  norm_num at p33 p33'
  refine ⟨![![x00, 0, 0, 0], ![x10, x11, 0, 0], ![x20, x21, x22, 0], ![x30, x31, x32, x33]], ?_, ?_, ?_, ?_, ?_⟩
  · have z : (lit 0 : F32) = num 0 := by
      rw [lit_fin (by rw [abs_zero]; positivity), round_zero]; rfl
    have hc := cholesky_entries (A := A) (by rw [hA, q00]) (by rw [hA, q10]) (by rw [hA, q20]) (by rw [hA, q30])
      (by rw [hA, qm10, qt1, q11]) (by rw [hA, qm21, qt21, q21]) (by rw [hA, qm31, qt31, q31])
      (by rw [hA, qm20, qt2, qn21, qu2, q22]) (by rw [hA, qm32, qt32, qn32, qu32, q32])
      (by rw [hA, qm30, qt3, qn31, qu3, qo32, qv3, q33])
    rw [hc, z]
    have z' : ∀ i, num 0 = num (s i * 0) := fun i => by rw [mul_zero]
    intro i j
    fin_cases i <;> fin_cases j <;> first | rfl | exact z' _
  · intro i j; fin_cases i <;> fin_cases j <;> simp
  · intro i; fin_cases i <;> norm_num <;> linarith
  · have c : ∀ {x X : ℝ}, |x| ≤ X → X ≤ 1.01 → |x| ≤ 1.01 := fun h k => h.trans k
    have c' : ∀ {x : ℝ}, 0 < x → x ≤ 1.01 → |x| ≤ 1.01 := fun h k => by rw [abs_of_pos h]; exact k
    have z : |(0 : ℝ)| ≤ 1.01 := by norm_num
    intro i j
    fin_cases i <;> fin_cases j <;> first
      | exact z
      | exact c B10 (by norm_num)
      | exact c B20 (by norm_num)
      | exact c B30 (by norm_num)
      | exact c B21 (by norm_num)
      | exact c B31 (by norm_num)
      | exact c B32 (by norm_num)
      | exact c' h00 (by norm_num; linarith)
      | exact c' h11 (by norm_num; linarith)
      | exact c' h22 (by norm_num; linarith)
      | exact c' (x := x33) (by linarith) (by norm_num; linarith)
  · have y00 := abs_le.1 b00
    have y10 := abs_le.1 b10
    have y20 := abs_le.1 b20
    have y30 := abs_le.1 b30
    have y11 := abs_le.1 b11
    have y21 := abs_le.1 b21
    have y31 := abs_le.1 b31
    have y22 := abs_le.1 b22
    have y32 := abs_le.1 b32
    have y33 := abs_le.1 b33
    have z21 := abs_le.1 rm21
    have z21' := abs_le.1 rt21
    have z31 := abs_le.1 rm31
    have z31' := abs_le.1 rt31
    have z32 := abs_le.1 rm32
    have z32' := abs_le.1 rt32
    have z32n := abs_le.1 rn32
    have z32u := abs_le.1 ru32
    norm_num at y00 y10 y20 y30 y11 y21 y31 y22 y32 y33
    intro i j hij
    rw [Fin.sum_univ_four, abs_le]
    fin_cases i <;> fin_cases j <;> first
      | exact absurd hij (by decide)
      | (simp only [Matrix.cons_val_zero, Matrix.cons_val_one, Matrix.cons_val, Fin.zero_eta, Fin.mk_one, Fin.reduceFinMk]
         constructor <;> linarith)

/-! ## The covariance matrix -/

/-- The standard deviations. -/
theorem std_near [Libm] (ha : Libm.Accurate) {lgm x0 ylo yhi : ℝ} (h0 : 0 ≤ lgm) (h20 : lgm ≤ 20)
    (hx : 11.5 - 1 / 1000000 ≤ x0 ∧ x0 ≤ 14.0 + 1 / 1000000) (hl : 0.01 - 1 / 1000000 ≤ ylo ∧ ylo ≤ 100.0 + 1 / 1000000)
    (hh : 0.01 - 1 / 1000000 ≤ yhi ∧ yhi ≤ 100.0 + 1 / 1000000) :
    ∃ y, Utils.sigmoid (num lgm) (num x0) (lit Pop.COV_LGM_K) (num ylo) (num yhi) = num y ∧
      |y - Utils.sigmoid lgm x0 (lit Pop.COV_LGM_K) ylo yhi| ≤ 2 ^ (-10 : ℤ) ∧ Std y := by
  norm_num at hx hl hh
  have n1 := near_Icc h0 h20 (B := 20) (by norm_num) (by norm_num)
  have n2 := near_Icc hx.1 hx.2 (B := 14.1) (by norm_num) (by norm_num)
  have n3 := near_Icc hl.1 hl.2 (B := 100.01) (by norm_num) (by norm_num)
  have n4 := near_Icc hh.1 hh.2 (B := 100.01) (by norm_num) (by norm_num)
  have hr : Rep Pop.COV_LGM_K := by
    have := rep_nat 2 (by norm_num); norm_num at this; unfold Pop.COV_LGM_K; norm_num; exact this
  have k := near_rep hr (B := 2) (by norm_num [Pop.COV_LGM_K]) (by norm_num)
  have s1 := k.mul (n1.sub n2 (by norm_num) (by norm_num)) (by norm_num) (by norm_num) (by norm_num) (by norm_num)
  have s2 := s1.sigm ha
  have s3 := n4.sub n3 (by norm_num) (by norm_num)
  have s4 := s3.mul s2 (by norm_num) (by norm_num) (by norm_num) (by norm_num)
  have s5 := n3.add s4 (by norm_num) (by norm_num)
  obtain ⟨y, h1, h2, -⟩ := s5
  have hy : |y - Utils.sigmoid lgm x0 (lit Pop.COV_LGM_K) ylo yhi| ≤ 2 ^ (-10 : ℤ) := by
    refine h2.trans ?_
    have : (2 : ℝ) ^ (-10 : ℤ) = 16384 * ε := by unfold ε; norm_num
    rw [this]
    exact mul_le_mul_of_nonneg_right (by norm_num) ε_pos.le
  refine ⟨y, h1, hy, ?_⟩
  have b := usigmoid_Icc (x := lgm) (x0 := x0) (k := lit Pop.COV_LGM_K) (a := 0.0099) (b := 100.01)
    (ylo := ylo) (yhi := yhi) ⟨by norm_num; linarith, by norm_num; linarith⟩ ⟨by norm_num; linarith, by norm_num; linarith⟩
  have c := abs_le.1 hy
  norm_num at b c
  constructor <;> linarith

/-- The product of the standard deviations with the correlation. -/
theorem entry_unit {σ τ r : ℝ} (hσ : Std σ) (hτ : Std τ) (hr : |r| ≤ 1) :
    ∃ c, num σ * num r * num τ = num (σ * τ * c) ∧ |c - r| ≤ 4 * ε := by
  have one : Std 1 := ⟨by norm_num, by norm_num⟩
  have e1 := ε_le
  obtain ⟨v, h1, h2⟩ := unit_mul hσ one (y := 1) (w := r) (by rw [one_mul]; linarith)
  rw [mul_one, one_mul] at h1
  rw [one_mul] at h2
  have hv : |v| ≤ 3 / 2 := by
    have := abs_sub_abs_le_abs_sub v r
    linarith
  obtain ⟨c, h3, h4⟩ := unit_mul hσ hτ (y := v) (w := 1) (by rw [mul_one]; exact hv)
  rw [mul_one] at h3 h4
  refine ⟨c, by rw [h1, h3], ?_⟩
  have : |c - r| ≤ |c - v| + |v - r| := abs_sub_le _ _ _
  linarith

theorem half_sum [Libm] {σ τ x y : ℝ} (hσ : Std σ) (hτ : Std τ) (hx : |x| ≤ 1.2) (hy : |y| ≤ 1.2) :
    ∃ v, (num (σ * τ * x) + num (τ * σ * y)) / lit 2 = num (σ * τ * v) ∧ |v - (x + y) / 2| ≤ 4 * ε := by
  have e1 := ε_le
  have m := hσ.mul hτ
  have hxy : |(x + y) / 2| ≤ 1.2 := by
    rw [abs_div, abs_of_pos (by norm_num : (0 : ℝ) < 2), div_le_iff₀ (by norm_num)]
    have := abs_add_le x y
    linarith
  obtain ⟨h1, v, h2, h3⟩ := round_unit (σ := 2 * (σ * τ)) (x := (x + y) / 2) (by linarith) (by linarith)
    (hxy.trans (by norm_num))
  have e : σ * τ * x + τ * σ * y = 2 * (σ * τ) * ((x + y) / 2) := by ring
  have hv : |v| ≤ 3 / 2 := by
    have := abs_sub_abs_le_abs_sub v ((x + y) / 2)
    norm_num at hxy
    linarith
  obtain ⟨h4, w, h5, h6⟩ := round_unit m.1 (m.2.trans (by norm_num)) hv
  have l2 : (lit 2 : F32) = num 2 := by
    have := round_rep (rep_nat 2 (by norm_num)); norm_num at this
    rw [lit_fin (by norm_num [abs_of_pos]), this]; rfl
  have d : 2 * (σ * τ) * v / 2 = σ * τ * v := by ring
  refine ⟨w, ?_, ?_⟩
  · have a1 : num (σ * τ * x) + num (τ * σ * y) = num (2 * (σ * τ) * v) := by
      rw [← h2, ← e]; exact add_fin (by rw [e]; exact h1)
    rw [a1, l2, div_fin (by norm_num) (by rw [d]; exact h4), d, h5]
  · have : |w - (x + y) / 2| ≤ |w - v| + |v - (x + y) / 2| := abs_sub_le _ _ _
    linarith

end Diffmah.F32

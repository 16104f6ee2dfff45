import Verif.Model.Float32Trip
import Verif.Lemmas.Float32Adam
import Verif.Lemmas.Float32Pop

/-!
# From bounded to unbounded parameters and back in single precision

Errors are counted in units of `2^-24`, the relative error of one rounding.
-/

namespace Diffmah.F32

open JOps XR

theorem sigmoid_slope (w : ℝ) : Real.sigmoid w * (1 - Real.sigmoid w) ≤ Real.exp (-|w|) := by
  have h0 := Real.sigmoid_pos w
  have h1 := Real.sigmoid_lt_one w
  have e1 : Real.sigmoid w ≤ Real.exp w := by
    rw [Real.sigmoid_def, inv_le_comm₀ (by positivity) (Real.exp_pos _), ← Real.exp_neg]
    linarith
  have e2 : 1 - Real.sigmoid w ≤ Real.exp (-w) := by
    have : 1 - Real.sigmoid w = Real.sigmoid (-w) := by rw [Real.sigmoid_neg]
    rw [this, Real.sigmoid_def, neg_neg, inv_le_comm₀ (by positivity) (Real.exp_pos _), ← Real.exp_neg, neg_neg]
    linarith
  rcases le_total 0 w with h | h
  · rw [abs_of_nonneg h]; nlinarith
  · rw [abs_of_nonpos h, neg_neg]; nlinarith

/-- A relative error of the argument is an absolute error of the logistic function. -/
theorem sigmoid_rel {z z' η : ℝ} (h0 : 0 ≤ η) (h1 : η ≤ 1 / 2) (h : |z' - z| ≤ η * (1 + |z|)) :
    |Real.sigmoid z' - Real.sigmoid z| ≤ η / (1 - η) := by
  set A := |z| - η * (1 + |z|)
  have hm := Convex.norm_image_sub_le_of_norm_deriv_le (𝕜 := ℝ) (f := Real.sigmoid) (C := Real.exp (-A))
    (s := Set.uIcc z z') (x := z) (y := z') (fun w _ => (Real.hasDerivAt_sigmoid w).differentiableAt)
    (fun w hw => by
      rw [(Real.hasDerivAt_sigmoid w).deriv]
      have p0 := Real.sigmoid_pos w
      have p1 := Real.sigmoid_lt_one w
      rw [Real.norm_eq_abs, abs_of_nonneg (mul_nonneg p0.le (by linarith))]
      refine (sigmoid_slope w).trans (Real.exp_le_exp.2 ?_)
      have d : |w - z| ≤ |z' - z| := Set.abs_sub_left_of_mem_uIcc hw
      have := abs_sub_abs_le_abs_sub z w
      rw [abs_sub_comm] at this
      simp only [A]; linarith)
    (convex_uIcc z z') Set.left_mem_uIcc Set.right_mem_uIcc
  simp only [Real.norm_eq_abs] at hm
  refine hm.trans ?_
  have hz := abs_nonneg z
  have hA : (1 - η) * (1 + |z|) ≤ Real.exp A := by
    have := Real.add_one_le_exp A
    simp only [A] at this ⊢
    nlinarith
  rw [Real.exp_neg]
  have hE := Real.exp_pos A
  calc (Real.exp A)⁻¹ * |z' - z| ≤ (Real.exp A)⁻¹ * (η * (1 + |z|)) :=
        mul_le_mul_of_nonneg_left h (inv_nonneg.2 hE.le)
    _ ≤ η / (1 - η) := by
      rw [inv_mul_le_iff₀ hE, mul_div_assoc', le_div_iff₀ (by linarith)]
      nlinarith

/-- One rounding error in units of `2^-24`. -/
noncomputable def ε : ℝ := 2 ^ (-24 : ℤ)

theorem ε_pos : 0 < ε := two_zpow_pos _
theorem ε_small : ε < 1 / 10000000 := by unfold ε; norm_num

theorem round_ε (x : ℝ) : |round x - x| ≤ ε * |x| + ε * (1 / 1000000) := by
  have h := round_rel x
  have : (2 : ℝ) ^ (-150 : ℤ) ≤ 2 ^ (-24 : ℤ) * (1 / 1000000) := by norm_num
  unfold ε; exact h.trans (by linarith only [this])

/-- The constant `0.1` in single precision. -/
noncomputable def κ : ℝ := 13421773 * 2 ^ (-27 : ℤ)

theorem κ_lo : 0.0999 ≤ κ := by unfold κ; norm_num
theorem κ_hi : κ ≤ 0.1001 := by unfold κ; norm_num
theorem lit_κ [Libm] : (lit 0.1 : F32) = num κ := by
  rw [lit_fin (by rw [abs_of_pos (by norm_num)]; norm_num), round_tenth]; rfl

/-- The logistic function of the argument recovered from `x0 - l / k`. -/
theorem arg_real {L l d u x z κ x0 : ℝ} (k0 : 0.0999 ≤ κ) (k1 : κ ≤ 0.1001) (hx0 : |x0| ≤ 64)
    (h1 : |l - L| ≤ 4 * ε * (1 + |L|))
    (h2 : |d - l / κ| ≤ ε * |l / κ| + ε * (1 / 1000000))
    (h3 : |u - (x0 - d)| ≤ ε * |x0 - d| + ε * (1 / 1000000))
    (h4 : |x - (u - x0)| ≤ ε * |u - x0| + ε * (1 / 1000000))
    (h5 : |z - κ * x| ≤ ε * |κ * x| + ε * (1 / 1000000)) : |z - -L| ≤ 11 * ε * (1 + |L|) := by
  have e0 := ε_pos
  have e1 := ε_small
  have kp : 0 < κ := by linarith
  have hL0 := abs_nonneg L
  -- multiply the errors by `κ`
  have b1 : |κ * d - l| ≤ ε * |l| + ε * (1 / 1000000) := by
    have : κ * d - l = κ * (d - l / κ) := by field_simp
    rw [this, abs_mul, abs_of_pos kp]
    have e : κ * |l / κ| = |l| := by rw [abs_div, abs_of_pos kp]; field_simp
    calc κ * |d - l / κ| ≤ κ * (ε * |l / κ| + ε * (1 / 1000000)) := mul_le_mul_of_nonneg_left h2 kp.le
      _ = ε * (κ * |l / κ|) + κ * (ε * (1 / 1000000)) := by ring
      _ ≤ _ := by rw [e]; nlinarith
  have la := abs_of_near h1 (le_refl |L|)
  have D1 : |κ * d - L| ≤ ε * (4.2 + 5.1 * |L|) := by
    have : κ * d - L = (κ * d - l) + (l - L) := by ring
    rw [this]
    refine (abs_add_le _ _).trans ?_
    have m := mul_le_mul_of_nonneg_left la e0.le
    have m2 := mul_nonneg e0.le hL0
    have m3 := mul_le_mul_of_nonneg_left e1.le e0.le
    have m4 := mul_le_mul_of_nonneg_left e1.le m2
    linarith only [b1, h1, m, m2, m3, m4, e0]
  have Da := abs_of_near D1 (le_refl |L|)
  have el : ε * |L| ≤ 0.00001 * |L| := mul_le_mul_of_nonneg_right (by linarith) hL0
  have Da' : |κ * d| ≤ 1.0001 * |L| + 0.0001 := by linarith only [Da, el, e1, hL0]
  have kx0 : |κ * x0| ≤ 6.41 := by
    rw [abs_mul, abs_of_pos kp]
    calc κ * |x0| ≤ 0.1001 * 64 := mul_le_mul k1 hx0 (abs_nonneg _) (by norm_num)
      _ ≤ _ := by norm_num
  have small : κ * (ε * (1 / 1000000)) ≤ ε * (1 / 1000000) := by
    have := mul_le_mul_of_nonneg_right (show κ ≤ 1 by linarith) (show 0 ≤ ε * (1 / 1000000) by positivity)
    linarith only [this]
  have b2 : |κ * u - (κ * x0 - κ * d)| ≤ ε * (|κ * x0| + |κ * d|) + ε * (1 / 1000000) := by
    have : κ * u - (κ * x0 - κ * d) = κ * (u - (x0 - d)) := by ring
    rw [this, abs_mul, abs_of_pos kp]
    have e : κ * |x0 - d| ≤ |κ * x0| + |κ * d| := by
      rw [abs_mul, abs_mul, abs_of_pos kp]
      have := mul_le_mul_of_nonneg_left (abs_sub x0 d) kp.le
      linarith only [this]
    calc κ * |u - (x0 - d)| ≤ κ * (ε * |x0 - d| + ε * (1 / 1000000)) := mul_le_mul_of_nonneg_left h3 kp.le
      _ = ε * (κ * |x0 - d|) + κ * (ε * (1 / 1000000)) := by ring
      _ ≤ _ := add_le_add (mul_le_mul_of_nonneg_left e e0.le) small
  have U1 : |κ * u - κ * x0 - -(κ * d)| ≤ ε * (6.42 + 1.01 * |L|) := by
    have : κ * u - κ * x0 - -(κ * d) = κ * u - (κ * x0 - κ * d) := by ring
    rw [this]
    have m := mul_le_mul_of_nonneg_left (add_le_add kx0 Da') e0.le
    have m2 := mul_nonneg e0.le hL0
    linarith only [b2, m, m2, e0]
  have Ua : |κ * u - κ * x0| ≤ 1.001 * |L| + 0.001 := by
    have := abs_of_near U1 (by rw [abs_neg])
    linarith only [this, Da', el, e1, hL0]
  have b3 : |κ * x - (κ * u - κ * x0)| ≤ ε * |κ * u - κ * x0| + ε * (1 / 1000000) := by
    have : κ * x - (κ * u - κ * x0) = κ * (x - (u - x0)) := by ring
    rw [this, abs_mul, abs_of_pos kp]
    have e : κ * |u - x0| = |κ * u - κ * x0| := by
      rw [← mul_sub, abs_mul, abs_of_pos kp]
    calc κ * |x - (u - x0)| ≤ κ * (ε * |u - x0| + ε * (1 / 1000000)) := mul_le_mul_of_nonneg_left h4 kp.le
      _ = ε * (κ * |u - x0|) + κ * (ε * (1 / 1000000)) := by ring
      _ ≤ _ := by rw [e]; exact add_le_add le_rfl small
  have X1 : |κ * x - (κ * u - κ * x0)| ≤ ε * (0.01 + 1.01 * |L|) := by
    have m := mul_le_mul_of_nonneg_left Ua e0.le
    have m2 := mul_nonneg e0.le hL0
    linarith only [b3, m, m2, e0]
  have Xa : |κ * x| ≤ 1.01 * |L| + 0.01 := by
    have := abs_of_near X1 Ua
    linarith only [this, el, e1, hL0]
  have Z1 : |z - κ * x| ≤ ε * (0.02 + 1.02 * |L|) := by
    have m := mul_le_mul_of_nonneg_left Xa e0.le
    have m2 := mul_nonneg e0.le hL0
    linarith only [h5, m, m2, e0]
  have : z - -L = (z - κ * x) + (κ * x - (κ * u - κ * x0)) + (κ * u - κ * x0 - -(κ * d)) - (κ * d - L) := by ring
  rw [this]
  refine (abs_sub _ _).trans ?_
  have t1 := abs_add_le (z - κ * x + (κ * x - (κ * u - κ * x0))) (κ * u - κ * x0 - -(κ * d))
  have t2 := abs_add_le (z - κ * x) (κ * x - (κ * u - κ * x0))
  have m2 := mul_nonneg e0.le hL0
  linarith only [t1, t2, Z1, X1, U1, D1, m2, e0]

theorem log_bd {r : ℝ} (h1 : 2 ^ (-23 : ℤ) ≤ r) (h2 : r < 2 ^ (128 : ℕ)) : |Real.log r| ≤ 100 := by
  have hr : 0 < r := lt_of_lt_of_le (two_zpow_pos _) h1
  have l2 := Real.log_two_lt_d9
  rw [abs_le]
  constructor
  · have : Real.log ((2 : ℝ) ^ (-23 : ℤ)) ≤ Real.log r := Real.log_le_log (two_zpow_pos _) h1
    rw [Real.log_zpow] at this
    push_cast at this; linarith [Real.log_pos (by norm_num : (1 : ℝ) < 2)]
  · have : Real.log r ≤ Real.log ((2 : ℝ) ^ (128 : ℕ)) := Real.log_le_log hr h2.le
    rw [Real.log_pow] at this
    push_cast at this; linarith

/-- From the argument of the logarithm to the value of the logistic function. -/
theorem trip_fin [Libm] (ha : Libm.AccurateInverse) {r x0 : ℝ} (h1 : 2 ^ (-23 : ℤ) ≤ r) (h2 : r < 2 ^ (128 : ℕ))
    (hx0 : |x0| ≤ 64) :
    ∃ s, sigm (num κ * (num x0 - ln (num r) / num κ - num x0)) = num s ∧ |s - 1 / (1 + r)| ≤ 15.2 * ε := by
  have e0 := ε_pos
  have e1 := ε_small
  obtain ⟨l, hl, hlL⟩ := ha.ln_acc r h1 h2
  have hL := log_bd h1 h2
  set L := Real.log r with hLd
  have k0 := κ_lo
  have k1 := κ_hi
  have kp : 0 < κ := by linarith
  have h4 : |l - L| ≤ 4 * ε * (1 + |L|) := by
    have : (2 : ℝ) ^ (-22 : ℤ) = 4 * ε := by unfold ε; norm_num
    rw [this] at hlL; exact hlL
  have big : ∀ {x : ℝ}, |x| ≤ 10000 → |x| ≤ 2 ^ (127 : ℕ) := fun h => h.trans (by norm_num)
  have la : |l| ≤ 101 := by
    have := abs_of_near h4 hL; nlinarith
  have lk : |l / κ| ≤ 1100 := by
    rw [abs_div, abs_of_pos kp, div_le_iff₀ kp]; nlinarith
  have d1 := round_ε (l / κ)
  have da : |round (l / κ)| ≤ 1200 := by
    have := abs_of_near d1 lk; nlinarith [abs_nonneg (l / κ)]
  have u0 : |x0 - round (l / κ)| ≤ 1300 := (abs_sub _ _).trans (by linarith)
  have u1 := round_ε (x0 - round (l / κ))
  have ua : |round (x0 - round (l / κ))| ≤ 1400 := by
    have := abs_of_near u1 u0; nlinarith [abs_nonneg (x0 - round (l / κ))]
  have x0' : |round (x0 - round (l / κ)) - x0| ≤ 1500 := (abs_sub _ _).trans (by linarith)
  have x1 := round_ε (round (x0 - round (l / κ)) - x0)
  have xa : |round (round (x0 - round (l / κ)) - x0)| ≤ 1600 := by
    have := abs_of_near x1 x0'; nlinarith [abs_nonneg (round (x0 - round (l / κ)) - x0)]
  have z0 : |κ * round (round (x0 - round (l / κ)) - x0)| ≤ 1600 := by
    rw [abs_mul, abs_of_pos kp]; nlinarith [abs_nonneg (round (round (x0 - round (l / κ)) - x0))]
  have z1 := round_ε (κ * round (round (x0 - round (l / κ)) - x0))
  have e : num κ * (num x0 - ln (num r) / num κ - num x0) =
      num (round (κ * round (round (x0 - round (l / κ)) - x0))) := by
    have s0 : (ln (num r) : F32) = num l := by change (⟨Libm.ln (fin r)⟩ : F32) = _; rw [hl]; rfl
    have s1 : num l / num κ = num (round (l / κ)) := div_fin kp.ne' (big (lk.trans (by norm_num)))
    have s2 : num x0 - num (round (l / κ)) = num (round (x0 - round (l / κ))) := sub_fin (big (u0.trans (by norm_num)))
    have s3 : num (round (x0 - round (l / κ))) - num x0 = num (round (round (x0 - round (l / κ)) - x0)) :=
      sub_fin (big (x0'.trans (by norm_num)))
    have s4 : num κ * num (round (round (x0 - round (l / κ)) - x0)) =
      num (round (κ * round (round (x0 - round (l / κ)) - x0))) := mul_fin (big (z0.trans (by norm_num)))
    rw [s0, s1, s2, s3, s4]
  rw [e]
  have key := arg_real k0 k1 hx0 h4 d1 u1 x1 z1
  set z := round (κ * round (round (x0 - round (l / κ)) - x0))
  obtain ⟨s, hs, hs'⟩ := ha.sg_acc z
  refine ⟨s, by change (⟨Libm.sg (fin z)⟩ : F32) = _; rw [hs]; rfl, ?_⟩
  have hr : 0 < r := lt_of_lt_of_le (two_zpow_pos _) h1
  have sl : Real.sigmoid (-L) = 1 / (1 + r) := by
    rw [Real.sigmoid_def, neg_neg, hLd, Real.exp_log hr, one_div]
  have hsg := sigmoid_rel (z := -L) (z' := z) (η := 11 * ε) (by positivity) (by linarith) (by rw [abs_neg]; exact key)
  have hq : 11 * ε / (1 - 11 * ε) ≤ 11.11 * ε := by
    rw [div_le_iff₀ (by linarith)]; nlinarith
  have h22 : (2 : ℝ) ^ (-22 : ℤ) = 4 * ε := by unfold ε; norm_num
  rw [h22] at hs'
  rw [← sl]
  have : s - Real.sigmoid (-L) = (s - Real.sigmoid z) + (Real.sigmoid z - Real.sigmoid (-L)) := by ring
  rw [this]
  refine (abs_add_le _ _).trans ?_
  linarith

theorem rep_gap {q : ℝ} (h : Rep q) (h1 : 1 < q) : 1 + 2 ^ (-23 : ℤ) ≤ q := by
  obtain ⟨m, e, hm, -, rfl⟩ := h
  have hm' : (m : ℝ) ≤ 2 ^ (24 : ℕ) := by
    have : m ≤ 2 ^ 24 := (le_abs_self m).trans hm
    exact_mod_cast this
  have he : -23 ≤ e := by
    by_contra hc
    have : (2 : ℝ) ^ e ≤ 2 ^ (-24 : ℤ) := zpow_mono2 (by omega)
    have hp := two_zpow_pos e
    have h3 : (m : ℝ) * 2 ^ e ≤ 2 ^ (24 : ℕ) * 2 ^ (-24 : ℤ) :=
      mul_le_mul hm' this hp.le (by positivity)
    norm_num at h3; linarith
  obtain ⟨n, hn⟩ := Int.eq_ofNat_of_zero_le (show 0 ≤ e + 23 by omega)
  have e2 : (2 : ℝ) ^ e = 2 ^ n * 2 ^ (-23 : ℤ) := by
    have : e = (n : ℤ) + -23 := by omega
    rw [this, zpow_add₀ (by norm_num), zpow_natCast]
  rw [e2] at h1 ⊢
  have h5 : ((2 ^ 23 : ℤ) : ℝ) < ((m * 2 ^ n : ℤ) : ℝ) := by
    push_cast
    have : (m : ℝ) * (2 ^ n * 2 ^ (-23 : ℤ)) = (m * 2 ^ n) / 2 ^ 23 := by norm_num; ring
    rw [this, lt_div_iff₀ (by norm_num)] at h1
    linarith
  have h6 : (2 ^ 23 + 1 : ℤ) ≤ m * 2 ^ n := by exact_mod_cast h5
  have h7 : ((2 ^ 23 + 1 : ℤ) : ℝ) ≤ ((m * 2 ^ n : ℤ) : ℝ) := by exact_mod_cast h6
  push_cast at h7
  have : (m : ℝ) * (2 ^ n * 2 ^ (-23 : ℤ)) = (m * 2 ^ n) * 2 ^ (-23 : ℤ) := by ring
  rw [this]
  norm_num at h7 ⊢
  linarith

theorem trip_pinf [Libm] (ha : Libm.AccurateInverse) (x0 : ℝ) :
    sigm (num κ * (num x0 - ln (⟨pinf⟩ : F32) / num κ - num x0)) = num 0 := by
  have kp : 0 < κ := by linarith [κ_lo]
  have s0 : (ln (⟨pinf⟩ : F32) : F32) = ⟨pinf⟩ := by change (⟨Libm.ln pinf⟩ : F32) = _; rw [ha.ln_pinf]
  have s1 : (⟨pinf⟩ : F32) / num κ = ⟨pinf⟩ := by
    change (⟨rd (pinf / fin κ)⟩ : F32) = _
    have : (pinf / fin κ : XR) = pinf := by
      change XR.div pinf (fin κ) = _; simp [XR.div, kp.le]
    rw [this]; rfl
  have s4 : num κ * (⟨ninf⟩ : F32) = ⟨ninf⟩ := by
    change (⟨rd (fin κ * ninf)⟩ : F32) = _
    have : (fin κ * ninf : XR) = ninf := by
      change XR.mul (fin κ) ninf = _; simp [XR.mul, XR.ofSign, kp, kp.le]
    rw [this]; rfl
  have s2 : num x0 - (⟨pinf⟩ : F32) = ⟨ninf⟩ := rfl
  have s3 : (⟨ninf⟩ : F32) - num x0 = ⟨ninf⟩ := rfl
  rw [s0, s1, s2, s3, s4]
  change (⟨Libm.sg ninf⟩ : F32) = _
  rw [ha.sg_ninf]; rfl

theorem trip_zero [Libm] (ha : Libm.AccurateInverse) (x0 : ℝ) :
    sigm (num κ * (num x0 - ln (num 0) / num κ - num x0)) = num 1 := by
  have kp : 0 < κ := by linarith [κ_lo]
  have s0 : (ln (num 0) : F32) = ⟨ninf⟩ := by change (⟨Libm.ln (fin 0)⟩ : F32) = _; rw [ha.ln_zero]
  have s1 : (⟨ninf⟩ : F32) / num κ = ⟨ninf⟩ := by
    change (⟨rd (ninf / fin κ)⟩ : F32) = _
    have : (ninf / fin κ : XR) = ninf := by
      change XR.div ninf (fin κ) = _; simp [XR.div, kp.le]
    rw [this]; rfl
  have s4 : num κ * (⟨pinf⟩ : F32) = ⟨pinf⟩ := by
    change (⟨rd (fin κ * pinf)⟩ : F32) = _
    have : (fin κ * pinf : XR) = pinf := by
      change XR.mul (fin κ) pinf = _; simp [XR.mul, XR.ofSign, kp]
    rw [this]; rfl
  have s2 : num x0 - (⟨ninf⟩ : F32) = ⟨pinf⟩ := rfl
  have s3 : (⟨pinf⟩ : F32) - num x0 = ⟨pinf⟩ := rfl
  rw [s0, s1, s2, s3, s4]
  change (⟨Libm.sg pinf⟩ : F32) = _
  rw [ha.sg_pinf]; rfl

/-- A finite result: where rounding does not overflow. -/
theorem rd_eq_fin {x y : ℝ} (h : rd (fin x) = fin y) : y = round x ∧ y < 2 ^ (128 : ℕ) := by
  unfold rd at h
  simp only at h
  split_ifs at h with h1 h2
  · cases h; exact ⟨rfl, not_le.1 h1⟩

theorem rd_eq_pinf {x : ℝ} (h : rd (fin x) = pinf) (hx : 0 ≤ x) : 2 ^ (127 : ℕ) ≤ x := by
  by_contra hc
  rw [rd_fin (by rw [abs_of_nonneg hx]; exact (not_le.1 hc).le)] at h
  cases h

/-- The quotient in the inverse bounding function, for a parameter in range: either infinite, and the parameter
is practically the lower bound; or one, and it is practically the upper bound; or in between. -/
theorem quot_cases [Libm] {w b : ℝ} (hb0 : 0 ≤ b) (hbw : b ≤ w) (hw : 2 ^ (-11 : ℤ) ≤ w) :
    (num w / num b - (lit 1 : F32) = ⟨pinf⟩ ∧ b ≤ ε * w) ∨
    (num w / num b - (lit 1 : F32) = num 0 ∧ |w - b| ≤ 1.1 * ε * w) ∨
    ∃ r, num w / num b - (lit 1 : F32) = num r ∧ 2 ^ (-23 : ℤ) ≤ r ∧ r < 2 ^ (128 : ℕ) ∧
      |w / (1 + r) - b| ≤ 2.1 * ε * w := by
  have e0 := ε_pos
  have e1 := ε_small
  have hwp : 0 < w := lt_of_lt_of_le (two_zpow_pos _) hw
  have l1 : (lit 1 : F32) = num 1 := by
    rw [lit_fin (by norm_num), round_rep rep_one]; rfl
  have pinf_case : (⟨pinf⟩ : F32) - (lit 1 : F32) = ⟨pinf⟩ := by rw [l1]; rfl
  have tiny : ∀ {t : ℝ}, 2 ^ (126 : ℕ) ≤ t → t * b ≤ w → b ≤ ε * w := fun {t} ht h => by
    have : (2 : ℝ) ^ (126 : ℕ) * b ≤ w := (mul_le_mul_of_nonneg_right ht hb0).trans h
    have h2 : (2 : ℝ) ^ (24 : ℕ) * b ≤ w := (mul_le_mul_of_nonneg_right (by norm_num) hb0).trans this
    have : ε * 2 ^ (24 : ℕ) = 1 := by unfold ε; norm_num
    calc b = ε * (2 ^ (24 : ℕ) * b) := by rw [← mul_assoc, this, one_mul]
      _ ≤ _ := mul_le_mul_of_nonneg_left h2 e0.le
  rcases hb0.eq_or_lt with hb | hb
  · left
    rw [← hb]
    refine ⟨?_, by positivity⟩
    have : num w / num 0 = ⟨pinf⟩ := by
      change (⟨rd (fin w / fin 0)⟩ : F32) = _
      have : (fin w / fin 0 : XR) = pinf := by
        change XR.div (fin w) (fin 0) = _; simp [XR.div, XR.ofSign, hwp]
      rw [this]; rfl
    rw [this, pinf_case]
  have hq1 : 1 ≤ w / b := by rw [le_div_iff₀ hb]; linarith
  have hq0 : 0 ≤ w / b := by linarith
  have hwb : w / b * b = w := div_mul_cancel₀ _ hb.ne'
  have hdiv : num w / num b = ⟨rd (fin (w / b))⟩ := by
    change (⟨rd (fin w / fin b)⟩ : F32) = _
    rw [fin_div hb.ne']
  rcases rd_cases hq0 with hr | hr
  · left
    rw [hdiv, hr]
    have := rd_eq_pinf hr hq0
    exact ⟨pinf_case, tiny (t := w / b) ((by norm_num : (2 : ℝ) ^ (126 : ℕ) ≤ 2 ^ (127 : ℕ)).trans this) hwb.le⟩
  · obtain ⟨q, hq⟩ : ∃ q, q = round (w / b) := ⟨_, rfl⟩
    rw [← hq] at hr
    have q1 : 1 ≤ q := by rw [hq]; exact le_round hq1 rep_one
    have qe := round_ε (w / b)
    rw [← hq, abs_of_nonneg hq0] at qe
    have qe' : |q - w / b| ≤ 1.00001 * ε * (w / b) := by
      have := mul_le_mul_of_nonneg_left hq1 e0.le
      generalize w / b = t at qe this ⊢
      linarith only [qe, this, e0]
    have hsub : num q - (lit 1 : F32) = ⟨rd (fin (q - 1))⟩ := by
      rw [l1]
      change (⟨rd (fin q - fin 1)⟩ : F32) = _
      rw [XR.fin_sub]
    rw [hdiv, hr]
    change (num q - (lit 1 : F32) = _ ∧ _) ∨ (num q - (lit 1 : F32) = _ ∧ _) ∨ ∃ r, num q - (lit 1 : F32) = _ ∧ _
    rw [hsub]
    have q0 : 0 ≤ q - 1 := by linarith
    rcases rd_cases q0 with hr2 | hr2
    · left
      refine ⟨by rw [hr2], tiny (t := w / b) ?_ hwb.le⟩
      have h := rd_eq_pinf hr2 q0
      have a := (abs_le.1 qe').2
      have : 1.00001 * ε * (w / b) ≤ 0.001 * (w / b) := mul_le_mul_of_nonneg_right (by linarith) hq0
      have h3 : (2 : ℝ) ^ (126 : ℕ) ≤ 2 ^ (127 : ℕ) / 1.5 := by norm_num
      refine h3.trans ?_
      rw [div_le_iff₀ (by norm_num)]
      linarith
    · obtain ⟨r, hr'⟩ : ∃ r, r = round (q - 1) := ⟨_, rfl⟩
      rw [← hr'] at hr2
      have hr3 := (rd_eq_fin hr2).2
      rw [hr2]
      right
      rcases q1.eq_or_lt with hq' | hq'
      · left
        have : r = 0 := by rw [hr', ← hq', sub_self, round_zero]
        refine ⟨by rw [this]; rfl, ?_⟩
        have : w - b = -(b * (1 - w / b)) := by field_simp; ring
        rw [this, abs_neg, abs_mul, abs_of_pos hb]
        rw [← hq'] at qe'
        calc b * |1 - w / b| ≤ b * (1.00001 * ε * (w / b)) := mul_le_mul_of_nonneg_left qe' hb.le
          _ = 1.00001 * ε * w := by field_simp
          _ ≤ _ := by nlinarith [mul_pos e0 hwp]
      · right
        have hrep : Rep q := by rw [hq]; exact rep_round _
        have gap := rep_gap hrep hq'
        have rr : 2 ^ (-23 : ℤ) ≤ r := by
          rw [hr']; exact le_round (by linarith) (rep_zpow (by norm_num))
        refine ⟨r, rfl, rr, hr3, ?_⟩
        have r0 : 0 < r := lt_of_lt_of_le (two_zpow_pos _) rr
        have re := round_ε (q - 1)
        rw [← hr', abs_of_nonneg q0] at re
        have T : |(1 + r) - w / b| ≤ 2.1 * ε * (w / b) := by
          have : (1 + r) - w / b = (r - (q - 1)) + (q - w / b) := by ring
          rw [this]
          refine (abs_add_le _ _).trans ?_
          have a := (abs_le.1 qe').2
          have m := mul_le_mul_of_nonneg_left a e0.le
          have m0 : 0 ≤ ε * (w / b) := mul_nonneg e0.le hq0
          have m1 := mul_le_mul_of_nonneg_right e1.le m0
          linarith only [re, qe', m, m1, m0, e0]
        have hT : 1 ≤ 1 + r := by linarith
        have : w / (1 + r) - b = (w / b - (1 + r)) * b / (1 + r) := by
          field_simp
        rw [this, abs_div, abs_of_pos (show 0 < 1 + r by linarith), div_le_iff₀ (by linarith), abs_mul, abs_of_pos hb,
          abs_sub_comm]
        calc |1 + r - w / b| * b ≤ 2.1 * ε * (w / b) * b := mul_le_mul_of_nonneg_right T hb.le
          _ = 2.1 * ε * w := by rw [mul_assoc, hwb]
          _ ≤ 2.1 * ε * w * (1 + r) := le_mul_of_one_le_right (by positivity) hT

/-- The value of the logistic function after the way through the unbounded parameter is the relative position of
the parameter between its bounds. -/
theorem trip_core [Libm] (ha : Libm.AccurateInverse) {x0 lo hi y : ℝ} (hx0 : |x0| ≤ 64) (h1 : lo ≤ y) (h2 : y ≤ hi)
    (w1 : 2 ^ (-10 : ℤ) ≤ hi - lo) (w2 : hi - lo ≤ 128) :
    ∃ s, sigm (num κ * (inverse_sigmoid (num y) (num x0) (num κ) (num lo) (num hi) - num x0)) = num s ∧
      |s| ≤ 1.01 ∧ |(hi - lo) * s - (y - lo)| ≤ 19.6 * ε * (hi - lo) := by
  have e0 := ε_pos
  have e1 := ε_small
  have hW : 0 < hi - lo := lt_of_lt_of_le (two_zpow_pos _) w1
  have big : ∀ {x : ℝ}, |x| ≤ 10000 → |x| ≤ 2 ^ (127 : ℕ) := fun h => h.trans (by norm_num)
  have we := round_ε (hi - lo)
  have be := round_ε (y - lo)
  have s1 : num hi - num lo = num (round (hi - lo)) := sub_fin (big (by rw [abs_of_pos hW]; linarith))
  have s2 : num y - num lo = num (round (y - lo)) :=
    sub_fin (big (by rw [abs_of_nonneg (by linarith)]; linarith))
  have tiny : ε * (1 / 1000000) ≤ 0.01 * ε * (hi - lo) := by
    have : (1 : ℝ) / 1000000 ≤ 0.01 * (hi - lo) := by
      have : (2 : ℝ) ^ (-10 : ℤ) = 1 / 1024 := by norm_num
      rw [this] at w1; linarith
    calc _ ≤ ε * (0.01 * (hi - lo)) := mul_le_mul_of_nonneg_left this e0.le
      _ = _ := by ring
  have bw : round (y - lo) ≤ round (hi - lo) := round_mono (by linarith)
  have b0 : 0 ≤ round (y - lo) := round_nonneg (by linarith)
  rw [abs_of_pos hW] at we
  rw [abs_of_nonneg (show 0 ≤ y - lo by linarith)] at be
  have we' : |round (hi - lo) - (hi - lo)| ≤ 1.01 * ε * (hi - lo) := by linarith only [we, tiny]
  have be' : |round (y - lo) - (y - lo)| ≤ 1.01 * ε * (hi - lo) := by
    have := mul_le_mul_of_nonneg_left (show y - lo ≤ hi - lo by linarith) e0.le
    linarith only [be, tiny, this]
  have eW : ε * (hi - lo) ≤ 1 / 10000000 * (hi - lo) := mul_le_mul_of_nonneg_right e1.le hW.le
  have wb := abs_le.1 we'
  have hw1 : 2 ^ (-11 : ℤ) ≤ round (hi - lo) := by
    have : (2 : ℝ) ^ (-11 : ℤ) = 2 ^ (-10 : ℤ) / 2 := by norm_num
    rw [this]; generalize (2 : ℝ) ^ (-10 : ℤ) = c at *; linarith only [w1, wb.1, eW, hW]
  have ew : ε * round (hi - lo) ≤ 1.001 * ε * (hi - lo) := by
    have := mul_le_mul_of_nonneg_left wb.2 e0.le
    have h3 := mul_le_mul_of_nonneg_left eW e0.le
    have h4 := mul_pos e0 hW
    linarith only [this, h3, h4]
  unfold inverse_sigmoid
  simp only
  rw [s1, s2]
  have e4 := mul_pos e0 hW
  rcases quot_cases b0 bw hw1 with ⟨h, hb⟩ | ⟨h, hb⟩ | ⟨r, h, r1, r2, hb⟩
  · refine ⟨0, by rw [h]; exact trip_pinf ha x0, by norm_num, ?_⟩
    have : (hi - lo) * 0 - (y - lo) = (round (y - lo) - (y - lo)) - round (y - lo) := by ring
    rw [this]
    refine (abs_sub _ _).trans ?_
    rw [abs_of_nonneg b0]
    linarith only [be', hb, ew, e4]
  · refine ⟨1, by rw [h]; exact trip_zero ha x0, by norm_num, ?_⟩
    have : (hi - lo) * 1 - (y - lo) = (round (y - lo) - (y - lo)) - (round (hi - lo) - (hi - lo)) +
      (round (hi - lo) - round (y - lo)) := by ring
    rw [this]
    refine (abs_add_le _ _).trans ?_
    have := abs_sub (round (y - lo) - (y - lo)) (round (hi - lo) - (hi - lo))
    linarith only [be', we', hb, ew, this, e4]
  · obtain ⟨s, hs, hs'⟩ := trip_fin ha r1 r2 hx0
    have r0 : 0 < r := lt_of_lt_of_le (two_zpow_pos _) r1
    have T0 : 0 < 1 + r := by linarith
    have i1 : 1 / (1 + r) ≤ 1 := by rw [div_le_one T0]; linarith
    have i0 : 0 < 1 / (1 + r) := by positivity
    refine ⟨s, by rw [h]; exact hs, ?_, ?_⟩
    · have := abs_of_near hs' (by rw [abs_of_pos i0])
      linarith only [this, i1, e1]
    have : (hi - lo) * s - (y - lo) = (hi - lo) * (s - 1 / (1 + r)) - (round (hi - lo) - (hi - lo)) * (1 / (1 + r)) +
      (round (hi - lo) / (1 + r) - round (y - lo)) + (round (y - lo) - (y - lo)) := by
      field_simp; ring
    rw [this]
    have t1 : |(hi - lo) * (s - 1 / (1 + r))| ≤ (hi - lo) * (15.2 * ε) := by
      rw [abs_mul, abs_of_pos hW]; exact mul_le_mul_of_nonneg_left hs' hW.le
    have t2 : |(round (hi - lo) - (hi - lo)) * (1 / (1 + r))| ≤ 1.01 * ε * (hi - lo) := by
      rw [abs_mul, abs_of_pos i0]
      calc _ ≤ |round (hi - lo) - (hi - lo)| * 1 := mul_le_mul_of_nonneg_left i1 (abs_nonneg _)
        _ ≤ _ := by rw [mul_one]; exact we'
    refine (abs_add_le _ _).trans ?_
    refine (add_le_add (abs_add_le _ _) le_rfl).trans ?_
    refine (add_le_add (add_le_add (abs_sub _ _) le_rfl) le_rfl).trans ?_
    linarith only [t1, t2, hb, be', ew, e4]

/-- From the value of the logistic function to the parameter. The lower bound may have moved. -/
theorem trip_out {lo lo' hi y s E δ : ℝ} (hs : |s| ≤ 1.01) (h : |(hi - lo) * s - (y - lo)| ≤ E)
    (hd : |lo' - lo| ≤ δ) (hl : |lo'| ≤ 128) (hh : |hi| ≤ 128) :
    ∃ y', num lo' + (num hi - num lo') * num s = num y' ∧
      |y' - y| ≤ E + 2.01 * δ + ε * (3.1 * |hi - lo'| + |lo'| + 0.01) := by
  have e0 := ε_pos
  have e1 := ε_small
  have big : ∀ {x : ℝ}, |x| ≤ 10000 → |x| ≤ 2 ^ (127 : ℕ) := fun h => h.trans (by norm_num)
  have w0 : |hi - lo'| ≤ 256 := (abs_sub _ _).trans (by linarith)
  have we := round_ε (hi - lo')
  have W0 := abs_nonneg (hi - lo')
  have eW : ε * |hi - lo'| ≤ 0.0000001 * |hi - lo'| := mul_le_mul_of_nonneg_right (by linarith) W0
  have wa : |round (hi - lo')| ≤ 1.001 * |hi - lo'| + 0.001 := by
    have := abs_of_near we le_rfl; linarith only [this, eW, e1, W0]
  have m0 : |round (hi - lo') * s| ≤ 1.012 * |hi - lo'| + 0.0011 := by
    rw [abs_mul]
    calc _ ≤ (1.001 * |hi - lo'| + 0.001) * 1.01 := mul_le_mul wa hs (abs_nonneg _) (by positivity)
      _ ≤ _ := by linarith only [W0]
  have me := round_ε (round (hi - lo') * s)
  have ma : |round (round (hi - lo') * s)| ≤ 1.02 * |hi - lo'| + 0.002 := by
    have := abs_of_near me m0
    have m := mul_le_mul_of_nonneg_left m0 e0.le
    linarith only [this, m, eW, e1, W0]
  have o0 : |lo' + round (round (hi - lo') * s)| ≤ |lo'| + 1.02 * |hi - lo'| + 0.002 :=
    (abs_add_le _ _).trans (by linarith)
  have oe := round_ε (lo' + round (round (hi - lo') * s))
  have s1 : num hi - num lo' = num (round (hi - lo')) := sub_fin (big (w0.trans (by norm_num)))
  have s2 : num (round (hi - lo')) * num s = num (round (round (hi - lo') * s)) :=
    mul_fin (big (m0.trans (by linarith)))
  have s3 : num lo' + num (round (round (hi - lo') * s)) = num (round (lo' + round (round (hi - lo') * s))) :=
    add_fin (big (o0.trans (by linarith)))
  refine ⟨_, by rw [s1, s2, s3], ?_⟩
  set W := round (hi - lo')
  set m := round (W * s)
  set o := round (lo' + m)
  have dec : o - y = (o - (lo' + m)) + (m - W * s) + (W - (hi - lo')) * s + (lo' - lo) * (1 - s) +
    ((hi - lo) * s - (y - lo)) := by ring
  rw [dec]
  have t3 : |(W - (hi - lo')) * s| ≤ (ε * |hi - lo'| + ε * (1 / 1000000)) * 1.01 := by
    rw [abs_mul]; exact mul_le_mul we hs (abs_nonneg _) (by positivity)
  have hs1 : |1 - s| ≤ 2.01 := by
    have := abs_sub 1 s; rw [abs_one] at this; linarith
  have t4 : |(lo' - lo) * (1 - s)| ≤ δ * 2.01 := by
    rw [abs_mul]; exact mul_le_mul hd hs1 (abs_nonneg _) ((abs_nonneg _).trans hd)
  have t2 := mul_le_mul_of_nonneg_left m0 e0.le
  have t1 := mul_le_mul_of_nonneg_left o0 e0.le
  have a1 := abs_add_le (o - (lo' + m) + (m - W * s) + (W - (hi - lo')) * s + (lo' - lo) * (1 - s))
    ((hi - lo) * s - (y - lo))
  have a2 := abs_add_le (o - (lo' + m) + (m - W * s) + (W - (hi - lo')) * s) ((lo' - lo) * (1 - s))
  have a3 := abs_add_le (o - (lo' + m) + (m - W * s)) ((W - (hi - lo')) * s)
  have a4 := abs_add_le (o - (lo' + m)) (m - W * s)
  have eW' := mul_nonneg e0.le W0
  linarith only [a1, a2, a3, a4, t1, t2, t3, t4, oe, me, h, eW', e0]

/-- What the round trip needs of a pair of bounds. -/
structure Wide (b : ℝ × ℝ) : Prop where
  size : |b.1| + |b.2| ≤ 127
  width : 1 / 32 ≤ b.2 - b.1

/-- One bounded parameter, through its unbounded counterpart and back. -/
theorem bounded_trip [Libm] (ha : Libm.AccurateInverse) {b : ℝ × ℝ} (hb : Wide b) {y : ℝ} (h1 : round b.1 ≤ y)
    (h2 : y ≤ round b.2) :
    ∃ y', get_bounded_diffmah_param (get_unbounded_diffmah_param (num y) b) b = num y' ∧
      |y' - y| ≤ ε * (23.1 * (b.2 - b.1) + 1.1 * |b.1|) := by
  obtain ⟨lo, hi⟩ := b
  obtain ⟨hs, hw⟩ := hb
  simp only at hs hw h1 h2 ⊢
  have e0 := ε_pos
  have e1 := ε_small
  have l0 := abs_nonneg lo
  have g0 := abs_nonneg hi
  have b1 : |lo| ≤ 2 ^ (7 : ℕ) := by norm_num; linarith
  have b2 : |hi| ≤ 2 ^ (7 : ℕ) := by norm_num; linarith
  have e7 : (2 : ℝ) ^ (7 : ℕ) ≤ 2 ^ (127 : ℕ) := pow_le127 (by norm_num)
  have rl := round_ε lo
  have rh := round_ε hi
  have eL : ε * |lo| ≤ 0.0001 := by nlinarith
  have eH : ε * |hi| ≤ 0.0001 := by nlinarith
  have al := abs_of_near rl le_rfl
  have ah := abs_of_near rh le_rfl
  have wl := abs_le.1 rl
  have wh := abs_le.1 rh
  have hmid : |round (1 / 2 * round (round lo + round hi))| ≤ 64 := by
    have s0 : |round lo + round hi| ≤ 127.01 := (abs_add_le _ _).trans (by linarith only [al, ah, eL, eH, hs, e1])
    have s1 := abs_of_near (round_ε (round lo + round hi)) s0
    have s1' : |round (round lo + round hi)| ≤ 127.02 := by nlinarith
    have s2 : |1 / 2 * round (round lo + round hi)| ≤ 63.51 := by
      rw [abs_mul, abs_of_pos (by norm_num)]; linarith
    have s3 := abs_of_near (round_ε (1 / 2 * round (round lo + round hi))) s2
    nlinarith
  have W1 : 2 ^ (-10 : ℤ) ≤ round hi - round lo := by
    have : (2 : ℝ) ^ (-10 : ℤ) ≤ 1 / 64 := by norm_num
    generalize (2 : ℝ) ^ (-10 : ℤ) = c at *
    linarith only [this, wl.2, wh.1, eL, eH, e1, hw]
  have W2 : round hi - round lo ≤ 128 := by
    have := le_abs_self hi
    have := neg_abs_le lo
    linarith only [wl.1, wh.2, eL, eH, e1, hs, this, le_abs_self hi]
  obtain ⟨s, hs1, hs2, hs3⟩ := trip_core ha hmid h1 h2 W1 W2
  obtain ⟨y', hy, hy'⟩ := trip_out (lo' := round lo) (δ := 0) hs2 hs3 (by simp) (by linarith only [al, eL, e1, hs, g0])
    (by linarith only [ah, eH, e1, hs, l0])
  refine ⟨y', ?_, ?_⟩
  · unfold get_bounded_diffmah_param get_unbounded_diffmah_param
    simp only [BOUNDING_K]
    rw [(PopBounds.mid_fin b1 b2).1, lit_fin (b1.trans e7), lit_fin (b2.trans e7), lit_κ]
    change num (round lo) + (num (round hi) - num (round lo)) *
      sigm (num κ * (inverse_sigmoid (num y) (num _) (num κ) (num (round lo)) (num (round hi)) - num _)) = _
    rw [hs1]; exact hy
  · refine hy'.trans ?_
    have hW : |round hi - round lo| = round hi - round lo := abs_of_nonneg (le_trans (two_zpow_pos _).le W1)
    rw [hW]
    have w3 : round hi - round lo ≤ 1.001 * (hi - lo) := by
      have : ε * |lo| ≤ 0.000013 := by nlinarith
      have : ε * |hi| ≤ 0.000013 := by nlinarith
      linarith only [wl.1, wh.2, e1, hw, this, ‹ε * |lo| ≤ 0.000013›]
    have m1 := mul_le_mul_of_nonneg_left w3 e0.le
    have m2 := mul_le_mul_of_nonneg_left al e0.le
    have m3 := mul_le_mul_of_nonneg_left eL e0.le
    have m4 := mul_le_mul_of_nonneg_left e1.le e0.le
    have m5 := mul_le_mul_of_nonneg_left hw e0.le
    have m6 := mul_nonneg e0.le l0
    linarith only [m1, m2, m3, m4, m5, m6, e0]

end Diffmah.F32

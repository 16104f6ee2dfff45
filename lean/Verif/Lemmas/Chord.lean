import Verif.Lemmas.Normal
import Verif.Lemmas.TPeak
import Mathlib.Analysis.Convex.Deriv
import Mathlib.Analysis.Real.Pi.Bounds

/-!
# Piecewise linear tables of smooth functions, and some numbers of the normal distribution
-/

namespace Diffmah

open TPeak MeasureTheory ProbabilityTheory

/-! ## The error of a chord -/

theorem chord_le {F F' : ℝ → ℝ} {M : ℝ} (hd : ∀ x, HasDerivAt F (F' x) x)
    (hl : ∀ x y, x ≤ y → -(M * (y - x)) ≤ F' y - F' x) {a b x : ℝ} (hab : a < b) (h1 : a ≤ x) (h2 : x ≤ b) :
    F x ≤ F a + (x - a) / (b - a) * (F b - F a) + M / 2 * ((x - a) * (b - x)) := by
  have hg : ∀ x, HasDerivAt (fun x => F x + M / 2 * x ^ 2) (F' x + M * x) x := by
    intro x
    exact ((hd x).fun_add ((hasDerivAt_pow 2 x).const_mul (M / 2))).congr_deriv (by push_cast; ring)
  have hm : Monotone (deriv fun x => F x + M / 2 * x ^ 2) := by
    intro x y hxy
    rw [(hg x).deriv, (hg y).deriv]
    have := hl x y hxy
    nlinarith
  have hc := hm.convexOn_univ_of_deriv fun x => (hg x).differentiableAt
  have hba : 0 < b - a := by linarith
  have h3 := hc.2 (Set.mem_univ a) (Set.mem_univ b)
    (div_nonneg (sub_nonneg.2 h2) hba.le) (div_nonneg (sub_nonneg.2 h1) hba.le) (by field_simp; ring)
  have e : (b - x) / (b - a) * a + (x - a) / (b - a) * b = x := by field_simp; ring
  simp only [smul_eq_mul] at h3
  rw [e] at h3
  have e2 : (b - x) / (b - a) * (F a + M / 2 * a ^ 2) + (x - a) / (b - a) * (F b + M / 2 * b ^ 2) =
      F a + (x - a) / (b - a) * (F b - F a) + M / 2 * ((x - a) * (b - x)) + M / 2 * x ^ 2 := by
    field_simp; ring
  linarith

/-- A function whose derivative is Lipschitz with constant `M` differs from a chord of width `w` by at most
`M w² / 8`. -/
theorem chord_error {F F' : ℝ → ℝ} {M : ℝ} (hM : 0 ≤ M) (hd : ∀ x, HasDerivAt F (F' x) x)
    (hl : ∀ x y, x ≤ y → |F' y - F' x| ≤ M * (y - x)) {a b x : ℝ} (hab : a < b) (h1 : a ≤ x) (h2 : x ≤ b) :
    |F a + (x - a) / (b - a) * (F b - F a) - F x| ≤ M * (b - a) ^ 2 / 8 := by
  have hq : M / 2 * ((x - a) * (b - x)) ≤ M * (b - a) ^ 2 / 8 := by
    have : (x - a) * (b - x) ≤ (b - a) ^ 2 / 4 := by nlinarith [sq_nonneg ((x - a) - (b - x))]
    nlinarith
  have c1 := chord_le hd (fun x y h => (abs_le.1 (hl x y h)).1) hab h1 h2
  have c2 := chord_le (M := M) (F := fun x => - F x) (F' := fun x => - F' x) (fun x => (hd x).neg)
    (fun x y h => by have := (abs_le.1 (hl x y h)).2; linarith) hab h1 h2
  have e : (x - a) / (b - a) * (-F b - -F a) = - ((x - a) / (b - a) * (F b - F a)) := by ring
  rw [e] at c2
  rw [abs_le]
  constructor <;> linarith

/-- From a bound on the second derivative. -/
theorem lip_of_deriv {G G' : ℝ → ℝ} {M : ℝ} (hd : ∀ x, HasDerivAt G (G' x) x) (hb : ∀ x, |G' x| ≤ M) (x y : ℝ)
    (hxy : x ≤ y) : |G y - G x| ≤ M * (y - x) := by
  have h1 := image_sub_le_mul_sub_of_deriv_le (f := G) (C := M) (fun z => (hd z).differentiableAt)
    (fun z => by rw [(hd z).deriv]; exact (abs_le.1 (hb z)).2) hxy
  have h2 := image_sub_le_mul_sub_of_deriv_le (f := fun z => - G z) (C := M) (fun z => (hd z).fun_neg.differentiableAt)
    (fun z => by rw [(hd z).fun_neg.deriv]; have := (abs_le.1 (hb z)).1; linarith) hxy
  rw [abs_le]
  constructor <;> linarith

/-! ## The law of a look-up -/

theorem chord_mem {a b x f g : ℝ} (h1 : a ≤ x) (h2 : x < b) (hf : f ≤ g) :
    f ≤ f + (x - a) / (b - a) * (g - f) ∧ f + (x - a) / (b - a) * (g - f) ≤ g :=
  lerp_mem h1 h2.le (by linarith) hf

theorem interp_chord {eps u : ℝ} {xp fp : List ℝ} (he : 0 ≤ eps) (hs : xp.Pairwise (· ≤ ·))
    (hf : fp.Pairwise (· < ·)) (hn : 2 ≤ xp.length) (hlen : fp.length = xp.length) {k : ℕ}
    (hk : k + 1 < xp.length) {x : ℝ} (h1 : fp.getD k 0 ≤ x) (h2 : x < fp.getD (k + 1) 0) {c : ℝ}
    (hc : c = xp.getD k 0 + (x - fp.getD k 0) / (fp.getD (k + 1) 0 - fp.getD k 0) *
      (xp.getD (k + 1) 0 - xp.getD k 0)) :
    (u < c → interp eps u xp fp ≤ x) ∧ (c + eps < u → x < interp eps u xp fp) := by
  have hf' : fp.Pairwise (· ≤ ·) := hf.imp fun h => h.le
  have hx := chord_mem h1 h2 (sorted_getD hs (i := k) (j := k + 1) (by omega) (by omega))
  rw [← hc] at hx
  have hdf : 0 < fp.getD (k + 1) 0 - fp.getD k 0 := by linarith
  rcases interp_cases (eps := eps) (x := u) (fp := fp) hs hn with ⟨hu, h⟩ | ⟨hu, h⟩ | ⟨j, hj, h3, h4, -, h⟩
  · constructor
    · intro _
      rw [h]
      exact (sorted_getD hf' (by omega) (by omega)).trans h1
    · intro h'
      have := sorted_getD hs (i := 0) (j := k) (by omega) (by omega)
      linarith [hx.1]
  · constructor
    · intro h'
      have := sorted_getD hs (i := k + 1) (j := xp.length - 1) (by omega) (by omega)
      linarith [hx.2]
    · intro _
      rw [h]
      exact h2.trans_le (sorted_getD hf' (by omega) (by omega))
  · have hseg := interp_seg he (sorted_getD hf' (by omega) (by omega)) h3 h4 h
    rcases Nat.lt_trichotomy j k with hjk | rfl | hjk
    · constructor
      · intro _
        exact (hseg.2.trans (sorted_getD hf' (by omega) (by omega))).trans h1
      · intro h'
        have := sorted_getD hs (i := j + 1) (j := k) (by omega) (by omega)
        linarith [hx.1]
    · by_cases hflat : |xp.getD (j + 1) 0 - xp.getD j 0| ≤ eps
      · rw [if_pos hflat] at h
        constructor
        · intro _; rw [h]; exact h1
        · intro h'
          have := le_of_abs_le hflat
          linarith [hx.1]
      · rw [if_neg hflat] at h
        have hd0 : 0 < xp.getD (j + 1) 0 - xp.getD j 0 := by
          have h0 := sorted_getD hs (i := j) (j := j + 1) (by omega) (by omega)
          rcases h0.lt_or_eq with h0 | h0
          · linarith
          · rw [h0, sub_self, abs_zero] at hflat; exact absurd he hflat
        -- the look-up is the inverse of the chord
        have hinv : ∀ w, fp.getD j 0 + (w - xp.getD j 0) / (xp.getD (j + 1) 0 - xp.getD j 0) *
            (fp.getD (j + 1) 0 - fp.getD j 0) - x =
            (w - c) / (xp.getD (j + 1) 0 - xp.getD j 0) * (fp.getD (j + 1) 0 - fp.getD j 0) := by
          intro w
          rw [hc]
          have := hd0.ne'
          have := hdf.ne'
          field_simp
          ring
        have hi := hinv u
        rw [← h] at hi
        have hpos : 0 < (fp.getD (j + 1) 0 - fp.getD j 0) / (xp.getD (j + 1) 0 - xp.getD j 0) := div_pos hdf hd0
        have hi2 : interp eps u xp fp - x =
            (u - c) * ((fp.getD (j + 1) 0 - fp.getD j 0) / (xp.getD (j + 1) 0 - xp.getD j 0)) := by
          rw [hi]; ring
        constructor
        · intro h'
          have : (u - c) * ((fp.getD (j + 1) 0 - fp.getD j 0) / (xp.getD (j + 1) 0 - xp.getD j 0)) ≤ 0 :=
            mul_nonpos_of_nonpos_of_nonneg (by linarith) hpos.le
          linarith
        · intro h'
          have : 0 < (u - c) * ((fp.getD (j + 1) 0 - fp.getD j 0) / (xp.getD (j + 1) 0 - xp.getD j 0)) :=
            mul_pos (by linarith) hpos
          linarith
    · constructor
      · intro h'
        have := sorted_getD hs (i := k + 1) (j := j) (by omega) (by omega)
        linarith [hx.2]
      · intro _
        exact (h2.trans_le (sorted_getD hf' (i := k + 1) (j := j) (by omega) (by omega))).trans_le hseg.1

/-! ## The logistic function -/

theorem sigm_deriv (x0 x : ℝ) : HasDerivAt (fun x => Real.sigmoid (5 * (x - x0)))
    (5 * (Real.sigmoid (5 * (x - x0)) * (1 - Real.sigmoid (5 * (x - x0))))) x := by
  have h1 : HasDerivAt (fun z => 5 * (z - x0)) 5 x := by
    simpa using ((hasDerivAt_id x).sub_const x0).const_mul 5
  have h2 := HasDerivAt.comp (h₂ := Real.sigmoid) x (Real.hasDerivAt_sigmoid (5 * (x - x0))) h1
  exact h2.congr_deriv (by ring)

theorem sigm_deriv2 (x0 : ℝ) (x y : ℝ) (hxy : x ≤ y) :
    |5 * (Real.sigmoid (5 * (y - x0)) * (1 - Real.sigmoid (5 * (y - x0)))) -
      5 * (Real.sigmoid (5 * (x - x0)) * (1 - Real.sigmoid (5 * (x - x0))))| ≤ 5 / 2 * (y - x) := by
  refine lip_of_deriv (G := fun x => 5 * (Real.sigmoid (5 * (x - x0)) * (1 - Real.sigmoid (5 * (x - x0)))))
    (G' := fun x => 5 * (5 * (Real.sigmoid (5 * (x - x0)) * (1 - Real.sigmoid (5 * (x - x0)))) *
      (1 - 2 * Real.sigmoid (5 * (x - x0))))) ?_ ?_ x y hxy
  · intro z
    have h := sigm_deriv x0 z
    exact ((h.fun_mul ((hasDerivAt_const z (1 : ℝ)).fun_sub h)).const_mul 5).congr_deriv (by ring)
  · intro z
    set s := Real.sigmoid (5 * (z - x0))
    have h0 : 0 < s := Real.sigmoid_pos _
    have h1 : s < 1 := Real.sigmoid_lt_one _
    have hq : (s * (1 - s) * (1 - 2 * s)) ^ 2 ≤ (1 / 10) ^ 2 := by
      have hq0 : 0 < s * (1 - s) := mul_pos h0 (by linarith)
      have e : (s * (1 - s) * (1 - 2 * s)) ^ 2 = (s * (1 - s)) ^ 2 * (1 - 4 * (s * (1 - s))) := by ring
      rw [e]
      generalize s * (1 - s) = q at hq0 ⊢
      nlinarith [mul_nonneg (sq_nonneg (q - 1 / 6)) (by linarith : 0 ≤ q + 1 / 12)]
    have := abs_le_of_sq_le_sq hq (by norm_num)
    rw [abs_le] at this ⊢
    constructor <;> linarith [this.1, this.2]

/-! ## Numbers of the normal distribution -/

theorem pdf_eq (x : ℝ) : gaussianPDFReal 0 1 x = (Real.sqrt (2 * Real.pi))⁻¹ * Real.exp (- x ^ 2 / 2) := by
  simp [gaussianPDFReal]

theorem norm_const : (Real.sqrt (2 * Real.pi))⁻¹ ≤ 2 / 5 := by
  have h : (5 / 2 : ℝ) ≤ Real.sqrt (2 * Real.pi) := by
    apply Real.le_sqrt_of_sq_le
    have := Real.pi_gt_d4
    norm_num at this ⊢
    linarith
  calc (Real.sqrt (2 * Real.pi))⁻¹ ≤ (5 / 2 : ℝ)⁻¹ := inv_anti₀ (by norm_num) h
    _ = 2 / 5 := by norm_num

theorem norm_const_pos : 0 < (Real.sqrt (2 * Real.pi))⁻¹ := by
  have := Real.pi_pos
  positivity

theorem pdf_le (x : ℝ) : gaussianPDFReal 0 1 x ≤ 2 / 5 := by
  rw [pdf_eq]
  have h1 : Real.exp (- x ^ 2 / 2) ≤ 1 := Real.exp_le_one_iff.2 (by nlinarith [sq_nonneg x])
  have h2 := norm_const
  have h3 := norm_const_pos
  have h4 := Real.exp_pos (- x ^ 2 / 2)
  nlinarith

theorem pdf_deriv (x : ℝ) : HasDerivAt (gaussianPDFReal 0 1) (- x * gaussianPDFReal 0 1 x) x := by
  have h1 : HasDerivAt (fun x : ℝ => - x ^ 2 / 2) (- x) x := by
    exact ((hasDerivAt_pow 2 x).fun_neg.div_const 2).congr_deriv (by push_cast; ring)
  have h2 := (h1.exp).const_mul (Real.sqrt (2 * Real.pi))⁻¹
  have e : gaussianPDFReal 0 1 = fun x => (Real.sqrt (2 * Real.pi))⁻¹ * Real.exp (- x ^ 2 / 2) := funext pdf_eq
  rw [e]
  exact h2.congr_deriv (by ring)

theorem pdf_deriv_le (x : ℝ) : |- x * gaussianPDFReal 0 1 x| ≤ 29 / 100 := by
  have h5 : |x| * Real.exp (- x ^ 2 / 2) ≤ 7072 / 10000 := by
    have e : Real.exp (- x ^ 2 / 2) = (Real.exp (x ^ 2 / 2))⁻¹ := by rw [← Real.exp_neg]; congr 1; ring
    rw [e, ← div_eq_mul_inv, div_le_iff₀ (Real.exp_pos _)]
    have h := Real.add_one_le_exp (x ^ 2 / 2)
    have h' : |x| ^ 2 = x ^ 2 := sq_abs x
    nlinarith [sq_nonneg (|x| - 1.414)]
  rw [pdf_eq, abs_mul, abs_neg, abs_of_pos (mul_pos norm_const_pos (Real.exp_pos _))]
  have h2 := norm_const
  have h3 := norm_const_pos
  have h6 : 0 ≤ |x| * Real.exp (- x ^ 2 / 2) := by positivity
  nlinarith

theorem ndtr_neg (x : ℝ) : ndtr (-x) = 1 - ndtr x := by
  have hn : NullSingletonClass (gaussianReal 0 1) := nullSingletonClass_gaussianReal (by norm_num)
  have h1 : (gaussianReal 0 1).real (Set.Ici x) = (gaussianReal 0 1).real (Set.Iic (-x)) := by
    have := congrArg (fun μ : Measure ℝ => μ.real (Set.Ici x)) (gaussianReal_map_neg (μ := 0) (v := 1))
    simp only [neg_zero] at this
    rw [← this, map_measureReal_apply (by fun_prop) measurableSet_Ici]
    congr 1
    ext y
    simp
  unfold ndtr
  rw [cdf_eq_real, cdf_eq_real, ← h1, ← Set.compl_Iio, probReal_compl_eq_one_sub measurableSet_Iio]
  congr 1
  exact measureReal_congr Iio_ae_eq_Iic

theorem ndtr_zero : ndtr 0 = 1 / 2 := cdf_half

theorem ndtr_four : 4996 / 10000 ≤ ndtr 4 - 1 / 2 := by
  have h := measure_ge_le_exp_mul_mgf (μ := gaussianReal 0 1) (X := id) (t := 4) 4 (by norm_num)
    (by simpa using integrable_exp_mul_gaussianReal (μ := 0) (v := 1) 4)
  rw [mgf_id_gaussianReal, ← Real.exp_add] at h
  have h2 : 1 - ndtr 4 ≤ (gaussianReal 0 1).real {ω | (4 : ℝ) ≤ id ω} := by
    unfold ndtr
    rw [cdf_eq_real, ← probReal_compl_eq_one_sub measurableSet_Iic]
    refine measureReal_mono (fun y hy => ?_)
    simp only [Set.compl_Iic, Set.mem_Ioi] at hy
    exact hy.le
  have h3 : Real.exp (-4 * 4 + (0 * 4 + ((1 : NNReal) : ℝ) * 4 ^ 2 / 2)) ≤ 4 / 10000 := by
    have e : (-4 * 4 + (0 * 4 + ((1 : NNReal) : ℝ) * 4 ^ 2 / 2)) = -(8 * 1) := by
      rw [NNReal.coe_one]; norm_num
    rw [e, Real.exp_neg, inv_le_comm₀ (Real.exp_pos _) (by norm_num)]
    have h4 : Real.exp (8 * 1) = Real.exp 1 ^ 8 := by rw [← Real.exp_nat_mul]; norm_num
    rw [h4]
    have h5 := Real.exp_one_gt_d9
    calc (4 / 10000 : ℝ)⁻¹ ≤ (2.7182818283 : ℝ) ^ 8 := by norm_num
      _ ≤ Real.exp 1 ^ 8 := pow_le_pow_left₀ (by norm_num) h5.le 8
  linarith

/-- On the positive half line the distribution function lies above its chord from 0 to 4. -/
theorem ndtr_chord {q : ℝ} (hq : 0 ≤ q) : 1249 / 10000 * min 4 q ≤ ndtr q - 1 / 2 := by
  have h4 := ndtr_four
  rcases le_total 4 q with h | h
  · rw [min_eq_left h]
    have := ndtr_strictMono.monotone h
    linarith
  · rw [min_eq_right h]
    have hc : ConcaveOn ℝ (Set.Ici 0) ndtr := by
      refine AntitoneOn.concaveOn_of_deriv (convex_Ici 0)
        (fun x _ => (ndtr_hasDerivAt x).continuousAt.continuousWithinAt)
        (fun x _ => (ndtr_hasDerivAt x).differentiableAt.differentiableWithinAt) ?_
      intro x hx y hy hxy
      rw [interior_Ici] at hx hy
      rw [(ndtr_hasDerivAt x).deriv, (ndtr_hasDerivAt y).deriv, pdf_eq, pdf_eq]
      have : Real.exp (- y ^ 2 / 2) ≤ Real.exp (- x ^ 2 / 2) := by
        apply Real.exp_le_exp.2
        simp only [Set.mem_Ioi] at hx hy
        nlinarith
      exact mul_le_mul_of_nonneg_left this norm_const_pos.le
    have h3 := hc.2 (show (0 : ℝ) ∈ Set.Ici 0 by simp) (show (4 : ℝ) ∈ Set.Ici 0 by simp)
      (show 0 ≤ 1 - q / 4 by linarith) (show 0 ≤ q / 4 by linarith) (by ring)
    simp only [smul_eq_mul] at h3
    rw [ndtr_zero] at h3
    have e : (1 - q / 4) * 0 + q / 4 * 4 = q := by ring
    rw [e] at h3
    nlinarith

/-- The normal probability of an interval around zero. -/
theorem ndtr_around {a b : ℝ} (ha : a ≤ 0) (hb : 0 ≤ b) :
    1249 / 10000 * (min 4 b + min 4 (-a)) ≤ ndtr b - ndtr a := by
  have h1 := ndtr_chord hb
  have h2 := ndtr_chord (q := -a) (by linarith)
  rw [ndtr_neg] at h2
  linarith

/-! ## The truncated normal distribution -/

theorem gaussian_real_Iic (loc x : ℝ) {s : ℝ} (hs : 0 < s) {v : NNReal} (hv : (v : ℝ) = s ^ 2) :
    (gaussianReal loc v).real (Set.Iic x) = ndtr ((x - loc) / s) := by
  have h := gaussian_Iic loc ((x - loc) / s) hs hv
  rw [div_mul_cancel₀ _ hs.ne', add_sub_cancel] at h
  rw [measureReal_def, h, ENNReal.toReal_ofReal (cdf_nonneg _ _)]
  rfl

theorem gaussian_real_Icc (loc : ℝ) {s : ℝ} (hs : 0 < s) {v : NNReal} (hv : (v : ℝ) = s ^ 2) {A B : ℝ}
    (hAB : A ≤ B) :
    (gaussianReal loc v).real (Set.Icc A B) = ndtr ((B - loc) / s) - ndtr ((A - loc) / s) := by
  have hv0 : v ≠ 0 := by
    rintro rfl
    have : s ^ 2 = 0 := by rw [← hv]; rfl
    exact hs.ne' (pow_eq_zero_iff (by norm_num) |>.1 this)
  have hn : NullSingletonClass (gaussianReal loc v) := nullSingletonClass_gaussianReal hv0
  rw [← gaussian_real_Iic loc B hs hv, ← gaussian_real_Iic loc A hs hv,
    ← measureReal_sdiff (Set.Iic_subset_Iic.2 hAB) measurableSet_Iic, Set.Iic_sdiff_Iic]
  exact (measureReal_congr Ioc_ae_eq_Icc).symm

/-- The modelled `truncnorm.cdf` is the distribution function of the normal distribution conditioned on the
truncation interval. -/
theorem truncnorm_cdf_eq {a b loc s x : ℝ} (hs : 0 < s) (hab : a < b) {v : NNReal} (hv : (v : ℝ) = s ^ 2) :
    truncnorm_cdf x a b loc s =
      ((gaussianReal loc v)[|Set.Icc (loc + a * s) (loc + b * s)]).real (Set.Iic x) := by
  have e : ∀ y, (loc + y * s - loc) / s = y := fun y => by field_simp; ring
  have hAB : loc + a * s < loc + b * s := by nlinarith
  have hZ := gaussian_real_Icc loc hs hv hAB.le
  rw [e, e] at hZ
  have hpos : 0 < ndtr b - ndtr a := sub_pos.2 (ndtr_strictMono hab)
  have hc : ((gaussianReal loc v)[|Set.Icc (loc + a * s) (loc + b * s)]).real (Set.Iic x) =
      (ndtr b - ndtr a)⁻¹ *
        (gaussianReal loc v).real (Set.Icc (loc + a * s) (loc + b * s) ∩ Set.Iic x) := by
    rw [measureReal_def, cond_apply measurableSet_Icc, ENNReal.toReal_mul, ENNReal.toReal_inv,
      ← measureReal_def, ← measureReal_def, hZ]
  rw [hc]
  unfold truncnorm_cdf
  have hy : ∀ y, y ≤ (x - loc) / s ↔ loc + y * s ≤ x := by
    intro y; rw [le_div_iff₀ hs]; constructor <;> intro h <;> linarith
  have hy' : (x - loc) / s ≤ a ↔ x ≤ loc + a * s := by
    rw [div_le_iff₀ hs]; constructor <;> intro h <;> linarith
  simp only [hy, hy']
  split_ifs with h1 h2
  · have : Set.Icc (loc + a * s) (loc + b * s) ∩ Set.Iic x = Set.Icc (loc + a * s) (loc + b * s) :=
      Set.inter_eq_left.2 fun y hy => hy.2.trans h1
    rw [this, hZ, inv_mul_cancel₀ hpos.ne']
  · have : Set.Icc (loc + a * s) (loc + b * s) ∩ Set.Iic x ⊆ Set.Icc (loc + a * s) (loc + a * s) :=
      fun y hy => ⟨hy.1.1, hy.2.trans h2⟩
    have h3 := measureReal_mono (μ := gaussianReal loc v) this
    rw [gaussian_real_Icc loc hs hv le_rfl, sub_self] at h3
    rw [le_antisymm h3 measureReal_nonneg, mul_zero]
  · have : Set.Icc (loc + a * s) (loc + b * s) ∩ Set.Iic x = Set.Icc (loc + a * s) x := by
      ext y
      simp only [Set.mem_inter_iff, Set.mem_Icc, Set.mem_Iic]
      constructor
      · rintro ⟨⟨h, -⟩, h'⟩; exact ⟨h, h'⟩
      · rintro ⟨h, h'⟩; exact ⟨⟨h, by linarith⟩, h'⟩
    rw [this, gaussian_real_Icc loc hs hv (by linarith), e]
    rw [div_eq_inv_mul]

end Diffmah

import Verif.Model.Normal
import Verif.Lemmas.PopGradTri

/-!
# Cholesky factors, normal draws and the truncated normal distribution
-/

namespace Diffmah

open JOps JFlow ProbabilityTheory MeasureTheory

/-! ## The Cholesky factor of a positive definite matrix -/

/-- The quadratic form of a 4 by 4 matrix. -/
def quad (A : Fin 4 → Fin 4 → ℝ) (x : Fin 4 → ℝ) : ℝ := ∑ i, ∑ j, x i * A i j * x j

theorem quad_pos {A : Fin 4 → Fin 4 → ℝ} (h : (Matrix.of A).PosDef) {x : Fin 4 → ℝ} (hx : x ≠ 0) :
    0 < quad A x := by
  have := h.dotProduct_mulVec_pos hx
  simp only [dotProduct, Matrix.mulVec, Finset.mul_sum, star_trivial, Matrix.of_apply] at this
  unfold quad
  simpa only [mul_assoc] using this

theorem posDef_symm {A : Fin 4 → Fin 4 → ℝ} (h : (Matrix.of A).PosDef) (i j : Fin 4) : A i j = A j i := by
  have := congrFun (congrFun h.isHermitian j) i
  simpa [Matrix.conjTranspose] using this

theorem symmetrize_eq {A : Fin 4 → Fin 4 → ℝ} (h : ∀ i j, A i j = A j i) : symmetrize A = A := by
  funext i j
  change (A i j + A j i) / 2 = A i j
  rw [h j i]; ring

/-- The four numbers whose roots are the diagonal of the factor. -/
theorem pivots_pos {A : Fin 4 → Fin 4 → ℝ} (h : (Matrix.of A).PosDef) :
    0 < A 0 0 ∧
    0 < A 1 1 - cholesky A 1 0 * cholesky A 1 0 ∧
    0 < A 2 2 - cholesky A 2 0 * cholesky A 2 0 - cholesky A 2 1 * cholesky A 2 1 ∧
    0 < A 3 3 - cholesky A 3 0 * cholesky A 3 0 - cholesky A 3 1 * cholesky A 3 1 -
      cholesky A 3 2 * cholesky A 3 2 := by
  have hs := posDef_symm h
  -- the factor, by its defining equations
  set l00 := Real.sqrt (A 0 0) with e00
  set l10 := A 1 0 / l00 with e10
  set l20 := A 2 0 / l00 with e20
  set l30 := A 3 0 / l00 with e30
  set l11 := Real.sqrt (A 1 1 - l10 * l10) with e11
  set l21 := (A 2 1 - l20 * l10) / l11 with e21
  set l31 := (A 3 1 - l30 * l10) / l11 with e31
  set l22 := Real.sqrt (A 2 2 - l20 * l20 - l21 * l21) with e22
  set l32 := (A 3 2 - l30 * l20 - l31 * l21) / l22 with e32
  change 0 < A 0 0 ∧ 0 < A 1 1 - l10 * l10 ∧ 0 < A 2 2 - l20 * l20 - l21 * l21 ∧
    0 < A 3 3 - l30 * l30 - l31 * l31 - l32 * l32
  have p0 : 0 < A 0 0 := by
    have := quad_pos h (x := ![1, 0, 0, 0]) (by intro e; simpa using congrFun e 0)
    simpa [quad, Fin.sum_univ_four] using this
  have q0 : 0 < l00 := Real.sqrt_pos.2 p0
  have s0 : A 0 0 = l00 * l00 := (Real.mul_self_sqrt p0.le).symm
  have a10 : A 1 0 = l10 * l00 := by rw [e10]; field_simp
  have a20 : A 2 0 = l20 * l00 := by rw [e20]; field_simp
  have a30 : A 3 0 = l30 * l00 := by rw [e30]; field_simp
  have p1 : 0 < A 1 1 - l10 * l10 := by
    have := quad_pos h (x := ![-l10 / l00, 1, 0, 0]) (by intro e; simpa using congrFun e 1)
    simp only [quad, Fin.sum_univ_four, Matrix.cons_val_zero, Matrix.cons_val_one, Matrix.cons_val, hs 0 1,
      hs 0 2, hs 0 3, hs 1 2, hs 1 3, hs 2 3, s0, a10, a20, a30] at this
    have e : -l10 / l00 * l00 = -l10 := by field_simp
    nlinarith [this, e]
  have q1 : 0 < l11 := Real.sqrt_pos.2 p1
  have s1 : A 1 1 = l10 * l10 + l11 * l11 := by rw [e11, Real.mul_self_sqrt p1.le]; ring
  have a21 : A 2 1 = l20 * l10 + l21 * l11 := by rw [e21]; field_simp; ring
  have a31 : A 3 1 = l30 * l10 + l31 * l11 := by rw [e31]; field_simp; ring
  have p2 : 0 < A 2 2 - l20 * l20 - l21 * l21 := by
    set v := -l21 / l11 with hv
    set w := -(l20 + l10 * v) / l00 with hw
    have ev : v * l11 = -l21 := by rw [hv]; field_simp
    have ew : w * l00 = -(l20 + l10 * v) := by rw [hw]; field_simp
    have := quad_pos h (x := ![w, v, 1, 0]) (by intro e; simpa using congrFun e 2)
    simp only [quad, Fin.sum_univ_four, Matrix.cons_val_zero, Matrix.cons_val_one, Matrix.cons_val, hs 0 1,
      hs 0 2, hs 0 3, hs 1 2, hs 1 3, hs 2 3, s0, a10, a20, a30, s1, a21, a31] at this
    have k : A 2 2 - l20 * l20 - l21 * l21 =
        (w * l00 + (l20 + l10 * v)) ^ 2 + (v * l11 + l21) ^ 2 + A 2 2 - l20 * l20 - l21 * l21 := by
      rw [ev, ew]; ring
    rw [k]
    calc (0 : ℝ) < _ := this
      _ = _ := by ring
  have q2 : 0 < l22 := Real.sqrt_pos.2 p2
  have s2 : A 2 2 = l20 * l20 + l21 * l21 + l22 * l22 := by rw [e22, Real.mul_self_sqrt p2.le]; ring
  have a32 : A 3 2 = l30 * l20 + l31 * l21 + l32 * l22 := by rw [e32]; field_simp; ring
  refine ⟨p0, p1, p2, ?_⟩
  set t := -l32 / l22 with ht
  set v := -(l31 + l21 * t) / l11 with hv
  set w := -(l30 + l10 * v + l20 * t) / l00 with hw
  have et : t * l22 = -l32 := by rw [ht]; field_simp
  have ev : v * l11 = -(l31 + l21 * t) := by rw [hv]; field_simp
  have ew : w * l00 = -(l30 + l10 * v + l20 * t) := by rw [hw]; field_simp
  have := quad_pos h (x := ![w, v, t, 1]) (by intro e; simpa using congrFun e 3)
  simp only [quad, Fin.sum_univ_four, Matrix.cons_val_zero, Matrix.cons_val_one, Matrix.cons_val, hs 0 1,
    hs 0 2, hs 0 3, hs 1 2, hs 1 3, hs 2 3, s0, a10, a20, a30, s1, a21, a31, s2, a32] at this
  have k : A 3 3 - l30 * l30 - l31 * l31 - l32 * l32 =
      (w * l00 + (l30 + l10 * v + l20 * t)) ^ 2 + (v * l11 + (l31 + l21 * t)) ^ 2 + (t * l22 + l32) ^ 2 +
        A 3 3 - l30 * l30 - l31 * l31 - l32 * l32 := by
    rw [ev, ew, et]; ring
  rw [k]
  calc (0 : ℝ) < _ := this
    _ = _ := by ring

theorem cholesky_diag_pos {A : Fin 4 → Fin 4 → ℝ} (h : (Matrix.of A).PosDef) (i : Fin 4) :
    0 < cholesky A i i := by
  obtain ⟨p0, p1, p2, p3⟩ := pivots_pos h
  fin_cases i
  · exact Real.sqrt_pos.2 p0
  · exact Real.sqrt_pos.2 p1
  · exact Real.sqrt_pos.2 p2
  · exact Real.sqrt_pos.2 p3

theorem cholesky_upper (A : Fin 4 → Fin 4 → ℝ) (i j : Fin 4) (h : i < j) : cholesky A i j = 0 := by
  fin_cases i <;> fin_cases j <;> first | rfl | exact absurd h (by decide)

/-- The factor times its transpose is the matrix. -/
theorem cholesky_mul {A : Fin 4 → Fin 4 → ℝ} (h : (Matrix.of A).PosDef) :
    Matrix.of (cholesky A) * (Matrix.of (cholesky A)).transpose = Matrix.of A := by
  obtain ⟨p0, p1, p2, p3⟩ := pivots_pos h
  have hs := posDef_symm h
  have d := cholesky_diag_pos h
  have d0 := (d 0).ne'
  have d1 := (d 1).ne'
  have d2 := (d 2).ne'
  have s0 : cholesky A 0 0 * cholesky A 0 0 = A 0 0 := Real.mul_self_sqrt p0.le
  have s1 : cholesky A 1 1 * cholesky A 1 1 = A 1 1 - cholesky A 1 0 * cholesky A 1 0 := Real.mul_self_sqrt p1.le
  have s2 : cholesky A 2 2 * cholesky A 2 2 =
    A 2 2 - cholesky A 2 0 * cholesky A 2 0 - cholesky A 2 1 * cholesky A 2 1 := Real.mul_self_sqrt p2.le
  have s3 : cholesky A 3 3 * cholesky A 3 3 = A 3 3 - cholesky A 3 0 * cholesky A 3 0 -
    cholesky A 3 1 * cholesky A 3 1 - cholesky A 3 2 * cholesky A 3 2 := Real.mul_self_sqrt p3.le
  have a10 : A 1 0 = cholesky A 1 0 * cholesky A 0 0 := (div_mul_cancel₀ _ d0).symm
  have a20 : A 2 0 = cholesky A 2 0 * cholesky A 0 0 := (div_mul_cancel₀ _ d0).symm
  have a30 : A 3 0 = cholesky A 3 0 * cholesky A 0 0 := (div_mul_cancel₀ _ d0).symm
  have a21 : A 2 1 - cholesky A 2 0 * cholesky A 1 0 = cholesky A 2 1 * cholesky A 1 1 :=
    (div_mul_cancel₀ _ d1).symm
  have a31 : A 3 1 - cholesky A 3 0 * cholesky A 1 0 = cholesky A 3 1 * cholesky A 1 1 :=
    (div_mul_cancel₀ _ d1).symm
  have a32 : A 3 2 - cholesky A 3 0 * cholesky A 2 0 - cholesky A 3 1 * cholesky A 2 1 =
    cholesky A 3 2 * cholesky A 2 2 := (div_mul_cancel₀ _ d2).symm
  have u01 := cholesky_upper A 0 1 (by decide)
  have u02 := cholesky_upper A 0 2 (by decide)
  have u03 := cholesky_upper A 0 3 (by decide)
  have u12 := cholesky_upper A 1 2 (by decide)
  have u13 := cholesky_upper A 1 3 (by decide)
  have u23 := cholesky_upper A 2 3 (by decide)
  ext i j
  rw [Matrix.mul_apply, Fin.sum_univ_four]
  simp only [Matrix.transpose_apply, Matrix.of_apply]
  fin_cases i <;> fin_cases j <;>
    simp only [Fin.zero_eta, Fin.mk_one, Fin.reduceFinMk, u01, u02, u03, u12, u13, u23, hs 0 1, hs 0 2, hs 0 3, hs 1 2,
      hs 1 3, hs 2 3] <;> linarith

/-! ## The law of the draws -/

open WithLp Matrix in
/-- An affine image of independent standard normal numbers. -/
theorem affine_law (m : EuclideanSpace ℝ (Fin 4)) (L C : Matrix (Fin 4) (Fin 4) ℝ) (h : L * L.transpose = C) :
    (Measure.pi fun _ : Fin 4 => gaussianReal 0 1).map (fun z => m + toLp 2 (L *ᵥ z)) =
      multivariateGaussian m C := by
  have hC : C.PosSemidef := by
    rw [← h]
    exact posSemidef_self_mul_conjTranspose L
  have e : (fun z : Fin 4 → ℝ => m + toLp 2 (L *ᵥ z)) =
      (fun x => m + toEuclideanCLM (𝕜 := ℝ) L x) ∘ toLp 2 := by
    funext z
    simp [toEuclideanCLM_toLp]
  rw [e, ← Measure.map_map (by fun_prop) (by fun_prop), map_pi_eq_stdGaussian]
  have e2 : (fun x => m + toEuclideanCLM (𝕜 := ℝ) L x) =
      (fun x => m + x) ∘ (toEuclideanCLM (𝕜 := ℝ) L) := rfl
  have hg : IsGaussian ((stdGaussian (EuclideanSpace ℝ (Fin 4))).map
      (fun x => m + toEuclideanCLM (𝕜 := ℝ) L x)) := by
    rw [e2, ← Measure.map_map (measurable_const_add m) (by fun_prop)]
    infer_instance
  apply IsGaussian.ext
  · rw [integral_id_multivariateGaussian', integral_map (by fun_prop) (by fun_prop)]
    simp only [id_eq]
    rw [integral_add (integrable_const _), integral_const]
    · simp [ContinuousLinearMap.integral_comp_comm _ IsGaussian.integrable_fun_id]
    · exact IsGaussian.integrable_id.comp_measurable (by fun_prop)
  · ext x y
    rw [covarianceBilin_multivariateGaussian hC, e2,
      ← Measure.map_map (measurable_const_add m) (by fun_prop), covarianceBilin_map_const_add,
      covarianceBilin_map IsGaussian.memLp_two_id, covarianceBilin_stdGaussian, innerSL_apply_apply]
    have ha : ContinuousLinearMap.adjoint (toEuclideanCLM (𝕜 := ℝ) L) =
        toEuclideanCLM (𝕜 := ℝ) L.transpose := by
      rw [← ContinuousLinearMap.star_eq_adjoint, ← map_star, star_eq_conjTranspose,
        conjTranspose_eq_transpose_of_trivial]
    rw [ContinuousLinearMap.adjoint_inner_left, ha, ← ContinuousLinearMap.comp_apply,
      ← ContinuousLinearMap.mul_def, ← map_mul, h, inner_toEuclideanCLM]

/-- The mean, as a point of Euclidean space. -/
noncomputable def vec4 (m : List ℝ) : EuclideanSpace ℝ (Fin 4) := WithLp.toLp 2 fun i => m.getD i 0

open Matrix in
theorem multivariate_normal_eq (z : Fin 4 → ℝ) (m : List ℝ) (hm : m.length = 4) {C : Fin 4 → Fin 4 → ℝ}
    (hC : ∀ i j, C i j = C j i) :
    (multivariate_normal z m C).length = 4 ∧
      vec4 (multivariate_normal z m C) = vec4 m + WithLp.toLp 2 (Matrix.of (cholesky C) *ᵥ z) := by
  obtain ⟨a, b, c, d, rfl⟩ := List.length_eq_four.1 hm
  have e : multivariate_normal z [a, b, c, d] C =
      [a + (cholesky C 0 0 * z 0 + cholesky C 0 1 * z 1 + cholesky C 0 2 * z 2 + cholesky C 0 3 * z 3),
       b + (cholesky C 1 0 * z 0 + cholesky C 1 1 * z 1 + cholesky C 1 2 * z 2 + cholesky C 1 3 * z 3),
       c + (cholesky C 2 0 * z 0 + cholesky C 2 1 * z 1 + cholesky C 2 2 * z 2 + cholesky C 2 3 * z 3),
       d + (cholesky C 3 0 * z 0 + cholesky C 3 1 * z 1 + cholesky C 3 2 * z 2 + cholesky C 3 3 * z 3)] := by
    have h : cholesky C = cholesky (symmetrize C) := by rw [symmetrize_eq hC]
    rw [h]
    rfl
  refine ⟨by rw [e]; rfl, ?_⟩
  rw [e]
  ext i
  simp only [vec4, PiLp.add_apply, mulVec, dotProduct, Fin.sum_univ_four, Matrix.of_apply]
  fin_cases i <;> simp

/-- The law of the draws. -/
theorem multivariate_normal_law (m : List ℝ) (hm : m.length = 4) {C : Fin 4 → Fin 4 → ℝ}
    (hC : (Matrix.of C).PosDef) :
    (Measure.pi fun _ : Fin 4 => gaussianReal 0 1).map (fun z => vec4 (multivariate_normal z m C)) =
      multivariateGaussian (vec4 m) (Matrix.of C) := by
  rw [← affine_law (vec4 m) _ _ (cholesky_mul hC)]
  congr 1
  funext z
  exact (multivariate_normal_eq z m hm (posDef_symm hC)).2

/-! ## The truncated normal distribution -/

theorem gaussian_pdf_continuous : Continuous (gaussianPDFReal 0 1) := by
  rw [gaussianPDFReal_def]
  fun_prop

theorem ndtr_sub {a b : ℝ} (h : a ≤ b) : ndtr b - ndtr a = ∫ x in a..b, gaussianPDFReal 0 1 x := by
  unfold ndtr
  rw [cdf_eq_real, cdf_eq_real, ← measureReal_sdiff (Set.Iic_subset_Iic.2 h) measurableSet_Iic,
    Set.Iic_sdiff_Iic, intervalIntegral.integral_of_le h, measureReal_def,
    gaussianReal_apply_eq_integral 0 (by norm_num), ENNReal.toReal_ofReal]
  exact setIntegral_nonneg measurableSet_Ioc fun x _ => gaussianPDFReal_nonneg 0 1 x

theorem ndtr_hasDerivAt (x : ℝ) : HasDerivAt ndtr (gaussianPDFReal 0 1 x) x := by
  have h := intervalIntegral.integral_hasDerivAt_right
    (gaussian_pdf_continuous.intervalIntegrable (x - 1) x)
    (gaussian_pdf_continuous.stronglyMeasurableAtFilter _ _) gaussian_pdf_continuous.continuousAt
  have h2 := h.const_add (ndtr (x - 1))
  refine h2.congr_of_eventuallyEq ?_
  filter_upwards [lt_mem_nhds (show x - 1 < x by linarith)] with y hy
  rw [← ndtr_sub hy.le]; ring

theorem ndtr_strictMono : StrictMono ndtr := by
  apply strictMono_of_hasDerivAt_pos ndtr_hasDerivAt
  intro x
  exact gaussianPDFReal_pos 0 1 x (by norm_num)

theorem normal_lawful {eps : ℝ} (h : 0 ≤ eps) : (Ext.normal eps).Lawful where
  eps_nonneg := h
  cdf_mono := by
    intro a b loc scale hs x y hxy
    change truncnorm_cdf x a b loc scale ≤ truncnorm_cdf y a b loc scale
    have hd : (x - loc) / scale ≤ (y - loc) / scale := by gcongr
    unfold truncnorm_cdf
    simp only
    set u := (x - loc) / scale
    set v := (y - loc) / scale
    by_cases hv : b ≤ v
    · rw [if_pos hv]
      split
      · exact le_refl _
      · next hb =>
        split
        · norm_num
        · next ha =>
          rw [div_le_one (sub_pos.2 (ndtr_strictMono (by linarith)))]
          linarith [ndtr_strictMono (not_le.1 hb)]
    · rw [if_neg (fun hh => hv (hh.trans hd)), if_neg hv]
      by_cases ha : u ≤ a
      · rw [if_pos ha]
        split
        · exact le_refl _
        · next hva =>
          apply div_nonneg
          · linarith [ndtr_strictMono (not_le.1 hva)]
          · linarith [ndtr_strictMono (show a < b by linarith)]
      · rw [if_neg ha, if_neg (by linarith)]
        apply div_le_div_of_nonneg_right
        · linarith [ndtr_strictMono.monotone hd]
        · linarith [ndtr_strictMono (show a < b by linarith)]
  cdf_lower := by
    intro a b loc scale hs hab
    change truncnorm_cdf _ a b loc scale = 0
    unfold truncnorm_cdf
    have : (loc + a * scale - loc) / scale = a := by field_simp; ring
    simp only [this]
    rw [if_neg (not_le.2 hab), if_pos (le_refl _)]
  cdf_upper := by
    intro a b loc scale hs hab
    change truncnorm_cdf _ a b loc scale = 1
    unfold truncnorm_cdf
    have : (loc + b * scale - loc) / scale = b := by field_simp; ring
    simp only [this]
    rw [if_pos (le_refl _)]

theorem rng_normal_lawful {u : Key → ℝ} {us : Key → ℕ → List ℝ} {z : Key → Fin 4 → ℝ}
    (hu : ∀ k, 0 ≤ u k ∧ u k < 1) (hl : ∀ k n, (us k n).length = n)
    (hus : ∀ k n, ∀ x ∈ us k n, 0 ≤ x ∧ x < 1) : (Rng.normal u us z).Lawful where
  uniform_mem := hu
  uniforms_length := hl
  uniforms_mem := hus
  mvn_length := by
    intro k m c
    change (multivariate_normal (z k) m c).length = m.length
    unfold multivariate_normal
    split <;> rfl

/-! ## Derivatives -/

theorem IsAD.sqrt {f : ℝ → ℝ} {x : ℝ} {D : Dual} (hf : IsAD f x D) (h0 : 0 < f x) :
    IsAD (fun y => Real.sqrt (f y)) x (JFlow.sqrt D) := by
  refine ⟨by change Real.sqrt D.v = _; rw [hf.1], ?_⟩
  change HasDerivAt _ (D.d / (2 * Real.sqrt D.v)) x
  rw [hf.1]
  exact hf.2.sqrt h0.ne'

theorem IsAD.ndtr {f : ℝ → ℝ} {x : ℝ} {D : Dual} (hf : IsAD f x D) :
    IsAD (fun y => Diffmah.ndtr (f y)) x (ndtrDual D) := by
  refine ⟨by change Diffmah.ndtr D.v = _; rw [hf.1], ?_⟩
  change HasDerivAt _ (D.d * gaussianPDFReal 0 1 D.v) x
  rw [hf.1, mul_comm]
  exact (ndtr_hasDerivAt (f x)).comp x hf.2

/-- The factor of a matrix that varies with one variable. -/
theorem isAD_cholesky {s : Fin 4 → Fin 4 → ℝ → ℝ} {S : Fin 4 → Fin 4 → Dual} {x : ℝ}
    (hs : ∀ i j, IsAD (s i j) x (S i j)) (hp : (Matrix.of fun i j => s i j x).PosDef) (i j : Fin 4) :
    IsAD (fun y => cholesky (fun i j => s i j y) i j) x (cholesky S i j) := by
  obtain ⟨p0, p1, p2, p3⟩ := pivots_pos hp
  have d := cholesky_diag_pos hp
  have h00 : IsAD (fun y => cholesky (fun i j => s i j y) 0 0) x (cholesky S 0 0) := (hs 0 0).sqrt p0
  have h10 : IsAD (fun y => cholesky (fun i j => s i j y) 1 0) x (cholesky S 1 0) :=
    (hs 1 0).div h00 (d 0).ne'
  have h20 : IsAD (fun y => cholesky (fun i j => s i j y) 2 0) x (cholesky S 2 0) :=
    (hs 2 0).div h00 (d 0).ne'
  have h30 : IsAD (fun y => cholesky (fun i j => s i j y) 3 0) x (cholesky S 3 0) :=
    (hs 3 0).div h00 (d 0).ne'
  have h11 : IsAD (fun y => cholesky (fun i j => s i j y) 1 1) x (cholesky S 1 1) :=
    ((hs 1 1).sub (h10.mul h10)).sqrt p1
  have h21 : IsAD (fun y => cholesky (fun i j => s i j y) 2 1) x (cholesky S 2 1) :=
    ((hs 2 1).sub (h20.mul h10)).div h11 (d 1).ne'
  have h31 : IsAD (fun y => cholesky (fun i j => s i j y) 3 1) x (cholesky S 3 1) :=
    ((hs 3 1).sub (h30.mul h10)).div h11 (d 1).ne'
  have h22 : IsAD (fun y => cholesky (fun i j => s i j y) 2 2) x (cholesky S 2 2) :=
    (((hs 2 2).sub (h20.mul h20)).sub (h21.mul h21)).sqrt p2
  have h32 : IsAD (fun y => cholesky (fun i j => s i j y) 3 2) x (cholesky S 3 2) :=
    (((hs 3 2).sub (h30.mul h20)).sub (h31.mul h21)).div h22 (d 2).ne'
  have h33 : IsAD (fun y => cholesky (fun i j => s i j y) 3 3) x (cholesky S 3 3) :=
    ((((hs 3 3).sub (h30.mul h30)).sub (h31.mul h31)).sub (h32.mul h32)).sqrt p3
  fin_cases i <;> fin_cases j <;> first | assumption | exact IsAD.lit 0 x

theorem isAD_symmetrize {s : Fin 4 → Fin 4 → ℝ → ℝ} {S : Fin 4 → Fin 4 → Dual} {x : ℝ}
    (hs : ∀ i j, IsAD (s i j) x (S i j)) (i j : Fin 4) :
    IsAD (fun y => symmetrize (fun i j => s i j y) i j) x (symmetrize S i j) :=
  ((hs i j).add (hs j i)).div (IsAD.lit 2 x) (by norm_num [JOps.lit])

/-- The draws, as functions of one variable. -/
theorem isAD_mvn {a b c d : ℝ → ℝ} {A B C D : Dual} {s : Fin 4 → Fin 4 → ℝ → ℝ} {S : Fin 4 → Fin 4 → Dual}
    {x : ℝ} (z : Fin 4 → ℝ) (ha : IsAD a x A) (hb : IsAD b x B) (hc : IsAD c x C) (hd : IsAD d x D)
    (hs : ∀ i j, IsAD (fun y => symmetrize (fun i j => s i j y) i j) x (symmetrize S i j))
    (hp : (Matrix.of fun i j => symmetrize (fun i j => s i j x) i j).PosDef) (n : ℕ) (hn : n < 4) :
    IsAD (fun y => (multivariate_normal z [a y, b y, c y, d y] fun i j => s i j y).getD n 0) x
      ((multivariate_normal z [A, B, C, D] S).getD n (Dual.const 0)) := by
  have h := isAD_cholesky hs hp
  have row : ∀ i, IsAD (fun y => cholesky (symmetrize fun i j => s i j y) i 0 * lit (z 0) +
      cholesky (symmetrize fun i j => s i j y) i 1 * lit (z 1) +
      cholesky (symmetrize fun i j => s i j y) i 2 * lit (z 2) +
      cholesky (symmetrize fun i j => s i j y) i 3 * lit (z 3)) x
      (cholesky (symmetrize S) i 0 * lit (z 0) + cholesky (symmetrize S) i 1 * lit (z 1) +
      cholesky (symmetrize S) i 2 * lit (z 2) + cholesky (symmetrize S) i 3 * lit (z 3)) := fun i =>
    ((((h i 0).mul (IsAD.lit _ _)).add ((h i 1).mul (IsAD.lit _ _))).add
      ((h i 2).mul (IsAD.lit _ _))).add ((h i 3).mul (IsAD.lit _ _))
  interval_cases n
  · exact ha.add (row 0)
  · exact hb.add (row 1)
  · exact hc.add (row 2)
  · exact hd.add (row 3)

theorem symmetrize_v (S : Fin 4 → Fin 4 → Dual) (i j : Fin 4) :
    (symmetrize S i j).v = symmetrize (fun i j => (S i j).v) i j := rfl

theorem mvn_value (z : Fin 4 → ℝ) (A B C D : Dual) (S : Fin 4 → Fin 4 → Dual) :
    (multivariate_normal z [A, B, C, D] S).map Dual.v =
      multivariate_normal z [A.v, B.v, C.v, D.v] fun i j => (S i j).v := rfl

/-- The rules of the number system of tangents are the derivatives, so nothing needs to be assumed. -/
theorem normal_differentiates (eps : ℝ) (u : Key → ℝ) (us : Key → ℕ → List ℝ) (z : Key → Fin 4 → ℝ) :
    (Env.real (Ext.normal eps) (Rng.normal u us z)).Differentiates (Env.normalDual eps u z) where
  uniform _ := rfl
  eps := rfl
  mvn_value k a b c d s := mvn_value (z k) a b c d s
  mvn_length _ _ _ _ _ _ := rfl
  mvn_deriv := by
    intro k a b c d A B C D s S x ha hb hc hd hs hp n hn
    have hsym := symmetrize_eq (A := fun i j => s i j x) (posDef_symm hp)
    exact (isAD_mvn (z k) ha hb hc hd (isAD_symmetrize hs) (by rw [hsym]; exact hp) n hn).2
  cdf_value := by
    intro x a b l s
    change (truncnorm_cdfDual x a b l s).v = truncnorm_cdf x.v a.v b.v l.v s.v
    unfold truncnorm_cdfDual truncnorm_cdf
    have : ((x - l) / s).v = (x.v - l.v) / s.v := rfl
    simp only [this]
    split
    · rfl
    · split
      · rfl
      · rfl
  cdf_deriv := by
    intro t a b l s T A B L S x ht ha hb hl hs h0 h1 h2
    have hy := (ht.sub hl).div hs h0.ne'
    have e1 : a x < (t x - l x) / s x := by rw [lt_div_iff₀ h0]; linarith
    have e2 : (t x - l x) / s x < b x := by rw [div_lt_iff₀ h0]; linarith
    have hq := (hy.ndtr.sub ha.ndtr).div (hb.ndtr.sub ha.ndtr)
      (sub_pos.2 (ndtr_strictMono (e1.trans e2))).ne'
    have hD : (Env.normalDual eps u z).truncnorm_cdf T A B L S =
        (ndtrDual ((T - L) / S) - ndtrDual A) / (ndtrDual B - ndtrDual A) := by
      change truncnorm_cdfDual T A B L S = _
      unfold truncnorm_cdfDual
      simp only
      rw [if_neg (by rw [hb.1, hy.1]; exact not_le.2 e2), if_neg (by rw [ha.1, hy.1]; exact not_le.2 e1)]
    rw [hD]
    refine hq.2.congr_of_eventuallyEq ?_
    filter_upwards [ha.2.continuousAt.eventually_lt hy.2.continuousAt e1,
      hy.2.continuousAt.eventually_lt hb.2.continuousAt e2] with y h3 h4
    change truncnorm_cdf (t y) (a y) (b y) (l y) (s y) = _
    unfold truncnorm_cdf
    simp only
    rw [if_neg (not_le.2 h4), if_neg (not_le.2 h3)]

/-! ## Quantiles -/

theorem gaussian_Iic (m q : ℝ) {s : ℝ} (hs : 0 < s) {v : NNReal} (hv : (v : ℝ) = s ^ 2) :
    gaussianReal m v (Set.Iic (m + q * s)) = ENNReal.ofReal (cdf (gaussianReal 0 1) q) := by
  have h1 : gaussianReal m v = ((gaussianReal 0 1).map (fun x => s * x)).map (fun x => x + m) := by
    rw [gaussianReal_map_const_mul, gaussianReal_map_add_const]
    congr 1
    · ring
    · ext; push_cast; rw [hv]; simp
  rw [h1, Measure.map_map (by fun_prop) (by fun_prop), Measure.map_apply (by fun_prop) measurableSet_Iic,
    cdf_eq_real, ofReal_measureReal]
  congr 1
  ext x
  simp only [Function.comp_apply, Set.mem_preimage, Set.mem_Iic]
  constructor
  · intro h
    have : s * x ≤ s * q := by linarith
    exact le_of_mul_le_mul_left this hs
  · intro h
    nlinarith

theorem cdf_half : cdf (gaussianReal 0 1) 0 = 1 / 2 := by
  have hn : NullSingletonClass (gaussianReal 0 1) := nullSingletonClass_gaussianReal (by norm_num)
  have h1 : (gaussianReal 0 1).real (Set.Ici 0) = (gaussianReal 0 1).real (Set.Iic 0) := by
    have := congrArg (fun μ : Measure ℝ => μ.real (Set.Ici 0)) (gaussianReal_map_neg (μ := 0) (v := 1))
    simp only [neg_zero] at this
    rw [← this, measureReal_def, Measure.map_apply (by fun_prop) measurableSet_Ici, ← measureReal_def]
    congr 1
    ext x
    simp
  have h2 : (gaussianReal 0 1).real (Set.Iic 0) + (gaussianReal 0 1).real (Set.Ioi 0) = 1 := by
    rw [← measureReal_union (Set.Iic_disjoint_Ioi (le_refl _)) measurableSet_Ioi, Set.Iic_union_Ioi]
    exact probReal_univ
  have h3 : (gaussianReal 0 1).real (Set.Ioi 0) = (gaussianReal 0 1).real (Set.Ici 0) := by
    rw [measureReal_def, measureReal_def, measure_congr Ioi_ae_eq_Ici]
  rw [cdf_eq_real]
  linarith

end Diffmah

import Verif.Lemmas.Float32Fit
import Verif.Lemmas.FitRev
import Verif.Props.Float32Fit

/-!
# The gradient of a fit in single precision (C124)

`loss_grad_rev` is the gradient of `loss_and_grads_kern` with the backward pass of JAX's `value_and_grad` written
out. Over the reals it is the function of the other theorems (`C124_same_function`); over binary32 numbers it
says which roundings happen, and in which order, up to the order of sums, which is arbitrary.
-/

namespace Diffmah.F32

open JOps XR
open Fit (VariedU LossData)

section

theorem bounded_tangent (u : Dual) (b : ℝ × ℝ) :
    (get_bounded_diffmah_param u b).v = get_bounded_diffmah_param u.v b ∧
    ∀ g : ℝ, g * (get_bounded_diffmah_param u b).d = bounded_bwd u.v b g * u.d := by
  refine ⟨rfl, fun g => ?_⟩
  have e : (get_bounded_diffmah_param u b).d =
    0 + ((0 - 0) * Real.sigmoid (BOUNDING_K * (u.v - 0.5 * (b.1 + b.2))) + (b.2 - b.1) *
      ((0 * (u.v - 0.5 * (b.1 + b.2)) + BOUNDING_K * (u.d - (0 * (b.1 + b.2) + 0.5 * (0 + 0)))) *
        (Real.sigmoid (BOUNDING_K * (u.v - 0.5 * (b.1 + b.2))) *
          (1 - Real.sigmoid (BOUNDING_K * (u.v - 0.5 * (b.1 + b.2))))))) := rfl
  have e' : bounded_bwd u.v b g = g * (b.2 - b.1) * (1 - Real.sigmoid (BOUNDING_K * (u.v - 0.5 * (b.1 + b.2)))) *
    Real.sigmoid (BOUNDING_K * (u.v - 0.5 * (b.1 + b.2))) * BOUNDING_K := rfl
  rw [e, e']
  ring

/-- The tangent of the loss in any direction is the written-out gradient times that direction. -/
theorem loss_tangent (sum : List ℝ → ℝ) (hsum : ∀ l, SumOf l (sum l)) (w : VariedU Dual) (ld : LossData ℝ) :
    (Fit.log_mah_loss_uparams w ld.const).d =
      (loss_grad_rev sum ⟨w.u_logm0.v, w.u_logtc.v, w.u_early_index.v, w.u_late_index.v⟩ ld).u_logm0 * w.u_logm0.d +
      (loss_grad_rev sum ⟨w.u_logm0.v, w.u_logtc.v, w.u_early_index.v, w.u_late_index.v⟩ ld).u_logtc * w.u_logtc.d +
      (loss_grad_rev sum ⟨w.u_logm0.v, w.u_logtc.v, w.u_early_index.v, w.u_late_index.v⟩ ld).u_early_index *
        w.u_early_index.d +
      (loss_grad_rev sum ⟨w.u_logm0.v, w.u_logtc.v, w.u_early_index.v, w.u_late_index.v⟩ ld).u_late_index *
        w.u_late_index.d := by
  obtain ⟨ts, ms, utp, l0⟩ := ld
  have hs : ∀ l, sum l = l.sum := fun l => sumOf_real (hsum l)
  -- the parameters and their tangents
  obtain ⟨P, hP⟩ : ∃ P, P = get_bounded_mah_params (⟨w.u_logm0, w.u_logtc, w.u_early_index, w.u_late_index,
    Dual.const utp⟩ : MahUParams Dual) := ⟨_, rfl⟩
  obtain ⟨p, hp⟩ : ∃ p, p = get_bounded_mah_params (⟨w.u_logm0.v, w.u_logtc.v, w.u_early_index.v,
    w.u_late_index.v, utp⟩ : MahUParams ℝ) := ⟨_, rfl⟩
  have hPv : P.map Dual.v = p := by rw [hP, hp]; rfl
  have htp : P.t_peak.v = p.t_peak := by rw [hP, hp]; rfl
  have htd : P.t_peak.d = 0 := by
    have := (bounded_tangent (Dual.const utp) MAH_PBOUNDS.t_peak).2 1
    rw [one_mul] at this
    rw [hP]
    exact this.trans (mul_zero _)
  have t1 : ∀ g, g * P.logm0.d = bounded_bwd w.u_logm0.v MAH_PBOUNDS.logm0 g * w.u_logm0.d := by
    rw [hP]; exact (bounded_tangent w.u_logm0 MAH_PBOUNDS.logm0).2
  have t2 : ∀ g, g * P.logtc.d = bounded_bwd w.u_logtc.v MAH_PBOUNDS.logtc g * w.u_logtc.d := by
    rw [hP]; exact (bounded_tangent w.u_logtc MAH_PBOUNDS.logtc).2
  have t3 : ∀ g, g * P.late_index.d = bounded_bwd w.u_late_index.v MAH_PBOUNDS.late_index g * w.u_late_index.d := by
    rw [hP]; exact (bounded_tangent w.u_late_index MAH_PBOUNDS.late_index).2
  have t4 : P.early_index.d = P.late_index.d * (1 - Real.sigmoid (BOUNDING_K * (w.u_early_index.v - 0.0))) +
      (MAH_PBOUNDS.early_index.2 - p.late_index) * (BOUNDING_K * w.u_early_index.d *
        (Real.sigmoid (BOUNDING_K * (w.u_early_index.v - 0.0)) *
          (1 - Real.sigmoid (BOUNDING_K * (w.u_early_index.v - 0.0))))) := by
    have e : P.early_index.d = P.late_index.d + ((0 - P.late_index.d) *
        Real.sigmoid (BOUNDING_K * (w.u_early_index.v - 0.0)) + (MAH_PBOUNDS.early_index.2 - P.late_index.v) *
        ((0 * (w.u_early_index.v - 0.0) + BOUNDING_K * (w.u_early_index.d - 0)) *
          (Real.sigmoid (BOUNDING_K * (w.u_early_index.v - 0.0)) *
            (1 - Real.sigmoid (BOUNDING_K * (w.u_early_index.v - 0.0)))))) := by rw [hP]; rfl
    have e' : P.late_index.v = p.late_index := by rw [hP, hp]; rfl
    rw [e, e']
    generalize (0.0 : ℝ) = z
    ring
  -- the tangent of the loss
  obtain ⟨n, hn⟩ : ∃ n : ℝ, n = ((ts.zip ms).length : ℝ) := ⟨_, rfl⟩
  obtain ⟨G, hG⟩ : ∃ G : ℝ × ℝ → ℝ, G = fun q => 1 / n * (log_mah_kern p q.1 l0 - q.2) +
    1 / n * (log_mah_kern p q.1 l0 - q.2) := ⟨_, rfl⟩
  obtain ⟨te, hte⟩ : ∃ te : ℝ → ℝ, te = fun t => jwhere (lt t p.t_peak) t p.t_peak := ⟨_, rfl⟩
  have hL : (Fit.log_mah_loss_uparams w (LossData.const ⟨ts, ms, utp, l0⟩)).d =
      P.logm0.d * ((ts.zip ms).map G).sum + P.early_index.d * ((ts.zip ms).map fun q => G q * dEarly p l0 (te q.1)).sum +
        P.late_index.d * ((ts.zip ms).map fun q => G q * dLate p l0 (te q.1)).sum -
        P.logtc.d * ((ts.zip ms).map fun q => G q * dTc p l0 (te q.1)).sum := by
    have hD : ∀ (f : Dual → Dual) (l1 l2 : List ℝ),
        List.zipWith (fun p t : Dual => (p - t) * (p - t)) ((l1.map Dual.const).map f)
          (l2.map Dual.const)
          = (l1.zip l2).map fun q => (f (Dual.const q.1) - Dual.const q.2)
            * (f (Dual.const q.1) - Dual.const q.2) := by
      intro f l1 l2
      rw [List.map_map, List.zipWith_map, ← List.map_uncurry_zip_eq_zipWith]; rfl
    unfold Fit.log_mah_loss_uparams Fit.mse Fit.jmean Fit.LossData.const
    simp only [hD, List.length_map, log_mah_kern_u_params, ← hP]
    rw [← hn]
    have hdiv : ∀ A : Dual, (A / lit n : Dual).d = A.d / n := by
      intro A
      change (A.d * n - A.v * 0) / (n * n) = _
      rcases eq_or_ne n 0 with h | h
      · rw [h]; simp
      · field_simp; ring
    rw [hdiv, foldl_dual_d, List.map_map]
    change (0 + _) / n = _
    rw [zero_add, ← List.sum_map_mul_left, ← List.sum_map_mul_left, ← List.sum_map_mul_left, ← List.sum_map_mul_left,
      ← List.sum_map_add, ← List.sum_map_add, sum_map_sub', div_eq_mul_inv, ← List.sum_map_mul_right]
    refine congrArg List.sum (List.map_congr_left fun q _ => ?_)
    obtain ⟨k1, k2⟩ := kern_tangent P htd q.1 l0
    rw [hPv] at k1 k2
    rw [htp] at k2
    have e : (((fun q : ℝ × ℝ => (log_mah_kern P (Dual.const q.1) (Dual.const l0) - Dual.const q.2) *
        (log_mah_kern P (Dual.const q.1) (Dual.const l0) - Dual.const q.2)) q).d) =
      ((log_mah_kern P (Dual.const q.1) (Dual.const l0)).d - 0) *
        ((log_mah_kern P (Dual.const q.1) (Dual.const l0)).v - q.2) +
      ((log_mah_kern P (Dual.const q.1) (Dual.const l0)).v - q.2) *
        ((log_mah_kern P (Dual.const q.1) (Dual.const l0)).d - 0) := rfl
    refine (congrArg (· * n⁻¹) e).trans ?_
    rw [k1, k2, hG, hte]
    simp only
    ring
  -- the backward pass
  have hpred : ∀ f : ℝ → ℝ, List.zipWith (fun a b : ℝ => a - b) (ts.map f) ms =
      (ts.zip ms).map fun q => f q.1 - q.2 := by
    intro f
    rw [List.zipWith_map_left, ← List.map_uncurry_zip_eq_zipWith]; rfl
  have hg : (ts.zip ms).map (fun q : ℝ × ℝ => (lit 1 / lit n : ℝ) * (log_mah_kern p q.1 l0 - q.2) +
      (lit 1 / lit n : ℝ) * (log_mah_kern p q.1 l0 - q.2)) = (ts.zip ms).map G := by rw [hG]; rfl
  have hR : ∃ A : VariedU ℝ, A.u_logm0 = ((ts.zip ms).map G).sum ∧
      A.u_logtc = -((ts.zip ms).map fun q => G q * dTc p l0 (te q.1)).sum ∧
      A.u_early_index = ((ts.zip ms).map fun q => G q * dEarly p l0 (te q.1)).sum ∧
      A.u_late_index = ((ts.zip ms).map fun q => G q * dLate p l0 (te q.1)).sum ∧
      loss_grad_rev sum ⟨w.u_logm0.v, w.u_logtc.v, w.u_early_index.v, w.u_late_index.v⟩ ⟨ts, ms, utp, l0⟩ =
      ⟨bounded_bwd w.u_logm0.v MAH_PBOUNDS.logm0 A.u_logm0, bounded_bwd w.u_logtc.v MAH_PBOUNDS.logtc A.u_logtc,
        A.u_early_index * (MAH_PBOUNDS.early_index.2 - p.late_index) *
          (1 - Real.sigmoid (BOUNDING_K * (w.u_early_index.v - 0.0))) *
          Real.sigmoid (BOUNDING_K * (w.u_early_index.v - 0.0)) * BOUNDING_K,
        bounded_bwd w.u_late_index.v MAH_PBOUNDS.late_index (A.u_late_index + (A.u_early_index -
          A.u_early_index * Real.sigmoid (BOUNDING_K * (w.u_early_index.v - 0.0))))⟩ := by
    unfold loss_grad_rev
    simp only [← hp, hpred, List.length_map, List.map_map, ← hn]
    have hg' : (ts.zip ms).map ((fun d : ℝ => (lit 1 / lit n : ℝ) * d + (lit 1 / lit n : ℝ) * d) ∘
        fun q : ℝ × ℝ => log_mah_kern p q.1 l0 - q.2) = (ts.zip ms).map G := hg
    rw [hg']
    simp only [zipWith_left, noq_bwd_real sum hsum, noq_bwd_single sum hsum, hs]
    refine ⟨⟨_, _, _, _⟩, ?_, ?_, ?_, ?_, rfl⟩
    · have := sum_split (ts.zip ms) p.t_peak G fun _ => 1
      simp only [mul_one] at this
      exact this
    · have := sum_split (ts.zip ms) p.t_peak G (dTc p l0)
      rw [hte]
      simp only
      rw [← this]
      change -_ + -_ = _
      rw [← neg_add]
      rfl
    · have := sum_split (ts.zip ms) p.t_peak G (dEarly p l0)
      rw [hte]
      exact this
    · have := sum_split (ts.zip ms) p.t_peak G (dLate p l0)
      rw [hte]
      exact this
  obtain ⟨A, a1, a2, a3, a4, hA⟩ := hR
  rw [hA, hL, ← a1, ← a3, ← a4]
  have a2' : ((ts.zip ms).map fun q => G q * dTc p l0 (te q.1)).sum = -A.u_logtc := by rw [a2, neg_neg]
  rw [a2']
  simp only
  rw [← t1, ← t2, ← t3, t4]
  generalize Real.sigmoid (BOUNDING_K * (w.u_early_index.v - 0.0)) = s
  ring

/-- C124. Without roundings, the written-out backward pass computes the gradient of `loss_and_grads_kern`, in
whatever order it adds up. -/
theorem C124_same_function (sum : List ℝ → ℝ) (hsum : ∀ l, SumOf l (sum l)) (u : VariedU ℝ) (ld : LossData ℝ) :
    loss_grad_rev sum u ld = (Fit.loss_and_grads_kern u ld).2 := by
  have h := fun w => loss_tangent sum hsum w ld
  unfold Fit.loss_and_grads_kern
  simp only
  refine VariedU.ext ?_ ?_ ?_ ?_
  all_goals
    refine Eq.trans ?_ (h _).symm
    simp [Dual.var, Dual.const]

/-! ## Sizes -/

theorem bd_one [Libm] : Bd (lit 1) 0 := Bd.lit 0 (by norm_num) (by norm_num)

theorem bd_zero [Libm] : Bd (lit 0) 0 := Bd.lit 0 (by norm_num) (by norm_num)

/-- The logistic function and its complement. -/
theorem logistic_bd [Libm] (hs : Libm.Sane) {x : F32} (h : x.v ≠ nan) :
    Bd (sigm x) 0 ∧ Bd (lit 1 - sigm x) 1 :=
  ⟨Bd.sigm hs h, bd_one.sub (Bd.sigm hs h) (by norm_num)⟩

theorem log10_bd [Libm] (ha : Libm.Accurate) {t : ℝ} (h1 : 0.05 ≤ t) (h2 : t ≤ 20) : Bd (log10 (num t)) 1 := by
  obtain ⟨l, e, hl⟩ := ha.log10_acc t h1 h2
  refine ⟨l, congrArg F32.mk e, (abs_of_near hl (abs_logb_le h1 h2)).trans ?_⟩
  norm_num

/-- The derivative of the logistic function, times anything. -/
theorem logistic_bwd_bd [Libm] (hs : Libm.Sane) {x g : F32} {k : ℝ} {n j : ℕ} (h : x.v ≠ nan) (hg : Bd g n)
    (hk : Bd (lit k) j) (hn : n + 1 + j ≤ 127) : Bd (g * (lit 1 - sigm x) * sigm x * lit k) (n + 1 + j) := by
  obtain ⟨s0, s1⟩ := logistic_bd hs h
  exact ((hg.mul s1 (by omega)).mul s0 (by omega)).mul hk (by omega)

theorem sub_ne_nan {x : F32} (hx : x.v ≠ nan) {k : ℝ} {y : F32} {n : ℕ} (hy : Bd y n) (hk : 0 < round k)
    (hk' : |k| ≤ 2 ^ (127 : ℕ)) [Libm] : ((lit k * (x - y) : F32)).v ≠ nan := by
  obtain ⟨r, rfl, -⟩ := hy
  rw [lit_fin hk']
  exact arg_ne_nan hx r _ hk

/-- Sizes of the four sums of the backward pass through the history. -/
theorem noq_bwd_bd [Libm] (hs : Libm.Sane) (ha : Libm.Accurate) (sum : List F32 → F32)
    (hsum : ∀ l, SumOf l (sum l)) {p : MahParams ℝ} (hp : ClosedBox p) {lgt0 : ℝ} (hg0 : 0 ≤ lgt0)
    (hg1 : lgt0 ≤ 4 / 3) (ts : List ℝ) (hts : ∀ t ∈ ts, 0.05 ≤ t ∧ t ≤ 20) (gs : List F32) {n : ℕ}
    (hgs : ∀ g ∈ gs, Bd g n) (hl : ts.length ≤ 2 ^ 24) (hl' : gs.length ≤ 2 ^ 24) (hn : n ≤ 70) :
    Bd (noq_bwd sum (p.map num) (num lgt0) (ts.map num) gs).u_logm0 (24 + n) ∧
    Bd (noq_bwd sum (p.map num) (num lgt0) (ts.map num) gs).u_logtc (35 + n) ∧
    Bd (noq_bwd sum (p.map num) (num lgt0) (ts.map num) gs).u_early_index (27 + n) ∧
    Bd (noq_bwd sum (p.map num) (num lgt0) (ts.map num) gs).u_late_index (26 + n) := by
  have hlg : Bd (num lgt0) 1 := Bd.num (by rw [abs_of_nonneg hg0]; norm_num; linarith)
  have htc : Bd (num p.logtc) 1 := Bd.num (by
    have := abs_le.2 ⟨hp.logtc_lo, hp.logtc_hi⟩; norm_num; linarith)
  have hK : Bd (lit MAH_K) 2 := Bd.lit 2 (by rw [MAH_K]; norm_num [abs_le]) (by norm_num)
  have hhd : Bd ((p.map num).late_index - (p.map num).early_index) 5 := by
    have h1 : Bd (num p.late_index) 4 := Bd.num (by
      rw [abs_of_nonneg (by have := hp.late_lo; linarith)]; have := hp.late_hi; norm_num; linarith)
    have h2 : Bd (num p.early_index) 4 := Bd.num (by
      rw [abs_of_nonneg (by have := hp.early_lo; linarith)]; have := hp.early_hi; norm_num; linarith)
    exact h1.sub h2 (by norm_num)
  have harg : ∀ t ∈ ts, (lit MAH_K * (log10 (num t) - (p.map num).logtc) : F32).v ≠ nan := fun t ht =>
    (hK.mul ((log10_bd ha (hts t ht).1 (hts t ht).2).sub htc (by norm_num)) (by norm_num)).ne_nan
  have hidx : ∀ g ∈ List.zipWith (fun t g : F32 => g * (log10 t - num lgt0)) (ts.map num) gs, Bd g (n + 2) := by
    intro x hx
    rw [List.zipWith_map_left] at hx
    obtain ⟨t, ht, g, hg, rfl⟩ : ∃ t ∈ ts, ∃ g ∈ gs, g * (log10 (num t) - num lgt0) = x := by
      rw [← List.map_uncurry_zip_eq_zipWith] at hx
      obtain ⟨⟨t, g⟩, h, rfl⟩ := List.mem_map.1 hx
      exact ⟨t, (List.of_mem_zip h).1, g, (List.of_mem_zip h).2, rfl⟩
    exact (hgs g hg).mul ((log10_bd ha (hts t ht).1 (hts t ht).2).sub hlg (by norm_num)) (by omega)
  have hs' : ∀ s ∈ (ts.map num).map (fun t : F32 => sigm (lit MAH_K * (log10 t - (p.map num).logtc))), ∃ x : F32,
      x.v ≠ nan ∧ s = sigm x := by
    intro s hs
    rw [List.map_map] at hs
    obtain ⟨t, ht, rfl⟩ := List.mem_map.1 hs
    exact ⟨_, harg t ht, rfl⟩
  have two : ∀ (f : F32 → F32 → F32) (l m : List F32), ∀ x ∈ List.zipWith f l m, ∃ a ∈ l, ∃ b ∈ m, f a b = x := by
    intro f l m x hx
    rw [← List.map_uncurry_zip_eq_zipWith] at hx
    obtain ⟨⟨a, b⟩, h, rfl⟩ := List.mem_map.1 hx
    exact ⟨a, (List.of_mem_zip h).1, b, (List.of_mem_zip h).2, rfl⟩
  unfold noq_bwd
  simp only
  have hsg := Bd.sum (hsum gs) (by omega) hl' hgs
  have hsi := Bd.sum (hsum _) (by omega) (by simp only [List.length_zipWith, List.length_map]; omega) hidx
  have hsh := Bd.sum (n := n + 2) (hsum (List.zipWith (fun g s => g * s)
      (List.zipWith (fun t g : F32 => g * (log10 t - num lgt0)) (ts.map num) gs)
      ((ts.map num).map (fun t : F32 => sigm (lit MAH_K * (log10 t - (p.map num).logtc)))))) (by omega)
      (by simp only [List.length_zipWith, List.length_map]; omega) (by
        intro x hx
        obtain ⟨a, ha, b, hb, rfl⟩ := two _ _ _ x hx
        obtain ⟨y, hy, rfl⟩ := hs' b hb
        exact (hidx a ha).mul (Bd.sigm hs hy) (by omega))
  have hsa := Bd.sum (n := n + 2 + 5 + 1 + 2) (hsum (List.zipWith (fun g s => g *
      ((p.map num).late_index - (p.map num).early_index) * (lit 1 - s) * s * lit MAH_K)
      (List.zipWith (fun t g : F32 => g * (log10 t - num lgt0)) (ts.map num) gs)
      ((ts.map num).map (fun t : F32 => sigm (lit MAH_K * (log10 t - (p.map num).logtc)))))) (by omega)
      (by simp only [List.length_zipWith, List.length_map]; omega) (by
        intro x hx
        obtain ⟨a, ha, b, hb, rfl⟩ := two _ _ _ x hx
        obtain ⟨y, hy, rfl⟩ := hs' b hb
        exact logistic_bwd_bd hs hy ((hidx a ha).mul hhd (by omega)) hK (by omega))
  exact ⟨hsg, ((bd_zero.mono (Nat.zero_le _)).sub hsa (by omega)).mono (by omega),
    (hsi.sub hsh (by omega)).mono (by omega), hsh.mono (by omega)⟩

theorem bounded_bwd_bd [Libm] (hs : Libm.Sane) {u g : F32} (hu : u.v ≠ nan) {b : ℝ × ℝ} {n : ℕ} (hg : Bd g n)
    (b1 : |b.1| ≤ 2 ^ (5 : ℕ)) (b2 : |b.2| ≤ 2 ^ (5 : ℕ)) (hn : n ≤ 110) : Bd (bounded_bwd u b g) (n + 7) := by
  have hK : Bd (lit BOUNDING_K) 0 := Bd.lit 0 (by rw [BOUNDING_K]; norm_num [abs_le]) (by norm_num)
  have h1 : Bd (lit b.1) 5 := Bd.lit 5 b1 (by norm_num)
  have h2 : Bd (lit b.2) 5 := Bd.lit 5 b2 (by norm_num)
  have h5 : Bd (lit 0.5) 0 := Bd.lit 0 (by norm_num [abs_le]) (by norm_num)
  have harg := sub_ne_nan hu (h5.mul (h1.add h2 (by norm_num)) (by norm_num)) (k := BOUNDING_K)
    (by rw [BOUNDING_K]; linarith [tenth_pos.1]) (by rw [BOUNDING_K, abs_of_pos (by norm_num)]; norm_num)
  exact logistic_bwd_bd hs harg (hg.mul (h2.sub h1 (by norm_num)) (by omega)) hK (by omega)

/-- The derivatives by the predicted masses. -/
theorem pred_bwd_bd [Libm] (ha : Libm.Accurate) {p : MahParams ℝ} (hp : ClosedBox p) (ts ms : List ℝ) (lgt0 : ℝ)
    (hd : GoodTarget ts ms lgt0) :
    ∀ x ∈ (List.zipWith (fun a b : F32 => a - b) ((ts.map num).map fun t => log_mah_kern (p.map num) t (num lgt0))
      (ms.map num)).map (fun d => (lit 1 / lit (ts.length : ℝ) : F32) * d + (lit 1 / lit (ts.length : ℝ)) * d),
      Bd x 42 := by
  intro x hx
  obtain ⟨d, hd', rfl⟩ := List.mem_map.1 hx
  rw [List.map_map, List.zipWith_map, ← List.map_uncurry_zip_eq_zipWith] at hd'
  obtain ⟨⟨t, m⟩, hq, rfl⟩ := List.mem_map.1 hd'
  obtain ⟨q1, q2⟩ := hd.times t (List.of_mem_zip hq).1
  obtain ⟨y, y1, -, y3, y4, -⟩ := square_near ha hp q1 q2 hd.lgt0_lo hd.lgt0_hi (hd.masses m (List.of_mem_zip hq).2)
  have hdiff : Bd (log_mah_kern (p.map num) (num t) (num lgt0) - num m) 41 := by
    rw [y1, y3]; exact Bd.num y4
  have hn : (1 : ℝ) ≤ ts.length := by exact_mod_cast List.length_pos_iff.2 hd.ne
  have hg : Bd (lit 1 / lit (ts.length : ℝ)) 0 := by
    have l1 : (lit (1 : ℝ) : F32) = num 1 := by have := lit_nat (n := 1) (by norm_num); simpa using this
    have h1 : |1 / (ts.length : ℝ)| ≤ 2 ^ 0 := by
      rw [abs_of_nonneg (by positivity)]; simpa using (div_le_one (by linarith)).2 hn
    rw [lit_nat hd.le, l1, div_fin (by linarith) (h1.trans (by norm_num))]
    exact Bd.num (round_abs_le h1)
  have := hg.mul hdiff (by norm_num)
  exact (this.add this (by norm_num)).mono (by norm_num)

set_option maxHeartbeats 1000000 in
/-- The gradient in single precision, taken apart. -/
theorem grad_parts [Libm] (hs : Libm.Sane) (ha : Libm.Accurate) (sum : List F32 → F32)
    (hsum : ∀ l, SumOf l (sum l)) (u : VariedU F32) (utp : F32) (h1 : u.u_logm0.v ≠ nan)
    (h2 : u.u_logtc.v ≠ nan) (h3 : u.u_early_index.v ≠ nan) (h4 : u.u_late_index.v ≠ nan)
    (h5 : utp.v ≠ nan) (ts ms : List ℝ) (lgt0 : ℝ) (hd : GoodTarget ts ms lgt0) :
    ∃ a b c d : F32, Bd a 98 ∧ Bd b 102 ∧ Bd c 99 ∧ Bd d 98 ∧
      loss_grad_rev sum u (lossData ts ms utp lgt0) = ⟨bounded_bwd u.u_logm0 MAH_PBOUNDS.logm0 a,
        bounded_bwd u.u_logtc MAH_PBOUNDS.logtc b,
        c * (lit 1 - JOps.sigm (lit BOUNDING_K * (u.u_early_index - lit 0.0))) *
          JOps.sigm (lit BOUNDING_K * (u.u_early_index - lit 0.0)) * lit BOUNDING_K,
        bounded_bwd u.u_late_index MAH_PBOUNDS.late_index d⟩ := by
  obtain ⟨p, e, hp, -⟩ := bounded_box hs ⟨u.u_logm0, u.u_logtc, u.u_early_index, u.u_late_index, utp⟩ h1 h2 h3 h4 h5
  have hpred := pred_bwd_bd ha hp ts ms lgt0 hd
  unfold loss_grad_rev lossData
  simp only [e]
  have hlen : (List.zipWith (fun a b : F32 => a - b) ((ts.map num).map fun t =>
      log_mah_kern (p.map num) t (num lgt0)) (ms.map num)).length = ts.length := by simp [hd.len]
  rw [hlen]
  generalize hG : (List.zipWith (fun a b : F32 => a - b) ((ts.map num).map fun t =>
      log_mah_kern (p.map num) t (num lgt0)) (ms.map num)).map
      (fun d => (lit 1 / lit (ts.length : ℝ) : F32) * d + (lit 1 / lit (ts.length : ℝ)) * d) = G at hpred
  have hGlen : G.length = ts.length := by rw [← hG, List.length_map, hlen]
  have hsel : ∀ (f : F32 → F32 → F32), (∀ t g, f t g = g ∨ f t g = lit 0) →
      ∀ x ∈ List.zipWith f (ts.map num) G, Bd x 42 := by
    intro f hf x hx
    rw [← List.map_uncurry_zip_eq_zipWith] at hx
    obtain ⟨⟨t, g⟩, h, rfl⟩ := List.mem_map.1 hx
    change Bd (f t g) 42
    rcases hf t g with e | e
    · rw [e]; exact hpred g (List.of_mem_zip h).2
    · rw [e]; exact bd_zero.mono (by norm_num)
  have hbefore := hsel (fun t g => jwhere (lt t (p.map num).t_peak) g (lit 0)) (fun t g => by
    by_cases h : JOps.lt t (p.map num).t_peak
    · exact .inl (if_pos h)
    · exact .inr (if_neg h))
  have hafter := hsel (fun t g => jwhere (lt t (p.map num).t_peak) (lit 0) g) (fun t g => by
    by_cases h : JOps.lt t (p.map num).t_peak
    · exact .inr (if_pos h)
    · exact .inl (if_neg h))
  obtain ⟨a1, a2, a3, a4⟩ := noq_bwd_bd hs ha sum hsum hp hd.lgt0_lo hd.lgt0_hi ts hd.times _ hbefore hd.le
    (by simp only [List.length_zipWith, List.length_map, hGlen, min_self]; exact hd.le) (by norm_num)
  have hsafter := Bd.sum (hsum _) (by norm_num)
    (by simp only [List.length_zipWith, List.length_map, hGlen, min_self]; exact hd.le) hafter
  obtain ⟨b1, b2, b3, b4⟩ := noq_bwd_bd hs ha sum hsum hp hd.lgt0_lo hd.lgt0_hi [p.t_peak]
    (fun t ht => by rw [List.mem_singleton.1 ht]; exact ⟨hp.tpeak_lo, hp.tpeak_hi⟩)
    [sum (List.zipWith (fun t g => jwhere (lt t (p.map num).t_peak) (lit 0) g) (ts.map num) G)]
    (fun g hg => by rw [List.mem_singleton.1 hg]; exact hsafter) (by norm_num) (by norm_num) (by norm_num)
  have c1 := (a1.mono (by norm_num)).add b1 (by norm_num)
  have c2 := (a2.mono (by norm_num)).add b2 (by norm_num)
  have c3 := (a3.mono (by norm_num)).add b3 (by norm_num)
  have c4 := (a4.mono (by norm_num)).add b4 (by norm_num)
  have hK : Bd (lit BOUNDING_K) 0 := Bd.lit 0 (by rw [BOUNDING_K]; norm_num [abs_le]) (by norm_num)
  have hz : Bd (lit (0.0 : ℝ)) 0 := Bd.lit 0 (by norm_num [abs_le]) (by norm_num)
  have harg := sub_ne_nan h3 hz (k := BOUNDING_K)
    (by rw [BOUNDING_K]; linarith [tenth_pos.1]) (by rw [BOUNDING_K, abs_of_pos (by norm_num)]; norm_num)
  have hten : Bd (lit MAH_PBOUNDS.early_index.2) 4 := Bd.lit 4 (by
    simp only [MAH_PBOUNDS]; norm_num [abs_le]) (by norm_num)
  have hlate : Bd (p.map num).late_index 4 := Bd.num (by
      rw [abs_of_nonneg (by have := hp.late_lo; linarith)]; have := hp.late_hi; norm_num; linarith)
  have c3' := c3.mul (hten.sub hlate (by norm_num)) (by norm_num)
  have c4' := (c4.mono (m := 96) (by norm_num)).add ((c3.sub (c3.mul (Bd.sigm hs harg) (by norm_num))
    (by norm_num)).mono (m := 96) (by norm_num)) (by norm_num)
  exact ⟨_, _, _, _, c1.mono (by norm_num), c2.mono (by norm_num), c3'.mono (by norm_num), c4'.mono (by norm_num), rfl⟩

/-- The argument of the logistic function in the bounded parameters is a number. -/
theorem bounded_arg [Libm] {u : F32} (hu : u.v ≠ nan) {b : ℝ × ℝ} (b1 : |b.1| ≤ 2 ^ (5 : ℕ))
    (b2 : |b.2| ≤ 2 ^ (5 : ℕ)) : (lit BOUNDING_K * (u - lit 0.5 * (lit b.1 + lit b.2)) : F32).v ≠ nan := by
  have h1 : Bd (lit b.1) 5 := Bd.lit 5 b1 (by norm_num)
  have h2 : Bd (lit b.2) 5 := Bd.lit 5 b2 (by norm_num)
  have h5 : Bd (lit 0.5) 0 := Bd.lit 0 (by norm_num [abs_le]) (by norm_num)
  exact sub_ne_nan hu (h5.mul (h1.add h2 (by norm_num)) (by norm_num)) (k := BOUNDING_K)
    (by rw [BOUNDING_K]; linarith [tenth_pos.1]) (by rw [BOUNDING_K, abs_of_pos (by norm_num)]; norm_num)

theorem early_arg [Libm] {u : F32} (hu : u.v ≠ nan) : (lit BOUNDING_K * (u - lit 0.0) : F32).v ≠ nan :=
  sub_ne_nan hu (Bd.lit 0 (by norm_num [abs_le]) (by norm_num)) (k := BOUNDING_K)
    (by rw [BOUNDING_K]; linarith [tenth_pos.1]) (by rw [BOUNDING_K, abs_of_pos (by norm_num)]; norm_num)

theorem bdK [Libm] : Bd (lit BOUNDING_K) 0 := Bd.lit 0 (by rw [BOUNDING_K]; norm_num [abs_le]) (by norm_num)

/-- C124. Whatever point the optimiser tries, as long as none of its numbers is NaN, the gradient of the loss in
single precision is finite: no component is infinite or NaN, in whatever order JAX adds up. -/
theorem C124_gradient_finite [Libm] (hs : Libm.Sane) (ha : Libm.Accurate) (sum : List F32 → F32)
    (hsum : ∀ l, SumOf l (sum l)) (u : VariedU F32) (utp : F32) (h1 : u.u_logm0.v ≠ nan)
    (h2 : u.u_logtc.v ≠ nan) (h3 : u.u_early_index.v ≠ nan) (h4 : u.u_late_index.v ≠ nan)
    (h5 : utp.v ≠ nan) (ts ms : List ℝ) (lgt0 : ℝ) (hd : GoodTarget ts ms lgt0) :
    ∃ a b c d : ℝ, loss_grad_rev sum u (lossData ts ms utp lgt0) = ⟨num a, num b, num c, num d⟩ := by
  obtain ⟨a, b, c, d, ha, hb, hc, hd, e⟩ := grad_parts hs ha sum hsum u utp h1 h2 h3 h4 h5 ts ms lgt0 hd
  obtain ⟨a', ea, -⟩ := bounded_bwd_bd hs h1 (b := MAH_PBOUNDS.logm0) ha
    (by simp only [MAH_PBOUNDS]; norm_num [abs_le]) (by simp only [MAH_PBOUNDS]; norm_num [abs_le]) (by norm_num)
  obtain ⟨b', eb, -⟩ := bounded_bwd_bd hs h2 (b := MAH_PBOUNDS.logtc) hb
    (by simp only [MAH_PBOUNDS]; norm_num [abs_le]) (by simp only [MAH_PBOUNDS]; norm_num [abs_le]) (by norm_num)
  obtain ⟨c', ec, -⟩ := logistic_bwd_bd hs (early_arg h3) hc bdK (by norm_num)
  obtain ⟨d', ed, -⟩ := bounded_bwd_bd hs h4 (b := MAH_PBOUNDS.late_index) hd
    (by simp only [MAH_PBOUNDS]; norm_num [abs_le]) (by simp only [MAH_PBOUNDS]; norm_num [abs_le]) (by norm_num)
  exact ⟨a', b', c', d', by rw [e, ea, eb, ec, ed]⟩

/-! ## Zeros -/

theorem lit_zero [Libm] : (lit (0 : ℝ) : F32) = num 0 := by
  rw [lit_fin (by norm_num), round_zero]; rfl

theorem zero_mul_bd {y : F32} {n : ℕ} (h : Bd y n) : num 0 * y = num 0 := by
  obtain ⟨r, rfl, -⟩ := h
  refine (mul_fin (a := 0) (b := r) (by rw [zero_mul, abs_zero]; positivity)).trans ?_
  rw [zero_mul, round_zero]; rfl

theorem mul_zero_bd {y : F32} {n : ℕ} (h : Bd y n) : y * num 0 = num 0 := by
  obtain ⟨r, rfl, -⟩ := h
  refine (mul_fin (a := r) (b := 0) (by rw [mul_zero, abs_zero]; positivity)).trans ?_
  rw [mul_zero, round_zero]; rfl

theorem zero_add_zero : num 0 + num 0 = num 0 := by
  refine (add_fin (a := 0) (b := 0) (by rw [add_zero, abs_zero]; positivity)).trans ?_
  rw [add_zero, round_zero]; rfl

theorem self_sub_self (r : ℝ) : num r - num r = num 0 := by
  refine (sub_fin (a := r) (b := r) (by rw [sub_self, abs_zero]; positivity)).trans ?_
  rw [sub_self, round_zero]; rfl

theorem sum_zero [Libm] {l : List F32} {a : F32} (h : SumOf l a) (hl : ∀ x ∈ l, x = num 0) : a = num 0 := by
  induction h with
  | nil => exact lit_zero
  | one x => exact hl x (by simp)
  | add _ _ hp iha ihb =>
    rw [iha fun x hx => hl x (hp.subset (by simp [hx])), ihb fun x hx => hl x (hp.subset (by simp [hx]))]
    exact zero_add_zero

theorem logistic_bwd_zero [Libm] (hs : Libm.Sane) {x : F32} {k : ℝ} {j : ℕ} (h : x.v ≠ nan)
    (hk : Bd (lit k) j) : num 0 * (lit 1 - sigm x) * sigm x * lit k = num 0 := by
  obtain ⟨s0, s1⟩ := logistic_bd hs h
  rw [zero_mul_bd s1, zero_mul_bd s0, zero_mul_bd hk]

theorem bounded_bwd_zero [Libm] (hs : Libm.Sane) {u : F32} (hu : u.v ≠ nan) {b : ℝ × ℝ}
    (b1 : |b.1| ≤ 2 ^ (5 : ℕ)) (b2 : |b.2| ≤ 2 ^ (5 : ℕ)) : bounded_bwd u b (num 0) = num 0 := by
  have h1 : Bd (lit b.1) 5 := Bd.lit 5 b1 (by norm_num)
  have h2 : Bd (lit b.2) 5 := Bd.lit 5 b2 (by norm_num)
  unfold bounded_bwd
  simp only
  rw [zero_mul_bd (h2.sub h1 (by norm_num))]
  exact logistic_bwd_zero hs (bounded_arg hu b1 b2) bdK

theorem noq_bwd_zero [Libm] (hs : Libm.Sane) (ha : Libm.Accurate) (sum : List F32 → F32)
    (hsum : ∀ l, SumOf l (sum l)) {p : MahParams ℝ} (hp : ClosedBox p) {lgt0 : ℝ} (hg0 : 0 ≤ lgt0)
    (hg1 : lgt0 ≤ 4 / 3) (ts : List ℝ) (hts : ∀ t ∈ ts, 0.05 ≤ t ∧ t ≤ 20) (gs : List F32)
    (hgs : ∀ g ∈ gs, g = num 0) :
    noq_bwd sum (p.map num) (num lgt0) (ts.map num) gs = ⟨num 0, num 0, num 0, num 0⟩ := by
  have hlg : Bd (num lgt0) 1 := Bd.num (by rw [abs_of_nonneg hg0]; norm_num; linarith)
  have htc : Bd (num p.logtc) 1 := Bd.num (by
    have := abs_le.2 ⟨hp.logtc_lo, hp.logtc_hi⟩; norm_num; linarith)
  have hK : Bd (lit MAH_K) 2 := Bd.lit 2 (by rw [MAH_K]; norm_num [abs_le]) (by norm_num)
  have hhd : Bd ((p.map num).late_index - (p.map num).early_index) 5 := by
    have h1 : Bd (num p.late_index) 4 := Bd.num (by
      rw [abs_of_nonneg (by have := hp.late_lo; linarith)]; have := hp.late_hi; norm_num; linarith)
    have h2 : Bd (num p.early_index) 4 := Bd.num (by
      rw [abs_of_nonneg (by have := hp.early_lo; linarith)]; have := hp.early_hi; norm_num; linarith)
    exact h1.sub h2 (by norm_num)
  have two : ∀ {β γ : Type} (f : β → γ → F32) (l : List β) (m : List γ), ∀ x ∈ List.zipWith f l m,
      ∃ a ∈ l, ∃ b ∈ m, f a b = x := by
    intro β γ f l m x hx
    rw [← List.map_uncurry_zip_eq_zipWith] at hx
    obtain ⟨⟨a, b⟩, h, rfl⟩ := List.mem_map.1 hx
    exact ⟨a, (List.of_mem_zip h).1, b, (List.of_mem_zip h).2, rfl⟩
  have hs' : ∀ s ∈ (ts.map num).map (fun t : F32 => sigm (lit MAH_K * (log10 t - (p.map num).logtc))), ∃ x : F32,
      x.v ≠ nan ∧ s = sigm x := by
    intro s hs
    rw [List.map_map] at hs
    obtain ⟨t, ht, rfl⟩ := List.mem_map.1 hs
    exact ⟨_, (hK.mul ((log10_bd ha (hts t ht).1 (hts t ht).2).sub htc (by norm_num)) (by norm_num)).ne_nan, rfl⟩
  have hidx : ∀ g ∈ List.zipWith (fun t g : F32 => g * (log10 t - num lgt0)) (ts.map num) gs, g = num 0 := by
    intro x hx
    rw [List.zipWith_map_left] at hx
    obtain ⟨t, ht, g, hg, rfl⟩ := two _ _ _ x hx
    rw [hgs g hg]
    exact zero_mul_bd ((log10_bd ha (hts t ht).1 (hts t ht).2).sub hlg (by norm_num))
  unfold noq_bwd
  simp only
  rw [sum_zero (hsum gs) hgs, sum_zero (hsum _) hidx,
    sum_zero (hsum (List.zipWith (fun g s => g * s) _ _)) (fun x hx => by
      obtain ⟨a, ha, b, hb, rfl⟩ := two _ _ _ x hx
      obtain ⟨y, hy, rfl⟩ := hs' b hb
      rw [hidx a ha]; exact zero_mul_bd (Bd.sigm hs hy)),
    sum_zero (hsum (List.zipWith (fun g s => g * ((p.map num).late_index - (p.map num).early_index) *
        (lit 1 - s) * s * lit MAH_K) _ _)) (fun x hx => by
      obtain ⟨a, ha, b, hb, rfl⟩ := two _ _ _ x hx
      obtain ⟨y, hy, rfl⟩ := hs' b hb
      rw [hidx a ha, zero_mul_bd hhd]; exact logistic_bwd_zero hs hy hK), lit_zero, self_sub_self]

/-- C124, exact fits. If the target is the history that the library itself computes in single precision from the
parameters tried, then the loss is exactly 0 and so is the whole gradient: the optimiser stays. -/
theorem C124_exact_fit_stationary [Libm] (hs : Libm.Sane) (ha : Libm.Accurate) (sum : List F32 → F32)
    (hsum : ∀ l, SumOf l (sum l)) (u : VariedU F32) (utp : F32) (h1 : u.u_logm0.v ≠ nan)
    (h2 : u.u_logtc.v ≠ nan) (h3 : u.u_early_index.v ≠ nan) (h4 : u.u_late_index.v ≠ nan)
    (h5 : utp.v ≠ nan) (ts ms : List ℝ) (lgt0 : ℝ) (hd : GoodTarget ts ms lgt0)
    (hex : (ts.map num).map (fun t => log_mah_kern_u_params
      ⟨u.u_logm0, u.u_logtc, u.u_early_index, u.u_late_index, utp⟩ t (num lgt0)) = ms.map num) :
    log_mah_loss_with sum u (lossData ts ms utp lgt0) = num 0 ∧
    loss_grad_rev sum u (lossData ts ms utp lgt0) = ⟨num 0, num 0, num 0, num 0⟩ := by
  have hdiff : ∀ (ms : List ℝ) (f : F32 → F32), (∀ r, f (num r - num r) = num 0) →
      ∀ x ∈ (List.zipWith (fun a b : F32 => a - b) (ms.map num) (ms.map num)).map f, x = num 0 := by
    intro ms f hf x hx
    rw [List.zipWith_map, List.zipWith_self, List.map_map] at hx
    obtain ⟨r, -, rfl⟩ := List.mem_map.1 hx
    exact hf r
  have hn : (1 : ℝ) ≤ ts.length := by exact_mod_cast List.length_pos_iff.2 hd.ne
  constructor
  · unfold log_mah_loss_with mse_with lossData
    simp only
    rw [hex, sum_zero (hsum _) (fun x hx => by
      rw [List.zipWith_map, List.zipWith_self] at hx
      obtain ⟨r, -, rfl⟩ := List.mem_map.1 hx
      rw [self_sub_self]; exact zero_mul_bd (n := 0) (Bd.num (by norm_num)))]
    have : (List.zipWith (fun p t : F32 => (p - t) * (p - t)) (ms.map num) (ms.map num)).length = ts.length := by
      simp [hd.len]
    rw [this, lit_nat hd.le, div_fin (by linarith) (by rw [zero_div, abs_zero]; positivity), zero_div, round_zero]
  · obtain ⟨p, e, hp, -⟩ := bounded_box hs ⟨u.u_logm0, u.u_logtc, u.u_early_index, u.u_late_index, utp⟩
      h1 h2 h3 h4 h5
    simp only [log_mah_kern_u_params, e] at hex
    have hg : Bd (lit 1 / lit (ts.length : ℝ)) 0 := by
      have l1 : (lit (1 : ℝ) : F32) = num 1 := by have := lit_nat (n := 1) (by norm_num); simpa using this
      have h1 : |1 / (ts.length : ℝ)| ≤ 2 ^ 0 := by
        rw [abs_of_nonneg (by positivity)]; simpa using (div_le_one (by linarith)).2 hn
      rw [lit_nat hd.le, l1, div_fin (by linarith) (h1.trans (by norm_num))]
      exact Bd.num (round_abs_le h1)
    unfold loss_grad_rev lossData
    simp only [e, hex]
    have hlen : (List.zipWith (fun a b : F32 => a - b) (ms.map num) (ms.map num)).length = ts.length := by
      simp [hd.len]
    rw [hlen]
    have hpred := hdiff ms (fun d => (lit 1 / lit (ts.length : ℝ) : F32) * d + (lit 1 / lit (ts.length : ℝ)) * d)
      (fun r => by rw [self_sub_self, mul_zero_bd hg, zero_add_zero])
    generalize (List.zipWith (fun a b : F32 => a - b) (ms.map num) (ms.map num)).map
      (fun d => (lit 1 / lit (ts.length : ℝ) : F32) * d + (lit 1 / lit (ts.length : ℝ)) * d) = G at hpred
    have hsel : ∀ (f : F32 → F32 → F32), (∀ t g, f t g = g ∨ f t g = lit 0) →
        ∀ x ∈ List.zipWith f (ts.map num) G, x = num 0 := by
      intro f hf x hx
      rw [← List.map_uncurry_zip_eq_zipWith] at hx
      obtain ⟨⟨t, g⟩, h, rfl⟩ := List.mem_map.1 hx
      change f t g = num 0
      rcases hf t g with e | e
      · rw [e]; exact hpred g (List.of_mem_zip h).2
      · rw [e]; exact lit_zero
    have hbefore := hsel (fun t g => jwhere (lt t (p.map num).t_peak) g (lit 0)) (fun t g => by
      by_cases h : JOps.lt t (p.map num).t_peak
      · exact .inl (if_pos h)
      · exact .inr (if_neg h))
    have hafter := hsel (fun t g => jwhere (lt t (p.map num).t_peak) (lit 0) g) (fun t g => by
      by_cases h : JOps.lt t (p.map num).t_peak
      · exact .inr (if_pos h)
      · exact .inl (if_neg h))
    have hb := noq_bwd_zero hs ha sum hsum hp hd.lgt0_lo hd.lgt0_hi [p.t_peak]
      (fun t ht => by rw [List.mem_singleton.1 ht]; exact ⟨hp.tpeak_lo, hp.tpeak_hi⟩) [num 0]
      (fun g hg => List.mem_singleton.1 hg)
    rw [noq_bwd_zero hs ha sum hsum hp hd.lgt0_lo hd.lgt0_hi ts hd.times _ hbefore, sum_zero (hsum _) hafter]
    have hb' : noq_bwd sum (p.map num) (num lgt0) [(p.map num).t_peak] [num 0] = ⟨num 0, num 0, num 0, num 0⟩ := hb
    rw [hb']
    have hten : Bd (lit MAH_PBOUNDS.early_index.2) 4 := Bd.lit 4 (by
      simp only [MAH_PBOUNDS]; norm_num [abs_le]) (by norm_num)
    have hlate : Bd (p.map num).late_index 4 := Bd.num (by
      rw [abs_of_nonneg (by have := hp.late_lo; linarith)]; have := hp.late_hi; norm_num; linarith)
    simp only
    rw [zero_add_zero, bounded_bwd_zero hs h1 (by simp only [MAH_PBOUNDS]; norm_num [abs_le])
        (by simp only [MAH_PBOUNDS]; norm_num [abs_le]),
      bounded_bwd_zero hs h2 (by simp only [MAH_PBOUNDS]; norm_num [abs_le])
        (by simp only [MAH_PBOUNDS]; norm_num [abs_le]), zero_mul_bd (hten.sub hlate (by norm_num)),
      logistic_bwd_zero hs (early_arg h3) bdK, zero_mul_bd (Bd.sigm hs (early_arg h3)), self_sub_self,
      zero_add_zero, bounded_bwd_zero hs h4 (by simp only [MAH_PBOUNDS]; norm_num [abs_le])
        (by simp only [MAH_PBOUNDS]; norm_num [abs_le])]

/-- From 20 on the logistic function is 1 and its derivative is lost. -/
theorem logistic_bwd_saturated [Libm] {x g : F32} {k : ℝ} {j n : ℕ} (hg : Bd g n) (hk : Bd (lit k) j)
    (h : sigm x = num 1) : g * (lit 1 - sigm x) * sigm x * lit k = num 0 := by
  have l1 : (lit (1 : ℝ) : F32) = num 1 := by have := lit_nat (n := 1) (by norm_num); simpa using this
  rw [h, l1, self_sub_self, mul_zero_bd hg, zero_mul_bd (n := 0) (Bd.num (by norm_num)), zero_mul_bd hk]

theorem arg_saturated [Libm] (hsat : ∀ x, 20 ≤ x → Libm.sg (fin x) = fin 1) {u : ℝ} (h1 : 220 ≤ u)
    (h2 : u ≤ 2 ^ (100 : ℕ)) {y : ℝ} (hy : |y| ≤ 10) :
    sigm (lit BOUNDING_K * (num u - num y)) = num 1 := by
  obtain ⟨y1, y2⟩ := abs_le.1 hy
  have t1 := tenth_pos.1
  have t2 := tenth_pos.2
  have hk : (lit BOUNDING_K : F32) = num (round 0.1) := by
    rw [lit_fin (by rw [BOUNDING_K, abs_of_pos (by norm_num)]; norm_num)]; rfl
  have e101 : (2 : ℝ) ^ (100 : ℕ) + 10 ≤ 2 ^ (101 : ℕ) := by norm_num
  have hd0 : |u - y| ≤ 2 ^ (101 : ℕ) := by
    rw [abs_of_nonneg (by linarith)]
    linarith
  have r200 : Rep (200 : ℝ) := by exact_mod_cast rep_nat 200 (by norm_num)
  have r20 : Rep (20 : ℝ) := by exact_mod_cast rep_nat 20 (by norm_num)
  have hd1 := round_abs_le hd0
  have hd2 : 200 ≤ round (u - y) := le_round (by linarith) r200
  have hsub : num u - num y = num (round (u - y)) := sub_fin (hd0.trans (pow_le127 (by norm_num)))
  rw [hk, hsub]
  generalize round (u - y) = d at hd1 hd2
  have hm1 : 20 ≤ round 0.1 * d := by nlinarith
  have hm2 : |round 0.1 * d| ≤ 2 ^ (127 : ℕ) := by
    rw [abs_mul, abs_of_pos (by linarith)]
    have : round 0.1 * |d| ≤ 1 * |d| := mul_le_mul_of_nonneg_right (by linarith) (abs_nonneg _)
    rw [one_mul] at this
    exact this.trans (hd1.trans (pow_le127 (by norm_num)))
  have hmul : num (round 0.1) * num d = num (round (round 0.1 * d)) := mul_fin hm2
  rw [hmul]
  exact congrArg F32.mk (hsat _ (le_round hm1 r20))

/-- C124, lost gradients. On a platform whose logistic function saturates, the gradient in single precision is
exactly 0 at every point whose four numbers lie between 220 and `2^100`, whatever the data and however large the
loss: a fit that gets there stays there. In exact arithmetic no derivative is lost in this way. -/
theorem C124_saturated [Libm] (hs : Libm.Sane) (ha : Libm.Accurate)
    (hsat : ∀ x, 20 ≤ x → Libm.sg (fin x) = fin 1) (sum : List F32 → F32)
    (hsum : ∀ l, SumOf l (sum l)) (u1 u2 u3 u4 : ℝ) (h1 : 220 ≤ u1 ∧ u1 ≤ 2 ^ (100 : ℕ))
    (h2 : 220 ≤ u2 ∧ u2 ≤ 2 ^ (100 : ℕ)) (h3 : 220 ≤ u3 ∧ u3 ≤ 2 ^ (100 : ℕ)) (h4 : 220 ≤ u4 ∧ u4 ≤ 2 ^ (100 : ℕ))
    (utp : F32) (h5 : utp.v ≠ nan) (ts ms : List ℝ) (lgt0 : ℝ) (hd : GoodTarget ts ms lgt0) :
    loss_grad_rev sum ⟨num u1, num u2, num u3, num u4⟩ (lossData ts ms utp lgt0) = ⟨num 0, num 0, num 0, num 0⟩ ∧
    ∀ (u g : ℝ) (b : ℝ × ℝ), b.1 < b.2 → g ≠ 0 → bounded_bwd u b g ≠ 0 := by
  refine ⟨?_, fun u g b hb hg => mul_ne_zero (mul_ne_zero (mul_ne_zero (mul_ne_zero hg (sub_pos.2 hb).ne')
    (sub_pos.2 (Real.sigmoid_lt_one _)).ne') (Real.sigmoid_pos _).ne') (by change (0.1 : ℝ) ≠ 0; norm_num)⟩
  obtain ⟨a, b, c, d, ba, bb, bc, bd, e⟩ := grad_parts hs ha sum hsum ⟨num u1, num u2, num u3, num u4⟩ utp
    (fun h => by cases h) (fun h => by cases h) (fun h => by cases h) (fun h => by cases h) h5 ts ms lgt0 hd
  rw [e]
  have key : ∀ (u : ℝ), 220 ≤ u ∧ u ≤ 2 ^ (100 : ℕ) → ∀ (bd : ℝ × ℝ) (g : F32), Bd g 102 → |bd.1| ≤ 1 →
      |bd.2| ≤ 17 → bounded_bwd (num u) bd g = num 0 := by
    intro u hu bd g hg b1 b2
    have e1 : (lit bd.1 : F32) = num (round bd.1) := lit_fin (b1.trans (by norm_num))
    have e2 : (lit bd.2 : F32) = num (round bd.2) := lit_fin (b2.trans (by norm_num))
    have r1 : |round bd.1| ≤ 1 := round_abs_le_rep rep_one b1
    have r2 : |round bd.2| ≤ 17 := round_abs_le_rep (by exact_mod_cast rep_nat 17 (by norm_num)) b2
    have r3 : |round bd.1 + round bd.2| ≤ 18 := (abs_add_le _ _).trans (by linarith)
    have r4 := round_abs_le_rep (by exact_mod_cast rep_nat 18 (by norm_num)) r3
    have r5 : Rep (0.5 : ℝ) := ⟨1, -1, by norm_num, by norm_num, by norm_num⟩
    have e5 : (lit (0.5 : ℝ) : F32) = num 0.5 := by rw [lit_fin (by norm_num [abs_le]), round_rep r5]; rfl
    have r6 : |0.5 * round (round bd.1 + round bd.2)| ≤ 9 := by
      rw [abs_mul, abs_of_pos (by norm_num : (0 : ℝ) < 0.5)]; linarith
    have r7 := round_abs_le_rep (by exact_mod_cast rep_nat 9 (by norm_num)) r6
    have hmid : (lit (0.5 : ℝ) : F32) * (lit bd.1 + lit bd.2) =
        num (round (0.5 * round (round bd.1 + round bd.2))) := by
      have hadd : num (round bd.1) + num (round bd.2) = num (round (round bd.1 + round bd.2)) :=
        add_fin (r3.trans (by norm_num))
      rw [e1, e2, e5, hadd]
      exact mul_fin (r6.trans (by norm_num))
    unfold bounded_bwd
    simp only
    rw [hmid]
    refine logistic_bwd_saturated (n := 108) (hg.mul (m := 6) ?_ (by norm_num)) bdK
      (arg_saturated hsat hu.1 hu.2 (r7.trans (by norm_num)))
    exact (Bd.lit 5 (b2.trans (by norm_num)) (by norm_num)).sub (Bd.lit 5 (b1.trans (by norm_num)) (by norm_num))
      (by norm_num)
  have z0 : (lit (0.0 : ℝ) : F32) = num 0 := by
    rw [lit_fin (by norm_num), show (0.0 : ℝ) = 0 by norm_num, round_zero]; rfl
  refine VariedU.ext ?_ ?_ ?_ ?_
  · exact key u1 h1 _ _ (ba.mono (by norm_num)) (by simp only [MAH_PBOUNDS]; norm_num [abs_le])
      (by simp only [MAH_PBOUNDS]; norm_num [abs_le])
  · exact key u2 h2 _ _ bb (by simp only [MAH_PBOUNDS]; norm_num [abs_le])
      (by simp only [MAH_PBOUNDS]; norm_num [abs_le])
  · simp only [z0]
    exact logistic_bwd_saturated bc bdK (arg_saturated hsat h3.1 h3.2 (by norm_num))
  · exact key u4 h4 _ _ (bd.mono (by norm_num)) (by simp only [MAH_PBOUNDS]; norm_num [abs_le])
      (by simp only [MAH_PBOUNDS]; norm_num [abs_le])

/-- The hypotheses of the theorems of C124 are met: by the correctly rounded platform, sums from left to right, a point
with a huge and two infinite numbers, and three masses. -/
example : ∃ (L : Libm) (sum : List F32 → F32) (u : VariedU F32) (utp : F32) (ts ms : List ℝ) (lgt0 : ℝ),
    @Libm.Sane L ∧ @Libm.Accurate L ∧ (∀ x, 20 ≤ x → @Libm.sg L (fin x) = fin 1) ∧ (∀ l, SumOf l (sum l)) ∧
    u.u_logm0.v ≠ nan ∧ u.u_logtc.v ≠ nan ∧ u.u_early_index.v ≠ nan ∧ u.u_late_index.v ≠ nan ∧ utp.v ≠ nan ∧
    u.u_logm0 = num (10 ^ 30) ∧ u.u_logtc = ⟨pinf⟩ ∧ u.u_early_index = ⟨ninf⟩ ∧ GoodTarget ts ms lgt0 ∧
    ts.length = 3 :=
  ⟨ideal, fun l => @List.foldl _ _ (· + ·) (@JOps.lit F32 (@F32.instJOpsOfLibm ideal) 0) l,
    ⟨num (10 ^ 30), ⟨pinf⟩, ⟨ninf⟩, num 0⟩, num 5, [1, 5, 13], [10, 11, 12], 1, ideal_sane, ideal_accurate,
    ideal_saturates, fun l => @sumOf_foldl _ _ (@F32.instJOpsOfLibm ideal) l, (fun h => by cases h), (fun h => by cases h),
    (fun h => by cases h), (fun h => by cases h), (fun h => by cases h), rfl, rfl, rfl, goodTarget_example, rfl⟩

/-- The hypotheses of `C124_exact_fit_stationary` are met by the history of every point. -/
example : ∃ (L : Libm) (u : VariedU F32) (utp : F32) (ts ms : List ℝ) (lgt0 : ℝ), u.u_logm0.v ≠ nan ∧
    u.u_logtc.v ≠ nan ∧ u.u_early_index.v ≠ nan ∧ u.u_late_index.v ≠ nan ∧ utp.v ≠ nan ∧ GoodTarget ts ms lgt0 ∧
    letI := L; (ts.map num).map (fun t => log_mah_kern_u_params
      ⟨u.u_logm0, u.u_logtc, u.u_early_index, u.u_late_index, utp⟩ t (num lgt0)) = ms.map num := by
  let _ := ideal
  obtain ⟨p, e, hp, -⟩ := bounded_box ideal_sane ⟨num 12, num 0, num 1, num 2, num 5⟩ (fun h => by cases h)
    (fun h => by cases h) (fun h => by cases h) (fun h => by cases h) (fun h => by cases h)
  have key : ∀ t : ℝ, 0.05 ≤ t → t ≤ 20 → ∃ y, log_mah_kern_u_params ⟨num 12, num 0, num 1, num 2, num 5⟩ (num t)
      (num 1) = num y ∧ |y| ≤ 2 ^ (40 : ℕ) := by
    intro t h1 h2
    obtain ⟨y, y1, y2⟩ := kern_near ideal_accurate hp h1 h2 (lgt0 := 1) (by norm_num) (by norm_num)
    refine ⟨y, ?_, (abs_of_near y2 (kern_abs_le hp h1 h2 (by norm_num) (by norm_num))).trans (by norm_num)⟩
    unfold log_mah_kern_u_params
    rw [e, y1]
  obtain ⟨a, a1, a2⟩ := key 1 (by norm_num) (by norm_num)
  obtain ⟨b, b1, b2⟩ := key 5 (by norm_num) (by norm_num)
  obtain ⟨c, c1, c2⟩ := key 13 (by norm_num) (by norm_num)
  refine ⟨ideal, ⟨num 12, num 0, num 1, num 2⟩, num 5, [1, 5, 13], [a, b, c], 1, (fun h => by cases h),
    (fun h => by cases h), (fun h => by cases h), (fun h => by cases h), (fun h => by cases h), ?_, ?_⟩
  · refine ⟨rfl, by simp, by norm_num, ?_, ?_, by norm_num, by norm_num⟩
    · simp only [List.mem_cons, List.not_mem_nil, or_false, forall_eq_or_imp, forall_eq]; norm_num
    · simp only [List.mem_cons, List.not_mem_nil, or_false, forall_eq_or_imp, forall_eq]
      exact ⟨a2, b2, c2⟩
  · simp only [List.map_cons, List.map_nil, a1, b1, c1]

end

end Diffmah.F32

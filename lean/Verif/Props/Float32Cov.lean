import Verif.Lemmas.Float32Cov
import Verif.Props.Float32Mean
import Verif.Props.PopKernels

/-!
# C128: the scatter of Monte Carlo haloes in single precision

The scatter of haloes around the mean is drawn with the Cholesky factor of a covariance matrix, which the population model
builds from standard deviations between 0.01 and 100 and from correlations up to 0.3. In single precision the matrix is not even
symmetric, and a factorisation of a matrix that is not positive definite yields NaN. Here it never does: its pivots stay away
from zero, and the product of the factor with its transpose is the matrix that was asked for, entry by entry and relative to
the standard deviations.
-/

namespace Diffmah.F32

set_option maxRecDepth 10000

open JOps XR JMinMax JFlow Pop TPeak PopParams MC

/-- The matrix of the six correlations, in the order of their names in the parameters. -/
def corr4 (r0 r1 r2 r3 r4 r5 : ℝ) : Fin 4 → Fin 4 → ℝ :=
  ![![1, r0, r1, r3], ![r0, 1, r2, r4], ![r1, r2, 1, r5], ![r3, r4, r5, 1]]

theorem lit_one' [Libm] : (lit 1 : F32) = num 1 := by
  have := round_rep (rep_nat 1 (by norm_num)); norm_num at this
  rw [lit_fin (by norm_num), this]; rfl

theorem lit_zero' [Libm] : (lit 0 : F32) = num 0 := by
  rw [lit_fin (by rw [abs_zero]; positivity), round_zero]; rfl

theorem whereZero_self [Libm] (r : ℝ) : whereZero (num r) (lit 0 : F32) (num r) = num r := by
  change jwhere ((num r).v = fin 0) (lit 0 : F32) (num r) = num r
  unfold jwhere
  split_ifs with h
  · rw [lit_zero']
    have : fin r = fin 0 := h
    rw [XR.fin.inj this]
  · rfl

theorem corr_entry_num [Libm] (r0 r1 r2 r3 r4 r5 : ℝ) (i j : Fin 4) :
    PopGrad.corr_entry [num 1, num 1, num 1, num 1, num r0, num r1, num r2, num r3, num r4, num r5] i j =
      num (corr4 r0 r1 r2 r3 r4 r5 i j) := by
  have hn : Utils.chol_ndim 10 = 4 := Utils.chol_ndim_triangular 4
  unfold PopGrad.corr_entry PopGrad.chol_entry
  simp only [List.length_cons, List.length_nil, zero_add, Nat.reduceAdd, hn]
  fin_cases i <;> fin_cases j <;> first | exact whereZero_self _ | rfl

set_option maxHeartbeats 1000000 in
/-- The covariance matrix, from the parameters. -/
theorem cov_unit [Libm] (ha : Libm.Accurate) {p : NT ℝ} (hp : p.map Prod.fst = FIELDS) (hb : Loose FULL.bounds p) {lgm : ℝ}
    (h0 : 0 ≤ lgm) (h20 : lgm ≤ 20) :
    ∃ (s : Fin 4 → ℝ) (ρ c : Fin 4 → Fin 4 → ℝ),
      PopGrad.get_diffmahpop_cov (p.mapv num) (num lgm) = .ok (fun i j => num (s i * s j * c i j)) ∧
      (∀ i q, (i, q) ∈ [((0 : Fin 4), "logm0"), (1, "logtc"), (2, "early"), (3, "late")] →
        ∃ ylo yhi x0, p.lookup ("std_u_" ++ q ++ "_ylo") = some ylo ∧ p.lookup ("std_u_" ++ q ++ "_yhi") = some yhi ∧
          p.lookup ("cov_lgm_x0_" ++ q) = some x0 ∧ |s i - stdStep ylo yhi x0 lgm| ≤ 2 ^ (-10 : ℤ)) ∧
      (∀ i j q, (i, j, q) ∈ [((1 : Fin 4), (0 : Fin 4), "rho_logtc_logm0"), (2, 0, "rho_early_logm0"),
          (2, 1, "rho_early_logtc"), (3, 0, "rho_late_logm0"), (3, 1, "rho_late_logtc"),
          (3, 2, "rho_late_early")] → p.lookup q = some (ρ i j)) ∧
      (∀ i, Std (s i)) ∧ (∀ i, ρ i i = 1) ∧ (∀ i j, ρ i j = ρ j i) ∧ (∀ i j, i ≠ j → |ρ i j| ≤ 0.30001) ∧
      ∀ i j, |c i j - ρ i j| ≤ 4 * ε := by
  have hb : Loose COV.bounds p := by
    simp only [Loose, FULL, NINE, catAll, List.map_cons, List.map_nil, List.flatten_cons, List.flatten_nil, List.mem_append,
      List.not_mem_nil, or_false, or_imp, forall_and] at hb
    exact hb.2.2.2.2.2.2.2.2
  have lk : ∀ {n v}, p.getattr n = .ok v → p.lookup n = some v := fun h => NT.getattr_eq_ok.1 h
  obtain ⟨a0, l0, e0, u0⟩ := lget hb "std_u_logm0_ylo" STD_BOUNDS (by simp [COV])
  obtain ⟨a1, l1, e1, u1⟩ := lget hb "std_u_logtc_ylo" STD_BOUNDS (by simp [COV])
  obtain ⟨a2, l2, e2, u2⟩ := lget hb "std_u_early_ylo" STD_BOUNDS (by simp [COV])
  obtain ⟨a3, l3, e3, u3⟩ := lget hb "std_u_late_ylo" STD_BOUNDS (by simp [COV])
  obtain ⟨b0, m0, f0, w0⟩ := lget hb "std_u_logm0_yhi" STD_BOUNDS (by simp [COV])
  obtain ⟨b1, m1, f1, w1⟩ := lget hb "std_u_logtc_yhi" STD_BOUNDS (by simp [COV])
  obtain ⟨b2, m2, f2, w2⟩ := lget hb "std_u_early_yhi" STD_BOUNDS (by simp [COV])
  obtain ⟨b3, m3, f3, w3⟩ := lget hb "std_u_late_yhi" STD_BOUNDS (by simp [COV])
  obtain ⟨c0, n0, g0, x0⟩ := lget hb "cov_lgm_x0_logm0" COV_X0_BOUNDS (by simp [COV])
  obtain ⟨c1, n1, g1, x1⟩ := lget hb "cov_lgm_x0_logtc" COV_X0_BOUNDS (by simp [COV])
  obtain ⟨c2, n2, g2, x2⟩ := lget hb "cov_lgm_x0_early" COV_X0_BOUNDS (by simp [COV])
  obtain ⟨c3, n3, g3, x3⟩ := lget hb "cov_lgm_x0_late" COV_X0_BOUNDS (by simp [COV])
  obtain ⟨r0, o0, t0, y0⟩ := lget hb "rho_logtc_logm0" RHO_BOUNDS (by simp [COV])
  obtain ⟨r1, o1, t1, y1⟩ := lget hb "rho_early_logm0" RHO_BOUNDS (by simp [COV])
  obtain ⟨r2, o2, t2, y2⟩ := lget hb "rho_early_logtc" RHO_BOUNDS (by simp [COV])
  obtain ⟨r3, o3, t3, y3⟩ := lget hb "rho_late_logm0" RHO_BOUNDS (by simp [COV])
  obtain ⟨r4, o4, t4, y4⟩ := lget hb "rho_late_logtc" RHO_BOUNDS (by simp [COV])
  obtain ⟨r5, o5, t5, y5⟩ := lget hb "rho_late_early" RHO_BOUNDS (by simp [COV])
  obtain ⟨s0, i0, j0, k0⟩ := std_near ha h0 h20 x0 u0 w0
  obtain ⟨s1, i1, j1, k1⟩ := std_near ha h0 h20 x1 u1 w1
  obtain ⟨s2, i2, j2, k2⟩ := std_near ha h0 h20 x2 u2 w2
  obtain ⟨s3, i3, j3, k3⟩ := std_near ha h0 h20 x3 u3 w3
  rw [stdStep_eq] at j0 j1 j2 j3
  have hrho : NT.getattrs (p.mapv num) ((p.mapv num).fields.filter is_rho) =
      .ok [num r0, num r1, num r2, num r3, num r4, num r5] := by
    rw [show (p.mapv num).fields = p.fields from NT.fields_mapv _ _, rho_names (Or.inr hp)]
    simp only [NT.getattrs_cons, NT.getattrs_nil, t0, t1, t2, t3, t4, t5, bind, Except.bind, pure, Except.pure]
  have hcp : get_cov_params (p.mapv num) (num lgm) =
      .ok ([num s0, num s1, num s2, num s3], [num r0, num r1, num r2, num r3, num r4, num r5]) := by
    unfold get_cov_params
    simp only [e0, e1, e2, e3, f0, f1, f2, f3, g0, g1, g2, g3, hrho, bind, Except.bind, pure, Except.pure, i0, i1, i2, i3]
  have hR : ∀ {r : ℝ}, RHO_BOUNDS.1 - 1 / 1000000 ≤ r ∧ r ≤ RHO_BOUNDS.2 + 1 / 1000000 → |r| ≤ 0.30001 := by
    intro r h
    simp only [RHO_BOUNDS] at h
    norm_num at h ⊢
    rw [abs_le]; constructor <;> linarith
  set s : Fin 4 → ℝ := ![s0, s1, s2, s3] with hs
  set ρ := corr4 r0 r1 r2 r3 r4 r5 with hρ
  have hS : ∀ i, Std (s i) := by intro i; fin_cases i <;> assumption
  have hd : ∀ i, ρ i i = 1 := by intro i; fin_cases i <;> rfl
  have ho : ∀ i j, i ≠ j → |ρ i j| ≤ 0.30001 := by
    intro i j hij
    fin_cases i <;> fin_cases j <;> first
      | exact absurd rfl hij | exact hR y0 | exact hR y1 | exact hR y2 | exact hR y3 | exact hR y4 | exact hR y5
  have h1 : ∀ i j, |ρ i j| ≤ 1 := by
    intro i j
    by_cases h : i = j
    · rw [h, hd, abs_one]
    · exact (ho i j h).trans (by norm_num)
  choose c hc hcρ using fun i j => entry_unit (hS i) (hS j) (h1 i j)
  refine ⟨s, ρ, c, ?_, ?_, ?_, hS, hd, ?_, ho, hcρ⟩
  · unfold PopGrad.get_diffmahpop_cov
    rw [hcp]
    have hx : List.replicate 4 (lit 1 : F32) ++ [num r0, num r1, num r2, num r3, num r4, num r5] =
        [num 1, num 1, num 1, num 1, num r0, num r1, num r2, num r3, num r4, num r5] := by rw [lit_one']; rfl
    change (if Utils.chol_ndim (List.replicate 4 (lit 1 : F32) ++ [num r0, num r1, num r2, num r3, num r4, num r5]).length = 4
      then Except.ok (fun (i j : Fin 4) => ([num s0, num s1, num s2, num s3]).getD i (lit 0) *
        PopGrad.corr_entry (List.replicate 4 (lit 1 : F32) ++ [num r0, num r1, num r2, num r3, num r4, num r5]) i j *
        ([num s0, num s1, num s2, num s3]).getD j (lit 0)) else _) = _
    have hn : Utils.chol_ndim [num 1, num 1, num 1, num 1, num r0, num r1, num r2, num r3, num r4, num r5].length = 4 :=
      Utils.chol_ndim_triangular 4
    rw [hx, if_pos hn]
    refine congrArg _ (funext fun i => funext fun j => ?_)
    rw [corr_entry_num, ← hρ, ← hc i j]
    fin_cases i <;> fin_cases j <;> rfl
  · intro i q hiq
    simp only [List.mem_cons, Prod.mk.injEq, List.not_mem_nil, or_false] at hiq
    rcases hiq with ⟨rfl, rfl⟩ | ⟨rfl, rfl⟩ | ⟨rfl, rfl⟩ | ⟨rfl, rfl⟩
    · exact ⟨a0, b0, c0, lk l0, lk m0, lk n0, j0⟩
    · exact ⟨a1, b1, c1, lk l1, lk m1, lk n1, j1⟩
    · exact ⟨a2, b2, c2, lk l2, lk m2, lk n2, j2⟩
    · exact ⟨a3, b3, c3, lk l3, lk m3, lk n3, j3⟩
  · intro i j q hijq
    simp only [List.mem_cons, Prod.mk.injEq, List.not_mem_nil, or_false] at hijq
    rcases hijq with ⟨rfl, rfl, rfl⟩ | ⟨rfl, rfl, rfl⟩ | ⟨rfl, rfl, rfl⟩ | ⟨rfl, rfl, rfl⟩ | ⟨rfl, rfl, rfl⟩ | ⟨rfl, rfl, rfl⟩
    · exact lk o0
    · exact lk o1
    · exact lk o2
    · exact lk o3
    · exact lk o4
    · exact lk o5
  · intro i j; fin_cases i <;> fin_cases j <;> rfl

/-- The Cholesky factor of the symmetrised covariance matrix. -/
theorem factor_unit [Libm] {s : Fin 4 → ℝ} {ρ c : Fin 4 → Fin 4 → ℝ} (hs : ∀ i, Std (s i)) (hd : ∀ i, ρ i i = 1)
    (hsym : ∀ i j, ρ i j = ρ j i) (ho : ∀ i j, i ≠ j → |ρ i j| ≤ 0.30001) (hc : ∀ i j, |c i j - ρ i j| ≤ 4 * ε) :
    ∃ l : Fin 4 → Fin 4 → ℝ, (∀ i j, cholesky (symmetrize fun i j => num (s i * s j * c i j)) i j = num (s i * l i j)) ∧
      (∀ i j, i < j → l i j = 0) ∧ (∀ i, 0.5 ≤ l i i) ∧ (∀ i j, |l i j| ≤ 1.01) ∧
      ∀ i j, |∑ k, l i k * l j k - ρ i j| ≤ 26 * ε := by
  have e0 := ε_pos
  have e1 := ε_le
  have hρ : ∀ i j, |ρ i j| ≤ 1 := by
    intro i j
    by_cases h : i = j
    · rw [h, hd, abs_one]
    · exact (ho i j h).trans (by norm_num)
  have hc1 : ∀ i j, |c i j| ≤ 1.2 := by
    intro i j
    have h1 := abs_sub_abs_le_abs_sub (c i j) (ρ i j)
    have h2 := hc i j
    have h3 := hρ i j
    norm_num
    linarith
  choose a ha ha' using fun i j => half_sum (hs i) (hs j) (hc1 i j) (hc1 j i)
  have haρ : ∀ i j, |a i j - ρ i j| ≤ 8 * ε := by
    intro i j
    have h1 := abs_le.1 (ha' i j)
    have h2 := abs_le.1 (hc i j)
    have h3 := abs_le.1 (hc j i)
    rw [← hsym i j] at h3
    rw [abs_le]; constructor <;> linarith [h1.1, h1.2, h2.1, h2.2, h3.1, h3.2]
  obtain ⟨l, g1, g2, g3, g4, g5⟩ := cholesky_unit (A := symmetrize fun i j => num (s i * s j * c i j)) (a := a) hs
    (fun i j => ha i j) (fun i => by have := haρ i i; rw [hd] at this; linarith)
    (fun i j h => by
      have h1 := abs_sub_abs_le_abs_sub (a i j) (ρ i j)
      have h2 := haρ i j
      have h3 := ho i j h
      norm_num at h3 ⊢
      linarith)
  have low : ∀ i j, j ≤ i → |∑ k, l i k * l j k - ρ i j| ≤ 26 * ε := by
    intro i j h
    have h1 := g5 i j h
    have h2 := haρ i j
    have : |∑ k, l i k * l j k - ρ i j| ≤ |∑ k, l i k * l j k - a i j| + |a i j - ρ i j| := abs_sub_le _ _ _
    linarith
  refine ⟨l, g1, g2, g3, g4, fun i j => ?_⟩
  rcases le_total j i with h | h
  · exact low i j h
  · have h1 := low j i h
    rw [hsym i j, Finset.sum_congr rfl fun k _ => mul_comm (l i k) (l j k)]
    exact h1

/-- C128. In single precision, for population parameters within their bounds (and outside by the rounding of the bounds) and
every mass between 1 and 10^20, the covariance matrix is computed without exception, infinity or NaN: with the standard
deviations `s`, each of which is the logistic step given by its own three parameters to within `2^-10` and stays above 1/128,
and the correlations `ρ` of the parameters, its entries are `ρ s s` to within `2^-22 s s`. Its Cholesky factor is a finite
lower triangular matrix with a positive diagonal, and multiplied with its transpose it is `ρ s s` to within `2^-19 s s`. -/
theorem C128_covariance [Libm] (ha : Libm.Accurate) (p : NT ℝ) (hp : p.map Prod.fst = FIELDS)
    (hb : ∀ b ∈ FULL.bounds, ∃ v, p.lookup b.1 = some v ∧ b.2.1 - 2 ^ (-20 : ℤ) ≤ v ∧ v ≤ b.2.2 + 2 ^ (-20 : ℤ))
    (lgm : ℝ) (h0 : 0 ≤ lgm) (h20 : lgm ≤ 20) :
    ∃ (C L ρ : Fin 4 → Fin 4 → ℝ) (s : Fin 4 → ℝ),
      PopGrad.get_diffmahpop_cov (p.mapv num) (num lgm) = .ok (fun i j => num (C i j)) ∧
      (cholesky (symmetrize fun i j => num (C i j)) = fun i j => num (L i j)) ∧
      (∀ i q, (i, q) ∈ [((0 : Fin 4), "logm0"), (1, "logtc"), (2, "early"), (3, "late")] →
        ∃ ylo yhi x0, p.lookup ("std_u_" ++ q ++ "_ylo") = some ylo ∧ p.lookup ("std_u_" ++ q ++ "_yhi") = some yhi ∧
          p.lookup ("cov_lgm_x0_" ++ q) = some x0 ∧ |s i - stdStep ylo yhi x0 lgm| ≤ 2 ^ (-10 : ℤ)) ∧
      (∀ i j q, (i, j, q) ∈ [((1 : Fin 4), (0 : Fin 4), "rho_logtc_logm0"), (2, 0, "rho_early_logm0"),
          (2, 1, "rho_early_logtc"), (3, 0, "rho_late_logm0"), (3, 1, "rho_late_logtc"),
          (3, 2, "rho_late_early")] → p.lookup q = some (ρ i j)) ∧
      (∀ i, ρ i i = 1 ∧ 1 / 128 ≤ s i ∧ s i ≤ 128) ∧ (∀ i j, ρ i j = ρ j i) ∧
      (∀ i j, |C i j - ρ i j * s i * s j| ≤ 2 ^ (-22 : ℤ) * (s i * s j)) ∧
      (∀ i j, i < j → L i j = 0) ∧ (∀ i, s i / 2 ≤ L i i) ∧
      ∀ i j, |∑ k, L i k * L j k - ρ i j * s i * s j| ≤ 2 ^ (-19 : ℤ) * (s i * s j) := by
  obtain ⟨s, ρ, c, hC, hs, hr, hS, hd, hsym, ho, hc⟩ := cov_unit ha hp hb h0 h20
  obtain ⟨l, g1, g2, g3, g4, g5⟩ := factor_unit hS hd hsym ho hc
  have key : ∀ i j {x y K : ℝ}, |x - y| ≤ K → |s i * s j * x - y * s i * s j| ≤ K * (s i * s j) := by
    intro i j x y K h
    have e : s i * s j * x - y * s i * s j = (x - y) * (s i * s j) := by ring
    rw [e, abs_mul, abs_of_pos (mul_pos (hS i).pos (hS j).pos)]
    exact mul_le_mul_of_nonneg_right h (mul_pos (hS i).pos (hS j).pos).le
  refine ⟨fun i j => s i * s j * c i j, fun i j => s i * l i j, ρ, s, hC, funext fun i => funext fun j => g1 i j, hs, hr,
    fun i => ⟨hd i, hS i⟩, hsym, fun i j => ?_, fun i j h => ?_, fun i => ?_, fun i j => ?_⟩
  · have e : (2 : ℝ) ^ (-22 : ℤ) = 4 * ε := by unfold ε; norm_num
    rw [e]; exact key i j (hc i j)
  · change s i * l i j = 0
    rw [g2 i j h, mul_zero]
  · have h1 := g3 i
    have h2 := (hS i).pos
    norm_num at h1
    change s i / 2 ≤ s i * l i i
    nlinarith
  · have e : (2 : ℝ) ^ (-19 : ℤ) = 32 * ε := by unfold ε; norm_num
    have e2 : ∑ k, s i * l i k * (s j * l j k) = s i * s j * ∑ k, l i k * l j k := by
      rw [Finset.mul_sum]; exact Finset.sum_congr rfl fun k _ => by ring
    change |∑ k, s i * l i k * (s j * l j k) - ρ i j * s i * s j| ≤ _
    rw [e, e2]
    exact key i j ((g5 i j).trans (mul_le_mul_of_nonneg_right (by norm_num) ε_pos.le))

/-- C128. A halo with a given peak time, from the means through the noise to the parameters, in single precision: whatever
normal numbers `z` the keys stand for, up to `2^64` in size, both haloes have parameters within their bounds, with
`late <= early`, both have the peak time asked for to within `2^-15`, and the early fraction is a probability. -/
theorem C128_monte_carlo [Libm] (hs : Libm.Sane) (ha : Libm.AccurateInverse) (p : NT ℝ) (hp : p.map Prod.fst = FIELDS)
    (hb : ∀ b ∈ FULL.bounds, ∃ v, p.lookup b.1 = some v ∧ b.2.1 - 2 ^ (-20 : ℤ) ≤ v ∧ v ≤ b.2.2 + 2 ^ (-20 : ℤ))
    (kind : Kind) (lgm t_obs tp : ℝ) (hm0 : 4.5 ≤ lgm) (hm1 : lgm ≤ 13.4) (ht0 : 0 ≤ t_obs) (ht1 : t_obs ≤ 15)
    (hp0 : 0.051 ≤ tp) (hp1 : tp ≤ 19.99) (E : Env F32) (z : Key → Fin 4 → ℝ) (hz : ∀ k i, |z k i| ≤ 2 ^ 64)
    (hE : ∀ k m c, E.mvn k m c = multivariate_normal (z k) m c) (key : Key) :
    ∃ (e l : MahParams ℝ) (f : ℝ),
      (mc_diffmah_params_single_t_peak E kind (p.mapv num) (num lgm) (num t_obs) key (num tp)).val? =
        some (e.map num, l.map num, num f) ∧
      (∀ h ∈ [e, l], (0 ≤ h.logm0 ∧ h.logm0 ≤ 17) ∧ (-1 ≤ h.logtc ∧ h.logtc ≤ 1) ∧ (0.1 < h.late_index ∧ h.late_index ≤ 5) ∧
        (h.late_index ≤ h.early_index ∧ h.early_index ≤ 10) ∧ (0.05 < h.t_peak ∧ h.t_peak ≤ 20) ∧
        |h.t_peak - tp| ≤ 2 ^ (-15 : ℤ)) ∧
      0.249 < f ∧ f < 0.751 := by
  norm_num at hm0 hm1
  obtain ⟨s, ρ, c, hC, -, -, hS, hd, hsym, ho, hc⟩ := cov_unit (lgm := lgm) ha.toAccurate hp hb (by linarith) (by linarith)
  obtain ⟨L, g1, -, -, g4, -⟩ := factor_unit hS hd hsym ho hc
  obtain ⟨e, l, f, hm, hh⟩ := C127_monte_carlo hs ha p hp hb kind lgm t_obs tp (by norm_num; exact hm0) (by norm_num; exact hm1)
    ht0 ht1 hp0 hp1
  obtain ⟨e', l', f', hm', -, -, -, -, hf⟩ := C127_mean_valid ha.toAccurate p hp hb kind lgm t_obs tp (by norm_num; exact hm0)
    (by norm_num; exact hm1) ht0 ht1 (by norm_num at hp0 ⊢; linarith) (by norm_num at hp1 ⊢; linarith)
  have hLb : ∀ i j, Bd (num (s i * L i j)) 8 := by
    intro i j
    refine Bd.num ?_
    have := abs_mul_le (x := s i) (X := 128) (by rw [abs_of_pos (hS i).pos]; exact (hS i).2) (g4 i j)
    norm_num at this ⊢
    linarith
  have row : ∀ k i, Bd (num (s i * L i 0) * lit (z k 0) + num (s i * L i 1) * lit (z k 1) + num (s i * L i 2) * lit (z k 2) +
      num (s i * L i 3) * lit (z k 3)) 75 := by
    intro k i
    have t : ∀ j, Bd (num (s i * L i j) * lit (z k j)) (8 + 64) := fun j =>
      (hLb i j).mul (Bd.lit 64 (hz k j) (by norm_num)) (by norm_num)
    exact (((t 0).add (t 1) (by norm_num)).add ((t 2).mono (by norm_num)) (by norm_num)).add ((t 3).mono (by norm_num))
      (by norm_num)
  have sc : ∀ (k : Key) (m : MahParams F32), m ∈ [e, l] → ∃ h : MahParams ℝ,
      PopGrad.scatter E k m (fun i j => num (s i * s j * c i j)) = .ok (h.map num, [k]) ∧
      ((0 ≤ h.logm0 ∧ h.logm0 ≤ 17) ∧ (-1 ≤ h.logtc ∧ h.logtc ≤ 1) ∧ (0.1 < h.late_index ∧ h.late_index ≤ 5) ∧
        (h.late_index ≤ h.early_index ∧ h.early_index ≤ 10) ∧ (0.05 < h.t_peak ∧ h.t_peak ≤ 20) ∧
        |h.t_peak - tp| ≤ 2 ^ (-15 : ℤ)) := by
    intro k m hmem
    obtain ⟨h, q1, q2, q3, q4, q5, q6, q7, -⟩ := (hh m hmem).2 _ _ _ _ (row k 0).ne_nan (row k 1).ne_nan (row k 2).ne_nan
      (row k 3).ne_nan
    refine ⟨h, ?_, q2, q3, q4, q5, q6, q7⟩
    rw [← q1]
    unfold PopGrad.scatter
    simp only [hE, multivariate_normal, g1]
    rfl
  obtain ⟨he, e1, e2⟩ := sc (Key.child key 2 0) e (by simp)
  obtain ⟨hl, l1, l2⟩ := sc (Key.child key 2 1) l (by simp)
  have hf' : f = num f' := by
    rw [hm'] at hm
    injection hm with hm
    injection hm with _ hm
    injection hm with _ hm
    exact hm.symm
  refine ⟨he, hl, f', ?_, ?_, hf⟩
  · unfold mc_diffmah_params_single_t_peak
    rw [hm, hC]
    simp only [RandM.lift, bind, RandM.bind, e1, l1, hf']
    rfl
  · simp only [List.forall_mem_cons, List.not_mem_nil, false_imp_iff, implies_true, and_true]
    exact ⟨e2, l2⟩

/-! ## The hypotheses can be met -/

example : ∃ L : Libm, @Libm.Sane L ∧ @Libm.Accurate L ∧ @Libm.AccurateInverse L ∧ ∃ p : NT ℝ, p.map Prod.fst = FIELDS ∧
    (∀ b ∈ FULL.bounds, ∃ v, p.lookup b.1 = some v ∧ b.2.1 - 2 ^ (-20 : ℤ) ≤ v ∧ v ≤ b.2.2 + 2 ^ (-20 : ℤ)) ∧
    (∃ lgm t_obs tp : ℝ, 4.5 ≤ lgm ∧ lgm ≤ 13.4 ∧ 0 ≤ t_obs ∧ t_obs ≤ 15 ∧ 0.051 ≤ tp ∧ tp ≤ 19.99) ∧
    ∃ (E : Env F32) (z : Key → Fin 4 → ℝ), (∀ k i, |z k i| ≤ 2 ^ 64) ∧ (∀ k i, z k i ≠ 0) ∧
      ∀ k m c, E.mvn k m c = (letI := L; multivariate_normal (z k) m c) := by
  obtain ⟨p, hp, hb⟩ := exists_allInBounds
  rw [allInBounds_iff] at hb
  let := ideal
  refine ⟨ideal, ideal_sane, ideal_accurate, ideal_accurateInverse, p, hp, fun b hm => ?_, ⟨12, 13.5, 10, by norm_num,
    by norm_num, by norm_num, by norm_num, by norm_num, by norm_num⟩, ⟨fun _ => 1 / 2,
    fun k m c => multivariate_normal (fun i => 1 - 3 * (i : ℝ)) m c, 0, fun x _ _ _ _ => x⟩, fun _ i => 1 - 3 * (i : ℝ), ?_, ?_,
    fun k m c => rfl⟩
  · obtain ⟨v, hv, h1, h2⟩ := hb b hm
    have := two_zpow_pos (-20)
    exact ⟨v, hv, by linarith, by linarith⟩
  · intro _ i; fin_cases i <;> norm_num
  · intro _ i; fin_cases i <;> norm_num

end Diffmah.F32

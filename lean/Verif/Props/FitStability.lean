import Verif.Props.MinPoints
import Mathlib.Analysis.Normed.Module.FiniteDimension
import Mathlib.Analysis.Calculus.FDeriv.Prod
import Mathlib.Analysis.Calculus.FDeriv.Mul
import Mathlib.Analysis.Calculus.Deriv.Comp
import Mathlib.Topology.Algebra.Order.Group

/-!
# C141: fits with small errors recover the parameters

The mass today and the masses at three other times determine the parameters (C140). Here this is made quantitative: the
error of the parameters is at most a constant times the error of the masses, with one constant for all parameters in the
box. So a fit to masses with errors of at most `d` dex that ends on the loss `x` has parameters within
`C (d + √(n x))` of the true ones.
-/

namespace Diffmah

open Set Filter Topology

/-- A map that takes a value once, with injective derivative there, is bounded below by the distance from that point, on
any compact set. -/
theorem bound_of_injective {E F : Type} [NormedAddCommGroup E] [NormedSpace ℝ E] [FiniteDimensional ℝ E]
    [NormedAddCommGroup F] [NormedSpace ℝ F] {f : E → F} {f' : E →L[ℝ] F} {w0 : E} (hc : Continuous f)
    (hd : HasFDerivAt f f' w0) (hinj : ∀ v, f' v = 0 → v = 0) (hu : ∀ w, f w = f w0 → w = w0) {K : Set E}
    (hK : IsCompact K) : ∃ C : ℝ, 0 ≤ C ∧ ∀ w ∈ K, ‖w - w0‖ ≤ C * ‖f w - f w0‖ := by
  obtain ⟨k, hk, hanti⟩ := (f' : E →ₗ[ℝ] F).exists_antilipschitzWith
    (LinearMap.ker_eq_bot'.2 fun v hv => hinj v hv)
  have hk' : (0 : ℝ) < k := hk
  have hlow : ∀ v, ‖v‖ ≤ k * ‖f' v‖ := by
    intro v
    have := hanti.le_mul_dist v 0
    simpa [dist_eq_norm] using this
  have hloc : ∀ᶠ w in 𝓝 w0, ‖w - w0‖ ≤ 2 * k * ‖f w - f w0‖ := by
    have ho := (hasFDerivAt_iff_isLittleO.1 hd).def (show (0 : ℝ) < 1 / (2 * k) by positivity)
    filter_upwards [ho] with w hw
    have h1 := hlow (w - w0)
    have h2 : ‖f' (w - w0)‖ ≤ ‖f w - f w0‖ + 1 / (2 * k) * ‖w - w0‖ := by
      have : f' (w - w0) = (f w - f w0) - (f w - f w0 - f' (w - w0)) := by abel
      rw [this]
      exact (norm_sub_le _ _).trans (by gcongr)
    have h3 : ‖w - w0‖ ≤ k * ‖f w - f w0‖ + ‖w - w0‖ / 2 := by
      refine h1.trans ((mul_le_mul_of_nonneg_left h2 hk'.le).trans (le_of_eq ?_))
      field_simp
    linarith
  obtain ⟨r, hr, hball⟩ := Metric.eventually_nhds_iff_ball.1 hloc
  have hK' : IsCompact (K \ Metric.ball w0 r) := hK.diff Metric.isOpen_ball
  rcases (K \ Metric.ball w0 r).eq_empty_or_nonempty with he | hne
  · refine ⟨2 * k, by positivity, fun w hw => hball w ?_⟩
    by_contra hb
    exact (he ▸ (⟨hw, hb⟩ : w ∈ K \ Metric.ball w0 r) : w ∈ (∅ : Set E))
  · obtain ⟨a, ha, hmin⟩ := hK'.exists_isMinOn hne (f := fun w => ‖f w - f w0‖) (by fun_prop)
    obtain ⟨b, hb, hmax⟩ := hK'.exists_isMaxOn hne (f := fun w => ‖w - w0‖) (by fun_prop)
    have hpos : 0 < ‖f a - f w0‖ := by
      rw [norm_pos_iff, sub_ne_zero]
      intro h
      refine ha.2 ?_
      rw [hu a h]; exact Metric.mem_ball_self hr
    refine ⟨max (2 * k) (‖b - w0‖ / ‖f a - f w0‖), le_max_of_le_left (by positivity), fun w hw => ?_⟩
    by_cases hwb : w ∈ Metric.ball w0 r
    · exact (hball w hwb).trans (mul_le_mul_of_nonneg_right (le_max_left _ _) (norm_nonneg _))
    · have h1 : ‖w - w0‖ ≤ ‖b - w0‖ := hmax ⟨hw, hwb⟩
      have h2 : ‖f a - f w0‖ ≤ ‖f w - f w0‖ := hmin ⟨hw, hwb⟩
      refine h1.trans (le_trans ?_ (mul_le_mul_of_nonneg_right (le_max_right _ _) (norm_nonneg _)))
      rw [div_mul_eq_mul_div, le_div_iff₀ hpos]
      gcongr

/-- The index at log-time `x` as a function of the transition and the two indices. -/
noncomputable def indexAt (x : ℝ) (w : ℝ × ℝ × ℝ) : ℝ :=
  w.2.1 + (w.2.2 - w.2.1) * Real.sigmoid (3.5 * (x - w.1))

theorem indexAt_continuous (x : ℝ) : Continuous (indexAt x) := by
  have h : Continuous fun w : ℝ × ℝ × ℝ => Real.sigmoid (3.5 * (x - w.1)) :=
    continuous_sigmoid.comp (by fun_prop)
  unfold indexAt
  fun_prop

theorem indexAt_deriv (x : ℝ) (w : ℝ × ℝ × ℝ) : ∃ L : ℝ × ℝ × ℝ →L[ℝ] ℝ, HasFDerivAt (indexAt x) L w ∧
    ∀ v, L v = 3.5 * (w.2.2 - w.2.1) * v.1 * (-1) * Real.sigmoid (3.5 * (x - w.1)) *
        (1 - Real.sigmoid (3.5 * (x - w.1)))
      + (v.2.2 - v.2.1) * Real.sigmoid (3.5 * (x - w.1)) + v.2.1 := by
  have h1 : HasFDerivAt (fun w : ℝ × ℝ × ℝ => w.1) (ContinuousLinearMap.fst ℝ ℝ (ℝ × ℝ)) w := hasFDerivAt_fst
  have h2 : HasFDerivAt (fun w : ℝ × ℝ × ℝ => w.2.1)
    ((ContinuousLinearMap.fst ℝ ℝ ℝ).comp (ContinuousLinearMap.snd ℝ ℝ (ℝ × ℝ))) w :=
    hasFDerivAt_fst.comp w hasFDerivAt_snd
  have h3 : HasFDerivAt (fun w : ℝ × ℝ × ℝ => w.2.2)
    ((ContinuousLinearMap.snd ℝ ℝ ℝ).comp (ContinuousLinearMap.snd ℝ ℝ (ℝ × ℝ))) w :=
    hasFDerivAt_snd.comp w hasFDerivAt_snd
  have hs := (Real.hasDerivAt_sigmoid (3.5 * (x - w.1))).comp_hasFDerivAt w ((h1.const_sub x).const_mul 3.5)
  refine ⟨_, h2.add ((h3.sub h2).mul hs), fun v => ?_⟩
  simp
  ring

/-- The errors of the index at three log-times bound those of the transition and the indices. -/
theorem index_stable {c e l x y z : ℝ} (hne : l ≠ e) (hxy : x ≠ y) (hxz : x ≠ z) (hyz : y ≠ z)
    {K : Set (ℝ × ℝ × ℝ)} (hK : IsCompact K) : ∃ C : ℝ, 0 ≤ C ∧ ∀ w ∈ K, ∀ η : ℝ,
      (∀ s ∈ ({x, y, z} : Set ℝ), |indexAt s w - indexAt s (c, e, l)| ≤ η) →
      |w.1 - c| ≤ C * η ∧ |w.2.1 - e| ≤ C * η ∧ |w.2.2 - l| ≤ C * η := by
  obtain ⟨Lx, hx, hx'⟩ := indexAt_deriv x (c, e, l)
  obtain ⟨Ly, hy, hy'⟩ := indexAt_deriv y (c, e, l)
  obtain ⟨Lz, hz, hz'⟩ := indexAt_deriv z (c, e, l)
  have hsne : ∀ {a b : ℝ}, a ≠ b → Real.sigmoid (3.5 * (a - c)) ≠ Real.sigmoid (3.5 * (b - c)) := by
    intro a b hab h
    have := Real.sigmoid_injective h
    exact hab (by linarith)
  obtain ⟨C, hC, h⟩ := bound_of_injective (f := fun w => (indexAt x w, indexAt y w, indexAt z w))
    (w0 := (c, e, l)) ((indexAt_continuous x).prodMk ((indexAt_continuous y).prodMk (indexAt_continuous z)))
    (hx.prodMk (hy.prodMk hz)) (by
      rintro ⟨a, b, d⟩ hv
      simp only [ContinuousLinearMap.prod_apply, Prod.mk_eq_zero, hx', hy', hz'] at hv
      obtain ⟨q1, q2, q3⟩ := hv
      obtain ⟨k1, k2, k3⟩ := quadratic_zero (a := 3.5 * (l - e) * a) (b := d - b - 3.5 * (l - e) * a) (c := b)
        (hsne hxy) (hsne hxz) (hsne hyz) (by linear_combination q1) (by linear_combination q2)
        (by linear_combination q3)
      have ha : a = 0 := (mul_eq_zero.1 k1).resolve_left (mul_ne_zero (by norm_num) (sub_ne_zero.2 hne))
      subst ha k3
      have : d = 0 := by linarith
      rw [this]; rfl) (by
      rintro ⟨c', e', l'⟩ hw
      simp only [Prod.mk.injEq] at hw
      obtain ⟨q1, q2, q3⟩ := hw
      obtain ⟨r1, r2, r3⟩ := index_three (c := c) (e := e) (l := l) (c' := c') (e' := e') (l' := l') hne hxy hxz hyz (by
        intro s hs
        simp only [mem_insert_iff, mem_singleton_iff] at hs
        rcases hs with rfl | rfl | rfl
        exacts [q1.symm, q2.symm, q3.symm])
      rw [r1, r2, r3]) hK
  refine ⟨C, hC, fun w hw η hη => ?_⟩
  have hn : ‖(indexAt x w, indexAt y w, indexAt z w) - (indexAt x (c, e, l), indexAt y (c, e, l), indexAt z (c, e, l))‖
      ≤ η := by
    simp only [Prod.mk_sub_mk, Prod.norm_mk, Real.norm_eq_abs]
    exact max_le (hη x (by simp)) (max_le (hη y (by simp)) (hη z (by simp)))
  have hb := (h w hw).trans (mul_le_mul_of_nonneg_left hn hC)
  obtain ⟨w1, w2, w3⟩ := w
  simp only [Prod.mk_sub_mk, Prod.norm_mk, Real.norm_eq_abs] at hb
  exact ⟨(le_max_left _ _).trans hb, ((le_max_left _ _).trans (le_max_right _ _)).trans hb,
    ((le_max_right _ _).trans (le_max_right _ _)).trans hb⟩

/-- **C141**, masses. For a halo with different indices that has not peaked before today, and any three or more other times
before its peak, there is a constant `C` such that every valid halo whose log-masses today and at those times are within
`ε` of its own has its parameters within `C ε` of its own. -/
theorem C141_masses (p : MahParams ℝ) (lgt0 : ℝ) (hne : p.late_index ≠ p.early_index)
    (h0p : (10 : ℝ) ^ lgt0 ≤ p.t_peak) (S : Finset ℝ) (hS : 3 ≤ S.card)
    (hpos : ∀ t ∈ S, 0 < t ∧ t ≠ 10 ^ lgt0) (hp : ∀ t ∈ S, t ≤ p.t_peak) :
    ∃ C : ℝ, 0 ≤ C ∧ ∀ q : MahParams ℝ, Spec.Valid q → (10 : ℝ) ^ lgt0 ≤ q.t_peak → (∀ t ∈ S, t ≤ q.t_peak) →
      ∀ ε : ℝ, |logmh_at_t_obs q ((10 : ℝ) ^ lgt0) lgt0 - logmh_at_t_obs p ((10 : ℝ) ^ lgt0) lgt0| ≤ ε →
        (∀ t ∈ S, |logmh_at_t_obs q t lgt0 - logmh_at_t_obs p t lgt0| ≤ ε) →
        |q.logm0 - p.logm0| ≤ C * ε ∧ |q.logtc - p.logtc| ≤ C * ε ∧ |q.early_index - p.early_index| ≤ C * ε ∧
          |q.late_index - p.late_index| ≤ C * ε := by
  obtain ⟨a, ha, b, hb, c, hc, hab, hac, hbc⟩ := Finset.two_lt_card.1 (show 2 < S.card by omega)
  have hinj : ∀ s ∈ S, ∀ t ∈ S, s ≠ t → Real.logb 10 s ≠ Real.logb 10 t := fun s hs t ht hst he =>
    hst (Real.logb_injOn_pos (by norm_num) (hpos s hs).1 (hpos t ht).1 he)
  obtain ⟨C, hC, h⟩ := index_stable (c := p.logtc) hne (hinj a ha b hb hab) (hinj a ha c hc hac) (hinj b hb c hc hbc)
    ((isCompact_Icc (a := (-1 : ℝ)) (b := 1)).prod ((isCompact_Icc (a := (0.1 : ℝ)) (b := 10)).prod
      (isCompact_Icc (a := (0.1 : ℝ)) (b := 5))))
  have hx : ∀ t ∈ S, 0 < |Real.logb 10 t - lgt0| := by
    intro t ht
    rw [abs_pos]
    intro hz
    refine (hpos t ht).2 ?_
    rw [← pow10_logb (hpos t ht).1, sub_eq_zero.1 hz]
  set D : ℝ := 2 / |Real.logb 10 a - lgt0| + 2 / |Real.logb 10 b - lgt0| + 2 / |Real.logb 10 c - lgt0| with hD
  have da : 0 ≤ 2 / |Real.logb 10 a - lgt0| := by positivity
  have db : 0 ≤ 2 / |Real.logb 10 b - lgt0| := by positivity
  have dc : 0 ≤ 2 / |Real.logb 10 c - lgt0| := by positivity
  refine ⟨1 + C * D, by positivity, fun q hv h0q hq ε he0 he => ?_⟩
  have hε : 0 ≤ ε := (abs_nonneg _).trans he0
  rw [C01_mass_today q lgt0 h0q, C01_mass_today p lgt0 h0p] at he0
  have key : ∀ t ∈ S, |indexAt (Real.logb 10 t) (q.logtc, q.early_index, q.late_index)
      - indexAt (Real.logb 10 t) (p.logtc, p.early_index, p.late_index)| ≤ 2 / |Real.logb 10 t - lgt0| * ε := by
    intro t ht
    have h1 := he t ht
    simp only [logmh_at_t_obs] at h1
    rw [log_mah_le (hp t ht), log_mah_le (hq t ht), noq_real, noq_real, plaw_real, plaw_real] at h1
    rw [div_mul_eq_mul_div, le_div_iff₀ (hx t ht), ← abs_mul]
    simp only [indexAt]
    rw [abs_le] at h1 he0 ⊢
    constructor <;> linarith
  have hK := h (q.logtc, q.early_index, q.late_index) ⟨⟨hv.logtc_lo.le, hv.logtc_hi.le⟩,
    ⟨hv.early_lo.le, hv.early_hi.le⟩, ⟨hv.late_lo.le, hv.late_hi.le⟩⟩ (D * ε) (by
    intro s hs
    simp only [mem_insert_iff, mem_singleton_iff] at hs
    rcases hs with rfl | rfl | rfl
    · exact (key a ha).trans (mul_le_mul_of_nonneg_right (by rw [hD]; linarith) hε)
    · exact (key b hb).trans (mul_le_mul_of_nonneg_right (by rw [hD]; linarith) hε)
    · exact (key c hc).trans (mul_le_mul_of_nonneg_right (by rw [hD]; linarith) hε))
  have e1 : C * (D * ε) ≤ (1 + C * D) * ε := by nlinarith
  have e2 : ε ≤ (1 + C * D) * ε := by
    have : 0 ≤ C * D * ε := by positivity
    nlinarith
  exact ⟨he0.trans e2, hK.1.trans e1, hK.2.1.trans e1, hK.2.2.trans e1⟩

/-- The default halo and three times before today meet the hypotheses, and so does the default halo as its neighbour. -/
example : ∃ S : Finset ℝ, 3 ≤ S.card ∧ (∀ t ∈ S, 0 < t ∧ t ≠ 10 ^ Real.logb 10 12) ∧
    (∀ t ∈ S, t ≤ DEFAULT_MAH_PARAMS.t_peak) ∧ (10 : ℝ) ^ Real.logb 10 12 ≤ DEFAULT_MAH_PARAMS.t_peak ∧
    DEFAULT_MAH_PARAMS.late_index ≠ DEFAULT_MAH_PARAMS.early_index ∧ Spec.Valid DEFAULT_MAH_PARAMS := by
  have h12 : (10 : ℝ) ^ Real.logb 10 12 = 12 := pow10_logb (by norm_num)
  have htp : DEFAULT_MAH_PARAMS.t_peak = 14 := by norm_num [DEFAULT_MAH_PARAMS]
  refine ⟨{3, 6, 9}, by norm_num, ?_, ?_, by rw [h12, htp]; norm_num, default_valid.late_lt_early.ne, default_valid⟩
  · intro t ht
    simp only [Finset.mem_insert, Finset.mem_singleton] at ht
    rcases ht with rfl | rfl | rfl <;> rw [h12] <;> norm_num
  · intro t ht
    simp only [Finset.mem_insert, Finset.mem_singleton] at ht
    rcases ht with rfl | rfl | rfl <;> rw [htp] <;> norm_num

end Diffmah

namespace Diffmah.Fit

open XR hiding log10 pow10 ln sigm max lt le add sub mul div neg
open JOps Spec

theorem exists_greatest {l : List (ℝ × ℝ)} {k : ℕ} (hk : k < l.length) :
    ∃ y, IsGreatest {z | ∃ j ≤ k, ∃ q', l[j]? = some q' ∧ z = q'.2} y := by
  have hfin : {z | ∃ j ≤ k, ∃ q' : ℝ × ℝ, l[j]? = some q' ∧ z = q'.2}.Finite := by
    refine (List.finite_toSet (l.map Prod.snd)).subset ?_
    rintro z ⟨j, -, q', h1, rfl⟩
    exact List.mem_map.2 ⟨q', List.mem_of_getElem? h1, rfl⟩
  obtain ⟨y, hy, hmax⟩ := Set.exists_max_image _ id hfin ⟨l[k].2, k, le_rfl, l[k], List.getElem?_eq_getElem hk, rfl⟩
  exact ⟨y, hy, fun z hz => hmax z hz⟩

/-- **C141**, fits. For a valid halo that has not peaked before today (`tl`), and any three or more earlier times, there
is a constant `C` with the following property. Simulate masses on any increasing times that include those, with errors
of at most `d` dex, and fit them with any optimisers and any cuts that keep those times and today. If the fit returns
valid parameters with a peak time not before today and the loss `x`, then they are within `C (√(n x) + d)` of those of
the halo, for `n` simulated times. -/
theorem C141_fit (p : MahParams ℝ) (hp : Spec.Valid p) (tl : ℝ) (h9 : 9 ≤ tl) (hpeak : tl ≤ p.t_peak) (Q : Finset ℝ)
    (hQ : 3 ≤ Q.card) (hQt : ∀ t ∈ Q, 0 < t ∧ t < tl) :
    ∃ C : ℝ, 0 ≤ C ∧ ∀ {S : Type} (lbfgs : (PVec → XR × PVec) → PVec → LbfgsResult) (adam : ℝ → AdamOpt S)
      (f4 : XR → XR) (grad : LossData XR → PVec → PVec) (nstep n_warmup : ℕ) (tp : Option XR) (force : Bool)
      (ts μ : List ℝ) (μl dcut tmin d x : ℝ) (q : MahParams ℝ) (r : FitResult), 1 ≤ nstep →
      (∀ lg q, (lbfgs lg q).func = (lg (lbfgs lg q).x).1) → (∀ s, SinglePrecision (adam s) f4) →
      diffmah_fitter lbfgs adam f4 grad (ts.map fin) ((μ.map fun y => (10 : ℝ) ^ y).map fin) ninf (fin dcut) (fin tmin)
        nstep n_warmup tp force = .ok r → r.skip_fit = false →
      (∀ u s, get_loss_data f4 (ts.map fin) ((μ.map fun y => (10 : ℝ) ^ y).map fin) ninf (fin dcut) (fin tmin) 3 tp
        = .ok (u, r.loss_data, s) → u.map f4 = u ∧ FiniteAt (fit_lg grad r.loss_data) u) →
      0 < tmin → ts.Pairwise (· < ·) → ts.getLast? = some tl → μ.getLast? = some μl →
      (∀ (i : ℕ) (t y : ℝ), ts[i]? = some t → μ[i]? = some y → |y - logmh_at_t_obs p t (Real.logb 10 tl)| ≤ d) →
      (∀ t, t = tl ∨ t ∈ Q → tmin ≤ t ∧ ∃ (i : ℕ) (y : ℝ), ts[i]? = some t ∧ μ[i]? = some y ∧ μl - dcut < y) →
      r.p_best = q.map fin → Spec.Valid q → tl ≤ q.t_peak → r.loss_best = fin x →
      |q.logm0 - p.logm0| ≤ C * (√(ts.length * x) + d) ∧ |q.logtc - p.logtc| ≤ C * (√(ts.length * x) + d) ∧
        |q.early_index - p.early_index| ≤ C * (√(ts.length * x) + d) ∧
        |q.late_index - p.late_index| ≤ C * (√(ts.length * x) + d) := by
  have htl0 : 0 < tl := by linarith
  have h10 := pow10_logb htl0
  obtain ⟨C, hC, hmass⟩ := C141_masses p (Real.logb 10 tl) hp.late_lt_early.ne (by rw [h10]; exact hpeak) Q hQ
    (fun t ht => ⟨(hQt t ht).1, by rw [h10]; exact (hQt t ht).2.ne⟩) (fun t ht => (hQt t ht).2.le.trans hpeak)
  refine ⟨C, hC, ?_⟩
  intro S lbfgs adam f4 grad nstep n_warmup tp force ts μ μl dcut tmin d x q r hn hbfgs ho h hs hstart htmin hsort htl
    hμl hd hsel hq hv hqt hx
  obtain ⟨hlen, -, -⟩ := fitter_ok _ _ _ _ _ _ _ _ _ _ _ _ _ r h
  have hlen : μ.length = ts.length := by simpa using hlen
  obtain ⟨ml, hml, hA, -⟩ := C135_fit lbfgs adam f4 grad ninf nstep n_warmup tp force q ts _ tl dcut tmin x hn hbfgs ho r
    h hs hstart htmin (floor := 0) rfl htl h9 hq hv hx
  have hml' : ml = (10 : ℝ) ^ μl := by
    rw [List.getLast?_map, hμl] at hml; exact (Option.some.inj hml).symm
  have hμ : (μ.map fun y => (10 : ℝ) ^ y).map (flooredLog 0) = μ := by
    rw [List.map_map]
    conv_rhs => rw [← List.map_id μ]
    exact List.map_congr_left fun y _ => flooredLog_zero_pow y
  rw [hμ, hml', flooredLog_zero_pow] at hA
  set sel := insideCuts μl dcut tmin ninf (ts.zip μ) with hseld
  have hzs : (ts.zip μ).Pairwise fun a b => a.1 < b.1 := by
    rw [← List.pairwise_map (f := Prod.fst) (R := (· < ·)), List.map_fst_zip hlen.ge]
    exact hsort
  have hss : sel.Pairwise fun a b => a.1 < b.1 := hzs.sublist List.filter_sublist
  have hmem : ∀ a ∈ sel, 0 < a.1 ∧ |a.2 - logmh_at_t_obs p a.1 (Real.logb 10 tl)| ≤ d := by
    intro a ha
    refine ⟨lt_of_lt_of_le htmin (mem_insideCuts_t _ _ _ ha), ?_⟩
    obtain ⟨i, hi⟩ := List.mem_iff_getElem?.1 (List.mem_filter.1 ha).1
    obtain ⟨h1, h2⟩ := List.getElem?_zip_eq_some.1 hi
    exact hd i _ _ h1 h2
  have hmono := C03_never_decreases p hp.toInBox hp.late_lt_early.le (Real.logb 10 tl) (by rw [h10]; exact h9)
  have hle : √(sel.length * x) ≤ √(ts.length * x) := by
    have hl : (sel.length : ℝ) ≤ ts.length := by
      rw [Nat.cast_le]
      refine (List.length_filter_le _ _).trans ?_
      rw [List.length_zip]; exact min_le_left _ _
    rcases le_total 0 x with h0 | h0
    · exact Real.sqrt_le_sqrt (mul_le_mul_of_nonneg_right hl h0)
    · rw [Real.sqrt_eq_zero_of_nonpos (mul_nonpos_of_nonneg_of_nonpos (Nat.cast_nonneg _) h0)]
      exact Real.sqrt_nonneg _
  have key : ∀ t, t = tl ∨ t ∈ Q → |logmh_at_t_obs q t (Real.logb 10 tl) - logmh_at_t_obs p t (Real.logb 10 tl)|
      ≤ √(ts.length * x) + d := by
    intro t ht
    obtain ⟨h1, i, y, h2, h3, h4⟩ := hsel t ht
    have hin : (t, y) ∈ sel := by
      refine List.mem_filter.2 ⟨List.mem_of_getElem? (List.getElem?_zip_eq_some.2 ⟨h2, h3⟩), ?_⟩
      simp only [decide_eq_true_eq]
      exact ⟨h4, trivial, h1⟩
    obtain ⟨k, hk⟩ := List.mem_iff_getElem?.1 hin
    have hkl := (List.getElem?_eq_some_iff.1 hk).1
    obtain ⟨z, hz⟩ := exists_greatest hkl
    have e1 := (hA k _ z hk hz).trans hle
    have e2 : logmh_at_t_obs p t (Real.logb 10 tl) - d ≤ z := by
      have a1 := hz.2 ⟨k, le_rfl, _, hk, rfl⟩
      have a2 := abs_le.1 (hmem _ hin).2
      simp only at a1 a2
      linarith
    have e3 : z ≤ logmh_at_t_obs p t (Real.logb 10 tl) + d := by
      obtain ⟨j, hj, b, hb, rfl⟩ := hz.1
      have hjl := (List.getElem?_eq_some_iff.1 hb).1
      have a2 := hmem _ (List.mem_of_getElem? hb)
      have a3 := abs_le.1 a2.2
      have hbt : b.1 ≤ t := by
        rcases hj.lt_or_eq with h5 | rfl
        · have := List.pairwise_iff_getElem.1 hss j k hjl hkl h5
          rw [(List.getElem?_eq_some_iff.1 hb).2, (List.getElem?_eq_some_iff.1 hk).2] at this
          exact this.le
        · rw [hk] at hb; cases hb; exact le_rfl
      have := hmono (a := b.1) (b := t) a2.1 (lt_of_lt_of_le htmin h1) hbt
      linarith
    simp only at e1
    rw [abs_le] at e1 ⊢
    constructor <;> linarith
  refine hmass q hv (by rw [h10]; exact hqt) (fun t ht => (hQt t ht).2.le.trans hqt) _ ?_ (fun t ht => key t (.inr ht))
  rw [h10]
  exact key tl (.inl rfl)

/-- The default halo simulated without errors at 3, 6, 9 and 12 Gyr and fitted by going to the origin (`honest_run`)
meets every hypothesis with `d = 0` and a positive loss, so the theorem bounds the distance of the origin from the
default parameters. -/
example : ∃ (C x : ℝ) (q : MahParams ℝ), 0 ≤ C ∧ 0 < x ∧ Spec.Valid q ∧ q.t_peak = 12 ∧
    |q.logtc - (DEFAULT_MAH_PARAMS : MahParams ℝ).logtc| ≤ C * (√(4 * x) + 0) := by
  have h12 : (10 : ℝ) ^ Real.logb 10 12 = 12 := pow10_logb (by norm_num)
  have htp : DEFAULT_MAH_PARAMS.t_peak = 14 := by norm_num [DEFAULT_MAH_PARAMS]
  obtain ⟨C, hC, hfit⟩ := C141_fit DEFAULT_MAH_PARAMS default_valid 12 (by norm_num) (by rw [htp]; norm_num) {3, 6, 9}
    (by norm_num) (by
      intro t ht
      simp only [Finset.mem_insert, Finset.mem_singleton] at ht
      rcases ht with rfl | rfl | rfl <;> norm_num)
  obtain ⟨r, q, x, h1, h2, h3, h4, h5, h6, h7, h8, h9, h10⟩ := honest_run
  have hin : inputMass DEFAULT_MAH_PARAMS [3, 6, 9, 12] 12
      = ([3, 6, 9, 12].map (inputLog DEFAULT_MAH_PARAMS 12)).map fun y => (10 : ℝ) ^ y := by
    rw [List.map_map]; rfl
  have hinc := C03_strictly_increasing_until_peak DEFAULT_MAH_PARAMS default_valid.toInBox
    default_valid.late_lt_early.le (Real.logb 10 12) (by rw [h12]; norm_num)
  have hge : ∀ t : ℝ, 3 ≤ t → t ≤ 12 →
      inputLog DEFAULT_MAH_PARAMS 12 12 - 2.5 < inputLog DEFAULT_MAH_PARAMS 12 t := by
    intro t ht3 ht12
    refine default_cut.trans_le ?_
    exact hinc.monotoneOn (by rw [htp]; constructor <;> norm_num) (by rw [htp]; constructor <;> linarith) ht3
  rw [hin] at h3 h5
  have := hfit honestLbfgs gdOpt id (fun _ _ => []) 200 1 none false [3, 6, 9, 12]
    ([3, 6, 9, 12].map (inputLog DEFAULT_MAH_PARAMS 12)) (inputLog DEFAULT_MAH_PARAMS 12 12) 2.5 1 0 x q r (by norm_num)
    h1 h2 h3 h4 h5 (by norm_num) (by norm_num) rfl rfl (by
      intro i t y hi hy
      rw [List.getElem?_map, hi] at hy
      cases hy
      simp [inputLog]) (by
      intro t ht
      have hm : t ∈ ([3, 6, 9, 12] : List ℝ) := by
        simp only [Finset.mem_insert, Finset.mem_singleton] at ht
        simp only [List.mem_cons, List.not_mem_nil, or_false]
        tauto
      have hb : 3 ≤ t ∧ t ≤ 12 := by
        simp only [List.mem_cons, List.not_mem_nil, or_false] at hm
        rcases hm with rfl | rfl | rfl | rfl <;> norm_num
      obtain ⟨i, hi⟩ := List.mem_iff_getElem?.1 hm
      exact ⟨by linarith, i, inputLog DEFAULT_MAH_PARAMS 12 t, hi, by rw [List.getElem?_map, hi]; rfl, hge t hb.1 hb.2⟩)
    h6 h7 h10.ge h8
  refine ⟨C, x, q, hC, h9, h7, h10, ?_⟩
  have e := this.2.1
  simpa using e

end Diffmah.Fit

import Verif.Props.PopGrad
import Verif.Props.Normal

/-!
# Gradients through the normal draws (C101, C102)

With the normal algorithms of Model/Normal.lean nothing has to be assumed about the derivative rules of JAX
(C101), and the error that a vanishing correlation makes (C102) can be followed into the draws.
-/

set_option maxRecDepth 10000

namespace Diffmah

namespace PopGrad

open JOps JMinMax JFlow Pop TPeak PopParams MC

/-- C101, the derivative rules. The theorems of C101 assume derivative rules for `jran.multivariate_normal` and
`truncnorm.cdf` that are right. With the algorithms that JAX documents there is nothing to assume: for all uniform
and normal numbers, running the algorithms on dual numbers differentiates them. -/
theorem C101_normal_rules (eps : ℝ) (u : Key → ℝ) (us : Key → ℕ → List ℝ) (z : Key → Fin 4 → ℝ) :
    (Env.real (Ext.normal eps) (Rng.normal u us z)).Differentiates (Env.normalDual eps u z) :=
  normal_differentiates eps u us z

/-- Its use: the gradient of the loss of the satellites, of the normal draws with any numbers that meet no tie. -/
example (eps : ℝ) (u : Key → ℝ) (us : Key → ℕ → List ℝ) (z : Key → Fin 4 → ℝ) (p : NT ℝ)
    (bins : List PopLoss.Bin) (k : Key) (lgt0 l : ℝ)
    (hl : (PopLoss.loss_mah_moments_multibin (Ext.normal eps) (Rng.normal u us z) .sats p bins k lgt0).val? = some l)
    (hn : LossNoTies (Ext.normal eps) (Rng.normal u us z) .sats p bins k lgt0) :
    ∃ g, loss_and_grads_sats (Ext.normal eps) (Rng.normal u us z) (Env.normalDual eps u z) p bins k lgt0 = .ok (l, g) ∧
      IsGradient (fun p => PopLoss.loss_mah_moments_multibin (Ext.normal eps) (Rng.normal u us z) .sats p bins k lgt0)
        p g :=
  C101_sats (C101_normal_rules eps u us z) p bins k lgt0 l hl hn

/-- Violation of C102, in the draws: whenever a correlation is exactly zero, the automatic derivative with
respect to it of each parameter of a halo is half the derivative, for all means and normal numbers. For some
normal numbers the derivative is not zero. -/
theorem C102_draws_half (p : NT ℝ) (hp : p.map Prod.fst = FIELDS) (hb : Spec.Bounded COV.bounds p)
    (lgm : ℝ) (i j : Fin 4) (q : String) (hq : (i, j, q) ∈ RHO_AT) (hz : p.lookup q = some 0) (n : ℕ)
    (hn : p.fields[n]? = some q) :
    ∃ (CD : Fin 4 → Fin 4 → Dual) (C : ℝ → Matrix (Fin 4) (Fin 4) ℝ),
      get_diffmahpop_cov (seed p n) (Dual.const lgm) = .ok CD ∧
      (∀ y, Pop.get_diffmahpop_cov (setAt p n y) lgm = .ok (C y)) ∧
      ∃ s : (Fin 4 → ℝ) → ℕ → ℝ,
        (∀ (z : Fin 4 → ℝ) (a b c d : ℝ) (m : ℕ), m < 4 →
          HasDerivAt (fun y => (multivariate_normal z [a, b, c, d] (C y)).getD m 0) (s z m) 0 ∧
          ((multivariate_normal z [Dual.const a, Dual.const b, Dual.const c, Dual.const d] CD).getD m
            (Dual.const 0)).d = s z m / 2) ∧
        ∃ z, ∃ m < 4, s z m ≠ 0 := by
  obtain ⟨C0, σ, h0, hsym0, hpd0, h4, h5, h6⟩ := C51_covariance p (Or.inr hp) hb lgm
  obtain ⟨CD, C, h1, h2, hv, h3⟩ := cov_tri h0 n
  obtain ⟨s, hs, hlin⟩ := cov_linear p hp hb lgm n i j q hq hn
  have hpos : ∀ i, 0 < σ i := fun i => by have := (h4 i).1; norm_num at this; linarith
  have hnd : p.fields.Nodup := by rw [NT.fields, hp]; exact C50_no_collision.1
  have hx : p.values.getD n 0 = 0 := by
    have hlt : n < p.length := by
      have := (List.getElem?_eq_some_iff.1 hn).1
      simpa [NT.fields] using this
    have hq' : p[n].1 = q := by
      have := (List.getElem?_eq_some_iff.1 hn).2
      simpa [NT.fields] using this
    have hl : p.lookup q = some p[n].2 := by
      apply NT.lookup_of_mem hnd
      rw [← hq']
      exact List.getElem_mem hlt
    rw [hz] at hl
    have : p[n].2 = 0 := (Option.some.inj hl).symm
    rw [List.getD_eq_getElem?_getD]
    simp [NT.values, hlt, this]
  have hlt : j < i := by
    simp only [RHO_AT, List.mem_cons, List.not_mem_nil, or_false, Prod.mk.injEq] at hq
    rcases hq with ⟨rfl, rfl, -⟩ | ⟨rfl, rfl, -⟩ | ⟨rfl, rfl, -⟩ | ⟨rfl, rfl, -⟩ | ⟨rfl, rfl, -⟩ | ⟨rfl, rfl, -⟩ <;> decide
  have hnear : ∀ᶠ y in nhds (0 : ℝ), |y| < 0.3 := by
    have : Metric.ball (0 : ℝ) 0.3 ∈ nhds (0 : ℝ) := Metric.ball_mem_nhds _ (by norm_num)
    filter_upwards [this] with y hy
    simpa using hy
  have hC : ∀ y, |y| < 0.3 → C y i j = y * s ∧ C y j i = y * s ∧ (C y).PosDef ∧
      ∀ a b, (a, b) ≠ (i, j) → (a, b) ≠ (j, i) → C y a b = C0 a b := by
    intro y hy
    obtain ⟨C', e1, e2, e3, e4, e5⟩ := hlin y hy
    rw [h2 y] at e1
    cases e1
    exact ⟨e2, e3, e4, e5 C0 h0⟩
  -- the derivative of the matrix
  set D : Fin 4 → Fin 4 → ℝ := fun a b => if (a, b) = (i, j) ∨ (a, b) = (j, i) then s else 0 with hD
  have hCD : ∀ a b, HasDerivAt (fun y => C y a b) (D a b) 0 := by
    intro a b
    by_cases hab : (a, b) = (i, j) ∨ (a, b) = (j, i)
    · have e : D a b = s := if_pos hab
      rw [e]
      have := (hasDerivAt_id (0 : ℝ)).mul_const s
      simp only [one_mul] at this
      refine this.congr_of_eventuallyEq ?_
      filter_upwards [hnear] with y hy
      rcases hab with hab | hab
      · obtain ⟨rfl, rfl⟩ := Prod.mk.inj hab
        exact (hC y hy).1
      · obtain ⟨rfl, rfl⟩ := Prod.mk.inj hab
        exact (hC y hy).2.1
    · have e : D a b = 0 := if_neg hab
      rw [e]
      push Not at hab
      refine (hasDerivAt_const (0 : ℝ) (C0 a b)).congr_of_eventuallyEq ?_
      filter_upwards [hnear] with y hy
      exact (hC y hy).2.2.2 a b hab.1 hab.2
  have hC00 : C 0 = C0 := by
    ext a b
    obtain ⟨e1, e2, e3, e4⟩ := hC 0 (by norm_num)
    have z0 : C0 i j = 0 := by
      obtain ⟨rho, hr1, -, hr2⟩ := h6 i j q hq
      rw [hz] at hr1
      cases hr1
      rw [hr2]; ring
    by_cases hab : (a, b) = (i, j)
    · obtain ⟨rfl, rfl⟩ := Prod.mk.inj hab
      rw [e1, z0, zero_mul]
    by_cases hab' : (a, b) = (j, i)
    · obtain ⟨rfl, rfl⟩ := Prod.mk.inj hab'
      rw [e2, hsym0.apply, z0, zero_mul]
    exact e4 a b hab hab'
  -- the tangents that the code computes
  have hdiag : ∀ a, (CD a a).v ≠ 0 := fun a => by
    rw [hv, (h4 a).2.2]; exact pow_ne_zero _ (hpos a).ne'
  have hup : ∀ a b, (a ≤ b ∨ C0 a b ≠ 0) → (CD a b).d = D a b := by
    intro a b hab
    have := h3 a b hab
    rw [hx] at this
    exact this.unique (hCD a b)
  have hlow : ∀ a b, b < a → C0 a b = 0 → (CD a b).d = 0 := fun a b hab h =>
    cov_zero_dual h1 a b hab (by rw [hv, h]) (hdiag a) (hdiag b)
  have hC0 : C0 i j = 0 := by rw [← hC00, (hC 0 (by norm_num)).1, zero_mul]
  have hsum : ∀ a b, (CD a b).d + (CD b a).d = D a b := by
    have hDs : ∀ a b, D a b = D b a := by
      intro a b
      simp only [hD, Prod.mk.injEq]
      congr 1
      apply propext
      constructor <;> rintro (⟨u, v⟩ | ⟨u, v⟩) <;> simp [u, v]
    have key : ∀ a b, b < a → (CD a b).d + (CD b a).d = D a b := by
      intro a b hab
      rw [hup b a (Or.inl hab.le), hDs b a]
      by_cases h : (a, b) = (i, j)
      · obtain ⟨rfl, rfl⟩ := Prod.mk.inj h
        rw [hlow a b hab hC0, zero_add]
      · have e : D a b = 0 := if_neg (by
          rintro (h' | h')
          · exact h h'
          · obtain ⟨rfl, rfl⟩ := Prod.mk.inj h'
            exact absurd hab (not_lt.2 hlt.le))
        by_cases hc : C0 a b = 0
        · rw [hlow a b hab hc, e, add_zero]
        · rw [hup a b (Or.inr hc), e, add_zero]
    intro a b
    rcases lt_trichotomy a b with hab | rfl | hab
    · rw [add_comm, key b a hab, hDs]
    · have e : D a a = 0 := if_neg (by
        rintro (h' | h') <;>
          exact hlt.ne (by have e1 := congrArg Prod.fst h'; have e2 := congrArg Prod.snd h'; simp only at e1 e2
                           rw [← e1, ← e2]))
      rw [hup a a (Or.inl le_rfl), e, add_zero]
    · exact key a b hab
  -- the draws
  have hsymC : symmetrize (fun a b => C 0 a b) = fun a b => C0 a b := by
    rw [hC00]
    exact symmetrize_eq fun a b => (hsym0.apply b a)
  have htrue : ∀ (z : Fin 4 → ℝ) (a b c d : ℝ) (m : ℕ), m < 4 →
      IsAD (fun y => (multivariate_normal z [a, b, c, d] (C y)).getD m 0) 0
        ((multivariate_normal z [Dual.const a, Dual.const b, Dual.const c, Dual.const d]
          fun a b => ⟨C0 a b, D a b⟩).getD m (Dual.const 0)) := by
    intro z a b c d m hm
    refine isAD_mvn (s := fun a b y => C y a b) z (IsAD.lit a 0) (IsAD.lit b 0) (IsAD.lit c 0) (IsAD.lit d 0) ?_ ?_ m hm
    · exact isAD_symmetrize fun a b => ⟨by show C0 a b = C 0 a b; rw [hC00], hCD a b⟩
    · rw [hsymC]; exact hpd0
  have hhalf : ∀ (z : Fin 4 → ℝ) (a b c d : ℝ) (m : ℕ), m < 4 →
      IsAD (fun y => (multivariate_normal z [a, b, c, d] (C (y / 2))).getD m 0) 0
        ((multivariate_normal z [Dual.const a, Dual.const b, Dual.const c, Dual.const d] CD).getD m (Dual.const 0)) := by
    intro z a b c d m hm
    refine isAD_mvn (s := fun a b y => C (y / 2) a b) z (IsAD.lit a 0) (IsAD.lit b 0) (IsAD.lit c 0) (IsAD.lit d 0) ?_ ?_ m hm
    · intro a b
      refine ⟨?_, ?_⟩
      · rw [symmetrize_v]
        simp only [hv, zero_div]
        rw [hsymC]
        exact congrFun (congrFun (symmetrize_eq (A := fun a b => C0 a b) fun a b => (hsym0.apply b a)) a) b
      · have hy2 : HasDerivAt (fun y : ℝ => y / 2) (1 / 2) 0 := (hasDerivAt_id 0).div_const 2
        have c1 : ∀ a b, HasDerivAt (fun y => C (y / 2) a b) (D a b * (1 / 2)) 0 := fun a b =>
          HasDerivAt.comp (h₂ := fun y => C y a b) 0 (by rw [zero_div]; exact hCD a b) hy2
        have c2 := ((c1 a b).fun_add (c1 b a)).div_const 2
        refine c2.congr_deriv ?_
        have e1 : (symmetrize CD a b).d = ((CD a b).d + (CD b a).d) / 2 := by
          change (((CD a b).d + (CD b a).d) * 2 - ((CD a b).v + (CD b a).v) * 0) / (2 * 2) = _
          ring
        rw [e1, hsum, ← hsum a b, ← hsum b a]
        ring
    · simp only [zero_div]
      rw [hsymC]; exact hpd0
  have hmean : ∀ (z : Fin 4 → ℝ) (S : Fin 4 → Fin 4 → Dual) (a b c d : ℝ) (m : ℕ), m < 4 →
      ((multivariate_normal z [Dual.const a, Dual.const b, Dual.const c, Dual.const d] S).getD m (Dual.const 0)).d =
      ((multivariate_normal z [Dual.const 0, Dual.const 0, Dual.const 0, Dual.const 0] S).getD m (Dual.const 0)).d := by
    intro z S a b c d m hm
    interval_cases m <;> rfl
  refine ⟨CD, C, h1, h2, fun z m => ((multivariate_normal z [Dual.const 0, Dual.const 0, Dual.const 0, Dual.const 0]
          fun a b => ⟨C0 a b, D a b⟩).getD m (Dual.const 0)).d, ?_, ?_⟩
  · intro z a b c d m hm
    have t1 := (htrue z a b c d m hm).2
    rw [hmean z _ a b c d m hm] at t1
    refine ⟨t1, ?_⟩
    have t2 := (hhalf z a b c d m hm).2
    have hy2 : HasDerivAt (fun y : ℝ => y / 2) (1 / 2) 0 := (hasDerivAt_id 0).div_const 2
    have t3 := HasDerivAt.comp (h₂ := fun y => (multivariate_normal z [a, b, c, d] (C y)).getD m 0) 0
      (by rw [zero_div]; exact t1) hy2
    rw [t2.unique t3]
    ring
  · by_contra hc
    push Not at hc
    have hL : ∀ m k : Fin 4, HasDerivAt (fun y => cholesky (symmetrize (C y)) m k) 0 0 := by
      intro m k
      have t1 := (htrue (Pi.single k 1) 0 0 0 0 m m.2).2
      have t2 := hc (Pi.single k 1) m m.2
      rw [t2] at t1
      refine t1.congr_of_eventuallyEq (Filter.Eventually.of_forall fun y => ?_)
      fin_cases m <;> fin_cases k <;> simp [multivariate_normal, JOps.lit]
    have hprod : HasDerivAt (fun y => cholesky (symmetrize (C y)) i 0 * cholesky (symmetrize (C y)) j 0 +
        cholesky (symmetrize (C y)) i 1 * cholesky (symmetrize (C y)) j 1 +
        cholesky (symmetrize (C y)) i 2 * cholesky (symmetrize (C y)) j 2 +
        cholesky (symmetrize (C y)) i 3 * cholesky (symmetrize (C y)) j 3) 0 0 := by
      refine (((((hL i 0).fun_mul (hL j 0)).fun_add ((hL i 1).fun_mul (hL j 1))).fun_add
        ((hL i 2).fun_mul (hL j 2))).fun_add ((hL i 3).fun_mul (hL j 3))).congr_deriv ?_
      ring
    have hCij : HasDerivAt (fun y => C y i j) 0 0 := by
      refine hprod.congr_of_eventuallyEq ?_
      filter_upwards [hnear] with y hy
      have hpd := (hC y hy).2.2.1
      have e := symmetrize_eq (A := C y) (posDef_symm hpd)
      have := congrFun (congrFun (cholesky_mul (A := C y) hpd) i) j
      rw [Matrix.mul_apply, Fin.sum_univ_four] at this
      rw [e]
      exact this.symm
    have e : D i j = s := if_pos (Or.inl rfl)
    have := (hCD i j).unique hCij
    rw [e] at this
    exact hs.ne' this

/-- The hypotheses of `C102_draws_half` are met, for each of the six correlations. -/
example (i j : Fin 4) (q : String) (hq : (i, j, q) ∈ RHO_AT) : ∃ (p : NT ℝ) (n : ℕ),
    p.map Prod.fst = FIELDS ∧ Spec.Bounded COV.bounds p ∧ p.lookup q = some 0 ∧ p.fields[n]? = some q :=
  exists_zero_rho i j q hq

end PopGrad

end Diffmah

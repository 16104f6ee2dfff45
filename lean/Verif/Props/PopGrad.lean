import Verif.Lemmas.PopGradCov
import Verif.Lemmas.PopGradLoss

/-!
# Gradients of the population losses

C101: what `value_and_grad` of the Monte Carlo losses returns. C102: the derivatives of the covariance
matrix. C103: parameters that the losses do not depend on.

`IsGradient`, `Env.Differentiates` and the conditions `...NoTies` are defined in `Verif/SpecGrad.lean`.
-/

namespace Diffmah

namespace PopGrad

open JOps JMinMax JFlow Pop TPeak PopParams MC

section
variable {ext : Ext} {rng : Rng} {ED : Env Dual}

/-- C101. For either kind of halo, any parameters, bins, random key and age of the Universe: if the loss
is defined and its evaluation meets no tie, then `value_and_grad` returns the loss and the named tuple of
its partial derivatives. The random draws are differentiated too (same key, varying parameters). -/
theorem C101_loss_gradient (hE : (Env.real ext rng).Differentiates ED) (kind : Kind) (p : NT ℝ) (bins : List PopLoss.Bin) (k : Key) (lgt0 l : ℝ)
    (hl : (PopLoss.loss_mah_moments_multibin ext rng kind p bins k lgt0).val? = some l)
    (hn : LossNoTies ext rng kind p bins k lgt0) :
    ∃ g, value_and_grad (fun p => PopLoss.loss_mah_moments_multibin ext rng kind p bins k lgt0)
        (fun p => loss_mah_moments_multibin ED kind p bins k lgt0) p = .ok (l, g) ∧
      IsGradient (fun p => PopLoss.loss_mah_moments_multibin ext rng kind p bins k lgt0) p g := by
  obtain ⟨ks, hr⟩ := regular_multibin kind p bins k lgt0 l hl hn
  obtain ⟨l', g, h1, h2, h3⟩ := grad_sats ext rng hE kind p bins k lgt0 ⟨_, ks, hr, trivial⟩
  rw [hl] at h2
  cases h2
  exact ⟨g, h1, h3⟩

/-- C101 for `bimod_sats_fithelp`. -/
theorem C101_sats (hE : (Env.real ext rng).Differentiates ED) (p : NT ℝ) (bins : List PopLoss.Bin) (k : Key)
    (lgt0 l : ℝ) (hl : (PopLoss.loss_mah_moments_multibin ext rng .sats p bins k lgt0).val? = some l)
    (hn : LossNoTies ext rng .sats p bins k lgt0) :
    ∃ g, loss_and_grads_sats ext rng ED p bins k lgt0 = .ok (l, g) ∧
      IsGradient (fun p => PopLoss.loss_mah_moments_multibin ext rng .sats p bins k lgt0) p g :=
  C101_loss_gradient hE .sats p bins k lgt0 l hl hn

/-- C101 for `bimod_cens_fithelp`, whose gradient is with respect to the unbounded parameters. -/
theorem C101_cens (hE : (Env.real ext rng).Differentiates ED) (u p : NT ℝ) (bins : List PopLoss.Bin) (k : Key) (lgt0 l : ℝ)
    (hp : params_of_u_params u = .ok p)
    (hl : (PopLoss.loss_mah_moments_multibin_u_params ext rng u bins k lgt0).val? = some l)
    (hn : LossNoTies ext rng .cens p bins k lgt0) :
    ∃ g, loss_and_grads_cens ext rng ED u bins k lgt0 = .ok (l, g) ∧
      IsGradient (fun u => PopLoss.loss_mah_moments_multibin_u_params ext rng u bins k lgt0) u g := by
  have hl' : (PopLoss.loss_mah_moments_multibin ext rng .cens p bins k lgt0).val? = some l := by
    rw [← u_params_real] at hl
    rcases hr : loss_mah_moments_multibin_u_params (Env.real ext rng) u bins k lgt0 with e | ⟨a, ks⟩
    · rw [hr] at hl; cases hl
    rw [hr] at hl
    cases hl
    unfold loss_mah_moments_multibin_u_params at hr
    obtain ⟨q', k1, k2, h1, h2, -⟩ := RandM.bind_inv hr
    rw [hp] at h1
    cases h1
    rw [multibin_real] at h2
    rw [h2]; rfl
  obtain ⟨ks, hr⟩ := regular_multibin .cens p bins k lgt0 l hl' hn
  obtain ⟨l', g, h1, h2, h3⟩ := grad_cens ext rng hE u bins k lgt0 ⟨Reg.L l, [] ++ ks, by
    unfold loss_mah_moments_multibin_u_params
    rw [regular_params u p hp]
    exact RandM.bind_of rfl hr, trivial⟩
  rw [hl] at h2
  cases h2
  exact ⟨g, h1, h3⟩

/-- C101 for `bimod_censat_fithelp`: the sum of the two losses, over a subset of the parameters, the
others having their default values. -/
theorem C101_censat (hE : (Env.real ext rng).Differentiates ED) (p q : NT ℝ) (bc bs : List PopLoss.Bin)
    (k : Key) (lgt0 l : ℝ) (hq : DEFAULT_DIFFMAHPOP_PARAMS.replace p = .ok q)
    (hl : (PopLoss.loss_mah_moments_multibin_censat ext rng p bc bs k lgt0).val? = some l)
    (hc : LossNoTies ext rng .cens q bc (Key.child k 2 0) lgt0)
    (hs : LossNoTies ext rng .sats q bs (Key.child k 2 1) lgt0) :
    ∃ g, loss_and_grads_censat ext rng ED p bc bs k lgt0 = .ok (l, g) ∧
      IsGradient (fun p => PopLoss.loss_mah_moments_multibin_censat ext rng p bc bs k lgt0) p g := by
  obtain ⟨l', g, h1, h2, h3⟩ := grad_censat ext rng hE p bc bs k lgt0 (censat_val p q bc bs k lgt0 l hq hl hc hs)
  rw [hl] at h2
  cases h2
  exact ⟨g, h1, h3⟩

/-- C101 for `bimod_censat_fithelp` in terms of the unbounded parameters. -/
theorem C101_censat_u_params (hE : (Env.real ext rng).Differentiates ED) (u p q : NT ℝ) (bc bs : List PopLoss.Bin)
    (k : Key) (lgt0 l : ℝ) (hp : params_of_u_params u = .ok p) (hq : DEFAULT_DIFFMAHPOP_PARAMS.replace p = .ok q)
    (hl : (PopLoss.loss_mah_moments_multibin_censat_u_params ext rng u bc bs k lgt0).val? = some l)
    (hc : LossNoTies ext rng .cens q bc (Key.child k 2 0) lgt0)
    (hs : LossNoTies ext rng .sats q bs (Key.child k 2 1) lgt0) :
    ∃ g, loss_and_grads_censat_u_params ext rng ED u bc bs k lgt0 = .ok (l, g) ∧
      IsGradient (fun u => PopLoss.loss_mah_moments_multibin_censat_u_params ext rng u bc bs k lgt0) u g := by
  have hl' : (PopLoss.loss_mah_moments_multibin_censat ext rng p bc bs k lgt0).val? = some l := by
    rw [← censat_u_real] at hl
    rcases hr : loss_mah_moments_multibin_censat_u_params (Env.real ext rng) u bc bs k lgt0 with e | ⟨a, ks⟩
    · rw [hr] at hl; cases hl
    rw [hr] at hl
    cases hl
    unfold loss_mah_moments_multibin_censat_u_params at hr
    obtain ⟨q', k1, k2, h1, h2, -⟩ := RandM.bind_inv hr
    rw [hp] at h1
    cases h1
    rw [censat_real] at h2
    rw [h2]; rfl
  obtain ⟨a, ks, hr, ha⟩ := censat_val p q bc bs k lgt0 l hq hl' hc hs
  obtain ⟨l', g, h1, h2, h3⟩ := grad_censat_u ext rng hE u bc bs k lgt0 ⟨a, [] ++ ks, by
    unfold loss_mah_moments_multibin_censat_u_params
    rw [regular_params u p hp]
    exact RandM.bind_of rfl hr, ha⟩
  rw [hl] at h2
  cases h2
  exact ⟨g, h1, h3⟩

end

/-- The hypotheses of `C101_loss_gradient` and `C101_sats` are met by the default parameters, two bins and
any key. -/
example (kind : Kind) (k : Key) : ∃ (ext : Ext) (rng : Rng) (ED : Env Dual) (bins : List PopLoss.Bin) (l : ℝ),
    (Env.real ext rng).Differentiates ED ∧ bins.length = 2 ∧
    (PopLoss.loss_mah_moments_multibin ext rng kind DEFAULT_DIFFMAHPOP_PARAMS bins k 1).val? = some l ∧
    LossNoTies ext rng kind DEFAULT_DIFFMAHPOP_PARAMS bins k 1 := by
  obtain ⟨l, hl⟩ := loss_default kind k
  exact ⟨wExt, wRng, wED, [wBin, wBin], l, w_differentiates, rfl, hl, lossNoTies_default kind k⟩

/-- The hypotheses of `C101_cens` are met. -/
example (k : Key) : ∃ (u : NT ℝ) (l : ℝ), params_of_u_params u = .ok DEFAULT_DIFFMAHPOP_PARAMS ∧
    (PopLoss.loss_mah_moments_multibin_u_params wExt wRng u [wBin, wBin] k 1).val? = some l ∧
    LossNoTies wExt wRng .cens DEFAULT_DIFFMAHPOP_PARAMS [wBin, wBin] k 1 := by
  obtain ⟨u, l, -, h1, h2⟩ := cens_run k
  exact ⟨u, l, h1, h2, lossNoTies_default .cens k⟩

/-- The hypotheses of `C101_censat` and `C101_censat_u_params` are met. -/
example (k : Key) : ∃ (u : NT ℝ) (l : ℝ), params_of_u_params u = .ok DEFAULT_DIFFMAHPOP_PARAMS ∧
    DEFAULT_DIFFMAHPOP_PARAMS.replace DEFAULT_DIFFMAHPOP_PARAMS = .ok DEFAULT_DIFFMAHPOP_PARAMS ∧
    (PopLoss.loss_mah_moments_multibin_censat wExt wRng DEFAULT_DIFFMAHPOP_PARAMS [wBin, wBin] [wBin, wBin] k 1).val?
      = some l ∧
    (PopLoss.loss_mah_moments_multibin_censat_u_params wExt wRng u [wBin, wBin] [wBin, wBin] k 1).val? = some l ∧
    LossNoTies wExt wRng .cens DEFAULT_DIFFMAHPOP_PARAMS [wBin, wBin] (Key.child k 2 0) 1 ∧
    LossNoTies wExt wRng .sats DEFAULT_DIFFMAHPOP_PARAMS [wBin, wBin] (Key.child k 2 1) 1 := by
  obtain ⟨u, l, -, h1, h2, h3, h4⟩ := censat_run k
  exact ⟨u, l, h1, h2, h3, h4, lossNoTies_default .cens _, lossNoTies_default .sats _⟩

/-! ## C102 -/

/-- C102, on and above the diagonal: for every in-bounds parameter set, parameter and mass, the automatic
derivative of each entry of the covariance matrix is its partial derivative. -/
theorem C102_upper (p : NT ℝ) (hp : p.map Prod.fst = FIELDS) (hb : Spec.Bounded COV.bounds p) (lgm : ℝ) (n : ℕ) :
    ∃ (CD : Fin 4 → Fin 4 → Dual) (C : ℝ → Matrix (Fin 4) (Fin 4) ℝ),
      get_diffmahpop_cov (seed p n) (Dual.const lgm) = .ok CD ∧
      (∀ y, Pop.get_diffmahpop_cov (setAt p n y) lgm = .ok (C y)) ∧
      ∀ i j, i ≤ j → HasDerivAt (fun y => C y i j) (CD i j).d (p.values.getD n 0) := by
  obtain ⟨C0, -, h0, -⟩ := C51_covariance p (Or.inr hp) hb lgm
  obtain ⟨CD, C, h1, h2, -, h3⟩ := cov_tri h0 n
  exact ⟨CD, C, h1, h2, fun i j hij => h3 i j (Or.inl hij)⟩

/-- C102, partial: everywhere in the matrix if no correlation is exactly zero. The full property has no
such condition, and fails without it (`C102_zero_correlation`). -/
theorem C102_covariance_partial (p : NT ℝ) (hp : p.map Prod.fst = FIELDS) (hb : Spec.Bounded COV.bounds p)
    (hrho : ∀ q ∈ RHO_AT, p.lookup q.2.2 ≠ some 0) (lgm : ℝ) (n : ℕ) :
    ∃ (CD : Fin 4 → Fin 4 → Dual) (C : ℝ → Matrix (Fin 4) (Fin 4) ℝ),
      get_diffmahpop_cov (seed p n) (Dual.const lgm) = .ok CD ∧
      (∀ y, Pop.get_diffmahpop_cov (setAt p n y) lgm = .ok (C y)) ∧
      ∀ i j, HasDerivAt (fun y => C y i j) (CD i j).d (p.values.getD n 0) := by
  obtain ⟨C0, s, h0, -, -, h4, -, h6⟩ := C51_covariance p (Or.inr hp) hb lgm
  obtain ⟨CD, C, h1, h2, -, h3⟩ := cov_tri h0 n
  refine ⟨CD, C, h1, h2, fun i j => h3 i j ?_⟩
  by_cases hij : i ≤ j
  · exact Or.inl hij
  right
  have hs0 : ∀ i, s i ≠ 0 := fun i => by have := (h4 i).1; norm_num at this; linarith
  obtain ⟨q, hq⟩ : ∃ q, (i, j, q) ∈ RHO_AT := by
    unfold RHO_AT
    fin_cases i <;> fin_cases j <;> simp at hij ⊢
  obtain ⟨rho, hr1, -, hr2⟩ := h6 i j q hq
  rw [hr2]
  refine mul_ne_zero (mul_ne_zero ?_ (hs0 i)) (hs0 j)
  intro h
  exact hrho _ hq (by rw [hr1, h])

/-- Violation of C102: whenever a correlation is exactly zero (the middle of its range), the automatic
derivative of its entry below the diagonal with respect to the correlation is zero, although the entry
varies with a positive derivative, the one found above the diagonal. -/
theorem C102_zero_correlation (p : NT ℝ) (hp : p.map Prod.fst = FIELDS) (hb : Spec.Bounded COV.bounds p)
    (lgm : ℝ) (i j : Fin 4) (q : String) (hq : (i, j, q) ∈ RHO_AT) (hz : p.lookup q = some 0) (n : ℕ)
    (hn : p.fields[n]? = some q) :
    ∃ (CD : Fin 4 → Fin 4 → Dual) (C : ℝ → Matrix (Fin 4) (Fin 4) ℝ) (s : ℝ),
      get_diffmahpop_cov (seed p n) (Dual.const lgm) = .ok CD ∧
      (∀ y, Pop.get_diffmahpop_cov (setAt p n y) lgm = .ok (C y)) ∧
      0 < s ∧ HasDerivAt (fun y => C y i j) s 0 ∧ (CD i j).d = 0 ∧ (CD j i).d = s := by
  obtain ⟨C0, σ, h0, -, -, h4, h5, h6⟩ := C51_covariance p (Or.inr hp) hb lgm
  obtain ⟨CD, C, h1, h2, hv, h3⟩ := cov_tri h0 n
  obtain ⟨s, hs, hlin⟩ := cov_linear p hp hb lgm n i j q hq hn
  have hpos : ∀ i, 0 < σ i := fun i => by have := (h4 i).1; norm_num at this; linarith
  have hnd : p.fields.Nodup := by rw [NT.fields, hp]; exact C50_no_collision.1
  have hx : p.values.getD n 0 = 0 := by
    have hlt : n < p.length := by
      have := (List.getElem?_eq_some_iff.1 hn).1
      simpa [NT.fields] using this
    have hq' : p[n].1 = q := by
      have := (List.getElem?_eq_some_iff.1 hn).2
      simpa [NT.fields] using this
    have hl : p.lookup q = some p[n].2 := by
      apply NT.lookup_of_mem hnd
      rw [← hq']
      exact List.getElem_mem hlt
    rw [hz] at hl
    have : p[n].2 = 0 := (Option.some.inj hl).symm
    rw [List.getD_eq_getElem?_getD]
    simp [NT.values, hlt, this]
  have hlt : j < i := by
    simp only [RHO_AT, List.mem_cons, List.not_mem_nil, or_false, Prod.mk.injEq] at hq
    rcases hq with ⟨rfl, rfl, -⟩ | ⟨rfl, rfl, -⟩ | ⟨rfl, rfl, -⟩ | ⟨rfl, rfl, -⟩ | ⟨rfl, rfl, -⟩ | ⟨rfl, rfl, -⟩ <;> decide
  have hnear : ∀ᶠ y in nhds (0 : ℝ), |y| < 0.3 := by
    have : Metric.ball (0 : ℝ) 0.3 ∈ nhds (0 : ℝ) := Metric.ball_mem_nhds _ (by norm_num)
    filter_upwards [this] with y hy
    simpa using hy
  have hd : ∀ a b, (∀ y, |y| < 0.3 → C y a b = y * s) → HasDerivAt (fun y => C y a b) s 0 := by
    intro a b hab
    have := (hasDerivAt_id (0 : ℝ)).mul_const s
    simp only [one_mul] at this
    refine this.congr_of_eventuallyEq ?_
    filter_upwards [hnear] with y hy
    exact hab y hy
  have hent : ∀ y, |y| < 0.3 → C y i j = y * s ∧ C y j i = y * s := by
    intro y hy
    obtain ⟨C', e1, e2, e3, -⟩ := hlin y hy
    rw [h2 y] at e1
    cases e1
    exact ⟨e2, e3⟩
  have hC0 : C0 i j = 0 := by
    obtain ⟨rho, hr1, -, hr2⟩ := h6 i j q hq
    rw [hz] at hr1
    cases hr1
    rw [hr2]; ring
  have hdiag : ∀ a, (CD a a).v ≠ 0 := fun a => by
    rw [hv, (h4 a).2.2]; exact pow_ne_zero _ (hpos a).ne'
  refine ⟨CD, C, s, h1, h2, hs, hd i j (fun y hy => (hent y hy).1), ?_, ?_⟩
  · exact cov_zero_dual h1 i j hlt (by rw [hv, hC0]) (hdiag i) (hdiag j)
  · have a := h3 j i (Or.inl hlt.le)
    rw [hx] at a
    exact a.unique (hd j i (fun y hy => (hent y hy).2))

/-- The hypotheses of `C102_upper` and `C102_covariance_partial` are met by the default parameters. -/
example : DEFAULT_DIFFMAHPOP_PARAMS.map Prod.fst = FIELDS ∧ Spec.Bounded COV.bounds DEFAULT_DIFFMAHPOP_PARAMS ∧
    ∀ q ∈ RHO_AT, DEFAULT_DIFFMAHPOP_PARAMS.lookup q.2.2 ≠ some 0 :=
  ⟨rfl, default_inBounds.2.2.2.2.2.2.2.2, default_rho_ne⟩

/-- The hypotheses of `C102_zero_correlation` are met, for each of the six correlations, by the default
parameters with that correlation set to zero. -/
theorem exists_zero_rho (i j : Fin 4) (q : String) (hq : (i, j, q) ∈ RHO_AT) : ∃ (p : NT ℝ) (n : ℕ),
    p.map Prod.fst = FIELDS ∧ Spec.Bounded COV.bounds p ∧ p.lookup q = some 0 ∧ p.fields[n]? = some q := by
  have hnd : DEFAULT_DIFFMAHPOP_PARAMS.fields.Nodup := C50_no_collision.1
  have hf : ∀ n y, (setAt DEFAULT_DIFFMAHPOP_PARAMS n y).map Prod.fst = FIELDS := by
    intro n y
    have h1 := setAt_fields DEFAULT_DIFFMAHPOP_PARAMS n y
    have h2 : DEFAULT_DIFFMAHPOP_PARAMS.map Prod.fst = FIELDS := rfl
    unfold NT.fields at h1
    rw [h1, h2]
  obtain ⟨n, hn⟩ := rho_field hq
  exact ⟨setAt DEFAULT_DIFFMAHPOP_PARAMS n 0, n, hf n 0,
    bounded_setAt _ hnd default_inBounds.2.2.2.2.2.2.2.2 n q (rho_prefix hq) hn 0 (by norm_num),
    lookup_setAt_self _ hnd n 0 q hn, by rw [setAt_fields]; exact hn⟩

/-! ## C103 -/

/-- C103. The losses over unbounded parameters do not depend on three of them: changing any or all of
`u_late_index_{x0,ylo,yhi}_alpha` changes neither the value nor the exceptions nor the keys used. -/
theorem C103_unused (ext : Ext) (rng : Rng) (u u' : NT ℝ) (hu : u.map Prod.fst = FIELDS.map ("u_" ++ ·))
    (hu' : u'.map Prod.fst = FIELDS.map ("u_" ++ ·))
    (h : ∀ n, n ∉ ["u_late_index_x0_alpha", "u_late_index_ylo_alpha", "u_late_index_yhi_alpha"] →
      u.lookup n = u'.lookup n) (bins bins' : List PopLoss.Bin) (k : Key) (lgt0 : ℝ) :
    PopLoss.loss_mah_moments_multibin_u_params ext rng u bins k lgt0 =
      PopLoss.loss_mah_moments_multibin_u_params ext rng u' bins k lgt0 ∧
    PopLoss.loss_mah_moments_multibin_censat_u_params ext rng u bins bins' k lgt0 =
      PopLoss.loss_mah_moments_multibin_censat_u_params ext rng u' bins bins' k lgt0 := by
  have e := params_dead hu hu' h
  constructor
  · rw [← u_params_real, ← u_params_real]
    unfold loss_mah_moments_multibin_u_params
    rw [e]
  · rw [← censat_u_real, ← censat_u_real]
    unfold loss_mah_moments_multibin_censat_u_params
    rw [e]

/-- C103: a gradient of such a loss is zero in these three components. -/
theorem C103_gradient_zero (ext : Ext) (rng : Rng) (u g : NT ℝ) (hu : u.map Prod.fst = FIELDS.map ("u_" ++ ·))
    (bins bins' : List PopLoss.Bin) (k : Key) (lgt0 : ℝ)
    (hg : IsGradient (fun u => PopLoss.loss_mah_moments_multibin_u_params ext rng u bins k lgt0) u g ∨
      IsGradient (fun u => PopLoss.loss_mah_moments_multibin_censat_u_params ext rng u bins bins' k lgt0) u g)
    (n : String) (hn : n ∈ ["u_late_index_x0_alpha", "u_late_index_ylo_alpha", "u_late_index_yhi_alpha"]) :
    g.lookup n = some 0 := by
  have hc := fun i y hi => C103_unused ext rng _ u (setAt_u_fields hu i y) hu (setAt_dead hu n hn i hi y) bins bins' k lgt0
  rcases hg with hg | hg
  · exact gradient_const hu hn hg fun i y hi => (hc i y hi).1
  · exact gradient_const hu hn hg fun i y hi => (hc i y hi).2

/-- C103: so `value_and_grad` returns zeros there, wherever C101 applies. -/
theorem C103_returned_zero {ext : Ext} {rng : Rng} {ED : Env Dual} (hE : (Env.real ext rng).Differentiates ED)
    (u p : NT ℝ) (hu : u.map Prod.fst = FIELDS.map ("u_" ++ ·)) (bins : List PopLoss.Bin) (k : Key) (lgt0 l : ℝ)
    (hp : params_of_u_params u = .ok p)
    (hl : (PopLoss.loss_mah_moments_multibin_u_params ext rng u bins k lgt0).val? = some l)
    (hn : LossNoTies ext rng .cens p bins k lgt0) :
    ∃ g, loss_and_grads_cens ext rng ED u bins k lgt0 = .ok (l, g) ∧
      ∀ n ∈ ["u_late_index_x0_alpha", "u_late_index_ylo_alpha", "u_late_index_yhi_alpha"], g.lookup n = some 0 := by
  obtain ⟨g, h1, h2⟩ := C101_cens hE u p bins k lgt0 l hp hl hn
  exact ⟨g, h1, fun n hn => C103_gradient_zero ext rng u g hu bins bins k lgt0 (Or.inl h2) n hn⟩

/-- The hypotheses of C103 are met: two different sets of unbounded parameters, with a defined loss. -/
example (k : Key) : ∃ (u u' : NT ℝ) (l : ℝ), u.map Prod.fst = FIELDS.map ("u_" ++ ·) ∧
    u'.map Prod.fst = FIELDS.map ("u_" ++ ·) ∧ u ≠ u' ∧
    (∀ n, n ∉ ["u_late_index_x0_alpha", "u_late_index_ylo_alpha", "u_late_index_yhi_alpha"] →
      u.lookup n = u'.lookup n) ∧
    params_of_u_params u = .ok DEFAULT_DIFFMAHPOP_PARAMS ∧
    (PopLoss.loss_mah_moments_multibin_u_params wExt wRng u [wBin, wBin] k 1).val? = some l ∧
    LossNoTies wExt wRng .cens DEFAULT_DIFFMAHPOP_PARAMS [wBin, wBin] k 1 := by
  obtain ⟨u, l, hu, h1, h2⟩ := cens_run k
  obtain ⟨i, hi⟩ := dead_index hu "u_late_index_x0_alpha" (by decide)
  have hnd := u_nodup hu
  obtain ⟨v, hv⟩ : ∃ v, u.lookup "u_late_index_x0_alpha" = some v := by
    have : "u_late_index_x0_alpha" ∈ u.fields := List.mem_of_getElem? hi
    exact NT.lookup_isSome this
  refine ⟨u, setAt u i (v + 1), l, hu, setAt_u_fields hu i _, ?_, ?_, h1, h2, lossNoTies_default .cens k⟩
  · intro h
    have := lookup_setAt_self u hnd i (v + 1) _ hi
    rw [← h, hv] at this
    have := Option.some.inj this
    linarith
  · intro n hn
    exact (setAt_dead hu _ (by decide) i hi (v + 1) n hn).symm

end PopGrad

end Diffmah

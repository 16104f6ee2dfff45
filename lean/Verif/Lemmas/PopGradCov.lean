import Verif.Lemmas.PopGradWitLoss

/-!
# Derivatives of the covariance matrix
-/

namespace Diffmah

namespace PopGrad

open JOps JMinMax JFlow Pop TPeak PopParams MC

/-- What an entry of the matrix is made of, in any number system. -/
theorem cov_form {α : Type} [Add α] [Sub α] [Mul α] [Div α] [JOps α] [JMinMax α] [JFlow α] {p : NT α} {l : α}
    {C : Fin 4 → Fin 4 → α} (h : get_diffmahpop_cov p l = .ok C) :
    ∃ (d o : List α), get_cov_params p l = .ok (d, o) ∧ ∀ i j, C i j = d.getD i (lit 0) *
      corr_entry (List.replicate d.length (lit 1) ++ o) i j * d.getD j (lit 0) := by
  unfold get_diffmahpop_cov at h
  rcases hq : get_cov_params p l with e | ⟨d, o⟩
  · rw [hq] at h; cases h
  rw [hq] at h
  dsimp only [Bind.bind, Except.bind] at h
  split at h
  · cases h
    exact ⟨d, o, rfl, fun i j => rfl⟩
  · cases h

theorem cov_ok_reg {p : NT ℝ} {l : ℝ} {C : Fin 4 → Fin 4 → Reg}
    (h : get_diffmahpop_cov (p.mapv lit) (lit l) = .ok C) (i j : Fin 4) (hij : i ≤ j ∨ (C i j).v ≠ 0) :
    (C i j).ok := by
  obtain ⟨d', o', h1, h2⟩ := cov_form h
  have hs := Reg.sig.cov_params p l
  change get_cov_params (p.mapv lit) (lit l) = _ at hs
  rw [hs] at h1
  rcases hq : get_cov_params p l with e | ⟨d, o⟩
  · rw [hq] at h1; cases h1
  rw [hq] at h1
  have h3 : d' = d.map Reg.L ∧ o' = o.map Reg.L := by
    have := Except.ok.inj h1
    exact ⟨(congrArg Prod.fst this).symm, (congrArg Prod.snd this).symm⟩
  rw [h3.1, h3.2] at h2
  have hx : List.replicate (d.map Reg.L).length (JOps.lit 1 : Reg) ++ o.map Reg.L =
      (List.replicate d.length (JOps.lit 1 : ℝ) ++ o).map Reg.L := by
    rw [List.map_append, List.map_replicate, List.length_map]
    rfl
  have h4 := h2 i j
  rw [hx, Reg.getD_L, Reg.getD_L] at h4
  unfold corr_entry chol_entry at h4
  simp only [List.length_map, Reg.getD_L] at h4
  rw [h4] at hij ⊢
  refine ⟨⟨trivial, ?_⟩, trivial⟩
  by_cases hlt : i < j
  · rw [if_pos hlt]; trivial
  · rw [if_neg hlt] at hij ⊢
    by_cases hji : j < i
    · rw [if_pos hji] at hij ⊢
      refine ⟨trivial, trivial, trivial, ?_⟩
      intro h0
      rcases hij with hij | hij
      · exact absurd hji (not_lt.2 hij)
      · apply hij
        have e : ∀ x : Reg, x.v = 0 → ∀ a b : Reg, (a * whereZero x (lit 0) x * b).v = 0 := by
          intro x hx a b
          change a.v * (jwhere (x.v = 0) 0 x.v) * b.v = 0
          unfold jwhere
          rw [if_pos hx, mul_zero, zero_mul]
        exact e _ h0 _ _
    · rw [if_neg hji]; trivial

/-- Below the diagonal, the tangent of an entry that is zero is zero. -/
theorem cov_zero_dual {p : NT Dual} {l : Dual} {C : Fin 4 → Fin 4 → Dual}
    (h : get_diffmahpop_cov p l = .ok C) (i j : Fin 4) (hij : j < i) (h0 : (C i j).v = 0)
    (hi : (C i i).v ≠ 0) (hj : (C j j).v ≠ 0) : (C i j).d = 0 := by
  obtain ⟨d, o, -, h2⟩ := cov_form h
  have ei := h2 i i
  have ej := h2 j j
  have e := h2 i j
  generalize d.getD i (lit 0) = a at ei e
  generalize d.getD j (lit 0) = b at ej e
  have ha : a.v ≠ 0 := by
    intro h; apply hi; rw [ei]
    change a.v * _ * a.v = 0
    rw [h, mul_zero]
  have hb : b.v ≠ 0 := by
    intro h; apply hj; rw [ej]
    change b.v * _ * b.v = 0
    rw [h, mul_zero]
  unfold corr_entry at e
  rw [if_neg (not_lt.2 hij.le), if_pos hij] at e
  generalize chol_entry (List.replicate d.length (lit 1) ++ o) i j = c at e
  by_cases hc : c.v = 0
  · have : whereZero c (lit 0) c = (lit 0 : Dual) := by
      change jwhere (c.v = 0) _ _ = _
      unfold jwhere
      rw [if_pos hc]
    rw [e, this]
    change (a.d * 0 + a.v * 0) * b.v + a.v * 0 * b.d = 0
    ring
  · exfalso
    have : whereZero c (lit 0) c = c := by
      change jwhere (c.v = 0) _ _ = _
      unfold jwhere
      rw [if_neg hc]
    rw [e, this] at h0
    change a.v * c.v * b.v = 0 at h0
    simp [ha, hb, hc] at h0

/-- The matrix as a function of one parameter, and its tangents. -/
theorem cov_tri {p : NT ℝ} {l : ℝ} {C0 : Matrix (Fin 4) (Fin 4) ℝ} (h : Pop.get_diffmahpop_cov p l = .ok C0) (n : ℕ) :
    ∃ (CD : Fin 4 → Fin 4 → Dual) (C : ℝ → Matrix (Fin 4) (Fin 4) ℝ),
      get_diffmahpop_cov (seed p n) (Dual.const l) = .ok CD ∧
      (∀ y, Pop.get_diffmahpop_cov (setAt p n y) l = .ok (C y)) ∧
      (∀ i j, (CD i j).v = C0 i j) ∧
      ∀ i j, (i ≤ j ∨ C0 i j ≠ 0) → HasDerivAt (fun y => C y i j) (CD i j).d (p.values.getD n 0) := by
  have hE := w_differentiates
  set x := p.values.getD n 0 with hx
  have he := fun y => (Tri.evalHom (x := x) hE y).cov (seedTri x p n) (lit l)
  have hd := (Tri.dualHom (x := x) hE).cov (seedTri x p n) (lit l)
  have hr := (Tri.regHom (x := x) hE).cov (seedTri x p n) (lit l)
  rw [hx, seedTri_dual] at hd
  rw [hx, seedTri_reg] at hr
  simp only [seedTri_eval] at he
  rcases ht : get_diffmahpop_cov (seedTri x p n) (lit l : Tri x) with e | T
  · have := he x
    rw [ht, setAt_self, cov_real] at this
    change Except.map _ (Pop.get_diffmahpop_cov p l) = _ at this
    rw [h] at this
    cases this
  · rw [ht] at hd hr
    simp only [ht] at he
    have hC : ∀ y, Pop.get_diffmahpop_cov (setAt p n y) l = .ok (fun i j => (T i j).f y) := by
      intro y
      have h1 := he y
      change get_diffmahpop_cov (setAt p n y) l = .ok (fun i j => (T i j).f y) at h1
      rw [cov_real] at h1
      rcases h2 : Pop.get_diffmahpop_cov (setAt p n y) l with e | M
      · rw [h2] at h1; cases h1
      · rw [h2] at h1
        exact congrArg Except.ok (Except.ok.inj h1)
    have h0 : C0 = fun i j => (T i j).f x := by
      have := hC x
      rw [setAt_self, h] at this
      exact Except.ok.inj this
    refine ⟨fun i j => (T i j).D, fun y i j => (T i j).f y, hd, hC, ?_, ?_⟩
    · intro i j
      rw [h0]
      exact (T i j).hv
    · intro i j hij
      apply (T i j).hd
      rw [h0] at hij
      exact cov_ok_reg hr i j hij

theorem setAt_fields (p : NT ℝ) (n : ℕ) (y : ℝ) : (setAt p n y).fields = p.fields := by
  unfold setAt NT.fields
  apply List.ext_getElem
  · simp
  · intro j h1 h2
    simp

theorem lookup_setAt_self (p : NT ℝ) (hp : p.fields.Nodup) (n : ℕ) (y : ℝ) (q : String)
    (hn : p.fields[n]? = some q) : (setAt p n y).lookup q = some y := by
  apply NT.lookup_of_mem (by rw [setAt_fields]; exact hp)
  have hlt : n < p.length := by
    have := (List.getElem?_eq_some_iff.1 hn).1
    simpa [NT.fields] using this
  have hq : p[n].1 = q := by
    have := (List.getElem?_eq_some_iff.1 hn).2
    simpa [NT.fields] using this
  rw [List.mem_iff_getElem]
  refine ⟨n, by simpa [setAt] using hlt, ?_⟩
  simp [setAt, hq]

theorem lookup_setAt_ne (p : NT ℝ) (hp : p.fields.Nodup) (n : ℕ) (y : ℝ) (q m : String) (v : ℝ)
    (hn : p.fields[n]? = some q) (hm : m ≠ q) (h : p.lookup m = some v) : (setAt p n y).lookup m = some v := by
  apply NT.lookup_of_mem (by rw [setAt_fields]; exact hp)
  have hmem : (m, v) ∈ p := NT.mem_of_lookup h
  obtain ⟨k, hk, hkv⟩ := List.mem_iff_getElem.1 hmem
  rw [List.mem_iff_getElem]
  refine ⟨k, by simpa [setAt] using hk, ?_⟩
  have hne : k ≠ n := by
    rintro rfl
    rw [NT.fields, List.getElem?_map, List.getElem?_eq_getElem hk, hkv] at hn
    exact hm (by simpa using hn)
  simp [setAt, hne, hkv]

/-- Changing one correlation inside its range keeps the parameters inside their bounds. -/
theorem bounded_setAt (p : NT ℝ) (hnd : p.fields.Nodup) (hb : Spec.Bounded COV.bounds p) (n : ℕ) (q : String)
    (hqr : ("rho_".toList).isPrefixOf q.toList = true) (hn : p.fields[n]? = some q) (y : ℝ) (hy : |y| < 0.3) :
    Spec.Bounded COV.bounds (setAt p n y) := by
  intro b hbb
  by_cases hbq : b.1 = q
  · refine ⟨y, by rw [hbq]; exact lookup_setAt_self p hnd n y q hn, ?_⟩
    have : b.2 = RHO_BOUNDS := by
      simp only [COV, List.mem_cons, List.not_mem_nil, or_false] at hbb
      rw [← hbq] at hqr
      rcases hbb with rfl | rfl | rfl | rfl | rfl | rfl | rfl | rfl | rfl | rfl | rfl | rfl | rfl | rfl | rfl | rfl | rfl | rfl <;>
        first | rfl | (exfalso; revert hqr; decide)
    rw [this]
    exact abs_lt.1 hy
  · obtain ⟨v, hv, hlo, hhi⟩ := hb b hbb
    exact ⟨v, lookup_setAt_ne p hnd n y q b.1 v hn hbq hv, hlo, hhi⟩

/-- Changing one correlation changes its entry in proportion. -/
theorem cov_linear (p : NT ℝ) (hp : p.map Prod.fst = FIELDS) (hb : Spec.Bounded COV.bounds p) (l : ℝ) (n : ℕ)
    (i j : Fin 4) (q : String) (hq : (i, j, q) ∈ RHO_AT) (hn : p.fields[n]? = some q) :
    ∃ s > 0, ∀ y, |y| < 0.3 → ∃ C, Pop.get_diffmahpop_cov (setAt p n y) l = .ok C ∧ C i j = y * s ∧ C j i = y * s ∧
      C.PosDef ∧ ∀ C₀, Pop.get_diffmahpop_cov p l = .ok C₀ → ∀ a b, (a, b) ≠ (i, j) → (a, b) ≠ (j, i) →
        C a b = C₀ a b := by
  have hnd : p.fields.Nodup := by rw [NT.fields, hp]; exact C50_no_collision.1
  obtain ⟨C, s, h1, h2, h3, h4, h5, h6⟩ := C51_covariance p (Or.inr hp) hb l
  have hpos : ∀ i, 0 < s i := fun i => by have := (h4 i).1; norm_num at this; linarith
  refine ⟨s i * s j, mul_pos (hpos i) (hpos j), ?_⟩
  intro y hy
  have hqr : ("rho_".toList).isPrefixOf q.toList = true := by
    simp only [RHO_AT, List.mem_cons, List.not_mem_nil, or_false, Prod.mk.injEq] at hq
    rcases hq with ⟨-, -, rfl⟩ | ⟨-, -, rfl⟩ | ⟨-, -, rfl⟩ | ⟨-, -, rfl⟩ | ⟨-, -, rfl⟩ | ⟨-, -, rfl⟩ <;> rfl
  have hb' : Spec.Bounded COV.bounds (setAt p n y) := bounded_setAt p hnd hb n q hqr hn y hy
  obtain ⟨C', s', g1, g2, g3, g4, g5, g6⟩ := C51_covariance (setAt p n y)
    (Or.inr (by have := setAt_fields p n y; unfold NT.fields at this; rw [this, hp])) hb' l
  have hs : ∀ i, s' i = s i := by
    intro i
    have key : ∀ r, (i, r) ∈ [((0 : Fin 4), "logm0"), (1, "logtc"), (2, "early"), (3, "late")] → 
      ("std_u_" ++ r ++ "_ylo") ≠ q → ("std_u_" ++ r ++ "_yhi") ≠ q → ("cov_lgm_x0_" ++ r) ≠ q → s' i = s i := by
      intro r hr n1 n2 n3
      obtain ⟨a, b, c, e1, e2, e3, e4⟩ := h5 i r hr
      obtain ⟨a', b', c', f1, f2, f3, f4⟩ := g5 i r hr
      rw [lookup_setAt_ne p hnd n y q _ _ hn n1 e1] at f1
      rw [lookup_setAt_ne p hnd n y q _ _ hn n2 e2] at f2
      rw [lookup_setAt_ne p hnd n y q _ _ hn n3 e3] at f3
      cases f1; cases f2; cases f3
      rw [f4, e4]
    have nn : ∀ m : String, ("rho_".toList).isPrefixOf m.toList = false → m ≠ q := by
      intro m hm h
      rw [h, hqr] at hm
      cases hm
    fin_cases i
    · exact key "logm0" (by simp) (nn _ (by decide)) (nn _ (by decide)) (nn _ (by decide))
    · exact key "logtc" (by simp) (nn _ (by decide)) (nn _ (by decide)) (nn _ (by decide))
    · exact key "early" (by simp) (nn _ (by decide)) (nn _ (by decide)) (nn _ (by decide))
    · exact key "late" (by simp) (nn _ (by decide)) (nn _ (by decide)) (nn _ (by decide))
  obtain ⟨rho, r1, -, r2⟩ := g6 i j q hq
  rw [lookup_setAt_self p hnd n y q hn] at r1
  cases r1
  refine ⟨C', g1, ?_, ?_, g3, ?_⟩
  · rw [r2, hs, hs, mul_assoc]
  · rw [g2.apply i j, r2, hs, hs, mul_assoc]
  intro C₀ hC₀
  rw [h1] at hC₀
  cases hC₀
  have low : ∀ a b, b < a → (a, b) ≠ (i, j) → C' a b = C a b := by
    intro a b hab hne
    obtain ⟨q', hq'⟩ : ∃ q', (a, b, q') ∈ RHO_AT := by
      unfold RHO_AT
      fin_cases a <;> fin_cases b <;> simp at hab ⊢
    obtain ⟨rho, e1, -, e2⟩ := h6 a b q' hq'
    obtain ⟨rho', e1', -, e2'⟩ := g6 a b q' hq'
    have hqq : q' ≠ q := by
      rintro rfl
      apply hne
      simp only [RHO_AT, List.mem_cons, List.not_mem_nil, or_false, Prod.mk.injEq] at hq hq'
      rcases hq with ⟨rfl, rfl, rfl⟩ | ⟨rfl, rfl, rfl⟩ | ⟨rfl, rfl, rfl⟩ | ⟨rfl, rfl, rfl⟩ | ⟨rfl, rfl, rfl⟩ | ⟨rfl, rfl, rfl⟩ <;>
        simpa using hq'
    rw [lookup_setAt_ne p hnd n y q _ _ hn hqq e1] at e1'
    cases e1'
    rw [e2, e2', hs, hs]
  intro a b n1 n2
  rcases lt_trichotomy a b with hab | rfl | hab
  · rw [g2.apply b a, h2.apply b a]
    exact low b a hab (by rintro ⟨⟩; exact n2 rfl)
  · rw [(h4 a).2.2, (g4 a).2.2, hs]
  · exact low a b hab n1

end PopGrad

end Diffmah

import Verif.Lemmas.PopGradTri
import Verif.Lemmas.PopGradReal

/-!
# `value_and_grad` of code that runs on every number system
-/

namespace Diffmah

namespace PopGrad

open JOps JMinMax JFlow Pop TPeak PopParams MC

/-- A run that succeeds and applies every operation at a point where it is differentiable. -/
def Regular (r : RandM Reg) : Prop := ∃ a ks, r = .ok (a, ks) ∧ a.ok

section
variable {E : Env ℝ} {ED : Env Dual} (hE : E.Differentiates ED)

/-- The parameters on `Tri`, of which number `i` is the variable. -/
noncomputable def seedTri (x : ℝ) (p : NT ℝ) (i : ℕ) : NT (Tri x) :=
  p.mapIdx fun j kv => (kv.1, if j = i then ⟨fun y => y, ⟨x, 1⟩, True, rfl, fun _ => hasDerivAt_id x⟩ else lit kv.2)

theorem seedTri_eval (x y : ℝ) (p : NT ℝ) (i : ℕ) :
    (seedTri x p i).mapv (Tri.evalHom hE y).φ = setAt p i y := by
  unfold seedTri setAt NT.mapv
  apply List.ext_getElem
  · simp
  · intro j h1 h2
    simp only [List.getElem_map, List.getElem_mapIdx]
    split <;> rfl

theorem seedTri_dual (p : NT ℝ) (i : ℕ) :
    (seedTri (p.values.getD i 0) p i).mapv (Tri.dualHom hE).φ = seed p i := by
  unfold seedTri seed NT.mapv
  apply List.ext_getElem
  · simp
  · intro j h1 h2
    simp only [List.getElem_map, List.getElem_mapIdx]
    have hj : j < p.length := by simpa using h1
    by_cases h : j = i
    · subst h
      simp only [if_true]
      have : p.values.getD j 0 = p[j].2 := by
        simp [NT.values, List.getD_eq_getElem?_getD, hj]
      change (p[j].1, (⟨p.values.getD j 0, 1⟩ : Dual)) = (p[j].1, ⟨p[j].2, 1⟩)
      rw [this]
    · simp only [h, if_false]
      rfl

theorem seedTri_reg (p : NT ℝ) (i : ℕ) :
    (seedTri (p.values.getD i 0) p i).mapv (Tri.regHom hE).φ = p.mapv lit := by
  unfold seedTri NT.mapv
  apply List.ext_getElem
  · simp
  · intro j h1 h2
    simp only [List.getElem_mapIdx, List.getElem_map]
    have hj : j < p.length := by simpa using h1
    by_cases h : j = i
    · subst h
      simp only [if_true]
      have : p.values.getD j 0 = p[j].2 := by
        simp [NT.values, List.getD_eq_getElem?_getD, hj]
      change (p[j].1, (⟨p.values.getD j 0, True⟩ : Reg)) = (p[j].1, ⟨p[j].2, True⟩)
      rw [this]
    · simp only [h, if_false]
      rfl

theorem setAt_self (p : NT ℝ) (i : ℕ) : setAt p i (p.values.getD i 0) = p := by
  unfold setAt
  apply List.ext_getElem
  · simp
  · intro j h1 h2
    simp only [List.getElem_mapIdx]
    split
    · next h =>
      subst h
      simp [NT.values, List.getD_eq_getElem?_getD, h2]
    · rfl

theorem setAt_out (p : NT ℝ) (i : ℕ) (h : p.length ≤ i) (y : ℝ) : setAt p i y = p := by
  unfold setAt
  apply List.ext_getElem
  · simp
  · intro j h1 h2
    simp only [List.getElem_mapIdx]
    rw [if_neg (by omega)]

include hE in
theorem value_and_grad_ok (f : NT ℝ → RandM ℝ) (fD : NT Dual → RandM Dual) (fR : NT Reg → RandM Reg)
    (fT : ∀ x : ℝ, NT (Tri x) → RandM (Tri x))
    (he : ∀ x y p, f (p.mapv (Tri.evalHom (x := x) hE y).φ) = RandM.map (Tri.evalHom hE y).φ (fT x p))
    (hd : ∀ x p, fD (p.mapv (Tri.dualHom (x := x) hE).φ) = RandM.map (Tri.dualHom hE).φ (fT x p))
    (hr : ∀ x p, fR (p.mapv (Tri.regHom (x := x) hE).φ) = RandM.map (Tri.regHom hE).φ (fT x p))
    (p : NT ℝ) (hreg : Regular (fR (p.mapv lit))) :
    ∃ l g, value_and_grad f fD p = .ok (l, g) ∧ (f p).val? = some l ∧ IsGradient f p g := by
  have key : ∀ i, ∃ (h : ℝ → ℝ) (d : Dual) (ks : List Key),
      (∀ y, f (setAt p i y) = .ok (h y, ks)) ∧ fD (seed p i) = .ok (d, ks) ∧
      HasDerivAt h d.d (p.values.getD i 0) := by
    intro i
    obtain ⟨a, ks, ha, hok⟩ := hreg
    have h1 := hr _ (seedTri (p.values.getD i 0) p i)
    rw [seedTri_reg, ha] at h1
    have h2 := hd _ (seedTri (p.values.getD i 0) p i)
    rw [seedTri_dual] at h2
    have h3 := fun y => he _ y (seedTri (p.values.getD i 0) p i)
    simp only [seedTri_eval] at h3
    rcases ht : fT _ (seedTri (p.values.getD i 0) p i) with e | ⟨t, ks'⟩
    · rw [ht] at h1
      cases h1
    · rw [ht] at h1 h2
      simp only [ht] at h3
      refine ⟨t.f, t.D, ks', fun y => h3 y, h2, ?_⟩
      apply t.hd
      have : a = ⟨t.f (p.values.getD i 0), t.ok⟩ ∧ ks = ks' := by
        have := Except.ok.inj h1
        exact ⟨congrArg Prod.fst this, congrArg Prod.snd this⟩
      rw [this.1] at hok
      exact hok
  choose h d ks h1 h2 h3 using key
  have hv : f p = .ok (h p.length 0, ks p.length) := by
    have := h1 p.length 0
    rwa [setAt_out p _ le_rfl] at this
  have hm : (List.range p.length).mapM (fun i => (do
      let t ← fD (seed p i)
      return t.1.d : Except PyErr ℝ)) = .ok ((List.range p.length).map fun i => (d i).d) := by
    generalize List.range p.length = l
    induction l with
    | nil => rfl
    | cons i l ih =>
      rw [List.mapM_cons, ih, h2]
      rfl
  refine ⟨h p.length 0, p.fields.zip ((List.range p.length).map fun i => (d i).d), ?_, ?_, ?_, ?_⟩
  · unfold value_and_grad
    rw [hv, hm]
    rfl
  · rw [hv]
    rfl
  · unfold NT.fields
    rw [List.map_fst_zip]
    simp
  · intro i hi
    refine ⟨h i, fun y => ?_, ?_⟩
    · rw [h1]
      rfl
    · have e : (p.fields.zip ((List.range p.length).map fun i => (d i).d)).map Prod.snd =
          (List.range p.length).map fun i => (d i).d := by
        rw [List.map_snd_zip]
        simp [NT.fields]
      have : (NT.values (p.fields.zip ((List.range p.length).map fun i => (d i).d))).getD i 0 = (d i).d := by
        unfold NT.values
        rw [e]
        simp [List.getD_eq_getElem?_getD, hi]
      rw [this]
      exact h3 i

end

variable (ext : Ext) (rng : Rng)

section
variable {ED : Env Dual} (hE : (Env.real ext rng).Differentiates ED)
include hE

theorem grad_cens (u : NT ℝ) (bins : List PopLoss.Bin) (k : Key) (lgt0 : ℝ)
    (hr : Regular (loss_mah_moments_multibin_u_params (Env.real ext rng).reg (u.mapv lit) bins k lgt0)) :
    ∃ l g, loss_and_grads_cens ext rng ED u bins k lgt0 = .ok (l, g) ∧
      (PopLoss.loss_mah_moments_multibin_u_params ext rng u bins k lgt0).val? = some l ∧
      IsGradient (fun u => PopLoss.loss_mah_moments_multibin_u_params ext rng u bins k lgt0) u g := by
  refine value_and_grad_ok hE _ _ (fun p => loss_mah_moments_multibin_u_params (Env.real ext rng).reg p bins k lgt0)
    (fun x p => loss_mah_moments_multibin_u_params (Tri.env hE) p bins k lgt0) ?_ ?_ ?_ u hr
  · intro x y p
    rw [← u_params_real]
    exact (Tri.evalHom hE y).loss_u p bins k lgt0
  · intro x p
    exact (Tri.dualHom hE).loss_u p bins k lgt0
  · intro x p
    exact (Tri.regHom hE).loss_u p bins k lgt0

theorem grad_sats (kind : Kind) (p : NT ℝ) (bins : List PopLoss.Bin) (k : Key) (lgt0 : ℝ)
    (hr : Regular (loss_mah_moments_multibin (Env.real ext rng).reg kind (p.mapv lit) bins k lgt0)) :
    ∃ l g, value_and_grad (fun p => PopLoss.loss_mah_moments_multibin ext rng kind p bins k lgt0)
        (fun p => loss_mah_moments_multibin ED kind p bins k lgt0) p = .ok (l, g) ∧
      (PopLoss.loss_mah_moments_multibin ext rng kind p bins k lgt0).val? = some l ∧
      IsGradient (fun p => PopLoss.loss_mah_moments_multibin ext rng kind p bins k lgt0) p g := by
  refine value_and_grad_ok hE _ _ (fun p => loss_mah_moments_multibin (Env.real ext rng).reg kind p bins k lgt0)
    (fun x p => loss_mah_moments_multibin (Tri.env hE) kind p bins k lgt0) ?_ ?_ ?_ p hr
  · intro x y p
    rw [← multibin_real]
    exact (Tri.evalHom hE y).multibin kind p bins k lgt0
  · intro x p
    exact (Tri.dualHom hE).multibin kind p bins k lgt0
  · intro x p
    exact (Tri.regHom hE).multibin kind p bins k lgt0

theorem grad_censat (p : NT ℝ) (bc bs : List PopLoss.Bin) (k : Key) (lgt0 : ℝ)
    (hr : Regular (loss_mah_moments_multibin_censat (Env.real ext rng).reg (p.mapv lit) bc bs k lgt0)) :
    ∃ l g, loss_and_grads_censat ext rng ED p bc bs k lgt0 = .ok (l, g) ∧
      (PopLoss.loss_mah_moments_multibin_censat ext rng p bc bs k lgt0).val? = some l ∧
      IsGradient (fun p => PopLoss.loss_mah_moments_multibin_censat ext rng p bc bs k lgt0) p g := by
  refine value_and_grad_ok hE _ _ (fun p => loss_mah_moments_multibin_censat (Env.real ext rng).reg p bc bs k lgt0)
    (fun x p => loss_mah_moments_multibin_censat (Tri.env hE) p bc bs k lgt0) ?_ ?_ ?_ p hr
  · intro x y p
    rw [← censat_real]
    exact (Tri.evalHom hE y).censat p bc bs k lgt0
  · intro x p
    exact (Tri.dualHom hE).censat p bc bs k lgt0
  · intro x p
    exact (Tri.regHom hE).censat p bc bs k lgt0

theorem grad_censat_u (u : NT ℝ) (bc bs : List PopLoss.Bin) (k : Key) (lgt0 : ℝ)
    (hr : Regular (loss_mah_moments_multibin_censat_u_params (Env.real ext rng).reg (u.mapv lit) bc bs k lgt0)) :
    ∃ l g, loss_and_grads_censat_u_params ext rng ED u bc bs k lgt0 = .ok (l, g) ∧
      (PopLoss.loss_mah_moments_multibin_censat_u_params ext rng u bc bs k lgt0).val? = some l ∧
      IsGradient (fun u => PopLoss.loss_mah_moments_multibin_censat_u_params ext rng u bc bs k lgt0) u g := by
  refine value_and_grad_ok hE _ _ (fun p => loss_mah_moments_multibin_censat_u_params (Env.real ext rng).reg p bc bs k lgt0)
    (fun x p => loss_mah_moments_multibin_censat_u_params (Tri.env hE) p bc bs k lgt0) ?_ ?_ ?_ u hr
  · intro x y p
    rw [← censat_u_real]
    exact (Tri.evalHom hE y).censat_u p bc bs k lgt0
  · intro x p
    exact (Tri.dualHom hE).censat_u p bc bs k lgt0
  · intro x p
    exact (Tri.regHom hE).censat_u p bc bs k lgt0

end

end PopGrad

end Diffmah

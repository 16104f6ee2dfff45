import Verif.Lemmas.PopGradReal
import Verif.Model.Normal
import Mathlib.MeasureTheory.Function.SpecialFunctions.Basic
import Mathlib.MeasureTheory.Constructions.BorelSpace.Order
import Mathlib.Analysis.SpecialFunctions.Sigmoid

/-!
# The population code depends measurably on its inputs

The generic code of the population model is run on measurable functions; evaluation at a point is a
homomorphism to the reals.
-/

namespace Diffmah

open JOps JMinMax JFlow MeasureTheory

/-- Measurable real functions on `S` -/
structure MF (S : Type) [MeasurableSpace S] where
  f : S → ℝ
  meas : Measurable f

namespace MF

variable {S : Type} [MeasurableSpace S]

noncomputable instance : Add (MF S) := ⟨fun a b => ⟨fun s => a.f s + b.f s, a.meas.add b.meas⟩⟩
noncomputable instance : Sub (MF S) := ⟨fun a b => ⟨fun s => a.f s - b.f s, a.meas.sub b.meas⟩⟩
noncomputable instance : Mul (MF S) := ⟨fun a b => ⟨fun s => a.f s * b.f s, a.meas.mul b.meas⟩⟩
noncomputable instance : Div (MF S) := ⟨fun a b => ⟨fun s => a.f s / b.f s, a.meas.div b.meas⟩⟩

noncomputable instance : JOps (MF S) where
  lit r := ⟨fun _ => r, measurable_const⟩
  sigm a := ⟨fun s => Real.sigmoid (a.f s), continuous_sigmoid.measurable.comp a.meas⟩
  ln a := ⟨fun s => Real.log (a.f s), a.meas.log⟩
  log10 a := ⟨fun s => Real.logb 10 (a.f s), a.meas.log.div_const _⟩
  pow10 a := ⟨fun s => (10 : ℝ) ^ a.f s, measurable_const.pow a.meas⟩
  lt a b := ∀ s, a.f s < b.f s

noncomputable instance : JMinMax (MF S) where
  jmax a b := ⟨fun s => max (a.f s) (b.f s), a.meas.max b.meas⟩
  jmin a b := ⟨fun s => min (a.f s) (b.f s), a.meas.min b.meas⟩

theorem jwhere_meas {c : S → Prop} (hc : MeasurableSet {s | c s}) {x y : S → ℝ} (hx : Measurable x)
    (hy : Measurable y) : Measurable fun s => jwhere (c s) (x s) (y s) := by
  classical
  exact Measurable.ite hc hx hy

theorem countLe_meas (x : MF S) (xp : List (MF S)) :
    Measurable fun s => countLe (x.f s) (xp.map fun a => a.f s) := by
  classical
  induction xp with
  | nil => exact measurable_const
  | cons a xp ih =>
    have : (fun s => countLe (x.f s) ((a :: xp).map fun a => a.f s)) = fun s =>
        (if a.f s ≤ x.f s then 1 else 0) + countLe (x.f s) (xp.map fun a => a.f s) := by
      funext s
      unfold countLe
      rw [List.map_cons, List.filter_cons]
      by_cases h : a.f s ≤ x.f s
      · simp [h]; omega
      · simp [h]
    rw [this]
    exact (Measurable.ite (measurableSet_le a.meas x.meas) measurable_const measurable_const).add ih

noncomputable instance : JFlow (MF S) where
  whereLt a b x y := ⟨fun s => jwhere (a.f s < b.f s) (x.f s) (y.f s),
    jwhere_meas (measurableSet_lt a.meas b.meas) x.meas y.meas⟩
  whereAbsLe a b x y := ⟨fun s => jwhere (|a.f s| ≤ b.f s) (x.f s) (y.f s),
    jwhere_meas (measurableSet_le a.meas.abs b.meas) x.meas y.meas⟩
  whereZero a x y := ⟨fun s => jwhere (a.f s = 0) (x.f s) (y.f s),
    jwhere_meas (measurableSet_eq_fun a.meas measurable_const) x.meas y.meas⟩
  gather x xp k := ⟨fun s => (k (countLe (x.f s) (xp.map fun a => a.f s))).f s, by
    have h1 : Measurable fun q : ℕ × S => (k q.1).f q.2 :=
      measurable_from_prod_countable_right fun n => (k n).meas
    exact h1.comp ((countLe_meas x xp).prodMk measurable_id)⟩
  sqrt a := ⟨fun s => Real.sqrt (a.f s), a.meas.sqrt⟩

/-- No external functions -/
def noEnv (α : Type) : Env α := ⟨fun _ => 0, fun _ _ _ => [], 0, fun x _ _ _ _ => x⟩

/-- Evaluation at a point -/
noncomputable def eval (s : S) : Hom (MF S) ℝ (noEnv (MF S)) (noEnv ℝ) where
  φ a := a.f s
  add _ _ := rfl
  sub _ _ := rfl
  mul _ _ := rfl
  div _ _ := rfl
  lit _ := rfl
  sigm _ := rfl
  ln _ := rfl
  log10 _ := rfl
  pow10 _ := rfl
  jmax _ _ := rfl
  jmin _ _ := rfl
  whereLt _ _ _ _ := rfl
  whereAbsLe _ _ _ _ := rfl
  whereZero _ _ _ := rfl
  gather _ _ _ := rfl
  sqrt _ := rfl
  uniform _ := rfl
  eps := rfl
  mvn _ _ _ _ _ _ := rfl
  cdf _ _ _ _ _ := rfl

open Pop PopParams MC

theorem lit_eval (p : NT ℝ) (s : S) : ((p.mapv lit : NT (MF S)).mapv (eval s).φ) = p := by
  rw [← (eval s).lit_mapv]
  exact PopGrad.mapv_lit_real p

/-- The mean parameters of a halo depend measurably on its peak time. -/
theorem mean_early_meas (kind : Kind) (p : NT ℝ) (lgm t_obs : ℝ) (T : MF S) {e : S → MahParams ℝ}
    (he : ∀ s, mean_diffmah_params_early_t_peak kind p lgm t_obs (T.f s) = .ok (e s)) :
    ∃ e' : MahParams (MF S), ∀ s, e s = e'.map (eval s).φ := by
  rcases isEmpty_or_nonempty S with hS | ⟨⟨s0⟩⟩
  · exact ⟨⟨lit 0, lit 0, lit 0, lit 0, lit 0⟩, fun s => (hS.false s).elim⟩
  have h : ∀ s, .ok (e s) = Except.map (MahParams.map (eval s).φ)
      (mean_diffmah_params_early_t_peak kind (p.mapv lit : NT (MF S)) (lit lgm) (lit t_obs) T) := by
    intro s
    rw [← he s, ← (eval s).mean_early, lit_eval]
    rfl
  cases h' : mean_diffmah_params_early_t_peak kind (p.mapv lit : NT (MF S)) (lit lgm) (lit t_obs) T with
  | error x => have := h s0; rw [h'] at this; cases this
  | ok e' =>
    refine ⟨e', fun s => ?_⟩
    have := h s
    rw [h'] at this
    exact Except.ok.inj this

theorem mean_late_meas (kind : Kind) (p : NT ℝ) (lgm t_obs : ℝ) (T : MF S) {e : S → MahParams ℝ}
    (he : ∀ s, mean_diffmah_params_late_t_peak kind p lgm t_obs (T.f s) = .ok (e s)) :
    ∃ e' : MahParams (MF S), ∀ s, e s = e'.map (eval s).φ := by
  rcases isEmpty_or_nonempty S with hS | ⟨⟨s0⟩⟩
  · exact ⟨⟨lit 0, lit 0, lit 0, lit 0, lit 0⟩, fun s => (hS.false s).elim⟩
  have h : ∀ s, .ok (e s) = Except.map (MahParams.map (eval s).φ)
      (mean_diffmah_params_late_t_peak kind (p.mapv lit : NT (MF S)) (lit lgm) (lit t_obs) T) := by
    intro s
    rw [← he s, ← (eval s).mean_late, lit_eval]
    rfl
  cases h' : mean_diffmah_params_late_t_peak kind (p.mapv lit : NT (MF S)) (lit lgm) (lit t_obs) T with
  | error x => have := h s0; rw [h'] at this; cases this
  | ok e' =>
    refine ⟨e', fun s => ?_⟩
    have := h s
    rw [h'] at this
    exact Except.ok.inj this

/-- The normal draws around mean parameters that depend measurably on `s`. -/
theorem draw_meas (e : MahParams (MF S)) {z : S → Fin 4 → ℝ} (hz : Measurable z) (C : Fin 4 → Fin 4 → ℝ)
    {x : S → MahParams ℝ} (hx : ∀ s, x s = get_bounded_mah_params
      (let u := get_unbounded_mah_params (e.map (eval s).φ)
       let v := multivariate_normal (z s) [u.u_logm0, u.u_logtc, u.u_early_index, u.u_late_index] C
       ⟨v.getD 0 0, v.getD 1 0, v.getD 2 0, v.getD 3 0, u.u_t_peak⟩)) :
    ∃ x' : MahParams (MF S), ∀ s, x s = x'.map (eval s).φ := by
  let u := get_unbounded_mah_params e
  let Z : Fin 4 → MF S := fun i => ⟨fun s => z s i, (measurable_pi_apply i).comp hz⟩
  let L := cholesky (symmetrize C)
  let row (i : Fin 4) : MF S :=
    lit (L i 0) * Z 0 + lit (L i 1) * Z 1 + lit (L i 2) * Z 2 + lit (L i 3) * Z 3
  refine ⟨get_bounded_mah_params ⟨u.u_logm0 + row 0, u.u_logtc + row 1, u.u_early_index + row 2,
    u.u_late_index + row 3, u.u_t_peak⟩, fun s => ?_⟩
  rw [hx, ← (eval s).bounded_mah, (eval s).unbounded_mah]
  rfl

/-- The history of a halo whose parameters depend measurably on `s`. -/
theorem log_mah_meas (x : MahParams (MF S)) (t lgt0 : ℝ) :
    Measurable fun s => log_mah_kern (x.map (eval s).φ) t lgt0 := by
  have : (fun s => log_mah_kern (x.map (eval s).φ) t lgt0) =
      fun s => (PopGrad.log_mah x (lit t) (lit lgt0)).f s := by
    funext s
    change _ = (eval s).φ (PopGrad.log_mah x (lit t) (lit lgt0))
    rw [← (eval s).log_mah]
    rfl
  rw [this]
  exact (PopGrad.log_mah x (lit t) (lit lgt0)).meas

end MF

end Diffmah

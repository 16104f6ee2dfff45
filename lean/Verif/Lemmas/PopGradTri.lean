import Verif.Lemmas.PopGradHom
import Verif.SpecGrad
import Verif.Lemmas.CompLoss

/-!
# Values, tangents and regularity at once

`Tri x` carries a function, a dual number and a regularity condition under which the dual number is the
value and the derivative of the function at `x`. Its projections to `ℝ` (evaluation anywhere), `Dual` and
`Reg` are homomorphisms, so one run of the generic code on `Tri` relates its runs on the three.
-/

namespace Diffmah

open JOps JMinMax JFlow

/-- A function, a dual number, and when the latter describes the former at `x`. -/
structure Tri (x : ℝ) where
  f : ℝ → ℝ
  D : Dual
  ok : Prop
  hv : D.v = f x
  hd : ok → HasDerivAt f D.d x

namespace Tri

variable {x : ℝ}

theorem isAD (a : Tri x) (h : a.ok) : IsAD a.f x a.D := ⟨a.hv, a.hd h⟩

noncomputable instance : Add (Tri x) := ⟨fun a b =>
  ⟨fun y => a.f y + b.f y, a.D + b.D, a.ok ∧ b.ok, by change a.D.v + b.D.v = _; rw [a.hv, b.hv],
    fun h => ((a.isAD h.1).add (b.isAD h.2)).2⟩⟩

noncomputable instance : Sub (Tri x) := ⟨fun a b =>
  ⟨fun y => a.f y - b.f y, a.D - b.D, a.ok ∧ b.ok, by change a.D.v - b.D.v = _; rw [a.hv, b.hv],
    fun h => ((a.isAD h.1).sub (b.isAD h.2)).2⟩⟩

noncomputable instance : Mul (Tri x) := ⟨fun a b =>
  ⟨fun y => a.f y * b.f y, a.D * b.D, a.ok ∧ b.ok, by change a.D.v * b.D.v = _; rw [a.hv, b.hv],
    fun h => ((a.isAD h.1).mul (b.isAD h.2)).2⟩⟩

noncomputable instance : Div (Tri x) := ⟨fun a b =>
  ⟨fun y => a.f y / b.f y, a.D / b.D, a.ok ∧ b.ok ∧ b.f x ≠ 0,
    by change a.D.v / b.D.v = _; rw [a.hv, b.hv],
    fun h => ((a.isAD h.1).div (b.isAD h.2.1) h.2.2).2⟩⟩

noncomputable instance : JOps (Tri x) where
  lit r := ⟨fun _ => r, ⟨r, 0⟩, True, rfl, fun _ => hasDerivAt_const x r⟩
  sigm a := ⟨fun y => Real.sigmoid (a.f y), sigm a.D, a.ok, by change Real.sigmoid a.D.v = _; rw [a.hv],
    fun h => (a.isAD h).sigm.2⟩
  ln a := ⟨fun y => Real.log (a.f y), ln a.D, a.ok ∧ 0 < a.f x, by change Real.log a.D.v = _; rw [a.hv],
    fun h => ((a.isAD h.1).ln h.2.ne').2⟩
  log10 a := ⟨fun y => Real.logb 10 (a.f y), log10 a.D, a.ok ∧ 0 < a.f x,
    by change Real.logb 10 a.D.v = _; rw [a.hv], fun h => ((a.isAD h.1).log10 h.2.ne').2⟩
  pow10 a := ⟨fun y => (10 : ℝ) ^ a.f y, pow10 a.D, a.ok, by change (10 : ℝ) ^ a.D.v = _; rw [a.hv],
    fun h => (a.isAD h).pow10.2⟩
  lt a b := a.f x < b.f x

theorem jmax_v (a b : Dual) : (jmax a b).v = max a.v b.v := by
  change (if a.v < b.v then b else if b.v < a.v then a else ⟨a.v, (a.d + b.d) / 2⟩).v = _
  split
  · next h => exact (max_eq_right h.le).symm
  · next h =>
    split
    · next h' => exact (max_eq_left h'.le).symm
    · exact (max_eq_left (not_lt.1 h)).symm

theorem jmin_v (a b : Dual) : (jmin a b).v = min a.v b.v := by
  change (if a.v < b.v then a else if b.v < a.v then b else ⟨a.v, (a.d + b.d) / 2⟩).v = _
  split
  · next h => exact (min_eq_left h.le).symm
  · next h =>
    split
    · next h' => exact (min_eq_right h'.le).symm
    · next h' => exact (min_eq_left (not_lt.1 h')).symm

noncomputable instance : JMinMax (Tri x) where
  jmax a b := ⟨fun y => max (a.f y) (b.f y), jmax a.D b.D, a.ok ∧ b.ok ∧ a.f x ≠ b.f x,
    by rw [jmax_v, a.hv, b.hv], fun h => (IsAD.jmax (a.isAD h.1) (b.isAD h.2.1) h.2.2).2⟩
  jmin a b := ⟨fun y => min (a.f y) (b.f y), jmin a.D b.D, a.ok ∧ b.ok ∧ a.f x ≠ b.f x,
    by rw [jmin_v, a.hv, b.hv], fun h => (IsAD.jmin (a.isAD h.1) (b.isAD h.2.1) h.2.2).2⟩

/-- A selection whose condition does not change near `x`. -/
theorem where_deriv {c : ℝ → Prop} {cD : Prop} (hc : cD ↔ c x) (a b : Tri x) (ha : a.ok) (hb : b.ok)
    (he : ∀ᶠ y in nhds x, (c y ↔ c x)) :
    HasDerivAt (fun y => jwhere (c y) (a.f y) (b.f y)) (jwhere cD a.D b.D).d x := by
  by_cases h : c x
  · have e : (fun y => jwhere (c y) (a.f y) (b.f y)) =ᶠ[nhds x] a.f := by
      filter_upwards [he] with y hy
      exact if_pos (hy.2 h)
    rw [show jwhere cD a.D b.D = a.D from if_pos (hc.2 h)]
    exact (a.hd ha).congr_of_eventuallyEq e
  · have e : (fun y => jwhere (c y) (a.f y) (b.f y)) =ᶠ[nhds x] b.f := by
      filter_upwards [he] with y hy
      exact if_neg (fun hh => h (hy.1 hh))
    rw [show jwhere cD a.D b.D = b.D from if_neg (fun hh => h (hc.1 hh))]
    exact (b.hd hb).congr_of_eventuallyEq e

theorem where_value {c : ℝ → Prop} {cD : Prop} (hc : cD ↔ c x) (a b : Tri x) :
    (jwhere cD a.D b.D).v = jwhere (c x) (a.f x) (b.f x) := by
  by_cases h : c x
  · rw [show jwhere cD a.D b.D = a.D from if_pos (hc.2 h), show jwhere (c x) (a.f x) (b.f x) = a.f x from if_pos h]
    exact a.hv
  · rw [show jwhere cD a.D b.D = b.D from if_neg (fun hh => h (hc.1 hh)),
      show jwhere (c x) (a.f x) (b.f x) = b.f x from if_neg h]
    exact b.hv

theorem lt_stable {f g : ℝ → ℝ} (hf : ContinuousAt f x) (hg : ContinuousAt g x) (hne : f x ≠ g x) :
    ∀ᶠ y in nhds x, (f y < g y ↔ f x < g x) := by
  rcases lt_or_gt_of_ne hne with h | h
  · filter_upwards [hf.eventually_lt hg h] with y hy
    exact ⟨fun _ => h, fun _ => hy⟩
  · filter_upwards [hg.eventually_lt hf h] with y hy
    exact ⟨fun h' => absurd h' (not_lt.2 hy.le), fun h' => absurd h' (not_lt.2 h.le)⟩

theorem le_stable {f g : ℝ → ℝ} (hf : ContinuousAt f x) (hg : ContinuousAt g x) (hne : f x ≠ g x) :
    ∀ᶠ y in nhds x, (f y ≤ g y ↔ f x ≤ g x) := by
  filter_upwards [lt_stable hg hf hne.symm] with y hy
  rw [← not_lt, ← not_lt, hy]

theorem count_stable {g : ℝ → ℝ} (hg : ContinuousAt g x) (l : List (ℝ → ℝ))
    (hl : ∀ a ∈ l, ContinuousAt a x ∧ a x ≠ g x) :
    ∀ᶠ y in nhds x, countLe (g y) (l.map fun a => a y) = countLe (g x) (l.map fun a => a x) := by
  induction l with
  | nil => exact Filter.Eventually.of_forall fun _ => rfl
  | cons a l ih =>
    obtain ⟨h1, h2⟩ := hl a List.mem_cons_self
    filter_upwards [ih fun b hb => hl b (List.mem_cons_of_mem _ hb), le_stable h1 hg h2] with y hy hay
    unfold countLe at hy ⊢
    simp only [List.map_cons, List.filter_cons]
    by_cases h : a x ≤ g x
    · simp only [h, hay.2 h, decide_true, if_true, List.length_cons, hy]
    · have h' : ¬ a y ≤ g y := fun hh => h (hay.1 hh)
      simp only [h, h', decide_false, Bool.false_eq_true, if_false, hy]

noncomputable instance : JFlow (Tri x) where
  whereLt a b u v := ⟨fun y => jwhere (a.f y < b.f y) (u.f y) (v.f y), jwhere (a.D.v < b.D.v) u.D v.D,
    a.ok ∧ b.ok ∧ u.ok ∧ v.ok ∧ a.f x ≠ b.f x,
    where_value (c := fun y => a.f y < b.f y) (by rw [a.hv, b.hv]) u v,
    fun h => where_deriv (c := fun y => a.f y < b.f y) (by rw [a.hv, b.hv]) u v h.2.2.1 h.2.2.2.1
      (lt_stable (a.hd h.1).continuousAt (b.hd h.2.1).continuousAt h.2.2.2.2)⟩
  whereAbsLe a b u v := ⟨fun y => jwhere (|a.f y| ≤ b.f y) (u.f y) (v.f y), jwhere (|a.D.v| ≤ b.D.v) u.D v.D,
    a.ok ∧ b.ok ∧ u.ok ∧ v.ok ∧ |a.f x| ≠ b.f x,
    where_value (c := fun y => |a.f y| ≤ b.f y) (by rw [a.hv, b.hv]) u v,
    fun h => where_deriv (c := fun y => |a.f y| ≤ b.f y) (by rw [a.hv, b.hv]) u v h.2.2.1 h.2.2.2.1
      (le_stable (f := fun y => |a.f y|) (a.hd h.1).continuousAt.abs (b.hd h.2.1).continuousAt h.2.2.2.2)⟩
  whereZero a u v := ⟨fun y => jwhere (a.f y = 0) (u.f y) (v.f y), jwhere (a.D.v = 0) u.D v.D,
    a.ok ∧ u.ok ∧ v.ok ∧ a.f x ≠ 0,
    where_value (c := fun y => a.f y = 0) (by rw [a.hv]) u v,
    fun h => where_deriv (c := fun y => a.f y = 0) (by rw [a.hv]) u v h.2.1 h.2.2.1 (by
      filter_upwards [(a.hd h.1).continuousAt.eventually_ne h.2.2.2] with y hy
      exact ⟨fun e => absurd e hy, fun e => absurd e h.2.2.2⟩)⟩
  gather t xp k := ⟨fun y => (k (countLe (t.f y) (xp.map fun a => a.f y))).f y,
    (k (countLe t.D.v (xp.map fun a => a.D.v))).D,
    (k (countLe (t.f x) (xp.map fun a => a.f x))).ok ∧ t.ok ∧ ∀ a ∈ xp, a.ok ∧ a.f x ≠ t.f x, by
      rw [(k _).hv, t.hv]
      simp only [Tri.hv], by
      rintro ⟨h1, h2, h3⟩
      have hD : (k (countLe t.D.v (xp.map fun a => a.D.v))) = k (countLe (t.f x) (xp.map fun a => a.f x)) := by
        rw [t.hv]
        simp only [Tri.hv]
      rw [hD]
      refine ((k _).hd h1).congr_of_eventuallyEq ?_
      have := count_stable (t.hd h2).continuousAt (xp.map Tri.f) (by
        intro a ha
        obtain ⟨b, hb, rfl⟩ := List.mem_map.1 ha
        exact ⟨(b.hd (h3 b hb).1).continuousAt, (h3 b hb).2⟩)
      filter_upwards [this] with y hy
      simp only [List.map_map, Function.comp_def] at hy
      rw [hy]⟩
  sqrt a := ⟨fun y => Real.sqrt (a.f y), sqrt a.D, a.ok ∧ 0 < a.f x,
    by change Real.sqrt a.D.v = _; rw [a.hv], fun h => by
      change HasDerivAt _ (a.D.d / (2 * Real.sqrt a.D.v)) x
      rw [a.hv]
      exact (a.hd h.1).sqrt h.2.ne'⟩

/-- The external functions on `Tri`. -/
noncomputable def env {E : Env ℝ} {ED : Env Dual} (hE : E.Differentiates ED) : Env (Tri x) where
  uniform := E.uniform
  mvn k m s :=
    match m with
    | [a, b, c, d] => List.ofFn fun n : Fin 4 =>
      ⟨fun y => (E.mvn k [a.f y, b.f y, c.f y, d.f y] fun i j => (s i j).f y).getD n 0,
        (ED.mvn k [a.D, b.D, c.D, d.D] fun i j => (s i j).D).getD n (Dual.const 0),
        (∀ e ∈ [a, b, c, d], e.ok) ∧ (∀ i j, (s i j).ok) ∧ (Matrix.of fun i j => (s i j).f x).PosDef, by
          have := hE.mvn_value k a.D b.D c.D d.D fun i j => (s i j).D
          simp only [Tri.hv] at this
          rw [← this, List.getD_eq_getElem?_getD, List.getD_eq_getElem?_getD, List.getElem?_map]
          cases (ED.mvn k [a.D, b.D, c.D, d.D] fun i j => (s i j).D)[n.1]? <;> rfl,
        fun h => hE.mvn_deriv k a.f b.f c.f d.f a.D b.D c.D d.D (fun i j => (s i j).f) (fun i j => (s i j).D) x
          (a.isAD (h.1 a (by simp))) (b.isAD (h.1 b (by simp))) (c.isAD (h.1 c (by simp)))
          (d.isAD (h.1 d (by simp))) (fun i j => (s i j).isAD (h.2.1 i j)) h.2.2 n.1
          n.2⟩
    | _ => []
  interp_eps := E.interp_eps
  truncnorm_cdf t a b l s :=
    ⟨fun y => E.truncnorm_cdf (t.f y) (a.f y) (b.f y) (l.f y) (s.f y), ED.truncnorm_cdf t.D a.D b.D l.D s.D,
      t.ok ∧ a.ok ∧ b.ok ∧ l.ok ∧ s.ok ∧ 0 < s.f x ∧ l.f x + a.f x * s.f x < t.f x ∧
        t.f x < l.f x + b.f x * s.f x,
      by rw [hE.cdf_value]; simp only [Tri.hv],
      fun h => hE.cdf_deriv t.f a.f b.f l.f s.f t.D a.D b.D l.D s.D x (t.isAD h.1) (a.isAD h.2.1)
        (b.isAD h.2.2.1) (l.isAD h.2.2.2.1) (s.isAD h.2.2.2.2.1) h.2.2.2.2.2.1 h.2.2.2.2.2.2.1
        h.2.2.2.2.2.2.2⟩

variable {E : Env ℝ} {ED : Env Dual} (hE : E.Differentiates ED)

theorem map_getD_range {β : Type} (l : List β) (d : β) (n : ℕ) (h : l.length = n) :
    List.ofFn (fun i : Fin n => l.getD i d) = l := by
  apply List.ext_getElem
  · simp [h]
  · intro i h1 h2
    simp [List.getD_eq_getElem?_getD, h2]

/-- Evaluation at a point. -/
noncomputable def evalHom (y : ℝ) : Hom (Tri x) ℝ (env hE) E where
  φ a := a.f y
  add _ _ := rfl
  sub _ _ := rfl
  mul _ _ := rfl
  div _ _ := rfl
  lit _ := rfl
  sigm _ := rfl
  ln _ := rfl
  log10 _ := rfl
  pow10 _ := rfl
  jmax _ _ := rfl
  jmin _ _ := rfl
  whereLt _ _ _ _ := rfl
  whereAbsLe _ _ _ _ := rfl
  whereZero _ _ _ := rfl
  gather _ _ _ := rfl
  sqrt _ := rfl
  uniform _ := rfl
  eps := rfl
  mvn k a b c d s := by
    have := map_getD_range _ (0 : ℝ) 4
      (hE.mvn_length k (a.f y) (b.f y) (c.f y) (d.f y) fun i j => (s i j).f y)
    conv_rhs => rw [← this]
    simp only [env, List.map_ofFn, Function.comp_def]
  cdf _ _ _ _ _ := rfl

/-- The dual number. -/
noncomputable def dualHom : Hom (Tri x) Dual (env hE) ED where
  φ a := a.D
  add _ _ := rfl
  sub _ _ := rfl
  mul _ _ := rfl
  div _ _ := rfl
  lit _ := rfl
  sigm _ := rfl
  ln _ := rfl
  log10 _ := rfl
  pow10 _ := rfl
  jmax _ _ := rfl
  jmin _ _ := rfl
  whereLt _ _ _ _ := rfl
  whereAbsLe _ _ _ _ := rfl
  whereZero _ _ _ := rfl
  gather t xp k := by
    change _ = (k (countLe t.D.v ((xp.map Tri.D).map Dual.v))).D
    rw [List.map_map]
    rfl
  sqrt _ := rfl
  uniform k := (hE.uniform k).symm
  eps := hE.eps.symm
  mvn k a b c d s := by
    have hl : (ED.mvn k [a.D, b.D, c.D, d.D] fun i j => (s i j).D).length = 4 := by
      have := congrArg List.length (hE.mvn_value k a.D b.D c.D d.D fun i j => (s i j).D)
      rw [List.length_map, hE.mvn_length] at this
      exact this
    have := map_getD_range _ (Dual.const 0) 4 hl
    conv_rhs => rw [← this]
    simp only [env, List.map_ofFn, Function.comp_def]
  cdf _ _ _ _ _ := rfl

/-- The value at `x` and the regularity. -/
noncomputable def regHom : Hom (Tri x) Reg (env hE) E.reg where
  φ a := ⟨a.f x, a.ok⟩
  add _ _ := rfl
  sub _ _ := rfl
  mul _ _ := rfl
  div _ _ := rfl
  lit _ := rfl
  sigm _ := rfl
  ln _ := rfl
  log10 _ := rfl
  pow10 _ := rfl
  jmax _ _ := rfl
  jmin _ _ := rfl
  whereLt _ _ _ _ := rfl
  whereAbsLe _ _ _ _ := rfl
  whereZero _ _ _ := rfl
  gather t xp k := by
    simp only [JFlow.gather, List.map_map, Function.comp_def, List.forall_mem_map]
  sqrt _ := rfl
  uniform _ := rfl
  eps := rfl
  mvn k a b c d s := by
    have := map_getD_range _ (0 : ℝ) 4
      (hE.mvn_length k (a.f x) (b.f x) (c.f x) (d.f x) fun i j => (s i j).f x)
    simp only [env, Env.reg, List.map_cons, List.map_nil]
    conv_rhs => rw [← this]
    simp only [List.map_ofFn, Function.comp_def, List.mem_cons, List.not_mem_nil, or_false,
      forall_eq_or_imp, forall_eq]
  cdf _ _ _ _ _ := rfl

end Tri

end Diffmah

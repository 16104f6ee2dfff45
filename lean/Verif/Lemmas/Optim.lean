import Verif.Spec
import Verif.Lemmas.XR

/-! # Lemmas about the optimiser wrappers -/

namespace Diffmah.Fit

open XR Spec Diffmah.Utils

/-- `b` is the first minimum of `l`. -/
def Best (l : List XR) (b : ℕ × XR) : Prop :=
  l[b.1]? = some b.2 ∧ (∀ x ∈ l, XR.le b.2 x) ∧ ∀ k < b.1, ∀ x, l[k]? = some x → XR.lt b.2 x

theorem le_refl_fin {x : XR} (h : IsFin x) : XR.le x x := by
  obtain ⟨a, rfl⟩ := isFin_iff.1 h; exact le_refl a

theorem le_of_lt_fin {x y : XR} (hx : IsFin x) (hy : IsFin y) (h : XR.lt x y) : XR.le x y := by
  obtain ⟨a, rfl⟩ := isFin_iff.1 hx; obtain ⟨b, rfl⟩ := isFin_iff.1 hy
  exact le_of_lt (show a < b from h)

theorem lt_of_lt_of_le_fin {x y z : XR} (hx : IsFin x) (hy : IsFin y) (hz : IsFin z)
    (h : XR.lt x y) (h' : XR.le y z) : XR.lt x z := by
  obtain ⟨a, rfl⟩ := isFin_iff.1 hx; obtain ⟨b, rfl⟩ := isFin_iff.1 hy
  obtain ⟨c, rfl⟩ := isFin_iff.1 hz
  exact lt_of_lt_of_le (show a < b from h) (show b ≤ c from h')

theorem le_trans_fin {x y z : XR} (hx : IsFin x) (hy : IsFin y) (hz : IsFin z)
    (h : XR.le x y) (h' : XR.le y z) : XR.le x z := by
  obtain ⟨a, rfl⟩ := isFin_iff.1 hx; obtain ⟨b, rfl⟩ := isFin_iff.1 hy
  obtain ⟨c, rfl⟩ := isFin_iff.1 hz
  exact le_trans (show a ≤ b from h) (show b ≤ c from h')

theorem not_lt_fin {x y : XR} (hx : IsFin x) (hy : IsFin y) (h : ¬ XR.lt x y) : XR.le y x := by
  obtain ⟨a, rfl⟩ := isFin_iff.1 hx; obtain ⟨b, rfl⟩ := isFin_iff.1 hy
  exact not_lt.1 (show ¬ a < b from h)

theorem ne_nan {x : XR} (h : IsFin x) : x ≠ nan := by rintro rfl; exact h

theorem nanargminAux_some (l : List XR) (hl : ∀ x ∈ l, IsFin x) (pre : List XR)
    (hpre : ∀ x ∈ pre, IsFin x) (b : ℕ × XR) (hb : Best pre b) :
    ∃ b', nanargminAux l pre.length (some b) = some b' ∧ Best (pre ++ l) b' := by
  induction l generalizing pre b with
  | nil => exact ⟨b, rfl, by simpa using hb⟩
  | cons x l ih =>
    have hx : IsFin x := hl x (by simp)
    have hbm : b.2 ∈ pre := List.mem_of_getElem? hb.1
    have hbf : IsFin b.2 := hpre _ hbm
    have hlt : b.1 < pre.length := by
      rcases List.getElem?_eq_some_iff.1 hb.1 with ⟨h, -⟩; exact h
    have hpre' : ∀ y ∈ pre ++ [x], IsFin y := by
      intro y hy; rcases List.mem_append.1 hy with h | h
      · exact hpre y h
      · rw [List.mem_singleton.1 h]; exact hx
    have hl' : ∀ y ∈ l, IsFin y := fun y hy => hl y (by simp [hy])
    simp only [nanargminAux, if_neg (ne_nan hx)]
    have key := ih hl' (pre ++ [x]) hpre'
    rw [List.length_append, List.length_singleton, List.append_assoc, List.singleton_append] at key
    split
    · rename_i h
      refine key _ ⟨?_, ?_, ?_⟩
      · simp
      · intro y hy
        rcases List.mem_append.1 hy with hy | hy
        · exact le_of_lt_fin hx (hpre y hy) (lt_of_lt_of_le_fin hx hbf (hpre y hy) h (hb.2.1 y hy))
        · rw [List.mem_singleton.1 hy]; exact le_refl_fin hx
      · intro k hk y hy
        simp only at hk
        rw [List.getElem?_append_left hk] at hy
        have := List.mem_of_getElem? hy
        exact lt_of_lt_of_le_fin hx hbf (hpre y this) h (hb.2.1 y this)
    · rename_i h
      refine key _ ⟨?_, ?_, ?_⟩
      · rw [List.getElem?_append_left hlt]; exact hb.1
      · intro y hy
        rcases List.mem_append.1 hy with hy | hy
        · exact hb.2.1 y hy
        · rw [List.mem_singleton.1 hy]; exact not_lt_fin hx hbf h
      · intro k hk y hy
        rw [List.getElem?_append_left (by omega)] at hy
        exact hb.2.2 k hk y hy

theorem nanargmin_spec (l : List XR) (hl : ∀ x ∈ l, IsFin x) (hne : l ≠ []) :
    ∃ i v, nanargmin l = .ok i ∧ Best l (i, v) := by
  obtain ⟨x, l, rfl⟩ := List.exists_cons_of_ne_nil hne
  have hx : IsFin x := hl x (by simp)
  have hb : Best [x] (0, x) := by
    refine ⟨rfl, ?_, ?_⟩
    · intro y hy; rw [List.mem_singleton.1 hy]; exact le_refl_fin hx
    · intro k hk; simp at hk
  obtain ⟨b, h1, h2⟩ := nanargminAux_some l (fun y hy => hl y (by simp [hy])) [x]
    (by intro y hy; rw [List.mem_singleton.1 hy]; exact hx) (0, x) hb
  refine ⟨b.1, b.2, ?_, h2⟩
  simp only [nanargmin, nanargminAux, if_neg (ne_nan hx)]
  rw [List.length_singleton] at h1
  simp only [Nat.zero_add, h1]

theorem nanargmin_nil : nanargmin [] = .error .valueError := rfl

/-- The same for a list given by a function on an initial segment. -/
theorem nanargmin_range (n : ℕ) (hn : 0 < n) (f : ℕ → XR) (hf : ∀ j < n, IsFin (f j)) :
    ∃ i, nanargmin ((List.range n).map f) = .ok i ∧ FirstMinBelow n f i := by
  obtain ⟨i, v, h1, h2, h3, h4⟩ := nanargmin_spec ((List.range n).map f)
    (by intro x hx; obtain ⟨j, hj, rfl⟩ := List.mem_map.1 hx; exact hf j (List.mem_range.1 hj))
    (by simp; omega)
  have hi : i < n := by
    rcases List.getElem?_eq_some_iff.1 h2 with ⟨h, -⟩; simpa using h
  have hget : ∀ k < n, ((List.range n).map f)[k]? = some (f k) := by
    intro k hk
    rw [List.getElem?_map, List.getElem?_range hk, Option.map_some]
  have hv : v = f i := by
    have h2' : ((List.range n).map f)[i]? = some v := h2
    rw [hget i hi] at h2'; exact (Option.some.inj h2').symm
  subst hv
  refine ⟨i, h1, hi, ?_, ?_⟩
  · intro j hj
    exact h3 _ (List.mem_map_of_mem (List.mem_range.2 hj))
  · intro j hj
    exact h4 j hj _ (hget j (by omega))

section Loop

variable {S : Type} (opt : AdamOpt S) (lg : PVec → XR × PVec) (f4 : XR → XR) (p0 : PVec)
  (tol : XR) (np : ℕ)

/-- Step `k` neither fails nor reaches the tolerance. -/
def Running (k : ℕ) : Prop := StepFinite opt lg p0 k ∧ ¬ XR.lt (stepLoss opt lg p0 k) tol

/-- The histories after `k` running steps. -/
def lossesTo (k : ℕ) : List XR := (List.range k).map (stepLoss opt lg p0)
def rowsTo (k : ℕ) : List PVec := (List.range k).map fun j => (stepParams opt lg p0 j).map f4

theorem lossesTo_succ (k : ℕ) :
    lossesTo opt lg p0 (k + 1) = lossesTo opt lg p0 k ++ [stepLoss opt lg p0 k] := by
  simp [lossesTo, List.range_succ]

theorem rowsTo_succ (k : ℕ) :
    rowsTo opt lg f4 p0 (k + 1) = rowsTo opt lg f4 p0 k ++ [(stepParams opt lg p0 k).map f4] := by
  simp [rowsTo, List.range_succ]

@[simp] theorem lossesTo_length (k : ℕ) : (lossesTo opt lg p0 k).length = k := by simp [lossesTo]
@[simp] theorem rowsTo_length (k : ℕ) : (rowsTo opt lg f4 p0 k).length = k := by simp [rowsTo]

theorem lossesTo_getD {i k : ℕ} (h : i < k) :
    (lossesTo opt lg p0 k).getD i nan = stepLoss opt lg p0 i := by
  rw [List.getD_eq_getElem?_getD, lossesTo, List.getElem?_map, List.getElem?_range h]; rfl

theorem rowsTo_getD {i k : ℕ} (h : i < k) :
    (rowsTo opt lg f4 p0 k).getD i [] = (stepParams opt lg p0 i).map f4 := by
  rw [List.getD_eq_getElem?_getD, rowsTo, List.getElem?_map, List.getElem?_range h]; rfl

theorem loop_run {k fuel : ℕ} (h : Running opt lg p0 tol k) :
    adam_loop opt lg f4 tol np (fuel + 1) k (optState opt lg p0 k) (lossesTo opt lg p0 k)
        (rowsTo opt lg f4 p0 k) =
      adam_loop opt lg f4 tol np fuel (k + 1) (optState opt lg p0 (k + 1))
        (lossesTo opt lg p0 (k + 1)) (rowsTo opt lg f4 p0 (k + 1)) := by
  obtain ⟨⟨h1, h2, h3⟩, h4⟩ := h
  have hbad : ¬ (¬ AllFin (opt.get (optState opt lg p0 k)) ∨
      ¬ XR.IsFin (lg (opt.get (optState opt lg p0 k))).1 ∨
      ¬ AllFin (lg (opt.get (optState opt lg p0 k))).2) := by
    push Not; exact ⟨h1, h2, h3⟩
  conv_lhs => unfold adam_loop
  simp only
  rw [if_neg hbad, if_neg (show ¬ XR.lt (lg (opt.get (optState opt lg p0 k))).1 tol from h4),
    lossesTo_succ, rowsTo_succ]
  rfl

theorem loop_runs (k m fuel : ℕ) (h : ∀ j, k ≤ j → j < k + m → Running opt lg p0 tol j) :
    adam_loop opt lg f4 tol np (fuel + m) k (optState opt lg p0 k) (lossesTo opt lg p0 k)
        (rowsTo opt lg f4 p0 k) =
      adam_loop opt lg f4 tol np fuel (k + m) (optState opt lg p0 (k + m))
        (lossesTo opt lg p0 (k + m)) (rowsTo opt lg f4 p0 (k + m)) := by
  induction m generalizing k with
  | zero => rfl
  | succ m ih =>
    rw [← Nat.add_assoc, loop_run opt lg f4 p0 tol np (h k le_rfl (by omega)),
      ih (k + 1) (fun j h1 h2 => h j (by omega) (by omega))]
    rw [show k + 1 + m = k + (m + 1) by omega]

/-- (A) No failure and tolerance never reached. -/
theorem core_full (n : ℕ) (hn : 0 < n) (h : ∀ j < n, Running opt lg p0 tol j) :
    ∃ i, FirstMinBelow n (stepLoss opt lg p0) i ∧
      jax_adam_core opt lg f4 p0 n tol = .ok ⟨(stepParams opt lg p0 i).map f4,
        stepLoss opt lg p0 i, lossesTo opt lg p0 n, rowsTo opt lg f4 p0 n⟩ := by
  obtain ⟨i, hi, hmin⟩ := nanargmin_range n hn (stepLoss opt lg p0) (fun j hj => (h j hj).1.2.1)
  refine ⟨i, hmin, ?_⟩
  have := loop_runs opt lg f4 p0 tol p0.length 0 n 0 (fun j _ hj => h j (by omega))
  simp only [Nat.zero_add] at this
  unfold jax_adam_core
  refine Eq.trans this ?_
  unfold adam_loop
  have hi' : nanargmin (lossesTo opt lg p0 n) = .ok i := hi
  rw [hi']
  change Except.ok _ = _
  rw [rowsTo_getD opt lg f4 p0 hmin.1, lossesTo_getD opt lg p0 hmin.1]

/-- (B) Step `m > 0` fails. -/
theorem core_fail (n m : ℕ) (hm : m < n) (hm0 : 0 < m) (h : ∀ j < m, Running opt lg p0 tol j)
    (hbad : ¬ StepFinite opt lg p0 m) :
    ∃ i, FirstMinBelow m (stepLoss opt lg p0) i ∧
      jax_adam_core opt lg f4 p0 n tol = .ok ⟨(stepParams opt lg p0 i).map f4,
        stepLoss opt lg p0 i, lossesTo opt lg p0 m, rowsTo opt lg f4 p0 m⟩ := by
  obtain ⟨i, hi, hmin⟩ := nanargmin_range m hm0 (stepLoss opt lg p0) (fun j hj => (h j hj).1.2.1)
  refine ⟨i, hmin, ?_⟩
  obtain ⟨q, rfl⟩ : ∃ q, n = q + 1 + m := ⟨n - m - 1, by omega⟩
  have := loop_runs opt lg f4 p0 tol p0.length 0 m (q + 1) (fun j _ hj => h j (by omega))
  simp only [Nat.zero_add] at this
  unfold jax_adam_core
  refine Eq.trans this ?_
  have hb : ¬ AllFin (opt.get (optState opt lg p0 m)) ∨
      ¬ XR.IsFin (lg (opt.get (optState opt lg p0 m))).1 ∨
      ¬ AllFin (lg (opt.get (optState opt lg p0 m))).2 := by
    by_contra hc
    push Not at hc
    exact hbad hc
  unfold adam_loop
  simp only
  rw [if_pos hb, if_pos hm0]
  have e1 : (lossesTo opt lg p0 m ++ [(lg (opt.get (optState opt lg p0 m))).1]).take m
      = lossesTo opt lg p0 m := by
    rw [List.take_left' (lossesTo_length opt lg p0 m)]
  have e2 : (rowsTo opt lg f4 p0 m).take m = rowsTo opt lg f4 p0 m := by
    rw [List.take_of_length_le (by simp)]
  have hi' : nanargmin (lossesTo opt lg p0 m) = .ok i := hi
  rw [e1, e2, hi']
  change Except.ok _ = _
  rw [rowsTo_getD opt lg f4 p0 hmin.1]
  have e3 : (lossesTo opt lg p0 m ++ [(lg (opt.get (optState opt lg p0 m))).1]).getD i nan
      = stepLoss opt lg p0 i := by
    rw [List.getD_eq_getElem?_getD, List.getElem?_append_left (by simpa using hmin.1),
      ← List.getD_eq_getElem?_getD, lossesTo_getD opt lg p0 hmin.1]
  rw [e3]

/-- (B0) The very first step fails. -/
theorem core_fail_zero (n : ℕ) (hn : 0 < n) (hbad : ¬ StepFinite opt lg p0 0) :
    jax_adam_core opt lg f4 p0 n tol = .ok ⟨stepParams opt lg p0 0, fin 999.99, [], []⟩ := by
  obtain ⟨q, rfl⟩ : ∃ q, n = q + 1 := ⟨n - 1, by omega⟩
  unfold jax_adam_core adam_loop
  have hb : ¬ AllFin (opt.get (opt.init p0)) ∨
      ¬ XR.IsFin (lg (opt.get (opt.init p0))).1 ∨
      ¬ AllFin (lg (opt.get (opt.init p0))).2 := by
    by_contra hc
    push Not at hc
    exact hbad hc
  simp only
  rw [if_pos hb, if_neg (lt_irrefl 0)]
  rfl

/-- (C) Step `m` reaches the tolerance. -/
theorem core_tol (n m : ℕ) (hm : m < n) (h : ∀ j < m, Running opt lg p0 tol j)
    (hfin : StepFinite opt lg p0 m) (htol : XR.lt (stepLoss opt lg p0 m) tol) :
    jax_adam_core opt lg f4 p0 n tol = .ok ⟨stepParams opt lg p0 m, stepLoss opt lg p0 m,
      lossesTo opt lg p0 (m + 1), rowsTo opt lg f4 p0 (m + 1) ++
        List.replicate (n - (m + 1)) (List.replicate p0.length (fin 0))⟩ := by
  obtain ⟨q, rfl⟩ : ∃ q, n = q + 1 + m := ⟨n - m - 1, by omega⟩
  have := loop_runs opt lg f4 p0 tol p0.length 0 m (q + 1) (fun j _ hj => h j (by omega))
  simp only [Nat.zero_add] at this
  unfold jax_adam_core
  refine Eq.trans this ?_
  obtain ⟨h1, h2, h3⟩ := hfin
  have hb : ¬ (¬ AllFin (opt.get (optState opt lg p0 m)) ∨
      ¬ XR.IsFin (lg (opt.get (optState opt lg p0 m))).1 ∨
      ¬ AllFin (lg (opt.get (optState opt lg p0 m))).2) := by
    push Not; exact ⟨h1, h2, h3⟩
  unfold adam_loop
  simp only
  rw [if_neg hb, if_pos (show XR.lt (lg (opt.get (optState opt lg p0 m))).1 tol from htol),
    lossesTo_succ, rowsTo_succ, show q + 1 + m - (m + 1) = q by omega]
  rfl

theorem core_zero : jax_adam_core opt lg f4 p0 0 tol = .error .valueError := rfl

/-- Every run falls into one of the cases. -/
theorem run_cases (n : ℕ) :
    (∀ j < n, Running opt lg p0 tol j) ∨
    ∃ m < n, (∀ j < m, Running opt lg p0 tol j) ∧
      (¬ StepFinite opt lg p0 m ∨ (StepFinite opt lg p0 m ∧ XR.lt (stepLoss opt lg p0 m) tol)) := by
  classical
  by_cases h : ∀ j < n, Running opt lg p0 tol j
  · exact .inl h
  · right
    push Not at h
    let m := Nat.find h
    obtain ⟨hm, hr⟩ := Nat.find_spec h
    refine ⟨m, hm, ?_, ?_⟩
    · intro j hj
      by_contra hc
      exact Nat.find_min h hj ⟨by omega, hc⟩
    · by_cases hf : StepFinite opt lg p0 m
      · right
        refine ⟨hf, ?_⟩
        by_contra hc
        exact hr ⟨hf, hc⟩
      · exact .inl hf

end Loop

end Diffmah.Fit

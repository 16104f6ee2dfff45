import Verif.Model.CompLoss
import Verif.Lemmas.Dual
import Verif.Lemmas.PopParams
import Verif.Lemmas.PopKernels

/-!
# Lemmas about the component losses
-/

namespace Diffmah

open JOps Pop JMinMax

/-! ### Lists of `Except` values -/

theorem mapM_ok' {α β : Type} (f : α → Except PyErr β) (g : α → β) (l : List α)
    (h : ∀ x ∈ l, f x = .ok (g x)) : l.mapM f = .ok (l.map g) := by
  induction l with
  | nil => rfl
  | cons a l ih =>
    rw [List.mapM_cons, h a List.mem_cons_self, ih fun x hx => h x (List.mem_cons_of_mem _ hx)]
    rfl

/-! ### Mean squares -/

namespace CompLoss

theorem foldl_add (l : List ℝ) (a : ℝ) : l.foldl (· + ·) a = a + l.sum := by
  induction l generalizing a with
  | nil => simp
  | cons b l ih => rw [List.foldl_cons, ih, List.sum_cons]; ring

theorem jmean_real (l : List ℝ) : jmean l = Spec.mean l := by
  unfold jmean Spec.mean
  rw [foldl_add]
  simp [JOps.lit]

theorem mse_map {D : Type} (f g : D → ℝ) (data : List D) :
    mse (data.map f) (data.map g) = Spec.mean (data.map fun x => (f x - g x) ^ 2) := by
  unfold mse
  rw [jmean_real]
  congr 1
  induction data with
  | nil => rfl
  | cons x l ih =>
    simp only [List.map_cons, List.zipWith_cons_cons, ih]
    congr 1; ring

theorem mse_comm {D : Type} (f g : D → ℝ) (data : List D) :
    mse (data.map f) (data.map g) = mse (data.map g) (data.map f) := by
  rw [mse_map, mse_map]
  congr 2
  funext x; ring

theorem mean_nonneg {D : Type} (h : D → ℝ) (data : List D) (h0 : ∀ x ∈ data, 0 ≤ h x) :
    0 ≤ Spec.mean (data.map h) := by
  unfold Spec.mean
  refine div_nonneg (List.sum_nonneg ?_) (Nat.cast_nonneg _)
  intro y hy
  obtain ⟨x, hx, rfl⟩ := List.mem_map.1 hy
  exact h0 x hx

theorem sum_eq_zero_iff {D : Type} (h : D → ℝ) (data : List D) (h0 : ∀ x ∈ data, 0 ≤ h x) :
    (data.map h).sum = 0 ↔ ∀ x ∈ data, h x = 0 := by
  induction data with
  | nil => simp
  | cons a l ih =>
    have ha := h0 a List.mem_cons_self
    have hl : 0 ≤ (l.map h).sum := List.sum_nonneg (by
      intro y hy
      obtain ⟨x, hx, rfl⟩ := List.mem_map.1 hy
      exact h0 x (List.mem_cons_of_mem _ hx))
    rw [List.map_cons, List.sum_cons, List.forall_mem_cons,
      ← ih fun x hx => h0 x (List.mem_cons_of_mem _ hx)]
    constructor
    · intro h; constructor <;> linarith
    · rintro ⟨h1, h2⟩; rw [h1, h2, add_zero]

theorem mean_eq_zero_iff {D : Type} (h : D → ℝ) (data : List D) (hne : data ≠ [])
    (h0 : ∀ x ∈ data, 0 ≤ h x) : Spec.mean (data.map h) = 0 ↔ ∀ x ∈ data, h x = 0 := by
  unfold Spec.mean
  have hl : ((data.map h).length : ℝ) ≠ 0 := by
    rw [List.length_map]
    exact_mod_cast fun e => hne (List.length_eq_zero_iff.1 e)
  rw [div_eq_zero_iff, or_iff_left hl, sum_eq_zero_iff h data h0]

end CompLoss

/-! ### Derivatives -/

namespace IsAD

variable {f g : ℝ → ℝ} {x : ℝ} {D E : Dual}

theorem usigmoid {X X0 K L H : Dual} {fx fx0 fk fl fh : ℝ → ℝ} (hx : IsAD fx x X)
    (hx0 : IsAD fx0 x X0) (hk : IsAD fk x K) (hl : IsAD fl x L) (hh : IsAD fh x H) :
    IsAD (fun y => Utils.sigmoid (fx y) (fx0 y) (fk y) (fl y) (fh y)) x
      (Utils.sigmoid X X0 K L H) :=
  hl.add ((hh.sub hl).mul ((hk.mul (hx.sub hx0)).sigm))

theorem sig_slope {X T Y X0 K L H : Dual} {fx ft fy fx0 fk fl fh : ℝ → ℝ} (hx : IsAD fx x X)
    (ht : IsAD ft x T) (hy : IsAD fy x Y)
    (hx0 : IsAD fx0 x X0) (hk : IsAD fk x K) (hl : IsAD fl x L) (hh : IsAD fh x H) :
    IsAD (fun y => Utils.sig_slope (fx y) (ft y) (fy y) (fx0 y) (fk y) (fl y) (fh y)) x
      (Utils.sig_slope X T Y X0 K L H) :=
  hy.add ((usigmoid hx hx0 hk hl hh).mul (hx.sub ht))

theorem jmax (hf : IsAD f x D) (hg : IsAD g x E) (hne : f x ≠ g x) :
    IsAD (fun y => jmax (f y) (g y)) x (jmax D E) := by
  rcases lt_or_gt_of_ne hne with h | h
  · have e2 : (fun y => JMinMax.jmax (f y) (g y)) =ᶠ[nhds x] g := by
      filter_upwards [hf.2.continuousAt.eventually_lt hg.2.continuousAt h] with y hy
      exact max_eq_right hy.le
    have e3 : JMinMax.jmax D E = E := if_pos (by rw [hf.1, hg.1]; exact h)
    rw [e3]
    exact ⟨by rw [hg.1]; exact e2.eq_of_nhds.symm, hg.2.congr_of_eventuallyEq e2⟩
  · have e2 : (fun y => JMinMax.jmax (f y) (g y)) =ᶠ[nhds x] f := by
      filter_upwards [hg.2.continuousAt.eventually_lt hf.2.continuousAt h] with y hy
      exact max_eq_left hy.le
    have e3 : JMinMax.jmax D E = D := by
      change (if D.v < E.v then E else if E.v < D.v then D else _) = D
      rw [hf.1, hg.1, if_neg (not_lt.2 h.le), if_pos h]
    rw [e3]
    exact ⟨by rw [hf.1]; exact e2.eq_of_nhds.symm, hf.2.congr_of_eventuallyEq e2⟩

theorem jmin (hf : IsAD f x D) (hg : IsAD g x E) (hne : f x ≠ g x) :
    IsAD (fun y => jmin (f y) (g y)) x (jmin D E) := by
  rcases lt_or_gt_of_ne hne with h | h
  · have e2 : (fun y => JMinMax.jmin (f y) (g y)) =ᶠ[nhds x] f := by
      filter_upwards [hf.2.continuousAt.eventually_lt hg.2.continuousAt h] with y hy
      exact min_eq_left hy.le
    have e3 : JMinMax.jmin D E = D := if_pos (by rw [hf.1, hg.1]; exact h)
    rw [e3]
    exact ⟨by rw [hf.1]; exact e2.eq_of_nhds.symm, hf.2.congr_of_eventuallyEq e2⟩
  · have e2 : (fun y => JMinMax.jmin (f y) (g y)) =ᶠ[nhds x] g := by
      filter_upwards [hg.2.continuousAt.eventually_lt hf.2.continuousAt h] with y hy
      exact min_eq_right hy.le
    have e3 : JMinMax.jmin D E = E := by
      change (if D.v < E.v then D else if E.v < D.v then E else _) = E
      rw [hf.1, hg.1, if_neg (not_lt.2 h.le), if_pos h]
    rw [e3]
    exact ⟨by rw [hg.1]; exact e2.eq_of_nhds.symm, hg.2.congr_of_eventuallyEq e2⟩

theorem clip (hf : IsAD f x D) {lo hi : ℝ} (hlh : lo < hi) (h1 : f x ≠ lo) (h2 : f x ≠ hi) :
    IsAD (fun y => Pop.clip (f y) lo hi) x (Pop.clip D lo hi) := by
  unfold Pop.clip
  refine IsAD.jmin (IsAD.jmax hf (IsAD.lit lo x) h1) (IsAD.lit hi x) ?_
  change max (f x) lo ≠ hi
  rcases max_cases (f x) lo with ⟨h, -⟩ | ⟨h, -⟩
  · rw [h]; exact h2
  · rw [h]; exact hlh.ne

end IsAD

/-- A clipped value strictly inside the limits has not been clipped. -/
theorem clip_inside {r lo hi : ℝ} (h1 : lo < (Pop.clip r lo hi : ℝ)) (h2 : (Pop.clip r lo hi : ℝ) < hi) :
    r ≠ lo ∧ r ≠ hi := by
  rw [clip_real] at h1 h2
  constructor
  · rintro rfl
    rw [max_self] at h1
    exact absurd h1 (not_lt.2 (min_le_left _ _))
  · rintro rfl
    exact absurd h2 (not_lt.2 (le_min (le_max_left _ _) le_rfl))

/-- Named tuples whose entries vary with one variable: `L` lists name, value and dual number. -/
def IsADNT (p : ℝ → NT ℝ) (x : ℝ) (P : NT Dual) : Prop :=
  ∃ L : List (String × (ℝ → ℝ) × Dual), (∀ y, p y = L.map fun e => (e.1, e.2.1 y)) ∧
    P = (L.map fun e => (e.1, e.2.2)) ∧ ∀ e ∈ L, IsAD e.2.1 x e.2.2

theorem IsADNT.getattr {p : ℝ → NT ℝ} {x : ℝ} {P : NT Dual} (h : IsADNT p x P) {n : String}
    (hn : n ∈ (p x).fields) : ∃ f D, (∀ y, (p y).getattr n = .ok (f y)) ∧ P.getattr n = .ok D ∧
      IsAD f x D := by
  obtain ⟨L, h1, rfl, h3⟩ := h
  rw [h1] at hn
  simp only [h1]
  clear h1
  induction L with
  | nil => simp [NT.fields] at hn
  | cons e L ih =>
    by_cases he : n = e.1
    · subst he
      exact ⟨e.2.1, e.2.2, fun y => by simp [NT.getattr_cons_self], by simp [NT.getattr_cons_self],
        h3 e List.mem_cons_self⟩
    · simp only [List.map_cons, NT.fields_cons, List.mem_cons, he, false_or] at hn
      obtain ⟨f, D, a, b, c⟩ := ih hn fun e he => h3 e (List.mem_cons_of_mem _ he)
      exact ⟨f, D, fun y => by rw [List.map_cons, NT.getattr_cons_ne he]; exact a y,
        by rw [List.map_cons, NT.getattr_cons_ne he]; exact b, c⟩

theorem isAD_bounded_param {f : ℝ → ℝ} {x : ℝ} {D : Dual} (h : IsAD f x D) (b : ℝ × ℝ) :
    IsAD (fun y => get_bounded_param (f y) b) x (get_bounded_param D b) :=
  IsAD.usigmoid h ((IsAD.lit _ _).mul ((IsAD.lit _ _).add (IsAD.lit _ _))) (IsAD.lit _ _)
    (IsAD.lit _ _) (IsAD.lit _ _)

/-- A parameter vector of which one entry is the variable. -/
def seedPair (u : List ℝ) (i : ℕ) : List ((ℝ → ℝ) × Dual) :=
  u.mapIdx fun j x => if j = i then ((fun y => y), Dual.var x) else ((fun _ => x), Dual.const x)

theorem seedPair_fst (u : List ℝ) (i : ℕ) (y : ℝ) : (seedPair u i).map (fun e => e.1 y) = u.set i y := by
  apply List.ext_getElem
  · simp [seedPair]
  · intro j h1 h2
    simp only [seedPair, List.getElem_map, List.getElem_mapIdx, List.getElem_set]
    by_cases h : i = j
    · subst h; simp
    · simp [h, Ne.symm h]

theorem seedPair_snd (u : List ℝ) (i : ℕ) : (seedPair u i).map (fun e => e.2) = CompLoss.seed u i := by
  apply List.ext_getElem
  · simp [seedPair, CompLoss.seed]
  · intro j h1 h2
    simp only [seedPair, CompLoss.seed, List.getElem_map, List.getElem_mapIdx]
    split <;> rfl

theorem seedPair_isAD (u : List ℝ) (i : ℕ) (hi : i < u.length) :
    ∀ e ∈ seedPair u i, IsAD e.1 u[i] e.2 := by
  intro e he
  obtain ⟨j, hj, rfl⟩ := List.getElem_of_mem he
  simp only [seedPair, List.getElem_mapIdx]
  by_cases h : j = i
  · subst h; simp; exact IsAD.var _
  · simp [h]; exact IsAD.const _ _

theorem seedPair_length (u : List ℝ) (i : ℕ) : (seedPair u i).length = u.length := by simp [seedPair]

/-- The bounded parameters as functions of one unbounded parameter. -/
theorem isADNT_bounded {c : Component} (h : c.Wf) (u : List ℝ) (hu : u.length = c.fields.length) (i : ℕ)
    (hi : i < u.length) :
    ∃ (p : ℝ → NT ℝ) (P : NT Dual), IsADNT p u[i] P ∧
      (∀ y, c.get_bounded (c.upnames.zip (u.set i y)) = .ok (p y)) ∧
      c.get_bounded (c.upnames.zip (CompLoss.seed u i)) = .ok P ∧ ∀ y, (p y).fields = c.fields := by
  have hl : (seedPair u i).length = c.fields.length := by rw [seedPair_length, hu]
  have hb := h.bounds_length
  refine ⟨fun y => c.fields.zip (List.zipWith get_bounded_param (u.set i y) c.bounds.values),
    c.fields.zip (List.zipWith get_bounded_param (CompLoss.seed u i) c.bounds.values), ?_, ?_, ?_, ?_⟩
  · refine ⟨c.fields.zip (List.zipWith (fun e b => ((fun y => get_bounded_param (e.1 y) b),
      get_bounded_param e.2 b)) (seedPair u i) c.bounds.values), ?_, ?_, ?_⟩
    · intro y
      change c.fields.zip (List.zipWith get_bounded_param (u.set i y) c.bounds.values) = _
      rw [← seedPair_fst, List.zipWith_map_left, show (fun e : String × (ℝ → ℝ) × Dual => (e.1, e.2.1 y))
        = Prod.map id (fun e : (ℝ → ℝ) × Dual => e.1 y) from rfl, ← List.zip_map_right, List.map_zipWith]
    · rw [← seedPair_snd, List.zipWith_map_left, show (fun e : String × (ℝ → ℝ) × Dual => (e.1, e.2.2))
        = Prod.map id (fun e : (ℝ → ℝ) × Dual => e.2) from rfl, ← List.zip_map_right, List.map_zipWith]
    · intro e he
      obtain ⟨k, hk, e2⟩ := List.getElem_of_mem (List.of_mem_zip he).2
      rw [List.getElem_zipWith] at e2
      rw [← e2]
      exact isAD_bounded_param (seedPair_isAD u i hi _ (List.getElem_mem _)) _
  · intro y
    exact get_bounded_eq h (NT.getattrs_zip h.upnodup (by simp [hu]))
  · exact get_bounded_eq h (NT.getattrs_zip h.upnodup (by
      rw [← seedPair_snd, List.length_map, hl, Component.upnames_length]))
  · intro y
    rw [NT.fields_zip]
    simp [hu, hb]

end Diffmah

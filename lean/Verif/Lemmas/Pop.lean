import Verif.Lemmas.NT
import Verif.Lemmas.Utils
import Verif.Props.Bounding

/-!
# Lemmas about the population component models
-/

namespace Diffmah

set_option linter.unusedSectionVars false

namespace Pop

/-- A well-formed component: distinct names, one non-empty bound per name. -/
structure Component.Wf (c : Component) : Prop where
  nodup : c.fields.Nodup
  same : c.bounds.fields = c.fields
  lt : ∀ b ∈ c.bounds, b.2.1 < b.2.2

theorem Component.Wf.upnodup {c : Component} (h : c.Wf) : c.upnames.Nodup :=
  h.nodup.map fun _ _ hab => (String.append_right_inj "u_").1 hab

@[simp] theorem Component.upnames_length (c : Component) : c.upnames.length = c.fields.length := by
  simp [Component.upnames]

theorem Component.Wf.bounds_length {c : Component} (h : c.Wf) :
    c.bounds.values.length = c.fields.length := by
  rw [← h.same]; simp

section Generic
variable {α : Type} [Add α] [Sub α] [Mul α] [Div α] [JOps α]

theorem get_bounded_eq {c : Component} (h : c.Wf) {u : NT α} {v : List α}
    (hu : u.getattrs c.upnames = .ok v) :
    c.get_bounded u = .ok (c.fields.zip (List.zipWith get_bounded_param v c.bounds.values)) := by
  have hl := NT.getattrs_length hu
  rw [Component.upnames_length] at hl
  have hb := h.bounds_length
  unfold Component.get_bounded
  rw [hu]
  simp only [bind, Except.bind, vmap2]
  rw [if_pos (by rw [hl, hb])]
  simp only
  rw [NT.make_eq (by simp [hl, hb])]

theorem get_unbounded_eq {c : Component} (h : c.Wf) {p : NT α} {v : List α}
    (hp : p.getattrs c.fields = .ok v) :
    c.get_unbounded p = .ok (c.upnames.zip (List.zipWith get_unbounded_param v c.bounds.values)) := by
  have hl := NT.getattrs_length hp
  have hb := h.bounds_length
  unfold Component.get_unbounded
  rw [hp]
  simp only [bind, Except.bind, vmap2]
  rw [if_pos (by rw [hl, hb])]
  simp only
  rw [NT.make_eq (by simp [hl, hb])]

theorem get_bounded_err {c : Component} {u : NT α} {e : PyErr}
    (hu : u.getattrs c.upnames = .error e) : c.get_bounded u = .error e := by
  unfold Component.get_bounded; rw [hu]; rfl

theorem get_unbounded_err {c : Component} {u : NT α} {e : PyErr}
    (hu : u.getattrs c.fields = .error e) : c.get_unbounded u = .error e := by
  unfold Component.get_unbounded; rw [hu]; rfl

/-- Reading a component's values out of a larger tuple before bounding changes nothing. -/
theorem component_get_bounded {c : Component} (h : c.Wf) (u : NT α) :
    (PopParams.component c.upnames u >>= c.get_bounded) = c.get_bounded u := by
  unfold PopParams.component
  cases hu : u.getattrs c.upnames with
  | error e => rw [get_bounded_err hu]; rfl
  | ok v =>
    have hl := NT.getattrs_length hu
    rw [get_bounded_eq h hu]
    simp only [bind, Except.bind]
    rw [NT.make_eq hl]
    exact get_bounded_eq h (NT.getattrs_zip h.upnodup hl)

theorem component_get_unbounded {c : Component} (h : c.Wf) (p : NT α) :
    (PopParams.component c.fields p >>= c.get_unbounded) = c.get_unbounded p := by
  unfold PopParams.component
  cases hp : p.getattrs c.fields with
  | error e => rw [get_unbounded_err hp]; rfl
  | ok v =>
    have hl := NT.getattrs_length hp
    rw [get_unbounded_eq h hp]
    simp only [bind, Except.bind]
    rw [NT.make_eq hl]
    exact get_unbounded_eq h (NT.getattrs_zip h.nodup hl)

theorem sub_bounded_eq {c : Component} (h : c.Wf) (u : NT α) : sub_bounded c u = c.get_bounded u := by
  rw [← component_get_bounded h u]
  unfold sub_bounded PopParams.component
  simp only [bind_assoc]

theorem sub_unbounded_eq {c : Component} (h : c.Wf) (p : NT α) :
    sub_unbounded c p = c.get_unbounded p := by
  rw [← component_get_unbounded h p]
  unfold sub_unbounded PopParams.component
  simp only [bind_assoc]

end Generic

/-- Concatenation of components. -/
def Component.app (c d : Component) : Component := ⟨c.pdict ++ d.pdict, c.bounds ++ d.bounds⟩

@[simp] theorem Component.app_fields (c d : Component) : (c.app d).fields = c.fields ++ d.fields := by
  simp [Component.app, Component.fields]
@[simp] theorem Component.app_upnames (c d : Component) : (c.app d).upnames = c.upnames ++ d.upnames := by
  simp [Component.upnames]
@[simp] theorem Component.app_values (c d : Component) :
    (c.app d).bounds.values = c.bounds.values ++ d.bounds.values := by
  simp [Component.app]

theorem Component.app_assoc (c d e : Component) : (c.app d).app e = c.app (d.app e) := by
  simp [Component.app]

theorem Component.Wf.app {c d : Component} (hc : c.Wf) (hd : d.Wf)
    (h : (c.fields ++ d.fields).Nodup) : (c.app d).Wf where
  nodup := by simpa using h
  same := by rw [app_fields, ← hc.same, ← hd.same]; simp [Component.app]
  lt b hb := by
    rcases List.mem_append.1 hb with hb | hb
    · exact hc.lt b hb
    · exact hd.lt b hb

section Generic
variable {α : Type} [Add α] [Sub α] [Mul α] [Div α] [JOps α]

theorem zip_append' {β γ : Type} (a b : List β) (x y : List γ) (h : a.length = x.length) :
    (a ++ b).zip (x ++ y) = a.zip x ++ b.zip y := List.zip_append h

/-- Bounding a concatenation is bounding the parts. -/
theorem app_get_bounded {c d : Component} (hc : c.Wf) (hd : d.Wf)
    (h : (c.fields ++ d.fields).Nodup) (u : NT α) :
    (c.app d).get_bounded u =
      (do let x ← c.get_bounded u; let y ← d.get_bounded u; pure (x ++ y)) := by
  have hcd := hc.app hd h
  cases h1 : u.getattrs c.upnames with
  | error e =>
    rw [get_bounded_err h1, get_bounded_err (e := e)]
    · rfl
    · rw [Component.app_upnames, NT.getattrs_append, h1]; rfl
  | ok v =>
    cases h2 : u.getattrs d.upnames with
    | error e =>
      rw [get_bounded_err (c := d) h2, get_bounded_eq hc h1, get_bounded_err (e := e)]
      · rfl
      · rw [Component.app_upnames, NT.getattrs_append, h1, h2]; rfl
    | ok w =>
      have l1 := NT.getattrs_length h1
      have l2 := NT.getattrs_length h2
      have hu : u.getattrs (c.app d).upnames = .ok (v ++ w) := by
        rw [Component.app_upnames, NT.getattrs_append, h1, h2]; rfl
      rw [get_bounded_eq hcd hu, get_bounded_eq hc h1, get_bounded_eq hd h2]
      simp only [bind, Except.bind, pure, Except.pure, Component.app_fields, Component.app_values]
      have hb := hc.bounds_length
      rw [Component.upnames_length] at l1
      rw [List.zipWith_append (by rw [l1, hb]), zip_append' _ _ _ _ (by simp [l1, hb])]

theorem app_get_unbounded {c d : Component} (hc : c.Wf) (hd : d.Wf)
    (h : (c.fields ++ d.fields).Nodup) (p : NT α) :
    (c.app d).get_unbounded p =
      (do let x ← c.get_unbounded p; let y ← d.get_unbounded p; pure (x ++ y)) := by
  have hcd := hc.app hd h
  cases h1 : p.getattrs c.fields with
  | error e =>
    rw [get_unbounded_err h1, get_unbounded_err (e := e)]
    · rfl
    · rw [Component.app_fields, NT.getattrs_append, h1]; rfl
  | ok v =>
    cases h2 : p.getattrs d.fields with
    | error e =>
      rw [get_unbounded_err (c := d) h2, get_unbounded_eq hc h1, get_unbounded_err (e := e)]
      · rfl
      · rw [Component.app_fields, NT.getattrs_append, h1, h2]; rfl
    | ok w =>
      have l1 := NT.getattrs_length h1
      have l2 := NT.getattrs_length h2
      have hu : p.getattrs (c.app d).fields = .ok (v ++ w) := by
        rw [Component.app_fields, NT.getattrs_append, h1, h2]; rfl
      rw [get_unbounded_eq hcd hu, get_unbounded_eq hc h1, get_unbounded_eq hd h2]
      simp only [bind, Except.bind, pure, Except.pure, Component.app_upnames, Component.app_values]
      have hb := hc.bounds_length
      rw [List.zipWith_append (by rw [l1, hb]), zip_append' _ _ _ _ (by simp [l1, hb])]

theorem get_bounded_fields {c : Component} (h : c.Wf) {u p : NT α} (hp : c.get_bounded u = .ok p) :
    p.fields = c.fields := by
  cases hu : u.getattrs c.upnames with
  | error e => rw [get_bounded_err hu] at hp; cases hp
  | ok v =>
    rw [get_bounded_eq h hu] at hp
    have hl := NT.getattrs_length hu
    rw [Component.upnames_length] at hl
    rw [← Except.ok.inj hp, NT.fields_zip _ _ (by simp [hl, h.bounds_length])]

theorem get_unbounded_fields {c : Component} (h : c.Wf) {u p : NT α} (hp : c.get_unbounded p = .ok u) :
    u.fields = c.upnames := by
  cases hu : p.getattrs c.fields with
  | error e => rw [get_unbounded_err hu] at hp; cases hp
  | ok v =>
    rw [get_unbounded_eq h hu] at hp
    have hl := NT.getattrs_length hu
    rw [← Except.ok.inj hp, NT.fields_zip _ _ (by simp [hl, h.bounds_length])]

end Generic

/-! ## Real numbers: bounds and round trip -/

theorem zipWith_bounded_mem {v : List ℝ} {bs : List (ℝ × ℝ)} (hb : ∀ b ∈ bs, b.1 < b.2) :
    ∀ (i : ℕ) (x : ℝ) (b : ℝ × ℝ), (List.zipWith get_bounded_param v bs)[i]? = some x →
      bs[i]? = some b → b.1 < x ∧ x < b.2 := by
  intro i x b hx hbi
  rw [List.getElem?_zipWith] at hx
  rw [hbi] at hx
  cases hv : v[i]? with
  | none => simp [hv] at hx
  | some a =>
    simp only [hv] at hx
    cases hx
    exact bounded_mem a (hb b (List.mem_of_getElem? hbi))

theorem zipWith_unbounded_bounded {v : List ℝ} {bs : List (ℝ × ℝ)} (hb : ∀ b ∈ bs, b.1 < b.2)
    (hl : v.length = bs.length) :
    List.zipWith get_unbounded_param (List.zipWith get_bounded_param v bs) bs = v := by
  induction v generalizing bs with
  | nil => simp
  | cons a v ih =>
    cases bs with
    | nil => simp at hl
    | cons b bs =>
      simp only [List.zipWith_cons_cons]
      rw [ih (fun b hb' => hb b (by simp [hb'])) (by simpa using hl)]
      congr 1
      exact unbounded_bounded a (hb b (by simp))

theorem zipWith_bounded_unbounded {v : List ℝ} {bs : List (ℝ × ℝ)}
    (hv : ∀ (i : ℕ) (x : ℝ) (b : ℝ × ℝ), v[i]? = some x → bs[i]? = some b → b.1 < x ∧ x < b.2)
    (hl : v.length = bs.length) :
    List.zipWith get_bounded_param (List.zipWith get_unbounded_param v bs) bs = v := by
  induction v generalizing bs with
  | nil => simp
  | cons a v ih =>
    cases bs with
    | nil => simp at hl
    | cons b bs =>
      simp only [List.zipWith_cons_cons]
      rw [ih (fun i x c hx hc => hv (i + 1) x c (by simpa using hx) (by simpa using hc))
        (by simpa using hl)]
      congr 1
      have := hv 0 a b (by simp) (by simp)
      exact bounded_unbounded this.1 this.2

theorem wf_values_lt {c : Component} (h : c.Wf) : ∀ b ∈ c.bounds.values, b.1 < b.2 := by
  intro b hb
  obtain ⟨kv, hkv, rfl⟩ := List.mem_map.1 hb
  exact h.lt kv hkv

/-- The values of a bounded tuple lie in the bounds, by name. -/
theorem get_bounded_Bounded {c : Component} (h : c.Wf) {u : NT ℝ} {p : NT ℝ}
    (hp : c.get_bounded u = .ok p) : Spec.Bounded c.bounds p := by
  cases hu : u.getattrs c.upnames with
  | error e => rw [get_bounded_err hu] at hp; cases hp
  | ok v =>
    have hpf := get_bounded_fields h hp
    rw [get_bounded_eq h hu] at hp
    have hp := (Except.ok.inj hp).symm
    intro b hb
    obtain ⟨i, hi, hbi⟩ := List.getElem_of_mem hb
    have hl := NT.getattrs_length hu
    rw [Component.upnames_length] at hl
    have hb' := h.bounds_length
    have hlen : i < c.fields.length := by rw [← hb']; simpa using hi
    have hbv : c.bounds.values[i]? = some b.2 := by simp [NT.values, hi, hbi]
    have hxi : i < (List.zipWith get_bounded_param v c.bounds.values).length := by
      simp [hl, hb']; exact hlen
    refine ⟨(List.zipWith get_bounded_param v c.bounds.values)[i], ?_, ?_⟩
    · apply NT.lookup_of_mem (by rw [hpf]; exact h.nodup)
      have hfi : c.fields[i] = b.1 := by
        have : c.bounds.fields[i]? = some b.1 := by simp [NT.fields, hi, hbi]
        rw [h.same] at this
        simpa [hlen] using this
      rw [hp, ← hfi]
      apply List.mem_of_getElem? (i := i)
      rw [List.getElem?_eq_getElem (by simp [hl, hb']; exact hlen)]
      simp
    · exact zipWith_bounded_mem (wf_values_lt h) i _ b.2 (List.getElem?_eq_getElem hxi) hbv

/-- The value list of a `Bounded` tuple. -/
theorem Bounded_getattrs {c : Component} (h : c.Wf) {p : NT ℝ} (hp : Spec.Bounded c.bounds p) :
    ∃ v, p.getattrs c.fields = .ok v ∧ ∀ (i : ℕ) (x : ℝ) (b : ℝ × ℝ), v[i]? = some x →
      c.bounds.values[i]? = some b → b.1 < x ∧ x < b.2 := by
  obtain ⟨v, hv⟩ := NT.getattrs_ok_of_forall (p := p) (ns := c.fields) (by
    intro n hn
    rw [← h.same] at hn
    obtain ⟨b, hb, rfl⟩ := List.mem_map.1 hn
    obtain ⟨x, hx, _⟩ := hp b hb
    exact ⟨x, NT.getattr_eq_ok.2 hx⟩)
  refine ⟨v, hv, ?_⟩
  intro i x b hx hb
  have hi : i < c.bounds.length := by
    have := (List.getElem?_eq_some_iff.1 hb).1; simpa using this
  have hbi : c.bounds[i].2 = b := by simpa [NT.values, hi] using hb
  have hfi : c.fields[i]? = some c.bounds[i].1 := by rw [← h.same]; simp [NT.fields, hi]
  obtain ⟨x', hx', hg⟩ := NT.getattrs_getElem hv i _ hfi
  obtain ⟨y, hy, hlo, hhi⟩ := hp c.bounds[i] (List.getElem_mem hi)
  have e1 : x' = x := by rw [hx] at hx'; exact (Option.some.inj hx').symm
  have e2 : x' = y := by
    rw [NT.getattr_eq_ok.2 hy] at hg; exact (Except.ok.inj hg).symm
  subst e1; subst e2; subst hbi
  exact ⟨hlo, hhi⟩

/-- Unbounding undoes bounding. -/
theorem roundtrip_u {c : Component} (h : c.Wf) {u : NT ℝ} (hu : u.fields = c.upnames) :
    ∃ p, c.get_bounded u = .ok p ∧ p.fields = c.fields ∧ c.get_unbounded p = .ok u := by
  have hv := NT.getattrs_fields (p := u) (by rw [hu]; exact h.upnodup)
  rw [hu] at hv
  have hb := get_bounded_eq h hv
  have hl : u.values.length = c.fields.length := by
    have := NT.getattrs_length hv; rwa [Component.upnames_length] at this
  refine ⟨_, hb, get_bounded_fields h hb, ?_⟩
  have hz : (List.zipWith get_bounded_param u.values c.bounds.values).length = c.fields.length := by
    have := h.bounds_length
    rw [List.length_zipWith, hl, this, min_self]
  rw [get_unbounded_eq h (NT.getattrs_zip h.nodup hz),
    zipWith_unbounded_bounded (wf_values_lt h) (by rw [hl, h.bounds_length]), ← hu,
    NT.zip_fields_values]

/-- Bounding undoes unbounding. -/
theorem roundtrip_p {c : Component} (h : c.Wf) {p : NT ℝ} (hf : p.fields = c.fields)
    (hp : Spec.Bounded c.bounds p) :
    ∃ u, c.get_unbounded p = .ok u ∧ u.fields = c.upnames ∧ c.get_bounded u = .ok p := by
  obtain ⟨v, hv, hin⟩ := Bounded_getattrs h hp
  have hv' := NT.getattrs_fields (p := p) (by rw [hf]; exact h.nodup)
  rw [hf, hv] at hv'
  have hvv : v = p.values := Except.ok.inj hv'
  have hb := get_unbounded_eq h hv
  have hl := NT.getattrs_length hv
  refine ⟨_, hb, get_unbounded_fields h hb, ?_⟩
  have hz : (List.zipWith get_unbounded_param v c.bounds.values).length = c.upnames.length := by
    have := h.bounds_length
    rw [List.length_zipWith, hl, this, min_self, Component.upnames_length]
  rw [get_bounded_eq h (NT.getattrs_zip h.upnodup hz),
    zipWith_bounded_unbounded hin (by rw [hl, h.bounds_length]), hvv, ← hf, NT.zip_fields_values]

end Pop

end Diffmah

import Verif.Model.PopParams
import Mathlib.Data.List.Basic

/-!
# Lemmas about named tuples
-/

namespace Diffmah

namespace NT

variable {α β : Type}

@[simp] theorem fields_nil : NT.fields ([] : NT α) = [] := rfl
@[simp] theorem fields_cons (kv : String × α) (p : NT α) : NT.fields (kv :: p) = kv.1 :: p.fields := rfl
@[simp] theorem values_nil : NT.values ([] : NT α) = [] := rfl
@[simp] theorem values_cons (kv : String × α) (p : NT α) : NT.values (kv :: p) = kv.2 :: p.values := rfl
@[simp] theorem fields_append (p q : NT α) : NT.fields (p ++ q) = p.fields ++ q.fields := by
  simp [fields]
@[simp] theorem values_append (p q : NT α) : NT.values (p ++ q) = p.values ++ q.values := by
  simp [values]
@[simp] theorem fields_length (p : NT α) : p.fields.length = p.length := by simp [fields]
@[simp] theorem values_length (p : NT α) : p.values.length = p.length := by simp [values]

theorem fields_zip (names : List String) (vals : List α) (h : vals.length = names.length) :
    NT.fields (names.zip vals) = names := by
  simp only [fields]; exact List.map_fst_zip (by omega)

theorem values_zip (names : List String) (vals : List α) (h : vals.length = names.length) :
    NT.values (names.zip vals) = vals := by
  simp only [values]; exact List.map_snd_zip (by omega)

theorem zip_fields_values (p : NT α) : p.fields.zip p.values = p := by
  induction p with
  | nil => rfl
  | cons kv p ih => simp [ih]

theorem getattr_cons_self (k : String) (v : α) (p : NT α) : NT.getattr ((k, v) :: p) k = .ok v := by
  simp [getattr]

theorem getattr_cons_ne {k n : String} (h : n ≠ k) (v : α) (p : NT α) :
    NT.getattr ((k, v) :: p) n = NT.getattr p n := by
  have : (n == k) = false := by simpa using h
  simp [getattr, List.lookup_cons, this]

theorem getattr_eq_ok {p : NT α} {n : String} {v : α} :
    p.getattr n = .ok v ↔ p.lookup n = some v := by
  unfold getattr; cases p.lookup n <;> simp

theorem getattrs_nil (p : NT α) : p.getattrs [] = .ok [] := rfl

theorem getattrs_cons (p : NT α) (n : String) (ns : List String) :
    p.getattrs (n :: ns) = (do let v ← p.getattr n; let vs ← p.getattrs ns; pure (v :: vs)) := by
  simp only [getattrs, List.mapM_cons]

theorem getattrs_append (p : NT α) (a b : List String) :
    p.getattrs (a ++ b) = (do let x ← p.getattrs a; let y ← p.getattrs b; pure (x ++ y)) := by
  simp only [getattrs, List.mapM_append]

theorem getattrs_append_ok {p : NT α} {a b : List String} {v : List α} :
    p.getattrs (a ++ b) = .ok v ↔
      ∃ x y, p.getattrs a = .ok x ∧ p.getattrs b = .ok y ∧ v = x ++ y := by
  rw [getattrs_append]
  cases ha : p.getattrs a with
  | error e => constructor
               · intro h; simp [bind, Except.bind] at h
               · rintro ⟨x, y, h, _⟩; simp at h
  | ok x =>
    cases hb : p.getattrs b with
    | error e => constructor
                 · intro h; simp [bind, Except.bind] at h
                 · rintro ⟨x, y, _, h, _⟩; simp at h
    | ok y =>
      simp only [bind, Except.bind, pure, Except.pure, Except.ok.injEq]
      constructor
      · rintro rfl; exact ⟨x, y, rfl, rfl, rfl⟩
      · rintro ⟨x', y', rfl, rfl, rfl⟩; rfl

theorem getattrs_cons_of_notMem (k : String) (v : α) (p : NT α) (ns : List String) (h : k ∉ ns) :
    NT.getattrs ((k, v) :: p) ns = p.getattrs ns := by
  induction ns with
  | nil => rfl
  | cons n ns ih =>
    rw [getattrs_cons, getattrs_cons, ih (fun h' => h (List.mem_cons_of_mem _ h')),
      getattr_cons_ne (fun e => h (by simp [e]))]

/-- Reading every field in order gives the values. -/
theorem getattrs_fields {p : NT α} (h : p.fields.Nodup) : p.getattrs p.fields = .ok p.values := by
  induction p with
  | nil => rfl
  | cons kv p ih =>
    obtain ⟨k, v⟩ := kv
    rw [fields_cons, List.nodup_cons] at h
    rw [fields_cons, getattrs_cons, getattr_cons_self, getattrs_cons_of_notMem _ _ _ _ h.1, ih h.2]
    rfl

theorem getattrs_zip {names : List String} {vals : List α} (hn : names.Nodup)
    (h : vals.length = names.length) : NT.getattrs (names.zip vals) names = .ok vals := by
  have := getattrs_fields (p := names.zip vals) (by rwa [fields_zip _ _ h])
  rwa [fields_zip _ _ h, values_zip _ _ h] at this

theorem getattrs_length {p : NT α} {ns : List String} {vs : List α} (h : p.getattrs ns = .ok vs) :
    vs.length = ns.length := by
  induction ns generalizing vs with
  | nil => simp [getattrs, pure, Except.pure] at h; simp [← h]
  | cons n ns ih =>
    rw [getattrs_cons] at h
    cases h1 : p.getattr n with
    | error e => simp [h1, bind, Except.bind] at h
    | ok v =>
      cases h2 : p.getattrs ns with
      | error e => simp [h1, h2, bind, Except.bind] at h
      | ok vs' =>
        simp only [h1, h2, bind, Except.bind, pure, Except.pure, Except.ok.injEq] at h
        subst h; simp [ih h2]

theorem getattrs_getElem {p : NT α} {ns : List String} {vs : List α} (h : p.getattrs ns = .ok vs)
    (i : ℕ) (n : String) (hn : ns[i]? = some n) : ∃ v, vs[i]? = some v ∧ p.getattr n = .ok v := by
  induction ns generalizing vs i with
  | nil => simp at hn
  | cons m ns ih =>
    rw [getattrs_cons] at h
    cases h1 : p.getattr m with
    | error e => simp [h1, bind, Except.bind] at h
    | ok v =>
      cases h2 : p.getattrs ns with
      | error e => simp [h1, h2, bind, Except.bind] at h
      | ok vs' =>
        simp only [h1, h2, bind, Except.bind, pure, Except.pure, Except.ok.injEq] at h
        subst h
        cases i with
        | zero => simp at hn; subst hn; exact ⟨v, by simp, h1⟩
        | succ i => simpa using ih h2 i (by simpa using hn)

theorem getattrs_ok_of_forall {p : NT α} {ns : List String}
    (h : ∀ n ∈ ns, ∃ v, p.getattr n = .ok v) : ∃ vs, p.getattrs ns = .ok vs := by
  induction ns with
  | nil => exact ⟨[], rfl⟩
  | cons n ns ih =>
    obtain ⟨v, hv⟩ := h n (by simp)
    obtain ⟨vs, hvs⟩ := ih fun m hm => h m (by simp [hm])
    exact ⟨v :: vs, by rw [getattrs_cons, hv, hvs]; rfl⟩

theorem make_eq {names : List String} {vals : List α} (h : vals.length = names.length) :
    NT.make names vals = .ok (names.zip vals) := by simp [make, h]

theorem lookup_isSome {p : NT α} {n : String} (h : n ∈ p.fields) : ∃ v, p.lookup n = some v := by
  induction p with
  | nil => simp at h
  | cons kv p ih =>
    obtain ⟨k, v⟩ := kv
    by_cases hk : n = k
    · exact ⟨v, by simp [hk]⟩
    · have hb : (n == k) = false := by simpa using hk
      rw [fields_cons, List.mem_cons] at h
      obtain ⟨w, hw⟩ := ih (h.resolve_left hk)
      exact ⟨w, by simp [List.lookup_cons, hb, hw]⟩

theorem lookup_none {p : NT α} {n : String} (h : n ∉ p.fields) : p.lookup n = none := by
  induction p with
  | nil => rfl
  | cons kv p ih =>
    obtain ⟨k, v⟩ := kv
    rw [fields_cons, List.mem_cons, not_or] at h
    have hb : (n == k) = false := by simpa using h.1
    simp [List.lookup_cons, hb, ih h.2]

theorem lookup_append_left {p q : NT α} {n : String} (h : n ∈ p.fields) :
    (p ++ q).lookup n = p.lookup n := by
  rw [List.lookup_append]
  obtain ⟨v, hv⟩ := lookup_isSome h
  simp [hv]

theorem lookup_append_right {p q : NT α} {n : String} (h : n ∉ p.fields) :
    (p ++ q).lookup n = q.lookup n := by
  rw [List.lookup_append, lookup_none h]; rfl

theorem mem_of_lookup {p : NT α} {n : String} {v : α} (h : p.lookup n = some v) : (n, v) ∈ p := by
  induction p with
  | nil => simp at h
  | cons kv p ih =>
    obtain ⟨k, w⟩ := kv
    by_cases hk : n = k
    · subst hk; simp at h; simp [h]
    · have hb : (n == k) = false := by simpa using hk
      simp only [List.lookup_cons, hb] at h
      exact List.mem_cons_of_mem _ (ih h)

theorem lookup_of_mem {p : NT α} (hp : p.fields.Nodup) {n : String} {v : α} (h : (n, v) ∈ p) :
    p.lookup n = some v := by
  induction p with
  | nil => simp at h
  | cons kv p ih =>
    obtain ⟨k, w⟩ := kv
    rw [fields_cons, List.nodup_cons] at hp
    rcases List.mem_cons.1 h with h | h
    · cases h; simp
    · have : n ∈ NT.fields p := List.mem_map.2 ⟨_, h, rfl⟩
      have hk : n ≠ k := fun e => hp.1 (e ▸ this)
      have hb : (n == k) = false := by simpa using hk
      simp only [List.lookup_cons, hb]
      exact ih hp.2 h

/-- Two tuples with the same names, and the same value under each name, are equal. -/
theorem ext_lookup {p q : NT α} (hf : p.fields = q.fields) (hp : p.fields.Nodup)
    (h : ∀ n ∈ p.fields, p.lookup n = q.lookup n) : p = q := by
  have h1 := getattrs_fields hp
  have h2 := getattrs_fields (p := q) (hf ▸ hp)
  have : p.getattrs p.fields = q.getattrs p.fields := by
    unfold getattrs
    have : ∀ l : List String, (∀ n ∈ l, n ∈ p.fields) → l.mapM p.getattr = l.mapM q.getattr := by
      intro l hl
      induction l with
      | nil => rfl
      | cons n l ih =>
        rw [List.mapM_cons, List.mapM_cons, ih fun m hm => hl m (by simp [hm])]
        have : p.getattr n = q.getattr n := by unfold getattr; rw [h n (hl n (by simp))]
        rw [this]
    exact this _ fun n hn => hn
  rw [h1, hf, h2] at this
  have hv : p.values = q.values := by simpa using this
  rw [← zip_fields_values p, ← zip_fields_values q, hf, hv]

/-- Updating with new names only appends. -/
theorem update_disjoint (d e : NT α) (h : (d.fields ++ e.fields).Nodup) : d.update e = d ++ e := by
  induction e generalizing d with
  | nil => simp [update]
  | cons kv e ih =>
    obtain ⟨k, v⟩ := kv
    have hk : k ∉ d.fields := by
      rw [List.nodup_append] at h
      exact fun hm => h.2.2 k hm k (by simp) rfl
    have hs : setitem d k v = d ++ [(k, v)] := by
      have : d.fields.contains k = false := by simpa using hk
      simp only [setitem, this]; rfl
    have : d.update ((k, v) :: e) = (d ++ [(k, v)]).update e := by
      simp only [update, List.foldl_cons]; rw [hs]
    rw [this, ih _ (by simpa using h)]
    simp

/-- Replacing the block of a tuple that has the same names as `x`. -/
theorem replace_block {pre mid post x : NT α} (hx : x.fields = mid.fields)
    (h : (pre.fields ++ mid.fields ++ post.fields).Nodup) :
    (pre ++ mid ++ post).replace x = .ok (pre ++ x ++ post) := by
  have hpre : ∀ n ∈ pre.fields, n ∉ mid.fields := fun n hn hm =>
    (List.nodup_append.1 (List.nodup_append.1 h).1).2.2 n hn n hm rfl
  have hpost : ∀ n ∈ post.fields, n ∉ mid.fields := fun n hn hm =>
    (List.nodup_append.1 h).2.2 n (by simp [hm]) n hn rfl
  have hmid : mid.fields.Nodup := (List.nodup_append.1 (List.nodup_append.1 h).1).2.1
  have hcond : (x.fields.all fun k => (pre ++ mid ++ post).fields.contains k) = true := by
    rw [List.all_eq_true]; intro k hk
    rw [hx] at hk
    have : k ∈ (pre ++ mid ++ post).fields := by simp [hk]
    simpa using this
  have hkeep : ∀ q : NT α, (∀ n ∈ q.fields, n ∉ mid.fields) →
      (q.map fun kv => (kv.1, (x.lookup kv.1).getD kv.2)) = q := by
    intro q hq
    induction q with
    | nil => rfl
    | cons kv q ih =>
      rw [List.map_cons, ih fun n hn => hq n (by simp [hn]),
        lookup_none (by rw [hx]; exact hq kv.1 (by simp))]
      rfl
  have hswap : (mid.map fun kv => (kv.1, (x.lookup kv.1).getD kv.2)) = x := by
    apply ext_lookup
    · simp only [fields, List.map_map] at hx ⊢
      rw [hx]; apply List.map_congr_left; intro a _; rfl
    · have : NT.fields (mid.map fun kv => (kv.1, (x.lookup kv.1).getD kv.2)) = mid.fields := by
        simp only [fields, List.map_map]; apply List.map_congr_left; intro a _; rfl
      rw [this]; exact hmid
    · intro n hn
      have hf : NT.fields (mid.map fun kv => (kv.1, (x.lookup kv.1).getD kv.2)) = mid.fields := by
        simp only [fields, List.map_map]; apply List.map_congr_left; intro a _; rfl
      rw [hf] at hn
      obtain ⟨v, hv⟩ := lookup_isSome hn
      obtain ⟨w, hw⟩ := lookup_isSome (hx ▸ hn : n ∈ x.fields)
      rw [hw]
      apply lookup_of_mem (by rw [hf]; exact hmid)
      exact List.mem_map.2 ⟨(n, v), mem_of_lookup hv, by simp [hw]⟩
  unfold replace
  rw [if_pos hcond]
  simp only [List.map_append]
  rw [hkeep pre hpre, hkeep post hpost, hswap]

end NT

namespace PopParams

variable {α : Type}

/-- Overlaying blocks that cover a tuple in order replaces it by their concatenation. -/
theorem replace_all_blocks (parts : List (NT α)) (pre rest : NT α)
    (hf : rest.fields = NT.fields parts.flatten) (hn : (pre.fields ++ rest.fields).Nodup) :
    replace_all (pre ++ rest) parts = .ok (pre ++ parts.flatten) := by
  induction parts generalizing pre rest with
  | nil =>
    have : rest = [] := by
      cases rest with
      | nil => rfl
      | cons _ _ => simp at hf
    subst this; rfl
  | cons x parts ih =>
    -- split `rest`
    obtain ⟨mid, post, hr, hm, hp⟩ : ∃ mid post : NT α, rest = mid ++ post ∧
        mid.fields = x.fields ∧ post.fields = NT.fields parts.flatten := by
      refine ⟨rest.take x.length, rest.drop x.length, (List.take_append_drop _ _).symm, ?_, ?_⟩
      · simp only [NT.fields, List.map_take] at hf ⊢
        rw [hf]; simp
      · simp only [NT.fields, List.map_drop] at hf ⊢
        rw [hf]; simp
    subst hr
    have hn' : (pre.fields ++ mid.fields ++ post.fields).Nodup := by simpa using hn
    have h1 := NT.replace_block (pre := pre) (mid := mid) (post := post) hm.symm hn'
    unfold replace_all
    rw [List.foldlM_cons, ← List.append_assoc, h1]
    show replace_all (pre ++ x ++ post) parts = _
    have := ih (pre ++ x) post hp (by simpa [hm] using hn')
    rw [this]; simp

end PopParams

end Diffmah

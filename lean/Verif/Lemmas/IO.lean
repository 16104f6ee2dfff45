import Verif.Model.IO
import Verif.Spec

/-! # Lemmas about strings, slices, dictionaries and HDF5 files -/

namespace Diffmah.IO

open Diffmah.Text Spec

/-! ## Splitting and joining -/

theorem splitOnFrom_append (sep : Char) (cur w s : Str) (hw : sep ∉ w) :
    splitOnFrom sep cur (w ++ s) = splitOnFrom sep (cur ++ w) s := by
  induction w generalizing cur with
  | nil => simp
  | cons c w ih =>
    simp only [List.mem_cons, not_or] at hw
    simp only [List.cons_append, splitOnFrom]
    rw [if_neg (fun h => hw.1 h.symm), ih _ hw.2]
    simp

theorem splitOn_nosep (sep : Char) (w : Str) (hw : sep ∉ w) : splitOn sep w = [w] := by
  have := splitOnFrom_append sep [] w [] hw
  rw [List.append_nil, List.nil_append] at this
  rw [splitOn, this]; rfl

theorem splitOn_word (sep : Char) (w s : Str) (hw : sep ∉ w) :
    splitOn sep (w ++ sep :: s) = w :: splitOn sep s := by
  rw [splitOn, splitOnFrom_append sep [] w _ hw]
  simp [splitOnFrom, splitOn]

theorem splitOn_joinWith (sep : Char) (ws : List Str) (hne : ws ≠ []) (h : ∀ w ∈ ws, sep ∉ w) :
    splitOn sep (joinWith sep ws) = ws := by
  induction ws with
  | nil => exact absurd rfl hne
  | cons w ws ih =>
    cases ws with
    | nil => exact splitOn_nosep sep w (h w (by simp))
    | cons w' ws =>
      rw [joinWith, splitOn_word sep w _ (h w (by simp)),
        ih (by simp) fun x hx => h x (by simp [List.mem_cons.1 hx])]

theorem joinWith_append (sep : Char) (w : Str) (ws : List Str) (h : ws ≠ []) :
    joinWith sep (w :: ws) = w ++ sep :: joinWith sep ws := by
  cases ws with
  | nil => exact absurd rfl h
  | cons w' ws => rfl

/-! ## Slices -/

theorem rows_zipIdx {α : Type} (l : List α) (k a b : ℕ) :
    ((l.zipIdx k).filter fun p => decide (a ≤ p.2 ∧ p.2 < b)).map Prod.fst
      = (l.take (b - k)).drop (a - k) := by
  induction l generalizing k with
  | nil => simp
  | cons x l ih =>
    rw [List.zipIdx_cons, List.filter_cons]
    by_cases h : a ≤ k ∧ k < b
    · rw [if_pos (by simpa using h), List.map_cons, ih, show b - k = (b - (k + 1)) + 1 by omega,
        show a - k = 0 by omega, show a - (k + 1) = 0 by omega]
      simp
    · rw [if_neg (by simpa using h), ih]
      by_cases hb : b ≤ k
      · rw [show b - k = 0 by omega, show b - (k + 1) = 0 by omega]; simp
      · rw [show b - k = (b - (k + 1)) + 1 by omega, show a - k = (a - (k + 1)) + 1 by omega]
        simp

theorem rows_eq {α : Type} (l : List α) (a b : ℕ) : rows l a b = (l.take b).drop a := by
  have := rows_zipIdx l 0 a b
  simpa [rows] using this

theorem rows_append {α : Type} (l : List α) {a b c : ℕ} (h1 : a ≤ b) (h2 : b ≤ c) :
    rows l a b ++ rows l b c = rows l a c := by
  simp only [rows_eq]
  have : (l.take c).drop a = ((l.take c).drop a).take (b - a) ++ ((l.take c).drop a).drop (b - a) :=
    (List.take_append_drop _ _).symm
  rw [this]
  congr 1
  · rw [List.take_drop, List.take_take]; congr 2; omega
  · rw [List.drop_drop]; congr 1; omega

theorem rows_all {α : Type} (l : List α) {b : ℕ} (h : l.length ≤ b) : rows l 0 b = l := by
  rw [rows_eq, List.drop_zero, List.take_of_length_le h]

theorem pySlice_nat {α : Type} (l : List α) (a : ℕ) (b : Option ℕ) :
    pySlice l a (b.map fun n : ℕ => (n : ℤ)) = rows l a (b.getD l.length) := by
  rw [rows_eq]
  have ha : sliceBound l.length (a : ℤ) = min a l.length := by
    unfold sliceBound; rw [if_neg (by omega)]; simp
  cases b with
  | none =>
    simp only [pySlice, Option.map_none, ha, Option.getD_none, List.take_length]
    rcases le_total a l.length with h | h
    · rw [min_eq_left h]
    · rw [min_eq_right h, List.drop_length, List.drop_eq_nil_of_le h]
  | some b =>
    have hb : sliceBound l.length (b : ℤ) = min b l.length := by
      unfold sliceBound; rw [if_neg (by omega)]; simp
    simp only [pySlice, Option.map_some, ha, hb, Option.getD_some]
    have ht : l.take (min b l.length) = l.take b := by
      rcases le_total b l.length with h | h
      · rw [min_eq_left h]
      · rw [min_eq_right h, List.take_length, List.take_of_length_le h]
    rw [ht]
    rcases le_total a l.length with h | h
    · rw [min_eq_left h]
    · rw [min_eq_right h, List.drop_eq_nil_of_le (by simp), List.drop_eq_nil_of_le (by simp; omega)]

/-- A negative start counts from the end. -/
theorem pySlice_neg {α : Type} (l : List α) (k : ℕ) (h0 : 0 < k) (h : k ≤ l.length) :
    pySlice l (-(k : ℤ)) none = rows l (l.length - k) l.length := by
  rw [rows_eq]
  have ha : sliceBound l.length (-(k : ℤ)) = l.length - k := by
    unfold sliceBound; rw [if_pos (by omega)]; omega
  simp only [pySlice, ha]

/-! ## Dictionaries -/

variable {α : Type}

theorem lookup_isSome_iff (d : Dict α) (k : Str) : (d.lookup k).isSome ↔ k ∈ d.map Prod.fst := by
  induction d with
  | nil => simp
  | cons x d ih =>
    rw [List.lookup_cons, List.map_cons, List.mem_cons]
    by_cases h : k = x.1
    · simp [h]
    · have hb : (k == x.1) = false := beq_eq_false_iff_ne.2 h
      rw [hb]; simp [h, ih]

theorem lookup_of_mem {d : Dict α} (hd : (d.map Prod.fst).Nodup) {k : Str} {v : α}
    (h : (k, v) ∈ d) : d.lookup k = some v := by
  induction d with
  | nil => cases h
  | cons x d ih =>
    rw [List.map_cons, List.nodup_cons] at hd
    rw [List.lookup_cons]
    rcases List.mem_cons.1 h with rfl | h
    · simp
    · have : k ≠ x.1 := by
        rintro rfl
        exact hd.1 (List.mem_map.2 ⟨_, h, rfl⟩)
      have : (k == x.1) = false := by simpa using this
      rw [this]; exact ih hd.2 h

theorem mem_of_lookup {d : Dict α} {k : Str} {v : α} (h : d.lookup k = some v) : (k, v) ∈ d := by
  induction d with
  | nil => simp at h
  | cons x d ih =>
    rw [List.lookup_cons] at h
    by_cases hk : k = x.1
    · have : (k == x.1) = true := by simpa using hk
      rw [this] at h
      simp only [Option.some.injEq] at h
      subst h hk; simp
    · have : (k == x.1) = false := by simpa using hk
      rw [this] at h
      exact List.mem_cons_of_mem _ (ih h)

theorem lookup_append (d e : Dict α) (k : Str) :
    (d ++ e).lookup k = (d.lookup k).or (e.lookup k) := by
  induction d with
  | nil => simp
  | cons x d ih =>
    rw [List.cons_append, List.lookup_cons, List.lookup_cons]
    cases k == x.1 <;> simp [ih]

theorem set_keys (d : Dict α) (k : Str) (v : α) :
    (d.set k v).map Prod.fst = if k ∈ d.map Prod.fst then d.map Prod.fst else d.map Prod.fst ++ [k] := by
  unfold Dict.set
  by_cases h : k ∈ d.map Prod.fst
  · rw [if_pos (by simpa using h), if_pos h, List.map_map]
    refine List.map_congr_left fun x _ => ?_
    simp only [Function.comp]
    split <;> rename_i hx
    · exact hx.symm
    · rfl
  · rw [if_neg (by simpa using h), if_neg h]; simp

theorem set_lookup (d : Dict α) (k : Str) (v : α) (j : Str) :
    (d.set k v).lookup j = if j = k then some v else d.lookup j := by
  unfold Dict.set
  by_cases h : k ∈ d.map Prod.fst
  · rw [if_pos (by simpa using h)]
    induction d with
    | nil => simp at h
    | cons x d ih =>
      by_cases hx : x.1 = k
      · by_cases hk : k ∈ d.map Prod.fst
        · have := ih hk
          rw [List.map_cons, List.lookup_cons, if_pos hx, List.lookup_cons, this]
          by_cases hj : j = k
          · simp [hj]
          · have : (j == k) = false := by simpa using hj
            rw [this, hx, this]
        · have hm : (d.map fun kv => if kv.1 = k then (k, v) else kv) = d := by
            have : ∀ y ∈ d, (if y.1 = k then (k, v) else y) = y := by
              intro y hy
              rw [if_neg]; rintro rfl; exact hk (List.mem_map_of_mem hy)
            rw [List.map_congr_left this, List.map_id']
          rw [List.map_cons, if_pos hx, hm, List.lookup_cons, List.lookup_cons, hx]
          by_cases hj : j = k
          · simp [hj]
          · have : (j == k) = false := by simpa using hj
            rw [this, if_neg hj]
      · have hk : k ∈ d.map Prod.fst := by
          rw [List.map_cons, List.mem_cons] at h
          exact h.resolve_left fun e => hx e.symm
        rw [List.map_cons, if_neg hx, List.lookup_cons, List.lookup_cons, ih hk]
        by_cases hj : j = k
        · have : (j == x.1) = false := by simpa [hj] using fun e => hx e.symm
          rw [this]
        · simp [hj]
  · rw [if_neg (by simpa using h), lookup_append, List.lookup_cons]
    by_cases hj : j = k
    · subst hj
      have : d.lookup j = none := by
        rw [← Option.not_isSome_iff_eq_none, lookup_isSome_iff]; exact h
      simp [this]
    · have : (j == k) = false := by simpa using hj
      rw [this]; simp [hj]

/-! ## Loading -/

variable {R : Type}

/-- A file (or group) holding columns only -/
def flat (cols : List (Str × List R)) : Node R := .group (cols.map fun c => (c.1, .dset c.2))

theorem lookup_flat (cols : List (Str × List R)) (k : Str) :
    (cols.map fun c => (c.1, Node.dset c.2)).lookup k = (cols.lookup k).map Node.dset := by
  induction cols with
  | nil => rfl
  | cons c cols ih =>
    rw [List.map_cons, List.lookup_cons, List.lookup_cons]
    cases k == c.1 <;> simp [ih]

theorem item_plain {ms : List (Str × Node R)} {k : Str} (h0 : k ≠ []) (h : '/' ∉ k) :
    (Node.group ms).item k = match ms.lookup k with
      | some m => .ok m
      | none => .error .keyError := by
  rw [Node.item, splitOn_nosep _ _ h, Node.get, if_neg h0]
  cases ms.lookup k <;> simp [Node.get]

theorem get_cons (n : Node R) (c : Str) (p : List Str) :
    n.get (c :: p) = if c = [] then n.get p else match n with
      | .dset _ => .error .valueError
      | .group ms => match ms.lookup c with
        | some m => m.get p
        | none => .error .keyError := by
  cases n <;> rfl

theorem get_append (n : Node R) (p q : List Str) :
    n.get (p ++ q) = (n.get p >>= fun m => m.get q) := by
  induction p generalizing n with
  | nil => rfl
  | cons c p ih =>
    rw [List.cons_append, get_cons, get_cons]
    by_cases hc : c = []
    · rw [if_pos hc, if_pos hc]; exact ih n
    · rw [if_neg hc, if_neg hc]
      cases n with
      | dset _ => rfl
      | group ms =>
        dsimp only
        cases ms.lookup c with
        | none => rfl
        | some m => exact ih m

theorem splitOn_slash (a b : Str) : splitOn '/' (a ++ '/' :: b) = splitOn '/' a ++ splitOn '/' b := by
  have key : ∀ (a cur : Str), splitOnFrom '/' cur (a ++ '/' :: b)
      = splitOnFrom '/' cur a ++ splitOn '/' b := by
    intro a
    induction a with
    | nil => intro cur; simp [splitOnFrom, splitOn]
    | cons c a ih =>
      intro cur
      simp only [List.cons_append, splitOnFrom]
      split
      · rw [ih]; rfl
      · rw [ih]
  exact key a []

theorem item_slash (n : Node R) (a b : Str) :
    n.item (a ++ '/' :: b) = (n.item a >>= fun m => m.item b) := by
  rw [Node.item, splitOn_slash, get_append]; rfl

/-- The loop, when every key leads to a column -/
theorem foldlM_loadKey (hdf : Node R) (i : ℤ) (j : Option ℤ) (ds : Option Str) (out : Str → Str)
    (col : Str → List R) (ks : List Str)
    (h : ∀ k ∈ ks, keyOut ds k = .ok (out k) ∧ hdf.item k = .ok (.dset (col k)))
    (d : Dict (List R)) :
    ks.foldlM (loadKey hdf i j ds) d
      = .ok (ks.foldl (fun d k => d.set (out k) (pySlice (col k) i j)) d) := by
  induction ks generalizing d with
  | nil => rfl
  | cons k ks ih =>
    obtain ⟨h1, h2⟩ := h k (by simp)
    rw [List.foldlM_cons, List.foldl_cons]
    have : loadKey hdf i j ds d k = .ok (d.set (out k) (pySlice (col k) i j)) := by
      unfold loadKey
      rw [h1, h2]; rfl
    rw [this]
    exact ih (fun k hk => h k (List.mem_cons_of_mem _ hk)) _

/-- Setting distinct new keys appends them. -/
theorem foldl_set_new {K : Type} (ks : List K) (out : K → Str) (v : K → α) (d : Dict α)
    (hn : (ks.map out).Nodup) (hd : ∀ k ∈ ks, out k ∉ d.map Prod.fst) :
    ks.foldl (fun d k => d.set (out k) (v k)) d = d ++ ks.map fun k => (out k, v k) := by
  induction ks generalizing d with
  | nil => simp
  | cons k ks ih =>
    rw [List.map_cons, List.nodup_cons] at hn
    have e : d.set (out k) (v k) = d ++ [(out k, v k)] := by
      unfold Dict.set
      rw [if_neg (by simpa using hd k (by simp))]
    rw [List.foldl_cons, e, ih _ hn.2]
    · simp
    · intro k' hk'
      rw [List.map_append, List.mem_append, not_or]
      refine ⟨hd k' (List.mem_cons_of_mem _ hk'), ?_⟩
      simp only [List.map_cons, List.map_nil, List.mem_singleton]
      intro e
      exact hn.1 (e ▸ List.mem_map_of_mem hk')

/-- What the dictionary holds after setting some keys to values given by a function of the key -/
theorem foldl_set_lookup (ks : List Str) (v : Str → α) (d : Dict α) (j : Str) :
    (ks.foldl (fun d k => d.set k (v k)) d).lookup j
      = if j ∈ ks then some (v j) else d.lookup j := by
  induction ks generalizing d with
  | nil => simp
  | cons k ks ih =>
    rw [List.foldl_cons, ih, set_lookup]
    by_cases h1 : j ∈ ks
    · simp [h1]
    · by_cases h2 : j = k
      · simp [h2]
      · simp [h1, h2]

theorem foldl_set_nodup {K : Type} (ks : List K) (out : K → Str) (v : K → α) (d : Dict α)
    (hd : (d.map Prod.fst).Nodup) :
    ((ks.foldl (fun d k => d.set (out k) (v k)) d).map Prod.fst).Nodup := by
  induction ks generalizing d with
  | nil => exact hd
  | cons k ks ih =>
    rw [List.foldl_cons]
    apply ih
    rw [set_keys]
    split
    · exact hd
    · rename_i h
      rw [List.nodup_append]
      refine ⟨hd, by simp, ?_⟩
      intro a ha b hb
      simp only [List.mem_singleton] at hb
      subst hb
      rintro rfl; exact h ha

end Diffmah.IO

import Verif.Lemmas.IO

/-!
# Properties of the HDF5 helpers (C67, C68)
-/

namespace Diffmah.IO

open Diffmah.Text Spec

variable {R : Type}

/-! ## load_flat_hdf5 -/

theorem item_flat {cols : List (Str × List R)} (hplain : ∀ c ∈ cols, c.1 ≠ [] ∧ '/' ∉ c.1)
    (hnd : (cols.map Prod.fst).Nodup) {k : Str} {c : List R} (h : (k, c) ∈ cols) :
    (flat cols).item k = .ok (.dset c) := by
  rw [flat, item_plain (hplain _ h).1 (hplain _ h).2, lookup_flat, lookup_of_mem hnd h]; rfl

/-- **C68** (whole file). Loading rows `a` to `b - 1` (to the end if no end is given) of a file of
columns gives every column under its name, in the file's order, with exactly those rows. -/
theorem C68_all_columns (cols : List (Str × List R)) (hplain : ∀ c ∈ cols, c.1 ≠ [] ∧ '/' ∉ c.1)
    (hnd : (cols.map Prod.fst).Nodup) (a : ℕ) (b : Option ℕ) :
    load_flat_hdf5 (flat cols) a (b.map fun n : ℕ => (n : ℤ))
      = .ok (cols.map fun c => (c.1, rows c.2 a (b.getD c.2.length))) := by
  have hk : keysIn (flat cols) none none = .ok (cols.map Prod.fst) := by
    simp [keysIn, flat, Node.keys, Function.comp_def]
  unfold load_flat_hdf5
  rw [hk]
  simp only [bind, Except.bind]
  rw [foldlM_loadKey (flat cols) a (b.map fun n : ℕ => (n : ℤ)) none id
    (fun k => (cols.lookup k).getD [])]
  · rw [foldl_set_new _ _ _ _ (by simpa using hnd) (by simp), List.nil_append, List.map_map]
    congr 1
    refine List.map_congr_left fun c hc => ?_
    simp only [Function.comp, id]
    rw [lookup_of_mem hnd (v := c.2) hc, Option.getD_some, pySlice_nat]
  · intro k hk
    obtain ⟨c, hc, rfl⟩ := List.mem_map.1 hk
    refine ⟨rfl, ?_⟩
    rw [item_flat hplain hnd (c := c.2) hc, lookup_of_mem hnd (v := c.2) hc]; rfl

/-- **C68** (requested columns). With a list of keys, the result has exactly those keys, each with
exactly the requested rows of the column of that name. -/
theorem C68_requested_columns (cols : List (Str × List R))
    (hplain : ∀ c ∈ cols, c.1 ≠ [] ∧ '/' ∉ c.1) (hnd : (cols.map Prod.fst).Nodup)
    (keys : List Str) (hkeys : ∀ k ∈ keys, k ∈ cols.map Prod.fst) (a : ℕ) (b : Option ℕ) :
    ∃ d, load_flat_hdf5 (flat cols) a (b.map fun n : ℕ => (n : ℤ)) (some keys) = .ok d ∧
      (d.map Prod.fst).Nodup ∧ (∀ k, k ∈ d.map Prod.fst ↔ k ∈ keys) ∧
      ∀ k c, k ∈ keys → (k, c) ∈ cols → d.lookup k = some (rows c a (b.getD c.length)) := by
  have hl := foldlM_loadKey (flat cols) a (b.map fun n : ℕ => (n : ℤ)) none id
    (fun k => (cols.lookup k).getD []) keys (by
      intro k hk
      obtain ⟨c, hc, rfl⟩ := List.mem_map.1 (hkeys k hk)
      refine ⟨rfl, ?_⟩
      rw [item_flat hplain hnd (c := c.2) hc, lookup_of_mem hnd (v := c.2) hc]; rfl) []
  have hlk := foldl_set_lookup keys
    (fun k => pySlice ((cols.lookup k).getD []) (a : ℤ) (b.map fun n : ℕ => (n : ℤ))) []
  refine ⟨_, hl, foldl_set_nodup _ _ _ _ (by simp), ?_, ?_⟩
  · intro k
    rw [← lookup_isSome_iff]
    simp only [id]
    rw [hlk]
    by_cases h : k ∈ keys <;> simp [h]
  · intro k c hk hc
    simp only [id]
    rw [hlk, if_pos hk, lookup_of_mem hnd hc, Option.getD_some, pySlice_nat]

/-- **C68** (missing column). Requesting a column the file does not have raises KeyError. -/
theorem C68_missing_column (cols : List (Str × List R)) (k : Str) (h0 : k ≠ []) (hs : '/' ∉ k)
    (h : k ∉ cols.map Prod.fst) (i : ℤ) (j : Option ℤ) :
    load_flat_hdf5 (flat cols) i j (some [k]) = .error .keyError := by
  have : (cols.lookup k) = none := by
    rw [← Option.not_isSome_iff_eq_none, lookup_isSome_iff]; exact h
  simp [load_flat_hdf5, keysIn, loadKey, keyOut, bind, Except.bind, flat, item_plain h0 hs,
    lookup_flat, this]

/-- **C68** (a group is not a column). Requesting a key that names a group raises TypeError. -/
theorem C68_group_key (ms gs : List (Str × Node R)) (k : Str) (h0 : k ≠ []) (hs : '/' ∉ k)
    (h : ms.lookup k = some (.group gs)) (i : ℤ) (j : Option ℤ) :
    load_flat_hdf5 (.group ms) i j (some [k]) = .error .typeError := by
  simp [load_flat_hdf5, keysIn, loadKey, keyOut, bind, Except.bind, item_plain h0 hs, h, Node.slice]

/-- **C68** (counting from the end). A negative start `-k` loads the last `k` rows. -/
theorem C68_negative_start (cols : List (Str × List R))
    (hplain : ∀ c ∈ cols, c.1 ≠ [] ∧ '/' ∉ c.1) (hnd : (cols.map Prod.fst).Nodup)
    (k : ℕ) (h0 : 0 < k) (hk : ∀ c ∈ cols, k ≤ c.2.length) :
    load_flat_hdf5 (flat cols) (-(k : ℤ))
      = .ok (cols.map fun c => (c.1, rows c.2 (c.2.length - k) c.2.length)) := by
  have hki : keysIn (flat cols) none none = .ok (cols.map Prod.fst) := by
    simp [keysIn, flat, Node.keys, Function.comp_def]
  unfold load_flat_hdf5
  rw [hki]
  simp only [bind, Except.bind]
  rw [foldlM_loadKey (flat cols) (-(k : ℤ)) none none id (fun k => (cols.lookup k).getD [])]
  · rw [foldl_set_new _ _ _ _ (by simpa using hnd) (by simp), List.nil_append, List.map_map]
    congr 1
    refine List.map_congr_left fun c hc => ?_
    simp only [Function.comp, id]
    rw [lookup_of_mem hnd (v := c.2) hc, Option.getD_some, pySlice_neg _ _ h0 (hk c hc)]
  · intro k hk
    obtain ⟨c, hc, rfl⟩ := List.mem_map.1 hk
    refine ⟨rfl, ?_⟩
    rw [item_flat hplain hnd (c := c.2) hc, lookup_of_mem hnd (v := c.2) hc]; rfl

theorem rows_chunks {α : Type} (l : List α) (b : ℕ) (bs : List ℕ) (hs : (b :: bs).Pairwise (· ≤ ·)) :
    (((b :: bs).zip bs).map fun p => rows l p.1 p.2).flatten
      = rows l b ((b :: bs).getLast (by simp)) := by
  induction bs generalizing b with
  | nil =>
    simp only [List.zip_nil_right, List.map_nil, List.flatten_nil, List.getLast_singleton, rows_eq]
    rw [List.drop_eq_nil_of_le (by simp)]
  | cons c bs ih =>
    rw [List.pairwise_cons] at hs
    rw [List.zip_cons_cons, List.map_cons, List.flatten_cons, ih c hs.2,
      List.getLast_cons (List.cons_ne_nil c bs), rows_append l (hs.1 c (by simp))]
    have := List.getLast_mem (l := c :: bs) (List.cons_ne_nil c bs)
    rcases List.mem_cons.1 this with h | h
    · exact h.ge
    · exact (List.pairwise_cons.1 hs.2).1 _ h

/-- **C68** (chunks). For any increasing list of row numbers starting at 0 and ending at or after the
end of the file, the chunks between consecutive numbers concatenate to the whole of every column. -/
theorem C68_chunks (cols : List (Str × List R)) (hplain : ∀ c ∈ cols, c.1 ≠ [] ∧ '/' ∉ c.1)
    (hnd : (cols.map Prod.fst).Nodup) (bs : List ℕ) (hs : (0 :: bs).Pairwise (· ≤ ·))
    (hend : ∀ c ∈ cols, c.2.length ≤ (0 :: bs).getLast (by simp)) :
    ∃ chunks : List (Dict (List R)),
      List.Forall₂ (fun p d => load_flat_hdf5 (flat cols) (p.1 : ℕ) (some ((p.2 : ℕ) : ℤ)) = .ok d)
        ((0 :: bs).zip bs) chunks ∧
      ∀ c ∈ cols, (chunks.map fun d => (d.lookup c.1).getD []).flatten = c.2 := by
  refine ⟨((0 :: bs).zip bs).map fun p => cols.map fun c => (c.1, rows c.2 p.1 p.2), ?_, ?_⟩
  · rw [List.forall₂_map_right_iff]
    exact List.forall₂_same.2 fun p _ => C68_all_columns cols hplain hnd p.1 (some p.2)
  · intro c hc
    rw [List.map_map]
    have : ∀ p ∈ (0 :: bs).zip bs,
        ((fun d : Dict (List R) => (d.lookup c.1).getD []) ∘
          fun p : ℕ × ℕ => cols.map fun c => (c.1, rows c.2 p.1 p.2)) p = rows c.2 p.1 p.2 := by
      intro p _
      simp only [Function.comp]
      rw [lookup_of_mem (v := rows c.2 p.1 p.2)]
      · rfl
      · rw [List.map_map]; exact hnd
      · exact List.mem_map.2 ⟨c, hc, rfl⟩
    rw [List.map_congr_left this, rows_chunks _ _ _ hs, rows_all _ (hend c hc)]

/-- **C68** (columns inside a group at the top level of the file). The result is keyed by the bare
column names. For groups further down this is false (`C68_nested_group`). -/
theorem C68_group_partial (ms : List (Str × Node R)) (g : Str) (hg : g ≠ []) (hgs : '/' ∉ g)
    (cols : List (Str × List R)) (hms : ms.lookup g = some (flat cols))
    (hplain : ∀ c ∈ cols, c.1 ≠ [] ∧ '/' ∉ c.1) (hnd : (cols.map Prod.fst).Nodup)
    (a : ℕ) (b : Option ℕ) :
    load_flat_hdf5 (.group ms) a (b.map fun n : ℕ => (n : ℤ)) none (some g)
        = .ok (cols.map fun c => (c.1, rows c.2 a (b.getD c.2.length))) ∧
      load_flat_hdf5 (.group ms) a (b.map fun n : ℕ => (n : ℤ)) (some (cols.map Prod.fst)) (some g)
        = .ok (cols.map fun c => (c.1, rows c.2 a (b.getD c.2.length))) := by
  have hitem : (Node.group ms).item g = .ok (flat cols) := by rw [item_plain hg hgs, hms]
  have hk1 : keysIn (.group ms) none (some g) = .ok ((cols.map Prod.fst).map fun k => g ++ '/' :: k) := by
    simp [keysIn, hitem, bind, Except.bind, flat, Node.keys, Function.comp_def, pure, Except.pure]
  have hk2 : keysIn (.group ms) (some (cols.map Prod.fst)) (some g)
      = .ok ((cols.map Prod.fst).map fun k => g ++ '/' :: k) := rfl
  have key : ((cols.map Prod.fst).map fun k => g ++ '/' :: k).foldlM
      (loadKey (.group ms) a (b.map fun n : ℕ => (n : ℤ)) (some g)) []
      = .ok (cols.map fun c => (c.1, rows c.2 a (b.getD c.2.length))) := by
    have hinj : ∀ k : Str, (g ++ '/' :: k).drop (g.length + 1) = k := by
      intro k; rw [List.drop_append]; simp
    rw [foldlM_loadKey (.group ms) a (b.map fun n : ℕ => (n : ℤ)) (some g)
      (fun k => k.drop (g.length + 1)) (fun k => (cols.lookup (k.drop (g.length + 1))).getD [])]
    · rw [foldl_set_new _ _ _ _ (by simpa [Function.comp_def, hinj] using hnd) (by simp),
        List.nil_append, List.map_map, List.map_map]
      congr 1
      refine List.map_congr_left fun c hc => ?_
      simp only [Function.comp, hinj]
      rw [lookup_of_mem hnd (v := c.2) hc, Option.getD_some, pySlice_nat]
    · intro k hk
      rw [List.map_map] at hk
      obtain ⟨c, hc, rfl⟩ := List.mem_map.1 hk
      simp only [Function.comp, hinj]
      refine ⟨?_, ?_⟩
      · simp [keyOut, splitOn_word _ _ _ hgs, splitOn_nosep _ _ (hplain c hc).2]
      · rw [item_slash, hitem]
        change (flat cols).item c.1 = _
        rw [item_flat hplain hnd (c := c.2) hc, lookup_of_mem hnd (v := c.2) hc]; rfl
  constructor
  · unfold load_flat_hdf5; rw [hk1]; exact key
  · unfold load_flat_hdf5; rw [hk2]; exact key

/-- **C68** (negation for nested groups). If the columns are in a group `g/h`, every column is stored
under the key `h`: only the last column survives, whatever the columns are. -/
theorem C68_nested_group (hdf : Node R) (g h : Str) (hgs : '/' ∉ g) (hhs : '/' ∉ h)
    (cols : List (Str × List R)) (last : Str × List R)
    (hdfg : hdf.item (g ++ '/' :: h) = .ok (flat (cols ++ [last])))
    (hplain : ∀ c ∈ cols ++ [last], c.1 ≠ [] ∧ '/' ∉ c.1)
    (hnd : ((cols ++ [last]).map Prod.fst).Nodup) (a : ℕ) (b : Option ℕ) :
    load_flat_hdf5 hdf a (b.map fun n : ℕ => (n : ℤ)) none (some (g ++ '/' :: h))
      = .ok [(h, rows last.2 a (b.getD last.2.length))] := by
  set all := cols ++ [last] with hall
  have hk1 : keysIn hdf none (some (g ++ '/' :: h))
      = .ok ((all.map Prod.fst).map fun k => (g ++ '/' :: h) ++ '/' :: k) := by
    simp [keysIn, hdfg, bind, Except.bind, flat, Node.keys, Function.comp_def, pure, Except.pure]
  have hinj : ∀ k : Str, ((g ++ '/' :: h) ++ '/' :: k).drop ((g ++ '/' :: h).length + 1) = k := by
    intro k; rw [List.drop_append]; simp
  unfold load_flat_hdf5
  rw [hk1]
  simp only [bind, Except.bind]
  rw [foldlM_loadKey hdf a (b.map fun n : ℕ => (n : ℤ)) (some (g ++ '/' :: h)) (fun _ => h)
    (fun k => (all.lookup (k.drop ((g ++ '/' :: h).length + 1))).getD [])]
  · rw [List.map_map]
    have hcol : ∀ c ∈ all, (all.lookup c.1).getD [] = c.2 := fun c hc => by
      rw [lookup_of_mem hnd (v := c.2) hc]; rfl
    have key : ∀ (l : List (Str × List R)) (d : Dict (List R)), (∀ c ∈ l ++ [last], c ∈ all) →
        (d = [] ∨ ∃ v, d = [(h, v)]) →
        ((l ++ [last]).map ((fun k => (g ++ '/' :: h) ++ '/' :: k) ∘ Prod.fst)).foldl
          (fun d k => d.set h (pySlice ((all.lookup (k.drop ((g ++ '/' :: h).length + 1))).getD [])
            a (b.map fun n : ℕ => (n : ℤ)))) d
          = [(h, rows last.2 a (b.getD last.2.length))] := by
      intro l
      induction l with
      | nil =>
        intro d hl hd
        simp only [List.nil_append, List.map_cons, List.map_nil, List.foldl_cons, List.foldl_nil,
          Function.comp, hinj]
        rw [hcol last (hl last (by simp)), pySlice_nat]
        rcases hd with rfl | ⟨v, rfl⟩ <;> simp [Dict.set]
      | cons c l ih =>
        intro d hl hd
        rw [List.cons_append, List.map_cons, List.foldl_cons]
        refine ih _ (fun c' hc' => hl c' (List.mem_cons_of_mem _ hc')) (.inr ?_)
        rcases hd with rfl | ⟨v, rfl⟩
        · exact ⟨_, rfl⟩
        · exact ⟨_, by simp [Dict.set]; rfl⟩
    rw [hall]
    rw [hall] at key
    rw [key cols [] (fun c hc => hc) (.inl rfl)]
  · intro k hk
    rw [List.map_map] at hk
    obtain ⟨c, hc, rfl⟩ := List.mem_map.1 hk
    simp only [Function.comp, hinj]
    refine ⟨?_, ?_⟩
    · rw [keyOut, List.append_assoc, List.cons_append, splitOn_word _ _ _ hgs,
        splitOn_word _ _ _ hhs]
      rfl
    · rw [item_slash, hdfg]
      change (flat all).item c.1 = _
      rw [item_flat hplain hnd (c := c.2) hc, lookup_of_mem hnd (v := c.2) hc]; rfl

/-! Concrete files meeting the hypotheses -/

/-- Two columns of four rows -/
def exampleCols : List (Str × List ℕ) := [("x".toList, [1, 2, 3, 4]), ("y".toList, [5, 6, 7, 8])]

theorem exampleCols_plain : ∀ c ∈ exampleCols, c.1 ≠ [] ∧ '/' ∉ c.1 := by decide

theorem exampleCols_nodup : (exampleCols.map Prod.fst).Nodup := by decide

example : load_flat_hdf5 (flat exampleCols) 1 (some 3)
    = .ok [("x".toList, [2, 3]), ("y".toList, [6, 7])] :=
  C68_all_columns exampleCols exampleCols_plain exampleCols_nodup 1 (some 3)

example : load_flat_hdf5 (flat exampleCols) 0 none (some ["z".toList]) = .error .keyError :=
  C68_missing_column exampleCols "z".toList (by decide) (by decide) (by decide) 0 none

example : load_flat_hdf5 (.group [("g".toList, flat exampleCols)]) 0 none (some ["g".toList])
    = .error .typeError :=
  C68_group_key _ (exampleCols.map fun c => (c.1, .dset c.2)) "g".toList (by decide) (by decide) rfl 0 none

example : load_flat_hdf5 (flat exampleCols) (-1) = .ok [("x".toList, [4]), ("y".toList, [8])] :=
  C68_negative_start exampleCols exampleCols_plain exampleCols_nodup 1 (by norm_num) (by decide)

example : ∃ d, load_flat_hdf5 (flat exampleCols) 1 none (some ["y".toList]) = .ok d ∧
    d.lookup "y".toList = some [6, 7, 8] := by
  obtain ⟨d, h1, _, _, h2⟩ := C68_requested_columns exampleCols exampleCols_plain exampleCols_nodup
    ["y".toList] (by decide) 1 none
  exact ⟨d, h1, h2 _ [5, 6, 7, 8] (by simp) (by decide)⟩

/-- Chunks `[0, 3)`, `[3, 3)` and `[3, 10)` -/
example : ∃ chunks : List (Dict (List ℕ)), chunks.length = 3 ∧
    ∀ c ∈ exampleCols, (chunks.map fun d => (d.lookup c.1).getD []).flatten = c.2 := by
  obtain ⟨chunks, h1, h2⟩ := C68_chunks exampleCols exampleCols_plain exampleCols_nodup [3, 3, 10]
    (by decide) (by decide)
  exact ⟨chunks, h1.length_eq.symm, h2⟩

example : load_flat_hdf5 (.group [("g".toList, flat exampleCols)]) 1 (some 3) none (some "g".toList)
    = .ok [("x".toList, [2, 3]), ("y".toList, [6, 7])] :=
  (C68_group_partial [("g".toList, flat exampleCols)] "g".toList (by decide) (by decide) exampleCols
    rfl exampleCols_plain exampleCols_nodup 1 (some 3)).1

/-- Two columns in the group `g/h` come back as one entry named `h`. -/
example : load_flat_hdf5 (.group [("g".toList, .group [("h".toList, flat exampleCols)])]) 1 (some 3)
    none (some "g/h".toList) = .ok [("h".toList, [6, 7])] :=
  C68_nested_group _ "g".toList "h".toList (by decide) (by decide) [("x".toList, [1, 2, 3, 4])]
    ("y".toList, [5, 6, 7, 8]) rfl exampleCols_plain exampleCols_nodup 1 (some 3)

/-! ## Named tuples -/

variable {V : Type} (uni : Char → Bool)

theorem foldlM_createDset (nt d : List (Str × V)) (h : ((d ++ nt).map Prod.fst).Nodup) :
    nt.foldlM createDset d = .ok (d ++ nt) := by
  induction nt generalizing d with
  | nil => simp [pure, Except.pure]
  | cons x nt ih =>
    have hx : x.1 ∉ d.map Prod.fst := by
      rw [List.map_append, List.nodup_append] at h
      intro hx
      exact h.2.2 _ hx _ (by simp) rfl
    have e : createDset d x = .ok (d ++ [x]) := by
      unfold createDset; rw [if_neg (by simpa using hx)]
    rw [List.foldlM_cons, e]
    change nt.foldlM createDset (d ++ [x]) = _
    rw [ih _ (by simpa using h)]; simp

theorem npDecode_pad (s : Str) (h : '\x00' ∉ s) (k : ℕ) :
    npDecode (s ++ List.replicate k '\x00') = s := by
  have h1 : ∀ k : ℕ, ((List.replicate k '\x00') ++ s.reverse).dropWhile (· == '\x00') = s.reverse := by
    intro k
    induction k with
    | zero =>
      rw [List.replicate_zero, List.nil_append]
      cases hs : s.reverse with
      | nil => rfl
      | cons c t =>
        rw [List.dropWhile_cons, if_neg]
        intro hc
        have : c ∈ s := by rw [← List.mem_reverse, hs]; simp
        exact h (by rw [← beq_iff_eq.1 hc]; exact this)
    | succ k ih => rw [List.replicate_succ, List.cons_append, List.dropWhile_cons]; simpa using ih
  rw [npDecode, List.reverse_append, List.reverse_replicate, h1, List.reverse_reverse]

theorem mapM_lookup (nt : List (Str × V)) (hnd : (nt.map Prod.fst).Nodup) (l : List (Str × V))
    (hl : ∀ x ∈ l, x ∈ nt) :
    (l.map Prod.fst).mapM (readDset nt) = Except.ok (l.map Prod.snd) := by
  induction l with
  | nil => rfl
  | cons x l ih =>
    have hx : readDset nt x.1 = .ok x.2 := by
      unfold readDset; rw [lookup_of_mem hnd (v := x.2) (hl x (by simp))]
    rw [List.map_cons, List.mapM_cons, hx]
    simp only [bind, Except.bind]
    have := ih fun y hy => hl y (List.mem_cons_of_mem _ hy)
    rw [this]; rfl

theorem isIdentifier_noNul {s : Str} (h : isIdentifier uni s = true) : '\x00' ∉ s := by
  have h0 : ('\x00'.isAlphanum || '\x00' == '_' || decide (128 ≤ '\x00'.toNat)) = false := by decide
  have key : ∀ c : Char, (c.isAlphanum || c == '_' || (decide (128 ≤ c.toNat) && uni c)) = true →
      c ≠ '\x00' := by
    rintro c hc rfl
    simp only [Bool.or_eq_false_iff] at h0
    simp [h0.1.1, h0.1.2] at hc
  cases s with
  | nil => simp
  | cons c s =>
    simp only [isIdentifier, Bool.and_eq_true, List.all_eq_true] at h
    intro hm
    rcases List.mem_cons.1 hm with hm | hm
    · refine key c ?_ hm.symm
      have := h.1
      simp only [Char.isAlphanum, Bool.or_eq_true] at this ⊢
      tauto
    · exact key _ (h.2 _ hm) rfl

/-- Names accepted as identifiers, without repetition, all in ASCII: the file holds them and the
values. -/
theorem write_ok (nt : List (Str × V)) (hid : ∀ n ∈ nt.map Prod.fst, isIdentifier uni n = true)
    (hnd : (nt.map Prod.fst).Nodup) (hascii : ∀ n ∈ nt.map Prod.fst, ∀ c ∈ n, c.toNat < 128) :
    ∃ f, write_namedtuple_to_hdf5 nt = (f, .ok ()) ∧
      ∀ r, load_namedtuple_from_hdf5 uni f = r ↔
        (namedtupleCheck uni (nt.map Prod.fst) >>= fun _ => .ok nt) = r := by
  have h1 : nt.foldlM createDset [] = .ok nt := by simpa using foldlM_createDset nt [] (by simpa using hnd)
  obtain ⟨w, h2⟩ : ∃ w : ℕ, npBytes (nt.map Prod.fst)
      = .ok ((nt.map Prod.fst).map fun s => s ++ List.replicate (w - s.length) '\x00') := by
    unfold npBytes
    rw [if_pos]
    · exact ⟨_, rfl⟩
    · simpa [List.all_eq_true] using hascii
  refine ⟨_, by unfold write_namedtuple_to_hdf5; rw [h1, h2], fun r => ?_⟩
  have h3 : (((nt.map Prod.fst).map fun s => s ++ List.replicate (w - s.length) '\x00').map npDecode)
      = nt.map Prod.fst := by
    rw [List.map_map]
    conv_rhs => rw [← List.map_id (nt.map Prod.fst)]
    refine List.map_congr_left fun n hn => ?_
    exact npDecode_pad n (isIdentifier_noNul uni (hid n hn)) _
  have h5 : (nt.map Prod.fst).zip (nt.map Prod.snd) = nt := by
    rw [List.zip_map', List.map_id'' (fun _ => rfl)]
  simp only [load_namedtuple_from_hdf5, h3]
  rw [mapM_lookup nt hnd nt (fun x hx => hx)]
  simp only [bind, Except.bind, h5]
  cases namedtupleCheck uni (nt.map Prod.fst) <;> rfl

theorem check_ok {names : List Str} (h : namedtupleCheck uni names = .ok ()) :
    (∀ n ∈ names, isIdentifier uni n = true) ∧ names.Nodup := by
  unfold namedtupleCheck at h
  split at h
  · rename_i hc
    simp only [Bool.and_eq_true, List.all_eq_true, decide_eq_true_eq] at hc
    exact ⟨fun n hn => (hc.1 n hn).1.1, hc.2⟩
  · cases h

/-- **C67** (round trip). For every named tuple whose field names are those `namedtuple` accepts and
are in ASCII, writing succeeds and loading gives back the same names in the same order with the same
values. -/
theorem C67_roundtrip (nt : List (Str × V)) (hv : namedtupleCheck uni (nt.map Prod.fst) = .ok ())
    (hascii : ∀ n ∈ nt.map Prod.fst, ∀ c ∈ n, c.toNat < 128) :
    ∃ f, write_namedtuple_to_hdf5 nt = (f, .ok ()) ∧ load_namedtuple_from_hdf5 uni f = .ok nt := by
  obtain ⟨hid, hnd⟩ := check_ok uni hv
  obtain ⟨f, h1, h2⟩ := write_ok uni nt hid hnd hascii
  exact ⟨f, h1, (h2 _).2 (by rw [hv]; rfl)⟩

/-- **C67** (names outside ASCII). Writing raises ValueError, and the file left behind cannot be
loaded. -/
theorem C67_non_ascii (nt : List (Str × V)) (hnd : (nt.map Prod.fst).Nodup)
    (h : ∃ n ∈ nt.map Prod.fst, ∃ c ∈ n, 128 ≤ c.toNat) :
    ∃ f, write_namedtuple_to_hdf5 nt = (f, .error .valueError) ∧ f.dsets = nt ∧
      load_namedtuple_from_hdf5 uni f = .error .keyError := by
  have h1 : nt.foldlM createDset [] = .ok nt := by simpa using foldlM_createDset nt [] (by simpa using hnd)
  have h2 : npBytes (nt.map Prod.fst) = .error .valueError := by
    unfold npBytes
    rw [if_neg]
    obtain ⟨n, hn, c, hc, hle⟩ := h
    intro hall
    rw [List.all_eq_true] at hall
    have := hall n hn
    rw [List.all_eq_true] at this
    have := this c hc
    simp only [decide_eq_true_eq] at this
    omega
  refine ⟨⟨nt, none⟩, ?_, rfl, rfl⟩
  unfold write_namedtuple_to_hdf5
  rw [h1, h2]

/-- **C67** (names starting with an underscore, as made by `namedtuple(..., rename=True)`). Writing
succeeds but loading raises ValueError. -/
theorem C67_underscore (nt : List (Str × V)) (hid : ∀ n ∈ nt.map Prod.fst, isIdentifier uni n = true)
    (hnd : (nt.map Prod.fst).Nodup) (hascii : ∀ n ∈ nt.map Prod.fst, ∀ c ∈ n, c.toNat < 128)
    (h : ∃ n ∈ nt.map Prod.fst, n.head? = some '_') :
    ∃ f, write_namedtuple_to_hdf5 nt = (f, .ok ()) ∧
      load_namedtuple_from_hdf5 uni f = .error .valueError := by
  obtain ⟨f, h1, h2⟩ := write_ok uni nt hid hnd hascii
  refine ⟨f, h1, (h2 _).2 ?_⟩
  have : namedtupleCheck uni (nt.map Prod.fst) = .error .valueError := by
    unfold namedtupleCheck
    rw [if_neg]
    obtain ⟨n, hn, hh⟩ := h
    intro hall
    simp only [Bool.and_eq_true, List.all_eq_true] at hall
    have := (hall.1 n hn).2
    simp [hh] at this
  rw [this]; rfl

/-- **C67** (reserved words). A field named like one of Python's 35 reserved words is written, but
loading raises ValueError. -/
theorem C67_keyword (nt : List (Str × V)) (hid : ∀ n ∈ nt.map Prod.fst, isIdentifier uni n = true)
    (hnd : (nt.map Prod.fst).Nodup) (hascii : ∀ n ∈ nt.map Prod.fst, ∀ c ∈ n, c.toNat < 128)
    (h : ∃ s ∈ ["and", "as", "assert", "async", "await", "break", "class", "continue", "def", "del",
      "elif", "else", "except", "False", "finally", "for", "from", "global", "if", "import", "in", "is",
      "lambda", "None", "nonlocal", "not", "or", "pass", "raise", "return", "True", "try", "while",
      "with", "yield"], s.toList ∈ nt.map Prod.fst) :
    ∃ f, write_namedtuple_to_hdf5 nt = (f, .ok ()) ∧
      load_namedtuple_from_hdf5 uni f = .error .valueError := by
  obtain ⟨f, h1, h2⟩ := write_ok uni nt hid hnd hascii
  refine ⟨f, h1, (h2 _).2 ?_⟩
  have : namedtupleCheck uni (nt.map Prod.fst) = .error .valueError := by
    unfold namedtupleCheck
    rw [if_neg]
    obtain ⟨s, hs, hn⟩ := h
    intro hall
    simp only [Bool.and_eq_true, List.all_eq_true] at hall
    have h3 := (hall.1 _ hn).1.2
    have : KEYWORDS.contains s.toList = true := by
      clear hn h3
      revert s
      decide
    rw [this] at h3
    cases h3
  rw [this]; rfl

/-- The five halo parameters survive. -/
example : ∃ f, write_namedtuple_to_hdf5 (["logm0", "logtc", "early_index", "late_index", "t_peak"].map
      fun s => (s.toList, 1)) = (f, .ok ()) ∧
    load_namedtuple_from_hdf5 (fun _ => true) f
      = .ok (["logm0", "logtc", "early_index", "late_index", "t_peak"].map fun s => (s.toList, 1)) :=
  C67_roundtrip _ _ (by decide) (by decide)

example : ∃ f, write_namedtuple_to_hdf5 [("α".toList, 1), ("b".toList, 2)] = (f, .error .valueError) ∧
    f.dsets = [("α".toList, 1), ("b".toList, 2)] ∧
    load_namedtuple_from_hdf5 (fun _ => true) f = .error .keyError :=
  C67_non_ascii _ _ (by decide) (by decide)

example : ∃ f, write_namedtuple_to_hdf5 [("a".toList, 1), ("_1".toList, 2)] = (f, .ok ()) ∧
    load_namedtuple_from_hdf5 (fun _ => true) f = .error .valueError :=
  C67_underscore _ _ (by decide) (by decide) (by decide) (by decide)

example : ∃ f, write_namedtuple_to_hdf5 [("a".toList, 1), ("lambda".toList, 2)] = (f, .ok ()) ∧
    load_namedtuple_from_hdf5 (fun _ => true) f = .error .valueError :=
  C67_keyword _ _ (by decide) (by decide) (by decide) ⟨"lambda", by decide, by decide⟩

end Diffmah.IO

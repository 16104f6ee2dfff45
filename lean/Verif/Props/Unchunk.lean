import Verif.Props.Scripts

/-!
# Collating the chunks of a subvolume (C71)
-/

namespace Diffmah.Scripts

open Diffmah.Text Diffmah.IO

variable {R : Type}

/-! ## Specification -/

/-- The columns of several tables put one after the other: the columns of the first table, each with
the rows of that column in all tables, in order. -/
def joined (chunks : List (List (Str × List R))) : List (Str × List R) :=
  (chunks.headD []).map fun c => (c.1, (chunks.map fun d => (d.lookup c.1).getD []).flatten)

/-- A text that the shell passes on unchanged, as one word -/
def ShellSafe (s : Str) : Prop :=
  s.head? ≠ some '-' ∧ ∀ c ∈ s, c.isAlphanum = true ∨ c ∈ ['/', '.', '_', '-']

/-- What every HDF5 file satisfies: the members of its root have different names, which are not empty
and contain no slash. -/
def ValidFile (f : File R) : Prop :=
  ∀ ms, f = .whole (.group ms) → (ms.map Prod.fst).Nodup ∧ ∀ m ∈ ms, m.1 ≠ [] ∧ '/' ∉ m.1

/-- `f` is the complete collation of the twenty chunks of subvolume `s` found in `fs`. -/
def Collated (indir : Str) (fs : FS (File R)) (s : ℤ) (f : Option (File R)) : Prop :=
  ∃ chunks : List (List (Str × List R)), chunks.length = 20 ∧
    (∀ (c : ℕ) d, chunks[c]? = some d → fs.lookup (chunkPath indir s c) = some (.whole (flat d))) ∧
    f = some (.whole (flat (joined chunks)))

/-! ## Reading and joining -/

theorem load_ok_flat {hdf : Node R} {d : Dict (List R)} (hv : ValidFile (.whole hdf))
    (h : load_flat_hdf5 hdf = .ok d) : hdf = flat d := by
  unfold load_flat_hdf5 at h
  cases hdf with
  | dset l => simp [keysIn, Node.keys, bind, Except.bind] at h
  | group ms =>
    obtain ⟨hnd, hpl⟩ := hv ms rfl
    simp only [keysIn, Node.keys, bind, Except.bind] at h
    have key : ∀ (l : List (Str × Node R)) (acc d : Dict (List R)), (∀ x ∈ l, x ∈ ms) →
        (acc.map Prod.fst ++ l.map Prod.fst).Nodup →
        (l.map Prod.fst).foldlM (loadKey (.group ms) 0 none none) acc = .ok d →
        ∃ dl : Dict (List R), l = dl.map (fun c => (c.1, Node.dset c.2)) ∧ d = acc ++ dl := by
      intro l
      induction l with
      | nil =>
        intro acc d _ _ h
        simp only [List.map_nil, List.foldlM_nil, pure, Except.pure, Except.ok.injEq] at h
        exact ⟨[], rfl, by simp [h]⟩
      | cons x l ih =>
        intro acc d hm hn h
        obtain ⟨h0, hs⟩ := hpl x (hm x (by simp))
        have hlk : ms.lookup x.1 = some x.2 := lookup_of_mem hnd (hm x (by simp))
        rw [List.map_cons, List.foldlM_cons] at h
        have hx : loadKey (.group ms) 0 none none acc x.1
            = (x.2.slice 0 none).map fun rows => acc.set x.1 rows := by
          unfold loadKey keyOut
          simp only [bind, Except.bind, item_plain h0 hs, hlk]
          cases x.2.slice 0 none <;> rfl
        rw [hx] at h
        obtain ⟨k, n⟩ := x
        cases n with
        | group g => simp [Node.slice, Except.map, bind, Except.bind] at h
        | dset rows =>
          have hsl : pySlice rows 0 none = rows := by
            have := pySlice_nat rows 0 none
            simp only [Option.map_none, Option.getD_none] at this
            rw [show ((0 : ℕ) : ℤ) = 0 from rfl] at this
            rw [this, rows_all _ le_rfl]
          simp only [Node.slice, Except.map, bind, Except.bind, hsl] at h
          have hk : k ∉ acc.map Prod.fst := by
            intro hk
            exact (List.nodup_append.1 hn).2.2 k hk k (by simp) rfl
          have hset : acc.set k rows = acc ++ [(k, rows)] := by
            unfold Dict.set
            rw [if_neg (by simpa using hk)]
          rw [hset] at h
          obtain ⟨dl, h1, h2⟩ := ih _ d (fun x hx => hm x (by simp [hx])) (by
            simpa [List.append_assoc] using hn) h
          exact ⟨(k, rows) :: dl, by simp [h1], by simp [h2]⟩
    obtain ⟨dl, h1, h2⟩ := key ms [] d (fun _ => id) (by simpa using hnd) h
    rw [h2, h1]
    simp [flat]

theorem dictGet_mapM (key : Str) (ds : List (Dict (List R))) (seq : List (List R))
    (h : ds.mapM (dictGet key) = .ok seq) : seq = ds.map fun d => (d.lookup key).getD [] := by
  induction ds generalizing seq with
  | nil => simp [pure, Except.pure] at h; simp [← h]
  | cons d ds ih =>
    rw [List.mapM_cons] at h
    cases hd : d.lookup key with
    | none =>
      rw [show dictGet key d = .error .keyError by simp [dictGet, hd]] at h
      simp [bind, Except.bind] at h
    | some v =>
      rw [show dictGet key d = .ok v by simp [dictGet, hd]] at h
      cases hs : ds.mapM (dictGet key) with
      | error e => rw [hs] at h; simp [bind, Except.bind] at h
      | ok seq' =>
        rw [hs] at h
        simp only [bind, Except.bind, pure, Except.pure, Except.ok.injEq] at h
        rw [← h, ih seq' hs]
        simp [hd]

theorem concatColumns_joined {ds : List (Dict (List R))} {out : Dict (List R)}
    (h : concatColumns ds = .ok out) : out = joined ds := by
  cases ds with
  | nil => cases h
  | cons d ds =>
    unfold concatColumns at h
    unfold joined
    simp only [List.headD_cons]
    have key : ∀ (l : List (Str × List R)) (out : Dict (List R)),
        (l.map Prod.fst).mapM (fun key => do
          let seq ← (d :: ds).mapM (dictGet key)
          return (key, seq.flatten)) = .ok out →
        out = l.map fun c => (c.1, ((d :: ds).map fun d => (d.lookup c.1).getD []).flatten) := by
      intro l
      induction l with
      | nil => intro out h; simp [pure, Except.pure] at h; simp [h]
      | cons x l ih =>
        intro out h
        rw [List.map_cons, List.mapM_cons] at h
        cases hx : (d :: ds).mapM (dictGet x.1) with
        | error e => rw [hx] at h; simp [bind, Except.bind] at h
        | ok seq =>
          rw [hx] at h
          simp only [bind, Except.bind, pure, Except.pure] at h
          split at h
          · cases h
          · rename_i out' ho
            simp only [Except.ok.injEq] at h
            rw [← h, ih out' ho, dictGet_mapM _ _ _ hx]
            rfl
    exact key d out h

theorem joined_ok (chunks : List (List (Str × List R))) (hne : chunks ≠ [])
    (hkeys : ∀ d ∈ chunks, d.map Prod.fst = (chunks.headD []).map Prod.fst) :
    concatColumns chunks = .ok (joined chunks) := by
  cases chunks with
  | nil => exact absurd rfl hne
  | cons d ds =>
    simp only [List.headD_cons] at hkeys
    unfold concatColumns joined
    simp only [List.headD_cons]
    have hget : ∀ k ∈ d.map Prod.fst, (d :: ds).mapM (dictGet k)
        = .ok ((d :: ds).map fun x => (x.lookup k).getD []) := by
      intro k hk
      refine mapM_ok _ _ _ fun x hx => ?_
      have : (x.lookup k).isSome := by
        rw [lookup_isSome_iff, hkeys x hx]; exact hk
      obtain ⟨v, hv⟩ := Option.isSome_iff_exists.1 this
      simp [dictGet, hv]
    rw [List.mapM_map]
    refine mapM_ok _ _ _ fun x hx => ?_
    simp only [Function.comp]
    rw [hget x.1 (List.mem_map_of_mem hx)]
    rfl

/-! ## One subvolume -/

theorem readChunk_triple (fs : FS (File R)) (fname : Str) (Inv : FS (File R) → Prop)
    (hv : ∀ f, fs.lookup fname = some f → ValidFile f) :
    Triple (fun t => t.lookup fname = fs.lookup fname) Inv (readChunk fname)
      (fun d _ => fs.lookup fname = some (.whole (flat d))) := by
  refine Triple.get fun t ht => ?_
  cases h : fs.lookup fname with
  | none => rw [ht, h]; exact Triple.ofExcept fun _ _ _ h => by cases h
  | some f =>
    cases f with
    | torn => rw [ht, h]; exact Triple.ofExcept fun _ _ _ h => by cases h
    | whole hdf =>
      rw [ht, h]
      refine Triple.ofExcept fun _ d _ hd => ?_
      rw [load_ok_flat (hv _ h) hd]

/-- A program that only reads leaves the state as it is. -/
theorem readChunk_state (fname : Str) (t : FS (File R)) :
    (readChunk fname t).1 = [] ∧ (readChunk fname t).2.1 = t := by
  unfold readChunk Prog.bind Prog.get
  simp only
  cases h : t.lookup fname with
  | none => exact ⟨rfl, rfl⟩
  | some f => cases f <;> exact ⟨rfl, rfl⟩

theorem each_reads {S A B : Type} (f : A → Prog S B) (hf : ∀ a s, (f a s).1 = [] ∧ (f a s).2.1 = s)
    (l : List A) (s : S) : (Prog.each f l s).1 = [] ∧ (Prog.each f l s).2.1 = s := by
  induction l with
  | nil => exact ⟨rfl, rfl⟩
  | cons a l ih =>
    obtain ⟨h1, h2⟩ := hf a s
    unfold Prog.each Prog.bind
    rcases ha : f a s with ⟨tr, s', r⟩
    rw [ha] at h1 h2
    simp only at h1 h2
    subst h1 h2
    cases r with
    | error e => exact ⟨rfl, rfl⟩
    | ok b =>
      simp only
      rcases hl : Prog.each f l s' with ⟨tr, s'', r⟩
      rw [hl] at ih
      simp only at ih
      obtain ⟨rfl, rfl⟩ := ih
      cases r <;> exact ⟨rfl, rfl⟩

theorem readAll_triple (fs : FS (File R)) (Inv : FS (File R) → Prop) (fnames : List Str)
    (hv : ∀ p ∈ fnames, ∀ f, fs.lookup p = some f → ValidFile f) :
    Triple (fun t => ∀ p ∈ fnames, t.lookup p = fs.lookup p) Inv (Prog.each readChunk fnames)
      (fun ds _ => List.Forall₂ (fun p d => fs.lookup p = some (.whole (flat d))) fnames ds) := by
  have h := Triple.each (f := readChunk (R := R)) (Inv := Inv)
    (J := fun done bs (t : FS (File R)) => (∀ p ∈ fnames, t.lookup p = fs.lookup p) ∧
      List.Forall₂ (fun p d => fs.lookup p = some (.whole (flat d))) done bs) fnames ?_ [] []
  · refine h.weaken (fun s hs => ⟨hs, .nil⟩) (fun _ => id) fun a s hs => ?_
    simpa using hs.2
  · intro done bs p hp s hs
    obtain ⟨h1, h2⟩ := readChunk_triple fs p Inv (hv p hp) s (hs.1 p hp)
    refine ⟨h1, fun d hd => ⟨?_, ?_⟩⟩
    · rw [(readChunk_state p s).2]; exact hs.1
    · exact List.rel_append hs.2 (.cons (h2 d hd) .nil)

theorem writeFile_triple (fs : FS (File R)) (fname : Str) (cols : Dict (List R)) :
    Triple (fun t => ∀ p, p ≠ fname → t.lookup p = fs.lookup p)
      (fun t => ∀ p, p ≠ fname → t.lookup p = fs.lookup p) (writeFile fname cols)
      (fun _ t => (∀ p, p ≠ fname → t.lookup p = fs.lookup p) ∧
        t.lookup fname = some (.whole (flat cols))) := by
  have hset : ∀ (t : FS (File R)) (f : File R), (∀ p, p ≠ fname → t.lookup p = fs.lookup p) →
      ∀ p, p ≠ fname → (Dict.set t fname f).lookup p = fs.lookup p := by
    intro t f ht p hp
    rw [set_lookup, if_neg hp, ht p hp]
  refine Triple.bind (Mid := fun _ t => ∀ p, p ≠ fname → t.lookup p = fs.lookup p)
    (Triple.act fun t ht => ⟨hset t _ ht, hset t _ ht⟩) fun _ => ?_
  refine Triple.bind (Mid := fun _ t => ∀ p, p ≠ fname → t.lookup p = fs.lookup p) ?_ fun _ => ?_
  · have := Triple.each (f := fun _ : Str × List R => Prog.act fun t : FS (File R) => Dict.set t fname .torn)
      (Inv := fun t => ∀ p, p ≠ fname → t.lookup p = fs.lookup p)
      (J := fun _ _ t => ∀ p, p ≠ fname → t.lookup p = fs.lookup p) cols
      (fun _ _ _ _ => Triple.act fun t ht => ⟨hset t _ ht, hset t _ ht⟩) [] []
    exact this
  · refine Triple.act fun t ht => ⟨hset t _ ht, hset t _ ht, ?_⟩
    rw [set_lookup, if_pos rfl]; rfl

theorem mem_chunks {indir : Str} {s : ℤ} {p : Str} :
    p ∈ (List.range NCHUNKS).map (chunkPath indir s) ↔ ∃ c < 20, p = chunkPath indir s c := by
  simp only [List.mem_map, List.mem_range]
  exact ⟨fun ⟨c, h, e⟩ => ⟨c, h, e.symm⟩, fun ⟨c, h, e⟩ => ⟨c, h, e.symm⟩⟩

theorem collated_of_forall₂ {indir : Str} {fs : FS (File R)} {s : ℤ} {ds : List (Dict (List R))}
    (h : List.Forall₂ (fun p d => fs.lookup p = some (.whole (flat d)))
      ((List.range NCHUNKS).map (chunkPath indir s)) ds) :
    Collated indir fs s (some (.whole (flat (joined ds)))) := by
  rw [List.forall₂_map_left_iff] at h
  refine ⟨ds, by rw [← h.length_eq]; rfl, ?_, rfl⟩
  intro c d hd
  obtain ⟨hc, e⟩ := List.getElem?_eq_some_iff.1 hd
  have := (List.forall₂_iff_get.1 h).2 c (by rw [h.length_eq]; exact hc) hc
  simpa [e] using this

/-- What is known of the file system `t` at every moment of any number of runs started from `fs`,
whether or not they came to an end. -/
def Safe (indir outdir : Str) (fs t : FS (File R)) : Prop :=
  (∀ s, (∀ c < 20, t.lookup (chunkPath indir s c) = fs.lookup (chunkPath indir s c)) ∨
    Collated indir fs s (t.lookup (outPath outdir s))) ∧
  (∀ s, ∀ c < 20, t.lookup (chunkPath indir s c) = fs.lookup (chunkPath indir s c) ∨
    t.lookup (chunkPath indir s c) = none) ∧
  (∀ s, t.lookup (outPath outdir s) = fs.lookup (outPath outdir s) ∨
    ∃ chunks : List (List (Str × List R)), chunks.length = 20 ∧ ∀ (c : ℕ) d, chunks[c]? = some d →
      fs.lookup (chunkPath indir s c) = some (.whole (flat d))) ∧
  ∀ p, (∀ s, p ≠ outPath outdir s) → (∀ s, ∀ c < 20, p ≠ chunkPath indir s c) →
    t.lookup p = fs.lookup p

theorem Safe.refl (indir outdir : Str) (fs : FS (File R)) : Safe indir outdir fs fs :=
  ⟨fun _ => .inl fun _ _ => rfl, fun _ _ _ => .inl rfl, fun _ => .inl rfl, fun _ _ _ => rfl⟩

/-- Writing the output of a subvolume all whose chunks are still there keeps everything safe. -/
theorem Safe.setOut {indir outdir : Str} {fs t : FS (File R)} (h : Safe indir outdir fs t) (s : ℤ)
    (hch : ∀ c < 20, t.lookup (chunkPath indir s c) = fs.lookup (chunkPath indir s c))
    (hall : ∃ chunks : List (List (Str × List R)), chunks.length = 20 ∧ ∀ (c : ℕ) d,
      chunks[c]? = some d → fs.lookup (chunkPath indir s c) = some (.whole (flat d)))
    {u : FS (File R)} (hu : ∀ p, p ≠ outPath outdir s → u.lookup p = t.lookup p) :
    Safe indir outdir fs u := by
  obtain ⟨h1, h2, h3, h4⟩ := h
  have hc : ∀ s' c, u.lookup (chunkPath indir s' c) = t.lookup (chunkPath indir s' c) :=
    fun s' c => hu _ (chunk_ne_out _ _ _ _ _)
  refine ⟨fun s' => ?_, fun s' c hlt => ?_, fun s' => ?_, fun p hp hp' => ?_⟩
  · by_cases hs : s' = s
    · subst hs
      exact .inl fun c hlt => by rw [hc, hch c hlt]
    · rcases h1 s' with h | h
      · exact .inl fun c hlt => by rw [hc, h c hlt]
      · refine .inr ?_
        rw [hu _ fun e => hs (outPath_injective e)]
        exact h
  · rw [hc]; exact h2 s' c hlt
  · by_cases hs : s' = s
    · subst hs; exact .inr hall
    · rw [hu _ fun e => hs (outPath_injective e)]
      exact h3 s'
  · rw [hu p (hp s)]
    exact h4 p hp hp'

/-- Deleting a chunk whose subvolume has been collated keeps everything safe. -/
theorem Safe.removeChunk {indir outdir : Str} {fs t : FS (File R)} (h : Safe indir outdir fs t)
    (s : ℤ) (c : ℕ) (hlt : c < 20) (hout : Collated indir fs s (t.lookup (outPath outdir s))) :
    Safe indir outdir fs (FS.remove t (chunkPath indir s c)) := by
  obtain ⟨h1, h2, h3, h4⟩ := h
  have ho : ∀ s', (FS.remove t (chunkPath indir s c)).lookup (outPath outdir s')
      = t.lookup (outPath outdir s') := fun s' => by
    rw [remove_lookup, if_neg (chunk_ne_out _ _ _ _ _).symm]
  refine ⟨fun s' => ?_, fun s' c' hlt' => ?_, fun s' => ?_, fun p hp hp' => ?_⟩
  · by_cases hs : s' = s
    · subst hs; rw [ho]; exact .inr hout
    · rcases h1 s' with h | h
      · refine .inl fun c' hlt' => ?_
        rw [remove_lookup, if_neg fun e => hs (chunkPath_injective e).1]
        exact h c' hlt'
      · rw [ho]; exact .inr h
  · rw [remove_lookup]
    by_cases he : chunkPath indir s' c' = chunkPath indir s c
    · rw [if_pos he]; exact .inr rfl
    · rw [if_neg he]; exact h2 s' c' hlt'
  · rw [ho]; exact h3 s'
  · rw [remove_lookup, if_neg (hp' s c hlt)]
    exact h4 p hp hp'

/-- What is known between two passes of the first loop: every subvolume done is collated. -/
def Done (indir outdir : Str) (fs : FS (File R)) (done : List ℤ) (t : FS (File R)) : Prop :=
  Safe indir outdir fs t ∧ ∀ s ∈ done, Collated indir fs s (t.lookup (outPath outdir s))

theorem Triple.fix {S A : Type} {Pre Inv : S → Prop} {p : Prog S A} {Post : A → S → Prop}
    (h : ∀ s, Pre s → Triple (fun t => t = s) Inv p Post) : Triple Pre Inv p Post :=
  fun s hs => h s hs s rfl

theorem readAll_exact (fs : FS (File R)) (Inv : FS (File R) → Prop) (fnames : List Str)
    (hv : ∀ p ∈ fnames, ∀ f, fs.lookup p = some f → ValidFile f) :
    Triple (fun t => t = fs) Inv (Prog.each readChunk fnames)
      (fun ds t => t = fs ∧
        List.Forall₂ (fun p d => fs.lookup p = some (.whole (flat d))) fnames ds) := by
  intro t ht
  subst ht
  obtain ⟨h1, h2⟩ := readAll_triple t Inv fnames hv t fun _ _ => rfl
  exact ⟨h1, fun ds hds => ⟨(each_reads _ readChunk_state fnames t).2, h2 ds hds⟩⟩

theorem collateSubvol_triple {indir outdir : Str} {fs : FS (File R)} (s : ℤ)
    (hv : ∀ p f, fs.lookup p = some f → ValidFile f) (done : List ℤ) :
    Triple (Done indir outdir fs done) (Safe indir outdir fs) (collateSubvol indir outdir s)
      (fun fn t => fn = (List.range NCHUNKS).map (chunkPath indir s) ∧
        Done indir outdir fs (done ++ [s]) t) := by
  intro t ht
  obtain ⟨hsafe, hdone⟩ := ht
  have hvt : ∀ p ∈ (List.range NCHUNKS).map (chunkPath indir s), ∀ f, t.lookup p = some f →
      ValidFile f := by
    intro p hp f hf
    obtain ⟨c, hc, rfl⟩ := mem_chunks.1 hp
    rcases hsafe.2.1 s c hc with h | h
    · rw [h] at hf; exact hv _ _ hf
    · rw [h] at hf; cases hf
  suffices hT : Triple (fun u => u = t) (Safe indir outdir fs) (collateSubvol indir outdir s)
      (fun fn u => fn = (List.range NCHUNKS).map (chunkPath indir s) ∧
        Done indir outdir fs (done ++ [s]) u) from hT t rfl
  refine Triple.bind (readAll_exact t _ _ hvt) fun ds => ?_
  refine Triple.bind (Mid := fun out u => u = t ∧ out = joined ds ∧
      List.Forall₂ (fun p d => t.lookup p = some (.whole (flat d)))
        ((List.range NCHUNKS).map (chunkPath indir s)) ds)
    (Triple.ofExcept fun u out hu ho => ⟨hu.1, concatColumns_joined ho, hu.2⟩) fun out => ?_
  refine Triple.fix fun u hu => ?_
  obtain ⟨rfl, rfl, hds⟩ := hu
  obtain ⟨chunks, hlen, hch, -⟩ := collated_of_forall₂ hds
  obtain ⟨_, hlen', hch', hf⟩ := collated_of_forall₂ hds
  have hintact : ∀ c < 20, u.lookup (chunkPath indir s c) = fs.lookup (chunkPath indir s c) := by
    intro c hc
    rcases hsafe.2.1 s c hc with h | h
    · exact h
    · have := hch c chunks[c] (by simp)
      rw [h] at this; cases this
  have hall : ∃ chunks : List (List (Str × List R)), chunks.length = 20 ∧ ∀ (c : ℕ) d,
      chunks[c]? = some d → fs.lookup (chunkPath indir s c) = some (.whole (flat d)) := by
    refine ⟨chunks, hlen, fun c d hd => ?_⟩
    rw [← hintact c (by rw [← hlen]; exact (List.getElem?_eq_some_iff.1 hd).1)]
    exact hch c d hd
  have hcol : Collated indir fs s (some (.whole (flat (joined ds)))) := by
    obtain ⟨ch, hl, hc, he⟩ := collated_of_forall₂ hds
    refine ⟨ch, hl, fun c d hd => ?_, he⟩
    rw [← hintact c (by rw [← hl]; exact (List.getElem?_eq_some_iff.1 hd).1)]
    exact hc c d hd
  refine Triple.bind ((writeFile_triple u (outPath outdir s) (joined ds)).weaken
    (Pre' := fun v => v = u) (fun v hv => ?_)
    (Inv' := Safe indir outdir fs) (fun v hv => hsafe.setOut s hintact hall hv)
    (Post' := fun _ => Done indir outdir fs (done ++ [s])) (fun _ v hv => ?_)) fun _ =>
      Triple.pure fun v hv => ⟨rfl, hv⟩
  · rw [hv]; exact fun _ _ => rfl
  · refine ⟨hsafe.setOut s hintact hall hv.1, fun s' hs' => ?_⟩
    by_cases he : s' = s
    · rw [he, hv.2]; exact hcol
    · rw [hv.1 _ fun e => he (outPath_injective e)]
      refine hdone s' ?_
      simpa [he] using hs'

/-! ## Deleting -/

theorem safe_not_space {s : Str} (h : ShellSafe s) : ∀ c ∈ s, c.isWhitespace = false := by
  intro c hc
  rcases h.2 c hc with h | h
  · rw [Bool.eq_false_iff]
    intro hw
    simp only [Char.isWhitespace, Bool.or_eq_true, decide_eq_true_eq] at hw
    rcases hw with ((h' | h') | h') | h' <;> subst h' <;> revert h <;> decide
  · fin_cases h <;> decide

theorem split_word {w : Str} (h0 : w ≠ []) (h : ∀ c ∈ w, c.isWhitespace = false) : split w = [w] := by
  have := splitFrom_append w h [] []
  rw [List.append_nil, List.nil_append] at this
  rw [split, this]
  cases w with
  | nil => exact absurd rfl h0
  | cons c w => rfl

theorem digit_not_space {c : Char} (h : c.isDigit = true) : c.isWhitespace = false := by
  rw [Bool.eq_false_iff]
  intro hw
  simp only [Char.isWhitespace, Bool.or_eq_true, decide_eq_true_eq] at hw
  rcases hw with ((h' | h') | h') | h' <;> subst h' <;> revert h <;> decide

theorem chunkPath_word {indir : Str} (h : ShellSafe indir) (s : ℤ) (c : ℕ) :
    split (chunkPath indir s c) = [chunkPath indir s c] := by
  have e := chunkPath_eq indir s c
  unfold bnameIn at e
  lits_at e
  refine split_word (by rw [e]; simp) fun x hx => ?_
  rw [e] at hx
  simp only [List.mem_append] at hx
  rcases hx with hx | (((hx | hx) | hx) | hx) | hx
  · unfold dirPart at hx
    split at hx
    · cases hx
    split at hx
    · exact safe_not_space h x hx
    · rcases List.mem_append.1 hx with hx | hx
      · exact safe_not_space h x hx
      · simp at hx; subst hx; decide
  · fin_cases hx <;> decide
  · by_contra hc
    have : x ∉ intStr s := intStr_notMem s x ?_ ?_
    · exact this hx
    · rw [Bool.eq_false_iff]; intro hd; exact hc (digit_not_space hd)
    · rintro rfl; exact hc (by decide)
  · fin_cases hx <;> decide
  · exact digit_not_space (zpad_digit hx)
  · fin_cases hx <;> decide

theorem checkRm_word {F : Type} {p : Str} (h : split p = [p]) (t : FS F) :
    checkRm p t = if (t.lookup p).isSome then ([FS.remove t p], FS.remove t p, .ok ())
      else ([], t, .error .calledProcess) := by
  unfold checkRm
  rw [h]
  by_cases hs : (t.lookup p).isSome
  · simp [rmWords, Prog.bind, Prog.get, Prog.pure, Prog.act, hs]
  · simp [rmWords, Prog.bind, Prog.get, Prog.pure, Prog.ofExcept, hs]

theorem unchunk_safe {indir outdir : Str} (hsh : ShellSafe indir) {fs : FS (File R)}
    (hv : ∀ p f, fs.lookup p = some f → ValidFile f) (istart iend : ℤ) :
    Triple (Safe indir outdir fs) (Safe indir outdir fs) (unchunk istart iend indir outdir)
      (fun _ => Safe indir outdir fs) := by
  refine Triple.bind (Mid := fun toDel t => Done indir outdir fs (pyRange istart iend) t ∧
      toDel = (pyRange istart iend).map fun s => (List.range NCHUNKS).map (chunkPath indir s)) ?_ ?_
  · have h := Triple.each (f := collateSubvol (R := R) indir outdir) (Inv := Safe indir outdir fs)
      (J := fun done res t => Done indir outdir fs done t ∧
        res = done.map fun s => (List.range NCHUNKS).map (chunkPath indir s))
      (pyRange istart iend) ?_ [] []
    · exact h.weaken (fun t ht => ⟨⟨ht, by simp⟩, rfl⟩) (fun _ => id) (fun a t ht => by simpa using ht)
    · intro done res s _ t ht
      obtain ⟨h1, h2⟩ := collateSubvol_triple s hv done t ht.1
      refine ⟨h1, fun fn hfn => ⟨(h2 fn hfn).2, ?_⟩⟩
      rw [(h2 fn hfn).1, ht.2]; simp
  · intro toDel
    refine Triple.bind (Mid := fun _ => Safe indir outdir fs) ?_ fun _ => Triple.pure fun _ => id
    intro t ht
    obtain ⟨hd, rfl⟩ := ht
    have h := Triple.each (f := checkRm (F := File R)) (Inv := Safe indir outdir fs)
      (J := fun _ _ t => Done indir outdir fs (pyRange istart iend) t)
      ((pyRange istart iend).map fun s => (List.range NCHUNKS).map (chunkPath indir s)).flatten
      ?_ [] []
    · exact (h.weaken (fun _ => id) (fun _ => id) fun _ _ h => h.1) t hd
    · intro done res p hp t ht
      obtain ⟨l, hl, hpl⟩ := List.mem_flatten.1 hp
      obtain ⟨s, hs, rfl⟩ := List.mem_map.1 hl
      obtain ⟨c, hc, rfl⟩ := mem_chunks.1 hpl
      rw [checkRm_word (chunkPath_word hsh s c)]
      split
      · have hsafe := ht.1.removeChunk s c hc (ht.2 s hs)
        refine ⟨by simpa using hsafe, fun _ _ => ⟨hsafe, fun s' hs' => ?_⟩⟩
        rw [remove_lookup, if_neg (chunk_ne_out _ _ _ _ _).symm]
        exact ht.2 s' hs'
      · exact ⟨by simp, fun _ h => by cases h⟩

/-! ## The properties -/

/-- A file system that the script can leave behind: after any number of runs, with any ranges, each of
which may have been killed at any moment (every state of a run counts). -/
inductive Reach (indir outdir : Str) (fs : FS (File R)) : FS (File R) → Prop
  | start : Reach indir outdir fs fs
  | run {t t' : FS (File R)} (istart iend : ℤ) : Reach indir outdir fs t →
      t' ∈ (unchunk istart iend indir outdir t).1 → Reach indir outdir fs t'

/-- **C71** (crash safety). Whatever the file system, whatever the ranges, and wherever the runs are
killed: for every subvolume, either all its chunk files are as they were, or its output file is there
and complete; a file that is neither an output file nor a chunk file is as it was; a chunk file is as
it was or deleted; and an output file is as it was unless all twenty chunks existed. -/
theorem C71_crash_safety {indir outdir : Str} (hsh : ShellSafe indir) {fs t : FS (File R)}
    (hv : ∀ p f, fs.lookup p = some f → ValidFile f) (h : Reach indir outdir fs t) :
    (∀ s, (∀ c < 20, t.lookup (chunkPath indir s c) = fs.lookup (chunkPath indir s c)) ∨
      Collated indir fs s (t.lookup (outPath outdir s))) ∧
    (∀ s, ∀ c < 20, t.lookup (chunkPath indir s c) = fs.lookup (chunkPath indir s c) ∨
      t.lookup (chunkPath indir s c) = none) ∧
    (∀ s, t.lookup (outPath outdir s) = fs.lookup (outPath outdir s) ∨
      ∀ c < 20, ∃ d, fs.lookup (chunkPath indir s c) = some (.whole (flat d))) ∧
    ∀ p, (∀ s, p ≠ outPath outdir s) → (∀ s, ∀ c < 20, p ≠ chunkPath indir s c) →
      t.lookup p = fs.lookup p := by
  have hs : Safe indir outdir fs t := by
    induction h with
    | start => exact Safe.refl _ _ _
    | run a b _ ht ih => exact (unchunk_safe hsh hv a b _ ih).1 _ ht
  obtain ⟨h1, h2, h3, h4⟩ := hs
  refine ⟨h1, h2, fun s => ?_, h4⟩
  rcases h3 s with h | ⟨chunks, hl, hc⟩
  · exact .inl h
  · exact .inr fun c hlt => ⟨chunks[c], hc c _ (by simp)⟩

/-! ### Runs that come to an end -/

theorem readChunk_ok {t : FS (File R)} {p : Str} {d : List (Str × List R)}
    (h : t.lookup p = some (.whole (flat d))) (hpl : ∀ c ∈ d, c.1 ≠ [] ∧ '/' ∉ c.1)
    (hnd : (d.map Prod.fst).Nodup) : readChunk p t = ([], t, .ok d) := by
  have hl := C68_all_columns d hpl hnd 0 none
  simp only [Option.map_none, Option.getD_none] at hl
  have hl : load_flat_hdf5 (flat d) = .ok d := by
    refine hl.trans ?_
    congr 1
    refine (List.map_congr_left fun c _ => ?_).trans (List.map_id d)
    rw [rows_all _ le_rfl]; rfl
  unfold readChunk Prog.bind Prog.get
  simp only [h, hl]
  rfl

theorem each_ok {S A B : Type} (f : A → Prog S B) (g : A → B) (l : List A) (s : S)
    (h : ∀ a ∈ l, f a s = ([], s, .ok (g a))) : Prog.each f l s = ([], s, .ok (l.map g)) := by
  induction l with
  | nil => rfl
  | cons a l ih =>
    simp [Prog.each, Prog.bind, h a (by simp), ih fun a ha => h a (by simp [ha]), Prog.pure]

theorem writeFile_ok (p : Str) (cols : Dict (List R)) (t : FS (File R)) :
    ∃ tr t', writeFile p cols t = (tr, t', .ok ()) ∧
      ∀ q, t'.lookup q = if q = p then some (.whole (flat cols)) else t.lookup q := by
  have hruns : Runs (fun u : FS (File R) => ∀ q, q ≠ p → u.lookup q = t.lookup q) (writeFile p cols)
      (fun _ u => ∀ q, u.lookup q = if q = p then some (.whole (flat cols)) else t.lookup q) := by
    have hset : ∀ (u : FS (File R)), (∀ q, q ≠ p → u.lookup q = t.lookup q) →
        ∀ q, q ≠ p → (Dict.set u p .torn).lookup q = t.lookup q := by
      intro u hu q hq
      rw [set_lookup, if_neg hq, hu q hq]
    refine Runs.bind (Mid := fun _ u => ∀ q, q ≠ p → u.lookup q = t.lookup q) (Runs.act hset) fun _ => ?_
    refine Runs.bind (Mid := fun _ u => ∀ q, q ≠ p → u.lookup q = t.lookup q) ?_ fun _ => ?_
    · exact Runs.each (J := fun _ _ (u : FS (File R)) => ∀ q, q ≠ p → u.lookup q = t.lookup q) cols [] []
        fun _ _ _ _ _ => Runs.act hset
    · refine Runs.act fun u hu q => ?_
      rw [set_lookup]
      by_cases hq : q = p
      · rw [if_pos hq, if_pos hq]; rfl
      · rw [if_neg hq, if_neg hq, hu q hq]
  obtain ⟨a, h1, h2⟩ := hruns t fun _ _ => rfl
  exact ⟨(writeFile p cols t).1, (writeFile p cols t).2.1, by rw [← h1], h2⟩

theorem mem_pyRange {i j s : ℤ} : s ∈ pyRange i j ↔ i ≤ s ∧ s < j := by
  unfold pyRange
  simp only [List.mem_map, List.mem_range]
  constructor
  · rintro ⟨n, hn, rfl⟩; omega
  · rintro ⟨h1, h2⟩
    exact ⟨(s - i).toNat, by omega, by omega⟩

theorem nodup_pyRange (i j : ℤ) : (pyRange i j).Nodup :=
  (List.nodup_range).map fun a b h => by simpa using h

/-- The rows of all twenty chunks, column by column -/
def collation (tab : ℕ → List (Str × List R)) : List (Str × List R) :=
  (tab 0).map fun col =>
    (col.1, ((List.range 20).map fun c => ((tab c).lookup col.1).getD []).flatten)

/-- The first loop -/
theorem collate_all {indir outdir : Str} (fs : FS (File R))
    (istart iend : ℤ) (tab : ℤ → ℕ → List (Str × List R))
    (hfs : ∀ s, istart ≤ s → s < iend → ∀ c < 20,
      fs.lookup (chunkPath indir s c) = some (.whole (flat (tab s c))))
    (hplain : ∀ s c, ∀ col ∈ tab s c, col.1 ≠ [] ∧ '/' ∉ col.1)
    (hnd : ∀ s c, ((tab s c).map Prod.fst).Nodup)
    (hcols : ∀ s, ∀ c < 20, (tab s c).map Prod.fst = (tab s 0).map Prod.fst) :
    Runs (fun t => t = fs) (Prog.each (collateSubvol indir outdir) (pyRange istart iend))
      (fun toDel t => ((∀ s ∈ pyRange istart iend, t.lookup (outPath outdir s)
          = some (.whole (flat (collation (tab s))))) ∧
        ∀ p, (∀ s ∈ pyRange istart iend, p ≠ outPath outdir s) → t.lookup p = fs.lookup p) ∧
      toDel = (pyRange istart iend).map fun s => (List.range NCHUNKS).map (chunkPath indir s)) := by
  set out : ℤ → File R := fun s => .whole (flat (collation (tab s))) with hout
  have hj : ∀ s, concatColumns ((List.range 20).map (tab s))
      = .ok (collation (tab s)) := by
    intro s
    have hhead : (((List.range 20).map (tab s)).headD []) = tab s 0 := rfl
    rw [joined_ok _ (by simp) ?_]
    · unfold joined collation
      rw [hhead]
      simp only [List.map_map, Function.comp_def]
    · intro d hd
      obtain ⟨c, hc, rfl⟩ := List.mem_map.1 hd
      rw [hhead]
      exact hcols s c (List.mem_range.1 hc)
  have h := Runs.each (f := collateSubvol (R := R) indir outdir)
    (J := fun done res t => ((∀ s ∈ done, t.lookup (outPath outdir s) = some (out s)) ∧
      ∀ p, (∀ s ∈ done, p ≠ outPath outdir s) → t.lookup p = fs.lookup p) ∧
      res = done.map fun s => (List.range NCHUNKS).map (chunkPath indir s))
    (pyRange istart iend) [] [] ?_
  · exact h.weaken (fun t ht => by subst ht; simp) fun a t ht => by simpa using ht
  · intro pre s post cs hl t ht
    rw [List.nil_append, List.nil_append] at ht ⊢
    have hs := mem_pyRange.1 (hl ▸ (by simp : s ∈ pre ++ s :: post))
    obtain ⟨⟨h1, h2⟩, h3⟩ := ht
    have hread : Prog.each readChunk ((List.range NCHUNKS).map (chunkPath indir s)) t
        = ([], t, .ok ((List.range 20).map (tab s))) := by
      have key : ∀ l : List ℕ, (∀ c ∈ l, c < 20) →
          Prog.each readChunk (l.map (chunkPath indir s)) t = ([], t, .ok (l.map (tab s))) := by
        intro l
        induction l with
        | nil => intro _; rfl
        | cons c l ih =>
          intro hc
          have hr : readChunk (chunkPath indir s c) t = ([], t, .ok (tab s c)) := by
            refine readChunk_ok ?_ (hplain s c) (hnd s c)
            rw [h2 _ fun s' _ => chunk_ne_out _ _ _ _ _]
            exact hfs s hs.1 hs.2 c (hc c (by simp))
          simp [Prog.each, Prog.bind, hr, ih fun c h => hc c (by simp [h]), Prog.pure]
      exact key (List.range 20) fun c hc => List.mem_range.1 hc
    obtain ⟨tr, t', hw, hw'⟩ := writeFile_ok (outPath outdir s) (collation (tab s)) t
    have hc : collateSubvol indir outdir s t
        = (tr, t', .ok ((List.range NCHUNKS).map (chunkPath indir s))) := by
      simp [collateSubvol, Prog.bind, hread, hj, Prog.ofExcept, hw, Prog.pure]
    refine ⟨_, by rw [hc], ?_⟩
    rw [hc]
    refine ⟨⟨fun s' hs' => ?_, fun p hp => ?_⟩, by rw [h3]; simp⟩
    · simp only [hw']
      by_cases he : s' = s
      · rw [he, if_pos rfl]
      · rw [if_neg fun e => he (outPath_injective e)]
        exact h1 s' (by simpa [he] using hs')
    · simp only [hw']
      rw [if_neg (hp s (by simp)), h2 p fun s' hs' => hp s' (by simp [hs'])]

/-- **C71** (content). If the twenty chunks of every subvolume of the range are there, with the same
columns in each chunk of a subvolume, the script succeeds: the output file of each subvolume has those
columns, each the rows of chunk 0, then of chunk 1, and so on; the chunk files of the range are gone;
every other file is as it was. -/
theorem C71_collates {indir outdir : Str} (hsh : ShellSafe indir) (fs : FS (File R))
    (istart iend : ℤ) (tab : ℤ → ℕ → List (Str × List R))
    (hfs : ∀ s, istart ≤ s → s < iend → ∀ c < 20,
      fs.lookup (chunkPath indir s c) = some (.whole (flat (tab s c))))
    (hplain : ∀ s c, ∀ col ∈ tab s c, col.1 ≠ [] ∧ '/' ∉ col.1)
    (hnd : ∀ s c, ((tab s c).map Prod.fst).Nodup)
    (hcols : ∀ s, ∀ c < 20, (tab s c).map Prod.fst = (tab s 0).map Prod.fst) :
    ∃ tr t, unchunk istart iend indir outdir fs = (tr, t, .ok ()) ∧
      (∀ s, istart ≤ s → s < iend → t.lookup (outPath outdir s) = some (.whole (flat
        ((tab s 0).map fun col =>
          (col.1, ((List.range 20).map fun c => ((tab s c).lookup col.1).getD []).flatten))))) ∧
      (∀ s, istart ≤ s → s < iend → ∀ c < 20, t.lookup (chunkPath indir s c) = none) ∧
      ∀ p, (∀ s, istart ≤ s → s < iend → p ≠ outPath outdir s) →
        (∀ s, istart ≤ s → s < iend → ∀ c < 20, p ≠ chunkPath indir s c) →
        t.lookup p = fs.lookup p := by
  have hrun : Runs (fun t => t = fs) (unchunk istart iend indir outdir) (fun _ t =>
      (∀ s ∈ pyRange istart iend, t.lookup (outPath outdir s)
        = some (.whole (flat (collation (tab s))))) ∧
      (∀ s ∈ pyRange istart iend, ∀ c < 20, t.lookup (chunkPath indir s c) = none) ∧
      ∀ p, (∀ s ∈ pyRange istart iend, p ≠ outPath outdir s) →
        (∀ s ∈ pyRange istart iend, ∀ c < 20, p ≠ chunkPath indir s c) →
        t.lookup p = fs.lookup p) := by
    refine Runs.bind (collate_all fs istart iend tab hfs hplain hnd hcols) ?_
    · intro toDel
      refine Runs.bind (Mid := fun _ t =>
        (∀ s ∈ pyRange istart iend, t.lookup (outPath outdir s) = some (.whole (flat (collation (tab s))))) ∧
        (∀ s ∈ pyRange istart iend, ∀ c < 20, t.lookup (chunkPath indir s c) = none) ∧
        ∀ p, (∀ s ∈ pyRange istart iend, p ≠ outPath outdir s) →
          (∀ s ∈ pyRange istart iend, ∀ c < 20, p ≠ chunkPath indir s c) →
          t.lookup p = fs.lookup p) ?_ fun _ => Runs.pure fun _ => id
      intro t ht
      obtain ⟨⟨h1, h2⟩, rfl⟩ := ht
      set names := ((pyRange istart iend).map fun s =>
        (List.range NCHUNKS).map (chunkPath indir s)).flatten with hnames
      have hmem : ∀ p, p ∈ names ↔ ∃ s ∈ pyRange istart iend, ∃ c < 20, p = chunkPath indir s c := by
        intro p
        rw [hnames, List.mem_flatten]
        constructor
        · rintro ⟨l, hl, hp⟩
          obtain ⟨s, hs, rfl⟩ := List.mem_map.1 hl
          exact ⟨s, hs, mem_chunks.1 hp⟩
        · rintro ⟨s, hs, hp⟩
          exact ⟨_, List.mem_map_of_mem hs, mem_chunks.2 hp⟩
      have hnodup : names.Nodup := by
        rw [hnames, List.nodup_flatten]
        constructor
        · intro l hl
          obtain ⟨s, hs, rfl⟩ := List.mem_map.1 hl
          exact List.nodup_range.map fun a b h => (chunkPath_injective h).2
        · rw [List.pairwise_map]
          refine (nodup_pyRange istart iend).imp fun hne => ?_
          intro p hp hp'
          obtain ⟨c, _, rfl⟩ := mem_chunks.1 hp
          obtain ⟨c', _, e⟩ := mem_chunks.1 hp'
          exact hne (chunkPath_injective e).1
      have h := Runs.each (f := checkRm (F := File R))
        (J := fun done _ (u : FS (File R)) => ∀ q, u.lookup q = if q ∈ done then none else t.lookup q)
        names [] [] ?_
      · obtain ⟨a, e, h⟩ := h t fun q => by simp
        refine ⟨a, e, fun s hs => ?_, fun s hs c hc => ?_, fun p hp hp' => ?_⟩
        · rw [h, List.nil_append, if_neg, h1 s hs]
          intro hm
          obtain ⟨s', _, c, _, e⟩ := (hmem _).1 hm
          exact chunk_ne_out _ _ _ _ _ e.symm
        · rw [h, List.nil_append, if_pos ((hmem _).2 ⟨s, hs, c, hc, rfl⟩)]
        · rw [h, List.nil_append, if_neg, h2 p hp]
          intro hm
          obtain ⟨s', hs', c, hc, e⟩ := (hmem _).1 hm
          exact hp' s' hs' c hc e
      · intro pre p post cs hl u hu
        rw [List.nil_append] at hu ⊢
        obtain ⟨s, hs, c, hc, rfl⟩ := (hmem p).1 (hl ▸ by simp)
        have hnot : chunkPath indir s c ∉ pre := by
          intro hm
          rw [hl] at hnodup
          exact (List.nodup_append.1 hnodup).2.2 _ hm _ (by simp) rfl
        have hsome : (u.lookup (chunkPath indir s c)).isSome := by
          rw [hu, if_neg hnot, h2 _ fun s' _ => chunk_ne_out _ _ _ _ _,
            hfs s (mem_pyRange.1 hs).1 (mem_pyRange.1 hs).2 c hc]
          rfl
        rw [checkRm_word (chunkPath_word hsh s c), if_pos hsome]
        refine ⟨(), rfl, fun q => ?_⟩
        rw [remove_lookup, hu]
        by_cases hq : q = chunkPath indir s c
        · simp [hq]
        · rw [if_neg hq]
          simp [hq]
  obtain ⟨a, h1, h2, h3, h4⟩ := hrun fs rfl
  refine ⟨(unchunk istart iend indir outdir fs).1, (unchunk istart iend indir outdir fs).2.1, ?_,
    fun s ha hb => h2 s (mem_pyRange.2 ⟨ha, hb⟩), fun s ha hb => h3 s (mem_pyRange.2 ⟨ha, hb⟩),
    fun p hp hp' => h4 p (fun s hs => hp s (mem_pyRange.1 hs).1 (mem_pyRange.1 hs).2)
      fun s hs => hp' s (mem_pyRange.1 hs).1 (mem_pyRange.1 hs).2⟩
  rw [← h1]

/-- **C71** (missing chunk). If a chunk of the first subvolume of the range is missing, for instance
because an earlier run was killed while deleting, the script raises and changes nothing. -/
theorem C71_missing_chunk {indir outdir : Str} (fs : FS (File R)) (istart iend : ℤ)
    (hr : istart < iend) (c : ℕ) (hc : c < 20) (hmiss : fs.lookup (chunkPath indir istart c) = none) :
    ∃ e, unchunk istart iend indir outdir fs = ([], fs, .error e) := by
  have hrange : pyRange istart iend = istart :: (pyRange istart iend).tail := by
    unfold pyRange
    obtain ⟨n, hn⟩ : ∃ n, (iend - istart).toNat = n + 1 := ⟨(iend - istart).toNat - 1, by omega⟩
    rw [hn, List.range_succ_eq_map]
    simp
  have key : ∀ l : List Str, chunkPath indir istart c ∈ l →
      ∃ e, Prog.each readChunk l fs = ([], fs, .error e) := by
    intro l
    induction l with
    | nil => intro h; cases h
    | cons p l ih =>
      intro hp
      have hst := readChunk_state p fs
      by_cases he : p = chunkPath indir istart c
      · subst he
        refine ⟨.fileNotFound, ?_⟩
        simp [Prog.each, Prog.bind, readChunk, Prog.get, hmiss, Prog.ofExcept]
      · have hp' : chunkPath indir istart c ∈ l := by
          rcases List.mem_cons.1 hp with h | h
          · exact absurd h.symm he
          · exact h
        obtain ⟨e, hl⟩ := ih hp'
        rcases hx : readChunk p fs with ⟨tr, u, r⟩
        rw [hx] at hst
        obtain ⟨rfl, rfl⟩ := hst
        cases r with
        | error e' => exact ⟨e', by simp [Prog.each, Prog.bind, hx]⟩
        | ok d => exact ⟨e, by simp [Prog.each, Prog.bind, hx, hl]⟩
  obtain ⟨e, he⟩ := key ((List.range NCHUNKS).map (chunkPath indir istart)) (mem_chunks.2 ⟨c, hc, rfl⟩)
  refine ⟨e, ?_⟩
  have : collateSubvol indir outdir istart fs = ([], fs, .error e) := by
    simp [collateSubvol, Prog.bind, he]
  rw [unchunk, hrange]
  simp [Prog.each, Prog.bind, this]

theorem split_two {x y : Str} (hx0 : x ≠ []) (hy0 : y ≠ []) (hx : ∀ c ∈ x, c.isWhitespace = false)
    (hy : ∀ c ∈ y, c.isWhitespace = false) : split (x ++ ' ' :: y) = [x, y] := by
  have h := splitFrom_append x hx [] (' ' :: y)
  rw [List.nil_append] at h
  rw [split, h]
  have hw : (' ' : Char).isWhitespace = true := by decide
  have h2 := split_word hy0 hy
  rw [split] at h2
  cases x with
  | nil => exact absurd rfl hx0
  | cons a x => simp [splitFrom, hw, h2]

/-- **C71** (the claim is false for a directory with a space). The names to delete are handed to the
shell without quotes. If the input directory is named `x y`, the script deletes the file `x`, which has
nothing to do with the fits, raises CalledProcessError, and deletes no chunk. -/
theorem C71_space_in_directory {x y outdir : Str} (hx0 : x ≠ []) (hx : ShellSafe x)
    (hy : ShellSafe y) (fs : FS (File R)) (istart iend : ℤ) (hr : istart < iend)
    (tab : ℤ → ℕ → List (Str × List R))
    (hfs : ∀ s, istart ≤ s → s < iend → ∀ c < 20,
      fs.lookup (chunkPath (x ++ ' ' :: y) s c) = some (.whole (flat (tab s c))))
    (hplain : ∀ s c, ∀ col ∈ tab s c, col.1 ≠ [] ∧ '/' ∉ col.1)
    (hnd : ∀ s c, ((tab s c).map Prod.fst).Nodup)
    (hcols : ∀ s, ∀ c < 20, (tab s c).map Prod.fst = (tab s 0).map Prod.fst)
    (hfile : (fs.lookup x).isSome) (hxout : ∀ s, x ≠ outPath outdir s)
    (hno : ∀ w, fs.lookup (y ++ w) = none) (hyout : ∀ s w, y ++ w ≠ outPath outdir s) :
    ∃ tr t, unchunk istart iend (x ++ ' ' :: y) outdir fs = (tr, t, .error .calledProcess) ∧
      t.lookup x = none ∧
      ∀ s, istart ≤ s → s < iend → ∀ c < 20,
        t.lookup (chunkPath (x ++ ' ' :: y) s c) = some (.whole (flat (tab s c))) := by
  set indir := x ++ ' ' :: y with hin
  obtain ⟨names, h1, ⟨h2, h3⟩, h4⟩ := collate_all (outdir := outdir) fs istart iend tab hfs hplain hnd
    hcols fs rfl
  set r := Prog.each (collateSubvol indir outdir) (pyRange istart iend) fs with hre
  have hrange : pyRange istart iend = istart :: (pyRange istart iend).tail := by
    unfold pyRange
    obtain ⟨n, hn⟩ : ∃ n, (iend - istart).toNat = n + 1 := ⟨(iend - istart).toNat - 1, by omega⟩
    rw [hn, List.range_succ_eq_map]
    simp
  have hnames : ∃ rest, names.flatten = chunkPath indir istart 0 :: rest := by
    rw [h4, hrange, List.map_cons, List.flatten_cons]
    exact ⟨_, rfl⟩
  obtain ⟨rest, hrest⟩ := hnames
  obtain ⟨w, hw0, hw⟩ : ∃ w, w ≠ [] ∧ split (chunkPath indir istart 0) = [x, y ++ w] ∧
      chunkPath indir istart 0 = x ++ ' ' :: (y ++ w) := by
    have hd : ∃ z, dirPart indir = x ++ ' ' :: (y ++ z) ∧ ∀ c ∈ z, c = '/' := by
      unfold dirPart
      rw [if_neg (by simp [hin])]
      split
      · exact ⟨[], by simp [hin], by simp⟩
      · exact ⟨['/'], by simp [hin], by simp⟩
    obtain ⟨z, hz, hz'⟩ := hd
    have e := chunkPath_eq indir istart 0
    rw [hz] at e
    have hsp : ∀ c ∈ bnameIn (intStr istart) (zpad (natStr NCHUNKS).length 0), c.isWhitespace = false := by
      intro c hc
      unfold bnameIn at hc
      lits_at hc
      simp only [List.mem_append] at hc
      rcases hc with (((hx | hx) | hx) | hx) | hx
      · fin_cases hx <;> decide
      · by_contra hc
        have : c ∉ intStr istart := intStr_notMem istart c ?_ ?_
        · exact this hx
        · rw [Bool.eq_false_iff]; intro hd; exact hc (digit_not_space hd)
        · rintro rfl; exact hc (by decide)
      · fin_cases hx <;> decide
      · exact digit_not_space (zpad_digit hx)
      · fin_cases hx <;> decide
    have hb0 : bnameIn (intStr istart) (zpad (natStr NCHUNKS).length 0) ≠ [] := by
      unfold bnameIn; lits; simp
    generalize bnameIn (intStr istart) (zpad (natStr NCHUNKS).length 0) = b at e hsp hb0
    have e' : chunkPath indir istart 0 = x ++ ' ' :: (y ++ (z ++ b)) := by rw [e]; simp
    refine ⟨z ++ b, by simp [hb0], ?_, e'⟩
    rw [e']
    refine split_two hx0 (by simp [hb0]) (safe_not_space hx) ?_
    intro c hc
    simp only [List.mem_append] at hc
    rcases hc with hc | hc | hc
    · exact safe_not_space hy c hc
    · rw [hz' c hc]; decide
    · exact hsp c hc
  have hxs : (r.2.1.lookup x).isSome := by rw [h3 x fun s _ => hxout s]; exact hfile
  have hyn : (FS.remove r.2.1 x).lookup (y ++ w) = none := by
    rw [remove_lookup]
    split
    · rfl
    · rw [h3 _ fun s _ => hyout s w]; exact hno w
  have hrm : checkRm (chunkPath indir istart 0) r.2.1
      = ([FS.remove r.2.1 x], FS.remove r.2.1 x, .error .calledProcess) := by
    unfold checkRm
    rw [hw.1]
    simp [rmWords, Prog.bind, Prog.get, Prog.act, Prog.pure, Prog.ofExcept, hxs, hyn]
  have hr3 : r = (r.1, r.2.1, .ok names) := by rw [← h1]
  refine ⟨r.1 ++ [FS.remove r.2.1 x], FS.remove r.2.1 x, ?_, ?_, ?_⟩
  · unfold unchunk
    rw [Prog.bind, ← hre, hr3]
    simp [Prog.bind, hrest, Prog.each, hrm]
  · rw [remove_lookup, if_pos rfl]
  · intro s ha hb c hc
    rw [remove_lookup, if_neg, h3 _ fun s' _ => chunk_ne_out _ _ _ _ _, hfs s ha hb c hc]
    intro e
    have hsp : ' ' ∈ x := by
      rw [← e, chunkPath_eq]
      refine List.mem_append_left _ ?_
      unfold dirPart
      rw [if_neg (by simp [hin])]
      split <;> simp [hin]
    have := safe_not_space hx ' ' hsp
    revert this; decide

/-! ## The hypotheses are met -/

/-- Twenty chunks of subvolume 3, one halo each -/
def exampleFS : FS (File ℕ) :=
  (List.range 20).map fun c => (chunkPath ['i', 'n'] 3 c, .whole (flat [(['m'], [c])]))

theorem exampleFS_lookup (c : ℕ) (hc : c < 20) :
    exampleFS.lookup (chunkPath ['i', 'n'] 3 c) = some (.whole (flat [(['m'], [c])])) := by
  refine lookup_of_mem ?_ ?_
  · unfold exampleFS
    rw [List.map_map]
    exact List.nodup_range.map fun a b h =>
      (chunkPath_injective (show chunkPath ['i', 'n'] 3 a = chunkPath ['i', 'n'] 3 b from h)).2
  · exact List.mem_map.2 ⟨c, List.mem_range.2 hc, rfl⟩

/-- The hypotheses of `C71_collates` and `C71_crash_safety` are met; the output is the twenty rows. -/
example : ∃ tr t, unchunk 3 4 ['i', 'n'] ['o'] exampleFS = (tr, t, .ok ()) ∧
    t.lookup (outPath ['o'] 3) = some (.whole (flat [(['m'], List.range 20)])) ∧
    Reach ['i', 'n'] ['o'] exampleFS exampleFS ∧
    ∀ p f, exampleFS.lookup p = some f → ValidFile f := by
  obtain ⟨tr, t, h1, h2, -, -⟩ := C71_collates (indir := ['i', 'n']) (outdir := ['o'])
    (by unfold ShellSafe; decide) exampleFS 3 4 (fun _ c => [(['m'], [c])]) (by
      intro s h1 h2 c hc
      obtain rfl : s = 3 := by omega
      exact exampleFS_lookup c hc) (by simp) (by simp) (by simp)
  refine ⟨tr, t, h1, ?_, .start, ?_⟩
  · rw [h2 3 le_rfl (by norm_num)]
    simp [List.lookup]
    rfl
  · intro p f hf ms hms
    have hm : (p, f) ∈ exampleFS := by
      exact mem_of_lookup hf
    obtain ⟨c, _, he⟩ := List.mem_map.1 hm
    simp only [Prod.mk.injEq] at he
    rw [hms] at he
    simp only [flat, File.whole.injEq, Node.group.injEq, List.map_cons, List.map_nil] at he
    rw [← he.2]
    simp

/-- The hypotheses of `C71_missing_chunk` are met: subvolume 5 has no chunks. -/
example : exampleFS.lookup (chunkPath ['i', 'n'] 5 0) = none := by
  rw [← Option.not_isSome_iff_eq_none, lookup_isSome_iff]
  intro h
  obtain ⟨x, hx, e⟩ := List.mem_map.1 h
  obtain ⟨c, _, rfl⟩ := List.mem_map.1 hx
  have := (chunkPath_injective (show chunkPath ['i', 'n'] 3 c = chunkPath ['i', 'n'] 5 0 from e)).1
  omega

/-- The same chunks in the directory `a b`, and a file `a` -/
def spaceFS : FS (File ℕ) :=
  (['a'], .torn) :: (List.range 20).map fun c =>
    (chunkPath ['a', ' ', 'b'] 3 c, .whole (flat [(['m'], [c])]))

theorem head_spaceChunk (c : ℕ) : ∃ w, chunkPath ['a', ' ', 'b'] 3 c = 'a' :: ' ' :: 'b' :: w := by
  have e := chunkPath_eq ['a', ' ', 'b'] 3 c
  exact ⟨_, e⟩

/-- The hypotheses of `C71_space_in_directory` are met. -/
example : ∃ tr t, unchunk 3 4 ['a', ' ', 'b'] ['o'] spaceFS = (tr, t, .error .calledProcess) ∧
    t.lookup ['a'] = none := by
  obtain ⟨tr, t, h1, h2, -⟩ := C71_space_in_directory (x := ['a']) (y := ['b']) (outdir := ['o'])
    (by simp) (by unfold ShellSafe; decide) (by unfold ShellSafe; decide) spaceFS 3 4 (by norm_num)
    (fun _ c => [(['m'], [c])]) (by
      intro s h1 h2 c hc
      obtain rfl : s = 3 := by omega
      refine lookup_of_mem ?_ (List.mem_cons_of_mem _ (List.mem_map.2 ⟨c, List.mem_range.2 hc, rfl⟩))
      rw [spaceFS, List.map_cons, List.map_map, List.nodup_cons]
      constructor
      · intro h
        obtain ⟨c, _, e⟩ := List.mem_map.1 h
        obtain ⟨w, hw⟩ := head_spaceChunk c
        rw [Function.comp, hw] at e
        simp at e
      · exact List.nodup_range.map fun a b h => (chunkPath_injective
          (show chunkPath ['a', ' ', 'b'] 3 a = chunkPath ['a', ' ', 'b'] 3 b from h)).2)
    (by simp) (by simp) (by simp) (by simp [spaceFS])
    (by intro s e; have := congrArg List.head? (e.trans (outPath_eq _ _)); simp [dirPart] at this)
    (by
      intro w
      rw [← Option.not_isSome_iff_eq_none, lookup_isSome_iff, spaceFS, List.map_cons, List.mem_cons,
        not_or]
      refine ⟨by simp, fun h => ?_⟩
      obtain ⟨x, hx, e⟩ := List.mem_map.1 h
      obtain ⟨c, _, rfl⟩ := List.mem_map.1 hx
      obtain ⟨w', hw⟩ := head_spaceChunk c
      simp only [hw] at e
      simp at e)
    (by intro s w e; have := congrArg List.head? (e.trans (outPath_eq _ _)); simp [dirPart] at this)
  exact ⟨tr, t, h1, h2⟩

end Diffmah.Scripts

import Verif.Lemmas.Samples
import Verif.Props.Collate
import Verif.Props.Targets

/-!
# Samples of haloes per bin of mass and time (C90, C91, C92)
-/

namespace Diffmah.Samples

open Diffmah.Text Diffmah.IO Diffmah.Scripts Diffmah.Targets

variable {R : Type}

/-! ## Specification -/

/-- A bin: mass, time, and "cens" or "sats" -/
abbrev Bin := ℝ × ℝ × Str

/-- `rows` is a table of six columns. -/
def SixColumns (rows : List (List R)) : Prop := ∀ r ∈ rows, r.length = 6

/-- The names of the sample files are right: each file of the directory called `subvol_*.txt` is that
of the sample of some subvolume and bin. -/
def WellNamed (drn : Str) (fs : FS (SFile R)) : Prop :=
  ∀ p, (fs.lookup p).isSome → globMatch (pathJoin drn "subvol_*.txt".toList) p = true →
    ∃ (k : ℕ) (b : Bin), Kind b.2.2 ∧ p = samplePath drn k b

/-- The sample files are complete tables of six columns. -/
def Complete (drn : Str) (fs : FS (SFile R)) : Prop :=
  ∀ (k : ℕ) (b : Bin) f, Kind b.2.2 → fs.lookup (samplePath drn k b) = some f →
    ∃ rows : List (List R), SixColumns rows ∧ f = .txt rows.flatten

/-- A temporary file: `subvol_`, a digit, and anything, in the directory -/
def Temporary (drn p : Str) : Prop :=
  ∃ (d : Char) (w : Str), d.isDigit = true ∧ '/' ∉ w ∧ p = pathJoin drn ("subvol_".toList ++ d :: w)

/-- The path of the collated file of a bin, in the directory of the output -/
noncomputable def binPath (drnout : Str) (b : Bin) : Str := pathJoin drnout (sampleName b.1 b.2.1 b.2.2)

/-- `f` is the collation of the samples of bin `b` found in `fs`: nothing if there are none, otherwise
the table with the rows of all of them, one subvolume after the other in some order. -/
def CollatedBin (drn : Str) (fs : FS (SFile R)) (b : Bin) (f : Option (SFile R)) : Prop :=
  ∃ ks : List ℕ, ks.Nodup ∧ (∀ k, k ∈ ks ↔ (fs.lookup (samplePath drn k b)).isSome) ∧
    ((ks = [] ∧ f = none) ∨ (ks ≠ [] ∧ ∃ tables : List (List (List R)),
      List.Forall₂ (fun k rows => SixColumns rows ∧
        fs.lookup (samplePath drn k b) = some (.txt rows.flatten)) ks tables ∧
      f = some (.npy tables.flatten)))

/-- The bins of the grid of `n_m` masses and `n_t` times, for centrals and satellites -/
def InGrid (t0 : ℝ) (n_m n_t : ℕ) (b : Bin) : Prop :=
  b.2.1 ∈ get_t_obs_table t0 n_t ∧ b.1 ∈ lgmarr_table_from_t_obs_kern b.2.1 n_m ∧ Kind b.2.2

/-- Some order of listing a directory -/
def Lists (order : Str → List Str → List Str) : Prop := ∀ p l, (order p l).Perm l

/-! ## Lemmas -/

theorem mem_gridBins (t0 : ℝ) (n_m n_t : ℕ) (b : Bin) :
    b ∈ gridBins t0 n_m n_t ↔ InGrid t0 n_m n_t b := by
  unfold gridBins InGrid Kind
  obtain ⟨m, t, c⟩ := b
  simp only [List.mem_flatMap, List.mem_cons, List.not_mem_nil, or_false, Prod.mk.injEq]
  constructor
  · rintro ⟨t', h1, m', h2, ⟨rfl, rfl, rfl⟩ | ⟨rfl, rfl, rfl⟩⟩
    · exact ⟨h1, h2, .inl rfl⟩
    · exact ⟨h1, h2, .inr rfl⟩
  · rintro ⟨h1, h2, rfl | rfl⟩
    · exact ⟨t, h1, m, h2, .inl ⟨rfl, rfl, rfl⟩⟩
    · exact ⟨t, h1, m, h2, .inr ⟨rfl, rfl, rfl⟩⟩

theorem slash_outName (n_lgm n_t : ℕ) (istart iend : ℤ) : '/' ∉ "NM_".toList ++ natStr n_lgm ++
    "_NT_".toList ++ natStr n_t ++ "_ISTART_".toList ++ intStr istart ++ "_IEND_".toList ++ intStr iend := by
  slits
  have h1 := natStr_notMem n_lgm (c := '/') (by decide)
  have h2 := natStr_notMem n_t (c := '/') (by decide)
  have h3 := intStr_notMem istart '/' (by decide) (by decide)
  have h4 := intStr_notMem iend '/' (by decide) (by decide)
  simp [h1, h2, h3, h4]

theorem output_drn_eq (drn : Str) (n_lgm n_t : ℕ) (istart iend : ℤ) :
    ∃ w, get_output_drn drn n_lgm n_t istart iend = dirPart drn ++ 'N' :: w ∧ '/' ∉ w ∧ w ≠ [] := by
  have hs := slash_outName n_lgm n_t istart iend
  unfold get_output_drn
  rw [pathJoin_eq _ hs]
  revert hs
  slits
  intro hs
  exact ⟨_, rfl, fun h => hs (List.mem_cons_of_mem _ h), by simp⟩

theorem output_last (drn : Str) (n_lgm n_t : ℕ) (istart iend : ℤ) :
    dirPart (get_output_drn drn n_lgm n_t istart iend)
      = get_output_drn drn n_lgm n_t istart iend ++ ['/'] := by
  obtain ⟨w, e, hw, h0⟩ := output_drn_eq drn n_lgm n_t istart iend
  rw [e]
  unfold dirPart
  rw [if_neg (by simp), if_neg]
  intro h
  rw [List.getLast?_append, List.getLast?_cons_of_ne_nil h0] at h
  obtain ⟨z, hz⟩ : ∃ z, w.getLast? = some z := by
    rw [← Option.isSome_iff_exists, List.getLast?_isSome]; exact h0
  rw [hz] at h
  simp only [Option.some_or, Option.some.injEq] at h
  subst h
  exact hw (List.mem_of_getLast? hz)

theorem reshape_six {x : List R} {rows : List (List R)} :
    reshapeRows NUM_DIFFMAH_PARAMS x = .ok rows ↔ SixColumns rows ∧ x = rows.flatten := by
  have h6 : NUM_DIFFMAH_PARAMS = 6 := rfl
  unfold reshapeRows
  rw [h6]
  constructor
  · intro h
    split at h
    · rename_i hd
      cases h
      obtain ⟨h1, h2⟩ := cut_flatten (List.replicate (x.length / 6) 6) x (by simp; omega)
      refine ⟨fun r hr => ?_, h1.symm⟩
      have : r.length ∈ List.replicate (x.length / 6) 6 := h2 ▸ List.mem_map_of_mem hr
      exact List.eq_of_mem_replicate this
    · cases h
  · rintro ⟨h, rfl⟩
    have hl : ∀ rows : List (List R), SixColumns rows → rows.flatten.length = 6 * rows.length := by
      intro rows
      induction rows with
      | nil => intro _; rfl
      | cons r rows ih =>
        intro h
        rw [List.flatten_cons, List.length_append, h r (by simp), ih fun r hr => h r (by simp [hr]),
          List.length_cons]
        omega
    rw [hl _ h, if_pos (by omega), Nat.mul_div_cancel_left _ (by omega)]
    congr 1
    clear hl
    induction rows with
    | nil => rfl
    | cons r rows ih =>
      have hr := h r (by simp)
      rw [List.length_cons, List.replicate_succ, cut, List.flatten_cons, List.take_append_of_le_length
        (by omega), List.take_of_length_le (by omega), List.drop_append_of_le_length (by omega),
        List.drop_of_length_le (by omega), List.nil_append, ih fun r hr => h r (by simp [hr])]

theorem each_pure {S A B : Type} (f : A → Prog S B) (g : A → Except PyErr B) (s : S)
    (h : ∀ a, f a s = ([], s, g a)) (l : List A) : Prog.each f l s = ([], s, l.mapM g) := by
  induction l with
  | nil => rfl
  | cons a l ih =>
    rw [Prog.each, Prog.bind, h a, List.mapM_cons]
    cases g a with
    | error e => rfl
    | ok b =>
      simp only [Prog.bind, ih, bind, Except.bind]
      cases l.mapM g <;> rfl

/-- What reading a sample gives -/
def readOf (t : FS (SFile R)) (fn : Str) : Except PyErr (List (List R)) := match t.lookup fn with
  | none => .error .fileNotFound
  | some (.txt x) => reshapeRows NUM_DIFFMAH_PARAMS x
  | some .dir => .error .osError
  | some _ => .error .valueError

theorem readSample_eq (fn : Str) (t : FS (SFile R)) : readSample fn t = ([], t, readOf t fn) := by
  unfold readSample readOf Prog.bind Prog.get
  dsimp only
  cases t.lookup fn with
  | none => rfl
  | some f => cases f <;> rfl

theorem readOf_ok {t : FS (SFile R)} {fn : Str} {rows : List (List R)} :
    readOf t fn = .ok rows ↔ SixColumns rows ∧ t.lookup fn = some (.txt rows.flatten) := by
  unfold readOf
  cases h : t.lookup fn with
  | none => simp
  | some f =>
    cases f with
    | txt x => simp only [reshape_six, Option.some.injEq, SFile.txt.injEq]
    | npy x => simp
    | dir => simp
    | torn => simp
    | other x => simp

theorem mem_matching (pat : Str) (fs : FS (SFile R)) (p : Str) :
    p ∈ matching pat fs ↔ (fs.lookup p).isSome ∧ globMatch pat p = true := by
  unfold matching
  rw [List.mem_filter, List.mem_dedup, lookup_isSome_iff]

theorem nodup_matching (pat : Str) (fs : FS (SFile R)) : (matching pat fs).Nodup :=
  (List.nodup_dedup _).filter _

/-- Inside the directory of the output, or that directory itself -/
def Under (drnout p : Str) : Prop := drnout <+: p

theorem not_under {drn : Str} (n_lgm n_t : ℕ) (istart iend : ℤ) (s : Str) :
    ¬Under (get_output_drn drn n_lgm n_t istart iend)
      (dirPart drn ++ (['s', 'u', 'b', 'v', 'o', 'l', '_'] ++ s)) := by
  obtain ⟨w, e, -, -⟩ := output_drn_eq drn n_lgm n_t istart iend
  rintro ⟨x, hx⟩
  rw [e, List.append_assoc, List.append_cancel_left_eq] at hx
  simp only [List.cons_append, List.cons.injEq] at hx
  exact absurd hx.1 (by decide)

theorem under_binPath (drn : Str) (n_lgm n_t : ℕ) (istart iend : ℤ) (b : Bin) (hk : Kind b.2.2) :
    Under (get_output_drn drn n_lgm n_t istart iend)
      (binPath (get_output_drn drn n_lgm n_t istart iend) b) := by
  unfold Under binPath
  rw [pathJoin_eq _ (slash_sampleName _ _ hk), output_last, List.append_assoc]
  exact List.prefix_append _ _

theorem binPath_ne_out (drn : Str) (n_lgm n_t : ℕ) (istart iend : ℤ) (b : Bin) (hk : Kind b.2.2) :
    binPath (get_output_drn drn n_lgm n_t istart iend) b ≠ get_output_drn drn n_lgm n_t istart iend := by
  unfold binPath
  rw [pathJoin_eq _ (slash_sampleName _ _ hk), output_last, List.append_assoc]
  simp

theorem binPath_same {drnout : Str} {b b' : Bin} (hk : Kind b.2.2) (hk' : Kind b'.2.2)
    (h : binPath drnout b = binPath drnout b') :
    restName b.1 b.2.1 b.2.2 = restName b'.1 b'.2.1 b'.2.2 := by
  unfold binPath at h
  rw [pathJoin_eq _ (slash_sampleName _ _ hk), pathJoin_eq _ (slash_sampleName _ _ hk'),
    List.append_cancel_left_eq, sampleName_eq, sampleName_eq] at h
  exact List.append_cancel_right h

theorem samplePath_same {b b' : Bin} (hk : Kind b.2.2) (hk' : Kind b'.2.2)
    (h : restName b.1 b.2.1 b.2.2 = restName b'.1 b'.2.1 b'.2.2) (drn : Str) (k : ℕ) :
    samplePath drn k b = samplePath drn k b' := by
  rw [samplePath_eq _ _ _ hk, samplePath_eq _ _ _ hk', h]

theorem collatedBin_same {b b' : Bin} (hk : Kind b.2.2) (hk' : Kind b'.2.2)
    (h : restName b.1 b.2.1 b.2.2 = restName b'.1 b'.2.1 b'.2.2) (drn : Str) (fs : FS (SFile R))
    (f : Option (SFile R)) (hc : CollatedBin drn fs b f) : CollatedBin drn fs b' f := by
  unfold CollatedBin at *
  simpa only [samplePath_same hk hk' h] using hc

/-! ## One bin -/

theorem pattern_match {drn : Str} (hd : '*' ∉ drn) (b : Bin) (hk : Kind b.2.2) (p : Str) :
    globMatch (pathJoin drn (subvolName ['*'] b.1 b.2.1 b.2.2)) p = true ↔
      ∃ mid, '/' ∉ mid ∧ p = dirPart drn ++ (['s', 'u', 'b', 'v', 'o', 'l', '_'] ++ (mid ++ '_' ::
        (restName b.1 b.2.1 b.2.2 ++ ['.', 't', 'x', 't']))) := by
  rw [pathJoin_eq _ (slash_subvolName _ (by decide) _ _ hk), subvolName_eq]
  have e : dirPart drn ++ (['s', 'u', 'b', 'v', 'o', 'l', '_'] ++ (['*'] ++ '_' ::
      (restName b.1 b.2.1 b.2.2 ++ ['.', 't', 'x', 't'])))
      = (dirPart drn ++ ['s', 'u', 'b', 'v', 'o', 'l', '_']) ++ '*' :: ('_' ::
      (restName b.1 b.2.1 b.2.2 ++ ['.', 't', 'x', 't'])) := by simp
  have hr := restName_notMem b.1 b.2.1 hk (c := '*') (by decide) (by decide) (by decide) (by decide)
    (by decide)
  rw [e, globMatch_one _ _ _ (by simp [dirPart_notMem hd (by decide)]) (by simp [hr])]
  constructor
  · rintro ⟨mid, rfl, h⟩; exact ⟨mid, h, by simp⟩
  · rintro ⟨mid, h, rfl⟩; exact ⟨mid, by simp, h⟩

theorem all_match {drn : Str} (hd : '*' ∉ drn) (p : Str) :
    globMatch (pathJoin drn "subvol_*.txt".toList) p = true ↔
      ∃ mid, '/' ∉ mid ∧ p = dirPart drn ++ (['s', 'u', 'b', 'v', 'o', 'l', '_'] ++ (mid ++
        ['.', 't', 'x', 't'])) := by
  slits
  rw [pathJoin_eq _ (by decide)]
  have e : dirPart drn ++ ['s', 'u', 'b', 'v', 'o', 'l', '_', '*', '.', 't', 'x', 't']
      = (dirPart drn ++ ['s', 'u', 'b', 'v', 'o', 'l', '_']) ++ '*' :: ['.', 't', 'x', 't'] := by simp
  rw [e, globMatch_one _ _ _ (by simp [dirPart_notMem hd (by decide)]) (by decide)]
  constructor
  · rintro ⟨mid, rfl, h⟩; exact ⟨mid, h, by simp⟩
  · rintro ⟨mid, h, rfl⟩; exact ⟨mid, by simp, h⟩

/-- The files listed for a bin are its samples. -/
theorem matching_bin {drn : Str} (hd : '*' ∉ drn) {fs t : FS (SFile R)} (hn : WellNamed drn fs)
    (n_lgm n_t : ℕ) (istart iend : ℤ)
    (ht : ∀ p, ¬Under (get_output_drn drn n_lgm n_t istart iend) p → t.lookup p = fs.lookup p)
    (b : Bin) (hk : Kind b.2.2) (p : Str) :
    p ∈ matching (pathJoin drn (subvolName ['*'] b.1 b.2.1 b.2.2)) t ↔
      ∃ k, p = samplePath drn k b ∧ (fs.lookup (samplePath drn k b)).isSome := by
  rw [mem_matching, pattern_match hd b hk]
  constructor
  · rintro ⟨h1, mid, hm, rfl⟩
    rw [ht _ (not_under _ _ _ _ _)] at h1
    obtain ⟨k, b', hk', e⟩ := hn _ h1 ((all_match hd _).2 ⟨mid ++ '_' :: restName b.1 b.2.1 b.2.2, by
      have := restName_notMem b.1 b.2.1 hk (c := '/') (by decide) (by decide) (by decide) (by decide)
        (by decide)
      simp [hm, this], by simp⟩)
    have e' := e
    rw [samplePath_eq _ _ _ hk', List.append_cancel_left_eq, List.append_cancel_left_eq] at e'
    obtain ⟨-, h3⟩ := match_rest hk' hk e'.symm
    rw [samplePath_same hk' hk h3] at e
    exact ⟨k, e, e ▸ h1⟩
  · rintro ⟨k, rfl, h⟩
    refine ⟨?_, natStr k, natStr_notMem k (by decide), samplePath_eq _ _ _ hk⟩
    rw [samplePath_eq _ _ _ hk] at h ⊢
    rw [ht _ (not_under _ _ _ _ _)]
    exact h

theorem collateBin_spec {drn : Str} (hd : '*' ∉ drn) {order : Str → List Str → List Str}
    (ho : Lists order) {fs t : FS (SFile R)} (hn : WellNamed drn fs) (n_lgm n_t : ℕ) (istart iend : ℤ)
    (ht : ∀ p, ¬Under (get_output_drn drn n_lgm n_t istart iend) p → t.lookup p = fs.lookup p)
    (b : Bin) (hk : Kind b.2.2) :
    ((∃ e, collateBin order drn (get_output_drn drn n_lgm n_t istart iend) b t = ([], t, .error e)) ∧
      ¬Complete drn fs) ∨
    (CollatedBin drn fs b none ∧
      collateBin order drn (get_output_drn drn n_lgm n_t istart iend) b t = ([], t, .ok ())) ∨
    ∃ rows, CollatedBin drn fs b (some (.npy rows)) ∧
      collateBin order drn (get_output_drn drn n_lgm n_t istart iend) b t =
        npSave (binPath (get_output_drn drn n_lgm n_t istart iend) b) rows t := by
  set drnout := get_output_drn drn n_lgm n_t istart iend with hdrn
  set fnlist := globFiles order (pathJoin drn (subvolName ['*'] b.1 b.2.1 b.2.2)) t with hfn
  have hperm : fnlist.Perm (matching (pathJoin drn (subvolName ['*'] b.1 b.2.1 b.2.2)) t) := ho _ _
  have hmem : ∀ p, p ∈ fnlist ↔ ∃ k, p = samplePath drn k b ∧ (fs.lookup (samplePath drn k b)).isSome :=
    fun p => hperm.mem_iff.trans (matching_bin hd hn n_lgm n_t istart iend ht b hk p)
  obtain ⟨ks, hks⟩ : ∃ ks : List ℕ, ks.map (fun k => samplePath drn k b) = fnlist := by
    have : fnlist ∈ Set.range (List.map fun k => samplePath drn k b) := by
      rw [Set.range_list_map]
      intro p hp
      obtain ⟨k, e, -⟩ := (hmem p).1 hp
      exact ⟨k, e.symm⟩
    exact this
  have hnd : ks.Nodup := by
    have := hperm.nodup_iff.2 (nodup_matching _ _)
    rw [← hks] at this
    exact List.Nodup.of_map _ this
  have hmk : ∀ k, k ∈ ks ↔ (fs.lookup (samplePath drn k b)).isSome := by
    intro k
    constructor
    · intro h
      have : samplePath drn k b ∈ fnlist := hks ▸ List.mem_map_of_mem h
      obtain ⟨k', e, h'⟩ := (hmem _).1 this
      rw [e]; exact h'
    · intro h
      have := (hmem _).2 ⟨k, rfl, h⟩
      rw [← hks, List.mem_map] at this
      obtain ⟨k', h', e⟩ := this
      rwa [samplePath_injective hk e] at h'
  have hread : ∀ k, t.lookup (samplePath drn k b) = fs.lookup (samplePath drn k b) := by
    intro k
    rw [samplePath_eq _ _ _ hk]
    exact ht _ (not_under _ _ _ _ _)
  have e0 : collateBin order drn drnout b t = Prog.bind (Prog.ofExcept (fnlist.mapM (readOf t)))
      (fun collector => match fnlist with
        | [] => Prog.pure ()
        | fn :: _ => npSave (pathJoin drnout (collatedName (basename fn))) collector.flatten) t := by
    have key : ∀ l : List Str, Prog.bind (Prog.each readSample l) (fun collector => match l with
        | [] => Prog.pure ()
        | fn :: _ => npSave (pathJoin drnout (collatedName (basename fn))) collector.flatten) t
        = Prog.bind (Prog.ofExcept (l.mapM (readOf t))) (fun collector => match l with
        | [] => Prog.pure ()
        | fn :: _ => npSave (pathJoin drnout (collatedName (basename fn))) collector.flatten) t := by
      intro l
      rw [Prog.bind, each_pure _ _ _ (fun a => readSample_eq a t)]
      rfl
    have := key fnlist
    rw [← this]
    unfold collateBin
    rw [Prog.bind, Prog.get]
    dsimp only
    rw [← hfn]
    simp only [List.nil_append]
    generalize fnlist = l
    cases l <;> rfl
  cases hm : fnlist.mapM (readOf t) with
  | error e =>
    left
    refine ⟨⟨e, by rw [e0, hm]; rfl⟩, fun hc => ?_⟩
    obtain ⟨rows, hrows⟩ : ∃ rows, fnlist.mapM (readOf t) = .ok rows := by
      have : ∀ p ∈ fnlist, ∃ rows, readOf t p = .ok rows := by
        intro p hp
        obtain ⟨k, rfl, h⟩ := (hmem p).1 hp
        obtain ⟨f, hf⟩ := Option.isSome_iff_exists.1 h
        obtain ⟨rows, h6, rfl⟩ := hc k b f hk hf
        exact ⟨rows, readOf_ok.2 ⟨h6, by rw [hread, hf]⟩⟩
      choose! g hg using this
      exact ⟨_, mapM_ok _ g _ hg⟩
    rw [hm] at hrows; cases hrows
  | ok tables =>
    right
    have hall := mapM_inv _ _ _ hm
    rw [← hks, List.forall₂_map_left_iff] at hall
    have hall' : List.Forall₂ (fun k rows => SixColumns rows ∧
        fs.lookup (samplePath drn k b) = some (.txt rows.flatten)) ks tables := by
      refine hall.imp fun k rows h => ?_
      have := readOf_ok.1 h
      rwa [hread] at this
    cases hl : fnlist with
    | nil =>
      left
      have hk0 : ks = [] := by rw [hl] at hks; simpa using hks
      refine ⟨⟨ks, hnd, hmk, .inl ⟨hk0, rfl⟩⟩, ?_⟩
      rw [e0, hm, hl]
      rfl
    | cons fn rest =>
      right
      have hk0 : ks ≠ [] := by rintro rfl; rw [hl] at hks; simp at hks
      refine ⟨tables.flatten, ⟨ks, hnd, hmk, .inr ⟨hk0, tables, hall', rfl⟩⟩, ?_⟩
      obtain ⟨k, rfl, -⟩ := (hmem fn).1 (by rw [hl]; simp)
      have hb : basename (samplePath drn k b) = subvolName (natStr k) b.1 b.2.1 b.2.2 := by
        have hs := slash_subvolName (natStr k) (natStr_notMem k (by decide)) b.1 b.2.1 hk
        rw [samplePath, pathJoin_eq _ hs, basename_dir _ hs]
      rw [e0, hm, hl]
      simp only [Prog.bind, Prog.ofExcept]
      rw [hb, collatedName_sample _ _ _ hk]
      simp [binPath]

/-! ## All bins -/

/-- The state while the bins are collated -/
def Collating (drn : Str) (fs : FS (SFile R)) (drnout : Str) (done : List Bin) (t : FS (SFile R)) : Prop :=
  (∀ p, ¬Under drnout p → t.lookup p = fs.lookup p) ∧
  (∀ b ∈ done, CollatedBin drn fs b (t.lookup (binPath drnout b))) ∧
  t.lookup drnout = some .dir ∧
  ∀ p, Under drnout p → p ≠ drnout → (∀ b ∈ done, p ≠ binPath drnout b) → t.lookup p = none

section
variable {drn : Str} (hd : '*' ∉ drn) {order : Str → List Str → List Str} (ho : Lists order)
  {fs : FS (SFile R)} (hn : WellNamed drn fs) (n_lgm n_t : ℕ) (istart iend : ℤ)
include hd ho hn

theorem collating_step (done : List Bin) (hdone : ∀ b ∈ done, Kind b.2.2) (b : Bin) (hk : Kind b.2.2)
    (t : FS (SFile R)) (hJ : Collating drn fs (get_output_drn drn n_lgm n_t istart iend) done t) :
    (∀ u ∈ (collateBin order drn (get_output_drn drn n_lgm n_t istart iend) b t).1,
      u.lookup (get_output_drn drn n_lgm n_t istart iend) = some .dir ∧
      ∀ p, ¬Under (get_output_drn drn n_lgm n_t istart iend) p → u.lookup p = fs.lookup p) ∧
    ((collateBin order drn (get_output_drn drn n_lgm n_t istart iend) b t).2.2 = .ok () →
      Collating drn fs (get_output_drn drn n_lgm n_t istart iend) (done ++ [b])
        (collateBin order drn (get_output_drn drn n_lgm n_t istart iend) b t).2.1) ∧
    (Complete drn fs →
      (collateBin order drn (get_output_drn drn n_lgm n_t istart iend) b t).2.2 = .ok ()) := by
  obtain ⟨h1, h2, h3, h4⟩ := hJ
  have hu := under_binPath drn n_lgm n_t istart iend b hk
  have hne := binPath_ne_out drn n_lgm n_t istart iend b hk
  rcases collateBin_spec hd ho hn n_lgm n_t istart iend h1 b hk with ⟨⟨e, he⟩, hc⟩ | ⟨hc, he⟩ | ⟨rows, hc, he⟩
  · rw [he]
    exact ⟨by simp, fun h => (by cases h), fun h => absurd h hc⟩
  · rw [he]
    refine ⟨by simp, fun _ => ⟨h1, ?_, h3, ?_⟩, fun _ => rfl⟩
    · intro b' hb'
      rcases List.mem_append.1 hb' with hb' | hb'
      · exact h2 b' hb'
      · rw [List.mem_singleton] at hb'
        subst hb'
        by_cases hex : ∃ b'' ∈ done, binPath (get_output_drn drn n_lgm n_t istart iend) b'
            = binPath (get_output_drn drn n_lgm n_t istart iend) b''
        · obtain ⟨b'', hb'', e⟩ := hex
          rw [e]
          exact collatedBin_same (hdone _ hb'') hk (binPath_same hk (hdone _ hb'') e).symm _ _ _ (h2 _ hb'')
        · push Not at hex
          rw [h4 _ hu hne hex]
          exact hc
    · intro p hp hp' hp''
      exact h4 p hp hp' fun b' hb' => hp'' b' (by simp [hb'])
  · rw [he]
    simp only [npSave, Prog.bind, Prog.act, List.cons_append, List.nil_append, List.mem_cons,
      List.not_mem_nil, or_false]
    refine ⟨?_, fun _ => ⟨?_, ?_, ?_, ?_⟩, fun _ => trivial⟩
    · rintro u (rfl | rfl)
      · refine ⟨by rw [set_lookup, if_neg (Ne.symm hne)]; exact h3, fun p hp => ?_⟩
        rw [set_lookup, if_neg (by rintro rfl; exact hp hu)]
        exact h1 p hp
      · refine ⟨by rw [set_lookup, if_neg (Ne.symm hne), set_lookup, if_neg (Ne.symm hne)]; exact h3,
          fun p hp => ?_⟩
        rw [set_lookup, if_neg (by rintro rfl; exact hp hu), set_lookup,
          if_neg (by rintro rfl; exact hp hu)]
        exact h1 p hp
    · intro p hp
      rw [set_lookup, if_neg (by rintro rfl; exact hp hu), set_lookup,
        if_neg (by rintro rfl; exact hp hu)]
      exact h1 p hp
    · intro b' hb'
      rw [set_lookup]
      by_cases e : binPath (get_output_drn drn n_lgm n_t istart iend) b'
          = binPath (get_output_drn drn n_lgm n_t istart iend) b
      · rw [if_pos e]
        have hk' : Kind b'.2.2 := by
          rcases List.mem_append.1 hb' with h | h
          · exact hdone _ h
          · rw [List.mem_singleton] at h; rw [h]; exact hk
        exact collatedBin_same hk hk' (binPath_same hk' hk e).symm _ _ _ hc
      · rw [if_neg e, set_lookup, if_neg e]
        refine h2 b' ?_
        rcases List.mem_append.1 hb' with h | h
        · exact h
        · rw [List.mem_singleton] at h; rw [h] at e; exact absurd rfl e
    · rw [set_lookup, if_neg (Ne.symm hne), set_lookup, if_neg (Ne.symm hne)]
      exact h3
    · intro p hp hp' hp''
      have e := hp'' b (by simp)
      rw [set_lookup, if_neg e, set_lookup, if_neg e]
      exact h4 p hp hp' fun b' hb' => hp'' b' (by simp [hb'])

theorem collating_all (l : List Bin) (hl : ∀ b ∈ l, Kind b.2.2) :
    Triple (Collating drn fs (get_output_drn drn n_lgm n_t istart iend) [])
      (fun t => t.lookup (get_output_drn drn n_lgm n_t istart iend) = some .dir ∧
        ∀ p, ¬Under (get_output_drn drn n_lgm n_t istart iend) p → t.lookup p = fs.lookup p)
      (Prog.each (collateBin order drn (get_output_drn drn n_lgm n_t istart iend)) l)
      (fun _ => Collating drn fs (get_output_drn drn n_lgm n_t istart iend) l) ∧
    (Complete drn fs → Runs (Collating drn fs (get_output_drn drn n_lgm n_t istart iend) [])
      (Prog.each (collateBin order drn (get_output_drn drn n_lgm n_t istart iend)) l)
      (fun _ => Collating drn fs (get_output_drn drn n_lgm n_t istart iend) l)) := by
  constructor
  · have := Triple.each (f := collateBin order drn (get_output_drn drn n_lgm n_t istart iend))
      (J := fun done _ t => (∀ b ∈ done, Kind b.2.2) ∧
        Collating drn fs (get_output_drn drn n_lgm n_t istart iend) done t)
      (Inv := fun t => t.lookup (get_output_drn drn n_lgm n_t istart iend) = some .dir ∧
        ∀ p, ¬Under (get_output_drn drn n_lgm n_t istart iend) p → t.lookup p = fs.lookup p) l
      (fun done bs b hb t ht => by
        obtain ⟨s1, s2, -⟩ := collating_step hd ho hn n_lgm n_t istart iend done ht.1 b (hl b hb) t ht.2
        refine ⟨s1, fun a ha => ⟨?_, s2 ha⟩⟩
        intro b' hb'
        rcases List.mem_append.1 hb' with h | h
        · exact ht.1 b' h
        · rw [List.mem_singleton] at h; rw [h]; exact hl b hb) [] []
    exact this.weaken (fun t ht => ⟨fun _ h => absurd h List.not_mem_nil, ht⟩) (fun _ => id)
      (fun _ t ht => by simpa using ht.2)
  · intro hc
    have := Runs.each (f := collateBin order drn (get_output_drn drn n_lgm n_t istart iend))
      (J := fun done _ t => (∀ b ∈ done, Kind b.2.2) ∧
        Collating drn fs (get_output_drn drn n_lgm n_t istart iend) done t) l [] []
      (fun pre b post cs hpre t ht => by
        have hb : Kind b.2.2 := hl b (by rw [hpre]; simp)
        obtain ⟨-, s2, s3⟩ := collating_step hd ho hn n_lgm n_t istart iend _ ht.1 b hb t ht.2
        refine ⟨(), s3 hc, ?_, s2 (s3 hc)⟩
        intro b' hb'
        rcases List.mem_append.1 hb' with h | h
        · exact ht.1 b' h
        · rw [List.mem_singleton] at h; rw [h]; exact hb)
    exact this.weaken (fun t ht => ⟨fun _ h => absurd h List.not_mem_nil, ht⟩)
      (fun _ t ht => by simpa using ht.2)

end

/-! ## Removing the samples -/

theorem digit_cases {c : Char} (h : c.isDigit = true) : ∃ d < 10, natStr d = [c] := by
  have h1 : 48 ≤ c.toNat ∧ c.toNat ≤ 57 := by
    simp only [Char.isDigit, Bool.and_eq_true, decide_eq_true_eq] at h
    exact ⟨h.1, h.2⟩
  refine ⟨c.toNat - 48, by omega, ?_⟩
  have hc : c = Char.ofNat c.toNat := (Char.ofNat_toNat c).symm
  rw [hc]
  generalize c.toNat = n at h1 ⊢
  obtain ⟨h1, h2⟩ := h1
  interval_cases n <;> decide

theorem natStr_one {d : ℕ} (h : d < 10) : ∃ c, natStr d = [c] ∧ c.isDigit = true := by
  refine ⟨Char.ofNat (48 + d), ?_, ?_⟩ <;> interval_cases d <;> decide

theorem digit_match {drn : Str} (hd : '*' ∉ drn) (d : ℕ) (p : Str) :
    globMatch (pathJoin drn ("subvol_".toList ++ natStr d ++ ['*'])) p = true ↔
      ∃ w, '/' ∉ w ∧ p = pathJoin drn ("subvol_".toList ++ natStr d ++ w) := by
  have hs : ∀ w, '/' ∉ w → '/' ∉ "subvol_".toList ++ natStr d ++ w := by
    intro w hw
    slits
    simp [natStr_notMem d (c := '/') (by decide), hw]
  have e : pathJoin drn ("subvol_".toList ++ natStr d ++ ['*'])
      = (dirPart drn ++ ("subvol_".toList ++ natStr d)) ++ '*' :: [] := by
    rw [pathJoin_eq _ (hs _ (by decide))]; simp only [List.append_assoc]
  rw [e, globMatch_one _ _ _ _ (by decide)]
  · constructor
    · rintro ⟨w, rfl, hw⟩
      exact ⟨w, hw, by rw [pathJoin_eq _ (hs _ hw)]; simp only [List.append_assoc, List.append_nil]⟩
    · rintro ⟨w, hw, rfl⟩
      exact ⟨w, by rw [pathJoin_eq _ (hs _ hw)]; simp only [List.append_assoc, List.append_nil], hw⟩
  · slits
    simp [dirPart_notMem hd (by decide), natStr_notMem d (c := '*') (by decide)]

theorem temporary_iff {drn : Str} (hd : '*' ∉ drn) (p : Str) : Temporary drn p ↔
    ∃ d < 10, globMatch (pathJoin drn ("subvol_".toList ++ natStr d ++ ['*'])) p = true := by
  constructor
  · rintro ⟨c, w, hc, hw, rfl⟩
    obtain ⟨d, hd', e⟩ := digit_cases hc
    exact ⟨d, hd', (digit_match hd d _).2 ⟨w, hw, by rw [e]; simp⟩⟩
  · rintro ⟨d, hd', h⟩
    obtain ⟨w, hw, rfl⟩ := (digit_match hd d p).1 h
    obtain ⟨c, e, hc⟩ := natStr_one hd'
    exact ⟨c, w, hc, hw, by rw [e]; simp⟩

theorem rmFiles_spec (ws : List Str) (t : FS (SFile R)) :
    (∃ b, (rmFiles ws t).2.2 = .ok b) ∧
    (∀ u, u ∈ (rmFiles ws t).1 ∨ u = (rmFiles ws t).2.1 → ∀ q, u.lookup q = t.lookup q ∨
      (q ∈ ws ∧ u.lookup q = none)) ∧
    (ws.Nodup → (∀ w ∈ ws, ∃ f, t.lookup w = some f ∧ f ≠ .dir) →
      (rmFiles ws t).2.2 = .ok true ∧ ∀ w ∈ ws, (rmFiles ws t).2.1.lookup w = none) := by
  induction ws generalizing t with
  | nil =>
    refine ⟨⟨true, rfl⟩, ?_, fun _ _ => ⟨rfl, by simp⟩⟩
    intro u hu q
    simp only [rmFiles, Prog.pure, List.not_mem_nil, false_or] at hu
    rw [hu]; exact .inl rfl
  | cons w ws ih =>
    by_cases hw : ∃ f, t.lookup w = some f ∧ f ≠ .dir
    · obtain ⟨f, hf, hdir⟩ := hw
      obtain ⟨h1, h2, h3⟩ := ih (FS.remove t w)
      have e : rmFiles (w :: ws) t = (FS.remove t w :: (rmFiles ws (FS.remove t w)).1,
          (rmFiles ws (FS.remove t w)).2.1, (rmFiles ws (FS.remove t w)).2.2) := by
        rw [rmFiles, Prog.bind, Prog.get]
        dsimp only
        rw [hf]
        cases f <;> first | exact absurd rfl hdir | rfl
      have hsub : ∀ (u : FS (SFile R)) (q : Str), (u.lookup q = (FS.remove t w).lookup q ∨ (q ∈ ws ∧ u.lookup q = none)) →
          (u.lookup q = t.lookup q ∨ (q ∈ w :: ws ∧ u.lookup q = none)) := by
        intro u q h
        rw [remove_lookup] at h
        by_cases hq : q = w
        · subst hq
          rw [if_pos rfl] at h
          exact .inr ⟨by simp, h.elim id And.right⟩
        · rw [if_neg hq] at h
          exact h.imp_right fun h => ⟨List.mem_cons_of_mem _ h.1, h.2⟩
      rw [e]
      refine ⟨h1, ?_, ?_⟩
      · intro u hu q
        simp only [List.mem_cons] at hu
        rcases hu with (rfl | hu) | hu
        · exact hsub _ _ (.inl rfl)
        · exact hsub _ _ (h2 u (.inl hu) q)
        · exact hsub _ _ (h2 u (.inr hu) q)
      · intro hnd hall
        rw [List.nodup_cons] at hnd
        obtain ⟨r1, r2⟩ := h3 hnd.2 fun v hv => by
          obtain ⟨g, hg, hg'⟩ := hall v (List.mem_cons_of_mem _ hv)
          exact ⟨g, by rw [remove_lookup, if_neg (by rintro rfl; exact hnd.1 hv), hg], hg'⟩
        refine ⟨r1, fun v hv => ?_⟩
        rcases List.mem_cons.1 hv with rfl | hv
        · rcases h2 _ (.inr rfl) v with h | h
          · simp only at h ⊢
            rw [h, remove_lookup, if_pos rfl]
          · exact h.2
        · exact r2 v hv
    · obtain ⟨h1, h2, h3⟩ := ih t
      have e : rmFiles (w :: ws) t = ((rmFiles ws t).1, (rmFiles ws t).2.1, .ok false) := by
        obtain ⟨b, hb⟩ := h1
        have e1 : Prog.bind (rmFiles ws) (fun _ => Prog.pure false) t
            = ((rmFiles ws t).1, (rmFiles ws t).2.1, .ok false) := by
          unfold Prog.bind
          rcases hr : rmFiles ws t with ⟨tr, u, r⟩
          rw [hr] at hb
          simp only at hb
          subst hb
          simp [Prog.pure]
        rw [← e1]
        rw [rmFiles, Prog.bind, Prog.get]
        dsimp only
        cases hl : t.lookup w with
        | none => simp
        | some f =>
          cases f with
          | dir => simp
          | _ => exact absurd ⟨_, hl, by simp⟩ hw
      rw [e]
      refine ⟨⟨false, rfl⟩, ?_, ?_⟩
      · intro u hu q
        exact (h2 u hu q).imp_right fun h => ⟨List.mem_cons_of_mem _ h.1, h.2⟩
      · intro _ hall
        exact absurd (hall w (by simp)) hw

/-- The samples are being removed: files are as in `fs`, or temporary and gone. -/
def Removing (drn : Str) (fs t : FS (SFile R)) : Prop :=
  ∀ q, t.lookup q = fs.lookup q ∨ (Temporary drn q ∧ t.lookup q = none)

theorem removeSamples_spec {drn : Str} (hd : '*' ∉ drn) {order : Str → List Str → List Str}
    (ho : Lists order) {fs t : FS (SFile R)} {d : ℕ} (hd10 : d < 10) (ht : Removing drn fs t) :
    (∀ u ∈ (removeSamples order drn d t).1, Removing drn fs u) ∧
    Removing drn fs (removeSamples order drn d t).2.1 ∧
    ((∀ q, fs.lookup q = some .dir → ¬Temporary drn q) →
      (removeSamples order drn d t).2.2 = .ok () ∧
      ∀ q, globMatch (pathJoin drn ("subvol_".toList ++ natStr d ++ ['*'])) q = true →
        (removeSamples order drn d t).2.1.lookup q = none) := by
  set pat := pathJoin drn ("subvol_".toList ++ natStr d ++ ['*']) with hpat
  obtain ⟨⟨b, hb⟩, h2, h3⟩ := rmFiles_spec (matching pat t) t
  have hrem : ∀ u, (u ∈ (rmFiles (matching pat t) t).1 ∨ u = (rmFiles (matching pat t) t).2.1) →
      Removing drn fs u := by
    intro u hu q
    rcases h2 u hu q with h | ⟨h, h'⟩
    · rw [h]; exact ht q
    · exact .inr ⟨(temporary_iff hd q).2 ⟨d, hd10, ((mem_matching _ _ _).1 h).2⟩, h'⟩
  by_cases hlen : 0 < (globFiles order pat t).length
  · have e : removeSamples order drn d t = Prog.bind (rmFiles (matching pat t)) (fun ok =>
        if ok then Prog.pure () else Prog.ofExcept (.error .calledProcess)) t := by
      unfold removeSamples
      rw [Prog.bind, Prog.get]
      dsimp only
      rw [← hpat, if_pos hlen]
      simp
    rcases hr : rmFiles (matching pat t) t with ⟨tr, u, r⟩
    rw [hr] at hb hrem h3
    simp only at hb hrem h3
    subst hb
    have e' : removeSamples order drn d t
        = (tr, u, if b then .ok () else .error .calledProcess) := by
      rw [e, Prog.bind, hr]
      cases b <;> simp [Prog.pure, Prog.ofExcept]
    rw [e']
    refine ⟨fun v hv => hrem v (.inl hv), hrem u (.inr rfl), fun hdir => ?_⟩
    obtain ⟨r1, r2⟩ := h3 (nodup_matching _ _) fun w hw => by
      obtain ⟨hw1, hw2⟩ := (mem_matching _ _ _).1 hw
      obtain ⟨f, hf⟩ := Option.isSome_iff_exists.1 hw1
      refine ⟨f, hf, ?_⟩
      rintro rfl
      rcases ht w with h | h
      · exact hdir w (by rw [← h, hf]) ((temporary_iff hd w).2 ⟨d, hd10, hw2⟩)
      · rw [hf] at h; cases h.2
    simp only [Except.ok.injEq] at r1
    rw [r1]
    refine ⟨rfl, fun q hq => ?_⟩
    by_cases hm : q ∈ matching pat t
    · exact r2 q hm
    · rcases h2 u (.inr (by rw [hr])) q with h | h
      · simp only
        rw [h]
        by_contra hc
        exact hm ((mem_matching _ _ _).2 ⟨Option.isSome_iff_ne_none.2 hc, hq⟩)
      · exact h.2
  · have e : removeSamples order drn d t = ([], t, .ok ()) := by
      unfold removeSamples
      rw [Prog.bind, Prog.get]
      dsimp only
      rw [← hpat, if_neg hlen]
      rfl
    rw [e]
    refine ⟨by simp, ht, fun _ => ⟨rfl, fun q hq => ?_⟩⟩
    have h0 : matching pat t = [] := by
      have := (ho pat (matching pat t)).length_eq
      unfold globFiles at hlen
      exact List.length_eq_zero_iff.1 (by omega)
    by_contra hc
    have := (mem_matching pat t q).2 ⟨Option.isSome_iff_ne_none.2 hc, hq⟩
    rw [h0] at this
    exact absurd this List.not_mem_nil

theorem removing_all {drn : Str} (hd : '*' ∉ drn) {order : Str → List Str → List Str}
    (ho : Lists order) (fs : FS (SFile R)) :
    Triple (fun t => t = fs) (Removing drn fs) (Prog.each (removeSamples order drn) (List.range 10))
      (fun _ => Removing drn fs) ∧
    ((∀ q, fs.lookup q = some .dir → ¬Temporary drn q) →
      Runs (fun t => t = fs) (Prog.each (removeSamples order drn) (List.range 10))
        (fun _ t => Removing drn fs t ∧ ∀ q, Temporary drn q → t.lookup q = none)) := by
  constructor
  · have := Triple.each (f := removeSamples order drn) (J := fun _ _ t => Removing drn fs t)
      (Inv := Removing drn fs) (List.range 10) (fun _ _ d hd10 t ht => by
        obtain ⟨h1, h2, -⟩ := removeSamples_spec hd ho (List.mem_range.1 hd10) ht
        exact ⟨h1, fun _ _ => h2⟩) [] []
    exact this.weaken (fun t ht => by rw [ht]; exact fun q => .inl rfl) (fun _ => id) (fun _ _ => id)
  · intro hdir
    have := Runs.each (f := removeSamples order drn) (J := fun done _ t => Removing drn fs t ∧
      ∀ d ∈ done, ∀ q, globMatch (pathJoin drn ("subvol_".toList ++ natStr d ++ ['*'])) q = true →
        t.lookup q = none) (List.range 10) [] [] (fun pre d post cs hpre t ht => by
        have hd10 : d < 10 := List.mem_range.1 (by rw [hpre]; simp)
        obtain ⟨h1, h2, h3⟩ := removeSamples_spec hd ho hd10 ht.1
        refine ⟨(), (h3 hdir).1, h2, fun d' hd' q hq => ?_⟩
        rcases List.mem_append.1 hd' with h | h
        · have hnone := ht.2 d' h q hq
          have hgone : ∀ u, Removing drn t u → u.lookup q = none := by
            intro u hu
            rcases hu q with h | h
            · rw [h, hnone]
            · exact h.2
          exact hgone _ (removeSamples_spec hd ho (fs := t) hd10 (fun q => .inl rfl)).2.1
        · rw [List.mem_singleton] at h
          subst h
          exact (h3 hdir).2 q hq)
    refine this.weaken (fun t ht => ⟨by rw [ht]; exact fun q => .inl rfl,
      fun _ h => absurd h List.not_mem_nil⟩) (fun _ t ht => ⟨ht.1, fun q hq => ?_⟩)
    obtain ⟨d, hd10, h⟩ := (temporary_iff hd q).1 hq
    exact ht.2 d (by simpa using hd10) q h

/-! ## The properties -/

theorem temporary_not_under {drn p : Str} (n_lgm n_t : ℕ) (istart iend : ℤ) (h : Temporary drn p) :
    ¬Under (get_output_drn drn n_lgm n_t istart iend) p := by
  obtain ⟨c, w, hc, hw, rfl⟩ := h
  have hs : '/' ∉ "subvol_".toList ++ c :: w := by
    slits
    have : c ≠ '/' := digit_ne hc (by decide)
    simp [hw, Ne.symm this]
  rw [pathJoin_eq _ hs, lit0]
  exact not_under _ _ _ _ _

theorem samplePath_temporary (drn : Str) (k : ℕ) (b : Bin) (hk : Kind b.2.2) :
    Temporary drn (samplePath drn k b) := by
  obtain ⟨c, w, e⟩ := List.exists_cons_of_ne_nil (natStr_ne_nil k)
  have hw : ∀ x ∈ c :: w, x.isDigit = true := fun x hx => natStr_digit (e ▸ hx)
  have hr := restName_notMem b.1 b.2.1 hk (c := '/') (by decide) (by decide) (by decide) (by decide)
    (by decide)
  refine ⟨c, w ++ '_' :: (restName b.1 b.2.1 b.2.2 ++ ['.', 't', 'x', 't']), hw c (by simp), ?_, ?_⟩
  · have : '/' ∉ w := fun h => absurd (hw _ (List.mem_cons_of_mem _ h)) (by decide)
    simp [this, hr]
  · rw [samplePath, subvolName_eq, e, lit0]; simp

/-- The parts of the whole -/
theorem collate_spec {drn : Str} (hd : '*' ∉ drn) {order : Str → List Str → List Str}
    (ho : Lists order) {fs : FS (SFile R)} (hn : WellNamed drn fs) (t0 : ℝ) (n_m n_t : ℕ) (istart iend : ℤ)
    (hnew : ∀ p, get_output_drn drn n_m n_t istart iend <+: p → fs.lookup p = none) :
    (∀ u ∈ (collate_subvolume_samples order drn t0 n_m n_t istart iend fs).1,
      (u.lookup (get_output_drn drn n_m n_t istart iend) = some .dir ∧
        ∀ p, ¬Under (get_output_drn drn n_m n_t istart iend) p → u.lookup p = fs.lookup p) ∨
      ∃ t, Collating drn fs (get_output_drn drn n_m n_t istart iend) (gridBins t0 n_m n_t) t ∧
        Removing drn t u) ∧
    (Complete drn fs → (∀ q, fs.lookup q = some .dir → ¬Temporary drn q) →
      (collate_subvolume_samples order drn t0 n_m n_t istart iend fs).2.2 = .ok () ∧
      ∃ t, Collating drn fs (get_output_drn drn n_m n_t istart iend) (gridBins t0 n_m n_t) t ∧
        Removing drn t (collate_subvolume_samples order drn t0 n_m n_t istart iend fs).2.1 ∧
        ∀ q, Temporary drn q →
          (collate_subvolume_samples order drn t0 n_m n_t istart iend fs).2.1.lookup q = none) := by
  set drnout := get_output_drn drn n_m n_t istart iend with hdrn
  have hkind : ∀ b ∈ gridBins t0 n_m n_t, Kind b.2.2 := fun b hb => ((mem_gridBins _ _ _ _).1 hb).2.2
  have hmk : makedirs drnout fs = ([Dict.set fs drnout .dir], Dict.set fs drnout .dir, .ok ()) := by
    unfold makedirs Prog.bind Prog.get
    dsimp only
    rw [hnew drnout (List.prefix_refl _)]
    rfl
  have hstart : Collating drn fs drnout [] (Dict.set fs drnout .dir) := by
    refine ⟨fun p hp => ?_, fun _ h => absurd h List.not_mem_nil, ?_, fun p hp hp' _ => ?_⟩
    · rw [set_lookup, if_neg (by rintro rfl; exact hp (List.prefix_refl _))]
    · rw [set_lookup, if_pos rfl]
    · rw [set_lookup, if_neg hp', hnew p hp]
  obtain ⟨c1, c2⟩ := collating_all hd ho hn n_m n_t istart iend (gridBins t0 n_m n_t) hkind
  rw [← hdrn] at c1 c2
  obtain ⟨a1, a2⟩ := c1 _ hstart
  rcases hr : Prog.each (collateBin order drn drnout) (gridBins t0 n_m n_t)
    (Dict.set fs drnout .dir) with ⟨tr, t, r⟩
  rw [hr] at a1 a2
  have hfirst : (Dict.set fs drnout .dir).lookup drnout = some .dir ∧
      ∀ p, ¬Under drnout p → (Dict.set fs drnout .dir).lookup p = fs.lookup p := ⟨hstart.2.2.1, hstart.1⟩
  cases r with
  | error e =>
    have e1 : collate_subvolume_samples order drn t0 n_m n_t istart iend fs
        = (Dict.set fs drnout .dir :: tr, t, .error e) := by
      unfold collate_subvolume_samples
      rw [← hdrn, Prog.bind, hmk]
      dsimp only
      rw [Prog.bind, hr]
      rfl
    rw [e1]
    refine ⟨fun u hu => ?_, fun hc _ => ?_⟩
    · rcases List.mem_cons.1 hu with rfl | hu
      · exact .inl hfirst
      · exact .inl (a1 u hu)
    · obtain ⟨a, ha, -⟩ := c2 hc _ hstart
      rw [hr] at ha; cases ha
  | ok us =>
    have hcoll := a2 us rfl
    obtain ⟨d1, d2⟩ := removing_all hd ho (drn := drn) t
    obtain ⟨b1, b2⟩ := d1 t rfl
    rcases hr' : Prog.each (removeSamples order drn) (List.range 10) t with ⟨tr', t', r'⟩
    rw [hr'] at b1 b2
    have e1 : collate_subvolume_samples order drn t0 n_m n_t istart iend fs
        = (Dict.set fs drnout .dir :: (tr ++ tr'), t', r'.map fun _ => ()) := by
      unfold collate_subvolume_samples
      rw [← hdrn, Prog.bind, hmk]
      dsimp only
      rw [Prog.bind, hr]
      dsimp only
      rw [Prog.bind, hr']
      cases r' <;> simp [Prog.pure, Except.map]
    rw [e1]
    refine ⟨fun u hu => ?_, fun hc hdir => ?_⟩
    · rcases List.mem_cons.1 hu with rfl | hu
      · exact .inl hfirst
      · rcases List.mem_append.1 hu with hu | hu
        · exact .inl (a1 u hu)
        · exact .inr ⟨t, hcoll, b1 u hu⟩
    · have hdir' : ∀ q, t.lookup q = some .dir → ¬Temporary drn q := by
        intro q hq hT
        rw [hcoll.1 q (temporary_not_under _ _ _ _ hT)] at hq
        exact hdir q hq hT
      obtain ⟨a, ha, h1, h2⟩ := d2 hdir' t rfl
      rw [hr'] at ha h1 h2
      simp only at ha h1 h2
      subst ha
      exact ⟨rfl, t, hcoll, h1, h2⟩

theorem collating_removing {drn : Str} {fs t u : FS (SFile R)} {n_m n_t : ℕ} {istart iend : ℤ}
    {done : List Bin} (hdone : ∀ b ∈ done, Kind b.2.2)
    (h : Collating drn fs (get_output_drn drn n_m n_t istart iend) done t) (hr : Removing drn t u) :
    (∀ b ∈ done, CollatedBin drn fs b (u.lookup (binPath (get_output_drn drn n_m n_t istart iend) b))) ∧
    (∀ p, ¬Temporary drn p → ¬get_output_drn drn n_m n_t istart iend <+: p →
      u.lookup p = fs.lookup p) ∧
    ∀ p, get_output_drn drn n_m n_t istart iend <+: p → (u.lookup p).isSome →
      p = get_output_drn drn n_m n_t istart iend ∨
      ∃ b ∈ done, p = binPath (get_output_drn drn n_m n_t istart iend) b := by
  refine ⟨fun b hb => ?_, fun p hp hp' => ?_, fun p hp hs => ?_⟩
  · rcases hr (binPath (get_output_drn drn n_m n_t istart iend) b) with e | e
    · rw [e]; exact h.2.1 b hb
    · exact absurd (under_binPath drn n_m n_t istart iend b (hdone b hb))
        (temporary_not_under _ _ _ _ e.1)
  · rcases hr p with e | e
    · rw [e]; exact h.1 p hp'
    · exact absurd e.1 hp
  · by_contra hc
    push Not at hc
    have h0 := h.2.2.2 p hp hc.1 hc.2
    rcases hr p with e | e
    · rw [e, h0] at hs; cases hs
    · rw [e.2] at hs; cases hs

/-- **C90** (success). If the sample files of the directory are complete and properly named and the
directory of the output is new, collating succeeds, in whatever order the files are listed: for each
bin of the grid the collated file holds the rows of all samples of that bin (there is no file if there
are no samples), and all temporary files are gone. There is nothing else in the directory of the output,
and every other file is as it was. -/
theorem C90_success {drn : Str} (hd : ShellSafe drn) {order : Str → List Str → List Str}
    (ho : Lists order) {fs : FS (SFile R)} (hn : WellNamed drn fs) (hc : Complete drn fs)
    (hdir : ∀ q, fs.lookup q = some .dir → ¬Temporary drn q) (t0 : ℝ) (n_m n_t : ℕ) (istart iend : ℤ)
    (hnew : ∀ p, get_output_drn drn n_m n_t istart iend <+: p → fs.lookup p = none) :
    ∃ tr t, collate_subvolume_samples order drn t0 n_m n_t istart iend fs = (tr, t, .ok ()) ∧
      (∀ b, InGrid t0 n_m n_t b →
        CollatedBin drn fs b (t.lookup (binPath (get_output_drn drn n_m n_t istart iend) b))) ∧
      (∀ p, Temporary drn p → t.lookup p = none) ∧
      (∀ p, get_output_drn drn n_m n_t istart iend <+: p → (t.lookup p).isSome →
        p = get_output_drn drn n_m n_t istart iend ∨
        ∃ b, InGrid t0 n_m n_t b ∧ p = binPath (get_output_drn drn n_m n_t istart iend) b) ∧
      ∀ p, ¬Temporary drn p → ¬get_output_drn drn n_m n_t istart iend <+: p →
        t.lookup p = fs.lookup p := by
  obtain ⟨-, h⟩ := collate_spec (hd.notMem (by decide) (by decide)) ho hn t0 n_m n_t istart iend hnew
  obtain ⟨h1, t, h2, h3, h4⟩ := h hc hdir
  have hk : ∀ b ∈ gridBins t0 n_m n_t, Kind b.2.2 := fun b hb => ((mem_gridBins _ _ _ _).1 hb).2.2
  obtain ⟨h5, h6, h7⟩ := collating_removing hk h2 h3
  refine ⟨_, _, by rw [← h1], fun b hb => h5 b ((mem_gridBins _ _ _ _).2 hb), h4, fun p hp hs => ?_, h6⟩
  exact (h7 p hp hs).imp_right fun ⟨b, hb, e⟩ => ⟨b, (mem_gridBins _ _ _ _).1 hb, e⟩

/-- **C90** (crash safety). Wherever collating is killed, or if it raises: either every file outside
the directory of the output is still as it was, or the collated files of all bins of the grid are
there and complete. In both cases only temporary files and files of the output have changed. -/
theorem C90_crash_safety {drn : Str} (hd : ShellSafe drn) {order : Str → List Str → List Str}
    (ho : Lists order) {fs : FS (SFile R)} (hn : WellNamed drn fs) (t0 : ℝ) (n_m n_t : ℕ)
    (istart iend : ℤ) (hnew : ∀ p, get_output_drn drn n_m n_t istart iend <+: p → fs.lookup p = none)
    (u : FS (SFile R)) (hu : u ∈ (collate_subvolume_samples order drn t0 n_m n_t istart iend fs).1) :
    ((∀ p, ¬get_output_drn drn n_m n_t istart iend <+: p → u.lookup p = fs.lookup p) ∨
      ∀ b, InGrid t0 n_m n_t b →
        CollatedBin drn fs b (u.lookup (binPath (get_output_drn drn n_m n_t istart iend) b))) ∧
    ∀ p, ¬Temporary drn p → ¬get_output_drn drn n_m n_t istart iend <+: p →
      u.lookup p = fs.lookup p := by
  obtain ⟨h, -⟩ := collate_spec (hd.notMem (by decide) (by decide)) ho hn t0 n_m n_t istart iend hnew
  have hk : ∀ b ∈ gridBins t0 n_m n_t, Kind b.2.2 := fun b hb => ((mem_gridBins _ _ _ _).1 hb).2.2
  rcases h u hu with ⟨-, h⟩ | ⟨t, h2, h3⟩
  · exact ⟨.inl h, fun p _ hp => h p hp⟩
  · obtain ⟨h5, h6, -⟩ := collating_removing hk h2 h3
    exact ⟨.inr fun b hb => h5 b ((mem_gridBins _ _ _ _).2 hb), h6⟩

/-- **C91** (a run cannot be repeated). If the directory of the output exists, as it does after a run
that was killed, collating raises and changes nothing, whatever samples there are. -/
theorem C91_output_exists (order : Str → List Str → List Str) (drn : Str) (t0 : ℝ) (n_m n_t : ℕ)
    (istart iend : ℤ) (fs : FS (SFile R))
    (h : (fs.lookup (get_output_drn drn n_m n_t istart iend)).isSome) :
    collate_subvolume_samples order drn t0 n_m n_t istart iend fs = ([], fs, .error .osError) := by
  obtain ⟨f, hf⟩ := Option.isSome_iff_exists.1 h
  unfold collate_subvolume_samples makedirs
  simp only [Prog.bind, Prog.get, hf, Prog.ofExcept, List.nil_append]

theorem out_not_temporary (drn : Str) (n_m n_t : ℕ) (istart iend : ℤ) :
    ¬Temporary drn (get_output_drn drn n_m n_t istart iend) :=
  fun h => temporary_not_under n_m n_t istart iend h (List.prefix_refl _)

/-- **C91** (after a crash). Wherever a run of collating is killed, running it again raises and changes
nothing. -/
theorem C91_rerun_after_crash {drn : Str} (hd : ShellSafe drn) {order : Str → List Str → List Str}
    (ho : Lists order) {fs : FS (SFile R)} (hn : WellNamed drn fs) (t0 : ℝ) (n_m n_t : ℕ)
    (istart iend : ℤ) (hnew : ∀ p, get_output_drn drn n_m n_t istart iend <+: p → fs.lookup p = none)
    (u : FS (SFile R)) (hu : u ∈ (collate_subvolume_samples order drn t0 n_m n_t istart iend fs).1) :
    collate_subvolume_samples order drn t0 n_m n_t istart iend u = ([], u, .error .osError) := by
  obtain ⟨h, -⟩ := collate_spec (hd.notMem (by decide) (by decide)) ho hn t0 n_m n_t istart iend hnew
  apply C91_output_exists
  rcases h u hu with ⟨h, -⟩ | ⟨t, h2, h3⟩
  · rw [h]; rfl
  · rcases h3 (get_output_drn drn n_m n_t istart iend) with h | h
    · rw [h, h2.2.2.1]; rfl
    · exact absurd h.1 (out_not_temporary _ _ _ _ _)

/-- **C91** (samples of other bins are lost). After a run that succeeds, the samples of a bin whose name
is not that of a bin of the grid are gone, and there is no collated file of that bin. The grid of the
samples ends at the last time of the simulation file, that of the collation at the constant 13.7976158,
so the two differ when these differ to two decimals. -/
theorem C91_off_grid_lost {drn : Str} (hd : ShellSafe drn) {order : Str → List Str → List Str}
    (ho : Lists order) {fs : FS (SFile R)} (hn : WellNamed drn fs) (hc : Complete drn fs)
    (hdir : ∀ q, fs.lookup q = some .dir → ¬Temporary drn q) (t0 : ℝ) (n_m n_t : ℕ) (istart iend : ℤ)
    (hnew : ∀ p, get_output_drn drn n_m n_t istart iend <+: p → fs.lookup p = none)
    (b : Bin) (hk : Kind b.2.2)
    (hb : ∀ b', InGrid t0 n_m n_t b' → sampleName b'.1 b'.2.1 b'.2.2 ≠ sampleName b.1 b.2.1 b.2.2) :
    ∃ tr t, collate_subvolume_samples order drn t0 n_m n_t istart iend fs = (tr, t, .ok ()) ∧
      (∀ k, t.lookup (samplePath drn k b) = none) ∧
      t.lookup (binPath (get_output_drn drn n_m n_t istart iend) b) = none := by
  obtain ⟨tr, t, h1, -, h3, h4, -⟩ := C90_success hd ho hn hc hdir t0 n_m n_t istart iend hnew
  refine ⟨tr, t, h1, fun k => h3 _ (samplePath_temporary drn k b hk), ?_⟩
  by_contra hne
  rcases h4 _ (under_binPath drn n_m n_t istart iend b hk) (Option.isSome_iff_ne_none.2 hne) with h | ⟨b', hb', h⟩
  · exact binPath_ne_out drn n_m n_t istart iend b hk h
  · refine hb b' hb' ?_
    rw [sampleName_eq, sampleName_eq, binPath_same hk hb'.2.2 h]

/-- **C91** (other files are deleted). Any other file of the directory whose name begins with `subvol_`
and a digit is deleted too, such as the files of fits `subvol_<number>_diffmah_fits.h5` the samples are
made from. -/
theorem C91_deletes_other_files {drn : Str} (hd : ShellSafe drn) {order : Str → List Str → List Str}
    (ho : Lists order) {fs : FS (SFile R)} (hn : WellNamed drn fs) (hc : Complete drn fs)
    (hdir : ∀ q, fs.lookup q = some .dir → ¬Temporary drn q) (t0 : ℝ) (n_m n_t : ℕ) (istart iend : ℤ)
    (hnew : ∀ p, get_output_drn drn n_m n_t istart iend <+: p → fs.lookup p = none) (width k : ℕ) :
    ∃ tr t, collate_subvolume_samples order drn t0 n_m n_t istart iend fs = (tr, t, .ok ()) ∧
      t.lookup (pathJoin drn ("subvol_".toList ++ zpad width k ++ "_diffmah_fits.h5".toList)) = none := by
  obtain ⟨tr, t, h1, -, h3, -⟩ := C90_success hd ho hn hc hdir t0 n_m n_t istart iend hnew
  refine ⟨tr, t, h1, h3 _ ?_⟩
  obtain ⟨c, w, e⟩ := List.exists_cons_of_ne_nil (zpad_ne_nil width k)
  have hw : ∀ x ∈ c :: w, x.isDigit = true := fun x hx => zpad_digit (e ▸ hx)
  refine ⟨c, w ++ "_diffmah_fits.h5".toList, hw c (by simp), ?_, by rw [e]; simp⟩
  rw [List.mem_append, not_or]
  exact ⟨fun h => absurd (hw _ (List.mem_cons_of_mem _ h)) (by decide), by decide⟩

/-- **C91** (what is removed has been collated). If all temporary files are samples of bins of the grid,
a run that succeeds loses nothing: each removed file is a sample whose rows are all, together and in
order, in the collated file of its bin. -/
theorem C91_nothing_lost_partial {drn : Str} (hd : ShellSafe drn) {order : Str → List Str → List Str}
    (ho : Lists order) {fs : FS (SFile R)} (hn : WellNamed drn fs) (hc : Complete drn fs)
    (t0 : ℝ) (n_m n_t : ℕ) (istart iend : ℤ)
    (hnew : ∀ p, get_output_drn drn n_m n_t istart iend <+: p → fs.lookup p = none)
    (hgrid : ∀ p, Temporary drn p → (fs.lookup p).isSome →
      ∃ k b, InGrid t0 n_m n_t b ∧ p = samplePath drn k b) :
    ∃ tr t, collate_subvolume_samples order drn t0 n_m n_t istart iend fs = (tr, t, .ok ()) ∧
      ∀ p f, fs.lookup p = some f → t.lookup p = some f ∨
        ∃ b rows all, InGrid t0 n_m n_t b ∧ f = .txt rows.flatten ∧ SixColumns rows ∧
          t.lookup (binPath (get_output_drn drn n_m n_t istart iend) b) = some (.npy all) ∧
          rows <:+: all := by
  have hdir : ∀ q, fs.lookup q = some .dir → ¬Temporary drn q := by
    intro q hq hT
    obtain ⟨k, b, hb, rfl⟩ := hgrid q hT (by rw [hq]; rfl)
    obtain ⟨rows, -, h⟩ := hc k b _ hb.2.2 hq
    cases h
  obtain ⟨tr, t, h1, h2, h3, -, h5⟩ := C90_success hd ho hn hc hdir t0 n_m n_t istart iend hnew
  refine ⟨tr, t, h1, fun p f hf => ?_⟩
  by_cases hT : Temporary drn p
  · right
    obtain ⟨k, b, hb, rfl⟩ := hgrid p hT (by rw [hf]; rfl)
    obtain ⟨ks, -, hks, h | ⟨-, tables, hall, ht⟩⟩ := h2 b hb
    · have := (hks k).2 (by rw [hf]; rfl)
      rw [h.1] at this
      exact absurd this List.not_mem_nil
    · obtain ⟨i, hi, e⟩ := List.getElem_of_mem ((hks k).2 (by rw [hf]; rfl))
      have hi' : i < tables.length := hall.length_eq ▸ hi
      obtain ⟨h6, hl⟩ := hall.get hi hi'
      simp only [List.get_eq_getElem, e] at h6 hl
      refine ⟨b, tables[i], _, hb, by rw [hf] at hl; exact Option.some.inj hl, h6, ht, ?_⟩
      have : tables = tables.take i ++ tables[i] :: tables.drop (i + 1) := by simp
      exact ⟨(tables.take i).flatten, (tables.drop (i + 1)).flatten, by
        rw [List.append_assoc, ← List.flatten_cons, ← List.flatten_append, ← this]⟩
  · left
    rw [h5 p hT fun hu => ?_, hf]
    rw [hnew p hu] at hf; cases hf

/-! ## Witnesses -/

/-- A directory with one sample: one halo of subvolume 3, in the bin at mass 11 and time 2 -/
noncomputable def oneSample (b : Bin) : FS (SFile ℕ) :=
  [(samplePath ['d'] 3 b, .txt [1, 2, 3, 4, 5, 6])]

theorem oneSample_lookup (b : Bin) (p : Str) : (oneSample b).lookup p
    = if p = samplePath ['d'] 3 b then some (.txt [1, 2, 3, 4, 5, 6]) else none := by
  unfold oneSample
  rw [List.lookup_cons]
  by_cases h : p = samplePath ['d'] 3 b
  · simp [h]
  · have : (p == samplePath ['d'] 3 b) = false := by simpa using h
    simp [this, h]

theorem oneSample_hyps (b : Bin) (hb : Kind b.2.2) : WellNamed ['d'] (oneSample b) ∧
    Complete ['d'] (oneSample b) ∧ (∀ q, (oneSample b).lookup q = some .dir → ¬Temporary ['d'] q) ∧
    ∀ n_m n_t istart iend p, get_output_drn ['d'] n_m n_t istart iend <+: p →
      (oneSample b).lookup p = none := by
  refine ⟨fun p hp _ => ?_, fun k b' f hk hf => ?_, fun q hq => ?_, fun n_m n_t istart iend p hp => ?_⟩
  · rw [oneSample_lookup] at hp
    split at hp
    · exact ⟨3, b, hb, by assumption⟩
    · cases hp
  · rw [oneSample_lookup] at hf
    split at hf
    · exact ⟨[[1, 2, 3, 4, 5, 6]], by simp [SixColumns], (Option.some.inj hf).symm⟩
    · cases hf
  · rw [oneSample_lookup] at hq
    split at hq
    · cases Option.some.inj hq
    · cases hq
  · rw [oneSample_lookup, if_neg]
    rintro rfl
    exact temporary_not_under n_m n_t istart iend (samplePath_temporary _ _ b hb) hp

theorem safe_d : ShellSafe ['d'] := by unfold ShellSafe; decide

theorem inGrid_one (t0 : ℝ) : InGrid t0 1 1 (11, 2, "cens".toList) := by
  refine ⟨?_, ?_, .inl rfl⟩
  · unfold get_t_obs_table; norm_num
  · unfold lgmarr_table_from_t_obs_kern; norm_num

example : ∃ tr t, collate_subvolume_samples (fun _ l => l) ['d'] 13 1 1 0 576
    (oneSample (11, 2, "cens".toList)) = (tr, t, .ok ()) ∧
    t.lookup (binPath (get_output_drn ['d'] 1 1 0 576) (11, 2, "cens".toList))
      = some (.npy [[1, 2, 3, 4, 5, 6]]) := by
  have hk : Kind "cens".toList := .inl rfl
  obtain ⟨h1, h2, h3, h4⟩ := oneSample_hyps (11, 2, "cens".toList) hk
  obtain ⟨tr, t, e, hc, -⟩ := C90_success safe_d (order := fun _ l => l) (fun _ l => .refl l) h1 h2 h3
    13 1 1 0 576 (h4 _ _ _ _)
  refine ⟨tr, t, e, ?_⟩
  obtain ⟨ks, hnd, hks, h⟩ := hc _ (inGrid_one 13)
  have h3 : ∀ k, k ∈ ks ↔ k = 3 := by
    intro k
    rw [hks, oneSample_lookup]
    constructor
    · intro h
      split at h
      · rename_i h'; exact samplePath_injective (b := (11, 2, "cens".toList)) hk h'
      · cases h
    · rintro rfl; simp
  have : ks = [3] := by
    have hp : ks.Perm [3] := (List.perm_ext_iff_of_nodup hnd (by simp)).2 fun k => by rw [h3]; simp
    exact List.perm_singleton.1 hp
  subst this
  rcases h with h | ⟨-, tables, hall, ht⟩
  · exact absurd h.1 (by simp)
  · rcases hall with _ | ⟨⟨h6, hl⟩, hrest⟩
    cases hrest
    rename_i rows
    rw [oneSample_lookup, if_pos rfl] at hl
    have e1 : [1, 2, 3, 4, 5, 6] = rows.flatten := by simpa using hl
    have h7 := (reshape_six (x := rows.flatten)).2 ⟨h6, rfl⟩
    have h8 : reshapeRows NUM_DIFFMAH_PARAMS ([1, 2, 3, 4, 5, 6] : List ℕ) = .ok [[1, 2, 3, 4, 5, 6]] :=
      reshape_six.2 ⟨by simp [SixColumns], rfl⟩
    rw [← e1, h8] at h7
    rw [ht, ← Except.ok.inj h7]
    simp

example (u : FS (SFile ℕ)) (hu : u ∈ (collate_subvolume_samples (fun _ l => l.reverse) ['d'] 13 1 1 0 576
    (oneSample (11, 2, "cens".toList))).1) :
    collate_subvolume_samples (fun _ l => l.reverse) ['d'] 13 1 1 0 576 u = ([], u, .error .osError) := by
  obtain ⟨h1, -, -, h4⟩ := oneSample_hyps (11, 2, "cens".toList) (.inl rfl)
  exact C91_rerun_after_crash safe_d (order := fun _ l => l.reverse) (fun _ l => l.reverse_perm) h1
    13 1 1 0 576 (h4 _ _ _ _) u hu

example : collate_subvolume_samples (R := ℕ) (fun _ l => l) ['d'] 13 1 1 0 576
    [(get_output_drn ['d'] 1 1 0 576, .dir)]
    = ([], [(get_output_drn ['d'] 1 1 0 576, .dir)], .error .osError) := by
  apply C91_output_exists
  simp

theorem fmt2f_nat (n : ℕ) : fmt2f (n : ℝ) = natStr n ++ ['.', '0', '0'] := by
  have h : roundHalfEven (100 * |(n : ℝ)|) = ((100 * n : ℕ) : ℤ) := by
    rw [abs_of_nonneg (by positivity)]
    have : (100 * (n : ℝ)) = (((100 * n : ℕ) : ℤ) : ℝ) := by push_cast; ring
    rw [this, roundHalfEven_int]
  unfold fmt2f
  simp only [h]
  rw [if_neg (by simp), Int.toNat_natCast, Nat.mul_div_cancel_left _ (by norm_num), Nat.mul_mod_right]
  rfl

-- a sample at mass 12 is deleted and not collated
example : ∃ tr t, collate_subvolume_samples (fun _ l => l) ['d'] 13 1 1 0 576
    (oneSample (12, 2, "cens".toList)) = (tr, t, .ok ()) ∧
    (∀ k, t.lookup (samplePath ['d'] k (12, 2, "cens".toList)) = none) ∧
    t.lookup (binPath (get_output_drn ['d'] 1 1 0 576) (12, 2, "cens".toList)) = none := by
  obtain ⟨h1, h2, h3, h4⟩ := oneSample_hyps (12, 2, "cens".toList) (.inl rfl)
  refine C91_off_grid_lost safe_d (order := fun _ l => l) (fun _ l => .refl l) h1 h2 h3 13 1 1 0 576
    (h4 _ _ _ _) (12, 2, "cens".toList) (.inl rfl) ?_
  rintro ⟨m, t, cs⟩ ⟨ht, hm, hk⟩ h
  have hm' : m = ((11 : ℕ) : ℝ) := by
    unfold lgmarr_table_from_t_obs_kern at hm; simpa using hm
  have h12 : (12 : ℝ) = ((12 : ℕ) : ℝ) := by norm_num
  subst hm'
  dsimp only at h
  rw [h12] at h
  unfold sampleName at h
  rw [fmt2f_nat, fmt2f_nat] at h
  have e1 : natStr 11 = ['1', '1'] := by decide
  have e2 : natStr 12 = ['1', '2'] := by decide
  rw [e1, e2] at h
  simp only [slit1, slit2, slit3, slit5, slit6] at h
  simp at h

example : ∃ tr t, collate_subvolume_samples (fun _ l => l) ['d'] 13 1 1 0 576
    (oneSample (11, 2, "cens".toList)) = (tr, t, .ok ()) ∧
    t.lookup (pathJoin ['d'] ("subvol_".toList ++ zpad 3 7 ++ "_diffmah_fits.h5".toList)) = none := by
  obtain ⟨h1, h2, h3, h4⟩ := oneSample_hyps (11, 2, "cens".toList) (.inl rfl)
  exact C91_deletes_other_files safe_d (order := fun _ l => l) (fun _ l => .refl l) h1 h2 h3 13 1 1 0 576
    (h4 _ _ _ _) 3 7

example : ∃ tr t, collate_subvolume_samples (fun _ l => l) ['d'] 13 1 1 0 576
    (oneSample (11, 2, "cens".toList)) = (tr, t, .ok ()) ∧
      ∀ p f, (oneSample (11, 2, "cens".toList)).lookup p = some f → t.lookup p = some f ∨
        ∃ b rows all, InGrid 13 1 1 b ∧ f = .txt rows.flatten ∧ SixColumns rows ∧
          t.lookup (binPath (get_output_drn ['d'] 1 1 0 576) b) = some (.npy all) ∧ rows <:+: all := by
  obtain ⟨h1, h2, h3, h4⟩ := oneSample_hyps (11, 2, "cens".toList) (.inl rfl)
  refine C91_nothing_lost_partial safe_d (order := fun _ l => l) (fun _ l => .refl l) h1 h2 13 1 1 0 576
    (h4 _ _ _ _) fun p _ hp => ?_
  rw [oneSample_lookup] at hp
  split at hp
  · exact ⟨3, _, inGrid_one 13, by assumption⟩
  · cases hp

end Diffmah.Samples

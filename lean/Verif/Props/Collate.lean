import Verif.Props.Unchunk

/-!
# The files of the ranks (C85, C86)
-/

namespace Diffmah.Scripts

open Diffmah.Text Diffmah.IO
open Diffmah.Fit (FitResult)

theorem ShellSafe.notMem {s : Str} (h : ShellSafe s) {c : Char} (h1 : c.isAlphanum = false)
    (h2 : c ∉ ['/', '.', '_', '-']) : c ∉ s := by
  intro hc
  rcases h.2 c hc with h | h
  · rw [h1] at h; cases h
  · exact h2 h

/-! ## Reading the rank files -/

theorem concat_from_d1 (l : List StrArr) (a : List Str) :
    (∃ e, l.foldlM concat2 (.d1 a) = .error e) ∨ ∃ b, l.foldlM concat2 (.d1 a) = .ok (.d1 b) := by
  induction l generalizing a with
  | nil => exact .inr ⟨a, rfl⟩
  | cons x l ih =>
    rw [List.foldlM_cons]
    cases x with
    | d1 b => exact ih (a ++ b)
    | d2 n rows => exact .inl ⟨.valueError, rfl⟩

/-- Too few haloes on some rank, or no ranks: collating fails. -/
theorem collate_few (shares : List (List FitResult)) (h : shares = [] ∨ ∃ s ∈ shares, s.length ≤ 1) :
    ∃ e, collate (shares.map rankFile) = .error e := by
  set g : List FitResult → StrArr := fun fs =>
    if 2 ≤ fs.length then .d2 8 (fs.map fun r => outFields r none)
    else .d1 (fs.map fun r => outFields r none).flatten with hg
  have hm : (shares.map rankFile).mapM genfromtxt = .ok (shares.map g) := by
    rw [List.mapM_map]
    refine mapM_ok _ _ _ fun t _ => ?_
    simp only [Function.comp, hg]
    split
    · rename_i h; exact genfromtxt_many _ h
    · rename_i h; exact genfromtxt_few _ (by omega)
  unfold collate
  simp only [bind, Except.bind, hm]
  cases shares with
  | nil => exact ⟨.valueError, rfl⟩
  | cons s ss =>
    obtain ⟨s', hs', h1⟩ : ∃ s' ∈ s :: ss, s'.length ≤ 1 := by
      rcases h with h | h
      · cases h
      · exact h
    simp only [List.map_cons, concatenate]
    by_cases h2 : 2 ≤ s.length
    · have hmem : s' ∈ ss := by
        rcases List.mem_cons.1 hs' with h | h
        · subst h; omega
        · exact h
      rw [concat_mixed]
      · exact ⟨_, rfl⟩
      · exact ⟨8, s.map fun r => outFields r none, by simp only [hg]; rw [if_pos h2]⟩
      · refine ⟨(s'.map fun r => outFields r none).flatten, List.mem_map.2 ⟨s', hmem, ?_⟩⟩
        simp only [hg]; rw [if_neg (by omega)]
    · have e : g s = .d1 (s.map fun r => outFields r none).flatten := by
        simp only [hg]; rw [if_neg h2]
      rw [e]
      rcases concat_from_d1 (ss.map g) (s.map fun r => outFields r none).flatten with ⟨e, he⟩ | ⟨b, hb⟩
      · rw [he]; exact ⟨e, rfl⟩
      · rw [hb]; exact ⟨.indexError, rfl⟩

/-- At least two haloes on every rank: the collated columns are those of all haloes, in the order of
the ranks. -/
theorem collate_many (shares : List (List FitResult)) (h0 : shares ≠ []) (h : ∀ s ∈ shares, 2 ≤ s.length) :
    collate (shares.map rankFile) = .ok (some (resultColumns (shares.flatten.map readResult))) := by
  have hm : (shares.map rankFile).mapM genfromtxt
      = .ok ((shares.map fun fs => fs.map fun r => outFields r none).map (StrArr.d2 8)) := by
    rw [List.mapM_map, List.map_map]
    exact mapM_ok _ _ _ fun s hs => genfromtxt_many _ (h s hs)
  obtain ⟨s, ss, rfl⟩ := List.exists_cons_of_ne_nil h0
  have hc : concatenate (((s :: ss).map fun fs => fs.map fun r => outFields r none).map
      (StrArr.d2 8)) = .ok (.d2 8 ((s :: ss).flatten.map fun r => outFields r none)) := by
    rw [List.map_cons, List.map_cons, concatenate, concat_d2]
    simp [List.map_flatten]
  unfold collate
  simp only [bind, Except.bind, hm, hc]
  apply C43_eight_columns_partial
  rw [List.forall₂_map_left_iff, List.forall₂_map_right_iff]
  exact List.forall₂_same.2 fun r _ => rowIs_outline r

/-! ## Rank 0 after the barrier -/

theorem readRanks_ok {outdir : Str} {n : ℕ} {s : ℤ} {c nranks : ℕ} {files : ℕ → Str}
    {fs : FS OutFile}
    (hfs : ∀ r < nranks, fs.lookup (rankOutname outdir n s c r) = some (.text (files r))) :
    Prog.each readRankFile ((List.range nranks).map (rankOutname outdir n s c)) fs
      = ([], fs, ((List.range nranks).map files).mapM genfromtxt) := by
  have key : ∀ l : List ℕ, (∀ r ∈ l, r < nranks) →
      Prog.each readRankFile (l.map (rankOutname outdir n s c)) fs
        = ([], fs, (l.map files).mapM genfromtxt) := by
    intro l
    induction l with
    | nil => intro _; rfl
    | cons r l ih =>
      intro hl
      have hr : readRankFile (rankOutname outdir n s c r) fs = ([], fs, genfromtxt (files r)) := by
        unfold readRankFile Prog.bind Prog.get
        simp only [hfs r (hl r (by simp))]
        rfl
      rw [List.map_cons, List.map_cons, List.mapM_cons, Prog.each, Prog.bind, hr]
      cases genfromtxt (files r) with
      | error e => rfl
      | ok a =>
        simp only [Prog.bind, ih fun r h => hl r (by simp [h]), List.nil_append, bind, Except.bind]
        cases (l.map files).mapM genfromtxt <;> rfl
  exact key _ fun r hr => List.mem_range.1 hr

theorem collateRanks_eq {outdir : Str} {n : ℕ} {s : ℤ} {c nranks : ℕ} {files : ℕ → Str}
    {fs : FS OutFile}
    (hfs : ∀ r < nranks, fs.lookup (rankOutname outdir n s c r) = some (.text (files r))) :
    collateRanks outdir n s c nranks fs = match collate ((List.range nranks).map files) with
      | .error e => ([], fs, .error e)
      | .ok none => systemRm (cleanupPattern outdir n s c) fs
      | .ok (some h) => Prog.bind (Prog.act fun fs => Dict.set fs (collatedPath outdir n s c) .torn)
          (fun _ => Prog.bind (Prog.act fun fs => Dict.set fs (collatedPath outdir n s c) (.h5 h))
          fun _ => systemRm (cleanupPattern outdir n s c)) fs := by
  unfold collateRanks
  rw [Prog.bind, readRanks_ok hfs]
  unfold collate
  simp only [bind, Except.bind]
  cases ((List.range nranks).map files).mapM genfromtxt with
  | error e => rfl
  | ok arrs =>
    simp only [Prog.bind, Prog.ofExcept, List.nil_append]
    cases concatenate arrs with
    | error e => rfl
    | ok arr =>
      simp only [writeCollated, Prog.bind, Prog.ofExcept, List.nil_append]
      cases write_collated_data arr with
      | error e => rfl
      | ok r =>
        cases r with
        | none => simp [Prog.pure]
        | some h => simp [Prog.act, Prog.bind]

theorem rmWords_spec {F : Type} (ws : List Str) (fs t : FS F) (pre : List Str)
    (ht : ∀ q, t.lookup q = if q ∈ pre then none else fs.lookup q) :
    (∃ b, (rmWords ws t).2.2 = .ok b) ∧
      (∀ q, (rmWords ws t).2.1.lookup q = if q ∈ pre ++ ws then none else fs.lookup q) ∧
      ∀ u ∈ (rmWords ws t).1, ∃ del, del ⊆ pre ++ ws ∧
        ∀ q, u.lookup q = if q ∈ del then none else fs.lookup q := by
  induction ws generalizing t pre with
  | nil => exact ⟨⟨true, rfl⟩, by simpa [rmWords, Prog.pure] using ht, by simp [rmWords, Prog.pure]⟩
  | cons w ws ih =>
    have hrem : ∀ q, (FS.remove t w).lookup q = if q ∈ pre ++ [w] then none else fs.lookup q := by
      intro q
      rw [remove_lookup, ht]
      by_cases hq : q = w
      · simp [hq]
      · simp [hq]
    by_cases hw : (t.lookup w).isSome
    · obtain ⟨h1, h2, h3⟩ := ih (FS.remove t w) (pre ++ [w]) hrem
      have e : rmWords (w :: ws) t = (FS.remove t w :: (rmWords ws (FS.remove t w)).1,
          (rmWords ws (FS.remove t w)).2.1, (rmWords ws (FS.remove t w)).2.2) := by
        simp [rmWords, Prog.bind, Prog.get, Prog.act, hw]
      rw [e]
      refine ⟨h1, by simpa using h2, ?_⟩
      intro u hu
      rcases List.mem_cons.1 hu with rfl | hu
      · exact ⟨pre ++ [w], by simp, hrem⟩
      · simpa using h3 u hu
    · have hn : t.lookup w = none := Option.not_isSome_iff_eq_none.1 hw
      have ht' : ∀ q, t.lookup q = if q ∈ pre ++ [w] then none else fs.lookup q := by
        intro q
        by_cases hq : q = w
        · simp [hq, hn]
        · rw [ht]; simp [hq]
      obtain ⟨⟨b, h1⟩, h2, h3⟩ := ih t (pre ++ [w]) ht'
      have e : (rmWords (w :: ws) t) = ((rmWords ws t).1, (rmWords ws t).2.1, .ok false) := by
        rcases hr : rmWords ws t with ⟨tr, u, r⟩
        rw [hr] at h1
        simp only at h1
        subst h1
        simp [rmWords, Prog.bind, Prog.get, Prog.pure, hw, hr]
      rw [e]
      exact ⟨⟨false, rfl⟩, by simpa using h2, by simpa using h3⟩

/-- `rm` of a pattern removes files that match it, in the end all of them. -/
theorem systemRm_spec {F : Type} (pat : Str) (fs : FS F) :
    (systemRm pat fs).2.2 = .ok () ∧
      (∀ q, (systemRm pat fs).2.1.lookup q = if globMatch pat q = true then none else fs.lookup q) ∧
      ∀ u ∈ (systemRm pat fs).1, ∀ q, u.lookup q = fs.lookup q ∨
        (globMatch pat q = true ∧ u.lookup q = none) := by
  obtain ⟨⟨b, h1⟩, h2, h3⟩ := rmWords_spec ((fs.map Prod.fst).filter (globMatch pat)) fs fs []
    fun q => by simp
  have e : systemRm pat fs = ((rmWords ((fs.map Prod.fst).filter (globMatch pat)) fs).1,
      (rmWords ((fs.map Prod.fst).filter (globMatch pat)) fs).2.1, .ok ()) := by
    rcases hr : rmWords ((fs.map Prod.fst).filter (globMatch pat)) fs with ⟨tr, u, r⟩
    rw [hr] at h1
    simp only at h1
    subst h1
    simp [systemRm, Prog.bind, Prog.get, Prog.pure, hr]
  rw [e]
  refine ⟨rfl, fun q => ?_, fun u hu q => ?_⟩
  · simp only [h2, List.nil_append]
    by_cases hg : globMatch pat q = true
    · rw [if_pos hg]
      by_cases hq : q ∈ fs.map Prod.fst
      · rw [if_pos (List.mem_filter.2 ⟨hq, hg⟩)]
      · split
        · rfl
        · exact Option.not_isSome_iff_eq_none.1 fun h => hq ((lookup_isSome_iff _ _).1 h)
    · rw [if_neg hg, if_neg fun h => hg (List.mem_filter.1 h).2]
  · obtain ⟨del, hd, hu⟩ := h3 u hu
    rw [hu]
    by_cases hq : q ∈ del
    · exact .inr ⟨(List.mem_filter.1 ((List.nil_append _) ▸ hd hq)).2, by rw [if_pos hq]⟩
    · exact .inl (by rw [if_neg hq])

/-! ## The properties -/

/-- The files of the ranks are there, complete, with the results `fits r` of rank `r`. -/
def RanksDone (outdir : Str) (n : ℕ) (s : ℤ) (c nranks : ℕ) (fits : ℕ → List FitResult)
    (fs : FS OutFile) : Prop :=
  ∀ r < nranks, fs.lookup (rankOutname outdir n s c r) = some (.text (rankFile (fits r)))

/-- `h` is the collated file: the columns of the results of all ranks, in order, as read from the
printed lines. -/
def CollatedRanks (nranks : ℕ) (fits : ℕ → List FitResult) (h : H5) : Prop :=
  ∃ ds, List.Forall₂ (fun r d => parse_outline (get_outline r) = .ok d)
    ((List.range nranks).map fits).flatten ds ∧ h = resultColumns ds

theorem collatedRanks_many (nranks : ℕ) (fits : ℕ → List FitResult) :
    CollatedRanks nranks fits
      (resultColumns ((((List.range nranks).map fits).flatten).map readResult)) :=
  ⟨_, List.forall₂_map_right_iff.2 (List.forall₂_same.2 fun r _ => parse_outline_ok r), rfl⟩

/-- **C85** (too few haloes). If some rank fitted fewer than two haloes, rank 0 raises, and all files
are as they were. -/
theorem C85_too_few {outdir : Str} (n : ℕ) (s : ℤ) (c nranks : ℕ) (fits : ℕ → List FitResult)
    (fs : FS OutFile) (hfs : RanksDone outdir n s c nranks fits fs)
    (h : ∃ r < nranks, (fits r).length ≤ 1) :
    ∃ e, collateRanks outdir n s c nranks fs = ([], fs, .error e) := by
  obtain ⟨r, hr, h1⟩ := h
  obtain ⟨e, he⟩ := collate_few ((List.range nranks).map fits)
    (.inr ⟨fits r, List.mem_map_of_mem (List.mem_range.2 hr), h1⟩)
  refine ⟨e, ?_⟩
  rw [collateRanks_eq (files := fun r => rankFile (fits r)) hfs]
  rw [List.map_map] at he
  change collate ((List.range nranks).map fun r => rankFile (fits r)) = _ at he
  rw [he]

theorem collateRanks_many {outdir : Str} (n : ℕ) (s : ℤ) (c nranks : ℕ) (fits : ℕ → List FitResult)
    (fs : FS OutFile) (hfs : RanksDone outdir n s c nranks fits fs) (h0 : 0 < nranks)
    (h : ∀ r < nranks, 2 ≤ (fits r).length) :
    ∃ res, CollatedRanks nranks fits res ∧ collateRanks outdir n s c nranks fs
      = Prog.bind (Prog.act fun fs => Dict.set fs (collatedPath outdir n s c) .torn)
          (fun _ => Prog.bind (Prog.act fun fs => Dict.set fs (collatedPath outdir n s c) (.h5 res))
          fun _ => systemRm (cleanupPattern outdir n s c)) fs := by
  have he := collate_many ((List.range nranks).map fits) (by simp; omega) (by
    intro l hl
    obtain ⟨r, hr, rfl⟩ := List.mem_map.1 hl
    exact h r (List.mem_range.1 hr))
  refine ⟨_, collatedRanks_many nranks fits, ?_⟩
  rw [collateRanks_eq (files := fun r => rankFile (fits r)) hfs]
  rw [List.map_map] at he
  change collate ((List.range nranks).map fun r => rankFile (fits r)) = _ at he
  rw [he]

/-- **C85** (success). If every rank fitted at least two haloes, rank 0 succeeds: the collated file
holds the results of all ranks, the files of the ranks are gone, and every other file is as it was. -/
theorem C85_success {outdir : Str} (hsh : ShellSafe outdir) (n : ℕ) (s : ℤ) (c nranks : ℕ)
    (fits : ℕ → List FitResult) (fs : FS OutFile) (hfs : RanksDone outdir n s c nranks fits fs)
    (h0 : 0 < nranks) (h : ∀ r < nranks, 2 ≤ (fits r).length) :
    ∃ tr t res, collateRanks outdir n s c nranks fs = (tr, t, .ok ()) ∧
      t.lookup (collatedPath outdir n s c) = some (.h5 res) ∧ CollatedRanks nranks fits res ∧
      (∀ r, t.lookup (rankOutname outdir n s c r) = none) ∧
      ∀ p, p ≠ collatedPath outdir n s c → globMatch (cleanupPattern outdir n s c) p = false →
        t.lookup p = fs.lookup p := by
  have ho : '{' ∉ outdir := hsh.notMem (by decide) (by decide)
  have ho' : '*' ∉ outdir := hsh.notMem (by decide) (by decide)
  obtain ⟨res, hres, e⟩ := collateRanks_many n s c nranks fits fs hfs h0 h
  set fs2 := Dict.set (Dict.set fs (collatedPath outdir n s c) .torn) (collatedPath outdir n s c)
    (OutFile.h5 res) with h2
  obtain ⟨r1, r2, r3⟩ := systemRm_spec (cleanupPattern outdir n s c) fs2
  refine ⟨[Dict.set fs (collatedPath outdir n s c) .torn] ++ ([fs2] ++
    (systemRm (cleanupPattern outdir n s c) fs2).1),
    (systemRm (cleanupPattern outdir n s c) fs2).2.1, res, ?_, ?_, hres, ?_, ?_⟩
  · rw [e]
    simp only [Prog.bind, Prog.act, ← h2]
    rw [← r1]
  · rw [r2, if_neg, h2, set_lookup, if_pos rfl]
    rw [(C77_cleanup ho ho' n s s c c 0).2]; decide
  · intro r
    rw [r2, if_pos]
    exact (C77_cleanup ho ho' n s s c c r).1.2 ⟨rfl, rfl⟩
  · intro p hp hg
    rw [r2, if_neg (by rw [hg]; decide), h2, set_lookup, if_neg hp, set_lookup, if_neg hp]

/-- **C85** (crash safety). Wherever rank 0 is killed, either the files of all ranks are still there,
or the collated file is there and complete; and files other than those two kinds are as they were.
Files of other chunks, subvolumes and outputs are among the latter by `C77_cleanup`. -/
theorem C85_crash_safety {outdir : Str} (hsh : ShellSafe outdir) (n : ℕ) (s : ℤ) (c nranks : ℕ)
    (fits : ℕ → List FitResult) (fs : FS OutFile) (hfs : RanksDone outdir n s c nranks fits fs)
    (t : FS OutFile) (ht : t ∈ (collateRanks outdir n s c nranks fs).1) :
    (RanksDone outdir n s c nranks fits t ∨
      ∃ res, t.lookup (collatedPath outdir n s c) = some (.h5 res) ∧ CollatedRanks nranks fits res) ∧
    ∀ p, p ≠ collatedPath outdir n s c → globMatch (cleanupPattern outdir n s c) p = false →
      t.lookup p = fs.lookup p := by
  have ho : '{' ∉ outdir := hsh.notMem (by decide) (by decide)
  have ho' : '*' ∉ outdir := hsh.notMem (by decide) (by decide)
  by_cases hfew : ∃ r < nranks, (fits r).length ≤ 1
  · obtain ⟨e, he⟩ := C85_too_few n s c nranks fits fs hfs hfew
    rw [he] at ht; cases ht
  push Not at hfew
  rcases Nat.eq_zero_or_pos nranks with rfl | h0
  · rw [collateRanks_eq (files := fun r => rankFile (fits r)) hfs] at ht
    cases ht
  obtain ⟨res, hres, e⟩ := collateRanks_many n s c nranks fits fs hfs h0 hfew
  set fs1 := Dict.set fs (collatedPath outdir n s c) OutFile.torn with h1
  set fs2 := Dict.set fs1 (collatedPath outdir n s c) (OutFile.h5 res) with h2
  obtain ⟨r1, r2, r3⟩ := systemRm_spec (cleanupPattern outdir n s c) fs2
  rw [e] at ht
  simp only [Prog.bind, Prog.act, List.mem_append, List.mem_singleton, ← h1, ← h2] at ht
  have hrank : ∀ f : OutFile, ∀ u : FS OutFile, RanksDone outdir n s c nranks fits u →
      RanksDone outdir n s c nranks fits (Dict.set u (collatedPath outdir n s c) f) := by
    intro f u hu r hr
    rw [set_lookup, if_neg (C77_unique_rank_files ho n s s c c r r).2]
    exact hu r hr
  rcases ht with rfl | rfl | ht
  · refine ⟨.inl (hrank _ _ hfs), fun p hp _ => ?_⟩
    rw [h1, set_lookup, if_neg hp]
  · refine ⟨.inl (hrank _ _ (hrank _ _ hfs)), fun p hp _ => ?_⟩
    rw [h2, set_lookup, if_neg hp, h1, set_lookup, if_neg hp]
  · refine ⟨.inr ⟨res, ?_, hres⟩, fun p hp hg => ?_⟩
    · rcases r3 t ht (collatedPath outdir n s c) with h | h
      · rw [h, h2, set_lookup, if_pos rfl]
      · rw [(C77_cleanup ho ho' n s s c c 0).2] at h
        exact absurd h.1 (by decide)
    · rcases r3 t ht p with h | h
      · rw [h, h2, set_lookup, if_neg hp, h1, set_lookup, if_neg hp]
      · rw [hg] at h; exact absurd h.1 (by decide)

/-! ## Schedules -/

theorem rankActs_set {fname : Str} {fits : List FitResult} {a : FS OutFile → FS OutFile}
    (h : a ∈ rankActs fname fits) : ∃ f, a = fun fs => Dict.set fs fname f := by
  unfold rankActs at h
  simp only [List.cons_append, List.mem_cons, List.mem_append, List.mem_map, List.not_mem_nil,
    or_false] at h
  rcases h with h | ⟨_, _, h⟩ | h
  · exact ⟨_, h⟩
  · exact ⟨_, h.symm⟩
  · exact ⟨_, h⟩

/-- What is known while the ranks run: what is left of each rank's work is an end part of it, the
file of a rank that has finished is complete, and the other files are as they were. -/
def During (names : ℕ → Str) (nranks : ℕ) (fits : ℕ → List FitResult) (fs : FS OutFile)
    (todo : List (List (FS OutFile → FS OutFile))) (t : FS OutFile) : Prop :=
  (∀ r < nranks, ∃ l, todo[r]? = some l ∧ l <:+ rankActs (names r) (fits r) ∧
    (l = [] → t.lookup (names r) = some (.text (rankFile (fits r))))) ∧
  (∀ r, nranks ≤ r → todo[r]? = none) ∧
  ∀ p, (∀ r < nranks, p ≠ names r) → t.lookup p = fs.lookup p

theorem During.run {names : ℕ → Str} (hinj : Function.Injective names) {nranks : ℕ}
    {fits : ℕ → List FitResult} {fs : FS OutFile} {todo todo' : List (List (FS OutFile → FS OutFile))}
    {t t' : FS OutFile} (hs : Sched todo t todo' t') (h : During names nranks fits fs todo t) :
    During names nranks fits fs todo' t' := by
  induction hs with
  | done => exact h
  | @step todo todo' t t' i a rest hi _ ih =>
    apply ih
    obtain ⟨h1, h2, h3⟩ := h
    have hin : i < nranks := by
      by_contra hc
      rw [h2 i (by omega)] at hi; cases hi
    obtain ⟨l, hl, hsuf, -⟩ := h1 i hin
    rw [hi] at hl
    cases hl
    obtain ⟨pre, hpre⟩ := hsuf
    obtain ⟨f, rfl⟩ := rankActs_set (fname := names i) (fits := fits i) (a := a)
      (by rw [← hpre]; simp)
    have hlt : i < todo.length := (List.getElem?_eq_some_iff.1 hi).1
    refine ⟨fun r hr => ?_, fun r hr => ?_, fun p hp => ?_⟩
    · by_cases hri : r = i
      · subst hri
        refine ⟨rest, by simp [hlt], ⟨pre ++ [fun fs => Dict.set fs (names r) f], by simp [← hpre]⟩, ?_⟩
        rintro rfl
        have : (rankActs (names r) (fits r)).getLast? = some fun fs => Dict.set fs (names r) f := by
          rw [← hpre]; simp
        unfold rankActs at this
        rw [List.getLast?_append] at this
        simp only [List.getLast?_singleton, Option.some_or, Option.some.injEq] at this
        have := congrFun this t
        simp only
        rw [← this, set_lookup, if_pos rfl]
      · obtain ⟨l, hl, hsuf, hl0⟩ := h1 r hr
        refine ⟨l, by rw [List.getElem?_set_ne (Ne.symm hri), hl], hsuf, fun h => ?_⟩
        rw [set_lookup, if_neg fun e => hri (hinj e)]
        exact hl0 h
    · rw [List.getElem?_set_ne (by omega)]; exact h2 r hr
    · rw [set_lookup, if_neg (hp i hin)]
      exact h3 p hp

theorem During.begin (names : ℕ → Str) (nranks : ℕ) (fits : ℕ → List FitResult) (fs : FS OutFile) :
    During names nranks fits fs ((List.range nranks).map fun r => rankActs (names r) (fits r)) fs := by
  refine ⟨fun r hr => ⟨_, by simp [hr], List.suffix_rfl, fun h => ?_⟩, fun r hr => by simp [hr],
    fun _ _ => rfl⟩
  simp [rankActs] at h

/-- **C86** (every schedule). In whatever order the ranks do their work, when all have reached the
barrier the file of each rank holds exactly its own results, and every other file is as it was. -/
theorem C86_every_schedule {outdir : Str} (ho : '{' ∉ outdir) (n : ℕ) (s : ℤ) (c nranks : ℕ)
    (fits : ℕ → List FitResult) (fs t : FS OutFile)
    (todo : List (List (FS OutFile → FS OutFile)))
    (hs : Sched ((List.range nranks).map fun r => rankActs (rankOutname outdir n s c r) (fits r)) fs
      todo t) (hb : ∀ l ∈ todo, l = []) :
    RanksDone outdir n s c nranks fits t ∧
      ∀ p, (∀ r < nranks, p ≠ rankOutname outdir n s c r) → t.lookup p = fs.lookup p := by
  obtain ⟨h1, -, h3⟩ := (During.begin (rankOutname outdir n s c) nranks fits fs).run
    (fun r r' h => ((C77_unique_rank_files ho n s s c c r r').1 h).2.2) hs
  refine ⟨fun r hr => ?_, h3⟩
  obtain ⟨l, hl, -, h0⟩ := h1 r hr
  exact h0 (hb l (List.mem_of_getElem? hl))

/-- **C86** (killed before the barrier). At every moment before the barrier, every file that is not
one of the files of the ranks is as it was. -/
theorem C86_before_barrier {outdir : Str} (ho : '{' ∉ outdir) (n : ℕ) (s : ℤ) (c nranks : ℕ)
    (fits : ℕ → List FitResult) (fs t : FS OutFile)
    (todo : List (List (FS OutFile → FS OutFile)))
    (hs : Sched ((List.range nranks).map fun r => rankActs (rankOutname outdir n s c r) (fits r)) fs
      todo t) :
    ∀ p, (∀ r < nranks, p ≠ rankOutname outdir n s c r) → t.lookup p = fs.lookup p :=
  ((During.begin (rankOutname outdir n s c) nranks fits fs).run
    (fun r r' h => ((C77_unique_rank_files ho n s s c c r r').1 h).2.2) hs).2.2

/-- **C86** (the whole chunk). For every catalogue, number of ranks and schedule, if there are at least
two haloes per rank, the collated file is the one a single process would write. -/
theorem C86_chunk_is_serial_partial {H : Type} (fit : H → FitResult) (haloes : List H) {outdir : Str}
    (hsh : ShellSafe outdir) (n : ℕ) (s : ℤ) (c nranks : ℕ) (h0 : 0 < nranks)
    (hn : 2 * nranks ≤ haloes.length) (shares : List (List H))
    (hshares : array_split haloes nranks = .ok shares) (fs t : FS OutFile)
    (todo : List (List (FS OutFile → FS OutFile)))
    (hs : Sched ((List.range nranks).map fun r =>
      rankActs (rankOutname outdir n s c r) ((shares.getD r []).map fit)) fs todo t)
    (hb : ∀ l ∈ todo, l = []) :
    ∃ tr t' res, collateRanks outdir n s c nranks t = (tr, t', .ok ()) ∧
      t'.lookup (collatedPath outdir n s c) = some (.h5 res) ∧
      parallel_fit fit haloes 1 = .ok (some res) ∧
      (∀ r, t'.lookup (rankOutname outdir n s c r) = none) ∧
      ∀ p, p ≠ collatedPath outdir n s c → globMatch (cleanupPattern outdir n s c) p = false →
        t'.lookup p = fs.lookup p := by
  have ho : '{' ∉ outdir := hsh.notMem (by decide) (by decide)
  have ho' : '*' ∉ outdir := hsh.notMem (by decide) (by decide)
  obtain ⟨hr, hother⟩ := C86_every_schedule ho n s c nranks _ fs t todo hs hb
  obtain ⟨shares', hs', hfl, hlen⟩ := shares_spec haloes nranks h0
  rw [hshares] at hs'
  cases hs'
  have hl : shares.length = nranks := by
    have := congrArg List.length hlen
    rw [List.length_map] at this
    rw [this]
    unfold sectionSizes
    have := Nat.mod_lt haloes.length h0
    simp; omega
  have h2 : 2 ≤ haloes.length / nranks := (Nat.le_div_iff_mul_le h0).2 hn
  have hshare : ∀ x ∈ shares, 2 ≤ x.length := by
    intro x hx
    have : x.length ∈ sectionSizes haloes.length nranks := hlen ▸ List.mem_map_of_mem hx
    rcases mem_sectionSizes this with h | h <;> omega
  have hget : (List.range nranks).map (fun r => shares.getD r []) = shares := by
    refine List.ext_getElem (by simp [hl]) fun i h1 h2 => ?_
    simp [List.getD_eq_getElem?_getD, h2]
  obtain ⟨tr, t', res, e1, e2, ⟨ds, hds, rfl⟩, e4, e5⟩ := C85_success hsh n s c nranks
    (fun r => (shares.getD r []).map fit) t hr h0 (by
      intro r hr
      rw [List.length_map]
      refine hshare _ ?_
      rw [List.getD_eq_getElem?_getD, List.getElem?_eq_getElem (by omega)]
      exact List.getElem_mem _)
  refine ⟨tr, t', _, e1, e2, ?_, e4, ?_⟩
  · obtain ⟨ds', h', e'⟩ := C44_parallel_is_serial_partial fit haloes 1 (by norm_num) (by omega)
    rw [e']
    have hflat : ((List.range nranks).map fun r => (shares.getD r []).map fit).flatten
        = haloes.map fit := by
      rw [← hfl]
      conv_rhs => rw [← hget]
      rw [List.map_flatten, List.map_map]; rfl
    rw [hflat, List.forall₂_map_left_iff] at hds
    have key : ∀ (l : List H) (a b : List FitData),
        List.Forall₂ (fun h d => parse_outline (get_outline (fit h)) = .ok d) l a →
        List.Forall₂ (fun h d => parse_outline (get_outline (fit h)) = .ok d) l b → a = b := by
      intro l a b ha hb
      induction ha generalizing b with
      | nil => cases hb; rfl
      | cons h1 _ ih =>
        cases hb with
        | cons h2 h3 =>
          rw [h1] at h2
          rw [Except.ok.inj h2, ih _ h3]
    rw [key haloes ds' ds h' hds]
  · intro p hp hg
    rw [e5 p hp hg]
    refine hother p fun r _ e => ?_
    rw [e, (C77_cleanup ho ho' n s s c c r).1.2 ⟨rfl, rfl⟩] at hg
    cases hg

/-! ## The hypotheses are met -/

theorem sched_trans {S : Type} {t1 t2 t3 : List (List (S → S))} {a b c : S} (h : Sched t1 a t2 b)
    (h' : Sched t2 b t3 c) : Sched t1 a t3 c := by
  induction h with
  | done => exact h'
  | step i f rest hi _ ih => exact .step i f rest hi (ih h')

/-- One process runs to its end. -/
theorem sched_one {S : Type} (todo : List (List (S → S))) (s : S) (i : ℕ) (l : List (S → S))
    (hi : todo[i]? = some l) : ∃ s', Sched todo s (todo.set i []) s' := by
  induction l generalizing todo s with
  | nil =>
    refine ⟨s, ?_⟩
    rw [show todo.set i [] = todo from by
      obtain ⟨h, e⟩ := List.getElem?_eq_some_iff.1 hi
      rw [← e, List.set_getElem_self]]
    exact .done _ _
  | cons a l ih =>
    have hlt := (List.getElem?_eq_some_iff.1 hi).1
    obtain ⟨s', h⟩ := ih (todo.set i l) (a s) (by simp [hlt])
    rw [List.set_set] at h
    exact ⟨s', .step i a l hi h⟩

/-- There always is a schedule in which all ranks reach the barrier. -/
theorem sched_exists {S : Type} (todo : List (List (S → S))) (s : S) :
    ∃ todo' s', Sched todo s todo' s' ∧ ∀ l ∈ todo', l = [] := by
  have key : ∀ k ≤ todo.length, ∃ s', Sched todo s
      (List.replicate k [] ++ todo.drop k) s' := by
    intro k
    induction k with
    | zero => exact fun _ => ⟨s, by simpa using .done _ _⟩
    | succ k ih =>
      intro hk
      obtain ⟨s', h⟩ := ih (by omega)
      obtain ⟨s'', h'⟩ := sched_one (List.replicate k [] ++ todo.drop k) s' k (todo[k]'(by omega)) (by
        rw [List.getElem?_append_right (by simp)]; simp)
      refine ⟨s'', sched_trans h ?_⟩
      convert h' using 1
      rw [List.set_append_right _ _ (by simp), List.replicate_succ', List.append_assoc]
      congr 1
      conv_rhs => rw [← List.cons_getElem_drop_succ (h := (by omega : k < todo.length)),
        List.length_replicate, Nat.sub_self, List.set_cons_zero]
      rfl
  obtain ⟨s', h⟩ := key todo.length le_rfl
  refine ⟨_, s', h, ?_⟩
  intro l hl
  simp only [List.drop_length, List.append_nil] at hl
  exact List.eq_of_mem_replicate hl

/-- Four haloes on two ranks: some schedule reaches the barrier, and then rank 0 succeeds with the
serial result. -/
example : ∃ tr t res t', collateRanks ['o'] 20 3 7 2 t = (tr, t', .ok ()) ∧
    parallel_fit (fun _ : ℕ => exampleResult) [0, 1, 2, 3] 1 = .ok (some res) ∧
    t'.lookup (collatedPath ['o'] 20 3 7) = some (.h5 res) := by
  obtain ⟨todo, t, hs, hb⟩ := sched_exists ((List.range 2).map fun r =>
    rankActs (rankOutname ['o'] 20 3 7 r)
      ((([[0, 1], [2, 3]] : List (List ℕ)).getD r []).map fun _ => exampleResult)) ([] : FS OutFile)
  obtain ⟨tr, t', res, h1, h2, h3, -⟩ := C86_chunk_is_serial_partial (fun _ : ℕ => exampleResult)
    [0, 1, 2, 3] (outdir := ['o']) (by unfold ShellSafe; decide) 20 3 7 2 (by norm_num) (by simp)
    [[0, 1], [2, 3]] rfl [] t todo hs hb
  exact ⟨tr, t, res, t', h1, h3, h2⟩

/-- One rank with a single halo meets the hypotheses of `C85_too_few`. -/
example : RanksDone ['o'] 20 3 7 1 (fun _ => [exampleResult])
    [(rankOutname ['o'] 20 3 7 0, .text (rankFile [exampleResult]))] := by
  intro r hr
  obtain rfl : r = 0 := by omega
  simp

end Diffmah.Scripts

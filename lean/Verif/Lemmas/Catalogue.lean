import Verif.Model.Catalogue
import Verif.Props.Collate
import Verif.Props.Loaders

/-! # Lemmas about the scripts that fit one catalogue -/

namespace Diffmah.Catalogue

open Diffmah.Utils Diffmah.Text Diffmah.IO Diffmah.Fit Diffmah.Scripts Diffmah.Loaders

/-! ## Text files of rows -/

/-- A header line and one line per row -/
def rowsFile (hdr : Str) (rows : List (List Str)) : Str :=
  hdr ++ '\n' :: (rows.map fun r => joinSpace r ++ ['\n']).flatten

theorem lines_rows (rows : List (List Str)) (hw : ∀ r ∈ rows, ∀ w ∈ r, Word w) :
    linesFrom [] ((rows.map fun r => joinSpace r ++ ['\n']).flatten) = rows.map joinSpace := by
  induction rows with
  | nil => rfl
  | cons r rows ih =>
    rw [List.map_cons, List.flatten_cons, List.append_assoc, List.singleton_append,
      linesFrom_line _ _ _ fun c hc => (joinSpace_clean _ (hw r List.mem_cons_self) c hc).2,
      ih fun r' h => hw r' (List.mem_cons_of_mem _ h)]
    rfl

theorem textRows_rowsFile {hdr : Str} (h1 : hdr.head? = some '#') (h2 : ∀ c ∈ hdr, c ≠ '\n')
    (rows : List (List Str)) (hw : ∀ r ∈ rows, ∀ w ∈ r, Word w) (hne : ∀ r ∈ rows, r ≠ []) :
    textRows (rowsFile hdr rows) = rows := by
  unfold textRows lines rowsFile
  rw [linesFrom_line _ _ _ h2, lines_rows _ hw, List.map_cons, List.filter_cons]
  have h0 : split (List.takeWhile (fun c => decide (c ≠ '#')) ([] ++ hdr)) = [] := by
    cases hdr with
    | nil => rfl
    | cons c s =>
      simp only [List.head?_cons, Option.some.injEq] at h1
      subst h1
      rfl
  rw [h0]
  simp only [ne_eq, not_true_eq_false, decide_false, Bool.false_eq_true, if_false, List.map_map]
  have e : rows.map ((fun l => split (List.takeWhile (fun c => decide (c ≠ '#')) l)) ∘ joinSpace)
      = rows := by
    conv_rhs => rw [← List.map_id rows]
    refine List.map_congr_left fun r hr => ?_
    simp only [Function.comp, id]
    rw [(takeWhile_all _ _ fun c hc => by
      simpa using (joinSpace_clean _ (hw r hr) c hc).1).1, split_join _ (hw r hr)]
  simp only [ne_eq] at e
  rw [e, List.filter_eq_self.2]
  intro r hr
  simpa using hne r hr

/-- What `genfromtxt` makes of a file of rows of `w` fields -/
theorem genfromtxt_rows {hdr : Str} (h1 : hdr.head? = some '#') (h2 : ∀ c ∈ hdr, c ≠ '\n')
    (rows : List (List Str)) (hw : ∀ r ∈ rows, ∀ w ∈ r, Word w) (w : ℕ) (hw0 : w ≠ 0)
    (hlen : ∀ r ∈ rows, r.length = w) :
    genfromtxt (rowsFile hdr rows)
      = .ok (if 2 ≤ rows.length then .d2 w rows else .d1 rows.flatten) := by
  unfold genfromtxt
  rw [textRows_rowsFile h1 h2 rows hw fun r hr e => hw0 (by rw [← hlen r hr, e]; rfl)]
  match rows, hlen with
  | [], _ => rfl
  | [r], _ => simp
  | r :: r' :: rows, hlen =>
    simp only
    rw [if_pos, if_pos (by simp)]
    · rw [hlen r (by simp)]
    · rw [List.all_eq_true]
      intro x hx
      rw [hlen r (by simp), hlen x (by simp only [List.mem_cons] at hx ⊢; tauto)]
      simp

theorem concat_d2' (w : ℕ) (a : List (List Str)) (l : List (List (List Str))) :
    (l.map (StrArr.d2 w)).foldlM concat2 (.d2 w a) = .ok (.d2 w (a ++ l.flatten)) := by
  induction l generalizing a with
  | nil => simp; rfl
  | cons b l ih =>
    rw [List.map_cons, List.foldlM_cons]
    have : concat2 (.d2 w a) (.d2 w b) = .ok (.d2 w (a ++ b)) := by simp [concat2]
    rw [this]
    change (l.map (StrArr.d2 w)).foldlM concat2 (.d2 w (a ++ b)) = _
    rw [ih]; simp

/-- Collating files of rows: at least two rows in every file -/
theorem collate_rows_many {hdr : Str} (h1 : hdr.head? = some '#') (h2 : ∀ c ∈ hdr, c ≠ '\n')
    (parts : List (List (List Str))) (hw : ∀ rows ∈ parts, ∀ r ∈ rows, ∀ w ∈ r, Word w) (w : ℕ)
    (hw0 : w ≠ 0) (hlen : ∀ rows ∈ parts, ∀ r ∈ rows, r.length = w) (h0 : parts ≠ [])
    (h : ∀ rows ∈ parts, 2 ≤ rows.length) :
    collate (parts.map (rowsFile hdr)) = write_collated_data (.d2 w parts.flatten) := by
  have hm : (parts.map (rowsFile hdr)).mapM genfromtxt = .ok (parts.map (StrArr.d2 w)) := by
    rw [List.mapM_map]
    refine mapM_ok _ _ _ fun rows hr => ?_
    simp only [Function.comp]
    rw [genfromtxt_rows h1 h2 rows (hw rows hr) w hw0 (hlen rows hr), if_pos (h rows hr)]
  obtain ⟨s, ss, rfl⟩ := List.exists_cons_of_ne_nil h0
  have hc : concatenate ((s :: ss).map (StrArr.d2 w)) = .ok (.d2 w (s :: ss).flatten) := by
    rw [List.map_cons, concatenate, concat_d2']; rfl
  unfold collate
  simp only [bind, Except.bind, hm, hc]

/-- Collating files of rows: too few rows in some file -/
theorem collate_rows_few {hdr : Str} (h1 : hdr.head? = some '#') (h2 : ∀ c ∈ hdr, c ≠ '\n')
    (parts : List (List (List Str))) (hw : ∀ rows ∈ parts, ∀ r ∈ rows, ∀ w ∈ r, Word w) (w : ℕ)
    (hw0 : w ≠ 0) (hlen : ∀ rows ∈ parts, ∀ r ∈ rows, r.length = w)
    (h : parts = [] ∨ ∃ rows ∈ parts, rows.length ≤ 1) :
    ∃ e, collate (parts.map (rowsFile hdr)) = .error e := by
  set g : List (List Str) → StrArr := fun rows =>
    if 2 ≤ rows.length then .d2 w rows else .d1 rows.flatten with hg
  have hm : (parts.map (rowsFile hdr)).mapM genfromtxt = .ok (parts.map g) := by
    rw [List.mapM_map]
    refine mapM_ok _ _ _ fun rows hr => ?_
    simp only [Function.comp, hg]
    rw [genfromtxt_rows h1 h2 rows (hw rows hr) w hw0 (hlen rows hr)]
  unfold collate
  simp only [bind, Except.bind, hm]
  cases parts with
  | nil => exact ⟨.valueError, rfl⟩
  | cons s ss =>
    obtain ⟨s', hs', h1⟩ : ∃ s' ∈ s :: ss, s'.length ≤ 1 := by
      rcases h with h | h
      · cases h
      · exact h
    simp only [List.map_cons, concatenate]
    by_cases h2 : 2 ≤ s.length
    · have hmem : s' ∈ ss := by
        rcases List.mem_cons.1 hs' with h | h
        · subst h; omega
        · exact h
      rw [concat_mixed]
      · exact ⟨_, rfl⟩
      · exact ⟨w, s, by simp only [hg]; rw [if_pos h2]⟩
      · refine ⟨s'.flatten, List.mem_map.2 ⟨s', hmem, ?_⟩⟩
        simp only [hg]; rw [if_neg (by omega)]
    · have e : g s = .d1 s.flatten := by simp only [hg]; rw [if_neg h2]
      rw [e]
      rcases concat_from_d1 (ss.map g) s.flatten with ⟨e, he⟩ | ⟨b, hb⟩
      · rw [he]; exact ⟨e, rfl⟩
      · rw [hb]; exact ⟨.indexError, rfl⟩

theorem rankFile_rows (fits : List FitResult) :
    rankFile fits = rowsFile headerLine (fits.map fun r => outFields r none) := by
  unfold rankFile rowsFile
  rw [HEADER_eq, List.append_assoc, List.singleton_append, List.map_map]
  rfl

/-- The header line with halo ids -/
def headerLineId : Str :=
  "# halo_id logm0 logtc early_index late_index t_peak loss n_points_per_fit fit_algo".toList

set_option maxRecDepth 10000 in
theorem HEADER_HALO_ID_eq : HEADER_HALO_ID = headerLineId ++ ['\n'] := by decide

set_option maxRecDepth 10000 in
theorem headerLineId_clean : ∀ c ∈ headerLineId, c ≠ '\n' := by decide

theorem rankFileId_rows (fits : List (ℤ × FitResult)) :
    rankFileId fits = rowsFile headerLineId (fits.map fun r => outFields r.2 (some r.1)) := by
  unfold rankFileId rowsFile
  rw [HEADER_HALO_ID_eq, List.append_assoc, List.singleton_append, List.map_map]
  rfl

/-! ## Schedules of processes that own their files -/

/-- Do the changes one after the other. -/
def runActs (l : List (FS OutFile → FS OutFile)) (fs : FS OutFile) : FS OutFile :=
  l.foldl (fun s a => a s) fs

/-- Every change of `l` writes a file that `own` holds of. -/
def WritesOnly (own : Str → Prop) (l : List (FS OutFile → FS OutFile)) : Prop :=
  ∀ a ∈ l, ∃ p f, own p ∧ a = fun fs => Dict.set fs p f

theorem runActs_other {own : Str → Prop} {l : List (FS OutFile → FS OutFile)} (h : WritesOnly own l)
    (fs : FS OutFile) {p : Str} (hp : ¬ own p) : (runActs l fs).lookup p = fs.lookup p := by
  induction l generalizing fs with
  | nil => rfl
  | cons a l ih =>
    obtain ⟨q, f, hq, rfl⟩ := h a List.mem_cons_self
    change (runActs l (Dict.set fs q f)).lookup p = _
    rw [ih fun b hb => h b (List.mem_cons_of_mem _ hb), set_lookup, if_neg]
    rintro rfl; exact hp hq

/-- Writing depends only on what was written before in the same file. -/
theorem runActs_congr {own : Str → Prop} {l : List (FS OutFile → FS OutFile)} (h : WritesOnly own l)
    (fs gs : FS OutFile) (p : Str) (hp : fs.lookup p = gs.lookup p) :
    (runActs l fs).lookup p = (runActs l gs).lookup p := by
  induction l generalizing fs gs with
  | nil => exact hp
  | cons a l ih =>
    obtain ⟨q, f, hq, rfl⟩ := h a List.mem_cons_self
    refine ih (fun b hb => h b (List.mem_cons_of_mem _ hb)) _ _ ?_
    rw [set_lookup, set_lookup, hp]

/-- Whatever the schedule, each process has done an initial part of its work, and its files are as if
it had worked alone; files that no process owns are as they were. -/
theorem sched_own {own : ℕ → Str → Prop} (hdis : ∀ r r' p, own r p → own r' p → r = r')
    {acts : ℕ → List (FS OutFile → FS OutFile)} {nranks : ℕ}
    (hw : ∀ r < nranks, WritesOnly (own r) (acts r)) {fs t : FS OutFile}
    {todo : List (List (FS OutFile → FS OutFile))}
    (hs : Sched ((List.range nranks).map acts) fs todo t) :
    todo.length = nranks ∧
    (∀ r < nranks, ∃ done rest, acts r = done ++ rest ∧ todo[r]? = some rest ∧
      ∀ p, own r p → t.lookup p = (runActs done fs).lookup p) ∧
    ∀ p, (∀ r < nranks, ¬ own r p) → t.lookup p = fs.lookup p := by
  have key : ∀ (todo0 : List (List (FS OutFile → FS OutFile))) (u : FS OutFile),
      Sched todo0 u todo t →
      (todo0.length = nranks ∧
        (∀ r < nranks, ∃ done rest, acts r = done ++ rest ∧ todo0[r]? = some rest ∧
          ∀ p, own r p → u.lookup p = (runActs done fs).lookup p) ∧
        ∀ p, (∀ r < nranks, ¬ own r p) → u.lookup p = fs.lookup p) →
      (todo.length = nranks ∧
        (∀ r < nranks, ∃ done rest, acts r = done ++ rest ∧ todo[r]? = some rest ∧
          ∀ p, own r p → t.lookup p = (runActs done fs).lookup p) ∧
        ∀ p, (∀ r < nranks, ¬ own r p) → t.lookup p = fs.lookup p) := by
    intro todo0 u hs
    clear * - hs hw hdis
    induction hs with
    | done => exact id
    | @step todo todo' u t i a rest hi _ ih =>
      rintro ⟨hl, h1, h2⟩
      have hlt : i < todo.length := (List.getElem?_eq_some_iff.1 hi).1
      have hin : i < nranks := hl ▸ hlt
      obtain ⟨done, rest', he, hr, hd⟩ := h1 i hin
      rw [hi] at hr
      cases hr
      obtain ⟨q, f, hq, rfl⟩ := hw i hin a (by rw [he]; simp)
      refine ih ⟨by simpa using hl, fun r hr => ?_, fun p hp => ?_⟩
      · by_cases hri : r = i
        · subst hri
          refine ⟨done ++ [fun fs => Dict.set fs q f], rest, by rw [he]; simp,
            by simp [hlt], fun p hp => ?_⟩
          have e : runActs (done ++ [fun fs => Dict.set fs q f]) fs
              = Dict.set (runActs done fs) q f := by simp [runActs]
          simp only [e]
          rw [set_lookup, set_lookup, hd p hp]
        · obtain ⟨done', rest'', he', hr', hd'⟩ := h1 r hr
          refine ⟨done', rest'', he', by rw [List.getElem?_set_ne (Ne.symm hri), hr'], fun p hp => ?_⟩
          rw [← hd' p hp]
          simp only
          rw [set_lookup, if_neg]
          rintro rfl
          exact hri (hdis _ _ _ hp hq)
      · rw [← h2 p hp]
        simp only
        rw [set_lookup, if_neg]
        rintro rfl
        exact hp i hin hq
  refine key _ _ hs ⟨by simp, fun r hr => ⟨[], acts r, rfl, by simp [hr], fun p _ => rfl⟩, fun p _ => rfl⟩

/-- At the barrier every process has done all its work. -/
theorem sched_barrier {own : ℕ → Str → Prop} (hdis : ∀ r r' p, own r p → own r' p → r = r')
    {acts : ℕ → List (FS OutFile → FS OutFile)} {nranks : ℕ}
    (hw : ∀ r < nranks, WritesOnly (own r) (acts r)) {fs t : FS OutFile}
    {todo : List (List (FS OutFile → FS OutFile))}
    (hs : Sched ((List.range nranks).map acts) fs todo t) (hb : ∀ l ∈ todo, l = []) :
    (∀ r < nranks, ∀ p, own r p → t.lookup p = (runActs (acts r) fs).lookup p) ∧
    ∀ p, (∀ r < nranks, ¬ own r p) → t.lookup p = fs.lookup p := by
  obtain ⟨-, h1, h2⟩ := sched_own hdis hw hs
  refine ⟨fun r hr p hp => ?_, h2⟩
  obtain ⟨done, rest, he, ht, hd⟩ := h1 r hr
  obtain rfl := hb rest (List.mem_of_getElem? ht)
  rw [List.append_nil] at he
  rw [hd p hp, he]

/-! ## Rank 0 after the barrier -/

theorem readFiles_ok {names : List Str} {files : Str → Str} {fs : FS OutFile}
    (hfs : ∀ p ∈ names, fs.lookup p = some (.text (files p))) :
    Prog.each readRankFile names fs = ([], fs, (names.map files).mapM genfromtxt) := by
  induction names with
  | nil => rfl
  | cons p l ih =>
    have hr : readRankFile p fs = ([], fs, genfromtxt (files p)) := by
      unfold readRankFile Prog.bind Prog.get
      simp only [hfs p (by simp)]
      rfl
    rw [List.map_cons, List.mapM_cons, Prog.each, Prog.bind, hr]
    cases genfromtxt (files p) with
    | error e => rfl
    | ok a =>
      simp only [Prog.bind, ih fun r h => hfs r (by simp [h]), List.nil_append, bind, Except.bind]
      cases (l.map files).mapM genfromtxt <;> rfl

theorem collateFiles_eq {names : List Str} {outfn pat : Str} {files : Str → Str} {fs : FS OutFile}
    (hfs : ∀ p ∈ names, fs.lookup p = some (.text (files p))) :
    collateFiles names outfn pat fs = match collate (names.map files) with
      | .error e => ([], fs, .error e)
      | .ok none => systemRm pat fs
      | .ok (some h) => Prog.bind (Prog.act fun fs => Dict.set fs outfn .torn)
          (fun _ => Prog.bind (Prog.act fun fs => Dict.set fs outfn (.h5 h))
          fun _ => systemRm pat) fs := by
  unfold collateFiles
  rw [Prog.bind, readFiles_ok hfs]
  unfold collate
  simp only [bind, Except.bind]
  cases (names.map files).mapM genfromtxt with
  | error e => rfl
  | ok arrs =>
    simp only [Prog.bind, Prog.ofExcept, List.nil_append]
    cases concatenate arrs with
    | error e => rfl
    | ok arr =>
      simp only [writeCollated, Prog.bind, Prog.ofExcept, List.nil_append]
      cases write_collated_data arr with
      | error e => rfl
      | ok r =>
        cases r with
        | none => simp [Prog.pure]
        | some h => simp [Prog.act, Prog.bind]

/-- Rank 0 when the columns can be made: the end, and every moment. -/
theorem collateFiles_spec {names : List Str} {outfn pat : Str} {files : Str → Str} {fs : FS OutFile}
    (hfs : ∀ p ∈ names, fs.lookup p = some (.text (files p))) {h : H5}
    (hc : collate (names.map files) = .ok (some h)) (hpat : globMatch pat outfn = false) :
    (∃ tr t, collateFiles names outfn pat fs = (tr, t, .ok ()) ∧
      t.lookup outfn = some (.h5 h) ∧
      ∀ p, p ≠ outfn → t.lookup p = if globMatch pat p = true then none else fs.lookup p) ∧
    ∀ t ∈ (collateFiles names outfn pat fs).1,
      ((∀ p, p ≠ outfn → t.lookup p = fs.lookup p) ∨ t.lookup outfn = some (.h5 h)) ∧
      ∀ p, p ≠ outfn → globMatch pat p = false → t.lookup p = fs.lookup p := by
  have e := collateFiles_eq (outfn := outfn) (pat := pat) hfs
  rw [hc] at e
  simp only at e
  set fs1 := Dict.set fs outfn OutFile.torn with h1
  set fs2 := Dict.set fs1 outfn (OutFile.h5 h) with h2
  obtain ⟨r1, r2, r3⟩ := systemRm_spec pat fs2
  have hother : ∀ p, p ≠ outfn → fs2.lookup p = fs.lookup p := by
    intro p hp
    rw [h2, set_lookup, if_neg hp, h1, set_lookup, if_neg hp]
  have hout : fs2.lookup outfn = some (.h5 h) := by rw [h2, set_lookup, if_pos rfl]
  constructor
  · refine ⟨[fs1] ++ ([fs2] ++ (systemRm pat fs2).1), (systemRm pat fs2).2.1, ?_, ?_, fun p hp => ?_⟩
    · rw [e]
      simp only [Prog.bind, Prog.act, ← h1, ← h2]
      rw [← r1]
    · rw [r2, hpat, if_neg (by decide), hout]
    · rw [r2, hother p hp]
  · intro t ht
    rw [e] at ht
    simp only [Prog.bind, Prog.act, List.mem_append, List.mem_singleton, ← h1, ← h2] at ht
    rcases ht with rfl | rfl | ht
    · have : ∀ p, p ≠ outfn → fs1.lookup p = fs.lookup p := fun p hp => by
        rw [h1, set_lookup, if_neg hp]
      exact ⟨.inl this, fun p hp _ => this p hp⟩
    · exact ⟨.inl hother, fun p hp _ => hother p hp⟩
    · refine ⟨.inr ?_, fun p hp hg => ?_⟩
      · rcases r3 t ht outfn with h | h
        · rw [h, hout]
        · rw [hpat] at h; exact absurd h.1 (by decide)
      · rcases r3 t ht p with h | h
        · rw [h, hother p hp]
        · rw [hg] at h; exact absurd h.1 (by decide)

/-! ## Names -/

theorem tmpName_eq {d : Str} (hd : '{' ∉ d) (r : ℕ) :
    tmpName d r = dirPart d ++ ("tmp_mah_fits_rank_".toList ++ natStr r ++ ".dat".toList) := by
  unfold tmpName
  rw [pathJoin_eq d (by decide), format0_append _ _ _ (dirPart_notMem hd (by decide))]
  congr 1

theorem tmpPattern_eq {a d : Str} (ha : '{' ∉ a) :
    tmpPattern a d = (dirPart d ++ "tmp_mah_fits_rank_".toList) ++ '*' :: ".dat".toList := by
  unfold tmpPattern
  rw [tmpName_eq ha, basename_dir a (by decide)]
  have e : joinWith '_' (splitOn '_' ("tmp_mah_fits_rank_".toList ++ natStr 0 ++ ".dat".toList)).dropLast
      ++ "_*.dat".toList = "tmp_mah_fits_rank_".toList ++ '*' :: ".dat".toList := by decide
  simp only [e]
  rw [pathJoin_eq d (by decide), List.append_assoc]

theorem tmpPattern_match {a d : Str} (ha : '{' ∉ a) (hd : '*' ∉ d) (p : Str) :
    globMatch (tmpPattern a d) p = true ↔
      ∃ mid, p = dirPart d ++ "tmp_mah_fits_rank_".toList ++ mid ++ ".dat".toList ∧ '/' ∉ mid := by
  rw [tmpPattern_eq ha, globMatch_one _ _ _ _ (by decide)]
  intro h
  rcases List.mem_append.1 h with h | h
  · exact dirPart_notMem hd (by decide) h
  · revert h; decide

theorem tmpPattern_tmpName {d : Str} (h1 : '{' ∉ d) (h2 : '*' ∉ d) (r : ℕ) :
    globMatch (tmpPattern d d) (tmpName d r) = true := by
  rw [tmpPattern_match h1 h2]
  refine ⟨natStr r, ?_, fun h => digit_ne (natStr_digit h) (by decide) rfl⟩
  rw [tmpName_eq h1]; simp only [List.append_assoc]

theorem tmpPattern_other {d b : Str} (h1 : '{' ∉ d) (h2 : '*' ∉ d) (hb : '/' ∉ b)
    (hl : b.getLast? ≠ some 't') : globMatch (tmpPattern d d) (pathJoin d b) = false := by
  rw [Bool.eq_false_iff]
  intro h
  obtain ⟨mid, h, _⟩ := (tmpPattern_match h1 h2 _).1 h
  rw [pathJoin_eq d hb] at h
  simp only [List.append_assoc] at h
  have h := List.append_cancel_left h
  apply hl
  rw [h, lit10, List.getLast?_append, List.getLast?_append]
  simp

theorem tmpName_injective {d : Str} (h1 : '{' ∉ d) {r r' : ℕ} (h : tmpName d r = tmpName d r') : r = r' := by
  rw [tmpName_eq h1, tmpName_eq h1] at h
  have h := List.append_cancel_left h
  rw [List.append_assoc, List.append_assoc] at h
  exact natStr_injective (List.append_cancel_right (List.append_cancel_left h))

/-! ## A parallel job -/

/-- The ranks write rows of `w` fields into files of their own, and rank 0 collates. -/
structure Job (d : Str) (outbn : Str) (nranks : ℕ) (acts : ℕ → List (FS OutFile → FS OutFile))
    (own : ℕ → Str → Prop) (hdr : Str) (w : ℕ) (rows : ℕ → List (List Str)) : Prop where
  safe : ShellSafe d
  disj : ∀ r r' p, own r p → own r' p → r = r'
  writes : ∀ r < nranks, WritesOnly (own r) (acts r)
  mine : ∀ r, own r (tmpName d r)
  notOut : ∀ r p, own r p → p ≠ pathJoin d outbn
  final : ∀ r < nranks, ∀ fs, (runActs (acts r) fs).lookup (tmpName d r)
    = some (.text (rowsFile hdr (rows r)))
  hdr1 : hdr.head? = some '#'
  hdr2 : ∀ c ∈ hdr, c ≠ '\n'
  word : ∀ r < nranks, ∀ x ∈ rows r, ∀ f ∈ x, Word f
  w0 : w ≠ 0
  width : ∀ r < nranks, ∀ x ∈ rows r, x.length = w
  outTemp : globMatch (tmpPattern d d) (pathJoin d outbn) = false

section
variable {d outbn : Str} {nranks : ℕ} {acts : ℕ → List (FS OutFile → FS OutFile)}
  {own : ℕ → Str → Prop} {hdr : Str} {w : ℕ} {rows : ℕ → List (List Str)}

theorem Job.brace (J : Job d outbn nranks acts own hdr w rows) : '{' ∉ d :=
  J.safe.notMem (by decide) (by decide)

theorem Job.star (J : Job d outbn nranks acts own hdr w rows) : '*' ∉ d :=
  J.safe.notMem (by decide) (by decide)

theorem Job.at_barrier (J : Job d outbn nranks acts own hdr w rows) {fs u : FS OutFile}
    {todo : List (List (FS OutFile → FS OutFile))}
    (hs : Sched ((List.range nranks).map acts) fs todo u) (hb : ∀ l ∈ todo, l = []) :
    ∀ r < nranks, u.lookup (tmpName d r) = some (.text (rowsFile hdr (rows r))) := by
  intro r hr
  rw [(sched_barrier J.disj J.writes hs hb).1 r hr _ (J.mine r), J.final r hr]

/-- The content of the rank files as a function of the name -/
theorem Job.files (J : Job d outbn nranks acts own hdr w rows) : ∃ files : Str → Str,
    (∀ r < nranks, files (tmpName d r) = rowsFile hdr (rows r)) ∧
    ((List.range nranks).map (tmpName d)).map files
      = ((List.range nranks).map rows).map (rowsFile hdr) := by
  classical
  refine ⟨fun p => if h : ∃ r, r < nranks ∧ p = tmpName d r then rowsFile hdr (rows h.choose) else [],
    fun r hr => ?_, ?_⟩
  · have h : ∃ r', r' < nranks ∧ tmpName d r = tmpName d r' := ⟨r, hr, rfl⟩
    simp only [dif_pos h]
    rw [← tmpName_injective J.brace h.choose_spec.2]
  · rw [List.map_map, List.map_map]
    refine List.map_congr_left fun r hr => ?_
    have h : ∃ r', r' < nranks ∧ tmpName d r = tmpName d r' := ⟨r, List.mem_range.1 hr, rfl⟩
    simp only [Function.comp, dif_pos h]
    rw [← tmpName_injective J.brace h.choose_spec.2]

theorem Job.parts_word (J : Job d outbn nranks acts own hdr w rows) :
    (∀ p ∈ (List.range nranks).map rows, ∀ r ∈ p, ∀ f ∈ r, Word f) ∧
    ∀ p ∈ (List.range nranks).map rows, ∀ r ∈ p, r.length = w := by
  constructor <;> intro p hp <;> obtain ⟨r, hr, rfl⟩ := List.mem_map.1 hp
  · exact J.word r (List.mem_range.1 hr)
  · exact J.width r (List.mem_range.1 hr)

/-- Too few rows on some rank: the run does not come to its end, and rank 0 changes nothing. -/
theorem Job.few (J : Job d outbn nranks acts own hdr w rows)
    (h : nranks = 0 ∨ ∃ r < nranks, (rows r).length ≤ 1) {fs u : FS OutFile}
    {todo : List (List (FS OutFile → FS OutFile))}
    (hs : Sched ((List.range nranks).map acts) fs todo u) (hb : ∀ l ∈ todo, l = []) :
    ∃ e, collateCatalogue d d outbn nranks u = ([], u, .error e) := by
  obtain ⟨files, hf, hfm⟩ := J.files
  obtain ⟨e, he⟩ := collate_rows_few J.hdr1 J.hdr2 ((List.range nranks).map rows) J.parts_word.1 w J.w0
    J.parts_word.2 (by
      rcases h with rfl | ⟨r, hr, h⟩
      · exact .inl rfl
      · exact .inr ⟨_, List.mem_map_of_mem (List.mem_range.2 hr), h⟩)
  refine ⟨e, ?_⟩
  unfold collateCatalogue
  rw [collateFiles_eq (files := files), hfm, he]
  intro p hp
  obtain ⟨r, hr, rfl⟩ := List.mem_map.1 hp
  rw [J.at_barrier hs hb r (List.mem_range.1 hr), hf r (List.mem_range.1 hr)]

/-- Enough rows on every rank -/
theorem Job.many (J : Job d outbn nranks acts own hdr w rows) (h0 : 0 < nranks)
    (h2 : ∀ r < nranks, 2 ≤ (rows r).length) {h : H5}
    (hc : write_collated_data (.d2 w ((List.range nranks).map rows).flatten) = .ok (some h))
    {fs u : FS OutFile} {todo : List (List (FS OutFile → FS OutFile))}
    (hs : Sched ((List.range nranks).map acts) fs todo u) (hb : ∀ l ∈ todo, l = []) :
    (∃ tr t, collateCatalogue d d outbn nranks u = (tr, t, .ok ()) ∧
      t.lookup (pathJoin d outbn) = some (.h5 h) ∧
      ∀ p, p ≠ pathJoin d outbn →
        t.lookup p = if globMatch (tmpPattern d d) p = true then none else u.lookup p) ∧
    ∀ t ∈ (collateCatalogue d d outbn nranks u).1,
      ((∀ r < nranks, t.lookup (tmpName d r) = some (.text (rowsFile hdr (rows r)))) ∨
        t.lookup (pathJoin d outbn) = some (.h5 h)) ∧
      ∀ p, p ≠ pathJoin d outbn → globMatch (tmpPattern d d) p = false → t.lookup p = u.lookup p := by
  obtain ⟨files, hf, hfm⟩ := J.files
  have hfs : ∀ p ∈ (List.range nranks).map (tmpName d), u.lookup p = some (.text (files p)) := by
    intro p hp
    obtain ⟨r, hr, rfl⟩ := List.mem_map.1 hp
    rw [J.at_barrier hs hb r (List.mem_range.1 hr), hf r (List.mem_range.1 hr)]
  have hcol : collate (((List.range nranks).map (tmpName d)).map files) = .ok (some h) := by
    rw [hfm, collate_rows_many J.hdr1 J.hdr2 ((List.range nranks).map rows) J.parts_word.1 w J.w0
      J.parts_word.2 (by simp; omega) _, hc]
    intro p hp
    obtain ⟨r, hr, rfl⟩ := List.mem_map.1 hp
    exact h2 r (List.mem_range.1 hr)
  obtain ⟨h1, h2'⟩ := collateFiles_spec hfs hcol J.outTemp
  refine ⟨h1, fun t ht => ?_⟩
  obtain ⟨a, b⟩ := h2' t ht
  refine ⟨?_, b⟩
  rcases a with a | a
  · left
    intro r hr
    rw [a _ (J.notOut r _ (J.mine r)), J.at_barrier hs hb r hr]
  · exact .inr a

/-- The result of a run that comes to its end -/
theorem Job.result (J : Job d outbn nranks acts own hdr w rows) {h : H5}
    (hc : write_collated_data (.d2 w ((List.range nranks).map rows).flatten) = .ok (some h))
    {fs t : FS OutFile} (hrun : Run acts (collateCatalogue d d outbn nranks) nranks fs t) :
    (0 < nranks ∧ ∀ r < nranks, 2 ≤ (rows r).length) ∧
    t.lookup (pathJoin d outbn) = some (.h5 h) ∧
    (∀ r, t.lookup (tmpName d r) = none) ∧
    (∀ r < nranks, ∀ p, own r p → globMatch (tmpPattern d d) p = false →
      t.lookup p = (runActs (acts r) fs).lookup p) ∧
    ∀ p, p ≠ pathJoin d outbn → globMatch (tmpPattern d d) p = false → (∀ r < nranks, ¬ own r p) →
      t.lookup p = fs.lookup p := by
  obtain ⟨todo, u, tr, hs, hb, e⟩ := hrun
  by_cases hfew : nranks = 0 ∨ ∃ r < nranks, (rows r).length ≤ 1
  · obtain ⟨e', he'⟩ := J.few hfew hs hb
    rw [e] at he'; cases he'
  push Not at hfew
  have h2 : ∀ r < nranks, 2 ≤ (rows r).length := fun r hr => hfew.2 r hr
  obtain ⟨⟨tr', t', e', h3, h4⟩, -⟩ := J.many (Nat.pos_of_ne_zero hfew.1) h2 hc hs hb
  rw [e] at e'
  cases e'
  obtain ⟨b1, b2⟩ := sched_barrier J.disj J.writes hs hb
  refine ⟨⟨Nat.pos_of_ne_zero hfew.1, h2⟩, h3, fun r => ?_, fun r hr p hp hg => ?_, fun p hp hg ho => ?_⟩
  · rw [h4 _ (J.notOut r _ (J.mine r)), if_pos (tmpPattern_tmpName J.brace J.star r)]
  · rw [h4 _ (J.notOut r p hp), hg, if_neg (by decide), b1 r hr p hp]
  · rw [h4 p hp, hg, if_neg (by decide), b2 p ho]

/-- With enough rows a run comes to its end. -/
theorem Job.progress (J : Job d outbn nranks acts own hdr w rows) (h0 : 0 < nranks)
    (h2 : ∀ r < nranks, 2 ≤ (rows r).length) {h : H5}
    (hc : write_collated_data (.d2 w ((List.range nranks).map rows).flatten) = .ok (some h))
    (fs : FS OutFile) : ∃ t, Run acts (collateCatalogue d d outbn nranks) nranks fs t := by
  obtain ⟨todo, u, hs, hb⟩ := sched_exists ((List.range nranks).map acts) fs
  obtain ⟨⟨tr, t, e, -⟩, -⟩ := J.many h0 h2 hc hs hb
  exact ⟨t, todo, u, tr, hs, hb, e⟩

/-- Every moment of a run -/
theorem Job.moment (J : Job d outbn nranks acts own hdr w rows) {h : H5}
    (hc : write_collated_data (.d2 w ((List.range nranks).map rows).flatten) = .ok (some h))
    {fs t : FS OutFile} (hm : Moment acts (collateCatalogue d d outbn nranks) nranks fs t) :
    (∀ p, p ≠ pathJoin d outbn → globMatch (tmpPattern d d) p = false → (∀ r < nranks, ¬ own r p) →
      t.lookup p = fs.lookup p) ∧
    (t.lookup (pathJoin d outbn) ≠ fs.lookup (pathJoin d outbn) →
      (∀ r < nranks, t.lookup (tmpName d r) = some (.text (rowsFile hdr (rows r)))) ∨
        t.lookup (pathJoin d outbn) = some (.h5 h)) := by
  obtain ⟨todo, u, hs, ht⟩ := hm
  obtain ⟨-, -, b2⟩ := sched_own J.disj J.writes hs
  rcases ht with rfl | ⟨hb, ht⟩
  · exact ⟨fun p _ _ ho => b2 p ho, fun hne => absurd (b2 _ fun r _ ho => J.notOut r _ ho rfl) hne⟩
  by_cases hfew : nranks = 0 ∨ ∃ r < nranks, (rows r).length ≤ 1
  · obtain ⟨e', he'⟩ := J.few hfew hs hb
    rw [he'] at ht; cases ht
  push Not at hfew
  have h2 : ∀ r < nranks, 2 ≤ (rows r).length := fun r hr => hfew.2 r hr
  obtain ⟨-, h3⟩ := J.many (Nat.pos_of_ne_zero hfew.1) h2 hc hs hb
  obtain ⟨h4, h5⟩ := h3 t ht
  exact ⟨fun p hp hg ho => by rw [h5 p hp hg, b2 p ho], fun _ => h4⟩

end

/-! ## Shares of the ranks -/

theorem cut_map {α β : Type} (f : α → β) (ns : List ℕ) (l : List α) :
    cut ns (l.map f) = (cut ns l).map (List.map f) := by
  induction ns generalizing l with
  | nil => rfl
  | cons n ns ih => simp [cut, ← List.map_take, ← List.map_drop, ih]

theorem cut_length {α : Type} (ns : List ℕ) (l : List α) : (cut ns l).length = ns.length := by
  induction ns generalizing l with
  | nil => rfl
  | cons n ns ih => simp [cut, ih]

theorem sectionSizes_length (n k : ℕ) (hk : 0 < k) : (sectionSizes n k).length = k := by
  unfold sectionSizes
  have := Nat.mod_lt n hk
  simp; omega

theorem takeRows_ok {α : Type} (table : List α) (indx : List ℕ) (share : List α)
    (h : indx.map (fun i => table[i]?) = share.map some) : takeRows table indx = .ok share := by
  unfold takeRows
  induction indx generalizing share with
  | nil =>
    cases share with
    | nil => rfl
    | cons _ _ => cases h
  | cons i indx ih =>
    cases share with
    | nil => cases h
    | cons x share =>
      simp only [List.map_cons, List.cons.injEq] at h
      rw [List.mapM_cons, h.1]
      simp only [bind, Except.bind]
      rw [ih share h.2]; rfl

/-- The share of rank `r` of the first `m` rows of a table -/
theorem rankShare_ok {α : Type} (table : List α) {m k r : ℕ} (hm : m ≤ table.length) (hr : r < k) :
    rankShare table m k r = .ok ((cut (sectionSizes m k) (table.take m)).getD r []) := by
  have hk : 0 < k := by omega
  have hl : r < (cut (sectionSizes m k) (List.range m)).length := by
    rw [cut_length, sectionSizes_length _ _ hk]; exact hr
  have hl' : r < (cut (sectionSizes m k) (table.take m)).length := by
    rw [cut_length, sectionSizes_length _ _ hk]; exact hr
  unfold rankShare
  rw [array_split, if_neg (by omega), List.length_range]
  simp only [bind, Except.bind]
  rw [List.getElem?_eq_getElem hl]
  simp only
  apply takeRows_ok
  have e1 : (List.range m).map (fun i => table[i]?) = (table.take m).map some := by
    refine List.ext_getElem (by simp [hm]) fun i h1 h2 => ?_
    simp only [List.length_map, List.length_range] at h1
    simp [List.getElem_take, List.getElem?_eq_getElem (by omega : i < table.length)]
  have e2 := congrArg (cut (sectionSizes m k)) e1
  rw [cut_map, cut_map] at e2
  have e3 := congrArg (fun l => l[r]?) e2
  simp only [List.getElem?_map, List.getElem?_eq_getElem hl, List.getElem?_eq_getElem hl',
    Option.map_some, Option.some.injEq] at e3
  rw [e3, List.getD_eq_getElem?_getD, List.getElem?_eq_getElem hl']
  rfl

/-- The shares of all ranks are the table. -/
theorem shares_flatten {α : Type} (l : List α) {k : ℕ} (hk : 0 < k) :
    ((List.range k).map fun r => (cut (sectionSizes l.length k) l).getD r []).flatten = l := by
  have hl : (cut (sectionSizes l.length k) l).length = k := by
    rw [cut_length, sectionSizes_length _ _ hk]
  have : (List.range k).map (fun r => (cut (sectionSizes l.length k) l).getD r [])
      = cut (sectionSizes l.length k) l := by
    refine List.ext_getElem (by simp [hl]) fun i h1 h2 => ?_
    simp [List.getD_eq_getElem?_getD, h2]
  rw [this]
  exact (cut_flatten _ _ (sectionSizes_sum _ _ hk)).1

theorem share_length {α : Type} (l : List α) {k r : ℕ} (hr : r < k) :
    ((cut (sectionSizes l.length k) l).getD r []).length = l.length / k + (if r < l.length % k then 1 else 0) := by
  have hk : 0 < k := by omega
  have hl : r < (cut (sectionSizes l.length k) l).length := by
    rw [cut_length, sectionSizes_length _ _ hk]; exact hr
  have h := (cut_flatten _ l (sectionSizes_sum l.length k hk)).2
  rw [List.getD_eq_getElem?_getD, List.getElem?_eq_getElem hl, Option.getD_some]
  have e : (cut (sectionSizes l.length k) l)[r].length
      = ((cut (sectionSizes l.length k) l).map List.length)[r]'(by simpa using hl) := by simp
  rw [e]
  simp only [h]
  unfold sectionSizes
  rw [List.getElem_append]
  split_ifs with h1 h2 h2
  · simp
  · simp at h1; omega
  · simp at h1; omega
  · simp

theorem share_two {α : Type} (l : List α) {k : ℕ} (hk : 0 < k) :
    (∀ r < k, 2 ≤ ((cut (sectionSizes l.length k) l).getD r []).length) ↔ 2 * k ≤ l.length := by
  constructor
  · intro h
    have h1 := h (k - 1) (by omega)
    rw [share_length l (by omega)] at h1
    have hm := Nat.mod_lt l.length hk
    rw [if_neg (by omega)] at h1
    have := (Nat.le_div_iff_mul_le hk).1 (show 2 ≤ l.length / k by omega)
    omega
  · intro h r hr
    rw [share_length l hr]
    have := (Nat.le_div_iff_mul_le hk).2 h
    omega

end Diffmah.Catalogue

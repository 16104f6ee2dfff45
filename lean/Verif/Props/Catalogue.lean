import Verif.Lemmas.Catalogue
import Verif.Lemmas.Fitter

/-!
# Fitting a whole catalogue: TNG, Bolshoi-Planck and Galacticus (C94, C95)
-/

namespace Diffmah.Catalogue

open Diffmah.Utils Diffmah.Text Diffmah.IO Diffmah.Fit Diffmah.Scripts Diffmah.Loaders Diffmah.Spec

/-! ## Specification -/

/-- `p` is the name of a temporary file of some rank in directory `d`. -/
def IsTemp (d p : Str) : Prop :=
  ∃ mid : Str, '/' ∉ mid ∧ p = pathJoin d ("tmp_mah_fits_rank_".toList ++ mid ++ ".dat".toList)

/-- The fits read back from their printed lines -/
def PrintedFits {H : Type} (fit : H → FitResult) (haloes : List H) (ds : List FitData) : Prop :=
  List.Forall₂ (fun h d => parse_outline (get_outline (fit h)) = .ok d) haloes ds

/-- `f` is the complete table of the fits of these haloes, one row per halo and in their order. -/
def TableOf {H : Type} (fit : H → FitResult) (haloes : List H) (f : Option OutFile) : Prop :=
  ∃ ds, PrintedFits fit haloes ds ∧ f = some (.h5 (resultColumns ds))

/-- As `TableOf`, with the halo ids as first column -/
def TableWithIds {H : Type} (fit : H → FitResult) (ids : List ℤ) (haloes : List H)
    (f : Option OutFile) : Prop :=
  ∃ ds, PrintedFits fit haloes ds ∧
    f = some (.h5 (("halo_id".toList, .ints ids) :: resultColumns ds))

/-- The data given to the fitter for a halo with times `t` and masses `m`, when the latest time of
the catalogue is `T0`: the running peak of the masses; if the halo ends before `T0`, one more point at
`T0` with the last peak mass; and the fit is skipped if the halo lived for less than `dt_min`. -/
def Prepared (T0 dt_min : ℝ) (t m : List ℝ) (x : List XR × List XR × Bool) : Prop :=
  ∃ first last peaks lastPeak, t.head? = some first ∧ t.getLast? = some last ∧
    IsPeakHistory m peaks ∧ peaks.getLast? = some lastPeak ∧
    (T0 ≤ last → x.1 = t.map XR.fin ∧ x.2.1 = peaks.map XR.fin) ∧
    (last < T0 → x.1 = (t ++ [T0]).map XR.fin ∧ x.2.1 = (peaks ++ [lastPeak]).map XR.fin) ∧
    (x.2.2 = true ↔ last - first < dt_min)

/-! ## Lemmas -/

theorem isTemp_iff {d : Str} (h1 : '{' ∉ d) (h2 : '*' ∉ d) (p : Str) :
    IsTemp d p ↔ globMatch (tmpPattern d d) p = true := by
  rw [tmpPattern_match h1 h2]
  constructor
  · rintro ⟨mid, hm, rfl⟩
    refine ⟨mid, ?_, hm⟩
    rw [pathJoin_eq d]
    · simp only [List.append_assoc]
    · intro h
      rcases List.mem_append.1 h with h | h
      · rcases List.mem_append.1 h with h | h
        · revert h; decide
        · exact hm h
      · revert h; decide
  · rintro ⟨mid, rfl, hm⟩
    refine ⟨mid, hm, ?_⟩
    rw [pathJoin_eq d]
    · simp only [List.append_assoc]
    · intro h
      rcases List.mem_append.1 h with h | h
      · rcases List.mem_append.1 h with h | h
        · revert h; decide
        · exact hm h
      · revert h; decide

theorem notTemp_iff {d : Str} (h1 : '{' ∉ d) (h2 : '*' ∉ d) (p : Str) :
    ¬ IsTemp d p ↔ globMatch (tmpPattern d d) p = false := by
  rw [isTemp_iff h1 h2, Bool.not_eq_true]

theorem isTemp_tmpName {d : Str} (h1 : '{' ∉ d) (h2 : '*' ∉ d) (r : ℕ) : IsTemp d (tmpName d r) :=
  (isTemp_iff h1 h2 _).2 (tmpPattern_tmpName h1 h2 r)

theorem printed {H : Type} (fit : H → FitResult) (haloes : List H) :
    PrintedFits fit haloes (haloes.map fun h => readResult (fit h)) := by
  unfold PrintedFits
  rw [List.forall₂_map_right_iff]
  exact List.forall₂_same.2 fun h _ => parse_outline_ok (fit h)

/-- The columns made from the rows of all ranks -/
theorem columns_ok {H : Type} (fit : H → FitResult) (haloes : List H) :
    write_collated_data (.d2 8 (haloes.map fun h => outFields (fit h) none))
      = .ok (some (resultColumns (haloes.map fun h => readResult (fit h)))) := by
  apply C43_eight_columns_partial
  rw [List.forall₂_map_left_iff, List.forall₂_map_right_iff]
  exact List.forall₂_same.2 fun h _ => rowIs_outline (fit h)

theorem columnsId_ok {H : Type} (fit : H → FitResult) (haloes : List (ℤ × H)) :
    write_collated_data (.d2 9 (haloes.map fun h => outFields (fit h.2) (some h.1)))
      = .ok (some (("halo_id".toList, .ints (haloes.map Prod.fst)) ::
          resultColumns (haloes.map fun h => readResult (fit h.2)))) := by
  have := C43_nine_columns_partial (haloes.map fun h => outFields (fit h.2) (some h.1))
    (haloes.map fun h => (h.1, readResult (fit h.2))) (by
      rw [List.forall₂_map_left_iff, List.forall₂_map_right_iff]
      exact List.forall₂_same.2 fun h _ => ⟨_, _, rfl, pyInt_intStr h.1, rowIs_outline _⟩)
  simpa [List.map_map, Function.comp_def] using this

theorem runActs_rank (fname : Str) (fits : List FitResult) (fs : FS OutFile) :
    (runActs (rankActs fname fits) fs).lookup fname = some (.text (rankFile fits)) := by
  unfold runActs rankActs
  rw [List.foldl_append]
  simp [set_lookup]

theorem rankActs_writes (own : Str → Prop) {fname : Str} (h : own fname) (fits : List FitResult) :
    WritesOnly own (rankActs fname fits) := by
  intro a ha
  unfold rankActs at ha
  simp only [List.cons_append, List.mem_cons, List.mem_append, List.mem_map, List.not_mem_nil,
    or_false] at ha
  rcases ha with rfl | ⟨_, _, rfl⟩ | rfl <;> exact ⟨_, _, h, rfl⟩

theorem runActs_rankId (fname : Str) (fits : List (ℤ × FitResult)) (fs : FS OutFile) :
    (runActs (rankActsId fname fits) fs).lookup fname = some (.text (rankFileId fits)) := by
  unfold runActs rankActsId
  rw [List.foldl_append]
  simp [set_lookup]

theorem rankActsId_writes (own : Str → Prop) {fname : Str} (h : own fname)
    (fits : List (ℤ × FitResult)) : WritesOnly own (rankActsId fname fits) := by
  intro a ha
  unfold rankActsId at ha
  simp only [List.cons_append, List.mem_cons, List.mem_append, List.mem_map, List.not_mem_nil,
    or_false] at ha
  rcases ha with rfl | ⟨_, _, rfl⟩ | rfl <;> exact ⟨_, _, h, rfl⟩

theorem headerLine_head : headerLine.head? = some '#' := by decide

theorem headerLineId_head : headerLineId.head? = some '#' := by decide

set_option maxRecDepth 10000 in
theorem headerLine_clean' : ∀ c ∈ headerLine, c ≠ '\n' := by decide

theorem tmpName_ne_out {d outbn : Str} (h1 : '{' ∉ d) (h2 : '*' ∉ d)
    (ho : globMatch (tmpPattern d d) (pathJoin d outbn) = false) (r : ℕ) :
    tmpName d r ≠ pathJoin d outbn := by
  intro e
  have := tmpPattern_tmpName h1 h2 r
  rw [e, ho] at this
  cases this

/-- A job in which rank `r` fits the haloes `share r` and writes no other file -/
theorem plainJob {H : Type} (fit : H → FitResult) {d outbn : Str} (hd : ShellSafe d)
    (ho : globMatch (tmpPattern d d) (pathJoin d outbn) = false) (nranks : ℕ) (share : ℕ → List H)
    {acts : ℕ → List (FS OutFile → FS OutFile)}
    (ha : ∀ r < nranks, acts r = rankActs (tmpName d r) ((share r).map fit)) :
    Job d outbn nranks acts (fun r p => p = tmpName d r) headerLine 8
      (fun r => (share r).map fun h => outFields (fit h) none) where
  safe := hd
  disj := fun r r' p h h' =>
    tmpName_injective (hd.notMem (by decide) (by decide)) (h.symm.trans h')
  writes := fun r hr => by rw [ha r hr]; exact rankActs_writes (fun p => p = tmpName d r) rfl _
  mine := fun r => rfl
  notOut := fun r p h => by
    rw [h]
    exact tmpName_ne_out (hd.notMem (by decide) (by decide)) (hd.notMem (by decide) (by decide)) ho r
  final := fun r hr fs => by
    rw [ha r hr, runActs_rank, rankFile_rows, List.map_map]; rfl
  hdr1 := headerLine_head
  hdr2 := headerLine_clean'
  word := fun r _ x hx f hf => by
    obtain ⟨h, _, rfl⟩ := List.mem_map.1 hx
    exact outFields_word _ _ f hf
  w0 := by decide
  width := fun r _ x hx => by
    obtain ⟨h, _, rfl⟩ := List.mem_map.1 hx
    rfl
  outTemp := ho

theorem flatten_rows {H : Type} (g : H → List Str) (nranks : ℕ) (share : ℕ → List H) :
    ((List.range nranks).map fun r => (share r).map g).flatten
      = ((List.range nranks).map share).flatten.map g := by
  rw [List.map_flatten, List.map_map]; rfl

/-! ## TNG -/

theorem tng_slash : '/' ∉ tngOut := by decide
theorem tng_last : tngOut.getLast? ≠ some 't' := by decide

theorem tngActs_ok {H : Type} (fit : H → FitResult) (mahs : List H) (d : Str) {nranks r : ℕ}
    (hr : r < nranks) :
    tngActs fit mahs d nranks r = .ok (rankActs (tmpName d r)
      (((cut (sectionSizes mahs.length nranks) mahs).getD r []).map fit)) := by
  unfold tngActs
  rw [rankShare_ok mahs le_rfl hr, List.take_length]
  rfl

theorem tngJob {H : Type} (fit : H → FitResult) (mahs : List H) {d : Str} (hd : ShellSafe d)
    {nranks : ℕ} {acts : ℕ → List (FS OutFile → FS OutFile)} (ha : TngActs fit mahs d nranks acts) :
    Job d tngOut nranks acts (fun r p => p = tmpName d r) headerLine 8
      (fun r => ((cut (sectionSizes mahs.length nranks) mahs).getD r []).map
        fun h => outFields (fit h) none) :=
  plainJob fit hd (tmpPattern_other (hd.notMem (by decide) (by decide))
    (hd.notMem (by decide) (by decide)) tng_slash tng_last) nranks _ fun r hr => by
    have := ha r hr
    rw [tngActs_ok fit mahs d hr] at this
    exact (Except.ok.inj this).symm

theorem tng_columns {H : Type} (fit : H → FitResult) (mahs : List H) {nranks : ℕ} (h0 : 0 < nranks) :
    write_collated_data (.d2 8 ((List.range nranks).map fun r =>
        ((cut (sectionSizes mahs.length nranks) mahs).getD r []).map
          fun h => outFields (fit h) none).flatten)
      = .ok (some (resultColumns (mahs.map fun h => readResult (fit h)))) := by
  rw [flatten_rows, shares_flatten mahs h0, columns_ok]

/-- Without a rank nothing is collated. -/
theorem run_zero {d outbn : Str} {acts : ℕ → List (FS OutFile → FS OutFile)} {fs t : FS OutFile} :
    ¬ Run acts (collateCatalogue d d outbn 0) 0 fs t := by
  rintro ⟨todo, u, tr, hs, hb, e⟩
  unfold collateCatalogue at e
  rw [collateFiles_eq (files := fun _ => [])] at e
  · simp only [List.range_zero, List.map_nil] at e
    have : ∃ e, collate [] = .error e := ⟨.valueError, rfl⟩
    obtain ⟨e', he'⟩ := this
    rw [he'] at e; cases e
  · intro p hp; simp at hp

/-- **C94** (TNG). For every fitter, every catalogue, every number of ranks, every interleaving of the
ranks and every earlier state of the files: when the run comes to its end, the output file is the table
of the fits of all haloes in catalogue order, no rank's temporary file is left, and all files other
than the output and the temporary ones are as they were. -/
theorem C94_tng {H : Type} (fit : H → FitResult) (mahs : List H) {d : Str} (hd : ShellSafe d)
    (nranks : ℕ) {acts : ℕ → List (FS OutFile → FS OutFile)} (ha : TngActs fit mahs d nranks acts)
    {fs t : FS OutFile} (hrun : Run acts (collateCatalogue d d tngOut nranks) nranks fs t) :
    TableOf fit mahs (t.lookup (pathJoin d "diffmah_tng_fits.hdf5".toList)) ∧
    (∀ r, t.lookup (tmpName d r) = none) ∧
    ∀ p, p ≠ pathJoin d "diffmah_tng_fits.hdf5".toList → ¬ IsTemp d p → t.lookup p = fs.lookup p := by
  have J := tngJob fit mahs hd ha
  rcases Nat.eq_zero_or_pos nranks with rfl | h0
  · exact absurd hrun run_zero
  obtain ⟨-, h1, h2, -, h4⟩ := J.result (tng_columns fit mahs h0) hrun
  refine ⟨⟨_, printed fit mahs, h1⟩, h2, fun p hp ht => h4 p hp ((notTemp_iff J.brace J.star p).1 ht) ?_⟩
  rintro r hr rfl
  exact ht (isTemp_tmpName J.brace J.star r)

/-- **C94** (TNG: the run can be completed). With at least two haloes per rank. -/
theorem C94_tng_progress {H : Type} (fit : H → FitResult) (mahs : List H) {d : Str} (hd : ShellSafe d)
    (nranks : ℕ) (h0 : 0 < nranks) (hn : 2 * nranks ≤ mahs.length) (fs : FS OutFile) :
    ∃ acts t, TngActs fit mahs d nranks acts ∧
      Run acts (collateCatalogue d d tngOut nranks) nranks fs t := by
  have ha : TngActs fit mahs d nranks fun r => rankActs (tmpName d r)
      (((cut (sectionSizes mahs.length nranks) mahs).getD r []).map fit) :=
    fun r hr => tngActs_ok fit mahs d hr
  obtain ⟨t, ht⟩ := (tngJob fit mahs hd ha).progress h0
    (fun r hr => by rw [List.length_map]; exact (share_two mahs h0).2 hn r hr)
    (tng_columns fit mahs h0) fs
  exact ⟨_, t, ha, ht⟩

/-- **C94** (TNG: too few haloes). With fewer than two haloes per rank no run comes to its end. -/
theorem C94_tng_too_few {H : Type} (fit : H → FitResult) (mahs : List H) {d : Str} (hd : ShellSafe d)
    (nranks : ℕ) (hn : mahs.length < 2 * nranks) {acts : ℕ → List (FS OutFile → FS OutFile)}
    (ha : TngActs fit mahs d nranks acts) (fs t : FS OutFile) :
    ¬ Run acts (collateCatalogue d d tngOut nranks) nranks fs t := by
  intro hrun
  have J := tngJob fit mahs hd ha
  have h0 : 0 < nranks := by omega
  obtain ⟨⟨-, h⟩, -⟩ := J.result (tng_columns fit mahs h0) hrun
  have := (share_two mahs h0).1 fun r hr => by have := h r hr; rwa [List.length_map] at this
  omega

/-- **C94** (TNG: crash at any moment). Files other than the output and the temporary ones never
change. If the output has been touched, either every rank's temporary file still holds all its fits or
the output is already the complete table. -/
theorem C94_tng_crash_safety {H : Type} (fit : H → FitResult) (mahs : List H) {d : Str}
    (hd : ShellSafe d) (nranks : ℕ) {acts : ℕ → List (FS OutFile → FS OutFile)}
    (ha : TngActs fit mahs d nranks acts) {fs t : FS OutFile}
    (hm : Moment acts (collateCatalogue d d tngOut nranks) nranks fs t) :
    (∀ p, p ≠ pathJoin d "diffmah_tng_fits.hdf5".toList → ¬ IsTemp d p → t.lookup p = fs.lookup p) ∧
    (t.lookup (pathJoin d "diffmah_tng_fits.hdf5".toList)
        ≠ fs.lookup (pathJoin d "diffmah_tng_fits.hdf5".toList) →
      (∃ shares : List (List H), shares.length = nranks ∧ shares.flatten = mahs ∧
        ∀ r < nranks, t.lookup (tmpName d r) = some (.text (rankFile ((shares.getD r []).map fit)))) ∨
      TableOf fit mahs (t.lookup (pathJoin d "diffmah_tng_fits.hdf5".toList))) := by
  have J := tngJob fit mahs hd ha
  rcases Nat.eq_zero_or_pos nranks with rfl | h0
  · obtain ⟨todo, u, hs, ht⟩ := hm
    obtain ⟨-, -, b2⟩ := sched_own J.disj J.writes hs
    have hu : ∀ p, u.lookup p = fs.lookup p := fun p => b2 p fun r hr => absurd hr (by omega)
    rcases ht with rfl | ⟨hb, ht⟩
    · exact ⟨fun p _ _ => hu p, fun h => absurd (hu _) h⟩
    · obtain ⟨e, he⟩ := J.few (.inl rfl) hs hb
      rw [he] at ht; cases ht
  obtain ⟨h1, h2⟩ := J.moment (tng_columns fit mahs h0) hm
  refine ⟨fun p hp ht => h1 p hp ((notTemp_iff J.brace J.star p).1 ht) ?_, fun hne => ?_⟩
  · rintro r hr rfl
    exact ht (isTemp_tmpName J.brace J.star r)
  · rcases h2 hne with h | h
    · refine .inl ⟨cut (sectionSizes mahs.length nranks) mahs, ?_, ?_, fun r hr => ?_⟩
      · rw [cut_length, sectionSizes_length _ _ h0]
      · exact (cut_flatten _ _ (sectionSizes_sum _ _ h0)).1
      · rw [h r hr, rankFile_rows, List.map_map]; rfl
    · exact .inr ⟨_, printed fit mahs, h⟩

/-! ## Bolshoi-Planck -/

theorem bpl_slash : '/' ∉ bplOut := by decide
theorem bpl_last : bplOut.getLast? ≠ some 't' := by decide
theorem bplTarget_slash : '/' ∉ bplTargetOut := by decide
theorem bplTarget_last : bplTargetOut.getLast? ≠ some 't' := by decide

theorem bplTarget_ne_out (d : Str) : pathJoin d bplTargetOut ≠ pathJoin d bplOut := by
  rw [pathJoin_eq d bplTarget_slash, pathJoin_eq d bpl_slash]
  intro h
  exact absurd (List.append_cancel_left h) (by decide)

/-- If every rank can take its share of the first `m` rows, there are `m` rows. -/
theorem rankShare_enough {α : Type} (table : List α) (m k : ℕ) (h0 : 0 < k)
    (h : ∀ r < k, ∃ s, rankShare table m k r = .ok s) : m ≤ table.length := by
  by_contra hlt
  push Not at hlt
  have hflat := shares_flatten (List.range m) h0
  rw [List.length_range] at hflat
  have hmem : table.length ∈ List.range m := List.mem_range.2 hlt
  rw [← hflat, List.mem_flatten] at hmem
  obtain ⟨l, hl, hin⟩ := hmem
  obtain ⟨r, hr, rfl⟩ := List.mem_map.1 hl
  rw [List.mem_range] at hr
  obtain ⟨s, hs⟩ := h r hr
  have hlen : r < (cut (sectionSizes m k) (List.range m)).length := by
    rw [cut_length, sectionSizes_length _ _ h0]; exact hr
  unfold rankShare at hs
  rw [array_split, if_neg (by omega), List.length_range] at hs
  simp only [bind, Except.bind] at hs
  rw [List.getElem?_eq_getElem hlen] at hs
  simp only at hs
  rw [List.getD_eq_getElem?_getD, List.getElem?_eq_getElem hlen, Option.getD_some] at hin
  revert hs hin
  generalize (cut (sectionSizes m k) (List.range m))[r] = indx
  clear * -
  intro hin hs
  unfold takeRows at hs
  induction indx generalizing s with
  | nil => exact absurd hin List.not_mem_nil
  | cons i indx ih =>
    rw [List.mapM_cons] at hs
    simp only [bind, Except.bind] at hs
    cases hi : table[i]? with
    | none => rw [hi] at hs; cases hs
    | some x =>
      rw [hi] at hs
      simp only at hs
      have hil : i < table.length := (List.getElem?_eq_some_iff.1 hi).1
      split at hs
      · cases hs
      · rename_i s' hrest
        rcases List.mem_cons.1 hin with h | h
        · omega
        · exact ih s' h hrest

/-- The number of haloes the script fits -/
def bplCount (test : Bool) (halo_ids : List ℤ) (nranks : ℕ) : ℕ :=
  if test then nranks * 5 else halo_ids.length

section
variable (fit : List XR → FitResult) (halo_ids : List ℤ) (raw : List (List XR)) (ts : List XR)
  (test : Bool)

/-- Ids and histories of the haloes to fit -/
noncomputable def bplHaloes (nranks : ℕ) : List (ℤ × List XR) :=
  (halo_ids.zip (raw.map accumulate)).take (bplCount test halo_ids nranks)

theorem bplHaloes_fst (hl : halo_ids.length = raw.length) (nranks : ℕ) :
    (bplHaloes halo_ids raw test nranks).map Prod.fst
      = halo_ids.take (bplCount test halo_ids nranks) := by
  unfold bplHaloes
  rw [List.map_take, List.map_fst_zip (by simp [hl])]

theorem bplHaloes_snd (hl : halo_ids.length = raw.length) (nranks : ℕ) :
    (bplHaloes halo_ids raw test nranks).map Prod.snd
      = (raw.map accumulate).take (bplCount test halo_ids nranks) := by
  unfold bplHaloes
  rw [List.map_take, List.map_snd_zip (by simp [hl])]

theorem bplHaloes_length (hl : halo_ids.length = raw.length) {nranks : ℕ}
    (hm : bplCount test halo_ids nranks ≤ halo_ids.length) :
    (bplHaloes halo_ids raw test nranks).length = bplCount test halo_ids nranks := by
  have := congrArg List.length (bplHaloes_fst halo_ids raw test hl nranks)
  rw [List.length_map, List.length_take] at this
  rw [this]; omega

/-- The share of one rank -/
noncomputable def bplShare (nranks r : ℕ) : List (ℤ × List XR) :=
  (cut (sectionSizes (bplHaloes halo_ids raw test nranks).length nranks)
    (bplHaloes halo_ids raw test nranks)).getD r []

/-- The writing of the target file by rank 0 -/
noncomputable def bplFirst (d : Str) (r : ℕ) : List (FS OutFile → FS OutFile) :=
  if r = 0 then
    [fun fs => Dict.set fs (pathJoin d bplTargetOut) .torn,
      fun fs => Dict.set fs (pathJoin d bplTargetOut)
        (.h5 (bplTargets halo_ids (raw.map accumulate) ts))]
  else []

theorem getD_map {α β : Type} (f : α → β) (l : List (List α)) (r : ℕ) :
    (l.map (List.map f)).getD r [] = (l.getD r []).map f := by
  rw [List.getD_eq_getElem?_getD, List.getD_eq_getElem?_getD, List.getElem?_map]
  cases l[r]? <;> rfl

theorem bplActs_ok (hl : halo_ids.length = raw.length) (d : Str) {nranks r : ℕ}
    (hm : bplCount test halo_ids nranks ≤ halo_ids.length) (hr : r < nranks) :
    bplActs fit halo_ids raw ts test d d nranks r = .ok (bplFirst halo_ids raw ts d r ++
      rankActsId (tmpName d r) ((bplShare halo_ids raw test nranks r).map fun h => (h.1, fit h.2))) := by
  have e1 : rankShare halo_ids (bplCount test halo_ids nranks) nranks r
      = .ok ((bplShare halo_ids raw test nranks r).map Prod.fst) := by
    rw [rankShare_ok halo_ids hm hr, ← bplHaloes_fst halo_ids raw test hl nranks, cut_map, getD_map,
      bplShare, bplHaloes_length halo_ids raw test hl hm]
  have e2 : rankShare (raw.map accumulate) (bplCount test halo_ids nranks) nranks r
      = .ok ((bplShare halo_ids raw test nranks r).map Prod.snd) := by
    rw [rankShare_ok (raw.map accumulate) (by simp; omega) hr,
      ← bplHaloes_snd halo_ids raw test hl nranks, cut_map, getD_map,
      bplShare, bplHaloes_length halo_ids raw test hl hm]
  unfold bplActs
  change (do
    let a ← rankShare halo_ids (bplCount test halo_ids nranks) nranks r
    let b ← rankShare (raw.map accumulate) (bplCount test halo_ids nranks) nranks r
    return bplFirst halo_ids raw ts d r ++ rankActsId (tmpName d r) (a.zip (b.map fit))) = _
  rw [e1, e2]
  simp only [bind, Except.bind, pure, Except.pure]
  congr 3
  rw [List.map_map]
  induction bplShare halo_ids raw test nranks r with
  | nil => rfl
  | cons x l ih => simp [ih]

theorem bplActs_enough {d : Str} {nranks : ℕ} (h0 : 0 < nranks)
    {acts : ℕ → List (FS OutFile → FS OutFile)}
    (ha : BplActs fit halo_ids raw ts test d d nranks acts) :
    bplCount test halo_ids nranks ≤ halo_ids.length := by
  refine rankShare_enough halo_ids _ nranks h0 fun r hr => ?_
  have := ha r hr
  unfold bplActs at this
  cases h : rankShare halo_ids (bplCount test halo_ids nranks) nranks r with
  | ok s => exact ⟨s, rfl⟩
  | error e =>
    change (do
      let a ← rankShare halo_ids (bplCount test halo_ids nranks) nranks r
      let b ← rankShare (raw.map accumulate) (bplCount test halo_ids nranks) nranks r
      return bplFirst halo_ids raw ts d r ++ rankActsId (tmpName d r) (a.zip (b.map fit))) = _ at this
    rw [h] at this
    cases this

/-- The files rank `r` writes -/
def bplOwn (d : Str) (r : ℕ) (p : Str) : Prop := p = tmpName d r ∨ r = 0 ∧ p = pathJoin d bplTargetOut

theorem runActs_append (a b : List (FS OutFile → FS OutFile)) (fs : FS OutFile) :
    runActs (a ++ b) fs = runActs b (runActs a fs) := by
  unfold runActs; rw [List.foldl_append]

theorem bplFirst_writes (d : Str) (r : ℕ) : WritesOnly (bplOwn d r) (bplFirst halo_ids raw ts d r) := by
  intro a h
  unfold bplFirst at h
  split at h
  · rename_i h0
    simp only [List.mem_cons, List.not_mem_nil, or_false] at h
    rcases h with rfl | rfl <;> exact ⟨_, _, .inr ⟨h0, rfl⟩, rfl⟩
  · cases h

theorem bplJob (hl : halo_ids.length = raw.length) {d : Str} (hd : ShellSafe d) {nranks : ℕ}
    (hm : bplCount test halo_ids nranks ≤ halo_ids.length)
    {acts : ℕ → List (FS OutFile → FS OutFile)}
    (ha : BplActs fit halo_ids raw ts test d d nranks acts) :
    Job d bplOut nranks acts (bplOwn d) headerLineId 9
      (fun r => (bplShare halo_ids raw test nranks r).map fun h => outFields (fit h.2) (some h.1)) := by
  have h1 : '{' ∉ d := hd.notMem (by decide) (by decide)
  have h2 : '*' ∉ d := hd.notMem (by decide) (by decide)
  have e : ∀ r < nranks, acts r = bplFirst halo_ids raw ts d r ++
      rankActsId (tmpName d r) ((bplShare halo_ids raw test nranks r).map fun h => (h.1, fit h.2)) := by
    intro r hr
    have := ha r hr
    rw [bplActs_ok fit halo_ids raw ts test hl d hm hr] at this
    exact (Except.ok.inj this).symm
  refine ⟨hd, ?_, ?_, fun r => .inl rfl, ?_, ?_, headerLineId_head, headerLineId_clean, ?_, by decide, ?_,
    tmpPattern_other h1 h2 bpl_slash bpl_last⟩
  · rintro r r' p (rfl | ⟨rfl, rfl⟩) (h | ⟨rfl, h⟩)
    · exact tmpName_injective h1 h
    · exact absurd h (tmpName_ne_out h1 h2 (tmpPattern_other h1 h2 bplTarget_slash bplTarget_last) r)
    · exact absurd h.symm (tmpName_ne_out h1 h2 (tmpPattern_other h1 h2 bplTarget_slash bplTarget_last) r')
    · rfl
  · intro r hr a h
    rw [e r hr] at h
    rcases List.mem_append.1 h with h | h
    · exact bplFirst_writes halo_ids raw ts d r a h
    · exact rankActsId_writes (bplOwn d r) (.inl rfl) _ a h
  · rintro r p (rfl | ⟨rfl, rfl⟩)
    · exact tmpName_ne_out h1 h2 (tmpPattern_other h1 h2 bpl_slash bpl_last) r
    · exact bplTarget_ne_out d
  · intro r hr fs
    rw [e r hr, runActs_append, runActs_rankId, rankFileId_rows, List.map_map]; rfl
  · intro r _ x hx f hf
    obtain ⟨h, _, rfl⟩ := List.mem_map.1 hx
    exact outFields_word _ _ f hf
  · intro r _ x hx
    obtain ⟨h, _, rfl⟩ := List.mem_map.1 hx
    rfl

theorem bpl_columns {nranks : ℕ} (h0 : 0 < nranks) :
    write_collated_data (.d2 9 ((List.range nranks).map fun r =>
        (bplShare halo_ids raw test nranks r).map fun h => outFields (fit h.2) (some h.1)).flatten)
      = .ok (some (("halo_id".toList, .ints ((bplHaloes halo_ids raw test nranks).map Prod.fst)) ::
          resultColumns ((bplHaloes halo_ids raw test nranks).map fun h => readResult (fit h.2)))) := by
  rw [flatten_rows]
  unfold bplShare
  rw [shares_flatten _ h0, columnsId_ok]

theorem bpl_table (hl : halo_ids.length = raw.length) (nranks : ℕ) :
    TableWithIds fit (halo_ids.take (bplCount test halo_ids nranks))
      ((raw.map accumulate).take (bplCount test halo_ids nranks))
      (some (.h5 (("halo_id".toList, .ints ((bplHaloes halo_ids raw test nranks).map Prod.fst)) ::
          resultColumns ((bplHaloes halo_ids raw test nranks).map fun h => readResult (fit h.2))))) := by
  refine ⟨_, printed fit _, ?_⟩
  rw [← bplHaloes_fst halo_ids raw test hl nranks, ← bplHaloes_snd halo_ids raw test hl nranks,
    List.map_map]
  rfl

/-- **C94** (Bolshoi-Planck). As `C94_tng`, with the halo ids as first column of the output, next to
the fit of the same halo, and with the file of the target histories complete. In test mode the haloes
are the first five times the number of ranks. -/
theorem C94_bpl (hl : halo_ids.length = raw.length) {d : Str} (hd : ShellSafe d) (nranks : ℕ)
    {acts : ℕ → List (FS OutFile → FS OutFile)}
    (ha : BplActs fit halo_ids raw ts test d d nranks acts) {fs t : FS OutFile}
    (hrun : Run acts (collateCatalogue d d bplOut nranks) nranks fs t) :
    (∃ m, m = (if test then 5 * nranks else halo_ids.length) ∧ m ≤ halo_ids.length ∧
      TableWithIds fit (halo_ids.take m) ((raw.map accumulate).take m)
        (t.lookup (pathJoin d "diffmah_fits.hdf5".toList))) ∧
    t.lookup (pathJoin d "bpl_mpeak_histories.hdf5".toList)
      = some (.h5 [("halo_id".toList, .ints halo_ids),
          ("mpeak_history".toList, .floats (raw.map accumulate).flatten),
          ("bpl_t_table".toList, .floats ts)]) ∧
    (∀ r, t.lookup (tmpName d r) = none) ∧
    ∀ p, p ≠ pathJoin d "diffmah_fits.hdf5".toList →
      p ≠ pathJoin d "bpl_mpeak_histories.hdf5".toList → ¬ IsTemp d p → t.lookup p = fs.lookup p := by
  rcases Nat.eq_zero_or_pos nranks with rfl | h0
  · exact absurd hrun run_zero
  have hm := bplActs_enough fit halo_ids raw ts test h0 ha
  have J := bplJob fit halo_ids raw ts test hl hd hm ha
  obtain ⟨-, h1, h2, h3, h4⟩ := J.result (bpl_columns fit halo_ids raw test h0) hrun
  refine ⟨⟨bplCount test halo_ids nranks, ?_, hm, ?_⟩, ?_, h2, fun p hp hp' ht => ?_⟩
  · unfold bplCount; rw [Nat.mul_comm]
  · rw [show pathJoin d "diffmah_fits.hdf5".toList = pathJoin d bplOut from rfl, h1]
    exact bpl_table fit halo_ids raw test hl nranks
  · rw [show pathJoin d "bpl_mpeak_histories.hdf5".toList = pathJoin d bplTargetOut from rfl,
      h3 0 h0 (pathJoin d bplTargetOut) (.inr ⟨rfl, rfl⟩)
        (tmpPattern_other J.brace J.star bplTarget_slash bplTarget_last)]
    have := ha 0 h0
    rw [bplActs_ok fit halo_ids raw ts test hl d hm h0] at this
    rw [← Except.ok.inj this, runActs_append,
      runActs_other (rankActsId_writes (fun p => p = tmpName d 0) rfl _) _
        (fun h => tmpName_ne_out J.brace J.star
          (tmpPattern_other J.brace J.star bplTarget_slash bplTarget_last) 0 h.symm)]
    unfold bplFirst runActs
    rw [if_pos rfl]
    simp only [List.foldl_cons, List.foldl_nil]
    rw [set_lookup, if_pos rfl]
    rfl
  · refine h4 p hp ((notTemp_iff J.brace J.star p).1 ht) ?_
    rintro r hr (rfl | ⟨rfl, rfl⟩)
    · exact ht (isTemp_tmpName J.brace J.star r)
    · exact hp' rfl

/-- **C94** (Bolshoi-Planck: the run can be completed). With at least two haloes per rank, or five in
test mode. -/
theorem C94_bpl_progress (hl : halo_ids.length = raw.length) {d : Str} (hd : ShellSafe d) (nranks : ℕ)
    (h0 : 0 < nranks) (hn : (if test then 5 else 2) * nranks ≤ halo_ids.length) (fs : FS OutFile) :
    ∃ acts t, BplActs fit halo_ids raw ts test d d nranks acts ∧
      Run acts (collateCatalogue d d bplOut nranks) nranks fs t := by
  have hm : bplCount test halo_ids nranks ≤ halo_ids.length := by
    unfold bplCount; cases test <;> simp at hn ⊢; omega
  have ha : BplActs fit halo_ids raw ts test d d nranks _ :=
    fun r hr => bplActs_ok fit halo_ids raw ts test hl d hm hr
  obtain ⟨t, ht⟩ := (bplJob fit halo_ids raw ts test hl hd hm ha).progress h0
    (fun r hr => by
      rw [List.length_map]
      refine (share_two _ h0).2 ?_ r hr
      rw [bplHaloes_length halo_ids raw test hl hm]
      unfold bplCount; cases test <;> simp at hn ⊢ <;> omega)
    (bpl_columns fit halo_ids raw test h0) fs
  exact ⟨_, t, ha, ht⟩

/-- **C94** (Bolshoi-Planck: too few haloes). With fewer than two haloes per rank no run comes to its
end; in test mode this happens already with fewer than five (`C97_bpl_test`). -/
theorem C94_bpl_too_few (hl : halo_ids.length = raw.length) {d : Str} (hd : ShellSafe d) (nranks : ℕ)
    (hn : halo_ids.length < 2 * nranks) {acts : ℕ → List (FS OutFile → FS OutFile)}
    (ha : BplActs fit halo_ids raw ts test d d nranks acts) (fs t : FS OutFile) :
    ¬ Run acts (collateCatalogue d d bplOut nranks) nranks fs t := by
  intro hrun
  have h0 : 0 < nranks := by omega
  have hm := bplActs_enough fit halo_ids raw ts test h0 ha
  obtain ⟨⟨-, h⟩, -⟩ := (bplJob fit halo_ids raw ts test hl hd hm ha).result
    (bpl_columns fit halo_ids raw test h0) hrun
  have := (share_two (bplHaloes halo_ids raw test nranks) h0).1 fun r hr => by
    have := h r hr; rwa [List.length_map] at this
  rw [bplHaloes_length halo_ids raw test hl hm] at this
  omega

/-- **C94** (Bolshoi-Planck: crash at any moment). As for TNG. -/
theorem C94_bpl_crash_safety (hl : halo_ids.length = raw.length) {d : Str} (hd : ShellSafe d)
    (nranks : ℕ) (h0 : 0 < nranks) {acts : ℕ → List (FS OutFile → FS OutFile)}
    (ha : BplActs fit halo_ids raw ts test d d nranks acts) {fs t : FS OutFile}
    (hmo : Moment acts (collateCatalogue d d bplOut nranks) nranks fs t) :
    (∀ p, p ≠ pathJoin d "diffmah_fits.hdf5".toList →
      p ≠ pathJoin d "bpl_mpeak_histories.hdf5".toList → ¬ IsTemp d p → t.lookup p = fs.lookup p) ∧
    (t.lookup (pathJoin d "diffmah_fits.hdf5".toList)
        ≠ fs.lookup (pathJoin d "diffmah_fits.hdf5".toList) →
      ∃ m, m = (if test then 5 * nranks else halo_ids.length) ∧
      ((∃ shares : List (List (ℤ × List XR)), shares.length = nranks ∧
        shares.flatten = (halo_ids.zip (raw.map accumulate)).take m ∧
        ∀ r < nranks, t.lookup (tmpName d r)
          = some (.text (rankFileId ((shares.getD r []).map fun h => (h.1, fit h.2))))) ∨
      TableWithIds fit (halo_ids.take m) ((raw.map accumulate).take m)
        (t.lookup (pathJoin d "diffmah_fits.hdf5".toList)))) := by
  have hm := bplActs_enough fit halo_ids raw ts test h0 ha
  have J := bplJob fit halo_ids raw ts test hl hd hm ha
  obtain ⟨h1, h2⟩ := J.moment (bpl_columns fit halo_ids raw test h0) hmo
  refine ⟨fun p hp hp' ht => h1 p hp ((notTemp_iff J.brace J.star p).1 ht) ?_, fun hne =>
    ⟨bplCount test halo_ids nranks, by unfold bplCount; rw [Nat.mul_comm], ?_⟩⟩
  · rintro r hr (rfl | ⟨rfl, rfl⟩)
    · exact ht (isTemp_tmpName J.brace J.star r)
    · exact hp' rfl
  · rcases h2 hne with h | h
    · refine .inl ⟨cut (sectionSizes (bplHaloes halo_ids raw test nranks).length nranks)
        (bplHaloes halo_ids raw test nranks), ?_, ?_, fun r hr => ?_⟩
      · rw [cut_length, sectionSizes_length _ _ h0]
      · exact (cut_flatten _ _ (sectionSizes_sum _ _ h0)).1
      · rw [h r hr, rankFileId_rows, List.map_map]; rfl
    · right
      rw [show pathJoin d "diffmah_fits.hdf5".toList = pathJoin d bplOut from rfl, h]
      exact bpl_table fit halo_ids raw test hl nranks

end

/-! ## Galacticus -/

theorem npmax_fin (l : List ℝ) (h : l ≠ []) :
    ∃ M, npmax (l.map XR.fin) = .ok (XR.fin M) ∧ IsGreatest {x | x ∈ l} M := by
  cases l with
  | nil => exact absurd rfl h
  | cons a l =>
    rw [List.map_cons, npmax]
    clear h
    have key : ∀ (l : List ℝ) (a : ℝ), ∃ M, (l.map XR.fin).foldl XR.max (XR.fin a) = XR.fin M ∧
        IsGreatest {x | x = a ∨ x ∈ l} M := by
      intro l
      induction l with
      | nil => intro a; exact ⟨a, rfl, .inl rfl, by rintro x (rfl | h); exacts [le_rfl, absurd h List.not_mem_nil]⟩
      | cons b l ih =>
        intro a
        obtain ⟨M, h1, h2, h3⟩ := ih (max a b)
        refine ⟨M, h1, ?_, ?_⟩
        · rcases h2 with h2 | h2
          · rcases max_choice a b with h | h
            · left; rw [h2, h]
            · right; rw [h2, h]; exact List.mem_cons_self
          · exact .inr (List.mem_cons_of_mem _ h2)
        · have hab : max a b ≤ M := h3 (.inl rfl)
          rintro x (rfl | hx)
          · exact (le_max_left _ _).trans hab
          · rcases List.mem_cons.1 hx with rfl | hx
            · exact (le_max_right _ _).trans hab
            · exact h3 (.inr hx)
    obtain ⟨M, h1, h2⟩ := key l a
    refine ⟨M, by rw [h1], ?_⟩
    simpa [List.mem_cons] using h2

theorem cut_drop {α : Type} (l : List α) (a : ℕ) (ns : List ℕ) :
    cut ns (l.drop a) = (ranges a ns).map fun p => rows l p.1 p.2 := by
  induction ns generalizing a with
  | nil => rfl
  | cons n ns ih =>
    rw [cut, ranges, List.map_cons, List.drop_drop, ih, IO.rows_eq, List.drop_take]
    simp

theorem rows_zip {α β : Type} (l : List α) (m : List β) (a b : ℕ) :
    (rows l a b).zip (rows m a b) = rows (l.zip m) a b := by
  simp only [IO.rows_eq, List.zip, List.take_zipWith, List.drop_zipWith]

theorem galShare_ok (mass time : List (List XR)) {nranks r : ℕ} (hn : nranks ≤ mass.length)
    (hl : time.length = mass.length) (hr : r < nranks) :
    galShare mass time nranks r
      = .ok ((cut (sectionSizes (time.zip mass).length nranks) (time.zip mass)).getD r []) := by
  have hk : 0 < nranks := by omega
  have hz : (time.zip mass).length = mass.length := by simp [hl]
  have hlen : r < (ranges 0 (sectionSizes mass.length nranks)).length := by
    rw [ranges_length, sectionSizes_length _ _ hk]; exact hr
  obtain ⟨p, hp⟩ : ∃ p, (ranges 0 (sectionSizes mass.length nranks))[r]? = some p :=
    ⟨_, List.getElem?_eq_getElem hlen⟩
  obtain ⟨m, hm, hpm⟩ := ranges_get _ _ _ _ hp
  have hm0 : 0 < m := by
    have := mem_sectionSizes (List.mem_of_getElem? hm)
    have h1 : 0 < mass.length / nranks := Nat.div_pos hn hk
    omega
  unfold galShare
  rw [galacticusRange_eq _ _ _ hk, hp]
  simp only
  rw [if_pos (by omega)]
  have hsl : ∀ {X : Type} (l : List X), IO.pySlice l (p.1 : ℤ) (some (p.2 : ℤ)) = rows l p.1 p.2 :=
    fun l => IO.pySlice_nat l p.1 (some p.2)
  simp only [bind, Except.bind, pure, Except.pure, extract_galacticus_mah_tables, hsl, rows_zip]
  have e := cut_drop (time.zip mass) 0 (sectionSizes mass.length nranks)
  rw [List.drop_zero] at e
  rw [hz, e, List.getD_eq_getElem?_getD, List.getElem?_map, hp]
  rfl

theorem galShare_few (mass time : List (List XR)) {nranks : ℕ} (hn : mass.length < nranks) :
    galShare mass time nranks (nranks - 1) = .error .indexError := by
  unfold galShare
  rw [C76_idle_ranks mass.length nranks (nranks - 1) (by omega) (by omega)]
  rfl

/-- A halo as the loader gives it -/
def finHalo (h : List ℝ × List ℝ) : GalHalo := (h.1.map XR.fin, h.2.map XR.fin)

theorem zip_fin (time mass : List (List ℝ)) :
    (time.map (List.map XR.fin)).zip (mass.map (List.map XR.fin)) = (time.zip mass).map finHalo := by
  rw [List.zip_map]
  rfl

/-- The haloes of rank `r` -/
noncomputable def galPart (mass time : List (List ℝ)) (nranks r : ℕ) : List (List ℝ × List ℝ) :=
  (cut (sectionSizes (time.zip mass).length nranks) (time.zip mass)).getD r []

theorem galShare_fin (mass time : List (List ℝ)) {nranks r : ℕ} (hn : nranks ≤ mass.length)
    (hl : time.length = mass.length) (hr : r < nranks) :
    galShare (mass.map (List.map XR.fin)) (time.map (List.map XR.fin)) nranks r
      = .ok ((galPart mass time nranks r).map finHalo) := by
  rw [galShare_ok _ _ (by simpa using hn) (by simpa using hl) hr, zip_fin, List.length_map, cut_map,
    getD_map]
  rfl

theorem galTmax_fin (times : List (List ℝ)) (h0 : times ≠ []) (h : ∀ t ∈ times, t ≠ []) :
    ∃ M, galTmax (times.map (List.map XR.fin)) = .ok (XR.fin M) ∧
      IsGreatest {x | ∃ t ∈ times, t.getLast? = some x} M := by
  have hm : (times.map (List.map XR.fin)).mapM (fun t => match t.getLast? with
      | none => (.error .indexError : Except PyErr XR)
      | some x => .ok x) = .ok ((times.map fun t => t.getLastD 0).map XR.fin) := by
    rw [List.mapM_map, List.map_map]
    refine mapM_ok _ _ _ fun t ht => ?_
    simp only [Function.comp, List.getLast?_map, List.getLastD_eq_getLast?]
    rw [List.getLast?_eq_some_getLast (h t ht)]
    rfl
  obtain ⟨M, h1, h2, h3⟩ := npmax_fin (times.map fun t => t.getLastD 0) (by simpa using h0)
  refine ⟨M, ?_, ?_, ?_⟩
  · unfold galTmax
    refine Eq.trans (congrArg (fun e : Except PyErr (List XR) => e >>= npmax) hm) ?_
    exact h1
  · obtain ⟨t, ht, rfl⟩ := List.mem_map.1 h2
    exact ⟨t, ht, by rw [List.getLastD_eq_getLast?, List.getLast?_eq_some_getLast (h t ht)]; rfl⟩
  · rintro x ⟨t, ht, hx⟩
    exact h3 (List.mem_map.2 ⟨t, ht, by rw [List.getLastD_eq_getLast?, hx]; rfl⟩)

theorem mem_galPart {mass time : List (List ℝ)} (hl : time.length = mass.length) {nranks : ℕ}
    (h0 : 0 < nranks) (t : List ℝ) :
    t ∈ time ↔ ∃ r < nranks, t ∈ (galPart mass time nranks r).map Prod.fst := by
  have e : time = (time.zip mass).map Prod.fst := by rw [List.map_fst_zip (by omega)]
  have hf := shares_flatten (time.zip mass) h0
  constructor
  · intro ht
    rw [e] at ht
    obtain ⟨z, hz, rfl⟩ := List.mem_map.1 ht
    rw [← hf, List.mem_flatten] at hz
    obtain ⟨l, hl', hz⟩ := hz
    obtain ⟨r, hr, rfl⟩ := List.mem_map.1 hl'
    exact ⟨r, List.mem_range.1 hr, List.mem_map_of_mem hz⟩
  · rintro ⟨r, hr, ht⟩
    rw [e]
    obtain ⟨z, hz, rfl⟩ := List.mem_map.1 ht
    refine List.mem_map_of_mem ?_
    rw [← hf, List.mem_flatten]
    exact ⟨_, List.mem_map_of_mem (List.mem_range.2 hr), hz⟩

/-- **C95** (the common final time). On every rank the time to which all haloes are extended is the
latest final time of the whole catalogue, whatever the number of ranks. -/
theorem C95_latest_time (mass time : List (List ℝ)) (nranks : ℕ) (h0 : 0 < nranks)
    (hn : nranks ≤ mass.length) (hl : time.length = mass.length) (ht : ∀ t ∈ time, t ≠ []) :
    ∃ T0, galT0 (mass.map (List.map XR.fin)) (time.map (List.map XR.fin)) nranks = .ok (XR.fin T0) ∧
      IsGreatest {x | ∃ t ∈ time, t.getLast? = some x} T0 := by
  have hne : ∀ r < nranks, (galPart mass time nranks r).map Prod.fst ≠ [] := by
    intro r hr
    have := share_length (time.zip mass) hr
    rw [List.length_zip, hl, Nat.min_self] at this
    have h1 : 0 < mass.length / nranks := Nat.div_pos hn h0
    intro e
    have e' := congrArg List.length e
    rw [List.length_map, List.length_nil, galPart, List.length_zip, hl, Nat.min_self] at e'
    omega
  have hT : ∀ r < nranks, ∃ M, galTmax (((galPart mass time nranks r).map finHalo).map Prod.fst)
      = .ok (XR.fin M) ∧
      IsGreatest {x | ∃ t ∈ (galPart mass time nranks r).map Prod.fst, t.getLast? = some x} M := by
    intro r hr
    have := galTmax_fin ((galPart mass time nranks r).map Prod.fst) (hne r hr)
      fun t h => ht t ((mem_galPart hl h0 t).2 ⟨r, hr, h⟩)
    rw [List.map_map] at this ⊢
    exact this
  choose! M hM1 hM2 using hT
  have hm : (List.range nranks).mapM (fun r => do
      let share ← galShare (mass.map (List.map XR.fin)) (time.map (List.map XR.fin)) nranks r
      galTmax (share.map Prod.fst)) = .ok (((List.range nranks).map M).map XR.fin) := by
    rw [List.map_map]
    refine mapM_ok _ _ _ fun r hr => ?_
    rw [List.mem_range] at hr
    simp only [bind, Except.bind]
    rw [galShare_fin mass time hn hl hr]
    exact hM1 r hr
  obtain ⟨T0, h1, h2, h3⟩ := npmax_fin ((List.range nranks).map M) (by simp; omega)
  refine ⟨T0, ?_, ?_, ?_⟩
  · unfold galT0
    rw [hm]
    exact h1
  · obtain ⟨r, hr, rfl⟩ := List.mem_map.1 h2
    rw [List.mem_range] at hr
    obtain ⟨t, h, hx⟩ := (hM2 r hr).1
    exact ⟨t, (mem_galPart hl h0 t).2 ⟨r, hr, h⟩, hx⟩
  · rintro x ⟨t, h, hx⟩
    obtain ⟨r, hr, h'⟩ := (mem_galPart hl h0 t).1 h
    exact ((hM2 r hr).2 ⟨t, h', hx⟩).trans (h3 (List.mem_map_of_mem (List.mem_range.2 hr)))

theorem racc_length (l : List ℝ) : (racc l).length = l.length :=
  (racc_peak l).dominates.length_eq.symm

/-- **C95** (what the fitter is given). For every halo with at least one point: its running peak, one
more point at the common final time if it ends earlier, and the flag for short-lived haloes. -/
theorem C95_prepared (T0 dt_min : ℝ) (t m : List ℝ) (ht : t ≠ []) (hm : m ≠ []) :
    ∃ x, galHalo (XR.fin dt_min) (XR.fin T0) (t.map XR.fin, m.map XR.fin) = .ok x ∧
      Prepared T0 dt_min t m x := by
  obtain ⟨first, hf⟩ : ∃ a, t.head? = some a := by
    cases t with
    | nil => exact absurd rfl ht
    | cons a _ => exact ⟨a, rfl⟩
  have hlast := List.getLast?_eq_some_getLast ht
  set last := t.getLast ht
  have hp : racc m ≠ [] := by
    intro e
    have := racc_length m
    rw [e] at this
    exact hm (List.length_eq_zero_iff.1 this.symm)
  have hlp := List.getLast?_eq_some_getLast hp
  set lastPeak := (racc m).getLast hp
  have hdt : XR.fin last - XR.fin first = XR.fin (last - first) := rfl
  unfold galHalo
  simp only [List.head?_map, List.getLast?_map, hf, hlast, Option.map_some, accumulate_fin, hlp, hdt]
  by_cases h : last < T0
  · have hx : XR.lt (XR.fin last) (XR.fin T0) := h
    rw [if_pos hx]
    refine ⟨_, rfl, first, last, racc m, lastPeak, hf, hlast, racc_peak m, hlp,
      fun h' => absurd h (not_lt.2 h'), fun _ => ⟨by simp, by simp⟩, ?_⟩
    simp only [decide_eq_true_eq]
    exact Iff.rfl
  · have hx : ¬ XR.lt (XR.fin last) (XR.fin T0) := h
    rw [if_neg hx]
    refine ⟨_, rfl, first, last, racc m, lastPeak, hf, hlast, racc_peak m, hlp,
      fun _ => ⟨rfl, rfl⟩, fun h' => absurd h' h, ?_⟩
    simp only [decide_eq_true_eq]
    exact Iff.rfl

/-- **C95** (consequences for the history). For a halo with increasing times, one mass per time, and
which ends no later than the common final time: the fitter gets increasing times that end exactly at
the common final time, as many masses, which never decrease, start with the original points' running
peak, and never fall below the last peak after the halo's own end. -/
theorem C95_extended (T0 dt_min : ℝ) (t m : List ℝ) (ht : t ≠ []) (hlen : t.length = m.length)
    (hinc : t.Pairwise (· < ·)) (hT : ∀ x, t.getLast? = some x → x ≤ T0) :
    ∃ (t' m' : List ℝ) (skip : Bool), galHalo (XR.fin dt_min) (XR.fin T0) (t.map XR.fin, m.map XR.fin)
        = .ok (t'.map XR.fin, m'.map XR.fin, skip) ∧
      t'.Pairwise (· < ·) ∧ t'.getLast? = some T0 ∧ t <+: t' ∧ t'.length ≤ t.length + 1 ∧
      m'.length = t'.length ∧ m'.Pairwise (· ≤ ·) ∧ IsPeakHistory m (m'.take m.length) ∧
      m'.getLast? = (m'.take m.length).getLast? := by
  have hm : m ≠ [] := by
    rintro rfl; exact ht (List.length_eq_zero_iff.1 hlen)
  obtain ⟨x, hx, first, last, peaks, lastPeak, hf, hl, hp, hlp, h1, h2, -⟩ :=
    C95_prepared T0 dt_min t m ht hm
  have hplen : peaks.length = m.length := hp.dominates.length_eq.symm
  rw [hx]
  rcases lt_or_ge last T0 with h | h
  · obtain ⟨e1, e2⟩ := h2 h
    refine ⟨t ++ [T0], peaks ++ [lastPeak], x.2.2, ?_, ?_, by simp, List.prefix_append _ _, by simp,
      by simp [hplen, hlen], ?_, ?_, ?_⟩
    · rw [← e1, ← e2]
    · rw [List.pairwise_append]
      refine ⟨hinc, List.pairwise_singleton _ _, fun a ha b hb => ?_⟩
      rw [List.mem_singleton] at hb
      rw [hb]
      refine lt_of_le_of_lt ?_ h
      obtain ⟨l', rfl⟩ := List.getLast?_eq_some_iff.1 hl
      rcases List.mem_append.1 ha with ha | ha
      · exact ((List.pairwise_append.1 hinc).2.2 a ha last (by simp)).le
      · rw [List.mem_singleton.1 ha]
    · rw [List.pairwise_append]
      refine ⟨hp.nondecreasing, List.pairwise_singleton _ _, fun a ha b hb => ?_⟩
      rw [List.mem_singleton] at hb
      rw [hb]
      obtain ⟨l', rfl⟩ := List.getLast?_eq_some_iff.1 hlp
      rcases List.mem_append.1 ha with ha | ha
      · exact (List.pairwise_append.1 hp.nondecreasing).2.2 a ha lastPeak (by simp)
      · rw [List.mem_singleton.1 ha]
    · rw [List.take_left' hplen]; exact hp
    · rw [List.take_left' hplen, hlp]; simp
  · obtain ⟨e1, e2⟩ := h1 h
    have hlt : last = T0 := le_antisymm (hT last hl) h
    refine ⟨t, peaks, x.2.2, ?_, hinc, by rw [hl, hlt], List.prefix_rfl, by omega,
      by omega, hp.nondecreasing, ?_, ?_⟩
    · rw [← e1, ← e2]
    · rw [List.take_of_length_le hplen.le]; exact hp
    · rw [List.take_of_length_le hplen.le]

section
variable (fit : List XR → List XR → Bool → FitResult) (mass time : List (List ℝ)) (dt_min : ℝ)
  (test : Bool)

/-- The data of a halo, when they can be had -/
noncomputable def galData (T0 dt_min : ℝ) (h : List ℝ × List ℝ) : List XR × List XR × Bool :=
  match galHalo (XR.fin dt_min) (XR.fin T0) (finHalo h) with
  | .ok x => x
  | .error _ => ([], [], false)

theorem galData_spec (T0 dt_min : ℝ) (h : List ℝ × List ℝ) (h1 : h.1 ≠ []) (h2 : h.2 ≠ []) :
    galHalo (XR.fin dt_min) (XR.fin T0) (finHalo h) = .ok (galData T0 dt_min h) ∧
      Prepared T0 dt_min h.1 h.2 (galData T0 dt_min h) := by
  obtain ⟨x, hx, hp⟩ := C95_prepared T0 dt_min h.1 h.2 h1 h2
  have hx' : galHalo (XR.fin dt_min) (XR.fin T0) (finHalo h) = .ok x := hx
  unfold galData
  rw [hx']
  exact ⟨rfl, hp⟩

/-- The haloes rank `r` fits -/
noncomputable def galFitted (nranks r : ℕ) : List (List ℝ × List ℝ) :=
  if test then (galPart mass time nranks r).take 50 else galPart mass time nranks r

theorem galFitted_mem {nranks r : ℕ} (hr : r < nranks) {h : List ℝ × List ℝ}
    (hh : h ∈ galFitted mass time test nranks r) : h ∈ time.zip mass := by
  have hin : h ∈ galPart mass time nranks r := by
    unfold galFitted at hh
    split at hh
    · exact List.mem_of_mem_take hh
    · exact hh
  rw [← shares_flatten (time.zip mass) (by omega : 0 < nranks), List.mem_flatten]
  exact ⟨_, List.mem_map_of_mem (List.mem_range.2 hr), hin⟩

theorem galActs_ok (hl : time.length = mass.length) (ht : ∀ t ∈ time, t ≠ []) (hm : ∀ m ∈ mass, m ≠ [])
    (d : Str) {nranks r : ℕ} (hn : nranks ≤ mass.length) (hr : r < nranks) {T0 : ℝ}
    (hT : galT0 (mass.map (List.map XR.fin)) (time.map (List.map XR.fin)) nranks = .ok (XR.fin T0)) :
    galActs fit (mass.map (List.map XR.fin)) (time.map (List.map XR.fin)) (XR.fin dt_min) test d nranks r
      = .ok (rankActs (tmpName d r) ((galFitted mass time test nranks r).map fun h =>
          fit (galData T0 dt_min h).1 (galData T0 dt_min h).2.1 (galData T0 dt_min h).2.2)) := by
  have e : (if test = true then ((galPart mass time nranks r).map finHalo).take 50
      else (galPart mass time nranks r).map finHalo)
      = (galFitted mass time test nranks r).map finHalo := by
    unfold galFitted
    split
    · rw [List.map_take]
    · rfl
  have hd : ((galFitted mass time test nranks r).map finHalo).mapM (galHalo (XR.fin dt_min) (XR.fin T0))
      = .ok ((galFitted mass time test nranks r).map (galData T0 dt_min)) := by
    rw [List.mapM_map]
    refine mapM_ok _ _ _ fun h hh => ?_
    have hz := galFitted_mem mass time test hr hh
    exact (galData_spec T0 dt_min h (ht _ (List.of_mem_zip hz).1) (hm _ (List.of_mem_zip hz).2)).1
  unfold galActs
  rw [galShare_fin mass time hn hl hr, hT]
  simp only [bind, Except.bind, pure, Except.pure]
  rw [e, hd]
  simp only
  rw [List.map_map]
  rfl

theorem galActs_enough {d : Str} {nranks : ℕ} {acts : ℕ → List (FS OutFile → FS OutFile)}
    (ha : GalActs fit (mass.map (List.map XR.fin)) (time.map (List.map XR.fin)) (XR.fin dt_min) test d
      nranks acts) : nranks ≤ mass.length := by
  by_contra h
  push Not at h
  have := ha (nranks - 1) (by omega)
  unfold galActs at this
  rw [galShare_few _ _ (by simpa using h)] at this
  cases this

/-- The shares of the ranks, for the statements below: their sizes differ by at most one, they make up
the catalogue, and in test mode only the first fifty of each are fitted. -/
structure GalShares (haloes : List (List ℝ × List ℝ)) (nranks : ℕ) (test : Bool)
    (fitted : List (List (List ℝ × List ℝ))) : Prop where
  count : fitted.length = nranks
  shares : ∃ shares : List (List (List ℝ × List ℝ)), shares.length = nranks ∧
    shares.flatten = haloes ∧
    (∀ s ∈ shares, s.length = haloes.length / nranks ∨ s.length = haloes.length / nranks + 1) ∧
    fitted = shares.map fun s => if test then s.take 50 else s

theorem galShares_ok {nranks : ℕ} (h0 : 0 < nranks) :
    GalShares (time.zip mass) nranks test ((List.range nranks).map (galFitted mass time test nranks)) := by
  refine ⟨by simp, (List.range nranks).map (galPart mass time nranks), by simp,
    shares_flatten (time.zip mass) h0, ?_, ?_⟩
  · intro s hs
    obtain ⟨r, hr, rfl⟩ := List.mem_map.1 hs
    have := share_length (time.zip mass) (List.mem_range.1 hr)
    unfold galPart
    rw [this]
    split
    · exact .inr rfl
    · exact .inl rfl
  · rw [List.map_map]; rfl

/-- **C94** (Galacticus). For every fitter, every catalogue of haloes with at least one point, every
output name that is not that of a temporary file, every number of ranks, every interleaving and every
earlier state of the files: when the run comes to its end, the output is the table of the fits of all
haloes in catalogue order (in test mode, of the first fifty of each rank), each fitted after the
preparation `Prepared`, no temporary file is left, and other files are as they were. -/
theorem C94_galacticus (hl : time.length = mass.length) (ht : ∀ t ∈ time, t ≠ [])
    (hm : ∀ m ∈ mass, m ≠ []) {d : Str} (hd : ShellSafe d) {outbn : Str}
    (ho : ¬ IsTemp d (pathJoin d outbn)) (nranks : ℕ) {acts : ℕ → List (FS OutFile → FS OutFile)}
    (ha : GalActs fit (mass.map (List.map XR.fin)) (time.map (List.map XR.fin)) (XR.fin dt_min) test d
      nranks acts) {fs t : FS OutFile} (hrun : Run acts (collateCatalogue d d outbn nranks) nranks fs t) :
    (∃ T0 fitted data, IsGreatest {x | ∃ t ∈ time, t.getLast? = some x} T0 ∧
      GalShares (time.zip mass) nranks test fitted ∧
      List.Forall₂ (fun h x => Prepared T0 dt_min h.1 h.2 x) fitted.flatten data ∧
      TableOf (fun x => fit x.1 x.2.1 x.2.2) data (t.lookup (pathJoin d outbn))) ∧
    (∀ r, t.lookup (tmpName d r) = none) ∧
    ∀ p, p ≠ pathJoin d outbn → ¬ IsTemp d p → t.lookup p = fs.lookup p := by
  rcases Nat.eq_zero_or_pos nranks with rfl | h0
  · exact absurd hrun run_zero
  have hn := galActs_enough fit mass time dt_min test ha
  obtain ⟨T0, hT, hg⟩ := C95_latest_time mass time nranks h0 hn hl ht
  have hb : '{' ∉ d := hd.notMem (by decide) (by decide)
  have hs : '*' ∉ d := hd.notMem (by decide) (by decide)
  have J := plainJob (fun h : List ℝ × List ℝ =>
    fit (galData T0 dt_min h).1 (galData T0 dt_min h).2.1 (galData T0 dt_min h).2.2) hd
    ((notTemp_iff hb hs _).1 ho) nranks (galFitted mass time test nranks) (acts := acts) fun r hr => by
      have := ha r hr
      rw [galActs_ok fit mass time dt_min test hl ht hm d hn hr hT] at this
      exact (Except.ok.inj this).symm
  obtain ⟨-, h1, h2, -, h4⟩ := J.result (by rw [flatten_rows, columns_ok]) hrun
  refine ⟨⟨T0, _, ((List.range nranks).map (galFitted mass time test nranks)).flatten.map
    (galData T0 dt_min), hg, galShares_ok mass time test h0, ?_, _, printed _ _, ?_⟩, h2,
    fun p hp hp' => h4 p hp ((notTemp_iff hb hs p).1 hp') ?_⟩
  · rw [List.forall₂_map_right_iff]
    refine List.forall₂_same.2 fun h hh => ?_
    rw [List.mem_flatten] at hh
    obtain ⟨l, hl', hh⟩ := hh
    obtain ⟨r, hr, rfl⟩ := List.mem_map.1 hl'
    have hz := galFitted_mem mass time test (List.mem_range.1 hr) hh
    exact (galData_spec T0 dt_min h (ht _ (List.of_mem_zip hz).1) (hm _ (List.of_mem_zip hz).2)).2
  · rw [h1, List.map_map]; rfl
  · rintro r hr rfl
    exact hp' (isTemp_tmpName hb hs r)

/-- **C94** (Galacticus: the run can be completed). With at least two haloes per rank. -/
theorem C94_galacticus_progress (hl : time.length = mass.length) (ht : ∀ t ∈ time, t ≠ [])
    (hm : ∀ m ∈ mass, m ≠ []) {d : Str} (hd : ShellSafe d) {outbn : Str}
    (ho : ¬ IsTemp d (pathJoin d outbn)) (nranks : ℕ) (h0 : 0 < nranks) (hn : 2 * nranks ≤ mass.length)
    (fs : FS OutFile) :
    ∃ acts t, GalActs fit (mass.map (List.map XR.fin)) (time.map (List.map XR.fin)) (XR.fin dt_min) test d
        nranks acts ∧ Run acts (collateCatalogue d d outbn nranks) nranks fs t := by
  have hn' : nranks ≤ mass.length := by omega
  obtain ⟨T0, hT, hg⟩ := C95_latest_time mass time nranks h0 hn' hl ht
  have hb : '{' ∉ d := hd.notMem (by decide) (by decide)
  have hs : '*' ∉ d := hd.notMem (by decide) (by decide)
  have ha : GalActs fit (mass.map (List.map XR.fin)) (time.map (List.map XR.fin)) (XR.fin dt_min) test d
      nranks _ := fun r hr => galActs_ok fit mass time dt_min test hl ht hm d hn' hr hT
  obtain ⟨t, h⟩ := (plainJob (fun h : List ℝ × List ℝ =>
    fit (galData T0 dt_min h).1 (galData T0 dt_min h).2.1 (galData T0 dt_min h).2.2) hd
    ((notTemp_iff hb hs _).1 ho) nranks (galFitted mass time test nranks) fun r _ => rfl).progress h0
    (fun r hr => by
      rw [List.length_map]
      have h2 := (share_two (time.zip mass) h0).2 (by simp [hl, hn]) r hr
      unfold galFitted galPart
      split
      · rw [List.length_take]; omega
      · exact h2) (by rw [flatten_rows, columns_ok]) fs
  exact ⟨_, t, ha, h⟩

/-- **C94** (Galacticus: too few haloes). With fewer than two haloes per rank no run comes to its end. -/
theorem C94_galacticus_too_few (hl : time.length = mass.length) (ht : ∀ t ∈ time, t ≠ [])
    (hm : ∀ m ∈ mass, m ≠ []) {d : Str} (hd : ShellSafe d) {outbn : Str}
    (ho : ¬ IsTemp d (pathJoin d outbn)) (nranks : ℕ) (hlt : mass.length < 2 * nranks)
    {acts : ℕ → List (FS OutFile → FS OutFile)}
    (ha : GalActs fit (mass.map (List.map XR.fin)) (time.map (List.map XR.fin)) (XR.fin dt_min) test d
      nranks acts) (fs t : FS OutFile) : ¬ Run acts (collateCatalogue d d outbn nranks) nranks fs t := by
  intro hrun
  have h0 : 0 < nranks := by omega
  have hn := galActs_enough fit mass time dt_min test ha
  obtain ⟨T0, hT, hg⟩ := C95_latest_time mass time nranks h0 hn hl ht
  have hb : '{' ∉ d := hd.notMem (by decide) (by decide)
  have hs : '*' ∉ d := hd.notMem (by decide) (by decide)
  have J := plainJob (fun h : List ℝ × List ℝ =>
    fit (galData T0 dt_min h).1 (galData T0 dt_min h).2.1 (galData T0 dt_min h).2.2) hd
    ((notTemp_iff hb hs _).1 ho) nranks (galFitted mass time test nranks) (acts := acts) fun r hr => by
      have := ha r hr
      rw [galActs_ok fit mass time dt_min test hl ht hm d hn hr hT] at this
      exact (Except.ok.inj this).symm
  obtain ⟨⟨-, h⟩, -⟩ := J.result (by rw [flatten_rows, columns_ok]) hrun
  have := (share_two (time.zip mass) h0).1 fun r hr => by
    have := h r hr
    rw [List.length_map] at this
    refine this.trans ?_
    unfold galFitted galPart
    split
    · rw [List.length_take]; exact min_le_right _ _
    · exact le_rfl
  rw [List.length_zip, hl, Nat.min_self] at this
  omega

/-- **C94** (Galacticus: crash at any moment). As for TNG. -/
theorem C94_galacticus_crash_safety (hl : time.length = mass.length) (ht : ∀ t ∈ time, t ≠ [])
    (hm : ∀ m ∈ mass, m ≠ []) {d : Str} (hd : ShellSafe d) {outbn : Str}
    (ho : ¬ IsTemp d (pathJoin d outbn)) (nranks : ℕ) (h0 : 0 < nranks)
    {acts : ℕ → List (FS OutFile → FS OutFile)}
    (ha : GalActs fit (mass.map (List.map XR.fin)) (time.map (List.map XR.fin)) (XR.fin dt_min) test d
      nranks acts) {fs t : FS OutFile}
    (hmo : Moment acts (collateCatalogue d d outbn nranks) nranks fs t) :
    (∀ p, p ≠ pathJoin d outbn → ¬ IsTemp d p → t.lookup p = fs.lookup p) ∧
    (t.lookup (pathJoin d outbn) ≠ fs.lookup (pathJoin d outbn) →
      ∃ (T0 : ℝ) (fitted : List (List (List ℝ × List ℝ))) (data : List (List (List XR × List XR × Bool))),
        IsGreatest {x | ∃ t ∈ time, t.getLast? = some x} T0 ∧
        GalShares (time.zip mass) nranks test fitted ∧
        List.Forall₂ (List.Forall₂ fun h x => Prepared T0 dt_min h.1 h.2 x) fitted data ∧
        ((∀ r < nranks, t.lookup (tmpName d r)
            = some (.text (rankFile ((data.getD r []).map fun x => fit x.1 x.2.1 x.2.2)))) ∨
          TableOf (fun x => fit x.1 x.2.1 x.2.2) data.flatten (t.lookup (pathJoin d outbn)))) := by
  have hn := galActs_enough fit mass time dt_min test ha
  obtain ⟨T0, hT, hg⟩ := C95_latest_time mass time nranks h0 hn hl ht
  have hb : '{' ∉ d := hd.notMem (by decide) (by decide)
  have hs : '*' ∉ d := hd.notMem (by decide) (by decide)
  have J := plainJob (fun h : List ℝ × List ℝ =>
    fit (galData T0 dt_min h).1 (galData T0 dt_min h).2.1 (galData T0 dt_min h).2.2) hd
    ((notTemp_iff hb hs _).1 ho) nranks (galFitted mass time test nranks) (acts := acts) fun r hr => by
      have := ha r hr
      rw [galActs_ok fit mass time dt_min test hl ht hm d hn hr hT] at this
      exact (Except.ok.inj this).symm
  obtain ⟨h1, h2⟩ := J.moment (by rw [flatten_rows, columns_ok]) hmo
  refine ⟨fun p hp hp' => h1 p hp ((notTemp_iff hb hs p).1 hp') ?_, fun hne =>
    ⟨T0, _, ((List.range nranks).map (galFitted mass time test nranks)).map
      (List.map (galData T0 dt_min)), hg, galShares_ok mass time test h0, ?_, ?_⟩⟩
  · rintro r hr rfl
    exact hp' (isTemp_tmpName hb hs r)
  · rw [List.forall₂_map_right_iff]
    refine List.forall₂_same.2 fun l hl' => ?_
    rw [List.forall₂_map_right_iff]
    refine List.forall₂_same.2 fun h hh => ?_
    obtain ⟨r, hr, rfl⟩ := List.mem_map.1 hl'
    have hz := galFitted_mem mass time test (List.mem_range.1 hr) hh
    exact (galData_spec T0 dt_min h (ht _ (List.of_mem_zip hz).1) (hm _ (List.of_mem_zip hz).2)).2
  · rcases h2 hne with h | h
    · refine .inl fun r hr => ?_
      rw [h r hr, getD_map, List.getD_eq_getElem?_getD, List.getElem?_map, List.getElem?_range hr,
        rankFile_rows, List.map_map, List.map_map]
      rfl
    · refine .inr ⟨_, printed _ _, ?_⟩
      rw [h, ← List.map_flatten, List.map_map]; rfl

end

/-! ## Files of other runs, and names of the output -/

theorem collateFiles_removes {names : List Str} {outfn pat : Str} {u t : FS OutFile}
    {tr : List (FS OutFile)} (h : collateFiles names outfn pat u = (tr, t, .ok ())) (p : Str)
    (hp : globMatch pat p = true) : t.lookup p = none := by
  have key : ∀ v : FS OutFile, (systemRm pat v).2.1.lookup p = none := fun v => by
    rw [(systemRm_spec pat v).2.1, if_pos hp]
  have hb : ∀ {A : Type} (a : Prog (FS OutFile) A) (k : A → Prog (FS OutFile) Unit) (v : FS OutFile),
      (∀ x w, (k x w).2.2 = .ok () → (k x w).2.1.lookup p = none) →
      ((Prog.bind a k) v).2.2 = .ok () → ((Prog.bind a k) v).2.1.lookup p = none := by
    intro A a k v hk h
    unfold Prog.bind at h ⊢
    rcases ha : a v with ⟨tr1, v1, r⟩
    rw [ha] at h
    cases r with
    | error e => cases h
    | ok x =>
      simp only at h ⊢
      rcases hkx : k x v1 with ⟨tr2, v2, r2⟩
      have := hk x v1
      rw [hkx] at h this
      exact this h
  have := hb (Prog.each readRankFile names) _ u (fun x w => hb _ _ w fun y w => hb _ _ w fun z w _ => key w)
    (show (collateFiles names outfn pat u).2.2 = .ok () by rw [h])
  change (collateFiles names outfn pat u).2.1.lookup p = none at this
  rw [h] at this
  exact this

/-- **C97** (an output name like that of a temporary file). If the name chosen for the output has the
form of a temporary file's name, the clean-up deletes it: a run that comes to its end without an error
leaves no output. This holds whatever the ranks have done. -/
theorem C97_output_deleted {d outbn : Str} (hd : ShellSafe d) (ho : IsTemp d (pathJoin d outbn))
    (nranks : ℕ) (acts : ℕ → List (FS OutFile → FS OutFile)) {fs t : FS OutFile}
    (hrun : Run acts (collateCatalogue d d outbn nranks) nranks fs t) :
    t.lookup (pathJoin d outbn) = none := by
  obtain ⟨todo, u, tr, -, -, e⟩ := hrun
  exact collateFiles_removes e _ ((isTemp_iff (hd.notMem (by decide) (by decide))
    (hd.notMem (by decide) (by decide)) _).1 ho)

/-- **C97** (temporary files of other runs). The clean-up deletes the temporary files of every run in
the same directory, also those of ranks this run does not have. -/
theorem C97_other_runs {d outbn : Str} (hd : ShellSafe d) (nranks r : ℕ)
    (acts : ℕ → List (FS OutFile → FS OutFile)) {fs t : FS OutFile}
    (hrun : Run acts (collateCatalogue d d outbn nranks) nranks fs t) :
    t.lookup (tmpName d r) = none := by
  obtain ⟨todo, u, tr, -, -, e⟩ := hrun
  exact collateFiles_removes e _ (tmpPattern_tmpName (hd.notMem (by decide) (by decide))
    (hd.notMem (by decide) (by decide)) r)

theorem takeRows_error {α : Type} {table : List α} : ∀ {indx : List ℕ} {e : PyErr},
    takeRows table indx = .error e → e = .indexError
  | [], e, h => by cases h
  | i :: indx, e, h => by
    unfold takeRows at h
    rw [List.mapM_cons] at h
    cases hi : table[i]? with
    | none =>
      rw [hi] at h
      exact (Except.error.inj h).symm
    | some x =>
      rw [hi] at h
      cases ht : takeRows table indx with
      | ok l =>
        unfold takeRows at ht
        simp only [ht] at h
        cases h
      | error e' =>
        have := takeRows_error ht
        unfold takeRows at ht
        simp only [ht] at h
        rw [← Except.error.inj h]
        exact this

theorem rankShare_error {α : Type} {table : List α} {m k r : ℕ} (h0 : 0 < k) {e : PyErr}
    (h : rankShare table m k r = .error e) : e = .indexError := by
  unfold rankShare array_split at h
  rw [if_neg h0.ne'] at h
  simp only [bind, Except.bind] at h
  split at h
  · exact (Except.error.inj h).symm
  · exact takeRows_error h

/-- **C97** (Bolshoi-Planck test mode on a small catalogue). With fewer than five haloes per rank, test
mode makes some rank raise IndexError, before it writes its fits, although the full run could have been
completed with two haloes per rank. So no such run comes to its end. -/
theorem C97_bpl_test (fit : List XR → FitResult) (halo_ids : List ℤ) (raw : List (List XR))
    (ts : List XR) (d : Str) (nranks : ℕ) (hn : halo_ids.length < 5 * nranks) :
    (∃ r < nranks, bplActs fit halo_ids raw ts true d d nranks r = .error .indexError) ∧
    ∀ acts, ¬ BplActs fit halo_ids raw ts true d d nranks acts := by
  have h0 : 0 < nranks := by omega
  have key : ∃ r < nranks, bplActs fit halo_ids raw ts true d d nranks r = .error .indexError := by
    by_contra hc
    push Not at hc
    have := rankShare_enough halo_ids (nranks * 5) nranks h0 fun r hr => by
      cases h : rankShare halo_ids (nranks * 5) nranks r with
      | ok s => exact ⟨s, rfl⟩
      | error e =>
        refine absurd ?_ (hc r hr)
        have he := rankShare_error h0 h
        subst he
        unfold bplActs
        simp only [if_true, h]
        rfl
    omega
  refine ⟨key, fun acts ha => ?_⟩
  obtain ⟨r, hr, h⟩ := key
  rw [ha r hr] at h
  cases h

/-- **C97** (`-test False`). Whatever non-empty text is given for `-test`, the words False, no and 0
among them, test mode is on: of a catalogue with at least five haloes per rank, a Bolshoi-Planck run
fits the first five per rank only. -/
theorem C97_test_option (s : Str) (hs : s ≠ []) (fit : List XR → FitResult) (halo_ids : List ℤ)
    (raw : List (List XR)) (ts : List XR) (hl : halo_ids.length = raw.length) {d : Str}
    (hd : ShellSafe d) (nranks : ℕ) {acts : ℕ → List (FS OutFile → FS OutFile)}
    (ha : BplActs fit halo_ids raw ts (argBool (some s)) d d nranks acts) {fs t : FS OutFile}
    (hrun : Run acts (collateCatalogue d d bplOut nranks) nranks fs t) :
    TableWithIds fit (halo_ids.take (5 * nranks)) ((raw.map accumulate).take (5 * nranks))
      (t.lookup (pathJoin d "diffmah_fits.hdf5".toList)) := by
  obtain ⟨⟨m, hm, -, h⟩, -⟩ := C94_bpl fit halo_ids raw ts (argBool (some s)) hl hd nranks ha hrun
  rw [if_pos (by simp [argBool, hs])] at hm
  rw [hm] at h
  exact h

/-- **C97** (what holds). Test mode is off when the option is not given or given as the empty text; then
all haloes are fitted. That `-test False` should do the same is false (`C97_test_option`), and the
output is there only if its name is not that of a temporary file (`C97_output_deleted`; the name is
fixed for Bolshoi-Planck). -/
theorem C97_test_off_partial (opt : Option Str) (hopt : opt = none ∨ opt = some [])
    (fit : List XR → FitResult) (halo_ids : List ℤ) (raw : List (List XR)) (ts : List XR)
    (hl : halo_ids.length = raw.length) {d : Str} (hd : ShellSafe d) (nranks : ℕ)
    {acts : ℕ → List (FS OutFile → FS OutFile)}
    (ha : BplActs fit halo_ids raw ts (argBool opt) d d nranks acts) {fs t : FS OutFile}
    (hrun : Run acts (collateCatalogue d d bplOut nranks) nranks fs t) :
    TableWithIds fit halo_ids (raw.map accumulate)
      (t.lookup (pathJoin d "diffmah_fits.hdf5".toList)) := by
  obtain ⟨⟨m, hm, -, h⟩, -⟩ := C94_bpl fit halo_ids raw ts (argBool opt) hl hd nranks ha hrun
  rw [if_neg (by rcases hopt with rfl | rfl <;> decide)] at hm
  rw [hm, List.take_length, List.take_of_length_le (by simp [hl])] at h
  exact h

/-- **C97** (`-test False`, Galacticus). With any non-empty text given for `-test` at most fifty haloes
per rank are fitted, whatever the size of the catalogue. -/
theorem C97_galacticus_test_option (s : Str) (hs : s ≠ []) (fit : List XR → List XR → Bool → FitResult)
    (mass time : List (List ℝ)) (dt_min : ℝ) (hl : time.length = mass.length) (ht : ∀ t ∈ time, t ≠ [])
    (hm : ∀ m ∈ mass, m ≠ []) {d : Str} (hd : ShellSafe d) {outbn : Str}
    (ho : ¬ IsTemp d (pathJoin d outbn)) (nranks : ℕ) {acts : ℕ → List (FS OutFile → FS OutFile)}
    (ha : GalActs fit (mass.map (List.map XR.fin)) (time.map (List.map XR.fin)) (XR.fin dt_min)
      (argBool (some s)) d nranks acts) {fs t : FS OutFile}
    (hrun : Run acts (collateCatalogue d d outbn nranks) nranks fs t) :
    ∃ data : List (List XR × List XR × Bool), data.length ≤ 50 * nranks ∧
      TableOf (fun x => fit x.1 x.2.1 x.2.2) data (t.lookup (pathJoin d outbn)) := by
  obtain ⟨⟨T0, fitted, data, -, hsh, hp, htab⟩, -⟩ :=
    C94_galacticus fit mass time dt_min (argBool (some s)) hl ht hm hd ho nranks ha hrun
  refine ⟨data, ?_, htab⟩
  rw [← hp.length_eq]
  obtain ⟨sh, h1, -, -, h4⟩ := hsh.shares
  have hon : argBool (some s) = true := by simp [argBool, hs]
  rw [hon] at h4
  rw [h4, List.length_flatten, ← h1, List.map_map]
  clear h4 h1 hsh hp htab
  induction sh with
  | nil => simp
  | cons a sh ih =>
    simp only [List.map_cons, List.sum_cons, List.length_cons, Function.comp_apply, if_true] at ih ⊢
    have := List.length_take_le 50 a
    omega

/-- **C97** (what holds, Galacticus). If the option is not given, or given as the empty text, every halo of
the catalogue is fitted, in catalogue order. -/
theorem C97_galacticus_test_off_partial (opt : Option Str) (hopt : opt = none ∨ opt = some [])
    (fit : List XR → List XR → Bool → FitResult) (mass time : List (List ℝ)) (dt_min : ℝ)
    (hl : time.length = mass.length) (ht : ∀ t ∈ time, t ≠ []) (hm : ∀ m ∈ mass, m ≠ []) {d : Str}
    (hd : ShellSafe d) {outbn : Str} (ho : ¬ IsTemp d (pathJoin d outbn)) (nranks : ℕ)
    {acts : ℕ → List (FS OutFile → FS OutFile)}
    (ha : GalActs fit (mass.map (List.map XR.fin)) (time.map (List.map XR.fin)) (XR.fin dt_min)
      (argBool opt) d nranks acts) {fs t : FS OutFile}
    (hrun : Run acts (collateCatalogue d d outbn nranks) nranks fs t) :
    ∃ T0 data, IsGreatest {x | ∃ t ∈ time, t.getLast? = some x} T0 ∧
      List.Forall₂ (fun h x => Prepared T0 dt_min h.1 h.2 x) (time.zip mass) data ∧
      TableOf (fun x => fit x.1 x.2.1 x.2.2) data (t.lookup (pathJoin d outbn)) := by
  obtain ⟨⟨T0, fitted, data, hT, hsh, hp, htab⟩, -⟩ :=
    C94_galacticus fit mass time dt_min (argBool opt) hl ht hm hd ho nranks ha hrun
  obtain ⟨sh, -, h2, -, h4⟩ := hsh.shares
  have hoff : argBool opt = false := by rcases hopt with rfl | rfl <;> rfl
  rw [hoff] at h4
  simp only [Bool.false_eq_true, if_false, List.map_id'] at h4
  rw [h4, h2] at hp
  exact ⟨T0, data, hT, hp, htab⟩

/-! ## The Discovery script -/

/-- **C96** (negation). The script for the Discovery simulations cannot fit anything: for every halo
list and every state of the files each rank empties its output file and then raises AttributeError,
because the package it takes the header from does not have it. No other file changes. -/
theorem C96_discovery_fails (rank_outname : Str) (fits : List FitResult) (fs : FS OutFile) :
    ∃ tr t, discoveryRank rank_outname fits fs = (tr, t, .error .attributeError) ∧
      t.lookup rank_outname = some (.text []) ∧
      ∀ p, p ≠ rank_outname → t.lookup p = fs.lookup p := by
  have h : getattr fittingHelpersNames "HEADER".toList = .error .attributeError := by decide
  refine ⟨[Dict.set fs rank_outname .torn] ++
      [Dict.set (Dict.set fs rank_outname .torn) rank_outname (.text [])],
    Dict.set (Dict.set fs rank_outname .torn) rank_outname (.text []), ?_, ?_, fun p hp => ?_⟩
  · unfold discoveryRank
    rw [h]
    simp [Prog.bind, Prog.act, Prog.ofExcept]
  · rw [set_lookup, if_pos rfl]
  · rw [set_lookup, if_neg hp, set_lookup, if_neg hp]

/-! ## Examples -/

theorem safe_out : ShellSafe ['o', 'u', 't'] := by unfold ShellSafe; decide

/-- Five haloes on two ranks: a run exists, and its output is the table of the five. -/
example (fit : ℕ → FitResult) : ∃ acts t, TngActs fit [3, 1, 4, 1, 5] ['o', 'u', 't'] 2 acts ∧
    Run acts (collateCatalogue ['o', 'u', 't'] ['o', 'u', 't'] tngOut 2) 2 [] t ∧
    TableOf fit [3, 1, 4, 1, 5] (t.lookup (pathJoin ['o', 'u', 't'] "diffmah_tng_fits.hdf5".toList)) := by
  obtain ⟨acts, t, h1, h2⟩ := C94_tng_progress fit [3, 1, 4, 1, 5] safe_out 2 (by norm_num) (by simp) []
  exact ⟨acts, t, h1, h2, (C94_tng fit _ safe_out 2 h1 h2).1⟩

/-- Three haloes on two ranks: the run does not come to its end, although no rank raises before the
barrier. -/
example (fit : ℕ → FitResult) : ∃ acts, TngActs fit [3, 1, 4] ['o', 'u', 't'] 2 acts ∧
    ∀ fs t, ¬ Run acts (collateCatalogue ['o', 'u', 't'] ['o', 'u', 't'] tngOut 2) 2 fs t := by
  have ha : TngActs fit [3, 1, 4] ['o', 'u', 't'] 2 _ := fun r hr => tngActs_ok fit [3, 1, 4] _ hr
  exact ⟨_, ha, C94_tng_too_few fit _ safe_out 2 (by simp) ha⟩

/-- A moment of a TNG run: its start -/
example (fit : ℕ → FitResult) : ∃ acts t, TngActs fit [3, 1, 4] ['o', 'u', 't'] 2 acts ∧
    Moment acts (collateCatalogue ['o', 'u', 't'] ['o', 'u', 't'] tngOut 2) 2 [] t := by
  have ha : TngActs fit [3, 1, 4] ['o', 'u', 't'] 2 _ := fun r hr => tngActs_ok fit [3, 1, 4] _ hr
  exact ⟨_, [], ha, _, _, .done _ _, .inl rfl⟩

/-- Two haloes with ids on one rank -/
example (fit : List XR → FitResult) : ∃ acts t,
    BplActs fit [7, 9] [[.fin 1, .fin 2], [.fin 3, .fin 1]] [.fin 5, .fin 6] false ['o', 'u', 't']
      ['o', 'u', 't'] 1 acts ∧
    Run acts (collateCatalogue ['o', 'u', 't'] ['o', 'u', 't'] bplOut 1) 1 [] t ∧
    ∃ ds, PrintedFits fit [[.fin 1, .fin 2], [.fin 3, .fin 3]] ds ∧
      t.lookup (pathJoin ['o', 'u', 't'] "diffmah_fits.hdf5".toList)
        = some (.h5 (("halo_id".toList, .ints [7, 9]) :: resultColumns ds)) := by
  obtain ⟨acts, t, h1, h2⟩ := C94_bpl_progress fit [7, 9] [[.fin 1, .fin 2], [.fin 3, .fin 1]]
    [.fin 5, .fin 6] false rfl safe_out 1 (by norm_num) (by simp) []
  obtain ⟨⟨m, hm, -, ds, hd, h⟩, -⟩ := C94_bpl fit _ _ _ _ rfl safe_out 1 h1 h2
  refine ⟨acts, t, h1, h2, ds, ?_, ?_⟩
  · have e : ((([[.fin 1, .fin 2], [.fin 3, .fin 1]] : List (List XR)).map accumulate).take m)
        = [[.fin 1, .fin 2], [.fin 3, .fin 3]] := by
      have h1 : XR.max (XR.fin 1) (XR.fin 2) = .fin 2 := by change XR.fin (max 1 2) = _; norm_num
      have h2 : XR.max (XR.fin 3) (XR.fin 1) = .fin 3 := by change XR.fin (max 3 1) = _; norm_num
      rw [hm]
      simp [accumulate, accumulateFrom, h1, h2]
    rw [← e]; exact hd
  · rw [h, hm]; rfl

/-- Five haloes on two ranks in test mode: some rank raises. -/
example (fit : List XR → FitResult) (acts : ℕ → List (FS OutFile → FS OutFile)) :
    ¬ BplActs fit [1, 2, 3, 4, 5] [[], [], [], [], []] [] true ['o'] ['o'] 2 acts :=
  (C97_bpl_test fit _ _ _ _ 2 (by simp)).2 acts

theorem out_h5 : ¬ IsTemp ['o', 'u', 't'] (pathJoin ['o', 'u', 't'] "diffmah_fits.h5".toList) := by
  rw [notTemp_iff (by decide) (by decide)]
  exact tmpPattern_other (by decide) (by decide) (by decide) (by decide)

/-- Two Galacticus haloes, the second ending earlier, on one rank, with the default output name -/
example (fit : List XR → List XR → Bool → FitResult) : ∃ acts t,
    GalActs fit (([[1, 3], [2]] : List (List ℝ)).map (List.map XR.fin))
      (([[1, 9], [4]] : List (List ℝ)).map (List.map XR.fin)) (XR.fin (1 / 2)) false ['o', 'u', 't'] 1 acts ∧
    Run acts (collateCatalogue ['o', 'u', 't'] ['o', 'u', 't'] "diffmah_fits.h5".toList 1) 1 [] t :=
  C94_galacticus_progress fit [[1, 3], [2]] [[1, 9], [4]] (1 / 2) false rfl (by simp) (by simp) safe_out
    out_h5 1 (by norm_num) (by simp) []

/-- The same with `-test False`, that is, in test mode -/
example (fit : List XR → List XR → Bool → FitResult) : ∃ acts t,
    GalActs fit (([[1, 3], [2]] : List (List ℝ)).map (List.map XR.fin))
      (([[1, 9], [4]] : List (List ℝ)).map (List.map XR.fin)) (XR.fin (1 / 2))
      (argBool (some "False".toList)) ['o', 'u', 't'] 1 acts ∧
    Run acts (collateCatalogue ['o', 'u', 't'] ['o', 'u', 't'] "diffmah_fits.h5".toList 1) 1 [] t :=
  C94_galacticus_progress fit [[1, 3], [2]] [[1, 9], [4]] (1 / 2) _ rfl (by simp) (by simp) safe_out
    out_h5 1 (by norm_num) (by simp) []

/-- A short-lived halo that ends at time 4 in a catalogue that ends at 9 -/
example : galHalo (.fin 2) (.fin 9) ([.fin 3, .fin 4], [.fin 5, .fin 1])
    = .ok ([.fin 3, .fin 4, .fin 9], [.fin 5, .fin 5, .fin 5], true) := by
  have h1 : XR.max (XR.fin 5) (XR.fin 1) = .fin 5 := by change XR.fin (max 5 1) = _; norm_num
  have h2 : XR.lt (XR.fin 4) (XR.fin 9) := by change (4 : ℝ) < 9; norm_num
  have h3 : XR.lt (XR.fin 4 - XR.fin 3) (XR.fin 2) := by change (4 : ℝ) - 3 < 2; norm_num
  unfold galHalo
  simp only [accumulate, accumulateFrom, h1, List.head?_cons, List.getLast?_cons_cons,
    List.getLast?_singleton, if_pos h2, h3, decide_true]
  rfl

/-- An output named like a temporary file is deleted: with the fitter of any catalogue of five haloes on
two ranks there is such a run. -/
example (fit : ℕ → FitResult) : ∃ acts t outbn, TngActs fit [3, 1, 4, 1, 5] ['o', 'u', 't'] 2 acts ∧
    IsTemp ['o', 'u', 't'] (pathJoin ['o', 'u', 't'] outbn) ∧
    Run acts (collateCatalogue ['o', 'u', 't'] ['o', 'u', 't'] outbn 2) 2 [] t ∧
    t.lookup (pathJoin ['o', 'u', 't'] outbn) = none := by
  have hT : IsTemp ['o', 'u', 't'] (pathJoin ['o', 'u', 't'] "tmp_mah_fits_rank_all.dat".toList) :=
    ⟨"all".toList, by decide, by decide⟩
  have ha : TngActs fit [3, 1, 4, 1, 5] ['o', 'u', 't'] 2 _ :=
    fun r hr => tngActs_ok fit [3, 1, 4, 1, 5] _ hr
  have J := tngJob fit [3, 1, 4, 1, 5] safe_out ha
  set acts : ℕ → List (FS OutFile → FS OutFile) := fun r => rankActs (tmpName ['o', 'u', 't'] r)
    (((cut (sectionSizes [3, 1, 4, 1, 5].length 2) [3, 1, 4, 1, 5]).getD r []).map fit)
  obtain ⟨todo, u, hs, hb⟩ := sched_exists ((List.range 2).map acts) []
  obtain ⟨files, hf, hfm⟩ := J.files
  have hrun : ∃ t, Run acts (collateCatalogue ['o', 'u', 't'] ['o', 'u', 't']
      "tmp_mah_fits_rank_all.dat".toList 2) 2 [] t := by
    have hok : (collateCatalogue ['o', 'u', 't'] ['o', 'u', 't']
        "tmp_mah_fits_rank_all.dat".toList 2 u).2.2 = .ok () := by
      unfold collateCatalogue
      rw [collateFiles_eq (files := files), hfm, collate_rows_many J.hdr1 J.hdr2 _ J.parts_word.1 8 J.w0
        J.parts_word.2 (by simp) _, tng_columns fit _ (by norm_num)]
      · exact (systemRm_spec _ _).1
      · intro p hp
        obtain ⟨r, hr, rfl⟩ := List.mem_map.1 hp
        rw [List.length_map]
        exact (share_two _ (by norm_num)).2 (by simp) r (List.mem_range.1 hr)
      · intro p hp
        obtain ⟨r, hr, rfl⟩ := List.mem_map.1 hp
        rw [J.at_barrier hs hb r (List.mem_range.1 hr), hf r (List.mem_range.1 hr)]
    rcases he : collateCatalogue ['o', 'u', 't'] ['o', 'u', 't']
        "tmp_mah_fits_rank_all.dat".toList 2 u with ⟨tr, t, r⟩
    rw [he] at hok
    simp only at hok
    subst hok
    exact ⟨t, todo, u, tr, hs, hb, he⟩
  obtain ⟨t, ht⟩ := hrun
  exact ⟨_, t, _, ha, hT, ht, C97_output_deleted safe_out hT 2 _ ht⟩

/-- The words meant to switch test mode off switch it on. -/
example : argBool (some "False".toList) = true ∧ argBool (some "0".toList) = true ∧
    argBool none = false := by decide

end Diffmah.Catalogue

import Verif.Model.Pipeline
import Verif.Props.Unchunk
import Verif.Props.Collate

/-!
# The whole Last Journey run (C87)
-/

namespace Diffmah.Scripts

open Diffmah.Text Diffmah.IO Diffmah.Fit

variable {H : Type}

/-! ## Specification -/

/-- `f` is the file a single process would write for these haloes. -/
def Serial (fit : H → FitResult) (haloes : List H) (f : Option OutFile) : Prop :=
  ∃ res, parallel_fit fit haloes 1 = .ok (some res) ∧ f = some (.h5 res)

/-! ## One chunk -/

theorem chunkRun_spec (fit : H → FitResult) (cat : List H) {outdir : Str} (hsh : ShellSafe outdir)
    (n : ℕ) (s : ℤ) (c nranks : ℕ) (h0 : 0 < nranks) (hn : 2 * nranks ≤ cat.length)
    {fs t : FS OutFile} (h : ChunkRun fit cat outdir n s c nranks fs t) :
    Serial fit cat (t.lookup (collatedPath outdir n s c)) ∧
      (∀ r, t.lookup (rankOutname outdir n s c r) = none) ∧
      ∀ p, p ≠ collatedPath outdir n s c → globMatch (cleanupPattern outdir n s c) p = false →
        t.lookup p = fs.lookup p := by
  obtain ⟨todo, u, tr, ⟨shares, hsh', hs⟩, hb, hc⟩ := h
  obtain ⟨tr', t', res, e1, e2, e3, e4, e5⟩ := C86_chunk_is_serial_partial fit cat hsh n s c nranks h0
    hn shares hsh' fs u todo hs hb
  rw [hc] at e1
  cases e1
  exact ⟨⟨res, e3, e2⟩, e4, e5⟩

theorem chunkRun_exists (fit : H → FitResult) (cat : List H) {outdir : Str} (hsh : ShellSafe outdir)
    (n : ℕ) (s : ℤ) (c nranks : ℕ) (h0 : 0 < nranks) (hn : 2 * nranks ≤ cat.length)
    (fs : FS OutFile) : ∃ t, ChunkRun fit cat outdir n s c nranks fs t := by
  obtain ⟨shares, hs, -, -⟩ := shares_spec cat nranks h0
  obtain ⟨todo, u, hsc, hb⟩ := sched_exists ((List.range nranks).map fun r =>
    rankActs (rankOutname outdir n s c r) ((shares.getD r []).map fit)) fs
  obtain ⟨tr, t', res, e1, -⟩ := C86_chunk_is_serial_partial fit cat hsh n s c nranks h0
    hn shares hs fs u todo hsc hb
  exact ⟨t', todo, u, tr, ⟨shares, hs, hsc⟩, hb, e1⟩

/-- During a pass, only the files of that chunk change. -/
theorem chunkMoment_frame (fit : H → FitResult) (cat : List H) {outdir : Str} (hsh : ShellSafe outdir)
    (n : ℕ) (s : ℤ) (c nranks : ℕ) {fs t : FS OutFile}
    (h : ChunkMoment fit cat outdir n s c nranks fs t) :
    ∀ p, p ≠ collatedPath outdir n s c → globMatch (cleanupPattern outdir n s c) p = false →
        t.lookup p = fs.lookup p := by
  have ho : '{' ∉ outdir := hsh.notMem (by decide) (by decide)
  have ho' : '*' ∉ outdir := hsh.notMem (by decide) (by decide)
  obtain ⟨todo, u, ⟨shares, hsh', hs⟩, ht⟩ := h
  intro p hp hg
  have hne : ∀ r < nranks, p ≠ rankOutname outdir n s c r := by
    intro r _ e
    rw [e, (C77_cleanup ho ho' n s s c c r).1.2 ⟨rfl, rfl⟩] at hg
    cases hg
  rcases ht with rfl | ⟨hb, ht⟩
  · exact C86_before_barrier ho n s c nranks _ fs t todo hs p hne
  · obtain ⟨hr, hother⟩ := C86_every_schedule ho n s c nranks _ fs u todo hs hb
    rw [(C85_crash_safety hsh n s c nranks _ u hr t ht).2 p hp hg]
    exact hother p hne

/-! ## The loop -/

theorem fitLoop_spec (fit : H → FitResult) (cat : ℤ → ℕ → List H) {outdir : Str}
    (hsh : ShellSafe outdir) (n nranks : ℕ) (h0 : 0 < nranks) {pairs : List (ℤ × ℕ)}
    (hn : ∀ x ∈ pairs, 2 * nranks ≤ (cat x.1 x.2).length) {fs t : FS OutFile}
    (h : FitLoop fit cat outdir n nranks pairs fs t) :
    (∀ x ∈ pairs, Serial fit (cat x.1 x.2) (t.lookup (collatedPath outdir n x.1 x.2)) ∧
      ∀ r, t.lookup (rankOutname outdir n x.1 x.2 r) = none) ∧
    ∀ p, (∀ x ∈ pairs, p ≠ collatedPath outdir n x.1 x.2 ∧
      globMatch (cleanupPattern outdir n x.1 x.2) p = false) → t.lookup p = fs.lookup p := by
  have ho : '{' ∉ outdir := hsh.notMem (by decide) (by decide)
  have ho' : '*' ∉ outdir := hsh.notMem (by decide) (by decide)
  induction h with
  | nil => exact ⟨fun x hx => absurd hx List.not_mem_nil, fun _ _ => rfl⟩
  | @cons s c rest fs t u hc _ ih =>
    obtain ⟨i1, i2⟩ := ih fun x hx => hn x (List.mem_cons_of_mem _ hx)
    obtain ⟨e1, e2, e3⟩ := chunkRun_spec fit (cat s c) hsh n s c nranks h0
      (hn (s, c) List.mem_cons_self) hc
    refine ⟨fun x hx => ?_, fun p hp => ?_⟩
    · by_cases hin : x ∈ rest
      · exact i1 x hin
      · obtain rfl : x = (s, c) := by
          rcases List.mem_cons.1 hx with h | h
          · exact h
          · exact absurd h hin
        refine ⟨?_, fun r => ?_⟩
        · rw [i2]
          · exact e1
          · intro y hy
            refine ⟨fun e => hin ?_, (C77_cleanup ho ho' n y.1 s y.2 c 0).2⟩
            obtain ⟨h1, h2⟩ := C77_unique_outputs ho n n s y.1 c y.2 e
            rw [show ((s, c) : ℤ × ℕ) = y from Prod.ext h1 h2]; exact hy
        · rw [i2]
          · exact e2 r
          · intro y hy
            refine ⟨(C77_unique_rank_files ho n s y.1 c y.2 r 0).2, ?_⟩
            rw [Bool.eq_false_iff]
            intro e
            obtain ⟨h1, h2⟩ := (C77_cleanup ho ho' n y.1 s y.2 c r).1.1 e
            exact hin (by rw [← show y = ((s, c) : ℤ × ℕ) from Prod.ext h1 h2]; exact hy)
    · rw [i2 p fun x hx => hp x (List.mem_cons_of_mem _ hx)]
      exact e3 p (hp _ List.mem_cons_self).1 (hp _ List.mem_cons_self).2

/-- **C87** (the run can be completed). From every state of the files, for every number of ranks, if
each chunk has at least two haloes per rank the run reaches its end. -/
theorem C87_progress (fit : H → FitResult) (cat : ℤ → ℕ → List H) {outdir : Str}
    (hsh : ShellSafe outdir) (n nranks : ℕ) (h0 : 0 < nranks) (pairs : List (ℤ × ℕ))
    (hn : ∀ x ∈ pairs, 2 * nranks ≤ (cat x.1 x.2).length) (fs : FS OutFile) :
    ∃ t, FitLoop fit cat outdir n nranks pairs fs t := by
  induction pairs generalizing fs with
  | nil => exact ⟨fs, .nil fs⟩
  | cons x pairs ih =>
    obtain ⟨t, ht⟩ := chunkRun_exists fit (cat x.1 x.2) hsh n x.1 x.2 nranks h0
      (hn x List.mem_cons_self) fs
    obtain ⟨u, hu⟩ := ih (fun y hy => hn y (List.mem_cons_of_mem _ hy)) t
    exact ⟨u, .cons ht hu⟩

/-- **C87** (a chunk with too few haloes). If some chunk has fewer than two haloes per rank, the run
never comes to its end: the subvolumes after it are not fitted. -/
theorem C87_blocked (fit : H → FitResult) (cat : ℤ → ℕ → List H) {outdir : Str}
    (ho : '{' ∉ outdir) (n nranks : ℕ) (h0 : 0 < nranks) (pairs : List (ℤ × ℕ)) (x : ℤ × ℕ)
    (hx : x ∈ pairs) (hn : (cat x.1 x.2).length < 2 * nranks) (fs t : FS OutFile) :
    ¬ FitLoop fit cat outdir n nranks pairs fs t := by
  intro h
  induction h with
  | nil => cases hx
  | @cons s c rest fs t u hc _ ih =>
    by_cases hin : x ∈ rest
    · exact ih hin
    obtain rfl : x = (s, c) := by
      rcases List.mem_cons.1 hx with h | h
      · exact h
      · exact absurd h hin
    obtain ⟨todo, v, tr, ⟨shares, hs, hsc⟩, hb, hcol⟩ := hc
    obtain ⟨shares', hs', hfl, hlen⟩ := shares_spec (cat s c) nranks h0
    rw [hs] at hs'
    cases hs'
    have hl : shares.length = nranks := by
      have := congrArg List.length hlen
      rw [List.length_map] at this
      rw [this]
      unfold sectionSizes
      have := Nat.mod_lt (cat s c).length h0
      simp; omega
    obtain ⟨hr, -⟩ := C86_every_schedule ho n s c nranks _ fs v todo hsc hb
    obtain ⟨e, he⟩ := C85_too_few n s c nranks _ v hr (by
      by_contra hcon
      push Not at hcon
      have : ∀ y ∈ shares, 2 ≤ y.length := by
        intro y hy
        obtain ⟨i, hi, rfl⟩ := List.mem_iff_getElem.1 hy
        have := hcon i (by omega)
        rw [List.length_map, List.getD_eq_getElem?_getD, List.getElem?_eq_getElem hi] at this
        simp only [Option.getD_some] at this
        omega
      have h2 : 2 * shares.length ≤ (shares.map List.length).sum := by
        have hsum : ∀ l : List (List H), (∀ y ∈ l, 2 ≤ y.length) → 2 * l.length ≤ (l.map List.length).sum := by
          intro l
          induction l with
          | nil => simp
          | cons a l ih =>
            intro h
            have h1 := h a List.mem_cons_self
            have h2 := ih fun y hy => h y (List.mem_cons_of_mem _ hy)
            simp only [List.length_cons, List.map_cons, List.sum_cons]
            omega
        exact hsum shares this
      rw [← List.length_flatten, hfl, hl] at h2
      simp only at hn
      omega)
    rw [hcol] at he
    cases he

/-- **C87** (killed at any moment). However the ranks are scheduled and whenever the run is killed,
the outputs of the chunks completed before are there and are the ones a single process would write,
and every file that is neither an output nor a temporary file of a chunk begun is as it was. -/
theorem C87_crash_safety (fit : H → FitResult) (cat : ℤ → ℕ → List H) {outdir : Str}
    (hsh : ShellSafe outdir) (n nranks : ℕ) (h0 : 0 < nranks) (done : List (ℤ × ℕ)) (s : ℤ) (c : ℕ)
    (hn : ∀ x ∈ done, 2 * nranks ≤ (cat x.1 x.2).length) (hnew : (s, c) ∉ done) (fs t u : FS OutFile)
    (h : FitLoop fit cat outdir n nranks done fs t)
    (hm : ChunkMoment fit (cat s c) outdir n s c nranks t u) :
    (∀ x ∈ done, Serial fit (cat x.1 x.2) (u.lookup (collatedPath outdir n x.1 x.2))) ∧
    ∀ p, (∀ x ∈ (s, c) :: done, p ≠ collatedPath outdir n x.1 x.2 ∧
      globMatch (cleanupPattern outdir n x.1 x.2) p = false) → u.lookup p = fs.lookup p := by
  have ho : '{' ∉ outdir := hsh.notMem (by decide) (by decide)
  have ho' : '*' ∉ outdir := hsh.notMem (by decide) (by decide)
  obtain ⟨h1, h2⟩ := fitLoop_spec fit cat hsh n nranks h0 hn h
  have hf := chunkMoment_frame fit (cat s c) hsh n s c nranks hm
  refine ⟨fun x hx => ?_, fun p hp => ?_⟩
  · rw [hf]
    · exact (h1 x hx).1
    · intro e
      obtain ⟨e1, e2⟩ := C77_unique_outputs ho n n x.1 s x.2 c e
      exact hnew (by rw [← show x = ((s, c) : ℤ × ℕ) from Prod.ext e1 e2]; exact hx)
    · exact (C77_cleanup ho ho' n s x.1 c x.2 0).2
  · rw [hf p (hp _ List.mem_cons_self).1 (hp _ List.mem_cons_self).2]
    exact h2 p fun x hx => hp x (List.mem_cons_of_mem _ hx)

/-- **C87** (starting again). From every state `u` of the files, in particular one left by a run on any
number of ranks that was killed at any moment, a run that comes to its end leaves for each of its
chunks the file a single process would write, and no temporary file of that chunk, be it of this run or
of an earlier one; every file that is neither an output nor a temporary file of one of its chunks is as
it was. -/
theorem C87_restart (fit : H → FitResult) (cat : ℤ → ℕ → List H) {outdir : Str}
    (hsh : ShellSafe outdir) (n nranks : ℕ) (h0 : 0 < nranks) (pairs : List (ℤ × ℕ))
    (hn : ∀ x ∈ pairs, 2 * nranks ≤ (cat x.1 x.2).length) (u v : FS OutFile)
    (h : FitLoop fit cat outdir n nranks pairs u v) :
    (∀ x ∈ pairs, Serial fit (cat x.1 x.2) (v.lookup (collatedPath outdir n x.1 x.2)) ∧
      ∀ r, v.lookup (rankOutname outdir n x.1 x.2 r) = none) ∧
    ∀ p, (∀ x ∈ pairs, p ≠ collatedPath outdir n x.1 x.2 ∧
      globMatch (cleanupPattern outdir n x.1 x.2) p = false) → v.lookup p = u.lookup p :=
  fitLoop_spec fit cat hsh n nranks h0 hn h

/-! ## Collating the subvolumes -/

/-- The table of the results of some haloes -/
noncomputable def fitTable (fit : H → FitResult) (haloes : List H) : List (Str × List Cell) :=
  (resultColumns (haloes.map fun h => readResult (fit h))).map fun c => (c.1, cells c.2)

theorem serial_table {fit : H → FitResult} {haloes : List H} (h2 : 2 ≤ haloes.length) :
    parallel_fit fit haloes 1 = .ok (some (resultColumns (haloes.map fun h => readResult (fit h)))) := by
  obtain ⟨ds, hds, e⟩ := C44_parallel_is_serial_partial fit haloes 1 (by norm_num) (by omega)
  rw [e]
  congr 3
  clear e h2
  induction hds with
  | nil => rfl
  | cons h _ ih =>
    rw [parse_outline_ok] at h
    rw [List.map_cons, ← ih, Except.ok.inj h]

theorem asHdf_lookup (fs : FS OutFile) (p : Str) :
    (asHdf fs).lookup p = (fs.lookup p).map OutFile.asHdf := by
  unfold asHdf
  induction fs with
  | nil => rfl
  | cons kv fs ih =>
    obtain ⟨k, f⟩ := kv
    simp only [List.map_cons, List.lookup_cons]
    cases p == k <;> simp [ih]

theorem fitTable_names (fit : H → FitResult) (haloes : List H) :
    (fitTable fit haloes).map Prod.fst = ["logm0".toList, "logtc".toList, "early_index".toList,
      "late_index".toList, "t_peak".toList, "loss".toList, "n_points_per_fit".toList,
      "fit_algo".toList] := rfl

theorem fitTable_joined (fit : H → FitResult) (cat : ℕ → List H) (l : List ℕ) :
    (fitTable fit (cat 0)).map (fun col =>
      (col.1, (l.map fun c => ((fitTable fit (cat c)).lookup col.1).getD []).flatten))
    = fitTable fit (l.flatMap cat) := by
  have hk : ∀ (g : FitData → Cell), (l.map fun c => (cat c).map fun h => g (readResult (fit h))).flatten
      = (l.flatMap cat).map fun h => g (readResult (fit h)) := by
    intro g
    rw [List.map_flatMap]; rfl
  simp only [fitTable, resultColumns, List.map_cons, List.map_nil, cells, List.map_map]
  refine List.ext_getElem (by simp) fun i h1 h2 => ?_
  simp only [List.length_cons, List.length_nil] at h1
  rcases i with _ | _ | _ | _ | _ | _ | _ | _ | i
  · exact Prod.ext rfl (hk fun d => .inl d.logm0)
  · exact Prod.ext rfl (hk fun d => .inl d.logtc)
  · exact Prod.ext rfl (hk fun d => .inl d.early_index)
  · exact Prod.ext rfl (hk fun d => .inl d.late_index)
  · exact Prod.ext rfl (hk fun d => .inl d.t_peak)
  · exact Prod.ext rfl (hk fun d => .inl d.loss)
  · exact Prod.ext rfl (hk fun d => .inr d.n_points_per_fit)
  · exact Prod.ext rfl (hk fun d => .inr d.fit_algo)
  · omega

/-- **C87** (fits, then collation). From every state of the files, for every number of ranks and every
schedule: after the fitting script has run over some subvolumes with the default twenty chunks, each
with at least two haloes per rank, the collation script run over a range of these subvolumes comes to
its end, and leaves for each subvolume one file, which is the file a single process would write for
the haloes of all chunks in order; the files of the chunks are gone. -/
theorem C87_end_to_end_partial (fit : H → FitResult) (cat : ℤ → ℕ → List H) {fitdir outdir : Str}
    (hsh : ShellSafe fitdir) (nranks : ℕ) (h0 : 0 < nranks) (subvols : List ℤ) (istart iend : ℤ)
    (hsub : ∀ s, istart ≤ s → s < iend → s ∈ subvols)
    (hn : ∀ s ∈ subvols, ∀ c < 20, 2 * nranks ≤ (cat s c).length) (fs t : FS OutFile)
    (h : FitLoop fit cat fitdir 20 nranks (loopPairs subvols 20) fs t) :
    ∃ tr u, unchunk istart iend fitdir outdir (asHdf t) = (tr, u, .ok ()) ∧
      ∀ s, istart ≤ s → s < iend →
        (∃ f, Serial fit ((List.range 20).flatMap (cat s)) (some f) ∧
          u.lookup (outPath outdir s) = some f.asHdf) ∧
        ∀ c < 20, u.lookup (chunkPath fitdir s c) = none := by
  have ho : '{' ∉ fitdir := hsh.notMem (by decide) (by decide)
  have hmem : ∀ x, x ∈ loopPairs subvols 20 ↔ x.1 ∈ subvols ∧ x.2 < 20 := by
    rintro ⟨s, c⟩
    simp only [loopPairs, List.mem_flatMap, List.mem_map, List.mem_range, Prod.mk.injEq]
    constructor
    · rintro ⟨_, h1, _, h2, rfl, rfl⟩; exact ⟨h1, h2⟩
    · rintro ⟨h1, h2⟩; exact ⟨s, h1, c, h2, rfl, rfl⟩
  obtain ⟨h1, -⟩ := fitLoop_spec fit cat hsh 20 nranks h0
    (fun x hx => hn _ ((hmem x).1 hx).1 _ ((hmem x).1 hx).2) h
  obtain ⟨tr, u, e, ho1, ho2, -⟩ := C71_collates (outdir := outdir) hsh (asHdf t) istart iend
    (fun s c => fitTable fit (cat s c)) (fun s a b c hc => by
      have hs := hsub s a b
      obtain ⟨⟨res, hr1, hr2⟩, -⟩ := h1 (s, c) ((hmem _).2 ⟨hs, hc⟩)
      rw [serial_table (by have := hn s hs c hc; simp only; omega)] at hr1
      rw [asHdf_lookup, ← (C77_agreement ho s).1 20 c (by norm_num) (by norm_num), hr2, ← Option.some.inj (Except.ok.inj hr1)]
      simp [OutFile.asHdf, fitTable, flat])
    (fun s c col hcol => by
      have : col.1 ∈ (fitTable fit (cat s c)).map Prod.fst := List.mem_map_of_mem hcol
      rw [fitTable_names] at this
      generalize col.1 = k at this
      fin_cases this <;> exact ⟨by decide, by decide⟩)
    (fun s c => by
      show ((fitTable fit (cat s c)).map Prod.fst).Nodup
      rw [fitTable_names]; decide)
    (fun s c _ => by rw [fitTable_names, fitTable_names])
  refine ⟨tr, u, e, fun s a b => ⟨⟨_, ⟨_, serial_table ?_, rfl⟩, ?_⟩, ho2 s a b⟩⟩
  · have h20 := hn s (hsub s a b) 0 (by norm_num)
    rw [List.range_succ_eq_map]
    simp only [List.flatMap_cons, List.length_append]
    omega
  · rw [ho1 s a b, fitTable_joined fit (cat s) (List.range 20)]
    simp [OutFile.asHdf, fitTable, flat]

/-! ## The hypotheses are met -/

/-- Two subvolumes of forty haloes in twenty chunks, on one rank -/
example : ∃ t, FitLoop (fun _ : ℕ => exampleResult) (fun _ _ => [0, 1]) ['o'] 20 1
    (loopPairs [0, 1] 20) [] t := by
  refine C87_progress _ _ (by unfold ShellSafe; decide) 20 1 (by norm_num) _ (fun x _ => ?_) []
  simp

end Diffmah.Scripts

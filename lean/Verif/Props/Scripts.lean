import Verif.Lemmas.Scripts
import Verif.Props.IO
import Verif.Props.Text

/-!
# Properties of the scripts (C71, C74, C77, C85)
-/

namespace Diffmah.Scripts

open Diffmah.Text Diffmah.IO

/-! ## Runs that succeed -/

/-- From every state meeting `Pre` the program returns normally, with a result and last state meeting
`Post`. -/
def Runs {S A : Type} (Pre : S → Prop) (p : Prog S A) (Post : A → S → Prop) : Prop :=
  ∀ s, Pre s → ∃ a, (p s).2.2 = .ok a ∧ Post a (p s).2.1

section
variable {S A B : Type} {Pre : S → Prop}

theorem Runs.pure {a : A} {Post : A → S → Prop} (h : ∀ s, Pre s → Post a s) :
    Runs Pre (Prog.pure a) Post := fun s hs => ⟨a, rfl, h s hs⟩

theorem Runs.ofExcept {a : A} {Post : A → S → Prop} (h : ∀ s, Pre s → Post a s) :
    Runs Pre (Prog.ofExcept (.ok a)) Post := fun s hs => ⟨a, rfl, h s hs⟩

theorem Runs.act {f : S → S} {Post : Unit → S → Prop} (h : ∀ s, Pre s → Post () (f s)) :
    Runs Pre (Prog.act f) Post := fun s hs => ⟨(), rfl, h s hs⟩

theorem Runs.bind {p : Prog S A} {q : A → Prog S B} {Mid : A → S → Prop} {Post : B → S → Prop}
    (hp : Runs Pre p Mid) (hq : ∀ a, Runs (Mid a) (q a) Post) : Runs Pre (Prog.bind p q) Post := by
  intro s hs
  obtain ⟨a, h1, h2⟩ := hp s hs
  unfold Prog.bind
  rcases hps : p s with ⟨tr, s', r⟩
  rw [hps] at h1 h2
  simp only at h1 h2
  subst h1
  obtain ⟨b, h3, h4⟩ := hq a s' h2
  exact ⟨b, h3, h4⟩

theorem Runs.get {q : S → Prog S B} {Post : B → S → Prop}
    (hq : ∀ s, Pre s → Runs (fun t => t = s) (q s) Post) :
    Runs Pre (Prog.bind Prog.get q) Post := by
  intro s hs
  obtain ⟨b, h1, h2⟩ := hq s hs s rfl
  exact ⟨b, h1, h2⟩

theorem Runs.weaken {Pre' : S → Prop} {p : Prog S A} {Post Post' : A → S → Prop}
    (h : Runs Pre p Post) (h1 : ∀ s, Pre' s → Pre s) (h3 : ∀ a s, Post a s → Post' a s) :
    Runs Pre' p Post' := fun s hs => by
  obtain ⟨a, e, hp⟩ := h s (h1 s hs)
  exact ⟨a, e, h3 _ _ hp⟩

theorem Runs.each {f : A → Prog S B} {J : List A → List B → S → Prop} (l : List A)
    (done : List A) (bs : List B)
    (hf : ∀ pre a post cs, l = pre ++ a :: post →
      Runs (J (done ++ pre) (bs ++ cs)) (f a) (fun b => J (done ++ pre ++ [a]) (bs ++ cs ++ [b]))) :
    Runs (J done bs) (Prog.each f l) (fun cs => J (done ++ l) (bs ++ cs)) := by
  induction l generalizing done bs with
  | nil => exact Runs.pure fun s hs => by simpa using hs
  | cons a l ih =>
    have h1 := hf [] a l [] rfl
    rw [List.append_nil, List.append_nil] at h1
    refine Runs.bind h1 fun b => ?_
    refine Runs.bind (ih (done ++ [a]) (bs ++ [b]) ?_) fun cs => Runs.pure fun s hs => by simpa using hs
    intro pre x post cs h
    have := hf (a :: pre) x post (b :: cs) (by rw [h]; rfl)
    simpa [List.append_assoc] using this

end

/-! ## Names -/

theorem natStr_length_two {n : ℕ} (h1 : 10 ≤ n) (h2 : n < 100) : (natStr n).length = 2 := by
  refine le_antisymm ((Nat.length_toDigits_le_iff (by norm_num) (by norm_num)).2 (by simpa using h2)) ?_
  by_contra hc
  have := (Nat.length_toDigits_le_iff (n := n) (b := 10) (k := 1) (by norm_num) (by norm_num)).1
    (by change (natStr n).length ≤ 1; omega)
  omega

theorem collatedPath_last {outdir : Str} (ho : '{' ∉ outdir) (n : ℕ) (s : ℤ) (c : ℕ) :
    (collatedPath outdir n s c).getLast? = some '5' := by
  have h := collatedPath_eq ho n s c
  unfold bnameIn at h
  lits_at h
  rw [h, ← List.append_assoc, List.getLast?_append]
  rfl

/-- **C77** (collated files). Different subvolumes or chunks have different output files, even if the
two runs used different numbers of chunks. -/
theorem C77_unique_outputs {outdir : Str} (ho : '{' ∉ outdir) (n n' : ℕ) (s s' : ℤ) (c c' : ℕ)
    (h : collatedPath outdir n s c = collatedPath outdir n' s' c') : s = s' ∧ c = c' := by
  rw [collatedPath_eq ho, collatedPath_eq ho, List.append_cancel_left_eq] at h
  exact bnameIn_injective h

/-- **C77** (rank files). No two ranks, chunks or subvolumes write to the same temporary file, and a
temporary file is never an output file. -/
theorem C77_unique_rank_files {outdir : Str} (ho : '{' ∉ outdir) (n : ℕ) (s s' : ℤ) (c c' r r' : ℕ) :
    (rankOutname outdir n s c r = rankOutname outdir n s' c' r' → s = s' ∧ c = c' ∧ r = r') ∧
      rankOutname outdir n s c r ≠ collatedPath outdir n s' c' := by
  constructor
  · intro h
    rw [rankOutname_cleanup ho, rankOutname_cleanup ho] at h
    have hp : cleanupPrefix outdir n s c <+: cleanupPrefix outdir n s' c' ++ (natStr r' ++ ['.', 'd', 'a', 't']) := by
      rw [← List.append_assoc, ← h, List.append_assoc]; exact List.prefix_append _ _
    obtain ⟨h1, h2⟩ := cleanupPrefix_injective hp
    subst h1 h2
    have h := List.append_cancel_left (List.append_cancel_right h)
    exact ⟨rfl, rfl, natStr_injective h⟩
  · intro h
    have := congrArg List.getLast? h
    rw [rankOutname_cleanup ho, collatedPath_last ho, List.getLast?_append] at this
    simp at this

/-- **C77** (cleaning up). The pattern removed after a chunk matches every temporary file of that
chunk, no temporary file of another chunk or subvolume, and no output file. -/
theorem C77_cleanup {outdir : Str} (ho : '{' ∉ outdir) (ho' : '*' ∉ outdir) (n : ℕ) (s s' : ℤ)
    (c c' r : ℕ) :
    (globMatch (cleanupPattern outdir n s c) (rankOutname outdir n s' c' r) = true ↔ s = s' ∧ c = c') ∧
      globMatch (cleanupPattern outdir n s c) (collatedPath outdir n s' c') = false := by
  rw [cleanupPattern_eq ho]
  constructor
  · rw [globMatch_one _ _ _ (star_cleanupPrefix ho' n s c) (by decide)]
    constructor
    · rintro ⟨mid, h, _⟩
      refine cleanupPrefix_injective (outdir := outdir) (n := n) (n' := n)
        (x := natStr r ++ ['.', 'd', 'a', 't']) ?_
      rw [← List.append_assoc, ← rankOutname_cleanup ho, h, List.append_assoc]
      exact List.prefix_append _ _
    · rintro ⟨rfl, rfl⟩
      exact ⟨natStr r, rankOutname_cleanup ho n s c r,
        fun h => digit_ne (natStr_digit h) (by decide) rfl⟩
  · rw [Bool.eq_false_iff]
    intro h
    obtain ⟨mid, h, _⟩ := (globMatch_one _ _ _ (star_cleanupPrefix ho' n s c) (by decide)).1 h
    have := congrArg List.getLast? h
    rw [collatedPath_last ho, List.getLast?_append] at this
    simp at this

/-- **C77** (agreement with the collation script). With any number of chunks of two digits the fitter
writes each chunk under the name the collation script uses; with the default of 20 chunks the names
written for a subvolume are exactly the names read. -/
theorem C77_agreement {outdir : Str} (ho : '{' ∉ outdir) (s : ℤ) :
    (∀ n c : ℕ, 10 ≤ n → n < 100 → collatedPath outdir n s c = chunkPath outdir s c) ∧
      (List.range 20).map (collatedPath outdir 20 s) = (List.range NCHUNKS).map (chunkPath outdir s) := by
  have h : ∀ n c : ℕ, 10 ≤ n → n < 100 → collatedPath outdir n s c = chunkPath outdir s c := by
    intro n c h1 h2
    rw [collatedPath_eq ho, chunkPath_eq, natStr_length_two h1 h2,
      natStr_length_two (n := NCHUNKS) (by decide) (by decide)]
  exact ⟨h, List.map_congr_left fun c _ => h 20 c (by norm_num) (by norm_num)⟩

theorem zpad_length {w k : ℕ} (h : (natStr k).length ≤ w) : (zpad w k).length = w := by
  unfold zpad; simp; omega

theorem natStr_length_mono {j k : ℕ} (h : j ≤ k) : (natStr j).length ≤ (natStr k).length := by
  have hp : 0 < (natStr k).length := Nat.length_toDigits_pos
  refine (Nat.length_toDigits_le_iff (by norm_num) hp).2 (lt_of_le_of_lt h ?_)
  exact (Nat.length_toDigits_le_iff (by norm_num) hp).1 le_rfl

theorem digitsVal_cons (c : Char) (s : Str) :
    digitsVal (c :: s) = 10 ^ s.length * (c.toNat - '0'.toNat) + digitsVal s := by
  unfold digitsVal
  rw [Nat.ofDigitChars_cons, Nat.ofDigitChars_eq_ofDigitChars_zero]
  simp

theorem digitsVal_lt (s : Str) (h : ∀ c ∈ s, c.isDigit = true) : digitsVal s < 10 ^ s.length := by
  induction s with
  | nil => decide
  | cons c s ih =>
    rw [digitsVal_cons, List.length_cons, pow_succ]
    have h1 := ih fun d hd => h d (List.mem_cons_of_mem _ hd)
    have h2 := h c (by simp)
    have h3 : c.toNat - '0'.toNat ≤ 9 := by
      rw [Char.isDigit_iff_toNat] at h2
      have : '9'.toNat = 57 := rfl
      have : '0'.toNat = 48 := rfl
      omega
    nlinarith

/-- Texts of digits of the same length are ordered like the numbers they stand for. -/
theorem digits_lex (a b x y : Str) (hl : a.length = b.length) (ha : ∀ c ∈ a, c.isDigit = true)
    (hb : ∀ c ∈ b, c.isDigit = true) (h : digitsVal a < digitsVal b) : a ++ x < b ++ y := by
  induction a generalizing b with
  | nil =>
    cases b with
    | nil => exact absurd h (lt_irrefl _)
    | cons _ _ => simp at hl
  | cons c a ih =>
    cases b with
    | nil => simp at hl
    | cons d b =>
      have hl' : a.length = b.length := by simpa using hl
      have ha' : ∀ c ∈ a, c.isDigit = true := fun c hc => ha c (List.mem_cons_of_mem _ hc)
      have hb' : ∀ c ∈ b, c.isDigit = true := fun c hc => hb c (List.mem_cons_of_mem _ hc)
      rw [List.cons_append, List.cons_append, List.cons_lt_cons_iff]
      rw [digitsVal_cons, digitsVal_cons, hl'] at h
      have hc := ha c (by simp)
      have hd := hb d (by simp)
      rw [Char.isDigit_iff_toNat] at hc hd
      rcases lt_trichotomy c.toNat d.toNat with hlt | heq | hgt
      · left; exact hlt
      · right
        refine ⟨Char.toNat_inj.1 heq, ih b hl' ha' hb' ?_⟩
        rw [heq] at h
        omega
      · exfalso
        have hbl := digitsVal_lt b hb'
        have : d.toNat - '0'.toNat + 1 ≤ c.toNat - '0'.toNat := by
          have : '0'.toNat = 48 := rfl
          omega
        have := Nat.mul_le_mul_left (10 ^ b.length) this
        rw [Nat.mul_add, Nat.mul_one] at this
        omega

/-- **C77** (order). The output files of the chunks of a subvolume, sorted by name, are in the order of
the chunks: a sorted listing of the directory reads them in order. -/
theorem C77_order {outdir : Str} (ho : '{' ∉ outdir) (n : ℕ) (s : ℤ) (c c' : ℕ) (h : c < c') (hn : c' < n) :
    collatedPath outdir n s c < collatedPath outdir n s c' ∧
      (collatedPath outdir n s c).length = (collatedPath outdir n s c').length := by
  have l1 := zpad_length (natStr_length_mono (h.trans hn).le)
  have l2 := zpad_length (natStr_length_mono hn.le)
  rw [collatedPath_eq ho, collatedPath_eq ho]
  unfold bnameIn
  refine ⟨?_, by simp [l1, l2]⟩
  refine List.append_left_lt ?_
  simp only [List.append_assoc]
  refine List.append_left_lt (List.append_left_lt (List.append_left_lt ?_))
  refine digits_lex _ _ _ _ (l1.trans l2.symm) (fun c hc => zpad_digit hc) (fun c hc => zpad_digit hc) ?_
  rwa [digitsVal_zpad, digitsVal_zpad]

example : collatedPath "out".toList 20 576 9 < collatedPath "out".toList 20 576 10 :=
  (C77_order (by decide) 20 576 9 10 (by norm_num) (by norm_num)).1

/-- **C77** (other numbers of chunks). If the fitter was run with more than 20 chunks, the collation
script never reads the twenty-first chunk; with fewer, it looks for a file that was not written. -/
theorem C77_other_chunk_counts {outdir : Str} (ho : '{' ∉ outdir) (n : ℕ) (s : ℤ) :
    (20 < n → ∃ c < n, ∀ s' : ℤ, ∀ c' < NCHUNKS, collatedPath outdir n s c ≠ chunkPath outdir s' c') ∧
      (n < 20 → ∃ c' < NCHUNKS, ∀ s' : ℤ, ∀ c < n, collatedPath outdir n s' c ≠ chunkPath outdir s c') := by
  constructor
  · intro hn
    refine ⟨20, hn, fun s' c' hc' h => ?_⟩
    rw [collatedPath_eq ho, chunkPath_eq, List.append_cancel_left_eq] at h
    have := (bnameIn_injective h).2
    unfold NCHUNKS at hc'
    omega
  · intro hn
    refine ⟨19, by decide, fun s' c hc h => ?_⟩
    rw [collatedPath_eq ho, chunkPath_eq, List.append_cancel_left_eq] at h
    have := (bnameIn_injective h).2
    omega

/-- The names in a concrete case -/
example : rankOutname "out".toList 20 3 7 12 = "out/subvol_3_chunk_07_tmp_mah_fits_rank_12.dat".toList ∧
    collatedPath "out".toList 20 3 7 = "out/subvol_3_chunk_07.hdf5".toList ∧
    chunkPath "out".toList 3 7 = "out/subvol_3_chunk_07.hdf5".toList ∧
    cleanupPattern "out".toList 20 3 7 = "out/subvol_3_chunk_07_tmp_mah_fits_rank_*.dat".toList := by
  decide

/-- Chunk 1 of subvolume 11 and chunk 11 of subvolume 1 do not clash. -/
example : ¬ (globMatch (cleanupPattern "o".toList 20 1 11) (rankOutname "o".toList 20 11 1 0) = true) := by
  intro h
  have := ((C77_cleanup (outdir := "o".toList) (by decide) (by decide) 20 1 11 11 1 0).1.1 h).1
  omega

/-! ## What is fitted -/

theorem subvolOfName_forest (i : ℕ) : subvolOfName (bnameForest (natStr i)) = .ok (i : ℤ) := by
  have hn : '.' ∉ natStr i := fun h => digit_ne (natStr_digit h) (by decide) rfl
  have e1 : "m000p.coreforest.".toList = ['m', '0', '0', '0', 'p', '.', 'c', 'o', 'r', 'e', 'f', 'o',
      'r', 'e', 's', 't', '.'] := by decide
  have e : bnameForest (natStr i) = joinWith '.' [['m', '0', '0', '0', 'p'],
      ['c', 'o', 'r', 'e', 'f', 'o', 'r', 'e', 's', 't'], natStr i, ['h', 'd', 'f', '5']] := by
    unfold bnameForest
    simp only [e1, lit2]
    simp [joinWith]
  unfold subvolOfName
  rw [e, splitOn_joinWith _ _ (by simp)]
  · exact pyInt_natStr i
  · intro w hw
    simp only [List.mem_cons, List.not_mem_nil, or_false] at hw
    rcases hw with rfl | rfl | rfl | rfl
    · decide
    · decide
    · exact hn
    · decide

/-- The subvolumes selected from files numbered `nums`, listed in any order, without the test flag -/
theorem select_numbers (nums : List ℕ) (iend : ℤ) (a : Selection) (ht : a.test = none) :
    selectSubvols (nums.map fun i => bnameForest (natStr i)) iend a
      = .ok (pySlice ((nums.map fun i : ℕ => (i : ℤ)).mergeSort fun x y => decide (x ≤ y))
          (a.istart.getD 0) (some (a.iend.getD iend)), List.range (a.nchunks.getD 20)) := by
  have hm : (nums.map fun i => bnameForest (natStr i)).mapM subvolOfName
      = .ok (nums.map fun i : ℕ => (i : ℤ)) := by
    rw [List.mapM_map]
    exact mapM_ok _ _ _ fun i _ => subvolOfName_forest i
  unfold selectSubvols
  rw [hm]
  simp [bind, Except.bind, ht, pure, Except.pure]

theorem sort_range (n : ℕ) : ((List.range n).map fun i : ℕ => (i : ℤ)).mergeSort
    (fun x y => decide (x ≤ y)) = (List.range n).map fun i : ℕ => (i : ℤ) := by
  apply List.mergeSort_of_pairwise
  rw [List.pairwise_map]
  exact List.pairwise_lt_range.imp fun h => by simp; omega

/-- **C74** (explicit range). Given any `-istart` and `-iend` that are not negative, the Last Journey
script fits exactly the subvolumes from the first to before the last, in order, each with all chunks;
in particular all `n` of them if `-istart 0 -iend n` is given. -/
theorem C74_explicit_range_partial (n a b : ℕ) (nchunks : Option ℕ) :
    lastJourneySelection ⟨none, some a, some b, nchunks, some n⟩
      = .ok (Spec.rows ((List.range n).map fun i : ℕ => (i : ℤ)) a b, List.range (nchunks.getD 20)) ∧
    lastJourneySelection ⟨none, some 0, some (n : ℤ), nchunks, some n⟩
      = .ok ((List.range n).map fun i : ℕ => (i : ℤ), List.range (nchunks.getD 20)) := by
  have h : ∀ a b : ℕ, lastJourneySelection ⟨none, some a, some b, nchunks, some n⟩
      = .ok (Spec.rows ((List.range n).map fun i : ℕ => (i : ℤ)) a b, List.range (nchunks.getD 20)) := by
    intro a b
    unfold lastJourneySelection
    simp only [Option.getD_some]
    rw [select_numbers _ _ _ rfl, sort_range]
    simp only [Option.getD_some]
    have := pySlice_nat ((List.range n).map fun i : ℕ => (i : ℤ)) a (some b)
    simp only [Option.map_some, Option.getD_some] at this
    rw [this]
  refine ⟨h a b, ?_⟩
  have := h 0 n
  rw [rows_all _ (by simp)] at this
  exact this

/-- **C74** (negation for the default range of Last Journey). Run without `-iend`, the script leaves out
the last subvolume, however many there are. -/
theorem C74_last_subvolume_missed (n : ℕ) (nchunks : Option ℕ) :
    lastJourneySelection { nchunks := nchunks, num_subvols_tot := some (n + 1) }
      = .ok ((List.range n).map fun i : ℕ => (i : ℤ), List.range (nchunks.getD 20)) := by
  unfold lastJourneySelection
  simp only [Option.getD_some]
  rw [select_numbers _ _ _ rfl, sort_range]
  simp only [Option.getD_none]
  congr 2
  unfold pySlice sliceBound
  rw [List.range_succ]
  simp

/-- **C74** (default range of Discovery). If at most 96 files are present, listed in whatever order, all
of them are fitted, each once and in increasing order. -/
theorem C74_discovery_default_partial (nums : List ℕ) (h : nums.length ≤ 96) (nchunks : Option ℕ) :
    ∃ l : List ℤ, discoverySelection (nums.map fun i => bnameForest (natStr i)) { nchunks := nchunks }
        = .ok (l, List.range (nchunks.getD 20)) ∧
      l.Perm (nums.map fun i : ℕ => (i : ℤ)) ∧ l.Pairwise (· ≤ ·) := by
  set m := (nums.map fun i : ℕ => (i : ℤ)).mergeSort fun x y => decide (x ≤ y) with hm
  refine ⟨m, ?_, List.mergeSort_perm _ _, ?_⟩
  · unfold discoverySelection
    rw [select_numbers _ _ _ rfl, ← hm]
    simp only [Option.getD_none]
    have := pySlice_nat m 0 (some 96)
    simp only [Option.map_some, Option.getD_some] at this
    rw [show ((96 : ℕ) : ℤ) = 96 from rfl, show ((0 : ℕ) : ℤ) = 0 from rfl] at this
    rw [this, rows_all _ (by rw [hm]; simpa using h)]
  · have := List.pairwise_mergeSort (le := fun x y : ℤ => decide (x ≤ y))
      (by intro a b c; simp; omega) (by intro a b; simp; omega) (nums.map fun i : ℕ => (i : ℤ))
    rw [← hm] at this
    exact this.imp fun h => by simpa using h

/-- **C74** (more files than the default end). With more than 96 files the default of the Discovery
script fits 96 of them, whatever `-num_subvols_tot` says. -/
theorem C74_discovery_beyond (nums : List ℕ) (h : 96 ≤ nums.length) (tot : Option ℕ) :
    ∃ l : List ℤ, discoverySelection (nums.map fun i => bnameForest (natStr i))
        { num_subvols_tot := tot } = .ok (l, List.range 20) ∧ l.length = 96 := by
  unfold discoverySelection
  rw [select_numbers _ _ _ rfl]
  refine ⟨_, rfl, ?_⟩
  simp [pySlice, sliceBound, h]

/-- **C74** (the test flag). Every non-empty text after `-test`, "False" and "0" included, restricts
the run to the first subvolume and the chunks 0, 1 and 2, whatever range and chunks are asked for. -/
theorem C74_test_flag (n : ℕ) (text : Str) (ht : text ≠ []) (istart iend : Option ℤ)
    (nchunks : Option ℕ) :
    lastJourneySelection ⟨some text, istart, iend, nchunks, some (n + 1)⟩ = .ok ([0], [0, 1, 2]) := by
  have hm : ((List.range (n + 1)).map fun i => bnameForest (natStr i)).mapM subvolOfName
      = .ok ((List.range (n + 1)).map fun i : ℕ => (i : ℤ)) := by
    rw [List.mapM_map]
    exact mapM_ok _ _ _ fun i _ => subvolOfName_forest i
  unfold lastJourneySelection selectSubvols
  simp only [Option.getD_some]
  rw [hm]
  simp only [bind, Except.bind, sort_range, Option.map_some, Option.getD_some, argBool, ht, ne_eq,
    not_false_eq_true, decide_true, if_true]
  rw [List.range_succ_eq_map]
  rfl

/-- **C74** (Bolshoi-Planck). The range is inclusive at both ends, so by default only subvolume 0 is
fitted. -/
theorem C74_bpl (a b i : ℤ) : (i ∈ bplSubvolumes (some a) (some b) ↔ a ≤ i ∧ i ≤ b) ∧
    bplSubvolumes none none = [0] := by
  refine ⟨?_, rfl⟩
  simp only [bplSubvolumes, pyRange, Option.getD_some, List.mem_map, List.mem_range]
  constructor
  · rintro ⟨k, hk, rfl⟩; omega
  · rintro ⟨h1, h2⟩
    exact ⟨(i - a).toNat, by omega, by omega⟩

/-- The default of the Last Journey script: 255 of 256 subvolumes -/
example : ∃ l, lastJourneySelection {} = .ok (l, List.range 20) ∧ l.length = 255 := by
  have := C74_last_subvolume_missed 255 none
  exact ⟨_, this, by simp⟩

example : ∃ l : List ℤ, discoverySelection (([5, 0, 3] : List ℕ).map fun i => bnameForest (natStr i)) {}
    = .ok (l, List.range 20) ∧ l.Perm [5, 0, 3] := by
  obtain ⟨l, h1, h2, _⟩ := C74_discovery_default_partial [5, 0, 3] (by simp) none
  exact ⟨l, h1, h2⟩

example : lastJourneySelection { test := some "False".toList, num_subvols_tot := some 256 }
    = .ok ([0], [0, 1, 2]) := C74_test_flag 255 _ (by decide) none none none

end Diffmah.Scripts

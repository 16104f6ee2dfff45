import Verif.Model.Scripts
import Verif.Lemmas.IO
import Verif.Lemmas.Text

/-! # Lemmas about file names, patterns and programs on a file system -/

namespace Diffmah.Scripts

open Diffmah.Text Diffmah.IO

/-! ## Literals as lists of characters -/

theorem lit0 : "subvol_".toList = ['s', 'u', 'b', 'v', 'o', 'l', '_'] := by decide

theorem lit1 : "_chunk_".toList = ['_', 'c', 'h', 'u', 'n', 'k', '_'] := by decide

theorem lit2 : ".hdf5".toList = ['.', 'h', 'd', 'f', '5'] := by decide

theorem lit3 : "_diffmah_fits.hdf5".toList = ['_', 'd', 'i', 'f', 'f', 'm', 'a', 'h', '_', 'f', 'i', 't', 's', '.', 'h', 'd', 'f', '5'] := by decide

theorem lit4 : "_diffmah_fits".toList = ['_', 'd', 'i', 'f', 'f', 'm', 'a', 'h', '_', 'f', 'i', 't', 's'] := by decide

theorem lit5 : "tmp_mah_fits_rank_{0}.dat".toList = ['t', 'm', 'p', '_', 'm', 'a', 'h', '_', 'f', 'i', 't', 's', '_', 'r', 'a', 'n', 'k', '_', '{', '0', '}', '.', 'd', 'a', 't'] := by decide

theorem lit6 : "_tmp_mah_fits_rank_".toList = ['_', 't', 'm', 'p', '_', 'm', 'a', 'h', '_', 'f', 'i', 't', 's', '_', 'r', 'a', 'n', 'k', '_'] := by decide

theorem lit7 : "{0}.dat".toList = ['{', '0', '}', '.', 'd', 'a', 't'] := by decide

theorem lit8 : "tmp_mah_fits_rank_".toList = ['t', 'm', 'p', '_', 'm', 'a', 'h', '_', 'f', 'i', 't', 's', '_', 'r', 'a', 'n', 'k', '_'] := by decide

theorem lit9 : "_*.dat".toList = ['_', '*', '.', 'd', 'a', 't'] := by decide

theorem lit10 : ".dat".toList = ['.', 'd', 'a', 't'] := by decide

theorem lit11 : "subvol".toList = ['s', 'u', 'b', 'v', 'o', 'l'] := by decide

theorem lit12 : "chunk".toList = ['c', 'h', 'u', 'n', 'k'] := by decide

theorem lit13 : "tmp".toList = ['t', 'm', 'p'] := by decide

theorem lit14 : "mah".toList = ['m', 'a', 'h'] := by decide

theorem lit15 : "fits".toList = ['f', 'i', 't', 's'] := by decide

theorem lit16 : "rank".toList = ['r', 'a', 'n', 'k'] := by decide

/-- Spell out the literals -/
macro "lits" : tactic => `(tactic| simp only [lit0, lit1, lit2, lit3, lit4, lit5, lit6, lit7, lit8, lit9, lit10, lit11, lit12, lit13, lit14, lit15, lit16])

/-- Spell out the literals in a hypothesis -/
macro "lits_at" h:ident : tactic => `(tactic| simp only [lit0, lit1, lit2, lit3, lit4, lit5, lit6, lit7, lit8, lit9, lit10, lit11, lit12, lit13, lit14, lit15, lit16] at $h:ident)

/-! ## Names -/

theorem cancel_sep {sep : Char} {a b x y : Str} (ha : sep ∉ a) (hb : sep ∉ b)
    (h : a ++ sep :: x = b ++ sep :: y) : a = b ∧ x = y := by
  induction a generalizing b with
  | nil =>
    cases b with
    | nil => simp at h; exact ⟨rfl, h⟩
    | cons d b =>
      simp only [List.nil_append, List.cons_append, List.cons.injEq] at h
      exact absurd (by simp [h.1]) hb
  | cons c a ih =>
    cases b with
    | nil =>
      simp only [List.nil_append, List.cons_append, List.cons.injEq] at h
      exact absurd (by simp [h.1]) ha
    | cons d b =>
      simp only [List.cons_append, List.cons.injEq] at h
      simp only [List.mem_cons, not_or] at ha hb
      obtain ⟨h1, h2⟩ := ih ha.2 hb.2 h.2
      exact ⟨by rw [h.1, h1], h2⟩

theorem cancel_sep_prefix {sep : Char} {a b x y : Str} (ha : sep ∉ a) (hb : sep ∉ b)
    (h : a ++ sep :: x <+: b ++ sep :: y) : a = b ∧ x <+: y := by
  obtain ⟨z, hz⟩ := h
  rw [List.append_assoc, List.cons_append] at hz
  obtain ⟨h1, h2⟩ := cancel_sep ha hb hz
  exact ⟨h1, z, h2⟩

/-- The directory part of a path, with its slash -/
def dirPart (d : Str) : Str :=
  if d = [] then [] else if d.getLast? = some '/' then d else d ++ ['/']

theorem pathJoin_eq (d : Str) {b : Str} (hb : '/' ∉ b) : pathJoin d b = dirPart d ++ b := by
  have : b.head? ≠ some '/' := by
    intro h
    cases b with
    | nil => simp at h
    | cons c b => simp at h; exact hb (by simp [h])
  unfold pathJoin dirPart
  rw [if_neg this]
  split
  · rfl
  · split
    · rfl
    · simp

theorem basename_dir (d : Str) {b : Str} (hb : '/' ∉ b) : basename (dirPart d ++ b) = b := by
  have key : ∀ (x y : Str), '/' ∉ x → (y = [] ∨ y.head? = some '/') →
      (x ++ y).takeWhile (fun c => decide (c ≠ '/')) = x := by
    intro x y hx hy
    rw [List.takeWhile_append_of_pos]
    · rcases hy with rfl | hy
      · simp
      · cases y with
        | nil => simp
        | cons c y => simp at hy; subst hy; simp [List.takeWhile]
    · intro c hc
      simp only [decide_eq_true_eq]
      rintro rfl; exact hx hc
  unfold basename
  rw [List.reverse_append, key _ _ (by simpa using hb), List.reverse_reverse]
  unfold dirPart
  split
  · left; rfl
  · right
    split
    · rename_i h; rw [List.head?_reverse]; exact h
    · simp

theorem digit_ne {c d : Char} (hc : c.isDigit = true) (hd : d.isDigit = false) : c ≠ d := by
  rintro rfl; rw [hc] at hd; cases hd

theorem intStr_notMem (n : ℤ) (c : Char) (h1 : c.isDigit = false) (h2 : c ≠ '-') : c ∉ intStr n := by
  unfold intStr
  intro h
  split at h
  · rcases List.mem_cons.1 h with h | h
    · exact h2 h
    · exact digit_ne (natStr_digit h) h1 rfl
  · exact digit_ne (natStr_digit h) h1 rfl

theorem intStr_injective {m n : ℤ} (h : intStr m = intStr n) : m = n := by
  have := congrArg pyInt h
  rw [pyInt_intStr, pyInt_intStr] at this
  exact Except.ok.inj this

theorem zpad_digit {w k : ℕ} {c : Char} (h : c ∈ zpad w k) : c.isDigit = true := by
  unfold zpad at h
  rcases List.mem_append.1 h with h | h
  · rw [List.eq_of_mem_replicate h]; rfl
  · exact natStr_digit h

theorem zpad_notMem (w k : ℕ) (c : Char) (h : c.isDigit = false) : c ∉ zpad w k :=
  fun hm => digit_ne (zpad_digit hm) h rfl

theorem zpad_ne_nil (w k : ℕ) : zpad w k ≠ [] := by
  unfold zpad; simp [natStr_ne_nil]

theorem digitsVal_zpad (w k : ℕ) : digitsVal (zpad w k) = k := by
  have : ∀ (m : ℕ) (s : Str), digitsVal (List.replicate m '0' ++ s) = digitsVal s := by
    intro m s
    induction m with
    | zero => rfl
    | succ m ih =>
      rw [List.replicate_succ, List.cons_append, ← ih]
      unfold digitsVal
      rw [Nat.ofDigitChars_cons]
      rfl
  rw [zpad, this, digitsVal_natStr]

theorem zpad_injective {w w' j k : ℕ} (h : zpad w j = zpad w' k) : j = k := by
  have := congrArg digitsVal h
  rwa [digitsVal_zpad, digitsVal_zpad] at this

theorem bnameIn_join (s c : Str) :
    bnameIn s c = "subvol".toList ++ '_' :: (s ++ '_' :: ("chunk".toList ++ '_' :: (c ++ ".hdf5".toList))) := by
  unfold bnameIn; lits; simp

theorem slash_bnameIn (s : ℤ) (w c : ℕ) : '/' ∉ bnameIn (intStr s) (zpad w c) := by
  have h1 := intStr_notMem s '/' (by decide) (by decide)
  have h2 := zpad_notMem w c '/' (by decide)
  unfold bnameIn; lits; simp [h1, h2]

theorem slash_bnameOut (s : ℤ) : '/' ∉ bnameOut (intStr s) := by
  have h1 := intStr_notMem s '/' (by decide) (by decide)
  unfold bnameOut; lits; simp [h1]

theorem bnameIn_injective {s s' : ℤ} {w w' c c' : ℕ}
    (h : bnameIn (intStr s) (zpad w c) = bnameIn (intStr s') (zpad w' c')) : s = s' ∧ c = c' := by
  have hu : ∀ n : ℤ, '_' ∉ intStr n := fun n => intStr_notMem n '_' (by decide) (by decide)
  rw [bnameIn_join, bnameIn_join, List.append_cancel_left_eq, List.cons.injEq] at h
  obtain ⟨h1, h2⟩ := cancel_sep (hu _) (hu _) h.2
  rw [List.append_cancel_left_eq, List.cons.injEq] at h2
  exact ⟨intStr_injective h1, zpad_injective (List.append_cancel_right h2.2)⟩

theorem bnameOut_injective {s s' : ℤ} (h : bnameOut (intStr s) = bnameOut (intStr s')) : s = s' := by
  unfold bnameOut at h
  have := List.append_cancel_right h
  rw [List.append_cancel_left_eq] at this
  exact intStr_injective this

theorem chunkPath_eq (d : Str) (s : ℤ) (c : ℕ) :
    chunkPath d s c = dirPart d ++ bnameIn (intStr s) (zpad (natStr NCHUNKS).length c) :=
  pathJoin_eq d (slash_bnameIn s _ c)

theorem outPath_eq (d : Str) (s : ℤ) : outPath d s = dirPart d ++ bnameOut (intStr s) :=
  pathJoin_eq d (slash_bnameOut s)

theorem chunkPath_injective {d : Str} {s s' : ℤ} {c c' : ℕ} (h : chunkPath d s c = chunkPath d s' c') :
    s = s' ∧ c = c' := by
  rw [chunkPath_eq, chunkPath_eq, List.append_cancel_left_eq] at h
  exact bnameIn_injective h

theorem outPath_injective {d : Str} {s s' : ℤ} (h : outPath d s = outPath d s') : s = s' := by
  rw [outPath_eq, outPath_eq, List.append_cancel_left_eq] at h
  exact bnameOut_injective h

theorem chunk_ne_out (d d' : Str) (s s' : ℤ) (c : ℕ) : chunkPath d s c ≠ outPath d' s' := by
  intro h
  have h1 := chunkPath_eq d s c
  have h2 := outPath_eq d' s'
  obtain ⟨a, ha⟩ : ∃ a, chunkPath d s c
      = (a ++ zpad (natStr NCHUNKS).length c) ++ ['.', 'h', 'd', 'f', '5'] := by
    unfold bnameIn at h1
    simp only [lit0, lit1, lit2] at h1
    rw [h1]
    exact ⟨dirPart d ++ (['s', 'u', 'b', 'v', 'o', 'l', '_'] ++ intStr s ++
      ['_', 'c', 'h', 'u', 'n', 'k', '_']), by simp only [List.append_assoc]⟩
  obtain ⟨b, hb⟩ : ∃ b, outPath d' s' = (b ++ ['s']) ++ ['.', 'h', 'd', 'f', '5'] := by
    unfold bnameOut at h2
    simp only [lit0, lit3] at h2
    rw [h2]
    exact ⟨dirPart d' ++ (['s', 'u', 'b', 'v', 'o', 'l', '_'] ++ intStr s' ++ ['_', 'd', 'i', 'f', 'f', 'm', 'a', 'h',
      '_', 'f', 'i', 't']), by simp only [List.append_assoc, List.cons_append, List.nil_append]⟩
  rw [ha, hb] at h
  have h := congrArg List.getLast? (List.append_cancel_right h)
  obtain ⟨z, hz⟩ : ∃ z, (zpad (natStr NCHUNKS).length c).getLast? = some z := by
    rw [← Option.isSome_iff_exists, List.getLast?_isSome]; exact zpad_ne_nil _ _
  have hd := zpad_digit (List.mem_of_getLast? hz)
  rw [List.getLast?_append, hz, List.getLast?_append] at h
  simp only [List.getLast?_singleton, Option.some_or, Option.some.injEq] at h
  rw [h] at hd
  exact absurd hd (by decide)

/-! ## Patterns -/

theorem globMatch_prefix (pre : Str) (p s : Str) (h : '*' ∉ pre) :
    globMatch (pre ++ p) s = true ↔ ∃ t, s = pre ++ t ∧ globMatch p t = true := by
  induction pre generalizing s with
  | nil => simp
  | cons c pre ih =>
    simp only [List.mem_cons, not_or] at h
    cases s with
    | nil =>
      rw [List.cons_append, globMatch]
      have : ('*' = c) = False := by simp [h.1]
      simp [Ne.symm h.1]
    | cons d s =>
      rw [List.cons_append, globMatch, if_neg (Ne.symm h.1)]
      simp only [Bool.and_eq_true, decide_eq_true_eq, ih s h.2, List.cons_append, List.cons.injEq]
      constructor
      · rintro ⟨rfl, t, rfl, ht⟩; exact ⟨t, ⟨rfl, rfl⟩, ht⟩
      · rintro ⟨t, ⟨rfl, rfl⟩, ht⟩; exact ⟨rfl, t, rfl, ht⟩

theorem globMatch_star (p s : Str) :
    globMatch ('*' :: p) s = true ↔ ∃ mid t, s = mid ++ t ∧ '/' ∉ mid ∧ globMatch p t = true := by
  induction s with
  | nil =>
    rw [globMatch]
    simp only [decide_true, Bool.true_and]
    constructor
    · intro h; exact ⟨[], [], rfl, by simp, h⟩
    · rintro ⟨mid, t, h, _, ht⟩
      have := List.append_eq_nil_iff.1 h.symm
      rw [this.2] at ht; exact ht
  | cons d s ih =>
    rw [globMatch, if_pos rfl]
    simp only [Bool.or_eq_true, Bool.and_eq_true, decide_eq_true_eq, ih]
    constructor
    · rintro (h | ⟨hd, mid, t, rfl, hm, ht⟩)
      · exact ⟨[], d :: s, rfl, by simp, h⟩
      · exact ⟨d :: mid, t, rfl, by simp [hm, Ne.symm hd], ht⟩
    · rintro ⟨mid, t, h, hm, ht⟩
      cases mid with
      | nil => left; rw [h]; exact ht
      | cons c mid =>
        simp only [List.cons_append, List.cons.injEq] at h
        simp only [List.mem_cons, not_or] at hm
        right
        exact ⟨by rw [h.1]; exact Ne.symm hm.1, mid, t, h.2, hm.2, ht⟩

theorem globMatch_exact (post s : Str) (h : '*' ∉ post) : globMatch post s = true ↔ s = post := by
  have := globMatch_prefix post [] s h
  rw [List.append_nil] at this
  rw [this]
  constructor
  · rintro ⟨t, rfl, ht⟩
    cases t with
    | nil => simp
    | cons c t => rw [globMatch] at ht; cases ht
  · rintro rfl; exact ⟨[], by simp, by rw [globMatch]⟩

/-- A pattern with one star matches the texts that begin and end as it does, with no slash between. -/
theorem globMatch_one (pre post s : Str) (h1 : '*' ∉ pre) (h2 : '*' ∉ post) :
    globMatch (pre ++ '*' :: post) s = true ↔ ∃ mid, s = pre ++ mid ++ post ∧ '/' ∉ mid := by
  rw [globMatch_prefix _ _ _ h1]
  constructor
  · rintro ⟨t, rfl, ht⟩
    obtain ⟨mid, u, rfl, hm, hu⟩ := (globMatch_star _ _).1 ht
    rw [globMatch_exact _ _ h2] at hu
    exact ⟨mid, by rw [hu, List.append_assoc], hm⟩
  · rintro ⟨mid, rfl, hm⟩
    exact ⟨mid ++ post, by rw [List.append_assoc],
      (globMatch_star _ _).2 ⟨mid, post, rfl, hm, (globMatch_exact _ _ h2).2 rfl⟩⟩

/-! ## The names of the fitting scripts -/

theorem format0_cons (arg s : Str) {c : Char} (hc : c ≠ '{') : format0 arg (c :: s) = c :: format0 arg s := by
  rw [format0]
  intro s' h _
  exact absurd h hc

theorem format0_append (arg d s : Str) (hd : '{' ∉ d) : format0 arg (d ++ s) = d ++ format0 arg s := by
  induction d with
  | nil => rfl
  | cons c d ih =>
    simp only [List.mem_cons, not_or] at hd
    rw [List.cons_append, format0_cons _ _ (Ne.symm hd.1), ih hd.2, List.cons_append]

theorem format0_plain (arg s : Str) (h : '{' ∉ s) : format0 arg s = s := by
  have := format0_append arg s [] h
  rwa [List.append_nil, format0, List.append_nil] at this

/-- The pieces of the base name of a rank file -/
def rankPieces (nchunks : ℕ) (s : ℤ) (c r : ℕ) : List Str :=
  [['s', 'u', 'b', 'v', 'o', 'l'], intStr s, ['c', 'h', 'u', 'n', 'k'],
    zpad (natStr nchunks).length c, ['t', 'm', 'p'], ['m', 'a', 'h'], ['f', 'i', 't', 's'],
    ['r', 'a', 'n', 'k'], natStr r ++ ['.', 'd', 'a', 't']]

theorem rankPieces_notMem (nchunks : ℕ) (s : ℤ) (c r : ℕ) (x : Char) (h1 : x.isDigit = false)
    (h2 : x.isAlpha = false) (h3 : x ≠ '-') (h4 : x ≠ '.') :
    ∀ w ∈ rankPieces nchunks s c r, x ∉ w := by
  have hi := intStr_notMem s x h1 h3
  have hz := zpad_notMem (natStr nchunks).length c x h1
  have hn : x ∉ natStr r := fun h => digit_ne (natStr_digit h) h1 rfl
  have ha : ∀ l : Str, l.all (fun c => c.isAlpha || c == '.') = true → x ∉ l := by
    intro l hl hx
    have := List.all_eq_true.1 hl x hx
    simp [h2, h4] at this
  intro w hw
  unfold rankPieces at hw
  simp only [List.mem_cons, List.not_mem_nil, or_false] at hw
  rcases hw with rfl | rfl | rfl | rfl | rfl | rfl | rfl | rfl | rfl
  · exact ha _ (by decide)
  · exact hi
  · exact ha _ (by decide)
  · exact hz
  · exact ha _ (by decide)
  · exact ha _ (by decide)
  · exact ha _ (by decide)
  · exact ha _ (by decide)
  · rw [List.mem_append, not_or]
    exact ⟨hn, ha _ (by decide)⟩

theorem joinWith_notMem (sep x : Char) (hx : x ≠ sep) (ws : List Str) (h : ∀ w ∈ ws, x ∉ w) :
    x ∉ joinWith sep ws := by
  induction ws with
  | nil => simp [joinWith]
  | cons w ws ih =>
    cases ws with
    | nil => exact h w (by simp)
    | cons w' ws =>
      rw [joinWith, List.mem_append, List.mem_cons, not_or, not_or]
      exact ⟨h w (by simp), hx, ih fun v hv => h v (List.mem_cons_of_mem _ hv)⟩

theorem dirPart_notMem {d : Str} {x : Char} (h : x ∉ d) (hx : x ≠ '/') : x ∉ dirPart d := by
  unfold dirPart
  split
  · simp
  · split
    · exact h
    · simp [h, hx]

theorem rankOutname_eq {outdir : Str} (ho : '{' ∉ outdir) (nchunks : ℕ) (s : ℤ) (c r : ℕ) :
    rankOutname outdir nchunks s c r
      = dirPart outdir ++ joinWith '_' (rankPieces nchunks s c r) := by
  have hs := intStr_notMem s '/' (by decide) (by decide)
  have hz := zpad_notMem (natStr nchunks).length c '/' (by decide)
  have hs' := intStr_notMem s '{' (by decide) (by decide)
  have hz' := zpad_notMem (natStr nchunks).length c '{' (by decide)
  have hb : rankBasepat nchunks s c = ("subvol_".toList ++ intStr s ++ "_chunk_".toList ++
      zpad (natStr nchunks).length c ++ "_tmp_mah_fits_rank_".toList) ++ "{0}.dat".toList := by
    unfold rankBasepat; simp only [joinWith]; lits; simp
  have hslash : '/' ∉ rankBasepat nchunks s c := by
    rw [hb]; lits; simp [hs, hz]
  rw [rankOutname, pathJoin_eq _ hslash, hb,
    format0_append _ _ _ (dirPart_notMem ho (by decide)),
    format0_append _ _ _ (by lits; simp [hs', hz'])]
  have e : format0 (natStr r) "{0}.dat".toList = natStr r ++ ".dat".toList := by
    have : "{0}.dat".toList = '{' :: '0' :: '}' :: ".dat".toList := by decide
    rw [this, format0, format0_plain _ _ (by decide)]
  rw [e]
  simp only [rankPieces, joinWith]; lits; simp

theorem slash_rankPieces (nchunks : ℕ) (s : ℤ) (c r : ℕ) :
    '/' ∉ joinWith '_' (rankPieces nchunks s c r) :=
  joinWith_notMem '_' '/' (by decide) _
    (rankPieces_notMem nchunks s c r '/' (by decide) (by decide) (by decide) (by decide))

theorem split_basename {outdir : Str} (ho : '{' ∉ outdir) (nchunks : ℕ) (s : ℤ) (c r : ℕ) :
    splitOn '_' (basename (rankOutname outdir nchunks s c r)) = rankPieces nchunks s c r := by
  rw [rankOutname_eq ho, basename_dir _ (slash_rankPieces nchunks s c r),
    splitOn_joinWith _ _ (by simp [rankPieces])
      (rankPieces_notMem nchunks s c r '_' (by decide) (by decide) (by decide) (by decide))]

theorem collatedBasename_eq {outdir : Str} (ho : '{' ∉ outdir) (nchunks : ℕ) (s : ℤ) (c : ℕ) :
    collatedBasename outdir nchunks s c = bnameIn (intStr s) (zpad (natStr nchunks).length c) := by
  unfold collatedBasename bnameIn
  lits
  simp only [split_basename ho, rankPieces, List.take, joinWith]
  simp

theorem collatedPath_eq {outdir : Str} (ho : '{' ∉ outdir) (nchunks : ℕ) (s : ℤ) (c : ℕ) :
    collatedPath outdir nchunks s c
      = dirPart outdir ++ bnameIn (intStr s) (zpad (natStr nchunks).length c) := by
  rw [collatedPath, collatedBasename_eq ho, pathJoin_eq _ (slash_bnameIn s _ c)]

/-- What the clean-up pattern begins with, up to the star -/
def cleanupPrefix (outdir : Str) (nchunks : ℕ) (s : ℤ) (c : ℕ) : Str :=
  dirPart outdir ++ (['s', 'u', 'b', 'v', 'o', 'l', '_'] ++ (intStr s ++
    '_' :: (['c', 'h', 'u', 'n', 'k', '_'] ++ (zpad (natStr nchunks).length c ++
    '_' :: ['t', 'm', 'p', '_', 'm', 'a', 'h', '_', 'f', 'i', 't', 's', '_', 'r', 'a', 'n', 'k', '_']))))

theorem cleanupPattern_eq {outdir : Str} (ho : '{' ∉ outdir) (nchunks : ℕ) (s : ℤ) (c : ℕ) :
    cleanupPattern outdir nchunks s c = cleanupPrefix outdir nchunks s c ++ '*' :: ['.', 'd', 'a', 't'] := by
  have hs := intStr_notMem s '/' (by decide) (by decide)
  have hz := zpad_notMem (natStr nchunks).length c '/' (by decide)
  unfold cleanupPattern
  lits
  simp only [split_basename ho, rankPieces, List.dropLast, joinWith]
  rw [pathJoin_eq]
  · simp [cleanupPrefix]
  · simp [hs, hz]

theorem rankOutname_cleanup {outdir : Str} (ho : '{' ∉ outdir) (nchunks : ℕ) (s : ℤ) (c r : ℕ) :
    rankOutname outdir nchunks s c r
      = cleanupPrefix outdir nchunks s c ++ natStr r ++ ['.', 'd', 'a', 't'] := by
  rw [rankOutname_eq ho]
  simp [rankPieces, joinWith, cleanupPrefix]

theorem star_cleanupPrefix {outdir : Str} (ho : '*' ∉ outdir) (nchunks : ℕ) (s : ℤ) (c : ℕ) :
    '*' ∉ cleanupPrefix outdir nchunks s c := by
  have hs := intStr_notMem s '*' (by decide) (by decide)
  have hz := zpad_notMem (natStr nchunks).length c '*' (by decide)
  have hd := dirPart_notMem ho (by decide)
  simp [cleanupPrefix, hs, hz, hd]

theorem cleanupPrefix_injective {outdir : Str} {n n' : ℕ} {s s' : ℤ} {c c' : ℕ} {x : Str}
    (h : cleanupPrefix outdir n s c <+: cleanupPrefix outdir n' s' c' ++ x) : s = s' ∧ c = c' := by
  have hu : ∀ n : ℤ, '_' ∉ intStr n := fun n => intStr_notMem n '_' (by decide) (by decide)
  have hz : ∀ w k, '_' ∉ zpad w k := fun w k => zpad_notMem w k '_' (by decide)
  unfold cleanupPrefix at h
  generalize ['s', 'u', 'b', 'v', 'o', 'l', '_'] = w1 at h
  generalize ['c', 'h', 'u', 'n', 'k', '_'] = w2 at h
  generalize ['t', 'm', 'p', '_', 'm', 'a', 'h', '_', 'f', 'i', 't', 's', '_', 'r', 'a', 'n', 'k', '_'] = w3 at h
  simp only [List.append_assoc, List.cons_append, List.prefix_append_right_inj] at h
  obtain ⟨h1, h2⟩ := cancel_sep_prefix (hu _) (hu _) h
  rw [List.prefix_append_right_inj] at h2
  obtain ⟨h3, _⟩ := cancel_sep_prefix (hz _ _) (hz _ _) h2
  exact ⟨intStr_injective h1, zpad_injective h3⟩

/-! ## Programs -/

theorem remove_lookup {F : Type} (fs : FS F) (p q : Str) :
    (FS.remove fs p).lookup q = if q = p then none else fs.lookup q := by
  unfold FS.remove
  induction fs with
  | nil => simp
  | cons x fs ih =>
    rw [List.filter_cons]
    by_cases hx : x.1 = p
    · simp only [hx, ne_eq, not_true_eq_false, decide_false, Bool.false_eq_true, if_false, ih]
      rw [List.lookup_cons, hx]
      by_cases hq : q = p
      · simp [hq]
      · have : (q == p) = false := by simpa using hq
        rw [this]
    · simp only [ne_eq, hx, not_false_eq_true, decide_true, if_true]
      rw [List.lookup_cons, ih, List.lookup_cons]
      by_cases hq : q = p
      · have : (q == x.1) = false := by simpa [hq] using Ne.symm hx
        simp [hq, show (p == x.1) = false by simpa using Ne.symm hx]
      · simp [hq]

/-- From every state meeting `Pre`, all states the program goes through meet `Inv`, and if it returns
normally, its result and last state meet `Post`. -/
def Triple {S A : Type} (Pre Inv : S → Prop) (p : Prog S A) (Post : A → S → Prop) : Prop :=
  ∀ s, Pre s → (∀ t ∈ (p s).1, Inv t) ∧ ∀ a, (p s).2.2 = .ok a → Post a (p s).2.1

variable {S A B : Type} {Pre Inv : S → Prop}

theorem Triple.pure {a : A} {Post : A → S → Prop} (h : ∀ s, Pre s → Post a s) :
    Triple Pre Inv (Prog.pure a) Post := by
  intro s hs
  refine ⟨by simp [Prog.pure], ?_⟩
  intro b hb
  cases hb
  exact h s hs

theorem Triple.ofExcept {r : Except PyErr A} {Post : A → S → Prop}
    (h : ∀ s a, Pre s → r = .ok a → Post a s) : Triple Pre Inv (Prog.ofExcept r) Post := by
  intro s hs
  exact ⟨by simp [Prog.ofExcept], fun a ha => h s a hs ha⟩

theorem Triple.act {f : S → S} {Post : Unit → S → Prop}
    (h : ∀ s, Pre s → Inv (f s) ∧ Post () (f s)) : Triple Pre Inv (Prog.act f) Post := by
  intro s hs
  exact ⟨by simpa [Prog.act] using (h s hs).1, fun _ _ => (h s hs).2⟩

theorem Triple.bind {p : Prog S A} {q : A → Prog S B} {Mid : A → S → Prop} {Post : B → S → Prop}
    (hp : Triple Pre Inv p Mid) (hq : ∀ a, Triple (Mid a) Inv (q a) Post) :
    Triple Pre Inv (Prog.bind p q) Post := by
  intro s hs
  obtain ⟨h1, h2⟩ := hp s hs
  unfold Prog.bind
  rcases hps : p s with ⟨tr, s', r⟩
  rw [hps] at h1 h2
  cases r with
  | error e => exact ⟨h1, fun a ha => by cases ha⟩
  | ok a =>
    obtain ⟨h3, h4⟩ := hq a s' (h2 a rfl)
    rcases hqs : q a s' with ⟨tr', s'', r'⟩
    rw [hqs] at h3 h4
    simp only [hqs]
    refine ⟨fun t ht => ?_, h4⟩
    rcases List.mem_append.1 ht with h | h
    · exact h1 t h
    · exact h3 t h

theorem Triple.get {q : S → Prog S B} {Post : B → S → Prop}
    (hq : ∀ s, Pre s → Triple (fun t => t = s) Inv (q s) Post) :
    Triple Pre Inv (Prog.bind Prog.get q) Post := by
  intro s hs
  have := hq s hs s rfl
  unfold Prog.bind Prog.get
  simpa using this

theorem Triple.weaken {Pre' Inv' : S → Prop} {p : Prog S A} {Post Post' : A → S → Prop}
    (h : Triple Pre Inv p Post) (h1 : ∀ s, Pre' s → Pre s) (h2 : ∀ s, Inv s → Inv' s)
    (h3 : ∀ a s, Post a s → Post' a s) : Triple Pre' Inv' p Post' := fun s hs =>
  ⟨fun t ht => h2 t ((h s (h1 s hs)).1 t ht), fun a ha => h3 _ _ ((h s (h1 s hs)).2 a ha)⟩

/-- A loop: `J done results` holds before, between and after the passes. -/
theorem Triple.each {f : A → Prog S B} {J : List A → List B → S → Prop} (l : List A)
    (hf : ∀ done bs a, a ∈ l → Triple (J done bs) Inv (f a) (fun b => J (done ++ [a]) (bs ++ [b])))
    (done : List A) (bs : List B) :
    Triple (J done bs) Inv (Prog.each f l) (fun cs => J (done ++ l) (bs ++ cs)) := by
  induction l generalizing done bs with
  | nil => exact Triple.pure fun s hs => by simpa using hs
  | cons a l ih =>
    refine Triple.bind (hf done bs a (by simp)) fun b => ?_
    refine Triple.bind (ih (fun d c x hx => hf d c x (by simp [hx])) (done ++ [a]) (bs ++ [b]))
      fun cs => Triple.pure fun s hs => ?_
    simpa using hs

end Diffmah.Scripts

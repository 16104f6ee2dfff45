import Verif.Model.Samples
import Verif.Lemmas.Scripts

/-! # Lemmas about the names of sample files -/

namespace Diffmah.Samples

open Diffmah.Text Diffmah.IO Diffmah.Scripts Diffmah.Targets

theorem slit0 : "_lgm_".toList = ['_', 'l', 'g', 'm', '_'] := by decide

theorem slit1 : "lgm_".toList = ['l', 'g', 'm', '_'] := by decide

theorem slit2 : "_t_".toList = ['_', 't', '_'] := by decide

theorem slit3 : "_mah_params.".toList = ['_', 'm', 'a', 'h', '_', 'p', 'a', 'r', 'a', 'm', 's', '.'] := by decide

theorem slit4 : ".txt".toList = ['.', 't', 'x', 't'] := by decide

theorem slit5 : ".npy".toList = ['.', 'n', 'p', 'y'] := by decide

theorem slit6 : "cens".toList = ['c', 'e', 'n', 's'] := by decide

theorem slit7 : "sats".toList = ['s', 'a', 't', 's'] := by decide

theorem slit8 : "NM_".toList = ['N', 'M', '_'] := by decide

theorem slit9 : "_NT_".toList = ['_', 'N', 'T', '_'] := by decide

theorem slit10 : "_ISTART_".toList = ['_', 'I', 'S', 'T', 'A', 'R', 'T', '_'] := by decide

theorem slit11 : "_IEND_".toList = ['_', 'I', 'E', 'N', 'D', '_'] := by decide

theorem slit12 : "subvol_*.txt".toList = ['s', 'u', 'b', 'v', 'o', 'l', '_', '*', '.', 't', 'x', 't'] := by decide

/-- Spell out the literals -/
macro "slits" : tactic => `(tactic| simp only [lit0, slit0, slit1, slit2, slit3, slit4, slit5, slit6, slit7, slit8, slit9, slit10, slit11, slit12])

/-- Centrals or satellites -/
def Kind (cs : Str) : Prop := cs = "cens".toList ∨ cs = "sats".toList

theorem Kind.notMem {cs : Str} (h : Kind cs) {c : Char} (hc : c.isAlpha = false) : c ∉ cs := by
  intro hm
  have : cs.all Char.isAlpha = true := by rcases h with rfl | rfl <;> decide
  rw [List.all_eq_true.1 this c hm] at hc
  cases hc

theorem fmt2f_notMem (x : ℝ) {c : Char} (h1 : c.isDigit = false) (h2 : c ≠ '-') (h3 : c ≠ '.') :
    c ∉ fmt2f x := by
  unfold fmt2f
  dsimp only
  intro h
  rw [List.mem_append, List.mem_append, List.mem_cons] at h
  rcases h with (h | h) | h | h
  · split at h
    · simp at h; exact h2 h
    · cases h
  · exact digit_ne (natStr_digit h) h1 rfl
  · exact h3 h
  · exact zpad_notMem _ _ _ h1 h

/-- What follows the number of the subvolume and an underscore -/
noncomputable def restName (lgm t : ℝ) (cs : Str) : Str :=
  ['l', 'g', 'm', '_'] ++ fmt2f lgm ++ ['_', 't', '_'] ++ fmt2f t ++
    ['_', 'm', 'a', 'h', '_', 'p', 'a', 'r', 'a', 'm', 's', '.'] ++ cs

theorem subvolName_eq (s : Str) (lgm t : ℝ) (cs : Str) :
    subvolName s lgm t cs = ['s', 'u', 'b', 'v', 'o', 'l', '_'] ++ (s ++ '_' :: (restName lgm t cs ++
      ['.', 't', 'x', 't'])) := by
  unfold subvolName restName; slits; simp

theorem sampleName_eq (lgm t : ℝ) (cs : Str) :
    sampleName lgm t cs = restName lgm t cs ++ ['.', 'n', 'p', 'y'] := by
  unfold sampleName restName; slits

theorem restName_notMem (lgm t : ℝ) {cs : Str} (hk : Kind cs) {c : Char} (h1 : c.isDigit = false)
    (h2 : c.isAlpha = false) (h3 : c ≠ '-') (h4 : c ≠ '.') (h5 : c ≠ '_') : c ∉ restName lgm t cs := by
  have ha : ∀ l : Str, l.all (fun c => c.isAlpha || c == '.' || c == '_') = true → c ∉ l := by
    intro l hl hx
    have := List.all_eq_true.1 hl c hx
    simp [h2, h4, h5] at this
  unfold restName
  simp only [List.mem_append, not_or]
  exact ⟨⟨⟨⟨⟨ha _ (by decide), fmt2f_notMem _ h1 h3 h4⟩, ha _ (by decide)⟩, fmt2f_notMem _ h1 h3 h4⟩,
    ha _ (by decide)⟩, hk.notMem h2⟩

theorem restName_count (lgm t : ℝ) {cs : Str} (hk : Kind cs) : (restName lgm t cs).count '_' = 5 := by
  unfold restName
  simp only [List.count_append]
  rw [List.count_eq_zero_of_not_mem (fmt2f_notMem lgm (c := '_') (by decide) (by decide) (by decide)),
    List.count_eq_zero_of_not_mem (fmt2f_notMem t (c := '_') (by decide) (by decide) (by decide)),
    List.count_eq_zero_of_not_mem (hk.notMem (c := '_') (by decide))]
  decide

theorem slash_subvolName (s : Str) (hs : '/' ∉ s) (lgm t : ℝ) {cs : Str} (hk : Kind cs) :
    '/' ∉ subvolName s lgm t cs := by
  rw [subvolName_eq]
  have := restName_notMem lgm t hk (c := '/') (by decide) (by decide) (by decide) (by decide) (by decide)
  simp [hs, this]

theorem slash_sampleName (lgm t : ℝ) {cs : Str} (hk : Kind cs) : '/' ∉ sampleName lgm t cs := by
  rw [sampleName_eq]
  have := restName_notMem lgm t hk (c := '/') (by decide) (by decide) (by decide) (by decide) (by decide)
  simp [this]

theorem natStr_notMem (n : ℕ) {c : Char} (h : c.isDigit = false) : c ∉ natStr n :=
  fun hm => digit_ne (natStr_digit hm) h rfl

/-- The path of the sample of one subvolume and bin -/
noncomputable def samplePath (drn : Str) (k : ℕ) (b : ℝ × ℝ × Str) : Str :=
  pathJoin drn (subvolName (natStr k) b.1 b.2.1 b.2.2)

theorem samplePath_eq (drn : Str) (k : ℕ) (b : ℝ × ℝ × Str) (hk : Kind b.2.2) :
    samplePath drn k b = dirPart drn ++ (['s', 'u', 'b', 'v', 'o', 'l', '_'] ++ (natStr k ++ '_' ::
      (restName b.1 b.2.1 b.2.2 ++ ['.', 't', 'x', 't']))) := by
  rw [samplePath, pathJoin_eq _ (slash_subvolName _ (natStr_notMem k (by decide)) _ _ hk), subvolName_eq]

/-- A middle part between the prefix and a bin is the number of a subvolume, and the bin is the same. -/
theorem match_rest {k : ℕ} {mid : Str} {lgm t lgm' t' : ℝ} {cs cs' : Str} (hk : Kind cs) (hk' : Kind cs')
    (h : natStr k ++ '_' :: (restName lgm t cs ++ ['.', 't', 'x', 't'])
      = mid ++ '_' :: (restName lgm' t' cs' ++ ['.', 't', 'x', 't'])) :
    mid = natStr k ∧ restName lgm t cs = restName lgm' t' cs' := by
  have hu : '_' ∉ mid := by
    intro hm
    have h1 := congrArg (List.count '_') h
    simp only [List.count_append, List.count_cons_self, restName_count _ _ hk, restName_count _ _ hk'] at h1
    rw [List.count_eq_zero_of_not_mem (natStr_notMem k (c := '_') (by decide))] at h1
    have := List.count_pos_iff.2 hm
    omega
  obtain ⟨h1, h2⟩ := cancel_sep (natStr_notMem k (by decide)) hu h
  exact ⟨h1.symm, List.append_cancel_right h2⟩

theorem samplePath_injective {drn : Str} {k k' : ℕ} {b : ℝ × ℝ × Str} (hk : Kind b.2.2)
    (h : samplePath drn k b = samplePath drn k' b) : k = k' := by
  rw [samplePath_eq _ _ _ hk, samplePath_eq _ _ _ hk, List.append_cancel_left_eq,
    List.append_cancel_left_eq] at h
  exact natStr_injective (match_rest hk hk h).1.symm

/-! ## The name of the collated file -/

theorem removeTxt_append (w s : Str) (hw : '.' ∉ w) : removeTxt (w ++ s) = w ++ removeTxt s := by
  induction w with
  | nil => rfl
  | cons c w ih =>
    simp only [List.mem_cons, not_or] at hw
    rw [List.cons_append, removeTxt, ih hw.2, List.cons_append]
    rintro s' rfl
    exact absurd rfl hw.1

theorem removeTxt_dot {c : Char} (s : Str) (hc : c ≠ 't') :
    removeTxt ('.' :: c :: s) = '.' :: removeTxt (c :: s) := by
  rw [removeTxt]
  intro s' _ h
  simp only [List.cons.injEq] at h
  exact absurd h.1 hc

theorem removeTxt_fmt2f (x : ℝ) (s : Str) : removeTxt (fmt2f x ++ s) = fmt2f x ++ removeTxt s := by
  unfold fmt2f
  dsimp only
  generalize (roundHalfEven (100 * |x|)).toNat = q
  obtain ⟨d, z, hz⟩ := List.exists_cons_of_ne_nil (zpad_ne_nil 2 (q % 100))
  have hdig : ∀ c ∈ d :: z, c.isDigit = true := fun c hc => zpad_digit (hz ▸ hc)
  have hnd : '.' ∉ d :: z := fun h => absurd (hdig _ h) (by decide)
  rw [hz]
  have hsign : '.' ∉ (if x < 0 then ['-'] else []) := by split <;> simp
  rw [List.append_assoc, List.append_assoc, removeTxt_append _ _ hsign,
    removeTxt_append _ _ (natStr_notMem _ (by decide)), List.cons_append, List.cons_append,
    removeTxt_dot _ (by rintro rfl; exact absurd (hdig 't' (by simp)) (by decide)),
    ← List.cons_append, removeTxt_append _ _ hnd]
  simp

theorem removeTxt_rest (lgm t : ℝ) {cs : Str} (hk : Kind cs) :
    removeTxt (restName lgm t cs ++ ['.', 't', 'x', 't']) = restName lgm t cs := by
  have hcs : removeTxt ('.' :: (cs ++ ['.', 't', 'x', 't'])) = '.' :: cs := by
    rcases hk with rfl | rfl <;> decide
  have e : restName lgm t cs ++ ['.', 't', 'x', 't'] = ['l', 'g', 'm', '_'] ++ (fmt2f lgm ++
      (['_', 't', '_'] ++ (fmt2f t ++ (['_', 'm', 'a', 'h', '_', 'p', 'a', 'r', 'a', 'm', 's'] ++
      ('.' :: (cs ++ ['.', 't', 'x', 't'])))))) := by
    unfold restName; simp
  rw [e, removeTxt_append _ _ (by decide), removeTxt_fmt2f, removeTxt_append _ _ (by decide),
    removeTxt_fmt2f, removeTxt_append _ _ (by decide), hcs]
  unfold restName; simp

theorem collatedName_sample (k : ℕ) (lgm t : ℝ) {cs : Str} (hk : Kind cs) :
    collatedName (subvolName (natStr k) lgm t cs) = sampleName lgm t cs := by
  have hu : ∀ x, '_' ∉ fmt2f x := fun x => fmt2f_notMem x (by decide) (by decide) (by decide)
  have h3 : '_' ∉ ['p', 'a', 'r', 'a', 'm', 's', '.'] ++ cs ++ ['.', 't', 'x', 't'] := by
    simp [hk.notMem (c := '_') (by decide)]
  set last := ['p', 'a', 'r', 'a', 'm', 's', '.'] ++ cs ++ ['.', 't', 'x', 't'] with hlast
  have e1 : subvolName (natStr k) lgm t cs = joinWith '_' [['s', 'u', 'b', 'v', 'o', 'l'], natStr k,
      ['l', 'g', 'm'], fmt2f lgm, ['t'], fmt2f t, ['m', 'a', 'h'], last] := by
    rw [subvolName_eq]; simp [joinWith, restName, hlast]
  have e2 : joinWith '_' [['l', 'g', 'm'], fmt2f lgm, ['t'], fmt2f t, ['m', 'a', 'h'], last]
      = restName lgm t cs ++ ['.', 't', 'x', 't'] := by
    simp [joinWith, restName, hlast]
  unfold collatedName
  rw [e1, splitOn_joinWith _ _ (by simp)]
  · rw [List.drop, List.drop, List.drop, e2, removeTxt_rest _ _ hk, sampleName_eq, slit5]
  · intro w hw
    simp only [List.mem_cons, List.not_mem_nil, or_false] at hw
    rcases hw with rfl | rfl | rfl | rfl | rfl | rfl | rfl | rfl
    · decide
    · exact natStr_notMem _ (by decide)
    · decide
    · exact hu _
    · decide
    · exact hu _
    · decide
    · exact h3

end Diffmah.Samples

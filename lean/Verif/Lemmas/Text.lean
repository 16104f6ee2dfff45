import Verif.Model.Text
import Verif.Lemmas.XR
import Mathlib.Tactic.Linarith
import Mathlib.Tactic.FieldSimp
import Mathlib.Tactic.Positivity

/-! # Lemmas about text input and output -/

namespace Diffmah.Text

open Diffmah.Utils Diffmah.Fit

/-! ## Splitting -/

/-- Characters that can occur inside a field: no white space, no comment sign. -/
def CleanChar (c : Char) : Prop := c.isWhitespace = false ∧ c ≠ '#'

/-- A field. -/
def Word (w : Str) : Prop := w ≠ [] ∧ ∀ c ∈ w, CleanChar c

theorem splitFrom_append (w : Str) (hw : ∀ c ∈ w, c.isWhitespace = false) (cur s : Str) :
    splitFrom cur (w ++ s) = splitFrom (cur ++ w) s := by
  induction w generalizing cur with
  | nil => simp
  | cons c w ih =>
    have hc := hw c List.mem_cons_self
    rw [List.cons_append, splitFrom, if_neg (by simp [hc]), ih (fun d hd => hw d (List.mem_cons_of_mem _ hd))]
    simp

theorem split_cons_ws {c : Char} (hc : c.isWhitespace = true) (s : Str) : split (c :: s) = split s := by
  simp [split, splitFrom, hc]

theorem splitFrom_concat_ws {c : Char} (hc : c.isWhitespace = true) (cur s : Str) :
    splitFrom cur (s ++ [c]) = splitFrom cur s := by
  induction s generalizing cur with
  | nil =>
    simp only [List.nil_append, splitFrom, hc, if_true]
  | cons d s ih =>
    simp only [List.cons_append, splitFrom, ih]

theorem split_dropWhile (s : Str) : split (s.dropWhile Char.isWhitespace) = split s := by
  induction s with
  | nil => rfl
  | cons c s ih =>
    rw [List.dropWhile_cons]
    split
    · rename_i h; rw [ih, split_cons_ws h]
    · rfl

theorem split_rdropWhile (s : Str) :
    split ((s.reverse.dropWhile Char.isWhitespace).reverse) = split s := by
  induction s using List.reverseRecOn with
  | nil => rfl
  | append_singleton s c ih =>
    rw [List.reverse_append, List.reverse_singleton, List.singleton_append, List.dropWhile_cons]
    split
    · rename_i h
      rw [ih]; exact (splitFrom_concat_ws h [] s).symm
    · simp

theorem split_strip (s : Str) : split (strip s) = split s := by
  unfold strip
  rw [split_rdropWhile, split_dropWhile]

theorem split_join (ws : List Str) (h : ∀ w ∈ ws, Word w) : split (joinSpace ws) = ws := by
  induction ws with
  | nil => rfl
  | cons w ws ih =>
    have hw := h w List.mem_cons_self
    have hne : w ≠ [] := hw.1
    cases ws with
    | nil =>
      have := splitFrom_append w (fun c hc => (hw.2 c hc).1) [] []
      simp only [List.append_nil, List.nil_append] at this
      simp [split, joinSpace, this, splitFrom, hne]
    | cons w' ws =>
      have := splitFrom_append w (fun c hc => (hw.2 c hc).1) [] (' ' :: joinSpace (w' :: ws))
      rw [joinSpace, split, this, List.nil_append, splitFrom,
        if_pos (show ' '.isWhitespace = true by decide), if_neg hne]
      congr 1
      exact ih (fun v hv => h v (List.mem_cons_of_mem _ hv))

theorem split_join_newline (ws : List Str) (h : ∀ w ∈ ws, Word w) :
    split (joinSpace ws ++ ['\n']) = ws := by
  have : split (joinSpace ws ++ ['\n']) = split (joinSpace ws) :=
    splitFrom_concat_ws (c := '\n') rfl [] _
  rw [this, split_join ws h]

theorem joinSpace_clean (ws : List Str) (h : ∀ w ∈ ws, Word w) :
    ∀ c ∈ joinSpace ws, c ≠ '#' ∧ c ≠ '\n' := by
  induction ws with
  | nil => intro c hc; cases hc
  | cons w ws ih =>
    have hw : ∀ c ∈ w, c ≠ '#' ∧ c ≠ '\n' := by
      intro c hc
      have := (h w List.mem_cons_self).2 c hc
      refine ⟨this.2, ?_⟩
      rintro rfl
      exact absurd this.1 (by decide)
    cases ws with
    | nil => exact hw
    | cons w' ws =>
      intro c hc
      rw [joinSpace, List.mem_append, List.mem_cons] at hc
      rcases hc with hc | rfl | hc
      · exact hw c hc
      · decide
      · exact ih (fun v hv => h v (List.mem_cons_of_mem _ hv)) c hc

/-! ## Digits -/

theorem digit_clean {c : Char} (h : c.isDigit = true) :
    CleanChar c ∧ c ≠ '-' ∧ c ≠ '+' ∧ c ≠ '.' ∧ c ≠ 'e' ∧ c ≠ 'E' ∧ c ≠ 'n' ∧ c ≠ 'i' := by
  refine ⟨⟨?_, ?_⟩, ?_, ?_, ?_, ?_, ?_, ?_, ?_⟩
  · by_contra hc
    simp only [Char.isWhitespace, Bool.not_eq_false, Bool.or_eq_true, decide_eq_true_eq] at hc
    rcases hc with ((rfl | rfl) | rfl) | rfl <;> exact absurd h (by decide)
  all_goals rintro rfl; exact absurd h (by decide)

theorem natStr_digit {n : ℕ} {c : Char} (h : c ∈ natStr n) : c.isDigit = true :=
  Nat.isDigit_of_mem_toDigits (by norm_num) (by norm_num) h

theorem natStr_ne_nil (n : ℕ) : natStr n ≠ [] := Nat.toDigits_ne_nil

theorem natStr_all (n : ℕ) : (natStr n).all Char.isDigit = true :=
  List.all_eq_true.2 fun _ h => natStr_digit h

theorem digitsVal_natStr (n : ℕ) : digitsVal (natStr n) = n := Nat.ofDigitChars_ten_toDigits

theorem natStr_injective {m n : ℕ} (h : natStr m = natStr n) : m = n := by
  rw [← digitsVal_natStr m, h, digitsVal_natStr]

theorem natStr_word (n : ℕ) : Word (natStr n) :=
  ⟨natStr_ne_nil n, fun _ h => (digit_clean (natStr_digit h)).1⟩

theorem pyNat_natStr (n : ℕ) : pyNat (natStr n) = .ok n := by
  unfold pyNat
  rw [if_pos ⟨natStr_ne_nil n, natStr_all n⟩, digitsVal_natStr]

theorem pyInt_of_digits {s : Str} (h1 : s ≠ []) (h2 : s.all Char.isDigit = true) :
    pyInt s = .ok (digitsVal s : ℤ) := by
  obtain ⟨c, s', rfl⟩ := List.exists_cons_of_ne_nil h1
  have hc := digit_clean (List.all_eq_true.1 h2 c List.mem_cons_self)
  have : pyInt (c :: s') = (pyNat (c :: s')).map fun n : ℕ => (n : ℤ) := by
    unfold pyInt
    split
    · rename_i h; exact absurd (List.cons.inj h).1 hc.2.1
    · rename_i h; exact absurd (List.cons.inj h).1 hc.2.2.1
    · rfl
  rw [this, pyNat, if_pos ⟨h1, h2⟩]; rfl

theorem pyInt_natStr (n : ℕ) : pyInt (natStr n) = .ok (n : ℤ) := by
  rw [pyInt_of_digits (natStr_ne_nil n) (natStr_all n), digitsVal_natStr]

theorem pyInt_intStr (n : ℤ) : pyInt (intStr n) = .ok n := by
  unfold intStr
  split
  · rename_i h
    have e : -((n.natAbs : ℕ) : ℤ) = n := by omega
    simp only [pyInt, pyNat_natStr, Except.map, e]
  · rename_i h
    have e : ((n.natAbs : ℕ) : ℤ) = n := by omega
    rw [pyInt_natStr, e]

theorem intStr_word (n : ℤ) : Word (intStr n) := by
  unfold intStr
  split
  · refine ⟨by simp, ?_⟩
    intro c hc
    rcases List.mem_cons.1 hc with rfl | hc
    · exact ⟨by decide, by decide⟩
    · exact (natStr_word _).2 c hc
  · exact natStr_word _

/-! ## Scientific notation -/

theorem expStr_all (e : ℤ) : ∃ c s, expStr e = c :: s ∧ (c = '-' ∨ c = '+') ∧ s ≠ [] ∧
    s.all Char.isDigit = true ∧ digitsVal s = e.natAbs ∧ (c = '-' ↔ e < 0) := by
  unfold expStr
  refine ⟨_, _, rfl, ?_, ?_, ?_, ?_, ?_⟩
  · split <;> simp
  · split
    · simp
    · exact natStr_ne_nil _
  · split
    · simpa using natStr_all e.natAbs
    · exact natStr_all _
  · split
    · have : digitsVal ('0' :: natStr e.natAbs) = digitsVal (natStr e.natAbs) := by
        simp [digitsVal, Nat.ofDigitChars_cons]
      rw [this, digitsVal_natStr]
    · exact digitsVal_natStr _
  · split <;> simp_all

theorem pyInt_expStr (e : ℤ) : pyInt (expStr e) = .ok e := by
  obtain ⟨c, s, h, hc, h1, h2, h3, h4⟩ := expStr_all e
  rw [h]
  rcases hc with rfl | rfl
  · have := h4.1 rfl
    have e' : -((e.natAbs : ℕ) : ℤ) = e := by omega
    simp only [pyInt, pyNat, if_pos (And.intro h1 h2), Except.map, h3, e']
  · have : ¬ e < 0 := fun h => absurd (h4.2 h) (by decide)
    have e' : ((e.natAbs : ℕ) : ℤ) = e := by omega
    simp only [pyInt, pyNat, if_pos (And.intro h1 h2), Except.map, h3, e']

theorem natStr_length_six {n : ℕ} (h1 : 10 ^ 5 ≤ n) (h2 : n < 10 ^ 6) : (natStr n).length = 6 := by
  have a := (Nat.length_toDigits_le_iff (b := 10) (n := n) (k := 6) (by norm_num) (by norm_num)).2 h2
  have b := (Nat.length_toDigits_le_iff (b := 10) (n := n) (k := 5) (by norm_num) (by norm_num)).not.2
    (not_lt.2 h1)
  unfold natStr; omega

theorem sciStr_word (n : ℕ) (e : ℤ) : Word (sciStr n e) := by
  unfold sciStr
  refine ⟨by simp, ?_⟩
  intro c hc
  rw [List.append_assoc, List.cons_append, List.mem_append, List.mem_cons, List.mem_append,
    List.mem_cons] at hc
  rcases hc with hc | rfl | hc | rfl | hc
  · exact (natStr_word n).2 c (List.mem_of_mem_take hc)
  · exact ⟨by decide, by decide⟩
  · exact (natStr_word n).2 c (List.mem_of_mem_drop hc)
  · exact ⟨by decide, by decide⟩
  · obtain ⟨d, s, h, hd, h1, h2, -⟩ := expStr_all e
    rw [h] at hc
    rcases List.mem_cons.1 hc with rfl | hc
    · rcases hd with rfl | rfl <;> exact ⟨by decide, by decide⟩
    · exact (digit_clean (List.all_eq_true.1 h2 c hc)).1

theorem takeWhile_digits (s t : Str) (hs : ∀ c ∈ s, c.isDigit = true) {c : Char}
    (hc : c.isDigit = false) : (s ++ c :: t).takeWhile Char.isDigit = s ∧
      (s ++ c :: t).dropWhile Char.isDigit = c :: t := by
  induction s with
  | nil => simp [hc]
  | cons d s ih =>
    have hd := hs d List.mem_cons_self
    obtain ⟨h1, h2⟩ := ih (fun x hx => hs x (List.mem_cons_of_mem _ hx))
    simp [hd, h1, h2]

/-- A number in scientific notation is read back exactly. -/
theorem pyUFloat_sciStr {n : ℕ} {e : ℤ} (h1 : 10 ^ 5 ≤ n) (h2 : n < 10 ^ 6) :
    pyUFloat (sciStr n e) = .ok (XR.fin ((n : ℝ) * (10 : ℝ) ^ (e - 5))) := by
  have hlen := natStr_length_six h1 h2
  have hA : ∀ c ∈ (natStr n).take 1, c.isDigit = true := fun c h =>
    natStr_digit (List.mem_of_mem_take h)
  have hB : ∀ c ∈ (natStr n).drop 1, c.isDigit = true := fun c h =>
    natStr_digit (List.mem_of_mem_drop h)
  set A := (natStr n).take 1 with hAd
  set B := (natStr n).drop 1 with hBd
  have hAB : A ++ B = natStr n := List.take_append_drop 1 _
  have hBl : B.length = 5 := by rw [hBd, List.length_drop, hlen]
  have hAl : A.length = 1 := by rw [hAd, List.length_take, hlen]; rfl
  have hs : sciStr n e = A ++ '.' :: (B ++ 'e' :: expStr e) := by
    unfold sciStr; simp [hAd, hBd]
  obtain ⟨a, ha⟩ := List.length_eq_one_iff.1 hAl
  have had : a.isDigit = true := hA a (by rw [ha]; simp)
  obtain ⟨t1, t2⟩ := takeWhile_digits A (B ++ 'e' :: expStr e) hA (c := '.') (by decide)
  obtain ⟨t3, t4⟩ := takeWhile_digits B (expStr e) hB (c := 'e') (by decide)
  unfold pyUFloat
  have n1 : sciStr n e ≠ ['n', 'a', 'n'] := by
    rw [hs, ha]; intro h
    exact (digit_clean had).2.2.2.2.2.2.1 (List.cons.inj h).1
  have n2 : sciStr n e ≠ ['i', 'n', 'f'] := by
    rw [hs, ha]; intro h
    exact (digit_clean had).2.2.2.2.2.2.2 (List.cons.inj h).1
  rw [if_neg n1, if_neg n2]
  simp only [hs, t1, t2, t3, t4, hAB]
  rw [if_neg (natStr_ne_nil n)]
  simp only [pyExp, if_true, true_or, pyInt_expStr, Except.map, digitsVal_natStr, hBl]
  norm_num

/-! ## Rounding -/

theorem roundHalfEven_close (x : ℝ) : |(roundHalfEven x : ℝ) - x| ≤ 1 / 2 := by
  have h1 := Int.floor_le x
  have h2 := Int.lt_floor_add_one x
  unfold roundHalfEven
  split
  · rename_i h; rw [abs_le]; constructor <;> linarith
  · rename_i h
    split
    · rename_i h'; push_cast; rw [abs_le]; constructor <;> linarith
    · rename_i h'
      split
      · rw [abs_le]; constructor <;> linarith
      · push_cast; rw [abs_le]; constructor <;> linarith

theorem roundHalfEven_int (n : ℤ) : roundHalfEven (n : ℝ) = n := by
  unfold roundHalfEven
  rw [Int.floor_intCast, if_pos (by norm_num)]

/-- The mantissa and exponent printed for a positive number: six digits, and the value is within
5e-6 relative. -/
theorem sciParts_spec {x : ℝ} (hx : 0 < x) :
    10 ^ 5 ≤ (sciParts x).1 ∧ (sciParts x).1 < 10 ^ 6 ∧
    |((sciParts x).1 : ℝ) * (10 : ℝ) ^ ((sciParts x).2 - 5) - x| ≤ 5e-6 * x := by
  set e := Int.log 10 x with he
  have l1 : (10 : ℝ) ^ e ≤ x := by
    have := Int.zpow_log_le_self (b := 10) (r := x) (by norm_num) hx
    exact_mod_cast this
  have l2 : x < (10 : ℝ) ^ (e + 1) := by
    have := Int.lt_zpow_succ_log_self (b := 10) (by norm_num) x
    exact_mod_cast this
  set y := x * (10 : ℝ) ^ (5 - e) with hy
  have p1 : (0 : ℝ) < (10 : ℝ) ^ (5 - e) := by positivity
  have hxy : x = y * (10 : ℝ) ^ (e - 5) := by
    rw [hy, mul_assoc, ← zpow_add₀ (by norm_num)]; simp
  have y1 : (10 : ℝ) ^ 5 ≤ y := by
    have := mul_le_mul_of_nonneg_right l1 p1.le
    rw [← zpow_add₀ (by norm_num)] at this
    simpa using this
  have y2 : y < (10 : ℝ) ^ 6 := by
    have := mul_lt_mul_of_pos_right l2 p1
    rw [← zpow_add₀ (by norm_num), show e + 1 + (5 - e) = 6 by ring] at this
    exact_mod_cast this
  have hc := roundHalfEven_close y
  rw [abs_le] at hc
  set r := roundHalfEven y with hr
  have r1 : (10 : ℤ) ^ 5 ≤ r := by
    have : ((10 : ℤ) ^ 5 - 1 : ℝ) < r := by push_cast; linarith [hc.1]
    have : (10 : ℤ) ^ 5 - 1 < r := by exact_mod_cast this
    omega
  have r2 : r ≤ (10 : ℤ) ^ 6 := by
    have : (r : ℝ) < ((10 : ℤ) ^ 6 + 1 : ℝ) := by push_cast; linarith [hc.2]
    have : r < (10 : ℤ) ^ 6 + 1 := by exact_mod_cast this
    omega
  have hn : ((r.toNat : ℕ) : ℤ) = r := Int.toNat_of_nonneg (by omega)
  have hnr : ((r.toNat : ℕ) : ℝ) = (r : ℝ) := by exact_mod_cast congrArg (Int.cast : ℤ → ℝ) hn
  have p2 : (0 : ℝ) < (10 : ℝ) ^ (e - 5) := by positivity
  have hval : |(r : ℝ) * (10 : ℝ) ^ (e - 5) - x| ≤ 5e-6 * x := by
    rw [hxy, ← sub_mul, abs_mul, abs_of_pos p2]
    have : |(r : ℝ) - y| ≤ 1 / 2 := abs_le.2 hc
    have h3 : 5e-6 * (y * (10 : ℝ) ^ (e - 5)) = (5e-6 * y) * (10 : ℝ) ^ (e - 5) := by ring
    rw [h3]
    apply mul_le_mul_of_nonneg_right _ p2.le
    norm_num at y1 ⊢
    linarith
  have hs : sciParts x = if r.toNat = 10 ^ 6 then (10 ^ 5, e + 1) else (r.toNat, e) := rfl
  rw [hs]
  split
  · rename_i h
    refine ⟨le_rfl, by norm_num, ?_⟩
    have hr6 : (r : ℝ) = 10 ^ 6 := by rw [← hnr, h]; norm_num
    have : ((10 ^ 5 : ℕ) : ℝ) * (10 : ℝ) ^ (e + 1 - 5) = (r : ℝ) * (10 : ℝ) ^ (e - 5) := by
      rw [hr6, show e + 1 - 5 = (e - 5) + 1 by ring, zpow_add₀ (by norm_num)]
      push_cast; ring
    simp only
    rw [this]; exact hval
  · rename_i h
    refine ⟨by omega, by omega, ?_⟩
    simp only
    rw [hnr]; exact hval

/-- A six-digit number keeps its mantissa and exponent. -/
theorem sciParts_exact {n : ℕ} {e : ℤ} (h1 : 10 ^ 5 ≤ n) (h2 : n < 10 ^ 6) :
    sciParts ((n : ℝ) * (10 : ℝ) ^ (e - 5)) = (n, e) := by
  have p : (0 : ℝ) < (10 : ℝ) ^ (e - 5) := by positivity
  have h1' : (10 : ℝ) ^ 5 ≤ n := by exact_mod_cast h1
  have h2' : (n : ℝ) < 10 ^ 6 := by exact_mod_cast h2
  have hx : 0 < (n : ℝ) * (10 : ℝ) ^ (e - 5) := by
    apply mul_pos _ p; linarith [show (0 : ℝ) < 10 ^ 5 by norm_num]
  have he : Int.log 10 ((n : ℝ) * (10 : ℝ) ^ (e - 5)) = e := by
    apply le_antisymm
    · have : Int.log 10 ((n : ℝ) * (10 : ℝ) ^ (e - 5)) < e + 1 := by
        rw [← Int.lt_zpow_iff_log_lt (by norm_num) hx]
        push_cast
        calc (n : ℝ) * (10 : ℝ) ^ (e - 5) < 10 ^ 6 * (10 : ℝ) ^ (e - 5) :=
              mul_lt_mul_of_pos_right h2' p
          _ = (10 : ℝ) ^ (e + 1) := by
              rw [show e + 1 = 6 + (e - 5) by ring, zpow_add₀ (by norm_num)]; norm_num
      omega
    · rw [← Int.zpow_le_iff_le_log (by norm_num) hx]
      push_cast
      calc (10 : ℝ) ^ e = 10 ^ 5 * (10 : ℝ) ^ (e - 5) := by
              rw [show e = 5 + (e - 5) by ring, zpow_add₀ (by norm_num)]; norm_num
        _ ≤ _ := mul_le_mul_of_nonneg_right h1' p.le
  unfold sciParts
  simp only [he]
  have : (n : ℝ) * (10 : ℝ) ^ (e - 5) * (10 : ℝ) ^ (5 - e) = ((n : ℤ) : ℝ) := by
    rw [mul_assoc, ← zpow_add₀ (by norm_num)]; simp
  rw [this, roundHalfEven_int]
  simp only [Int.toNat_natCast]
  rw [if_neg (by omega)]

theorem sciStr_head_digit (n : ℕ) (e : ℤ) :
    ∃ c s, sciStr n e = c :: s ∧ c.isDigit = true := by
  obtain ⟨c, s, h⟩ := List.exists_cons_of_ne_nil (natStr_ne_nil n)
  have hd : c.isDigit = true := natStr_digit (n := n) (by rw [h]; simp)
  exact ⟨c, '.' :: s ++ 'e' :: expStr e, by unfold sciStr; rw [h]; rfl, hd⟩

theorem pyFloat_of_digit {c : Char} {s : Str} (hc : c.isDigit = true) :
    pyFloat (c :: s) = pyUFloat (c :: s) := by
  unfold pyFloat
  have := digit_clean hc
  split
  · rename_i h; exact absurd (List.cons.inj h).1 this.2.1
  · rename_i h; exact absurd (List.cons.inj h).1 this.2.2.1
  · rfl

theorem fmt5e_word (x : XR) : Word (fmt5e x) := by
  have hw : ∀ w : Str, (∀ c ∈ w, CleanChar c) ↔ w.all (fun c => !c.isWhitespace && c != '#') = true := by
    intro w; simp [CleanChar, List.all_eq_true]
  cases x with
  | nan => exact ⟨by simp [fmt5e], (hw _).2 (by decide)⟩
  | pinf => exact ⟨by simp [fmt5e], (hw _).2 (by decide)⟩
  | ninf => exact ⟨by simp [fmt5e], (hw _).2 (by decide)⟩
  | fin x =>
    unfold fmt5e
    simp only
    split
    · exact ⟨by simp, (hw _).2 (by decide)⟩
    · split
      · refine ⟨by simp, ?_⟩
        intro c hc
        rcases List.mem_cons.1 hc with rfl | hc
        · exact ⟨by decide, by decide⟩
        · exact (sciStr_word _ _).2 c hc
      · exact sciStr_word _ _

theorem pyFloat_zero : pyFloat ['0', '.', '0', '0', '0', '0', '0', 'e', '+', '0', '0'] = .ok (XR.fin 0) := by
  rw [pyFloat_of_digit (by decide)]
  have : digitsVal (['0'] ++ ['0', '0', '0', '0', '0']) = 0 := by decide
  have he : pyExp ['e', '+', '0', '0'] = .ok 0 := rfl
  unfold pyUFloat
  have t1 : List.takeWhile Char.isDigit ['0', '.', '0', '0', '0', '0', '0', 'e', '+', '0', '0'] = ['0'] := by
    decide
  have t2 : List.dropWhile Char.isDigit ['0', '.', '0', '0', '0', '0', '0', 'e', '+', '0', '0']
    = ['.', '0', '0', '0', '0', '0', 'e', '+', '0', '0'] := by decide
  have t3 : List.takeWhile Char.isDigit ['0', '0', '0', '0', '0', 'e', '+', '0', '0']
    = ['0', '0', '0', '0', '0'] := by decide
  have t4 : List.dropWhile Char.isDigit ['0', '0', '0', '0', '0', 'e', '+', '0', '0']
    = ['e', '+', '0', '0'] := by decide
  rw [if_neg (by decide), if_neg (by decide)]
  simp only [t1, t2, t3, t4]
  rw [if_neg (by decide), he, this]
  simp [Except.map]

/-- The value obtained by printing with six digits and reading back. -/
noncomputable def readBack : XR → XR
  | XR.fin x =>
    open Classical in
    if x = 0 then XR.fin 0
    else if x < 0 then XR.fin (-(((sciParts (-x)).1 : ℝ) * (10 : ℝ) ^ ((sciParts (-x)).2 - 5)))
    else XR.fin (((sciParts x).1 : ℝ) * (10 : ℝ) ^ ((sciParts x).2 - 5))
  | x => x

theorem pyFloat_fmt5e (x : XR) : pyFloat (fmt5e x) = .ok (readBack x) := by
  cases x with
  | nan => simp [fmt5e, pyFloat, pyUFloat, readBack]
  | pinf => simp [fmt5e, pyFloat, pyUFloat, readBack]
  | ninf => simp [fmt5e, pyFloat, pyUFloat, readBack, Except.map, XR.neg]
  | fin x =>
    unfold fmt5e readBack
    simp only
    split
    · exact pyFloat_zero
    · rename_i h0
      split
      · rename_i hneg
        obtain ⟨h1, h2, -⟩ := sciParts_spec (x := -x) (by linarith)
        simp only [pyFloat, pyUFloat_sciStr h1 h2, Except.map, XR.neg]
      · rename_i hneg
        have hpos : 0 < x := lt_of_le_of_ne (not_lt.1 hneg) (Ne.symm h0)
        obtain ⟨h1, h2, -⟩ := sciParts_spec hpos
        obtain ⟨c, s, hcs, hc⟩ := sciStr_head_digit (sciParts x).1 (sciParts x).2
        have := pyUFloat_sciStr (e := (sciParts x).2) h1 h2
        rw [hcs] at this ⊢
        rw [pyFloat_of_digit hc, this]

/-- Printing is stable: printing the value read back gives the same text. -/
theorem fmt5e_readBack (x : XR) : fmt5e (readBack x) = fmt5e x := by
  cases x with
  | nan => rfl
  | pinf => rfl
  | ninf => rfl
  | fin x =>
    unfold readBack
    simp only
    by_cases h0 : x = 0
    · simp [h0]
    rw [if_neg h0]
    rcases lt_or_gt_of_ne h0 with hneg | hpos
    · rw [if_pos hneg]
      obtain ⟨h1, h2, -⟩ := sciParts_spec (x := -x) (by linarith)
      have hp : 0 < ((sciParts (-x)).1 : ℝ) * (10 : ℝ) ^ ((sciParts (-x)).2 - 5) := by
        apply mul_pos _ (by positivity)
        have : (0 : ℕ) < (sciParts (-x)).1 := by omega
        exact_mod_cast this
      unfold fmt5e
      simp only
      rw [if_neg (by linarith), if_pos (by linarith), if_neg h0, if_pos hneg, neg_neg,
        sciParts_exact h1 h2]
    · rw [if_neg (not_lt.2 hpos.le)]
      obtain ⟨h1, h2, -⟩ := sciParts_spec hpos
      have hp : 0 < ((sciParts x).1 : ℝ) * (10 : ℝ) ^ ((sciParts x).2 - 5) := by
        apply mul_pos _ (by positivity)
        have : (0 : ℕ) < (sciParts x).1 := by omega
        exact_mod_cast this
      unfold fmt5e
      simp only
      rw [if_neg hp.ne', if_neg (not_lt.2 hp.le), if_neg h0, if_neg (not_lt.2 hpos.le),
        sciParts_exact h1 h2]

/-- A printed float is not an integer literal. -/
theorem pyInt_fmt5e (x : XR) : pyInt (fmt5e x) = .error .valueError := by
  have key : ∀ s : Str, (∃ c ∈ s, c.isDigit = false) → pyNat s = .error .valueError := by
    rintro s ⟨c, hc, hd⟩
    unfold pyNat
    rw [if_neg]
    rintro ⟨-, h⟩
    rw [List.all_eq_true.1 h c hc] at hd; cases hd
  have hsci : ∀ n e, ∃ c ∈ sciStr n e, c.isDigit = false := fun n e =>
    ⟨'.', by simp [sciStr], by decide⟩
  cases x with
  | nan => rfl
  | pinf => rfl
  | ninf => rfl
  | fin x =>
    unfold fmt5e
    simp only
    split
    · rfl
    · rename_i h0
      split
      · simp only [pyInt, key _ (hsci _ _), Except.map]
      · rename_i hneg
        have hpos : 0 < x := lt_of_le_of_ne (not_lt.1 hneg) (Ne.symm h0)
        obtain ⟨h1, h2, -⟩ := sciParts_spec hpos
        obtain ⟨c, s, hcs, hc⟩ := sciStr_head_digit (sciParts x).1 (sciParts x).2
        have hk := key _ (hsci (sciParts x).1 (sciParts x).2)
        rw [hcs] at hk ⊢
        have hd := digit_clean hc
        have : pyInt (c :: s) = (pyNat (c :: s)).map fun n : ℕ => (n : ℤ) := by
          unfold pyInt
          split
          · rename_i h; exact absurd (List.cons.inj h).1 hd.2.1
          · rename_i h; exact absurd (List.cons.inj h).1 hd.2.2.1
          · rfl
        rw [this, hk]; rfl

theorem takeWhile_all {α : Type} (p : α → Bool) (s : List α) (h : ∀ c ∈ s, p c = true) :
    s.takeWhile p = s ∧ s.dropWhile p = [] := by
  induction s with
  | nil => exact ⟨rfl, rfl⟩
  | cons a s ih =>
    have ha := h a List.mem_cons_self
    obtain ⟨h1, h2⟩ := ih (fun c hc => h c (List.mem_cons_of_mem _ hc))
    simp [ha, h1, h2]

/-- An integer literal is a float literal. -/
theorem pyFloat_digits {s : Str} (h1 : s ≠ []) (h2 : s.all Char.isDigit = true) :
    pyUFloat s = .ok (XR.fin (digitsVal s)) := by
  have hall : ∀ c ∈ s, c.isDigit = true := List.all_eq_true.1 h2
  have t1 : s.takeWhile Char.isDigit = s := (takeWhile_all _ s hall).1
  have t2 : s.dropWhile Char.isDigit = [] := (takeWhile_all _ s hall).2
  unfold pyUFloat
  rw [if_neg, if_neg]
  · simp [t1, t2, h1, pyExp, Except.map]
  · rintro rfl; exact absurd h2 (by decide)
  · rintro rfl; exact absurd h2 (by decide)

theorem pyFloat_intStr (n : ℤ) : pyFloat (intStr n) = .ok (XR.fin n) := by
  have hz : (n.natAbs : ℝ) = |(n : ℝ)| := by
    rw [Nat.cast_natAbs]; push_cast; rfl
  unfold intStr
  split
  · rename_i h
    have hn : (n : ℝ) < 0 := by exact_mod_cast h
    simp only [pyFloat, pyFloat_digits (natStr_ne_nil _) (natStr_all _), Except.map, XR.neg,
      digitsVal_natStr, hz, abs_of_neg hn, neg_neg]
  · rename_i h
    have hn : 0 ≤ (n : ℝ) := by exact_mod_cast not_lt.1 h
    obtain ⟨c, s, hcs⟩ := List.exists_cons_of_ne_nil (natStr_ne_nil n.natAbs)
    have hd : c.isDigit = true := natStr_digit (n := n.natAbs) (by rw [hcs]; simp)
    have := pyFloat_digits (natStr_ne_nil n.natAbs) (natStr_all _)
    rw [hcs] at this ⊢
    rw [pyFloat_of_digit hd, this, ← hcs, digitsVal_natStr, hz, abs_of_nonneg hn]

end Diffmah.Text

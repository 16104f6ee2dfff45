import Verif.Props.Samples

/-!
# The names of the sample files (C93)
-/

namespace Diffmah.Samples

open Diffmah.Text Diffmah.IO Diffmah.Scripts Diffmah.Targets

/-! ## Lemmas -/

/-- Hundredths, as printed -/
noncomputable def cents (x : ℝ) : ℕ := (roundHalfEven (100 * |x|)).toNat

theorem cents_close {x : ℝ} (hx : 0 ≤ x) : |(cents x : ℝ) - 100 * x| ≤ 1 / 2 := by
  have h := roundHalfEven_close (100 * |x|)
  have h0 : 0 ≤ roundHalfEven (100 * |x|) := by
    by_contra hneg
    have h1 : roundHalfEven (100 * |x|) ≤ -1 := by omega
    have h2 : (roundHalfEven (100 * |x|) : ℝ) ≤ -1 := by exact_mod_cast h1
    have h3 := (abs_le.1 h).1
    have h4 := abs_nonneg x
    linarith
  have e : ((cents x : ℕ) : ℝ) = (roundHalfEven (100 * |x|) : ℝ) := by
    unfold cents
    have : (((roundHalfEven (100 * |x|)).toNat : ℤ) : ℝ) = (roundHalfEven (100 * |x|) : ℝ) := by
      rw [Int.toNat_of_nonneg h0]
    exact_mod_cast this
  rw [e]
  rwa [abs_of_nonneg hx] at h ⊢

theorem fmt2f_eq {x : ℝ} (hx : 0 ≤ x) :
    fmt2f x = natStr (cents x / 100) ++ '.' :: zpad 2 (cents x % 100) := by
  unfold fmt2f
  rw [if_neg (not_lt.2 hx)]
  rfl

theorem cents_hundredth (q : ℕ) : cents ((q : ℝ) / 100) = q := by
  unfold cents
  have : 100 * |(q : ℝ) / 100| = ((q : ℤ) : ℝ) := by
    rw [abs_of_nonneg (by positivity)]; push_cast; ring
  rw [this, roundHalfEven_int]
  simp

theorem zpad_two_length {k : ℕ} (h : k < 100) : (zpad 2 k).length = 2 := by
  have : ∀ k < 100, (zpad 2 k).length = 2 := by decide
  exact this k h

theorem pyFloat_fmt2f {x : ℝ} (hx : 0 ≤ x) : pyFloat (fmt2f x) = .ok (XR.fin ((cents x : ℝ) / 100)) := by
  rw [fmt2f_eq hx]
  set q := cents x
  obtain ⟨c, s, e⟩ := List.exists_cons_of_ne_nil (natStr_ne_nil (q / 100))
  have hd : c.isDigit = true := natStr_digit (n := q / 100) (by rw [e]; simp)
  have hall : ∀ c ∈ natStr (q / 100), c.isDigit = true := fun c hc => natStr_digit hc
  have hz : ∀ c ∈ zpad 2 (q % 100), c.isDigit = true := fun c hc => zpad_digit hc
  have t1 : (natStr (q / 100) ++ '.' :: zpad 2 (q % 100)).takeWhile Char.isDigit = natStr (q / 100) := by
    rw [List.takeWhile_append_of_pos hall]; simp
  have t2 : (natStr (q / 100) ++ '.' :: zpad 2 (q % 100)).dropWhile Char.isDigit
      = '.' :: zpad 2 (q % 100) := by
    rw [List.dropWhile_append_of_pos hall]; simp
  have t3 := takeWhile_all _ _ hz
  have hval : digitsVal (natStr (q / 100) ++ zpad 2 (q % 100)) = q := by
    have h1 : digitsVal (natStr (q / 100) ++ zpad 2 (q % 100))
        = 10 ^ (zpad 2 (q % 100)).length * digitsVal (natStr (q / 100)) + digitsVal (zpad 2 (q % 100)) := by
      unfold digitsVal
      rw [Nat.ofDigitChars_append, Nat.ofDigitChars_eq_ofDigitChars_zero]
    rw [h1, digitsVal_zpad, digitsVal_natStr, zpad_two_length (Nat.mod_lt _ (by norm_num))]
    have := Nat.div_add_mod q 100
    omega
  have hlen := zpad_two_length (Nat.mod_lt q (by norm_num : 0 < 100))
  have hfirst : pyFloat (natStr (q / 100) ++ '.' :: zpad 2 (q % 100))
      = pyUFloat (natStr (q / 100) ++ '.' :: zpad 2 (q % 100)) := by
    rw [e, List.cons_append]; exact pyFloat_of_digit hd
  rw [hfirst]
  have hne1 : natStr (q / 100) ++ '.' :: zpad 2 (q % 100) ≠ ['n', 'a', 'n'] := by
    intro h; rw [e, List.cons_append] at h
    rw [(List.cons.inj h).1] at hd; exact absurd hd (by decide)
  have hne2 : natStr (q / 100) ++ '.' :: zpad 2 (q % 100) ≠ ['i', 'n', 'f'] := by
    intro h; rw [e, List.cons_append] at h
    rw [(List.cons.inj h).1] at hd; exact absurd hd (by decide)
  unfold pyUFloat
  rw [if_neg hne1, if_neg hne2]
  simp only [t1, t2, t3.1, t3.2]
  rw [if_neg (by simp [natStr_ne_nil]), hval, hlen]
  simp only [pyExp, Except.map]
  congr 2
  norm_num
  ring

theorem fmt2f_cents {x y : ℝ} (hx : 0 ≤ x) (hy : 0 ≤ y) (h : fmt2f x = fmt2f y) : cents x = cents y := by
  have h1 := pyFloat_fmt2f hx
  rw [h, pyFloat_fmt2f hy] at h1
  have h2 : (cents y : ℝ) / 100 = (cents x : ℝ) / 100 := by simpa using h1
  have h3 : (cents y : ℝ) = cents x := by linarith
  exact_mod_cast h3.symm

theorem sampleName_parts {lgm t lgm' t' : ℝ} {cs cs' : Str} (hk : Kind cs) (hk' : Kind cs')
    (h : sampleName lgm t cs = sampleName lgm' t' cs') :
    fmt2f lgm = fmt2f lgm' ∧ fmt2f t = fmt2f t' ∧ cs = cs' := by
  have hu : ∀ x, '_' ∉ fmt2f x := fun x => fmt2f_notMem x (by decide) (by decide) (by decide)
  have hlen : cs.length = cs'.length := by
    rcases hk with rfl | rfl <;> rcases hk' with rfl | rfl <;> decide
  rw [sampleName_eq, sampleName_eq, List.append_cancel_right_eq] at h
  unfold restName at h
  obtain ⟨h, e⟩ := List.append_inj' h hlen
  simp only [List.append_assoc, List.append_cancel_left_eq] at h
  simp only [List.cons_append, List.nil_append] at h
  obtain ⟨h1, h2⟩ := cancel_sep (hu _) (hu _) h
  obtain ⟨-, h2⟩ := List.cons.inj h2
  obtain ⟨-, h2⟩ := List.cons.inj h2
  obtain ⟨h3, -⟩ := cancel_sep (hu _) (hu _) h2
  exact ⟨h1, h3, e⟩

theorem binOfName_sample (lgm t : ℝ) {cs : Str} (hk : Kind cs) : binOfName (sampleName lgm t cs)
    = (do return (← pyFloat (fmt2f lgm), ← pyFloat (fmt2f t))) := by
  have hu : ∀ x, '_' ∉ fmt2f x := fun x => fmt2f_notMem x (by decide) (by decide) (by decide)
  have h3 : '_' ∉ ['p', 'a', 'r', 'a', 'm', 's', '.'] ++ cs ++ ['.', 'n', 'p', 'y'] := by
    simp [hk.notMem (c := '_') (by decide)]
  set last := ['p', 'a', 'r', 'a', 'm', 's', '.'] ++ cs ++ ['.', 'n', 'p', 'y'] with hlast
  have e2 : sampleName lgm t cs
      = joinWith '_' [['l', 'g', 'm'], fmt2f lgm, ['t'], fmt2f t, ['m', 'a', 'h'], last] := by
    rw [sampleName_eq]; simp [joinWith, restName, hlast]
  unfold binOfName
  rw [e2, splitOn_joinWith _ _ (by simp)]
  · rfl
  · intro w hw
    simp only [List.mem_cons, List.not_mem_nil, or_false] at hw
    rcases hw with rfl | rfl | rfl | rfl | rfl | rfl
    · decide
    · exact hu _
    · decide
    · exact hu _
    · decide
    · exact h3

theorem cents_inj {x y : ℝ} (hx : 0 ≤ x) (hy : 0 ≤ y) (h : cents x = cents y) : |x - y| ≤ 0.01 := by
  have h1 := abs_le.1 (cents_close hx)
  have h2 := abs_le.1 (cents_close hy)
  rw [h] at h1
  rw [abs_le]
  constructor <;> norm_num <;> linarith [h1.1, h1.2, h2.1, h2.2]

theorem grid_step (n i j : ℕ) (N w : ℝ) (hN : (n : ℝ) ≤ N) (hi : i < n) (hj : j < n)
    (hw : 0.01 * (N - 1) < w)
    (hd : |(i : ℝ) * (w / ((n : ℝ) - 1)) - (j : ℝ) * (w / ((n : ℝ) - 1))| ≤ 0.01) : i = j := by
  by_contra hij
  have hn2 : 2 ≤ n := by omega
  have hpos : (0 : ℝ) < (n : ℝ) - 1 := by
    have : (2 : ℝ) ≤ n := by exact_mod_cast hn2
    linarith
  have hs : (0.01 : ℝ) < w / ((n : ℝ) - 1) := by
    rw [lt_div_iff₀ hpos]
    refine lt_of_le_of_lt ?_ hw
    exact mul_le_mul_of_nonneg_left (by linarith) (by norm_num)
  have habs : (1 : ℝ) ≤ |(i : ℝ) - j| := by
    have : (1 : ℤ) ≤ |(i : ℤ) - j| := Int.one_le_abs (by omega)
    exact_mod_cast this
  have h0 : (0 : ℝ) < w / ((n : ℝ) - 1) := lt_trans (by norm_num) hs
  rw [← sub_mul, abs_mul, abs_of_pos h0] at hd
  have := le_mul_of_one_le_left h0.le habs
  linarith

theorem grid_nonneg (n i : ℕ) (w : ℝ) (hi : i < n) (hw : 0 ≤ w) : 0 ≤ (i : ℝ) * (w / ((n : ℝ) - 1)) := by
  have h1 : (0 : ℝ) ≤ (n : ℝ) - 1 := by
    have : (1 : ℝ) ≤ n := by exact_mod_cast (by omega : 1 ≤ n)
    linarith
  positivity

theorem times_ge {n : ℕ} {t : ℝ} (h : t ∈ get_t_obs_table T0_SMDPL n) : 2 ≤ t := by
  obtain ⟨i, hi, rfl⟩ := List.mem_map.1 h
  rw [List.mem_range] at hi
  have h0 : (0 : ℝ) ≤ T0_SMDPL - 2.0 := by unfold T0_SMDPL; norm_num
  have h1 := grid_nonneg n i _ hi h0
  have h2 : (2.0 : ℝ) = 2 := by norm_num
  rw [h2] at h1 ⊢
  linarith

theorem times_distinct {n : ℕ} (hn : n ≤ 1000) {t t' : ℝ} (h : t ∈ get_t_obs_table T0_SMDPL n)
    (h' : t' ∈ get_t_obs_table T0_SMDPL n) (e : fmt2f t = fmt2f t') : t = t' := by
  have a := le_trans zero_le_two (times_ge h)
  have a' := le_trans zero_le_two (times_ge h')
  have hd := cents_inj a a' (fmt2f_cents a a' e)
  obtain ⟨i, hi, rfl⟩ := List.mem_map.1 h
  obtain ⟨j, hj, rfl⟩ := List.mem_map.1 h'
  rw [List.mem_range] at hi hj
  rw [add_sub_add_left_eq_sub] at hd
  rw [grid_step n i j 1000 (T0_SMDPL - 2.0) (by exact_mod_cast hn) hi hj (by unfold T0_SMDPL; norm_num) hd]

theorem masses_distinct {n : ℕ} (hn : n ≤ 300) {t : ℝ} (ht : 2 ≤ t) {m m' : ℝ}
    (h : m ∈ lgmarr_table_from_t_obs_kern t n) (h' : m' ∈ lgmarr_table_from_t_obs_kern t n)
    (e : fmt2f m = fmt2f m') : m = m' := by
  have hw : (3 : ℝ) ≤ 15 + 0.075 * (t - 15.0) - 11 := by
    have h1 : (0.075 : ℝ) = 3 / 40 := by norm_num
    have h2 : (15.0 : ℝ) = 15 := by norm_num
    rw [h1, h2]; linarith
  obtain ⟨i, hi, rfl⟩ := List.mem_map.1 h
  obtain ⟨j, hj, rfl⟩ := List.mem_map.1 h'
  rw [List.mem_range] at hi hj
  have hp : ∀ i < n, (0 : ℝ) ≤ 11 + (i : ℝ) * ((15 + 0.075 * (t - 15.0) - 11) / ((n : ℝ) - 1)) :=
    fun i hi => add_nonneg (by norm_num) (grid_nonneg n i _ hi (by linarith))
  have hd := cents_inj (hp i hi) (hp j hj) (fmt2f_cents (hp i hi) (hp j hj) e)
  rw [add_sub_add_left_eq_sub] at hd
  rw [grid_step n i j 300 (15 + 0.075 * (t - 15.0) - 11) (by exact_mod_cast hn) hi hj
    (lt_of_lt_of_le (by norm_num) hw) hd]

/-! ## Theorems -/

/-- **C93** (reading the name). The mass and time read back from the name of the file of a bin are those
of the bin, rounded to two decimals, and they lead to the same file name again. -/
theorem C93_read_back (lgm t : ℝ) (hm : 0 ≤ lgm) (ht : 0 ≤ t) {cs : Str}
    (hk : cs = "cens".toList ∨ cs = "sats".toList) :
    ∃ m' t' : ℝ, binOfName (sampleName lgm t cs) = .ok (XR.fin m', XR.fin t') ∧
      |m' - lgm| ≤ 0.005 ∧ |t' - t| ≤ 0.005 ∧ sampleName m' t' cs = sampleName lgm t cs := by
  refine ⟨(cents lgm : ℝ) / 100, (cents t : ℝ) / 100, ?_, ?_, ?_, ?_⟩
  · rw [binOfName_sample _ _ hk, pyFloat_fmt2f hm, pyFloat_fmt2f ht]; rfl
  · have h := abs_le.1 (cents_close hm)
    rw [abs_le]
    constructor <;> norm_num <;> linarith [h.1, h.2]
  · have h := abs_le.1 (cents_close ht)
    rw [abs_le]
    constructor <;> norm_num <;> linarith [h.1, h.2]
  · unfold sampleName
    rw [fmt2f_eq hm, fmt2f_eq ht, fmt2f_eq (by positivity), fmt2f_eq (by positivity), cents_hundredth,
      cents_hundredth]

/-- **C93** (different names). Two bins whose masses or times differ by more than 0.01 have files of
different names; so have centrals and satellites. -/
theorem C93_different {lgm t lgm' t' : ℝ} (hm : 0 ≤ lgm) (ht : 0 ≤ t) (hm' : 0 ≤ lgm') (ht' : 0 ≤ t')
    {cs cs' : Str} (hk : cs = "cens".toList ∨ cs = "sats".toList)
    (hk' : cs' = "cens".toList ∨ cs' = "sats".toList)
    (h : 0.01 < |lgm - lgm'| ∨ 0.01 < |t - t'| ∨ cs ≠ cs') :
    sampleName lgm t cs ≠ sampleName lgm' t' cs' := by
  intro e
  obtain ⟨h1, h2, h3⟩ := sampleName_parts hk hk' e
  rcases h with h | h | h
  · exact absurd (cents_inj hm hm' (fmt2f_cents hm hm' h1)) (not_le.2 h)
  · exact absurd (cents_inj ht ht' (fmt2f_cents ht ht' h2)) (not_le.2 h)
  · exact h h3

/-- **C93** (the grid). On the grid of the collation with at most 300 masses and 1000 times, different
bins have different files. -/
theorem C93_grid {n_m n_t : ℕ} (hn : n_m ≤ 300) (hn' : n_t ≤ 1000) {b b' : Bin}
    (hb : InGrid T0_SMDPL n_m n_t b) (hb' : InGrid T0_SMDPL n_m n_t b')
    (h : sampleName b.1 b.2.1 b.2.2 = sampleName b'.1 b'.2.1 b'.2.2) : b = b' := by
  obtain ⟨m, t, cs⟩ := b
  obtain ⟨m', t', cs'⟩ := b'
  obtain ⟨h1, h2, hk⟩ := hb
  obtain ⟨h1', h2', hk'⟩ := hb'
  dsimp only at *
  obtain ⟨e1, e2, rfl⟩ := sampleName_parts hk hk' h
  have ht := times_distinct hn' h1 h1' e2
  subst ht
  rw [masses_distinct hn (times_ge h1) h2 h2' e1]

/-- **C93** (collated file). From the name of the file that any subvolume wrote for a bin, the collation
derives the name under which the bin is looked for afterwards. -/
theorem C93_collated_name (subvol : ℕ) (lgm t : ℝ) {cs : Str}
    (hk : cs = "cens".toList ∨ cs = "sats".toList) :
    collatedName (subvolName (natStr subvol) lgm t cs) = sampleName lgm t cs :=
  collatedName_sample subvol lgm t hk

/-- **C93** (directories). Runs with different grids or different ranges of subvolumes write into
different directories. -/
theorem C93_directories (drn : Str) {n_lgm n_t n_lgm' n_t' : ℕ} {istart iend istart' iend' : ℤ}
    (h : get_output_drn drn n_lgm n_t istart iend = get_output_drn drn n_lgm' n_t' istart' iend') :
    n_lgm = n_lgm' ∧ n_t = n_t' ∧ istart = istart' ∧ iend = iend' := by
  unfold get_output_drn at h
  rw [pathJoin_eq _ (slash_outName _ _ _ _), pathJoin_eq _ (slash_outName _ _ _ _)] at h
  have h := List.append_cancel_left h
  have key : ∀ (a b : ℕ) (c d : ℤ), splitOn '_' ("NM_".toList ++ natStr a ++ "_NT_".toList ++ natStr b ++
      "_ISTART_".toList ++ intStr c ++ "_IEND_".toList ++ intStr d) =
      [['N', 'M'], natStr a, ['N', 'T'], natStr b, ['I', 'S', 'T', 'A', 'R', 'T'], intStr c,
        ['I', 'E', 'N', 'D'], intStr d] := by
    intro a b c d
    have e : "NM_".toList ++ natStr a ++ "_NT_".toList ++ natStr b ++
      "_ISTART_".toList ++ intStr c ++ "_IEND_".toList ++ intStr d = joinWith '_' [['N', 'M'], natStr a, ['N', 'T'],
        natStr b, ['I', 'S', 'T', 'A', 'R', 'T'], intStr c, ['I', 'E', 'N', 'D'], intStr d] := by
      slits
      simp [joinWith]
    rw [e, splitOn_joinWith _ _ (by simp)]
    have h1 := natStr_notMem a (c := '_') (by decide)
    have h2 := natStr_notMem b (c := '_') (by decide)
    have h3 := intStr_notMem c '_' (by decide) (by decide)
    have h4 := intStr_notMem d '_' (by decide) (by decide)
    simp [h1, h2, h3, h4]
  have h' := congrArg (splitOn '_') h
  rw [key, key] at h'
  simp only [List.cons.injEq, and_true, true_and] at h'
  exact ⟨natStr_injective h'.1, natStr_injective h'.2.1, intStr_injective h'.2.2.1, intStr_injective h'.2.2.2⟩

/-! ## Witnesses -/

example : ∃ m' t' : ℝ, binOfName (sampleName 11.3456 9.999 "sats".toList) = .ok (XR.fin m', XR.fin t') ∧
    |m' - 11.3456| ≤ 0.005 ∧ |t' - 9.999| ≤ 0.005 ∧
    sampleName m' t' "sats".toList = sampleName 11.3456 9.999 "sats".toList :=
  C93_read_back _ _ (by norm_num) (by norm_num) (.inr rfl)

example : sampleName 11 2 "cens".toList ≠ sampleName 11.02 2 "cens".toList :=
  C93_different (by norm_num) (by norm_num) (by norm_num) (by norm_num) (.inl rfl) (.inl rfl)
    (.inl (by rw [abs_of_neg (by norm_num)]; norm_num))

-- the grid of the published tables has 12 masses and 9 times; this bin is one of them
example : InGrid T0_SMDPL 12 9 (11, 2, "cens".toList) := by
  refine ⟨?_, ?_, .inl rfl⟩
  · unfold get_t_obs_table
    exact List.mem_map.2 ⟨0, by simp, by norm_num⟩
  · unfold lgmarr_table_from_t_obs_kern
    exact List.mem_map.2 ⟨0, by simp, by norm_num⟩

end Diffmah.Samples

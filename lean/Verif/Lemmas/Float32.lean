import Verif.Model.Float32
import Verif.Lemmas.XR

/-!
# Lemmas about single-precision rounding
-/

namespace Diffmah.F32

open JOps XR

/-! ### Nearest integers -/

theorem rne_cases (x : ℝ) : ((rne x : ℝ) ≤ x ∧ x - rne x ≤ 1 / 2) ∨
    (x ≤ rne x ∧ (rne x : ℝ) - x ≤ 1 / 2) := by
  have h1 := Int.floor_le x
  have h2 := Int.lt_floor_add_one x
  unfold rne
  split
  · left; constructor <;> linarith
  · split
    · right; push_cast; constructor <;> linarith
    · split
      · left; constructor <;> linarith
      · right; push_cast; constructor <;> linarith

theorem rne_err (x : ℝ) : |(rne x : ℝ) - x| ≤ 1 / 2 := by
  rw [abs_le]
  rcases rne_cases x with ⟨h1, h2⟩ | ⟨h1, h2⟩ <;> constructor <;> linarith

theorem rne_int (m : ℤ) : rne (m : ℝ) = m := by
  unfold rne; rw [Int.floor_intCast, sub_self, if_pos (by norm_num)]

theorem rne_floor_or (x : ℝ) : rne x = ⌊x⌋ ∨ rne x = ⌊x⌋ + 1 := by
  unfold rne; split
  · exact .inl rfl
  · split
    · exact .inr rfl
    · split
      · exact .inl rfl
      · exact .inr rfl

theorem rne_mono : Monotone rne := by
  intro x y h
  have hf := Int.floor_mono h
  rcases eq_or_lt_of_le hf with e | hlt
  · unfold rne
    rw [e]
    have hx : x - (⌊y⌋ : ℝ) ≤ y - ⌊y⌋ := by linarith
    by_cases h1 : x - (⌊y⌋ : ℝ) < 1 / 2
    · rw [if_pos h1]
      split
      · exact le_rfl
      · split
        · omega
        · split <;> omega
    · rw [if_neg h1]
      have h1' : ¬ (y - (⌊y⌋ : ℝ) < 1 / 2) := by linarith
      rw [if_neg h1']
      by_cases h2 : 1 / 2 < x - (⌊y⌋ : ℝ)
      · rw [if_pos h2, if_pos (by linarith)]
      · rw [if_neg h2]
        split
        · split <;> omega
        · omega
  · rcases rne_floor_or y with e | e <;> rcases rne_floor_or x with e' | e' <;> omega

theorem rne_unique {x : ℝ} {n : ℤ} (h : |(n : ℝ) - x| < 1 / 2) : rne x = n := by
  have h' := rne_err x
  rw [abs_le] at h'; rw [abs_lt] at h
  have h1 : ((rne x - n : ℤ) : ℝ) < 1 := by push_cast; linarith
  have h2 : (-1 : ℝ) < ((rne x - n : ℤ) : ℝ) := by push_cast; linarith
  have h3 : rne x - n < 1 := by exact_mod_cast h1
  have h4 : -1 < rne x - n := by exact_mod_cast h2
  omega

theorem rne_half (n : ℤ) : rne ((n : ℝ) + 1 / 2) = if Even n then n else n + 1 := by
  have hf : ⌊(n : ℝ) + 1 / 2⌋ = n := by
    rw [Int.floor_eq_iff]; constructor <;> linarith
  unfold rne
  rw [hf, add_sub_cancel_left, if_neg (lt_irrefl _), if_neg (lt_irrefl _)]

theorem rne_neg (x : ℝ) : rne (-x) = -rne x := by
  by_cases h : ∃ n : ℤ, x = n + 1 / 2
  · obtain ⟨n, rfl⟩ := h
    rw [show -((n : ℝ) + 1 / 2) = ((-n - 1 : ℤ) : ℝ) + 1 / 2 by push_cast; ring, rne_half, rne_half]
    by_cases he : Even n
    · rw [if_pos he, if_neg (by
        rw [Int.not_even_iff_odd]
        exact (he.neg).sub_odd odd_one)]
      ring
    · rw [if_neg he, if_pos (by
        rw [Int.not_even_iff_odd] at he
        exact (he.neg).sub_odd odd_one)]
      ring
  · apply rne_unique
    have h' := rne_err x
    rw [abs_lt]; rw [abs_le] at h'
    push_cast
    refine ⟨lt_of_le_of_ne (by linarith) fun e => h ⟨rne x - 1, ?_⟩,
      lt_of_le_of_ne (by linarith) fun e => h ⟨rne x, ?_⟩⟩ <;> push_cast <;> linarith

/-! ### Representable numbers -/

/-- A binary32 number, ignoring overflow. -/
def Rep (x : ℝ) : Prop := ∃ m e : ℤ, |m| ≤ 2 ^ 24 ∧ -149 ≤ e ∧ x = m * 2 ^ e

theorem c24 : ((2 ^ 24 : ℤ) : ℝ) = 2 ^ (24 : ℕ) := by norm_num
theorem c23 : ((2 ^ 23 : ℤ) : ℝ) = 2 ^ (23 : ℤ) := by norm_num

theorem two_zpow_pos (e : ℤ) : (0 : ℝ) < 2 ^ e := zpow_pos (by norm_num) e

theorem zpow_mono2 {a b : ℤ} (h : a ≤ b) : (2 : ℝ) ^ a ≤ 2 ^ b :=
  zpow_le_zpow_right₀ (by norm_num) h

theorem log_lt {x : ℝ} {k : ℤ} (hx : x ≠ 0) (h : |x| < 2 ^ k) : Int.log 2 |x| < k := by
  have := (Int.lt_zpow_iff_log_lt (b := 2) (by norm_num) (x := k) (abs_pos.2 hx)).1
  exact this (by exact_mod_cast h)

theorem le_log {x : ℝ} {k : ℤ} (hx : x ≠ 0) (h : 2 ^ k ≤ |x|) : k ≤ Int.log 2 |x| := by
  have := (Int.zpow_le_iff_le_log (b := 2) (by norm_num) (x := k) (abs_pos.2 hx)).1
  exact this (by exact_mod_cast h)

theorem lt_pow_log (x : ℝ) : |x| < 2 ^ (Int.log 2 |x| + 1) := by
  have := Int.lt_zpow_succ_log_self (b := 2) (by norm_num) |x|
  exact_mod_cast this

theorem pow_log_le {x : ℝ} (hx : x ≠ 0) : 2 ^ Int.log 2 |x| ≤ |x| := by
  have := Int.zpow_log_le_self (b := 2) (by norm_num) (abs_pos.2 hx)
  exact_mod_cast this

theorem ulpExp_ge (x : ℝ) : -149 ≤ ulpExp x := by
  have := le_max_right (Int.log 2 |x|) (-126)
  unfold ulpExp; omega

theorem ulpExp_ge_log (x : ℝ) : Int.log 2 |x| - 23 ≤ ulpExp x := by
  have := le_max_left (Int.log 2 |x|) (-126)
  unfold ulpExp; omega

theorem round_zero : round 0 = 0 := by
  unfold round; rw [zero_div]
  have := rne_int 0
  push_cast at this; rw [this]; simp

theorem round_of_int {x : ℝ} {m : ℤ} (h : x = m * 2 ^ ulpExp x) : round x = x := by
  have h' : x / 2 ^ ulpExp x = m := by
    rw [div_eq_iff (two_zpow_pos _).ne']; exact h
  unfold round
  rw [h', rne_int]; exact h.symm

theorem round_of_lt {x : ℝ} {m e : ℤ} (hm : |m| < 2 ^ 24) (he : -149 ≤ e) (hx : x = m * 2 ^ e) :
    round x = x := by
  by_cases h0 : x = 0
  · rw [h0, round_zero]
  have hlt : |x| < 2 ^ (24 + e) := by
    rw [hx, abs_mul, abs_of_pos (two_zpow_pos e), zpow_add₀ (by norm_num)]
    apply mul_lt_mul_of_pos_right _ (two_zpow_pos e)
    have : ((|m| : ℤ) : ℝ) < ((2 ^ 24 : ℤ) : ℝ) := by exact_mod_cast hm
    rw [Int.cast_abs, c24] at this
    exact_mod_cast this
  have hlog := log_lt h0 hlt
  have hu : ulpExp x ≤ e := by
    have : max (Int.log 2 |x|) (-126) ≤ e + 23 := max_le (by omega) (by omega)
    unfold ulpExp; omega
  obtain ⟨k, hk⟩ := Int.le.dest hu
  refine round_of_int (m := m * 2 ^ k) ?_
  push_cast
  rw [mul_assoc, ← zpow_natCast (2 : ℝ) k, ← zpow_add₀ (by norm_num), add_comm (k : ℤ), hk]
  exact hx

theorem round_rep {x : ℝ} (h : Rep x) : round x = x := by
  obtain ⟨m, e, hm, he, hx⟩ := h
  rcases lt_or_eq_of_le hm with hm | hm
  · exact round_of_lt hm he hx
  · rcases abs_eq (by norm_num) |>.1 hm with rfl | rfl
    · refine round_of_lt (m := 2 ^ 23) (e := e + 1) (by norm_num) (by omega) ?_
      rw [hx, zpow_add₀ (by norm_num)]; push_cast; norm_num; ring
    · refine round_of_lt (m := -2 ^ 23) (e := e + 1) (by norm_num) (by omega) ?_
      rw [hx, zpow_add₀ (by norm_num)]; push_cast; norm_num; ring

theorem scaled_le (x : ℝ) : |x / 2 ^ ulpExp x| ≤ 2 ^ 24 := by
  rw [abs_div, abs_of_pos (two_zpow_pos _), div_le_iff₀ (two_zpow_pos _)]
  refine (lt_pow_log x).le.trans ?_
  have : (2 : ℝ) ^ (24 : ℕ) = 2 ^ (24 : ℤ) := by norm_cast
  rw [this, ← zpow_add₀ (by norm_num)]
  exact zpow_mono2 (by have := ulpExp_ge_log x; omega)

theorem rne_abs_le {x : ℝ} {n : ℤ} (h : |x| ≤ n) : |rne x| ≤ n := by
  rw [abs_le] at h ⊢
  constructor
  · have := rne_mono (show ((-n : ℤ) : ℝ) ≤ x by push_cast; exact h.1)
    rwa [rne_int] at this
  · have := rne_mono h.2
    rwa [rne_int] at this

theorem rep_round (x : ℝ) : Rep (round x) :=
  ⟨rne (x / 2 ^ ulpExp x), ulpExp x, rne_abs_le (by rw [c24]; exact scaled_le x), ulpExp_ge x, rfl⟩

theorem rep_neg {x : ℝ} (h : Rep x) : Rep (-x) := by
  obtain ⟨m, e, h1, h2, rfl⟩ := h
  exact ⟨-m, e, by rwa [abs_neg], h2, by push_cast; ring⟩

theorem rep_int {m : ℤ} (h : |m| ≤ 2 ^ 24) : Rep m := ⟨m, 0, h, by norm_num, by simp⟩

theorem rep_zpow {k : ℤ} (h : -149 ≤ k) : Rep ((2 : ℝ) ^ k) :=
  ⟨1, k, by norm_num, h, by simp⟩

theorem ulpExp_neg (x : ℝ) : ulpExp (-x) = ulpExp x := by unfold ulpExp; rw [abs_neg]

theorem round_neg (x : ℝ) : round (-x) = -round x := by
  unfold round
  rw [ulpExp_neg, neg_div, rne_neg]; push_cast; ring

/-! ### Monotonicity -/

theorem round_nonneg {x : ℝ} (h : 0 ≤ x) : 0 ≤ round x := by
  have : (0 : ℤ) ≤ rne (x / 2 ^ ulpExp x) := by
    have := rne_mono (show ((0 : ℤ) : ℝ) ≤ x / 2 ^ ulpExp x by
      push_cast; exact div_nonneg h (two_zpow_pos _).le)
    rwa [rne_int] at this
  exact mul_nonneg (by exact_mod_cast this) (two_zpow_pos _).le

theorem round_mono_pos {x y : ℝ} (hx : 0 < x) (h : x ≤ y) : round x ≤ round y := by
  have hy : 0 < y := hx.trans_le h
  have hl : Int.log 2 |x| ≤ Int.log 2 |y| := by
    rw [abs_of_pos hx, abs_of_pos hy]; exact Int.log_mono_right hx h
  have hu : ulpExp x ≤ ulpExp y := by
    have := max_le_max hl (le_refl (-126 : ℤ))
    unfold ulpExp; omega
  rcases eq_or_lt_of_le hu with e | hlt
  · unfold round
    rw [e]
    apply mul_le_mul_of_nonneg_right _ (two_zpow_pos _).le
    exact_mod_cast rne_mono (div_le_div_of_nonneg_right h (two_zpow_pos _).le)
  · have hlog : ulpExp y = Int.log 2 |y| - 23 := by
      have h1 := ulpExp_ge x
      have h2 : -126 ≤ Int.log 2 |y| := by
        by_contra hc
        have : max (Int.log 2 |y|) (-126) = -126 := max_eq_right (by omega)
        unfold ulpExp at hlt h1; rw [this] at hlt; omega
      unfold ulpExp; rw [max_eq_left h2]
    have h1 : round x ≤ 2 ^ (24 + ulpExp x) := by
      unfold round
      rw [zpow_add₀ (by norm_num)]
      apply mul_le_mul_of_nonneg_right _ (two_zpow_pos _).le
      have := (abs_le.1 (rne_abs_le (n := 2 ^ 24) (by rw [c24]; exact scaled_le x))).2
      exact_mod_cast this
    have h2 : (2 : ℝ) ^ (23 + ulpExp y) ≤ round y := by
      unfold round
      rw [zpow_add₀ (by norm_num)]
      apply mul_le_mul_of_nonneg_right _ (two_zpow_pos _).le
      have h3 : (((2 ^ 23 : ℤ)) : ℝ) ≤ y / 2 ^ ulpExp y := by
        rw [le_div_iff₀ (two_zpow_pos _)]
        have := pow_log_le hy.ne'
        rw [abs_of_pos hy] at this hlog
        refine le_trans (le_of_eq ?_) this
        rw [hlog]
        rw [c23, ← zpow_add₀ (by norm_num)]; congr 1; ring
      have := rne_mono h3
      rw [rne_int] at this
      exact_mod_cast this
    exact h1.trans ((zpow_mono2 (by omega)).trans h2)

theorem round_mono : Monotone round := by
  intro x y h
  rcases lt_trichotomy x 0 with hx | rfl | hx
  · rcases lt_or_ge y 0 with hy | hy
    · have := round_mono_pos (x := -y) (y := -x) (by linarith) (by linarith)
      rw [round_neg, round_neg] at this; linarith
    · have h1 : round x ≤ 0 := by
        have := round_nonneg (x := -x) (by linarith)
        rw [round_neg] at this; linarith
      exact h1.trans (round_nonneg hy)
  · rw [round_zero]; exact round_nonneg h
  · exact round_mono_pos hx h

theorem round_le {x z : ℝ} (h : x ≤ z) (hz : Rep z) : round x ≤ z := by
  have := round_mono h; rwa [round_rep hz] at this

theorem le_round {x z : ℝ} (h : z ≤ x) (hz : Rep z) : z ≤ round x := by
  have := round_mono h; rwa [round_rep hz] at this

/-! ### Error of one rounding -/

theorem round_err {x : ℝ} {k : ℤ} (hk : -125 ≤ k) (hx : |x| < 2 ^ k) :
    |round x - x| ≤ 2 ^ (k - 25) := by
  by_cases h0 : x = 0
  · rw [h0, round_zero, sub_zero, abs_zero]; exact (two_zpow_pos _).le
  have hlog := log_lt h0 hx
  have hu : ulpExp x ≤ k - 24 := by
    have : max (Int.log 2 |x|) (-126) ≤ k - 1 := max_le (by omega) (by omega)
    unfold ulpExp; omega
  have e : round x - x = (rne (x / 2 ^ ulpExp x) - x / 2 ^ ulpExp x) * 2 ^ ulpExp x := by
    unfold round; rw [sub_mul, div_mul_cancel₀ _ (two_zpow_pos _).ne']
  rw [e, abs_mul, abs_of_pos (two_zpow_pos _)]
  calc _ ≤ 1 / 2 * (2 : ℝ) ^ (k - 24) :=
        mul_le_mul (rne_err _) (zpow_mono2 hu) (two_zpow_pos _).le (by norm_num)
    _ = 2 ^ (k - 25) := by
        rw [show k - 24 = (k - 25) + 1 by ring, zpow_add₀ (by norm_num)]; norm_num; ring

/-! ### Overflow -/

theorem rd_fin {x : ℝ} (h : |x| ≤ 2 ^ (127 : ℕ)) : rd (fin x) = fin (round x) := by
  have hr : Rep ((2 : ℝ) ^ (127 : ℕ)) := by
    have := rep_zpow (k := 127) (by norm_num)
    exact_mod_cast this
  rw [abs_le] at h
  have h1 := round_le h.2 hr
  have h2 := le_round h.1 (rep_neg hr)
  have h3 : (2 : ℝ) ^ (127 : ℕ) < 2 ^ (128 : ℕ) := by norm_num
  unfold rd
  simp only
  rw [if_neg (by linarith), if_neg (by linarith)]

theorem rd_rep {x : ℝ} (h : |x| ≤ 2 ^ (127 : ℕ)) (hr : Rep x) : rd (fin x) = fin x := by
  rw [rd_fin h, round_rep hr]

/-! ### Roundings of particular numbers -/

theorem ulpExp_eq {x : ℝ} {e : ℤ} (he : -149 ≤ e) (h1 : 2 ^ (e + 23) ≤ |x|)
    (h2 : |x| < 2 ^ (e + 24)) : ulpExp x = e := by
  have h0 : x ≠ 0 := by
    rintro rfl; rw [abs_zero] at h1; exact absurd (two_zpow_pos (e + 23)) (by linarith)
  have a := le_log h0 h1
  have b := log_lt h0 h2
  have c : Int.log 2 |x| = e + 23 := by omega
  unfold ulpExp; rw [c, max_eq_left (by omega)]; ring

theorem round_eq {x : ℝ} {m e : ℤ} (he : -149 ≤ e) (h1 : 2 ^ (e + 23) ≤ |x|)
    (h2 : |x| < 2 ^ (e + 24)) (h : |(m : ℝ) - x / 2 ^ e| < 1 / 2) : round x = m * 2 ^ e := by
  unfold round; rw [ulpExp_eq he h1 h2, rne_unique h]

/-- A tie above an even number rounds down. -/
theorem round_tie {m e : ℤ} (he : -149 ≤ e) (hm : Even m) (h1 : 2 ^ 23 ≤ m) (h2 : m < 2 ^ 24) :
    round ((m : ℝ) * 2 ^ e + 2 ^ (e - 1)) = m * 2 ^ e := by
  have hh : (2 : ℝ) ^ (e - 1) = 1 / 2 * 2 ^ e := by
    rw [zpow_sub₀ (by norm_num)]; norm_num; ring
  have hx : (m : ℝ) * 2 ^ e + 2 ^ (e - 1) = (m + 1 / 2) * 2 ^ e := by rw [hh]; ring
  have h1' : (2 : ℝ) ^ (23 : ℤ) ≤ m := by rw [← c23]; exact_mod_cast h1
  have h2' : (m : ℝ) + 1 ≤ (2 : ℝ) ^ (24 : ℤ) := by
    have : ((m + 1 : ℤ) : ℝ) ≤ ((2 ^ 24 : ℤ) : ℝ) := by exact_mod_cast h2
    rw [c24] at this; push_cast at this; exact_mod_cast this
  have hpos : (0 : ℝ) < 2 ^ e := two_zpow_pos e
  have hm0 : (0 : ℝ) < m := lt_of_lt_of_le (two_zpow_pos _) h1'
  rw [hx]
  have hu : ulpExp (((m : ℝ) + 1 / 2) * 2 ^ e) = e := by
    apply ulpExp_eq he
    · rw [abs_of_pos (by positivity), add_comm e, zpow_add₀ (by norm_num)]
      exact mul_le_mul_of_nonneg_right (by linarith) hpos.le
    · rw [abs_of_pos (by positivity), add_comm e, zpow_add₀ (by norm_num)]
      exact mul_lt_mul_of_pos_right (by linarith) hpos
  unfold round
  rw [hu, mul_div_cancel_right₀ _ hpos.ne', rne_half, if_pos hm]

theorem round_tenth : round 0.1 = 13421773 * 2 ^ (-27 : ℤ) := by
  have := round_eq (x := 0.1) (m := 13421773) (e := -27) (by norm_num)
    (by rw [abs_of_pos (by norm_num)]; norm_num) (by rw [abs_of_pos (by norm_num)]; norm_num)
    (by rw [abs_lt]; constructor <;> norm_num)
  exact_mod_cast this

theorem round_twentieth : round 0.05 = 13421773 * 2 ^ (-28 : ℤ) := by
  have := round_eq (x := 0.05) (m := 13421773) (e := -28) (by norm_num)
    (by rw [abs_of_pos (by norm_num)]; norm_num) (by rw [abs_of_pos (by norm_num)]; norm_num)
    (by rw [abs_lt]; constructor <;> norm_num)
  exact_mod_cast this

/-! ### Arithmetic -/

theorem add_fin {a b : ℝ} (h : |a + b| ≤ 2 ^ (127 : ℕ)) :
    ((⟨fin a⟩ : F32) + ⟨fin b⟩) = ⟨fin (round (a + b))⟩ := by
  change (⟨rd (fin (a + b))⟩ : F32) = _; rw [rd_fin h]

theorem sub_fin {a b : ℝ} (h : |a - b| ≤ 2 ^ (127 : ℕ)) :
    ((⟨fin a⟩ : F32) - ⟨fin b⟩) = ⟨fin (round (a - b))⟩ := by
  have : (fin a - fin b : XR) = fin (a - b) := XR.fin_sub a b
  change (⟨rd (fin a - fin b)⟩ : F32) = _; rw [this, rd_fin h]

theorem mul_fin {a b : ℝ} (h : |a * b| ≤ 2 ^ (127 : ℕ)) :
    ((⟨fin a⟩ : F32) * ⟨fin b⟩) = ⟨fin (round (a * b))⟩ := by
  change (⟨rd (fin (a * b))⟩ : F32) = _; rw [rd_fin h]

theorem lit_fin [Libm] {a : ℝ} (h : |a| ≤ 2 ^ (127 : ℕ)) :
    (lit a : F32) = ⟨fin (round a)⟩ := by
  change (⟨rd (fin a)⟩ : F32) = _; rw [rd_fin h]

theorem rd_ne_nan {x : XR} (h : x ≠ nan) : rd x ≠ nan := by
  cases x with
  | fin a => unfold rd; simp only; split
             · exact fun h => by cases h
             · split <;> exact fun h => by cases h
  | nan => exact absurd rfl h
  | pinf => exact fun h => by cases h
  | ninf => exact fun h => by cases h

/-- `k * (x - x0)` is a number as soon as `x` is. -/
theorem arg_ne_nan {x : XR} (hx : x ≠ nan) (x0 k : ℝ) (hk : 0 < k) :
    rd (fin k * rd (x - fin x0)) ≠ nan := by
  apply rd_ne_nan
  have h1 : x - fin x0 ≠ nan := by
    cases x with
    | fin a => rw [XR.fin_sub]; exact fun h => by cases h
    | nan => exact absurd rfl hx
    | pinf => exact fun h => by cases h
    | ninf => exact fun h => by cases h
  have h2 := rd_ne_nan h1
  generalize rd (x - fin x0) = y at h2
  cases y with
  | fin a => exact fun h => by cases h
  | nan => exact absurd rfl h2
  | pinf =>
    change ofSign k ≠ nan
    rw [ofSign_pos hk]; exact fun h => by cases h
  | ninf =>
    change ofSign (-k) ≠ nan
    rw [ofSign_neg (by linarith)]; exact fun h => by cases h

/-! ### The logistic helper -/

theorem pow61 : (2 : ℝ) ^ (60 : ℕ) + 2 ^ (60 : ℕ) = 2 ^ (61 : ℕ) := by norm_num

theorem rep_pow (n : ℕ) : Rep ((2 : ℝ) ^ n) := by
  have := rep_zpow (k := n) (by omega)
  exact_mod_cast this

theorem round_abs_le {x : ℝ} {n : ℕ} (h : |x| ≤ 2 ^ n) : |round x| ≤ 2 ^ n := by
  rw [abs_le] at h ⊢
  exact ⟨le_round h.1 (rep_neg (rep_pow n)), round_le h.2 (rep_pow n)⟩

theorem pow_le127 {n : ℕ} (h : n ≤ 127) : (2 : ℝ) ^ n ≤ 2 ^ (127 : ℕ) :=
  pow_le_pow_right₀ (by norm_num) h

/-- With ordered finite asymptotes, `_sigmoid` of any number (even infinite) is finite, at least
the lower asymptote, and at most the upper one recomputed as `lo + (hi - lo)`. -/
theorem sigmoid_range [Libm] (hs : Libm.Sane) {x : F32} (hx : x.v ≠ nan) {x0 k lo hi : ℝ}
    (hk : 0 < k) (hlo : Rep lo) (hle : lo ≤ hi) (b1 : |lo| ≤ 2 ^ (60 : ℕ))
    (b2 : |hi| ≤ 2 ^ (60 : ℕ)) :
    ∃ y, sigmoid x ⟨fin x0⟩ ⟨fin k⟩ ⟨fin lo⟩ ⟨fin hi⟩ = ⟨fin y⟩ ∧ Rep y ∧ lo ≤ y ∧
      y ≤ round (lo + round (hi - lo)) := by
  obtain ⟨s, hse, hs0, hs1⟩ := hs.sg_range _ (arg_ne_nan hx x0 k hk)
  have hd : |hi - lo| ≤ 2 ^ (61 : ℕ) := by
    rw [← pow61]; exact (abs_sub _ _).trans (add_le_add b2 b1)
  have hh : |round (hi - lo)| ≤ 2 ^ (61 : ℕ) := round_abs_le hd
  have hh0 : 0 ≤ round (hi - lo) := round_nonneg (by linarith)
  have hp0 : 0 ≤ round (hi - lo) * s := mul_nonneg hh0 hs0
  have hp1 : round (hi - lo) * s ≤ round (hi - lo) := mul_le_of_le_one_right hh0 hs1
  have hq1 : round (round (hi - lo) * s) ≤ round (hi - lo) := round_le hp1 (rep_round _)
  have hq0 : 0 ≤ round (round (hi - lo) * s) := round_nonneg hp0
  rw [abs_of_nonneg hh0] at hh
  have e61 : (2 : ℝ) ^ (61 : ℕ) ≤ 2 ^ (127 : ℕ) := pow_le127 (by norm_num)
  have e62 : (2 : ℝ) ^ (60 : ℕ) + 2 ^ (61 : ℕ) ≤ 2 ^ (127 : ℕ) := by norm_num
  have key : sigmoid x ⟨fin x0⟩ ⟨fin k⟩ ⟨fin lo⟩ ⟨fin hi⟩
      = ⟨fin (round (lo + round (round (hi - lo) * s)))⟩ := by
    have e1 : (sigm ((⟨fin k⟩ : F32) * (x - ⟨fin x0⟩)) : F32) = ⟨fin s⟩ := by
      change (⟨Libm.sg _⟩ : F32) = _
      exact congrArg F32.mk hse
    unfold sigmoid
    simp only
    rw [e1, sub_fin (hd.trans e61), mul_fin (by rw [abs_of_nonneg hp0]; linarith), add_fin]
    refine (abs_add_le _ _).trans ?_
    rw [abs_of_nonneg hq0]
    linarith
  refine ⟨_, key, rep_round _, le_round (by linarith) hlo, round_mono (by linarith)⟩

/-- With finite asymptotes in any order, `_sigmoid` of any number is finite. -/
theorem sigmoid_finite [Libm] (hs : Libm.Sane) {x : F32} (hx : x.v ≠ nan) {x0 k lo hi : ℝ}
    (hk : 0 < k) (b1 : |lo| ≤ 2 ^ (60 : ℕ)) (b2 : |hi| ≤ 2 ^ (60 : ℕ)) :
    ∃ y, sigmoid x ⟨fin x0⟩ ⟨fin k⟩ ⟨fin lo⟩ ⟨fin hi⟩ = ⟨fin y⟩ := by
  obtain ⟨s, hse, hs0, hs1⟩ := hs.sg_range _ (arg_ne_nan hx x0 k hk)
  have hd : |hi - lo| ≤ 2 ^ (61 : ℕ) := by
    rw [← pow61]; exact (abs_sub _ _).trans (add_le_add b2 b1)
  have hh : |round (hi - lo)| ≤ 2 ^ (61 : ℕ) := round_abs_le hd
  have hp : |round (hi - lo) * s| ≤ 2 ^ (61 : ℕ) := by
    rw [abs_mul, abs_of_nonneg hs0]
    exact (mul_le_of_le_one_right (abs_nonneg _) hs1).trans hh
  have hq := round_abs_le hp
  have e61 : (2 : ℝ) ^ (61 : ℕ) ≤ 2 ^ (127 : ℕ) := pow_le127 (by norm_num)
  have e62 : (2 : ℝ) ^ (60 : ℕ) + 2 ^ (61 : ℕ) ≤ 2 ^ (127 : ℕ) := by norm_num
  refine ⟨round (lo + round (round (hi - lo) * s)), ?_⟩
  have e1 : (sigm ((⟨fin k⟩ : F32) * (x - ⟨fin x0⟩)) : F32) = ⟨fin s⟩ := congrArg F32.mk hse
  unfold sigmoid
  simp only
  rw [e1, sub_fin (hd.trans e61), mul_fin (hp.trans e61), add_fin]
  exact (abs_add_le _ _).trans ((add_le_add b1 hq).trans e62)

end Diffmah.F32

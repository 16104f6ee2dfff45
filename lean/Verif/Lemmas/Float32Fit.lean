import Verif.Model.Float32Fit
import Verif.Props.Float32

/-!
# Lemmas about the loss of a fit in single precision
-/

namespace Diffmah.F32

open JOps XR
open Fit (VariedU LossData)

section

/-- A finite single-precision number of size at most `2^n`. -/
def Bd (x : F32) (n : ℕ) : Prop := ∃ r, x = num r ∧ |r| ≤ 2 ^ n

theorem Bd.mono {x : F32} {n m : ℕ} (h : Bd x n) (hm : n ≤ m) : Bd x m := by
  obtain ⟨r, e, hr⟩ := h
  exact ⟨r, e, hr.trans (pow_le_pow_right₀ (by norm_num) hm)⟩

theorem Bd.num {r : ℝ} {n : ℕ} (h : |r| ≤ 2 ^ n) : Bd (num r) n := ⟨r, rfl, h⟩

theorem Bd.lit [Libm] {a : ℝ} (n : ℕ) (h : |a| ≤ 2 ^ n) (hn : n ≤ 127) : Bd (lit a) n :=
  ⟨round a, lit_fin (h.trans (pow_le127 hn)), round_abs_le h⟩

theorem Bd.add {x y : F32} {n : ℕ} (hx : Bd x n) (hy : Bd y n) (hn : n + 1 ≤ 127) : Bd (x + y) (n + 1) := by
  obtain ⟨r, rfl, hr⟩ := hx
  obtain ⟨s, rfl, hs⟩ := hy
  have h : |r + s| ≤ 2 ^ (n + 1) := (abs_add_le _ _).trans (by rw [pow_succ]; linarith)
  exact ⟨_, add_fin (h.trans (pow_le127 hn)), round_abs_le h⟩

theorem Bd.sub {x y : F32} {n : ℕ} (hx : Bd x n) (hy : Bd y n) (hn : n + 1 ≤ 127) : Bd (x - y) (n + 1) := by
  obtain ⟨r, rfl, hr⟩ := hx
  obtain ⟨s, rfl, hs⟩ := hy
  have h : |r - s| ≤ 2 ^ (n + 1) := (abs_sub _ _).trans (by rw [pow_succ]; linarith)
  exact ⟨_, sub_fin (h.trans (pow_le127 hn)), round_abs_le h⟩

theorem Bd.mul {x y : F32} {n m : ℕ} (hx : Bd x n) (hy : Bd y m) (hn : n + m ≤ 127) : Bd (x * y) (n + m) := by
  obtain ⟨r, rfl, hr⟩ := hx
  obtain ⟨s, rfl, hs⟩ := hy
  have h : |r * s| ≤ 2 ^ (n + m) := by
    rw [abs_mul, pow_add]; exact mul_le_mul hr hs (abs_nonneg _) (by positivity)
  exact ⟨_, mul_fin (h.trans (pow_le127 hn)), round_abs_le h⟩

theorem Bd.sigm [Libm] (hs : Libm.Sane) {x : F32} (h : x.v ≠ nan) : Bd (sigm x) 0 := by
  obtain ⟨s, e, h0, h1⟩ := hs.sg_range _ h
  exact ⟨s, congrArg F32.mk e, by rw [abs_of_nonneg h0]; simpa using h1⟩

theorem Bd.ne_nan {x : F32} {n : ℕ} (h : Bd x n) : x.v ≠ nan := by
  obtain ⟨r, rfl, -⟩ := h
  exact fun h => by cases h

theorem round_abs_le_rep {x z : ℝ} (hz : Rep z) (h : |x| ≤ z) : |round x| ≤ z := by
  rw [abs_le] at h ⊢
  exact ⟨le_round h.1 (rep_neg hz), round_le h.2 hz⟩

theorem rep_mul_zpow {m : ℕ} (hm : m ≤ 2 ^ 24) {k : ℤ} (hk : -149 ≤ k) : Rep ((m : ℝ) * 2 ^ k) :=
  ⟨m, k, by rw [abs_of_nonneg (by positivity)]; exact_mod_cast hm, hk, by simp⟩

theorem rep_mul_pow {m : ℕ} (hm : m ≤ 2 ^ 24) (n : ℕ) : Rep ((m : ℝ) * 2 ^ n) := by
  have := rep_mul_zpow hm (k := n) (by omega)
  exact_mod_cast this

/-- A sum of `m <= 2^24` numbers of size at most `2^n` has size at most `m 2^n`, in any order. -/
theorem sum_bd [Libm] {l : List F32} {a : F32} (h : SumOf l a) (n : ℕ) (hn : n + 24 ≤ 127)
    (hl : l.length ≤ 2 ^ 24) (hb : ∀ x ∈ l, Bd x n) : ∃ r, a = num r ∧ |r| ≤ l.length * 2 ^ n := by
  induction h with
  | nil => exact ⟨round 0, lit_fin (by rw [abs_zero]; positivity), by rw [round_zero]; simp⟩
  | one x =>
    obtain ⟨r, e, hr⟩ := hb x (by simp)
    exact ⟨r, e, by simpa using hr⟩
  | @add l m k a b _ _ hp iha ihb =>
    have hlen := hp.length_eq
    rw [List.length_append] at hlen
    obtain ⟨r, rfl, hr⟩ := iha (by omega) fun x hx => hb x (hp.subset (by simp [hx]))
    obtain ⟨s, rfl, hs⟩ := ihb (by omega) fun x hx => hb x (hp.subset (by simp [hx]))
    have h : |r + s| ≤ k.length * 2 ^ n := by
      refine (abs_add_le _ _).trans ?_
      rw [← hlen]; push_cast; linarith
    refine ⟨_, add_fin (h.trans ?_), round_abs_le_rep (rep_mul_pow hl n) h⟩
    have : (k.length : ℝ) ≤ 2 ^ 24 := by exact_mod_cast hl
    calc _ ≤ (2 : ℝ) ^ 24 * 2 ^ n := mul_le_mul_of_nonneg_right this (by positivity)
      _ = 2 ^ (24 + n) := (pow_add _ _ _).symm
      _ ≤ _ := pow_le127 (by omega)

theorem Bd.sum [Libm] {l : List F32} {a : F32} (h : SumOf l a) {n : ℕ} (hn : n + 24 ≤ 127)
    (hl : l.length ≤ 2 ^ 24) (hb : ∀ x ∈ l, Bd x n) : Bd a (24 + n) := by
  obtain ⟨r, e, hr⟩ := sum_bd h n hn hl hb
  refine ⟨r, e, hr.trans ?_⟩
  have : (l.length : ℝ) ≤ 2 ^ 24 := by exact_mod_cast hl
  rw [pow_add]
  exact mul_le_mul_of_nonneg_right this (by positivity)

/-- A sum of `m <= 2^24` numbers between 0 and `2^k` lies between each of them and `m 2^k`, in any order. -/
theorem sum_nonneg_range [Libm] {l : List F32} {a : F32} (h : SumOf l a) (k : ℤ) (hk : -149 ≤ k)
    (hk' : k + 24 ≤ 127) (hl : l.length ≤ 2 ^ 24)
    (hb : ∀ x ∈ l, ∃ r, x = num r ∧ Rep r ∧ 0 ≤ r ∧ r ≤ 2 ^ k) :
    ∃ r, a = num r ∧ Rep r ∧ 0 ≤ r ∧ r ≤ l.length * 2 ^ k ∧ ∀ y, num y ∈ l → y ≤ r := by
  induction h with
  | nil =>
    exact ⟨round 0, lit_fin (by rw [abs_zero]; positivity), rep_round _, by rw [round_zero], by rw [round_zero]; simp,
      by simp⟩
  | one x =>
    obtain ⟨r, e, h1, h2, h3⟩ := hb x (by simp)
    refine ⟨r, e, h1, h2, by simpa using h3, fun y hy => ?_⟩
    simp only [List.mem_singleton] at hy
    rw [e] at hy
    cases hy; exact le_rfl
  | @add l m k' a b _ _ hp iha ihb =>
    have hlen := hp.length_eq
    rw [List.length_append] at hlen
    obtain ⟨r, rfl, r1, r2, r3, r4⟩ := iha (by omega) fun x hx => hb x (hp.subset (by simp [hx]))
    obtain ⟨s, rfl, s1, s2, s3, s4⟩ := ihb (by omega) fun x hx => hb x (hp.subset (by simp [hx]))
    have h : r + s ≤ k'.length * 2 ^ k := by
      rw [← hlen]; push_cast; linarith
    have h127 : |r + s| ≤ 2 ^ (127 : ℕ) := by
      rw [abs_of_nonneg (add_nonneg r2 s2)]
      have : (k'.length : ℝ) ≤ 2 ^ (24 : ℤ) := by exact_mod_cast hl
      calc _ ≤ _ := h
        _ ≤ (2 : ℝ) ^ (24 : ℤ) * 2 ^ k := mul_le_mul_of_nonneg_right this (two_zpow_pos _).le
        _ = 2 ^ (24 + k) := (zpow_add₀ (by norm_num) _ _).symm
        _ ≤ 2 ^ (127 : ℤ) := zpow_mono2 (by omega)
        _ = _ := by norm_cast
    refine ⟨_, add_fin h127, rep_round _, round_nonneg (add_nonneg r2 s2), round_le h (rep_mul_zpow hl hk),
      fun y hy => ?_⟩
    rcases List.mem_append.1 (hp.symm.subset hy) with hy | hy
    · exact (r4 y hy).trans (le_round (by linarith) r1)
    · exact (s4 y hy).trans (le_round (by linarith) s1)

theorem div_fin {a b : ℝ} (hb : b ≠ 0) (h : |a / b| ≤ 2 ^ (127 : ℕ)) :
    num a / num b = num (round (a / b)) := by
  change (⟨rd (fin a / fin b)⟩ : F32) = _
  rw [fin_div hb, rd_fin h]; rfl

theorem lit_nat [Libm] {n : ℕ} (h : n ≤ 2 ^ 24) : (lit (n : ℝ) : F32) = num n := by
  have h' : (n : ℝ) ≤ 2 ^ 24 := by exact_mod_cast h
  rw [lit_fin (by rw [abs_of_nonneg (by positivity)]; exact h'.trans (by norm_num)), round_nat n h]; rfl

end

end Diffmah.F32

import Verif.Model.Float32Moments
import Verif.Lemmas.Float32Peak
import Verif.Lemmas.Float32Fit

/-!
# Weighted sums in single precision
-/

namespace Diffmah.F32

open JOps XR

/-! ## Adding representable numbers -/

/-- An integer multiple of the smallest number that is smaller than `2^-125` can be represented. -/
theorem rep_tiny {k : ℤ} {x : ℝ} (hx : x = k * 2 ^ (-149 : ℤ)) (h : |x| ≤ 2 ^ (-125 : ℤ)) : Rep x := by
  refine ⟨k, -149, ?_, le_rfl, hx⟩
  rw [hx, abs_mul, abs_of_pos (two_zpow_pos _)] at h
  have : |(k : ℝ)| ≤ 2 ^ (24 : ℤ) := by
    have e : (2 : ℝ) ^ (-125 : ℤ) = 2 ^ (24 : ℤ) * 2 ^ (-149 : ℤ) := by norm_num
    rw [e] at h
    exact le_of_mul_le_mul_right h (two_zpow_pos _)
  have h2 : ((|k| : ℤ) : ℝ) ≤ ((2 ^ 24 : ℤ) : ℝ) := by push_cast; exact this.trans (by norm_num)
  exact_mod_cast h2

theorem Rep.mult {x : ℝ} (h : Rep x) : ∃ k : ℤ, x = k * 2 ^ (-149 : ℤ) := by
  obtain ⟨m, e, -, he, rfl⟩ := h
  refine ⟨m * 2 ^ (e + 149).toNat, ?_⟩
  push_cast
  have : (2 : ℝ) ^ e = 2 ^ (e + 149).toNat * 2 ^ (-149 : ℤ) := by
    rw [← zpow_natCast, Int.toNat_of_nonneg (by omega), ← zpow_add₀ (by norm_num)]
    congr 1; omega
  rw [this, mul_assoc]

/-- A sum of two representable numbers has a relative error of at most `ε`, even when it is tiny. -/
theorem round_add_rel {a b : ℝ} (ha : Rep a) (hb : Rep b) : |round (a + b) - (a + b)| ≤ ε * |a + b| := by
  obtain ⟨k, hk⟩ := ha.mult
  obtain ⟨l, hl⟩ := hb.mult
  have hx : a + b = ((k + l : ℤ) : ℝ) * 2 ^ (-149 : ℤ) := by rw [hk, hl]; push_cast; ring
  generalize a + b = x at *
  by_cases h0 : x = 0
  · rw [h0, round_zero]; simp
  rcases le_total |x| (2 ^ (-125 : ℤ)) with h | h
  · rw [round_rep (rep_tiny hx h), sub_self, abs_zero]
    exact mul_nonneg ε_pos.le (abs_nonneg _)
  · have e : round x - x = (rne (x / 2 ^ ulpExp x) - x / 2 ^ ulpExp x) * 2 ^ ulpExp x := by
      unfold round; rw [sub_mul, div_mul_cancel₀ _ (two_zpow_pos _).ne']
    have h1 : |round x - x| ≤ 1 / 2 * 2 ^ ulpExp x := by
      rw [e, abs_mul, abs_of_pos (two_zpow_pos _)]
      exact mul_le_mul_of_nonneg_right (rne_err _) (two_zpow_pos _).le
    refine h1.trans ?_
    have hlog : -126 ≤ Int.log 2 |x| := by
      refine (Int.zpow_le_iff_le_log (b := 2) (by norm_num) (abs_pos.2 h0)).1 ?_
      refine le_trans ?_ h
      exact_mod_cast zpow_mono2 (show (-126 : ℤ) ≤ -125 by norm_num)
    have : ulpExp x = Int.log 2 |x| - 23 := by unfold ulpExp; rw [max_eq_left hlog]
    rw [this, zpow_sub₀ (by norm_num)]
    have h3 : (1 / 2 : ℝ) * (2 ^ Int.log 2 |x| / 2 ^ (23 : ℤ)) = ε * 2 ^ Int.log 2 |x| := by
      unfold ε; norm_num; ring
    rw [h3]
    exact mul_le_mul_of_nonneg_left (pow_log_le h0) ε_pos.le

/-- The real number behind a finite single-precision number -/
noncomputable def re (a : F32) : ℝ := match a.v with
  | .fin x => x
  | _ => 0

@[simp] theorem re_num (x : ℝ) : re (num x) = x := rfl

/-- Numbers that can be represented, added up in any order: each addition costs a relative error of at most `ε`. -/
theorem sum_err [Libm] {l : List F32} {a : F32} (h : SumOf l a) (n : ℕ) (hn : n + 24 ≤ 127) (hl : l.length ≤ 2 ^ 24)
    (hb : ∀ x ∈ l, x = num (re x) ∧ Rep (re x) ∧ |re x| ≤ 2 ^ n) :
    ∃ s, a = num s ∧ Rep s ∧ |s - (l.map re).sum| ≤ ((1 + ε) ^ l.length - 1) * (l.map fun x => |re x|).sum ∧
      |s| ≤ l.length * 2 ^ n := by
  have e0 := ε_pos
  induction h with
  | nil =>
    exact ⟨round 0, lit_fin (by rw [abs_zero]; positivity), rep_round _, by simp [round_zero], by simp [round_zero]⟩
  | one x =>
    obtain ⟨e, h1, h2⟩ := hb x (by simp)
    refine ⟨re x, e, h1, ?_, by simpa using h2⟩
    simp only [List.map_cons, List.map_nil, List.sum_cons, List.sum_nil, add_zero, sub_self, abs_zero, List.length_singleton]
    have := abs_nonneg (re x)
    have : 0 ≤ ε * |re x| := mul_nonneg e0.le this
    linarith
  | @add l m k a b _ _ hp iha ihb =>
    have hlen := hp.length_eq
    rw [List.length_append] at hlen
    obtain ⟨r, rfl, r1, r2, r3⟩ := iha (by omega) fun x hx => hb x (hp.subset (by simp [hx]))
    obtain ⟨s, rfl, s1, s2, s3⟩ := ihb (by omega) fun x hx => hb x (hp.subset (by simp [hx]))
    have h : |r + s| ≤ k.length * 2 ^ n := by
      refine (abs_add_le _ _).trans ?_
      rw [← hlen]; push_cast; linarith
    have hf : num r + num s = num (round (r + s)) := add_fin (h.trans (by
      have : (k.length : ℝ) ≤ 2 ^ 24 := by exact_mod_cast hl
      calc _ ≤ (2 : ℝ) ^ 24 * 2 ^ n := mul_le_mul_of_nonneg_right this (by positivity)
        _ = 2 ^ (24 + n) := (pow_add _ _ _).symm
        _ ≤ _ := pow_le127 (by omega)))
    refine ⟨_, hf, rep_round _, ?_, round_abs_le_rep (rep_mul_pow hl n) h⟩
    have hs1 : (k.map re).sum = (l.map re).sum + (m.map re).sum := by
      rw [← (hp.map re).sum_eq, List.map_append, List.sum_append]
    have hs2 : (k.map fun x => |re x|).sum = (l.map fun x => |re x|).sum + (m.map fun x => |re x|).sum := by
      rw [← (hp.map fun x => |re x|).sum_eq, List.map_append, List.sum_append]
    rw [hs1, hs2]
    have A0 : 0 ≤ (l.map fun x => |re x|).sum := List.sum_nonneg (by simp)
    have B0 : 0 ≤ (m.map fun x => |re x|).sum := List.sum_nonneg (by simp)
    have AA : |(l.map re).sum| ≤ (l.map fun x => |re x|).sum := by
      have := List.le_sum_of_subadditive (f := fun x : ℝ => |x|) (by simp) (fun a b => abs_add_le a b) (l.map re)
      simpa [List.map_map, Function.comp_def] using this
    have BB : |(m.map re).sum| ≤ (m.map fun x => |re x|).sum := by
      have := List.le_sum_of_subadditive (f := fun x : ℝ => |x|) (by simp) (fun a b => abs_add_le a b) (m.map re)
      simpa [List.map_map, Function.comp_def] using this
    have one : ∀ j : ℕ, 1 ≤ (1 + ε) ^ j := fun j => one_le_pow₀ (by linarith)
    by_cases hm0 : m = []
    · subst hm0
      have hs0 : s = 0 := by simpa using s2
      subst hs0
      have : k.length = l.length := by simpa using hlen.symm
      rw [add_zero, round_rep r1, this]
      simpa using r2
    by_cases hl0 : l = []
    · subst hl0
      have hr0 : r = 0 := by simpa using r2
      subst hr0
      have : k.length = m.length := by simpa using hlen.symm
      rw [zero_add, round_rep s1, this]
      simpa using s2
    have hlp : 1 ≤ l.length := List.length_pos_iff.2 hl0
    have hmp : 1 ≤ m.length := List.length_pos_iff.2 hm0
    have g1 : (1 + ε) ^ l.length * (1 + ε) ≤ (1 + ε) ^ k.length := by
      rw [← pow_succ]; exact pow_le_pow_right₀ (by linarith) (by omega)
    have g2 : (1 + ε) ^ m.length * (1 + ε) ≤ (1 + ε) ^ k.length := by
      rw [← pow_succ]; exact pow_le_pow_right₀ (by linarith) (by omega)
    have hr := round_add_rel r1 s1
    generalize (l.map re).sum = A at *
    generalize (m.map re).sum = B at *
    generalize (l.map fun x => |re x|).sum = A' at *
    generalize (m.map fun x => |re x|).sum = B' at *
    generalize (1 + ε) ^ l.length = p at *
    generalize (1 + ε) ^ m.length = q at *
    generalize (1 + ε) ^ k.length = w at *
    have hr' : |r| ≤ p * A' := by
      have : |r| ≤ |r - A| + |A| := by have := abs_add_le (r - A) A; simpa using this
      linarith
    have hs' : |s| ≤ q * B' := by
      have : |s| ≤ |s - B| + |B| := by have := abs_add_le (s - B) B; simpa using this
      linarith
    have t1 : |round (r + s) - (A + B)| ≤ |round (r + s) - (r + s)| + (|r - A| + |s - B|) := by
      have : round (r + s) - (A + B) = (round (r + s) - (r + s)) + ((r - A) + (s - B)) := by ring
      rw [this]
      exact (abs_add_le _ _).trans (add_le_add le_rfl (abs_add_le _ _))
    have t2 : ε * |r + s| ≤ ε * (p * A' + q * B') :=
      mul_le_mul_of_nonneg_left ((abs_add_le _ _).trans (add_le_add hr' hs')) e0.le
    have t3 := mul_le_mul_of_nonneg_right g1 A0
    have t4 := mul_le_mul_of_nonneg_right g2 B0
    linarith

/-- Up to 200 additions -/
theorem pow_200 {n : ℕ} (h : n ≤ 200) : (1 + ε) ^ n - 1 ≤ 202 * ε := by
  have e0 := ε_pos
  have e1 := ε_le
  have key : ∀ j : ℕ, j ≤ 200 → (1 + ε) ^ j ≤ 1 + j * (101 / 100 * ε) := by
    intro j
    induction j with
    | zero => intro _; simp
    | succ j ih =>
      intro hj
      have := ih (by omega)
      have hj' : (j : ℝ) ≤ 200 := by exact_mod_cast (by omega : j ≤ 200)
      have m := mul_le_mul_of_nonneg_right this (show 0 ≤ 1 + ε by linarith)
      rw [pow_succ]
      push_cast
      have : (j : ℝ) * (101 / 100 * ε) * ε ≤ 200 * (101 / 100 * ε) * (6 / 100000000) :=
        mul_le_mul (mul_le_mul_of_nonneg_right hj' (by positivity)) e1 e0.le (by positivity)
      linarith
  have := key n h
  have hn : (n : ℝ) ≤ 200 := by exact_mod_cast h
  have : (n : ℝ) * (101 / 100 * ε) ≤ 200 * (101 / 100 * ε) := mul_le_mul_of_nonneg_right hn (by positivity)
  linarith

/-! ## Weighted root mean squares -/

theorem sum_map_mono {ι : Type} {L : List ι} {f g : ι → ℝ} (h : ∀ i ∈ L, f i ≤ g i) : (L.map f).sum ≤ (L.map g).sum :=
  List.sum_le_sum h

theorem sum_map_lin {ι : Type} (L : List ι) (f g : ι → ℝ) (a b : ℝ) :
    (L.map fun i => a * f i + b * g i).sum = a * (L.map f).sum + b * (L.map g).sum := by
  rw [List.sum_map_add, List.sum_map_mul_left, List.sum_map_mul_left]

/-- Minkowski's inequality: changing all values by at most `β` changes the root mean square by at most `β`. -/
theorem rms_le {ι : Type} (L : List ι) (w a b : ι → ℝ) (hw : ∀ i ∈ L, 0 ≤ w i) (h1 : (L.map w).sum ≤ 1) {β : ℝ}
    (h : ∀ i ∈ L, |a i - b i| ≤ β) (hβ : 0 < β) :
    √(L.map fun i => w i * a i ^ 2).sum ≤ √(L.map fun i => w i * b i ^ 2).sum + β := by
  have q0 : 0 ≤ (L.map fun i => w i * b i ^ 2).sum := List.sum_nonneg (by
    simp only [List.mem_map]; rintro _ ⟨i, hi, rfl⟩; exact mul_nonneg (hw i hi) (sq_nonneg _))
  set A := √(L.map fun i => w i * b i ^ 2).sum with hA
  have hAA : A ^ 2 = (L.map fun i => w i * b i ^ 2).sum := Real.sq_sqrt q0
  have A0 : 0 ≤ A := Real.sqrt_nonneg _
  -- `(x + y)^2 <= (1 + c) x^2 + (1 + 1/c) y^2`
  have key : ∀ A' : ℝ, 0 < A' → A ≤ A' → √(L.map fun i => w i * a i ^ 2).sum ≤ A' + β := by
    intro A' hp hle
    apply Real.sqrt_le_iff.2
    refine ⟨by linarith, ?_⟩
    have hc : 0 < β / A' := div_pos hβ hp
    have step : (L.map fun i => w i * a i ^ 2).sum ≤
        (L.map fun i => (1 + β / A') * (w i * b i ^ 2) + ((1 + A' / β) * β ^ 2) * w i).sum := by
      apply sum_map_mono
      intro i hi
      have hd := abs_le.1 (h i hi)
      have d2 : (a i - b i) ^ 2 ≤ β ^ 2 := by nlinarith
      have : a i ^ 2 ≤ (1 + β / A') * b i ^ 2 + (1 + A' / β) * β ^ 2 := by
        have e : (1 + β / A') * b i ^ 2 + (1 + A' / β) * (a i - b i) ^ 2 - a i ^ 2 =
            (β * b i - A' * (a i - b i)) ^ 2 / (A' * β) := by
          field_simp; ring
        have p : 0 ≤ (β * b i - A' * (a i - b i)) ^ 2 / (A' * β) := by positivity
        have r := mul_le_mul_of_nonneg_left d2 (show 0 ≤ 1 + A' / β by positivity)
        linarith
      have := mul_le_mul_of_nonneg_left this (hw i hi)
      linarith
    refine step.trans ?_
    rw [sum_map_lin L (fun i => w i * b i ^ 2) w, ← hAA]
    have s1 : A ^ 2 ≤ A' ^ 2 := by nlinarith
    have s2 := mul_le_mul_of_nonneg_left s1 (show 0 ≤ 1 + β / A' by positivity)
    have s3 := mul_le_mul_of_nonneg_left h1 (show 0 ≤ (1 + A' / β) * β ^ 2 by positivity)
    have e : (1 + β / A') * A' ^ 2 + (1 + A' / β) * β ^ 2 * 1 = (A' + β) ^ 2 := by field_simp; ring
    linarith
  apply le_of_forall_pos_le_add
  intro δ hδ
  have := key (A + δ) (by linarith) (by linarith)
  linarith

/-! ## One component of the mixture -/

/-- Single-precision weights `v` for the weights `w` -/
structure Weights {ι : Type} (L : List ι) (w v : ι → ℝ) : Prop where
  pos : ∀ i ∈ L, 0 ≤ w i
  le : ∀ i ∈ L, w i ≤ 1
  near : ∀ i ∈ L, |v i - w i| ≤ 4 * ε * w i
  total : (L.map w).sum ≤ 1
  length : L.length ≤ 200

theorem sum_abs_le {ι : Type} (L : List ι) (f g b : ι → ℝ) (h : ∀ i ∈ L, |f i - g i| ≤ b i) :
    |(L.map f).sum - (L.map g).sum| ≤ (L.map b).sum := by
  induction L with
  | nil => simp
  | cons i L ih =>
    simp only [List.map_cons, List.sum_cons]
    have h1 := h i (by simp)
    have h2 := ih fun j hj => h j (by simp [hj])
    have e : f i + (L.map f).sum - (g i + (L.map g).sum) = (f i - g i) + ((L.map f).sum - (L.map g).sum) := by ring
    rw [e]
    exact (abs_add_le _ _).trans (add_le_add h1 h2)

theorem sum_const_le {ι : Type} {L : List ι} {c : ℝ} (hc : 0 ≤ c) (h : L.length ≤ 200) : (L.map fun _ => c).sum ≤ 200 * c := by
  rw [List.map_const', List.sum_replicate, nsmul_eq_mul]
  exact mul_le_mul_of_nonneg_right (by exact_mod_cast h) hc

theorem weighted_sum [Libm] {sum : List F32 → F32} (hsum : ∀ l, SumOf l (sum l)) {ι : Type} {L : List ι} {t : ι → ℝ}
    (hr : ∀ i ∈ L, Rep (t i)) {B : ℕ} (hB : B ≤ 100) (hb : ∀ i ∈ L, |t i| ≤ 2 ^ B) (hL : L.length ≤ 200) :
    ∃ s, sum (L.map fun i => num (t i)) = num s ∧ Rep s ∧
      |s - (L.map t).sum| ≤ 202 * ε * (L.map fun i => |t i|).sum := by
  obtain ⟨s, h1, h2, h3, -⟩ := sum_err (hsum (L.map fun i => num (t i))) B (by omega) (by
    rw [List.length_map]; omega) (by
    simp only [List.mem_map]
    rintro _ ⟨i, hi, rfl⟩
    exact ⟨rfl, hr i hi, hb i hi⟩)
  refine ⟨s, h1, h2, ?_⟩
  simp only [List.map_map, Function.comp_def, re_num, List.length_map] at h3
  exact h3.trans (mul_le_mul_of_nonneg_right (pow_200 hL) (List.sum_nonneg (by simp)))

/-- The weighted sum of the log masses of one component -/
theorem side_mean [Libm] {sum : List F32 → F32} (hsum : ∀ l, SumOf l (sum l)) {ι : Type} {L : List ι} {w v x : ι → ℝ}
    (hw : Weights L w v) (hx : ∀ i ∈ L, |x i| ≤ 32) :
    ∃ s, sum (L.map fun i => num (x i) * num (v i)) = num s ∧ Rep s ∧
      |s - (L.map fun i => w i * x i).sum| ≤ 6850 * ε * (L.map w).sum + ε * (1 / 1000) := by
  have e0 := ε_pos
  have e1 := ε_le
  have W0 : 0 ≤ (L.map w).sum := List.sum_nonneg (by simp only [List.mem_map]; rintro _ ⟨i, hi, rfl⟩; exact hw.pos i hi)
  have hv : ∀ i ∈ L, 0 ≤ v i ∧ v i ≤ 10001 / 10000 * w i := fun i hi => by
    have := abs_le.1 (hw.near i hi)
    have w0 := hw.pos i hi
    have : 4 * ε * w i ≤ 1 / 10000 * w i := mul_le_mul_of_nonneg_right (by linarith) w0
    constructor <;> linarith
  have prod : ∀ i ∈ L, |x i * v i| ≤ 33 * w i := fun i hi => by
    have hvi := hv i hi
    have w0 := hw.pos i hi
    rw [abs_mul, abs_of_nonneg hvi.1]
    have := mul_le_mul (hx i hi) hvi.2 hvi.1 (by norm_num)
    linarith
  have hnum : (L.map fun i => num (x i) * num (v i)) = L.map fun i => num (round (x i * v i)) := by
    apply List.map_congr_left
    intro i hi
    exact mul_fin ((prod i hi).trans (by have := hw.le i hi; linarith [show (33 : ℝ) ≤ 2 ^ 127 by norm_num]))
  rw [hnum]
  have small : ∀ i ∈ L, |round (x i * v i) - x i * v i| ≤ ε * (33 * w i) + ε * (1 / 1000000) := fun i hi =>
    (round_ε _).trans (add_le_add (mul_le_mul_of_nonneg_left (prod i hi) e0.le) le_rfl)
  have absr : ∀ i ∈ L, |round (x i * v i)| ≤ 331 / 10 * w i + ε * (1 / 1000000) := fun i hi => by
    have h1 := small i hi
    have h2 := prod i hi
    have w0 := hw.pos i hi
    have h3 : |round (x i * v i)| ≤ |round (x i * v i) - x i * v i| + |x i * v i| := by
      have := abs_add_le (round (x i * v i) - x i * v i) (x i * v i); simpa using this
    have h4 : ε * (33 * w i) ≤ 6 / 100000000 * (33 * w i) := mul_le_mul_of_nonneg_right e1 (by linarith)
    linarith
  obtain ⟨s, h1, h2, h3⟩ := weighted_sum hsum (L := L) (t := fun i => round (x i * v i)) (fun i _ => rep_round _) (B := 6)
    (by norm_num) (fun i hi => (absr i hi).trans (by have := hw.le i hi; norm_num; linarith)) hw.length
  refine ⟨s, h1, h2, ?_⟩
  have d1 : |(L.map fun i => round (x i * v i)).sum - (L.map fun i => w i * x i).sum| ≤
      (L.map fun i => (161 * ε) * w i + (ε * (1 / 1000000)) * 1).sum := by
    apply sum_abs_le
    intro i hi
    have w0 := hw.pos i hi
    have n := hw.near i hi
    have k : |x i * v i - w i * x i| ≤ 32 * (4 * ε * w i) := by
      have : x i * v i - w i * x i = x i * (v i - w i) := by ring
      rw [this, abs_mul]
      exact mul_le_mul (hx i hi) n (abs_nonneg _) (by norm_num)
    have e : round (x i * v i) - w i * x i = (round (x i * v i) - x i * v i) + (x i * v i - w i * x i) := by ring
    rw [e]
    refine (abs_add_le _ _).trans ((add_le_add (small i hi) k).trans ?_)
    have := mul_nonneg e0.le w0
    linarith
  rw [sum_map_lin] at d1
  have c1 : (L.map fun _ => (1 : ℝ)).sum ≤ 200 * 1 := sum_const_le (by norm_num) hw.length
  have d2 : (L.map fun i => |round (x i * v i)|).sum ≤ (L.map fun i => 331 / 10 * w i + (ε * (1 / 1000000)) * 1).sum :=
    sum_map_mono fun i hi => (absr i hi).trans (by linarith)
  rw [sum_map_lin] at d2
  generalize (L.map w).sum = W at *
  generalize (L.map fun _ => (1 : ℝ)).sum = n at *
  generalize (L.map fun i => |round (x i * v i)|).sum = R at *
  have d3 := mul_le_mul_of_nonneg_left d2 (show 0 ≤ 202 * ε by linarith)
  have tri : |s - (L.map fun i => w i * x i).sum| ≤ |s - (L.map fun i => round (x i * v i)).sum| +
      |(L.map fun i => round (x i * v i)).sum - (L.map fun i => w i * x i).sum| := abs_sub_le _ _ _
  have n1 : ε * (1 / 1000000) * n ≤ ε * (1 / 1000000) * (200 * 1) := mul_le_mul_of_nonneg_left c1 (by positivity)
  have n2 : 202 * ε * (ε * (1 / 1000000) * n) ≤ 202 * ε * (ε * (1 / 1000000) * (200 * 1)) :=
    mul_le_mul_of_nonneg_left n1 (by positivity)
  have n3 : 202 * ε * (ε * (1 / 1000000) * (200 * 1)) ≤ 202 * ε * (6 / 100000000 * (1 / 1000000) * (200 * 1)) :=
    mul_le_mul_of_nonneg_left (by linarith) (by positivity)
  have p0 := mul_nonneg e0.le W0
  linarith

/-- The weighted sum of the squared deviations from `m` of one component -/
theorem side_var [Libm] {sum : List F32 → F32} (hsum : ∀ l, SumOf l (sum l)) {ι : Type} {L : List ι} {w v x : ι → ℝ} {m : ℝ}
    (hw : Weights L w v) (hx : ∀ i ∈ L, |x i| ≤ 32) (hxr : ∀ i ∈ L, Rep (x i)) (hm : |m| ≤ 33) (hmr : Rep m) :
    ∃ s, sum (L.map fun i => (num (x i) - num m) * (num (x i) - num m) * num (v i)) = num s ∧ Rep s ∧ 0 ≤ s ∧
      |s - (L.map fun i => w i * (x i - m) ^ 2).sum| ≤
        212 * ε * (L.map fun i => w i * (x i - m) ^ 2).sum + ε * (65 / 100000) := by
  have e0 := ε_pos
  have e1 := ε_le
  have hv : ∀ i ∈ L, 0 ≤ v i ∧ v i ≤ 10001 / 10000 * w i := fun i hi => by
    have := abs_le.1 (hw.near i hi)
    have w0 := hw.pos i hi
    have : 4 * ε * w i ≤ 1 / 10000 * w i := mul_le_mul_of_nonneg_right (by linarith) w0
    constructor <;> linarith
  have dev : ∀ i ∈ L, |x i - m| ≤ 65 := fun i hi => (abs_sub _ _).trans (by linarith [hx i hi])
  -- the difference, its square and the weighted square
  have hd : ∀ i ∈ L, |round (x i - m) - (x i - m)| ≤ ε * |x i - m| := fun i hi => by
    have := round_add_rel (hxr i hi) (rep_neg hmr)
    rwa [← sub_eq_add_neg] at this
  have hq : ∀ i ∈ L, |round (x i - m) * round (x i - m) - (x i - m) ^ 2| ≤ 21 / 10 * ε * (x i - m) ^ 2 := fun i hi => by
    have h1 := hd i hi
    generalize round (x i - m) = d at *
    generalize x i - m = D at *
    have e : d * d - D ^ 2 = (d - D) * (2 * D + (d - D)) := by ring
    rw [e, abs_mul]
    have h2 : |2 * D + (d - D)| ≤ 21 / 10 * |D| := by
      refine (abs_add_le _ _).trans ?_
      rw [abs_mul, abs_two]
      have : ε * |D| ≤ 1 / 10 * |D| := mul_le_mul_of_nonneg_right (by linarith) (abs_nonneg _)
      linarith
    have := mul_le_mul h1 h2 (abs_nonneg _) (mul_nonneg e0.le (abs_nonneg _))
    rw [← sq_abs D]
    linarith
  have hqb : ∀ i ∈ L, 0 ≤ round (x i - m) * round (x i - m) ∧ round (x i - m) * round (x i - m) ≤ 10001 / 10000 * (x i - m) ^ 2 ∧
      (x i - m) ^ 2 ≤ 4225 := fun i hi => by
    have h1 := abs_le.1 (hq i hi)
    have s0 := sq_nonneg (x i - m)
    have : 21 / 10 * ε * (x i - m) ^ 2 ≤ 1 / 10000 * (x i - m) ^ 2 := mul_le_mul_of_nonneg_right (by linarith) s0
    refine ⟨mul_self_nonneg _, by linarith, ?_⟩
    have := abs_le.1 (dev i hi)
    nlinarith
  have hq2 : ∀ i ∈ L, |round (round (x i - m) * round (x i - m)) - (x i - m) ^ 2| ≤
      32 / 10 * ε * (x i - m) ^ 2 + ε * (1 / 1000000) := fun i hi => by
    have h1 := hq i hi
    obtain ⟨h2, h3, -⟩ := hqb i hi
    have h4 := round_ε (round (x i - m) * round (x i - m))
    rw [abs_of_nonneg h2] at h4
    have h5 := mul_le_mul_of_nonneg_left h3 e0.le
    have h6 := mul_nonneg e0.le (sq_nonneg (x i - m))
    refine (abs_sub_le _ (round (x i - m) * round (x i - m)) _).trans ?_
    linarith
  have hq0 : ∀ i ∈ L, 0 ≤ round (round (x i - m) * round (x i - m)) ∧
      round (round (x i - m) * round (x i - m)) ≤ 10001 / 10000 * (x i - m) ^ 2 + ε * (1 / 1000000) := fun i hi => by
    have h1 := abs_le.1 (hq2 i hi)
    have : 32 / 10 * ε * (x i - m) ^ 2 ≤ 1 / 10000 * (x i - m) ^ 2 := mul_le_mul_of_nonneg_right (by linarith) (sq_nonneg _)
    exact ⟨round_nonneg (hqb i hi).1, by linarith⟩
  have hnum : (L.map fun i => (num (x i) - num m) * (num (x i) - num m) * num (v i)) =
      L.map fun i => num (round (round (round (x i - m) * round (x i - m)) * v i)) := by
    apply List.map_congr_left
    intro i hi
    obtain ⟨a1, a2, a3⟩ := hqb i hi
    obtain ⟨b1, b2⟩ := hq0 i hi
    obtain ⟨c1, c2⟩ := hv i hi
    have big : (100000 : ℝ) ≤ 2 ^ 127 := by norm_num
    rw [show num (x i) - num m = num (round (x i - m)) from sub_fin ((dev i hi).trans (by linarith)),
      show num (round (x i - m)) * num (round (x i - m)) = num (round (round (x i - m) * round (x i - m))) from
        mul_fin (by rw [abs_of_nonneg a1]; linarith)]
    refine mul_fin ?_
    rw [abs_of_nonneg (mul_nonneg b1 c1)]
    have := mul_le_mul (show round (round (x i - m) * round (x i - m)) ≤ (5000 : ℝ) by linarith) (show v i ≤ 2 by linarith [hw.le i hi]) c1 (by norm_num)
    linarith
  rw [hnum]
  -- each term
  have hprod : ∀ i ∈ L, |round (round (x i - m) * round (x i - m)) * v i - w i * (x i - m) ^ 2| ≤
      73 / 10 * ε * (w i * (x i - m) ^ 2) + 11 / 10 * ε * (1 / 1000000) := fun i hi => by
    have h1 := hq2 i hi
    obtain ⟨c1, c2⟩ := hv i hi
    have w0 := hw.pos i hi
    have w1 := hw.le i hi
    have n := hw.near i hi
    have s0 := sq_nonneg (x i - m)
    generalize round (round (x i - m) * round (x i - m)) = q at *
    generalize (x i - m) ^ 2 = S at *
    have e : q * v i - w i * S = (q - S) * v i + S * (v i - w i) := by ring
    rw [e]
    refine (abs_add_le _ _).trans ?_
    rw [abs_mul, abs_mul, abs_of_nonneg c1, abs_of_nonneg s0]
    have k1 := mul_le_mul h1 c2 c1 (by positivity)
    have k2 := mul_le_mul_of_nonneg_left n s0
    have k3 : 0 ≤ ε * (w i * S) := by positivity
    have k4 : ε * (1 / 1000000) * w i ≤ ε * (1 / 1000000) * 1 := mul_le_mul_of_nonneg_left w1 (by positivity)
    have k5 : 0 ≤ ε * (1 / 1000000) := by positivity
    linarith
  have hterm : ∀ i ∈ L, |round (round (round (x i - m) * round (x i - m)) * v i) - w i * (x i - m) ^ 2| ≤
      84 / 10 * ε * (w i * (x i - m) ^ 2) + 22 / 10 * ε * (1 / 1000000) * 1 := fun i hi => by
    have h1 := hprod i hi
    obtain ⟨b1, b2⟩ := hq0 i hi
    obtain ⟨c1, c2⟩ := hv i hi
    have w0 := hw.pos i hi
    have s0 : 0 ≤ w i * (x i - m) ^ 2 := mul_nonneg w0 (sq_nonneg _)
    have h2 := round_ε (round (round (x i - m) * round (x i - m)) * v i)
    rw [abs_of_nonneg (mul_nonneg b1 c1)] at h2
    generalize round (round (x i - m) * round (x i - m)) * v i = P at *
    generalize w i * (x i - m) ^ 2 = S at *
    have h3 := (abs_le.1 h1).2
    have h4 := mul_le_mul_of_nonneg_left (show P ≤ S + (73 / 10 * ε * S + 11 / 10 * ε * (1 / 1000000)) by linarith) e0.le
    have h5 : ε * (73 / 10 * ε * S + 11 / 10 * ε * (1 / 1000000)) ≤
        6 / 100000000 * (73 / 10 * ε * S + 11 / 10 * ε * (1 / 1000000)) := mul_le_mul_of_nonneg_right e1 (by positivity)
    have h6 : 0 ≤ ε * S := mul_nonneg e0.le s0
    refine (abs_sub_le _ P _).trans ?_
    linarith
  have hnn : ∀ i ∈ L, 0 ≤ round (round (round (x i - m) * round (x i - m)) * v i) := fun i hi =>
    round_nonneg (mul_nonneg (hq0 i hi).1 (hv i hi).1)
  obtain ⟨s, h1, h2, h3⟩ := weighted_sum hsum (L := L) (t := fun i => round (round (round (x i - m) * round (x i - m)) * v i))
    (fun i _ => rep_round _) (B := 16) (by norm_num) (fun i hi => by
      have k1 := (abs_le.1 (hterm i hi)).2
      obtain ⟨-, -, a3⟩ := hqb i hi
      have w0 := hw.pos i hi
      have s0 : 0 ≤ w i * (x i - m) ^ 2 := mul_nonneg w0 (sq_nonneg _)
      have s1 : w i * (x i - m) ^ 2 ≤ 1 * 4225 := mul_le_mul (hw.le i hi) a3 (sq_nonneg _) (by norm_num)
      rw [abs_of_nonneg (hnn i hi)]
      have : 84 / 10 * ε * (w i * (x i - m) ^ 2) ≤ 1 * (w i * (x i - m) ^ 2) := mul_le_mul_of_nonneg_right (by linarith) s0
      norm_num at k1 ⊢
      linarith) hw.length
  have d1 := sum_abs_le L _ _ _ hterm
  rw [sum_map_lin L (fun i => w i * (x i - m) ^ 2) (fun _ => 1)] at d1
  have habs : (L.map fun i => |round (round (round (x i - m) * round (x i - m)) * v i)|).sum =
      (L.map fun i => round (round (round (x i - m) * round (x i - m)) * v i)).sum :=
    congrArg List.sum (List.map_congr_left fun i hi => abs_of_nonneg (hnn i hi))
  have T0 : 0 ≤ (L.map fun i => round (round (round (x i - m) * round (x i - m)) * v i)).sum :=
    List.sum_nonneg (by simp only [List.mem_map]; rintro _ ⟨i, hi, rfl⟩; exact hnn i hi)
  have Q0 : 0 ≤ (L.map fun i => w i * (x i - m) ^ 2).sum :=
    List.sum_nonneg (by
      simp only [List.mem_map]; rintro _ ⟨i, hi, rfl⟩; exact mul_nonneg (hw.pos i hi) (sq_nonneg _))
  rw [habs] at h3
  have c1 : (L.map fun _ => (1 : ℝ)).sum ≤ 200 * 1 := sum_const_le (by norm_num) hw.length
  refine ⟨s, h1, h2, ?_, ?_⟩
  · have := (abs_le.1 h3).1
    have : 202 * ε * (L.map fun i => round (round (round (x i - m) * round (x i - m)) * v i)).sum ≤
        1 * (L.map fun i => round (round (round (x i - m) * round (x i - m)) * v i)).sum :=
      mul_le_mul_of_nonneg_right (by linarith) T0
    linarith
  · generalize (L.map fun i => round (round (round (x i - m) * round (x i - m)) * v i)).sum = T at *
    generalize (L.map fun i => w i * (x i - m) ^ 2).sum = Q at *
    generalize (L.map fun _ => (1 : ℝ)).sum = n at *
    have n1 : 22 / 10 * ε * (1 / 1000000) * n ≤ 22 / 10 * ε * (1 / 1000000) * (200 * 1) :=
      mul_le_mul_of_nonneg_left c1 (by positivity)
    have k1 := (abs_le.1 d1).2
    have k2 := mul_le_mul_of_nonneg_left (show T ≤ Q + (84 / 10 * ε * Q + 22 / 10 * ε * (1 / 1000000) * (200 * 1)) by linarith)
      (show 0 ≤ 202 * ε by linarith)
    have k3 : 202 * ε * (84 / 10 * ε * Q + 22 / 10 * ε * (1 / 1000000) * (200 * 1)) ≤
        202 * (6 / 100000000) * (84 / 10 * ε * Q + 22 / 10 * ε * (1 / 1000000) * (200 * 1)) :=
      mul_le_mul_of_nonneg_right (by linarith) (by positivity)
    have k4 : 0 ≤ ε * Q := mul_nonneg e0.le Q0
    refine (abs_sub_le _ T _).trans ?_
    linarith

/-! ## The whole mixture -/

theorem zip_maps {ι β γ δ : Type} (g : β → γ → δ) (a : ι → β) (b : ι → γ) (L : List ι) :
    List.zipWith g (L.map a) (L.map b) = L.map fun i => g (a i) (b i) := by
  rw [List.zipWith_map, List.zipWith_self]

/-- The weights of the early component -/
theorem weight_early {f : ℝ} {n : ℕ} (hn : 1 ≤ n) (hn' : n ≤ 200) (h0 : 24 / 100 ≤ f) :
    |round (f * round (1 / n)) - f / n| ≤ 25 / 10 * ε * (f / n) := by
  have e0 := ε_pos
  have e1 := ε_le
  have n1 : (1 : ℝ) ≤ n := by exact_mod_cast hn
  have n2 : (n : ℝ) ≤ 200 := by exact_mod_cast hn'
  have i0 : (1 : ℝ) / 200 ≤ 1 / n := one_div_le_one_div_of_le (by linarith) n2
  have r := round_ε ((1 : ℝ) / n)
  rw [abs_of_nonneg (show 0 ≤ (1 : ℝ) / n by linarith)] at r
  rw [show f / (n : ℝ) = f * (1 / n) by ring]
  generalize (1 : ℝ) / n = I at *
  have r' : |round I - I| ≤ 101 / 100 * ε * I := by
    have : ε * (1 / 200) ≤ ε * I := mul_le_mul_of_nonneg_left i0 e0.le
    linarith
  generalize round I = R at *
  have k1 : |f * R - f * I| ≤ 101 / 100 * ε * (f * I) := by
    rw [← mul_sub, abs_mul, abs_of_nonneg (by linarith)]
    have := mul_le_mul_of_nonneg_left r' (show 0 ≤ f by linarith)
    linarith
  have fI : 24 / 100 * (1 / 200) ≤ f * I := mul_le_mul h0 i0 (by norm_num) (by linarith)
  have fI' := mul_le_mul_of_nonneg_left fI e0.le
  have k2 := round_ε (f * R)
  have k3 : |f * R| ≤ 101 / 100 * (f * I) := by
    have : |f * R| ≤ |f * R - f * I| + |f * I| := by have := abs_add_le (f * R - f * I) (f * I); simpa using this
    rw [abs_of_nonneg (show 0 ≤ f * I by linarith)] at this
    have : 101 / 100 * ε * (f * I) ≤ 1 / 100 * (f * I) := mul_le_mul_of_nonneg_right (by linarith) (by linarith)
    linarith
  have k4 := mul_le_mul_of_nonneg_left k3 e0.le
  refine (abs_sub_le _ (f * R) _).trans ?_
  linarith

/-- The weights of the late component -/
theorem weight_late {f : ℝ} {n : ℕ} (hn : 1 ≤ n) (hn' : n ≤ 200) (h1 : f ≤ 751 / 1000) :
    |round (round (1 - f) * round (1 / n)) - (1 - f) / n| ≤ 4 * ε * ((1 - f) / n) := by
  have e0 := ε_pos
  have e1 := ε_le
  have g := round_ε (1 - f)
  rw [abs_of_nonneg (show 0 ≤ 1 - f by linarith)] at g
  have n1 : (1 : ℝ) ≤ n := by exact_mod_cast hn
  have g1 : |round (1 - f) - (1 - f)| ≤ 101 / 100 * ε * (1 - f) := by
    have := mul_le_mul_of_nonneg_left (show 249 / 1000 ≤ 1 - f by linarith) e0.le
    linarith
  have g2 := abs_le.1 g1
  have g3 : 101 / 100 * ε * (1 - f) ≤ 1 / 1000 * (1 - f) := mul_le_mul_of_nonneg_right (by linarith) (by linarith)
  have k1 := weight_early hn hn' (f := round (1 - f)) (by linarith)
  generalize round (1 - f) = u at *
  have k2 : |u / n - (1 - f) / n| ≤ 101 / 100 * ε * ((1 - f) / n) := by
    rw [← sub_div, abs_div, abs_of_pos (show (0 : ℝ) < n by linarith), mul_div_assoc']
    exact div_le_div_of_nonneg_right g1 (by linarith)
  have k3 : u / n ≤ 1001 / 1000 * ((1 - f) / n) := by
    rw [mul_div_assoc']
    exact div_le_div_of_nonneg_right (by linarith) (by linarith)
  have k4 := mul_le_mul_of_nonneg_left k3 e0.le
  have k5 : 0 ≤ ε * ((1 - f) / n) := mul_nonneg e0.le (div_nonneg (by linarith) (by linarith))
  refine (abs_sub_le _ (u / n) _).trans ?_
  linarith

theorem sqrt_fin {x : ℝ} (h : 0 ≤ x) (h' : √x ≤ 2 ^ (127 : ℕ)) : JFlow.sqrt (num x) = num (round (√x)) := by
  change (⟨if x < 0 then XR.nan else rd (fin (√x))⟩ : F32) = _
  rw [if_neg (not_lt.2 h), rd_fin (by rwa [abs_of_nonneg (Real.sqrt_nonneg _)])]
  rfl

theorem roots_near {Q V : ℝ} (Q0 : 0 ≤ Q) (V0 : 0 ≤ V) (h1 : V ≤ Q + 13 / 1000000 * Q + 1 / 10000000000)
    (h2 : Q * (1 - 13 / 1000000) ≤ V + 1 / 10000000000) :
    √V ≤ (1 + 7 / 1000000) * √Q + 1 / 100000 ∧ √Q ≤ (1 + 7 / 1000000) * √V + 2 / 100000 := by
  have sQ := Real.sqrt_nonneg Q
  have sV := Real.sqrt_nonneg V
  have sQ2 := Real.sq_sqrt Q0
  have sV2 := Real.sq_sqrt V0
  constructor
  · apply Real.sqrt_le_iff.2
    refine ⟨by positivity, ?_⟩
    rw [← sQ2] at h1
    generalize √Q = q at *
    have : ((1 + 7 / 1000000) * q + 1 / 100000) ^ 2 - (q ^ 2 + 13 / 1000000 * q ^ 2 + 1 / 10000000000) =
        (1 / 1000000 + 49 / 1000000000000) * q ^ 2 + 2 * ((1 + 7 / 1000000) * (1 / 100000)) * q := by ring
    have p : 0 ≤ (1 / 1000000 + 49 / 1000000000000) * q ^ 2 + 2 * ((1 + 7 / 1000000) * (1 / 100000)) * q := by positivity
    linarith
  · apply Real.sqrt_le_iff.2
    refine ⟨by positivity, ?_⟩
    have h3 : Q ≤ (1 + 14 / 1000000) * (V + 1 / 10000000000) := by
      have e := mul_le_mul_of_nonneg_left h2 (show (0 : ℝ) ≤ 1 + 14 / 1000000 by norm_num)
      have : Q ≤ (1 + 14 / 1000000) * (Q * (1 - 13 / 1000000)) := by linarith
      linarith
    rw [← sV2] at h3
    generalize √V = v at *
    have : ((1 + 7 / 1000000) * v + 2 / 100000) ^ 2 - (1 + 14 / 1000000) * (v ^ 2 + 1 / 10000000000) =
        49 / 1000000000000 * v ^ 2 + 2 * ((1 + 7 / 1000000) * (2 / 100000)) * v +
          (4 / 10000000000 - (1 + 14 / 1000000) / 10000000000) := by ring
    have p : 0 ≤ 49 / 1000000000000 * v ^ 2 + 2 * ((1 + 7 / 1000000) * (2 / 100000)) * v := by positivity
    linarith

set_option maxHeartbeats 1000000 in
/-- Mean and standard deviation of up to 200 haloes, in single precision -/
theorem moments_near [Libm] {sum : List F32 → F32} (hsum : ∀ l, SumOf l (sum l)) {ι : Type} {L : List ι}
    {xe xl f Xe Xl : ι → ℝ} (hn : 1 ≤ L.length) (hn' : L.length ≤ 200)
    (he : ∀ i ∈ L, Rep (xe i) ∧ |xe i| ≤ 32 ∧ |xe i - Xe i| ≤ 2 ^ (-15 : ℤ))
    (hl : ∀ i ∈ L, Rep (xl i) ∧ |xl i| ≤ 32 ∧ |xl i - Xl i| ≤ 2 ^ (-15 : ℤ))
    (hf : ∀ i ∈ L, 249 / 1000 ≤ f i ∧ f i ≤ 751 / 1000) :
    ∃ m s, moments_with sum (L.map fun i => num (xe i)) (L.map fun i => num (xl i)) (L.map fun i => num (f i)) = (num m, num s) ∧
      |m - Spec.wmean (Spec.mixture (L.map Xe) (L.map Xl) (L.map f))| ≤ 2 ^ (-10 : ℤ) ∧ |m| ≤ 33 ∧ 0 ≤ s ∧ s ≤ 67 ∧
      |s - √(Spec.wvar (Spec.mixture (L.map Xe) (L.map Xl) (L.map f)))| ≤ 2 ^ (-9 : ℤ) := by
  have e0 := ε_pos
  have e1 := ε_le
  have n1 : (1 : ℝ) ≤ (L.length : ℝ) := by exact_mod_cast hn
  have np : (0 : ℝ) < (L.length : ℝ) := by linarith
  -- weights
  have We : Weights L (fun i => f i / L.length) (fun i => round (f i * round (1 / (L.length : ℝ)))) := by
    refine ⟨fun i hi => div_nonneg (by linarith [(hf i hi).1]) np.le, fun i hi => (div_le_one np).2 (by linarith [(hf i hi).2]),
      fun i hi => (weight_early hn hn' (by linarith [(hf i hi).1])).trans ?_, ?_, hn'⟩
    · have : 0 ≤ ε * (f i / L.length) := mul_nonneg e0.le (div_nonneg (by linarith [(hf i hi).1]) np.le)
      linarith
    · refine (sum_map_mono (g := fun _ => 1 / (L.length : ℝ)) fun i hi => ?_).trans ?_
      · exact div_le_div_of_nonneg_right (by linarith [(hf i hi).2]) np.le
      · rw [List.map_const', List.sum_replicate, nsmul_eq_mul, mul_one_div_cancel np.ne']
  have Wl : Weights L (fun i => (1 - f i) / L.length) (fun i => round (round (1 - f i) * round (1 / (L.length : ℝ)))) := by
    refine ⟨fun i hi => div_nonneg (by linarith [(hf i hi).2]) np.le, fun i hi => (div_le_one np).2 (by linarith [(hf i hi).1]),
      fun i hi => weight_late hn hn' (hf i hi).2, ?_, hn'⟩
    · refine (sum_map_mono (g := fun _ => 1 / (L.length : ℝ)) fun i hi => ?_).trans ?_
      · exact div_le_div_of_nonneg_right (by linarith [(hf i hi).1]) np.le
      · rw [List.map_const', List.sum_replicate, nsmul_eq_mul, mul_one_div_cancel np.ne']
  have Wtot : (L.map fun i => f i / (L.length : ℝ)).sum + (L.map fun i => (1 - f i) / (L.length : ℝ)).sum = 1 := by
    rw [← List.sum_map_add]
    have : (fun i => f i / (L.length : ℝ) + (1 - f i) / (L.length : ℝ)) = fun _ => 1 / (L.length : ℝ) := by
      funext i; rw [← add_div]; congr 1; ring
    rw [this, List.map_const', List.sum_replicate, nsmul_eq_mul, mul_one_div_cancel np.ne']
  have we0 : 0 ≤ (L.map fun i => f i / (L.length : ℝ)).sum :=
    List.sum_nonneg (by simp only [List.mem_map]; rintro _ ⟨i, hi, rfl⟩; exact We.pos i hi)
  have wl0 : 0 ≤ (L.map fun i => (1 - f i) / (L.length : ℝ)).sum :=
    List.sum_nonneg (by simp only [List.mem_map]; rintro _ ⟨i, hi, rfl⟩; exact Wl.pos i hi)
  -- the mean
  obtain ⟨me, a1, a2, a3⟩ := side_mean hsum We (x := xe) fun i hi => (he i hi).2.1
  obtain ⟨ml, b1, b2, b3⟩ := side_mean hsum Wl (x := xl) fun i hi => (hl i hi).2.1
  have Xm : ∀ (w x : ι → ℝ), (∀ i ∈ L, 0 ≤ w i) → (∀ i ∈ L, |x i| ≤ 32) →
      |(L.map fun i => w i * x i).sum| ≤ 32 * (L.map w).sum := by
    intro w x hw hx
    have := sum_abs_le L (fun i => w i * x i) (fun _ => 0) (fun i => 32 * w i) fun i hi => by
      rw [sub_zero, abs_mul, abs_of_nonneg (hw i hi), mul_comm]
      exact mul_le_mul_of_nonneg_right (hx i hi) (hw i hi)
    simpa [List.sum_map_mul_left] using this
  have Xe32 := Xm _ xe We.pos fun i hi => (he i hi).2.1
  have Xl32 := Xm _ xl Wl.pos fun i hi => (hl i hi).2.1
  have Xd : ∀ (w x X : ι → ℝ), (∀ i ∈ L, 0 ≤ w i) → (∀ i ∈ L, |x i - X i| ≤ 2 ^ (-15 : ℤ)) →
      |(L.map fun i => w i * x i).sum - (L.map fun i => w i * X i).sum| ≤ 2 ^ (-15 : ℤ) * (L.map w).sum := by
    intro w x X hw hx
    have := sum_abs_le L (fun i => w i * x i) (fun i => w i * X i) (fun i => 2 ^ (-15 : ℤ) * w i) fun i hi => by
      rw [← mul_sub, abs_mul, abs_of_nonneg (hw i hi), mul_comm]
      exact mul_le_mul_of_nonneg_right (hx i hi) (hw i hi)
    simpa [List.sum_map_mul_left] using this
  have De := Xd _ xe Xe We.pos fun i hi => (he i hi).2.2
  have Dl := Xd _ xl Xl Wl.pos fun i hi => (hl i hi).2.2
  have hM : Spec.wmean (Spec.mixture (L.map Xe) (L.map Xl) (L.map f)) =
      (L.map fun i => f i / (L.length : ℝ) * Xe i).sum + (L.map fun i => (1 - f i) / (L.length : ℝ) * Xl i).sum := by
    unfold Spec.wmean Spec.mixture
    rw [zip_maps, zip_maps, List.map_append, List.sum_append, List.map_map, List.map_map, List.length_map]
    rfl
  set M := Spec.wmean (Spec.mixture (L.map Xe) (L.map Xl) (L.map f)) with hMdef
  have hV : Spec.wvar (Spec.mixture (L.map Xe) (L.map Xl) (L.map f)) =
      (L.map fun i => f i / (L.length : ℝ) * (Xe i - M) ^ 2).sum +
        (L.map fun i => (1 - f i) / (L.length : ℝ) * (Xl i - M) ^ 2).sum := by
    unfold Spec.wvar
    rw [← hMdef]
    unfold Spec.mixture
    rw [zip_maps, zip_maps, List.map_append, List.sum_append, List.map_map, List.map_map, List.length_map]
    rfl
  have hsumm : |me + ml| ≤ 3201 / 100 := by
    have t1 := abs_le.1 a3
    have t2 := abs_le.1 b3
    have t3 := abs_le.1 Xe32
    have t4 := abs_le.1 Xl32
    have p1 : 6850 * ε * (L.map fun i => f i / (L.length : ℝ)).sum ≤ 6850 * (6 / 100000000) *
        (L.map fun i => f i / (L.length : ℝ)).sum := mul_le_mul_of_nonneg_right (by linarith) we0
    have p2 : 6850 * ε * (L.map fun i => (1 - f i) / (L.length : ℝ)).sum ≤ 6850 * (6 / 100000000) *
        (L.map fun i => (1 - f i) / (L.length : ℝ)).sum := mul_le_mul_of_nonneg_right (by linarith) wl0
    rw [abs_le]
    constructor <;> linarith
  have hadd : num me + num ml = num (round (me + ml)) := add_fin (hsumm.trans (by norm_num))
  have hr := round_add_rel a2 b2
  have hr2 : ε * |me + ml| ≤ ε * (3201 / 100) := mul_le_mul_of_nonneg_left hsumm e0.le
  have hmM : |round (me + ml) - M| ≤ 46 / 100000 := by
    have t0 := abs_le.1 hr
    have t1 := abs_le.1 a3
    have t2 := abs_le.1 b3
    have t3 := abs_le.1 De
    have t4 := abs_le.1 Dl
    have e15 : (2 : ℝ) ^ (-15 : ℤ) ≤ 31 / 1000000 := by norm_num
    have p1 : 6850 * ε * (L.map fun i => f i / (L.length : ℝ)).sum ≤ 6850 * (6 / 100000000) *
        (L.map fun i => f i / (L.length : ℝ)).sum := mul_le_mul_of_nonneg_right (by linarith) we0
    have p2 : 6850 * ε * (L.map fun i => (1 - f i) / (L.length : ℝ)).sum ≤ 6850 * (6 / 100000000) *
        (L.map fun i => (1 - f i) / (L.length : ℝ)).sum := mul_le_mul_of_nonneg_right (by linarith) wl0
    have q1 := mul_le_mul_of_nonneg_right e15 we0
    have q2 := mul_le_mul_of_nonneg_right e15 wl0
    rw [hM, abs_le]
    generalize (2 : ℝ) ^ (-15 : ℤ) = c at *
    constructor <;> linarith
  have hm33 : |round (me + ml)| ≤ 33 := by
    have : |round (me + ml)| ≤ |round (me + ml) - (me + ml)| + |me + ml| := by
      have := abs_add_le (round (me + ml) - (me + ml)) (me + ml); simpa using this
    linarith
  have hmr : Rep (round (me + ml)) := rep_round _
  -- the variance
  obtain ⟨ve, c1, c2, c3, c4⟩ := side_var hsum We (x := xe) (m := round (me + ml)) (fun i hi => (he i hi).2.1)
    (fun i hi => (he i hi).1) hm33 hmr
  obtain ⟨vl, d1, d2, d3, d4⟩ := side_var hsum Wl (x := xl) (m := round (me + ml)) (fun i hi => (hl i hi).2.1)
    (fun i hi => (hl i hi).1) hm33 hmr
  have lit1 : (lit 1.0 : F32) = num 1 := by rw [show (1.0 : ℝ) = 1 by norm_num]; rw [lit_fin (by norm_num), round_rep rep_one]; rfl
  have litn : (lit (1 / (L.length : ℝ)) : F32) = num (round (1 / (L.length : ℝ))) :=
    lit_fin (by
      rw [abs_of_pos (by positivity)]
      have : (1 : ℝ) / L.length ≤ 1 := (div_le_one np).2 n1
      exact this.trans (by norm_num))
  have rb : 0 ≤ round (1 / (L.length : ℝ)) ∧ round (1 / (L.length : ℝ)) ≤ 1 := by
    refine ⟨round_nonneg (by positivity), round_le ((div_le_one np).2 n1) rep_one⟩
  have wE : (L.map fun i => num (f i)).map (fun g => g * num (round (1 / (L.length : ℝ)))) =
      L.map fun i => num (round (f i * round (1 / (L.length : ℝ)))) := by
    rw [List.map_map]
    apply List.map_congr_left
    intro i hi
    have := hf i hi
    refine mul_fin ?_
    rw [abs_of_nonneg (mul_nonneg (by linarith) rb.1)]
    have := mul_le_mul (show f i ≤ 1 by linarith) rb.2 rb.1 (by norm_num)
    exact this.trans (by norm_num)
  have wL : ((L.map fun i => num (f i)).map fun g => num 1 - g).map (fun g => g * num (round (1 / (L.length : ℝ)))) =
      L.map fun i => num (round (round (1 - f i) * round (1 / (L.length : ℝ)))) := by
    rw [List.map_map, List.map_map]
    apply List.map_congr_left
    intro i hi
    have := hf i hi
    have g0 : 0 ≤ round (1 - f i) := round_nonneg (by linarith)
    have g1 : round (1 - f i) ≤ 1 := round_le (by linarith) rep_one
    simp only [Function.comp]
    rw [show num 1 - num (f i) = num (round (1 - f i)) from sub_fin (by
      rw [abs_of_nonneg (by linarith)]; exact (show 1 - f i ≤ 1 by linarith).trans (by norm_num))]
    refine mul_fin ?_
    rw [abs_of_nonneg (mul_nonneg g0 rb.1)]
    have := mul_le_mul g1 rb.2 rb.1 (by norm_num)
    exact this.trans (by norm_num)
  -- the two variances together
  have dv := round_add_rel c2 d2
  rw [abs_of_nonneg (add_nonneg c3 d3)] at dv
  set Q := (L.map fun i => f i / (L.length : ℝ) * (xe i - round (me + ml)) ^ 2).sum +
    (L.map fun i => (1 - f i) / (L.length : ℝ) * (xl i - round (me + ml)) ^ 2).sum with hQ
  have Qs : ∀ (w x : ι → ℝ), (∀ i ∈ L, 0 ≤ w i) → (∀ i ∈ L, |x i| ≤ 32) →
      0 ≤ (L.map fun i => w i * (x i - round (me + ml)) ^ 2).sum ∧
      (L.map fun i => w i * (x i - round (me + ml)) ^ 2).sum ≤ 4225 * (L.map w).sum := by
    intro w x hw hx
    constructor
    · exact List.sum_nonneg (by
        simp only [List.mem_map]; rintro _ ⟨i, hi, rfl⟩; exact mul_nonneg (hw i hi) (sq_nonneg _))
    · rw [← List.sum_map_mul_left]
      apply sum_map_mono
      intro i hi
      have h1 : |x i - round (me + ml)| ≤ 65 := (abs_sub _ _).trans (by linarith [hx i hi])
      have h2 : (x i - round (me + ml)) ^ 2 ≤ 4225 := by have := abs_le.1 h1; nlinarith
      rw [mul_comm]
      exact mul_le_mul_of_nonneg_right h2 (hw i hi)
  obtain ⟨qe0, qe1⟩ := Qs _ xe We.pos fun i hi => (he i hi).2.1
  obtain ⟨ql0, ql1⟩ := Qs _ xl Wl.pos fun i hi => (hl i hi).2.1
  have Q0 : 0 ≤ Q := add_nonneg qe0 ql0
  have Q1 : Q ≤ 4225 := by rw [hQ]; linarith
  have hvQ : |round (ve + vl) - Q| ≤ 214 * ε * Q + ε * (131 / 100000) := by
    have t1 := abs_le.1 c4
    have t2 := abs_le.1 d4
    have k1 : |ve + vl - Q| ≤ 212 * ε * Q + ε * (130 / 100000) := by
      rw [hQ, abs_le]; constructor <;> linarith
    have k2 := (abs_le.1 k1).2
    have k3 := mul_le_mul_of_nonneg_left (show ve + vl ≤ Q + (212 * ε * Q + ε * (130 / 100000)) by linarith) e0.le
    have k4 : ε * (212 * ε * Q + ε * (130 / 100000)) ≤ 6 / 100000000 * (212 * ε * Q + ε * (130 / 100000)) :=
      mul_le_mul_of_nonneg_right e1 (by positivity)
    have k5 := mul_nonneg e0.le Q0
    refine (abs_sub_le _ (ve + vl) _).trans ?_
    linarith
  have V0 : 0 ≤ round (ve + vl) := round_nonneg (add_nonneg c3 d3)
  have vfin : num ve + num vl = num (round (ve + vl)) := add_fin (by
    rw [abs_of_nonneg (add_nonneg c3 d3)]
    have t1 := (abs_le.1 c4).2
    have t2 := (abs_le.1 d4).2
    have k : 212 * ε * Q ≤ 1 * Q := mul_le_mul_of_nonneg_right (by linarith) Q0
    have : ve + vl ≤ 10000 := by rw [hQ] at k; linarith
    exact this.trans (by norm_num))
  set V := round (ve + vl) with hVd
  have hQa : 214 * ε * Q ≤ 13 / 1000000 * Q := mul_le_mul_of_nonneg_right (by linarith) Q0
  have hvQ' := abs_le.1 hvQ
  -- roots
  have sQ := Real.sqrt_nonneg Q
  have sV := Real.sqrt_nonneg V
  have sQ2 := Real.sq_sqrt Q0
  have sV2 := Real.sq_sqrt V0
  have sQ65 : √Q ≤ 65 := Real.sqrt_le_iff.2 ⟨by norm_num, by linarith⟩
  obtain ⟨r1, r2⟩ := roots_near Q0 V0 (by linarith) (by linarith)
  have sV67 : √V ≤ 6501 / 100 := by linarith
  have sfin : JFlow.sqrt (num V) = num (round (√V)) := sqrt_fin V0 (sV67.trans (by norm_num))
  have sr := round_ε (√V)
  rw [abs_of_nonneg sV] at sr
  have sr2 : ε * √V ≤ 6 / 100000000 * (6501 / 100) := mul_le_mul e1 sV67 sV (by norm_num)
  have sr' := abs_le.1 sr
  -- Minkowski
  let J : List (ι ⊕ ι) := L.map Sum.inl ++ L.map Sum.inr
  let w : ι ⊕ ι → ℝ := Sum.elim (fun i => f i / L.length) (fun i => (1 - f i) / L.length)
  let A : ι ⊕ ι → ℝ := Sum.elim (fun i => xe i - round (me + ml)) (fun i => xl i - round (me + ml))
  let B : ι ⊕ ι → ℝ := Sum.elim (fun i => Xe i - M) (fun i => Xl i - M)
  have hJ : ∀ j ∈ J, 0 ≤ w j ∧ |A j - B j| ≤ 5 / 10000 := by
    intro j hj
    have e15 : (2 : ℝ) ^ (-15 : ℤ) ≤ 31 / 1000000 := by norm_num
    have fin : ∀ a b : ℝ, |a - b| ≤ 2 ^ (-15 : ℤ) → |(a - round (me + ml)) - (b - M)| ≤ 5 / 10000 := fun a b h => by
      have : (a - round (me + ml)) - (b - M) = (a - b) - (round (me + ml) - M) := by ring
      rw [this]
      refine (abs_sub _ _).trans ((add_le_add (h.trans e15) hmM).trans (by norm_num))
    rcases List.mem_append.1 hj with hj | hj
    · obtain ⟨i, hi, rfl⟩ := List.mem_map.1 hj
      exact ⟨We.pos i hi, fin _ _ (he i hi).2.2⟩
    · obtain ⟨i, hi, rfl⟩ := List.mem_map.1 hj
      exact ⟨Wl.pos i hi, fin _ _ (hl i hi).2.2⟩
  have Jw : (J.map w).sum ≤ 1 := by
    change ((L.map Sum.inl ++ L.map Sum.inr).map w).sum ≤ 1
    rw [List.map_append, List.sum_append, List.map_map, List.map_map]
    exact Wtot.le
  have JA : (J.map fun j => w j * A j ^ 2).sum = Q := by
    change ((L.map Sum.inl ++ L.map Sum.inr).map fun j => w j * A j ^ 2).sum = Q
    rw [List.map_append, List.sum_append, List.map_map, List.map_map]; rfl
  have JB : (J.map fun j => w j * B j ^ 2).sum = Spec.wvar (Spec.mixture (L.map Xe) (L.map Xl) (L.map f)) := by
    change ((L.map Sum.inl ++ L.map Sum.inr).map fun j => w j * B j ^ 2).sum = _
    rw [List.map_append, List.sum_append, List.map_map, List.map_map, hV]; rfl
  have mk1 := rms_le J w A B (fun j hj => (hJ j hj).1) Jw (fun j hj => (hJ j hj).2) (by norm_num)
  have mk2 := rms_le J w B A (fun j hj => (hJ j hj).1) Jw (fun j hj => by rw [abs_sub_comm]; exact (hJ j hj).2) (by norm_num)
  rw [JA, JB] at mk1 mk2
  refine ⟨round (me + ml), round (√V), ?_, hmM.trans (by norm_num), hm33, round_nonneg sV, by linarith, ?_⟩
  · unfold moments_with
    simp only [List.length_map, lit1, litn, wE, wL, zip_maps, a1, b1, hadd, c1, d1, vfin, sfin]
  · have : (46 : ℝ) / 100000 ≤ 2 ^ (-9 : ℤ) := by norm_num
    have e9 : (15 : ℝ) / 10000 ≤ 2 ^ (-9 : ℤ) := by norm_num
    refine le_trans ?_ e9
    rw [abs_le]
    constructor <;> linarith

end Diffmah.F32

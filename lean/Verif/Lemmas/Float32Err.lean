import Verif.Lemmas.Float32
import Verif.Lemmas.Kernels
import Mathlib.Analysis.Calculus.MeanValue

/-!
# Forward error analysis of the mass history in single precision

Errors are counted in units of `eps = 2^-22`.
-/

namespace Diffmah.F32

open JOps XR

/-- A finite single-precision number. -/
def num (x : ℝ) : F32 := ⟨fin x⟩

noncomputable def eps : ℝ := 2 ^ (-22 : ℤ)

theorem eps_pos : 0 < eps := two_zpow_pos _
theorem eps_small : eps < 1 / 1000000 := by unfold eps; norm_num

theorem sigmoid_lipschitz (x y : ℝ) : |Real.sigmoid x - Real.sigmoid y| ≤ 1 / 4 * |x - y| := by
  have h := Convex.norm_image_sub_le_of_norm_deriv_le (𝕜 := ℝ) (f := Real.sigmoid) (C := 1 / 4)
    (s := Set.univ) (x := y) (y := x) (fun z _ => (Real.hasDerivAt_sigmoid z).differentiableAt)
    (fun z _ => by
      rw [(Real.hasDerivAt_sigmoid z).deriv]
      have h0 := Real.sigmoid_pos z
      have h1 := Real.sigmoid_lt_one z
      rw [Real.norm_eq_abs, abs_of_nonneg (mul_nonneg h0.le (by linarith))]
      nlinarith [sq_nonneg (Real.sigmoid z - 1 / 2)])
    convex_univ (Set.mem_univ _) (Set.mem_univ _)
  simpa only [Real.norm_eq_abs] using h

/-- One rounded result: `z` close to `w`, both below `2^k`. -/
theorem round_near {z w E d : ℝ} (k : ℤ) (hk : -125 ≤ k) (hz : |z| < 2 ^ k)
    (hd : (2 : ℝ) ^ (k - 25) = d) (h : |z - w| ≤ E) : |round z - w| ≤ E + d := by
  have h1 := round_err hk hz
  rw [hd] at h1
  have : round z - w = (round z - z) + (z - w) := by ring
  rw [this]
  exact (abs_add_le _ _).trans (by linarith)

theorem abs_of_near {a b E B : ℝ} (h : |a - b| ≤ E) (hb : |b| ≤ B) : |a| ≤ B + E := by
  have : a = (a - b) + b := by ring
  rw [this]; exact (abs_add_le _ _).trans (by linarith)

theorem mul_near {a b a' b' E F A B : ℝ} (h1 : |a - a'| ≤ E) (h2 : |b - b'| ≤ F) (hb : |b| ≤ B)
    (ha : |a'| ≤ A) : |a * b - a' * b'| ≤ E * B + A * F := by
  have : a * b - a' * b' = (a - a') * b + a' * (b - b') := by ring
  rw [this]
  refine (abs_add_le _ _).trans ?_
  rw [abs_mul, abs_mul]
  have hE := (abs_nonneg _).trans h1
  have hA := (abs_nonneg _).trans ha
  exact add_le_add (mul_le_mul h1 hb (abs_nonneg _) hE) (mul_le_mul ha h2 (abs_nonneg _) hA)

theorem add_near {a b a' b' E F : ℝ} (h1 : |a - a'| ≤ E) (h2 : |b - b'| ≤ F) :
    |a + b - (a' + b')| ≤ E + F := by
  have : a + b - (a' + b') = (a - a') + (b - b') := by ring
  rw [this]; exact (abs_add_le _ _).trans (add_le_add h1 h2)

theorem sub_near {a b a' b' E F : ℝ} (h1 : |a - a'| ≤ E) (h2 : |b - b'| ≤ F) :
    |a - b - (a' - b')| ≤ E + F := by
  have : a - b - (a' - b') = (a - a') - (b - b') := by ring
  rw [this]; exact (abs_sub _ _).trans (add_le_add h1 h2)

theorem self_near (a : ℝ) : |a - a| ≤ 0 := by simp

theorem le127 {x : ℝ} {n : ℕ} (h : |x| ≤ n) (hn : n ≤ 1000) : |x| ≤ 2 ^ (127 : ℕ) := by
  have : (n : ℝ) ≤ 1000 := by exact_mod_cast hn
  exact h.trans (this.trans (by norm_num))

theorem d2 : (2 : ℝ) ^ ((2 : ℤ) - 25) = eps / 2 := by unfold eps; norm_num
theorem d4 : (2 : ℝ) ^ ((4 : ℤ) - 25) = 2 * eps := by unfold eps; norm_num
theorem d5 : (2 : ℝ) ^ ((5 : ℤ) - 25) = 4 * eps := by unfold eps; norm_num
theorem d6 : (2 : ℝ) ^ ((6 : ℤ) - 25) = 8 * eps := by unfold eps; norm_num

/-- The rolling index and its parts, in single precision. -/
theorem index_parts [Libm] (ha : Libm.Accurate) {l L c early late : ℝ} (hl : |l - L| ≤ eps)
    (hL : |L| ≤ 4 / 3) (hc : |c| ≤ 1) (he0 : 0 ≤ early) (he1 : early ≤ 10) (hl0 : 0 ≤ late)
    (hl1 : late ≤ 10) :
    ∃ s h i, sigm (lit MAH_K * (num l - num c)) = num s ∧ num late - num early = num h ∧
      num early + num h * num s = num i ∧
      |s - Real.sigmoid (3.5 * (L - c))| ≤ 3 * eps ∧ |h - (late - early)| ≤ 2 * eps ∧
      |i - (early + (late - early) * Real.sigmoid (3.5 * (L - c)))| ≤ 36.2 * eps ∧
      |early + (late - early) * Real.sigmoid (3.5 * (L - c))| ≤ 10 := by
  have e0 := eps_pos
  have e1 := eps_small
  -- x - x0
  have a1 : |l - c - (L - c)| ≤ eps := by simpa using hl
  have hLc : |L - c| ≤ 7 / 3 := (abs_sub _ _).trans (by linarith)
  have a2 : |l - c| ≤ 7 / 3 + eps := abs_of_near a1 hLc
  have a3 := round_near (z := l - c) 2 (by norm_num) (by norm_num; linarith) d2 a1
  have a4 : |round (l - c)| ≤ 7 / 3 + (eps + eps / 2) := abs_of_near a3 hLc
  -- k * (x - x0)
  have r35 : round MAH_K = 3.5 := by
    have : Rep (3.5 : ℝ) := ⟨7, -1, by norm_num, by norm_num, by norm_num⟩
    exact round_rep this
  have b1 : |3.5 * round (l - c) - 3.5 * (L - c)| ≤ 3.5 * (eps + eps / 2) := by
    rw [← mul_sub, abs_mul, abs_of_pos (by norm_num)]
    exact mul_le_mul_of_nonneg_left a3 (by norm_num)
  have hb : |3.5 * (L - c)| ≤ 3.5 * (7 / 3) := by
    rw [abs_mul, abs_of_pos (by norm_num)]
    exact mul_le_mul_of_nonneg_left hLc (by norm_num)
  have b2 := abs_of_near b1 hb
  have b3 := round_near (z := 3.5 * round (l - c)) 4 (by norm_num)
    (by norm_num at b2 ⊢; linarith) d4 b1
  -- the logistic function
  obtain ⟨s, hs, hs'⟩ := ha.sg_acc (round (3.5 * round (l - c)))
  have c1 : |s - Real.sigmoid (3.5 * (L - c))| ≤ 3 * eps := by
    have := sigmoid_lipschitz (round (3.5 * round (l - c))) (3.5 * (L - c))
    have e : s - Real.sigmoid (3.5 * (L - c)) = (s - Real.sigmoid (round (3.5 * round (l - c))))
      + (Real.sigmoid (round (3.5 * round (l - c))) - Real.sigmoid (3.5 * (L - c))) := by ring
    rw [e]
    refine (abs_add_le _ _).trans ?_
    have hs'' : |s - Real.sigmoid (round (3.5 * round (l - c)))| ≤ eps := hs'
    linarith
  have hσ : |Real.sigmoid (3.5 * (L - c))| ≤ 1 := by
    rw [abs_of_pos (Real.sigmoid_pos _)]; exact (Real.sigmoid_lt_one _).le
  have c2 := abs_of_near c1 hσ
  -- the height
  have hh : |late - early| ≤ 10 := by rw [abs_le]; constructor <;> linarith
  have f1 := round_near (z := late - early) 4 (by norm_num) (by norm_num; linarith) d4
    (self_near (late - early))
  have f2 := abs_of_near f1 hh
  -- height * logistic
  have g1 := mul_near f1 c1 c2 hh
  have hhσ : |(late - early) * Real.sigmoid (3.5 * (L - c))| ≤ 10 := by
    rw [abs_mul]
    calc _ ≤ (10 : ℝ) * 1 := mul_le_mul hh hσ (abs_nonneg _) (by norm_num)
      _ = 10 := by norm_num
  have gE : (0 + 2 * eps) * (1 + 3 * eps) + 10 * (3 * eps) ≤ 32.1 * eps := by nlinarith
  have g1' := g1.trans gE
  have g2 := abs_of_near g1' hhσ
  have g3 := round_near (z := round (late - early) * s) 4 (by norm_num)
    (by norm_num at g2 ⊢; linarith) d4 g1'
  -- sum
  have hi : |early + (late - early) * Real.sigmoid (3.5 * (L - c))| ≤ 10 := by
    have h0 := Real.sigmoid_pos (3.5 * (L - c))
    have h1 := Real.sigmoid_lt_one (3.5 * (L - c))
    rw [abs_le]
    constructor <;> nlinarith
  have k1 := add_near (self_near early) g3
  have k1' : |early + round (round (late - early) * s)
      - (early + (late - early) * Real.sigmoid (3.5 * (L - c)))| ≤ 34.1 * eps :=
    k1.trans (by linarith)
  have k2 := abs_of_near k1' hi
  have k3 := round_near (z := early + round (round (late - early) * s)) 4 (by norm_num)
    (by norm_num at k2 ⊢; linarith) d4 k1'
  have f1' : |round (late - early) - (late - early)| ≤ 2 * eps := by simpa using f1
  refine ⟨s, round (late - early), round (early + round (round (late - early) * s)), ?_, ?_, ?_, c1, f1',
    ?_, hi⟩
  · have q1 : num l - num c = num (round (l - c)) :=
      sub_fin (le127 (n := 100) (by push_cast; linarith) (by norm_num))
    have q2 : (lit MAH_K : F32) = num 3.5 := by
      rw [lit_fin (by rw [MAH_K, abs_of_pos (by norm_num)]; norm_num), r35]; rfl
    have q3 : num 3.5 * num (round (l - c)) = num (round (3.5 * round (l - c))) :=
      mul_fin (le127 (n := 100) (by push_cast; norm_num at b2 ⊢; linarith) (by norm_num))
    rw [q1, q2, q3]
    exact congrArg F32.mk hs
  · exact sub_fin (le127 (n := 100) (by push_cast; linarith) (by norm_num))
  · have q6 : num (round (late - early)) * num s = num (round (round (late - early) * s)) :=
      mul_fin (le127 (n := 100) (by push_cast; linarith) (by norm_num))
    have q7 : num early + num (round (round (late - early) * s)) = num _ :=
      add_fin (le127 (n := 100) (by push_cast; linarith) (by norm_num))
    rw [q6, q7]
  · refine k3.trans ?_
    linarith

/-- The rolling index, in single precision. -/
theorem index_near [Libm] (ha : Libm.Accurate) {l L c early late : ℝ} (hl : |l - L| ≤ eps)
    (hL : |L| ≤ 4 / 3) (hc : |c| ≤ 1) (he0 : 0 ≤ early) (he1 : early ≤ 10) (hl0 : 0 ≤ late)
    (hl1 : late ≤ 10) :
    ∃ i, power_law_index_vs_logt (num l) (num c) (num early) (num late) = num i ∧
      |i - power_law_index_vs_logt L c early late| ≤ 36.2 * eps ∧
      |power_law_index_vs_logt L c early late| ≤ 10 := by
  obtain ⟨s, h, i, h1, h2, h3, -, -, h6, h7⟩ := index_parts ha hl hL hc he0 he1 hl0 hl1
  refine ⟨i, ?_, h6, h7⟩
  unfold power_law_index_vs_logt sigmoid
  simp only
  rw [h1, h2, h3]

theorem abs_logb_le {t : ℝ} (h1 : 0.05 ≤ t) (h2 : t ≤ 20) : |Real.logb 10 t| ≤ 4 / 3 := by
  have ht : 0 < t := by linarith
  have h20 : (20 : ℝ) ≤ 10 ^ (4 / 3 : ℝ) := by
    have e : ((10 : ℝ) ^ (4 / 3 : ℝ)) ^ (3 : ℕ) = 10000 := by
      rw [← Real.rpow_natCast, ← Real.rpow_mul (by norm_num)]; norm_num
    by_contra hc
    push Not at hc
    have : ((10 : ℝ) ^ (4 / 3 : ℝ)) ^ (3 : ℕ) < 20 ^ (3 : ℕ) :=
      pow_lt_pow_left₀ hc (by positivity) (by norm_num)
    rw [e] at this; norm_num at this
  rw [abs_le]
  constructor
  · rw [Real.le_logb_iff_rpow_le (by norm_num) ht, Real.rpow_neg (by norm_num)]
    calc ((10 : ℝ) ^ (4 / 3 : ℝ))⁻¹ ≤ 20⁻¹ := inv_anti₀ (by norm_num) h20
      _ ≤ t := by norm_num at h1 ⊢; linarith
  · rw [Real.logb_le_iff_le_rpow (by norm_num) ht]
    exact h2.trans h20

/-- Index times log time plus log mass, in single precision. -/
theorem plaw_parts {l L i I lgt0 logm0 : ℝ} (hm0 : 0 ≤ logm0) (hm1 : logm0 ≤ 17) (hL : |L| ≤ 4 / 3)
    (hleps : |l - L| ≤ eps) (hi1 : |i - I| ≤ 36.2 * eps) (hi2 : |I| ≤ 10) (hg0 : 0 ≤ lgt0)
    (hg1 : lgt0 ≤ 4 / 3) :
    ∃ d y, num l - num lgt0 = num d ∧ num i * num d + num logm0 = num y ∧
      |d - (L - lgt0)| ≤ 1.5 * eps ∧ |y - (I * (L - lgt0) + logm0)| ≤ 2 ^ (-15 : ℤ) := by
  have e0 := eps_pos
  have e1 := eps_small
  have hD : |L - lgt0| ≤ 8 / 3 := by
    rw [abs_le] at hL ⊢; constructor <;> linarith
  have a1 : |l - lgt0 - (L - lgt0)| ≤ eps := by simpa using hleps
  have a2 := abs_of_near a1 hD
  have a3 := round_near (z := l - lgt0) 2 (by norm_num) (by norm_num; linarith) d2 a1
  have a4 := abs_of_near a3 hD
  have b1 := mul_near hi1 a3 a4 hi2
  have bE : 36.2 * eps * (8 / 3 + (eps + eps / 2)) + 10 * (eps + eps / 2) ≤ 112 * eps := by nlinarith
  have b1' := b1.trans bE
  have hID : |I * (L - lgt0)| ≤ 80 / 3 := by
    rw [abs_mul]
    calc _ ≤ (10 : ℝ) * (8 / 3) := mul_le_mul hi2 hD (abs_nonneg _) (by norm_num)
      _ = 80 / 3 := by norm_num
  have b2 := abs_of_near b1' hID
  have b3 := round_near (z := i * round (l - lgt0)) 5 (by norm_num)
    (lt_of_le_of_lt b2 (by norm_num; linarith)) d5 b1'
  have c1 := add_near b3 (self_near logm0)
  have hM : |I * (L - lgt0) + logm0| ≤ 44 := by
    refine (abs_add_le _ _).trans ?_
    rw [abs_of_nonneg hm0]; linarith
  have c2 := abs_of_near c1 hM
  have c3 := round_near (z := round (i * round (l - lgt0)) + logm0) 6 (by norm_num)
    (by norm_num; linarith) d6 c1
  refine ⟨round (l - lgt0), round (round (i * round (l - lgt0)) + logm0), ?_, ?_, a3.trans (by linarith), ?_⟩
  · exact sub_fin (le127 (n := 100) (by push_cast; linarith) (by norm_num))
  · have q2 : num i * num (round (l - lgt0)) = num (round (i * round (l - lgt0))) :=
      mul_fin (le127 (n := 100) (by push_cast; linarith) (by norm_num))
    have q3 : num (round (i * round (l - lgt0))) + num logm0 = num _ :=
      add_fin (le127 (n := 100) (by push_cast; linarith) (by norm_num))
    rw [q2, q3]
  · have e15 : (2 : ℝ) ^ (-15 : ℤ) = 128 * eps := by unfold eps; norm_num
    rw [e15]
    exact c3.trans (by linarith)

/-- The unquenched mass history, in single precision. -/
theorem noq_near [Libm] (ha : Libm.Accurate) (p : MahParams ℝ) {t lgt0 : ℝ} (hm0 : 0 ≤ p.logm0)
    (hm1 : p.logm0 ≤ 17) (hc : |p.logtc| ≤ 1) (he0 : 0 ≤ p.early_index) (he1 : p.early_index ≤ 10)
    (hl0 : 0 ≤ p.late_index) (hl1 : p.late_index ≤ 10) (ht0 : 0.05 ≤ t) (ht1 : t ≤ 20)
    (hg0 : 0 ≤ lgt0) (hg1 : lgt0 ≤ 4 / 3) :
    ∃ y, log_mah_noq_kern (p.map num) (num t) (num lgt0) = num y ∧
      |y - log_mah_noq_kern p t lgt0| ≤ 2 ^ (-15 : ℤ) := by
  obtain ⟨l, hl, hl'⟩ := ha.log10_acc t ht0 ht1
  have hL := abs_logb_le ht0 ht1
  obtain ⟨i, hi, hi1, hi2⟩ := index_near ha (show |l - Real.logb 10 t| ≤ eps from hl') hL hc he0 he1 hl0 hl1
  obtain ⟨d, y, h1, h2, -, h4⟩ := plaw_parts hm0 hm1 hL hl' hi1 hi2 hg0 hg1
  refine ⟨y, ?_, h4⟩
  have q0 : (log10 (num t) : F32) = num l := congrArg F32.mk hl
  unfold log_mah_noq_kern rolling_plaw_vs_t rolling_plaw_vs_logt
  simp only [MahParams.map]
  rw [q0, hi, h1, h2]

/-- The parameter box with its boundary, where roundings can lead. -/
structure ClosedBox (p : MahParams ℝ) : Prop where
  logm0_lo : 0 ≤ p.logm0
  logm0_hi : p.logm0 ≤ 17
  logtc_lo : -1 ≤ p.logtc
  logtc_hi : p.logtc ≤ 1
  late_lo : 0.1 ≤ p.late_index
  late_hi : p.late_index ≤ 5
  early_lo : 0.1 ≤ p.early_index
  early_hi : p.early_index ≤ 10
  tpeak_lo : 0.05 ≤ p.t_peak
  tpeak_hi : p.t_peak ≤ 20

/-- The mass history, in single precision. -/
theorem kern_near [Libm] (ha : Libm.Accurate) {p : MahParams ℝ} (hp : ClosedBox p) {t lgt0 : ℝ} (ht0 : 0.05 ≤ t)
    (ht1 : t ≤ 20) (hg0 : 0 ≤ lgt0) (hg1 : lgt0 ≤ 4 / 3) :
    ∃ y, log_mah_kern (p.map num) (num t) (num lgt0) = num y ∧ |y - log_mah_kern p t lgt0| ≤ 2 ^ (-15 : ℤ) := by
  have hc : |p.logtc| ≤ 1 := abs_le.2 ⟨hp.logtc_lo, hp.logtc_hi⟩
  have key : ∀ s, 0.05 ≤ s → s ≤ 20 → ∃ y, log_mah_noq_kern (p.map num) (num s) (num lgt0) = num y ∧
      |y - log_mah_noq_kern p s lgt0| ≤ 2 ^ (-15 : ℤ) := fun s h1 h2 =>
    noq_near ha p hp.logm0_lo hp.logm0_hi hc (by have := hp.early_lo; linarith) hp.early_hi
      (by have := hp.late_lo; linarith) (by have := hp.late_hi; linarith) h1 h2 hg0 hg1
  unfold log_mah_kern
  simp only
  unfold jwhere
  by_cases h : t < p.t_peak
  · rw [if_pos (c := JOps.lt (num t) (p.map num).t_peak) h, if_pos (c := JOps.lt t p.t_peak) h]
    exact key t ht0 ht1
  · rw [if_neg (c := JOps.lt (num t) (p.map num).t_peak) h, if_neg (c := JOps.lt t p.t_peak) h]
    exact key p.t_peak hp.tpeak_lo hp.tpeak_hi

end Diffmah.F32

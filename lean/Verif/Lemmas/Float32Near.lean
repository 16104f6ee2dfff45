import Verif.Lemmas.Float32Trip
import Verif.Model.Float32Mean

/-!
# Forward error analysis, compositional

`Near x X B e`: the single-precision number `x` is within `e` units of `ε = 2^-24` of the real number `X`, and
`|X| ≤ B`. Every operation adds its own rounding error to those of its arguments.
-/

namespace Diffmah.F32

open JOps XR JMinMax

def Near (x : F32) (X B e : ℝ) : Prop := ∃ y, x = num y ∧ |y - X| ≤ e * ε ∧ |X| ≤ B

theorem ε_le : ε ≤ 6 / 100000000 := by unfold ε; norm_num

theorem Near.mono {x : F32} {X B e B' e' : ℝ} (h : Near x X B e) (hB : B ≤ B') (he : e ≤ e') : Near x X B' e' := by
  obtain ⟨y, h1, h2, h3⟩ := h
  exact ⟨y, h1, h2.trans (mul_le_mul_of_nonneg_right he ε_pos.le), h3.trans hB⟩

theorem Near.bound {x : F32} {X B e B' : ℝ} (h : Near x X B e) (hB : |X| ≤ B') : Near x X B' e := by
  obtain ⟨y, h1, h2, -⟩ := h
  exact ⟨y, h1, h2, hB⟩

theorem Near.nonneg {x : F32} {X B e : ℝ} (h : Near x X B e) : 0 ≤ B ∧ 0 ≤ e := by
  obtain ⟨y, -, h2, h3⟩ := h
  exact ⟨(abs_nonneg _).trans h3, nonneg_of_mul_nonneg_left ((abs_nonneg _).trans h2) ε_pos⟩

theorem near_num {a B : ℝ} (h : |a| ≤ B) : Near (num a) a B 0 := ⟨a, rfl, by simp, h⟩

theorem near_rep [Libm] {a B : ℝ} (hr : Rep a) (h : |a| ≤ B) (hB : B ≤ 1000) : Near (lit a) (lit a : ℝ) B 0 := by
  refine ⟨a, ?_, by simp [lit], h⟩
  rw [lit_fin (h.trans (hB.trans (by norm_num))), round_rep hr]; rfl

theorem near_lit [Libm] {a B : ℝ} (h : |a| ≤ B) (hB : B ≤ 1000) : Near (lit a) (lit a : ℝ) B (B + 1) := by
  refine ⟨round a, ?_, ?_, h⟩
  · rw [lit_fin (h.trans (hB.trans (by norm_num)))]; rfl
  · have := round_ε a
    have e0 := ε_pos
    have := mul_le_mul_of_nonneg_left h e0.le
    have e : (lit a : ℝ) = a := rfl
    rw [e]; linarith

theorem round_near' {z Z B e : ℝ} (h : |z - Z| ≤ e * ε) (hZ : |Z| ≤ B) (he : e ≤ 10000) :
    |round z - Z| ≤ (e + B + 1 / 2) * ε := by
  have e0 := ε_pos
  have e1 := ε_le
  have h1 := round_ε z
  have h2 : |z| ≤ B + 1 / 1000 := by
    have := abs_of_near h hZ
    have : e * ε ≤ 10000 * ε := mul_le_mul_of_nonneg_right he e0.le
    linarith
  have h3 := mul_le_mul_of_nonneg_left h2 e0.le
  have h4 : |round z - Z| ≤ |round z - z| + |z - Z| := abs_sub_le _ _ _
  linarith

theorem fin_le {z Z B e : ℝ} (h : |z - Z| ≤ e * ε) (hZ : |Z| ≤ B) (he : e ≤ 10000) (hB : B ≤ 1000) :
    |z| ≤ 2 ^ (127 : ℕ) := by
  have e0 := ε_pos
  have e1 := ε_le
  have := abs_of_near h hZ
  have : e * ε ≤ 10000 * ε := mul_le_mul_of_nonneg_right he e0.le
  have : (2000 : ℝ) ≤ 2 ^ (127 : ℕ) := by norm_num
  linarith

theorem Near.add {x y : F32} {X Y B C e f : ℝ} (hx : Near x X B e) (hy : Near y Y C f) (hB : B + C ≤ 1000)
    (he : e + f ≤ 10000) : Near (x + y) (X + Y) (B + C) (e + f + B + C + 1) := by
  obtain ⟨a, rfl, h1, h2⟩ := hx
  obtain ⟨b, rfl, h3, h4⟩ := hy
  have h5 : |a + b - (X + Y)| ≤ (e + f) * ε := by rw [add_mul]; exact add_near h1 h3
  have h6 : |X + Y| ≤ B + C := (abs_add_le _ _).trans (add_le_add h2 h4)
  refine ⟨round (a + b), add_fin (fin_le h5 h6 he hB), (round_near' h5 h6 he).trans ?_, h6⟩
  exact mul_le_mul_of_nonneg_right (by linarith) ε_pos.le

theorem Near.sub {x y : F32} {X Y B C e f : ℝ} (hx : Near x X B e) (hy : Near y Y C f) (hB : B + C ≤ 1000)
    (he : e + f ≤ 10000) : Near (x - y) (X - Y) (B + C) (e + f + B + C + 1) := by
  obtain ⟨a, rfl, h1, h2⟩ := hx
  obtain ⟨b, rfl, h3, h4⟩ := hy
  have h5 : |a - b - (X - Y)| ≤ (e + f) * ε := by rw [add_mul]; exact sub_near h1 h3
  have h6 : |X - Y| ≤ B + C := (abs_sub _ _).trans (add_le_add h2 h4)
  refine ⟨round (a - b), sub_fin (fin_le h5 h6 he hB), (round_near' h5 h6 he).trans ?_, h6⟩
  exact mul_le_mul_of_nonneg_right (by linarith) ε_pos.le

theorem Near.mul {x y : F32} {X Y B C e f : ℝ} (hx : Near x X B e) (hy : Near y Y C f) (hB : B * C ≤ 1000)
    (he : e ≤ 1000) (hf : f ≤ 1000) (hef : e * C + f * B ≤ 9000) :
    Near (x * y) (X * Y) (B * C) (e * C + f * B + B * C + 1) := by
  obtain ⟨hB0, he0⟩ := hx.nonneg
  obtain ⟨hC0, hf0⟩ := hy.nonneg
  obtain ⟨a, rfl, h1, h2⟩ := hx
  obtain ⟨b, rfl, h3, h4⟩ := hy
  have e0 := ε_pos
  have e1 := ε_le
  have hb : |b| ≤ C + f * ε := abs_of_near h3 h4
  have hef' : e * f ≤ 1000000 := by
    have := mul_le_mul he hf hf0 (by norm_num); linarith
  have h5 : |a * b - X * Y| ≤ (e * C + f * B + 0.1) * ε := by
    refine (mul_near h1 h3 hb h2).trans ?_
    have : e * f * ε ≤ 1000000 * ε := mul_le_mul_of_nonneg_right hef' e0.le
    have h7 : e * f * ε ≤ 0.1 := by norm_num; linarith
    have h8 := mul_le_mul_of_nonneg_right h7 e0.le
    have : e * ε * (C + f * ε) + B * (f * ε) = (e * C + f * B) * ε + e * f * ε * ε := by ring
    rw [this]; linarith
  have h6 : |X * Y| ≤ B * C := by rw [abs_mul]; exact mul_le_mul h2 h4 (abs_nonneg _) hB0
  refine ⟨round (a * b), mul_fin (fin_le h5 h6 (by norm_num at hef ⊢; linarith) hB),
    (round_near' h5 h6 (by norm_num at hef ⊢; linarith)).trans ?_, h6⟩
  exact mul_le_mul_of_nonneg_right (by norm_num; linarith) ε_pos.le

theorem Near.sigm [Libm] (ha : Libm.Accurate) {x : F32} {X B e : ℝ} (hx : Near x X B e) :
    Near (sigm x) (sigm X : ℝ) 1 (4 + e / 4) := by
  obtain ⟨a, rfl, h1, h2⟩ := hx
  obtain ⟨s, h3, h4⟩ := ha.sg_acc a
  refine ⟨s, ?_, ?_, ?_⟩
  · change (⟨Libm.sg (fin a)⟩ : F32) = _; rw [h3]; rfl
  · have h5 := sigmoid_lipschitz a X
    have h6 : |s - Real.sigmoid X| ≤ |s - Real.sigmoid a| + |Real.sigmoid a - Real.sigmoid X| := abs_sub_le _ _ _
    have h7 : (2 : ℝ) ^ (-22 : ℤ) = 4 * ε := by unfold ε; norm_num
    rw [h7] at h4
    change |s - Real.sigmoid X| ≤ _
    linarith
  · change |Real.sigmoid X| ≤ 1
    rw [abs_of_pos (Real.sigmoid_pos _)]; exact (Real.sigmoid_lt_one _).le

theorem max_near {a b A B E : ℝ} (h1 : |a - A| ≤ E) (h2 : |b - B| ≤ E) : |max a b - max A B| ≤ E :=
  (abs_max_sub_max_le_max _ _ _ _).trans (max_le h1 h2)

theorem min_near {a b A B E : ℝ} (h1 : |a - A| ≤ E) (h2 : |b - B| ≤ E) : |min a b - min A B| ≤ E :=
  (abs_min_sub_min_le_max _ _ _ _).trans (max_le h1 h2)

theorem Near.max {x y : F32} {X Y B e : ℝ} (hx : Near x X B e) (hy : Near y Y B e) :
    Near (jmax x y) (jmax X Y : ℝ) B e := by
  obtain ⟨a, rfl, h1, h2⟩ := hx
  obtain ⟨b, rfl, h3, h4⟩ := hy
  refine ⟨Max.max a b, rfl, max_near h1 h3, ?_⟩
  change |Max.max X Y| ≤ B
  rcases max_choice X Y with h | h <;> rw [h] <;> assumption

theorem Near.min {x y : F32} {X Y B e : ℝ} (hx : Near x X B e) (hy : Near y Y B e) :
    Near (jmin x y) (jmin X Y : ℝ) B e := by
  obtain ⟨a, rfl, h1, h2⟩ := hx
  obtain ⟨b, rfl, h3, h4⟩ := hy
  refine ⟨Min.min a b, rfl, min_near h1 h3, ?_⟩
  change |Min.min X Y| ≤ B
  rcases min_choice X Y with h | h <;> rw [h] <;> assumption

theorem abs_sigmoid_le {X X0 K LO HI B : ℝ} (h1 : |LO| ≤ B) (h2 : |HI| ≤ B) :
    |(Utils.sigmoid X X0 K LO HI : ℝ)| ≤ B := by
  have s0 := Real.sigmoid_pos (K * (X - X0))
  have s1 := Real.sigmoid_lt_one (K * (X - X0))
  change |LO + (HI - LO) * Real.sigmoid (K * (X - X0))| ≤ B
  rw [abs_le] at *
  constructor <;> nlinarith

/-- The error of `_sigmoid`. -/
theorem Near.sigmoid [Libm] (ha : Libm.Accurate) {x x0 k lo hi : F32} {X X0 K LO HI B C e Bl el k' : ℝ}
    (hx : Near x X B e) (hx0 : Near x0 X0 C 0) (hk : Near k K k' 0) (hlo : Near lo LO Bl el) (hhi : Near hi HI Bl el)
    (h1 : B + C ≤ 50) (h2 : e ≤ 50) (h3 : k' ≤ 5) (h4 : Bl ≤ 10) (h5 : el ≤ 200) :
    Near (Utils.sigmoid x x0 k lo hi) (Utils.sigmoid X X0 K LO HI : ℝ) Bl
      (3 * el + 15 * Bl + 3 + (k' * (e + 2 * (B + C) + 1) + 1) / 2 * Bl) := by
  obtain ⟨-, n1⟩ := hx.nonneg
  obtain ⟨n2, -⟩ := hk.nonneg
  obtain ⟨n3, n4⟩ := hlo.nonneg
  obtain ⟨n5, -⟩ := (hx.sub hx0 (by linarith) (by linarith)).nonneg
  have q1 : k' * (B + C) ≤ 5 * 50 := mul_le_mul h3 h1 n5 (by norm_num)
  have q2 : k' * (e + 0 + B + C + 1) ≤ 5 * 101 := mul_le_mul h3 (by linarith) (by linarith) (by norm_num)
  have s1 := hk.mul (hx.sub hx0 (by linarith) (by linarith)) (by linarith) (by norm_num) (by linarith) (by linarith)
  have s2 := s1.sigm ha
  have s3 := hhi.sub hlo (by linarith) (by linarith)
  have q3 : (4 + (0 * (B + C) + (e + 0 + B + C + 1) * k' + k' * (B + C) + 1) / 4) * (Bl + Bl) ≤ 200 * 20 :=
    mul_le_mul (by linarith) (by linarith) (by linarith) (by norm_num)
  have s4 := s3.mul s2 (by linarith) (by linarith) (by linarith) (by linarith)
  have s5 := hlo.add s4 (by linarith) (by linarith)
  have s6 := s5.bound (abs_sigmoid_le (X := X) (X0 := X0) (K := K) hlo.choose_spec.2.2 hhi.choose_spec.2.2)
  exact s6.mono le_rfl (by linarith)

theorem abs_sub_le_of {t c lo hi B : ℝ} (h1 : lo ≤ t) (h2 : t ≤ hi) (h3 : c - B ≤ lo) (h4 : hi ≤ c + B) : |t - c| ≤ B := by
  rw [abs_le]; constructor <;> linarith

/-- The error of `_sig_slope`. -/
theorem Near.sig_slope [Libm] (ha : Libm.Accurate) {x xtp ytp x0 k lo hi : F32}
    {X XTP YTP X0 K LO HI B C T D Y ey Bl k' : ℝ} (hx : Near x X B 0) (ht : Near xtp XTP T 0) (hd : |X - XTP| ≤ D)
    (hy : Near ytp YTP Y ey) (hx0 : Near x0 X0 C 0) (hk : Near k K k' 0) (hlo : Near lo LO Bl 0) (hhi : Near hi HI Bl 0)
    (h1 : B + C ≤ 50) (h3 : k' ≤ 5) (h4 : Bl ≤ 1) (h6 : B + T ≤ 50) (h7 : D ≤ 20) (h8 : Y ≤ 10) (h9 : ey ≤ 100) :
    Near (Utils.sig_slope x xtp ytp x0 k lo hi) (Utils.sig_slope X XTP YTP X0 K LO HI : ℝ) (Y + Bl * D)
      ((15 * Bl + 3 + (k' * (2 * (B + C) + 1) + 1) / 2 * Bl) * D + (B + T + 1) * Bl + 2 * (Bl * D) + ey + Y + 2) := by
  have s := hx.sigmoid ha hx0 hk hlo hhi h1 (by norm_num) h3 (by linarith) (by norm_num)
  obtain ⟨n1, n2⟩ := s.nonneg
  obtain ⟨n3, -⟩ := hk.nonneg
  have u := (hx.sub ht (by linarith) (by norm_num)).bound hd
  obtain ⟨n4, n5⟩ := u.nonneg
  obtain ⟨n6, -⟩ := (hx.sub hx0 (by linarith) (by norm_num)).nonneg
  have q0 : k' * (0 + 2 * (B + C) + 1) ≤ 5 * 101 := mul_le_mul h3 (by linarith) (by linarith) (by norm_num)
  have q0' : 0 ≤ k' * (0 + 2 * (B + C) + 1) := mul_nonneg n3 (by linarith)
  have q1 : (k' * (0 + 2 * (B + C) + 1) + 1) / 2 * Bl ≤ 253 * 1 :=
    mul_le_mul (by linarith) h4 n1 (by norm_num)
  have q2 : (3 * 0 + 15 * Bl + 3 + (k' * (0 + 2 * (B + C) + 1) + 1) / 2 * Bl) * D ≤ 271 * 20 :=
    mul_le_mul (by linarith) h7 n4 (by norm_num)
  have q3 : Bl * D ≤ 1 * 20 := mul_le_mul h4 h7 n4 (by norm_num)
  have q4 : (0 + 0 + B + T + 1) * Bl ≤ 51 * 1 := mul_le_mul (by linarith) h4 n1 (by norm_num)
  have m := s.mul u (by linarith) (by linarith) (by linarith) (by linarith)
  have a := hy.add m (by linarith) (by linarith)
  refine a.mono le_rfl ?_
  have : (0 : ℝ) + 2 * (B + C) + 1 = 2 * (B + C) + 1 := by ring
  rw [this]
  linarith

end Diffmah.F32

import Verif.Lemmas.Float32Near
import Verif.Lemmas.PopGradHom
import Verif.Lemmas.MC

/-!
# Forward error analysis of the population predictions
-/

set_option maxRecDepth 10000

namespace Diffmah.F32

open JOps XR JMinMax Pop PopParams MC

/-- Every parameter listed in `bounds` is present, with a value inside its bounds up to `2^-20`, which is more than the
rounding of the bounds to single precision. -/
def Loose (bounds : List (String × ℝ × ℝ)) (q : NT ℝ) : Prop :=
  ∀ b ∈ bounds, ∃ v, q.lookup b.1 = some v ∧ b.2.1 - 2 ^ (-20 : ℤ) ≤ v ∧ v ≤ b.2.2 + 2 ^ (-20 : ℤ)

theorem lget {bounds : List (String × ℝ × ℝ)} {q : NT ℝ} (h : Loose bounds q) (n : String)
    (b : ℝ × ℝ) (hm : (n, b) ∈ bounds) :
    ∃ v, q.getattr n = .ok v ∧ NT.getattr (q.mapv num) n = .ok (num v) ∧ b.1 - 1 / 1000000 ≤ v ∧ v ≤ b.2 + 1 / 1000000 := by
  obtain ⟨v, hv, h1, h2⟩ := h (n, b) hm
  have e : (2 : ℝ) ^ (-20 : ℤ) ≤ 1 / 1000000 := by norm_num
  have hg : q.getattr n = .ok v := NT.getattr_eq_ok.2 hv
  refine ⟨v, hg, by rw [NT.getattr_mapv, hg]; rfl, ?_, ?_⟩
  · have h1 : b.1 - 2 ^ (-20 : ℤ) ≤ v := h1
    generalize (2 : ℝ) ^ (-20 : ℤ) = c at *
    linarith only [h1, e]
  · have h2 : v ≤ b.2 + 2 ^ (-20 : ℤ) := h2
    generalize (2 : ℝ) ^ (-20 : ℤ) = c at *
    linarith only [h2, e]

theorem near_Icc {a lo hi B : ℝ} (h1 : lo ≤ a) (h2 : a ≤ hi) (h3 : -B ≤ lo) (h4 : hi ≤ B) : Near (num a) a B 0 :=
  near_num (abs_le.2 ⟨h3.trans h1, h2.trans h4⟩)

theorem usigmoid_Icc {x x0 k ylo yhi a b : ℝ} (h1 : a ≤ ylo ∧ ylo ≤ b) (h2 : a ≤ yhi ∧ yhi ≤ b) :
    a ≤ Utils.sigmoid x x0 k ylo yhi ∧ Utils.sigmoid x x0 k ylo yhi ≤ b := by
  have s0 := Real.sigmoid_pos (k * (x - x0))
  have s1 := Real.sigmoid_lt_one (k * (x - x0))
  change a ≤ ylo + (yhi - ylo) * Real.sigmoid (k * (x - x0)) ∧ ylo + (yhi - ylo) * Real.sigmoid (k * (x - x0)) ≤ b
  obtain ⟨a1, a2⟩ := h1
  obtain ⟨b1, b2⟩ := h2
  constructor <;> nlinarith

theorem Near.clip [Libm] {x : F32} {X B e lo hi : ℝ} (h : Near x X B e) (h1 : |lo| ≤ B) (h2 : |hi| ≤ B) (hB : B ≤ 1000)
    (he : B + 1 ≤ e) : Near (clip x lo hi) (clip X lo hi : ℝ) B e :=
  (h.max ((near_lit h1 hB).mono le_rfl he)).min ((near_lit h2 hB).mono le_rfl he)

theorem Near.within {x : F32} {X B e : ℝ} (h : Near x X B e) (he : e ≤ 1024) :
    ∃ y, x = num y ∧ |y - X| ≤ 2 ^ (-14 : ℤ) := by
  obtain ⟨y, h1, h2, -⟩ := h
  refine ⟨y, h1, h2.trans ((mul_le_mul_of_nonneg_right he ε_pos.le).trans (le_of_eq ?_))⟩
  unfold ε; norm_num

theorem rep_two : Rep (2.0 : ℝ) := ⟨2, 0, by norm_num, by norm_num, by norm_num⟩
theorem rep_one' : Rep (1.0 : ℝ) := ⟨1, 0, by norm_num, by norm_num, by norm_num⟩
theorem rep_half : Rep (0.5 : ℝ) := ⟨1, -1, by norm_num, by norm_num, by norm_num⟩
theorem rep_quarter : Rep (0.25 : ℝ) := ⟨1, -2, by norm_num, by norm_num, by norm_num⟩
theorem rep_four : Rep (4.0 : ℝ) := ⟨4, 0, by norm_num, by norm_num, by norm_num⟩
theorem rep_ten : Rep (10.0 : ℝ) := ⟨10, 0, by norm_num, by norm_num, by norm_num⟩
theorem rep_twelve : Rep (12.0 : ℝ) := ⟨12, 0, by norm_num, by norm_num, by norm_num⟩
theorem rep_fifteen : Rep (15 : ℝ) := ⟨15, 0, by norm_num, by norm_num, by norm_num⟩
theorem rep_zero' : Rep (0.0 : ℝ) := ⟨0, 0, by norm_num, by norm_num, by norm_num⟩

/-- Observed mass, observed time and peak time of a halo. -/
structure Inputs (lgm t_obs tp : ℝ) : Prop where
  lgm_lo : 0 ≤ lgm
  lgm_hi : lgm ≤ 20
  t_lo : 0 ≤ t_obs
  t_hi : t_obs ≤ 20
  tp_lo : 0 ≤ tp
  tp_hi : tp ≤ 20

theorem Inputs.near {lgm t_obs tp : ℝ} (h : Inputs lgm t_obs tp) :
    Near (num lgm) lgm 20 0 ∧ Near (num t_obs) t_obs 20 0 ∧ Near (num tp) tp 20 0 :=
  ⟨near_num (abs_le.2 ⟨by linarith [h.lgm_lo], h.lgm_hi⟩), near_num (abs_le.2 ⟨by linarith [h.t_lo], h.t_hi⟩),
    near_num (abs_le.2 ⟨by linarith [h.tp_lo], h.tp_hi⟩)⟩

theorem early_near [Libm] (ha : Libm.Accurate) {sfx : String} {q : NT ℝ} (h : Loose (EARLY_INDEX_BOUNDS_PDICT sfx) q)
    {lgm t_obs tp : ℝ} (hi : Inputs lgm t_obs tp) :
    ∃ y Y, pred_early_index_kern sfx (q.mapv num) (num lgm) (num t_obs) (num tp) = .ok (num y) ∧
      pred_early_index_kern sfx q lgm t_obs tp = .ok Y ∧ |y - Y| ≤ 2 ^ (-14 : ℤ) ∧ 0.49 ≤ Y ∧ Y ≤ 4.01 := by
  obtain ⟨n1, n2, n3⟩ := hi.near
  obtain ⟨a1, e1, g1, b1, c1⟩ := lget h _ _ (mem_withSuffix (n := "early_index_ylo_x0") (b := (1.0, 7.0)) (by simp))
  obtain ⟨a2, e2, g2, b2, c2⟩ := lget h _ _ (mem_withSuffix (n := "early_index_ylo_ylo") (b := (1.0, 3.5)) (by simp))
  obtain ⟨a3, e3, g3, b3, c3⟩ := lget h _ _ (mem_withSuffix (n := "early_index_ylo_yhi") (b := (0.5, 3.0)) (by simp))
  obtain ⟨a4, e4, g4, b4, c4⟩ := lget h _ _ (mem_withSuffix (n := "early_index_yhi_ylo") (b := (2.0, 4.0)) (by simp))
  obtain ⟨a5, e5, g5, b5, c5⟩ := lget h _ _ (mem_withSuffix (n := "early_index_yhi_yhi") (b := (1.5, 4.0)) (by simp))
  obtain ⟨a6, e6, g6, b6, c6⟩ := lget h _ _ (mem_withSuffix (n := "early_index_yhi_x0") (b := (4.0, 13.0)) (by simp))
  obtain ⟨a7, e7, g7, b7, c7⟩ := lget h _ _ (mem_withSuffix (n := "early_index_lgm_x0") (b := (12.0, 14.0)) (by simp))
  norm_num at b1 c1 b2 c2 b3 c3 b4 c4 b5 c5 b6 c6 b7 c7
  have m1 := near_Icc b1 c1 (B := 8) (by norm_num) (by norm_num)
  have m2 := near_Icc b2 c2 (B := 4.01) (by norm_num) (by norm_num)
  have m3 := near_Icc b3 c3 (B := 4.01) (by norm_num) (by norm_num)
  have m4 := near_Icc b4 c4 (B := 4.01) (by norm_num) (by norm_num)
  have m5 := near_Icc b5 c5 (B := 4.01) (by norm_num) (by norm_num)
  have m6 := near_Icc b6 c6 (B := 14) (by norm_num) (by norm_num)
  have m7 := near_Icc b7 c7 (B := 15) (by norm_num) (by norm_num)
  have k1 := near_rep rep_one' (B := 1) (by norm_num) (by norm_num)
  have k2 := near_rep rep_half (B := 0.5) (by norm_num) (by norm_num)
  have s1 := (n3.sigmoid ha m1 k1 m2 m3 (by norm_num) (by norm_num) (by norm_num) (by norm_num) (by norm_num)).mono
    (B' := 4.01) (e' := 190) le_rfl (by norm_num)
  have s2 := (n2.sigmoid ha m6 k2 m4 m5 (by norm_num) (by norm_num) (by norm_num) (by norm_num) (by norm_num)).mono
    (B' := 4.01) (e' := 190) le_rfl (by norm_num)
  have s3 := n1.sigmoid ha m7 k1 s1 s2 (by norm_num) (by norm_num) (by norm_num) (by norm_num) (by norm_num)
  have s4 := ((s3.mono (B' := 10) (e' := 1000) (by norm_num) (by norm_num)).clip (lo := MAH_PBOUNDS.early_index.1 + EPS)
    (hi := MAH_PBOUNDS.early_index.2 - EPS) (by norm_num [MAH_PBOUNDS, EPS, abs_le]) (by norm_num [MAH_PBOUNDS, EPS, abs_le])
    (by norm_num) (by norm_num))
  obtain ⟨y, hy, hyY⟩ := s4.within (by norm_num)
  refine ⟨y, _, ?_, ?_, hyY, ?_⟩
  · unfold pred_early_index_kern
    simp only [g1, g2, g3, g4, g5, g6, g7, bind, Except.bind, pure, Except.pure]
    rw [← hy]; rfl
  · unfold pred_early_index_kern
    simp only [e1, e2, e3, e4, e5, e6, e7, bind, Except.bind, pure, Except.pure]
    rfl
  · have r1 := usigmoid_Icc (x := tp) (x0 := a1) (k := lit 1.0) (a := 0.49) (b := 4.01) (ylo := a2) (yhi := a3)
      ⟨by norm_num; linarith, by norm_num; linarith⟩ ⟨by norm_num; linarith, by norm_num; linarith⟩
    have r2 := usigmoid_Icc (x := t_obs) (x0 := a6) (k := lit 0.5) (a := 0.49) (b := 4.01) (ylo := a4) (yhi := a5)
      ⟨by norm_num; linarith, by norm_num; linarith⟩ ⟨by norm_num; linarith, by norm_num; linarith⟩
    have r3 := usigmoid_Icc (x := lgm) (x0 := a7) (k := lit 1.0) r1 r2
    rw [clip_id (by simp only [MAH_PBOUNDS, EPS]; norm_num at r3 ⊢; linarith)
      (by simp only [MAH_PBOUNDS, EPS]; norm_num at r3 ⊢; linarith)]
    exact r3

theorem late_near [Libm] (ha : Libm.Accurate) {sfx : String} {q : NT ℝ} (h : Loose (LATE_INDEX_BOUNDS_PDICT sfx) q)
    {lgm : ℝ} (h0 : 0 ≤ lgm) (h20 : lgm ≤ 20) :
    ∃ y Y, pred_late_index_kern sfx (q.mapv num) (num lgm) = .ok (num y) ∧
      pred_late_index_kern sfx q lgm = .ok Y ∧ |y - Y| ≤ 2 ^ (-14 : ℤ) ∧ 0.101 ≤ Y ∧ Y ≤ 0.21 := by
  have n1 := near_Icc h0 h20 (B := 20) (by norm_num) (by norm_num)
  obtain ⟨a1, e1, g1, b1, c1⟩ := lget h _ _ (mem_withSuffix (n := "late_index_x0") (b := (11.5, 14.0)) (by simp))
  obtain ⟨a2, e2, g2, b2, c2⟩ := lget h _ _ (mem_withSuffix (n := "late_index_ylo") (b := (0.01, 0.2)) (by simp))
  obtain ⟨a3, e3, g3, b3, c3⟩ := lget h _ _ (mem_withSuffix (n := "late_index_yhi") (b := (0.01, 0.2)) (by simp))
  norm_num at b1 c1 b2 c2 b3 c3
  have m1 := near_Icc b1 c1 (B := 15) (by norm_num) (by norm_num)
  have m2 := near_Icc b2 c2 (B := 0.21) (by norm_num) (by norm_num)
  have m3 := near_Icc b3 c3 (B := 0.21) (by norm_num) (by norm_num)
  have k1 := near_rep rep_one' (B := 1) (by norm_num) (by norm_num)
  have s3 := n1.sigmoid ha m1 k1 m2 m3 (by norm_num) (by norm_num) (by norm_num) (by norm_num) (by norm_num)
  have s4 := ((s3.mono (B' := 10) (e' := 1000) (by norm_num) (by norm_num)).clip (lo := MAH_PBOUNDS.late_index.1 + EPS)
    (hi := MAH_PBOUNDS.late_index.2 - EPS) (by norm_num [MAH_PBOUNDS, EPS, abs_le]) (by norm_num [MAH_PBOUNDS, EPS, abs_le])
    (by norm_num) (by norm_num))
  obtain ⟨y, hy, hyY⟩ := s4.within (by norm_num)
  refine ⟨y, _, ?_, ?_, hyY, ?_⟩
  · unfold pred_late_index_kern
    simp only [g1, g2, g3, bind, Except.bind, pure, Except.pure]
    rw [← hy]
  · unfold pred_late_index_kern
    simp only [e1, e2, e3, bind, Except.bind, pure, Except.pure]
  · have r3 := usigmoid_Icc (x := lgm) (x0 := a1) (k := lit 1.0) (a := 0) (b := 0.21) (ylo := a2) (yhi := a3)
      ⟨by linarith, by norm_num; linarith⟩ ⟨by linarith, by norm_num; linarith⟩
    have hlo : MAH_PBOUNDS.late_index.1 + EPS = 0.101 := by simp only [MAH_PBOUNDS, EPS]; norm_num
    have hhi : MAH_PBOUNDS.late_index.2 - EPS = 4.999 := by simp only [MAH_PBOUNDS, EPS]; norm_num
    rw [hlo, hhi]
    refine ⟨(clip_mem (by norm_num)).1, ?_⟩
    rw [clip_real]
    exact (min_le_left _ _).trans (max_le r3.2 (by norm_num))

theorem frac_near [Libm] (ha : Libm.Accurate) {q : NT ℝ} (h : Loose FEC.bounds q)
    {lgm t_obs tp : ℝ} (hi : Inputs lgm t_obs tp) :
    ∃ y Y, frac_early_cens_kern (q.mapv num) (num lgm) (num t_obs) = .ok (num y) ∧
      frac_early_cens_kern q lgm t_obs = .ok Y ∧ |y - Y| ≤ 2 ^ (-14 : ℤ) ∧ 0.2499 ≤ Y ∧ Y ≤ 0.7501 := by
  obtain ⟨n1, n2, n3⟩ := hi.near
  obtain ⟨a0, e0, g0, b0, c0⟩ := lget h "fec_t_obs_x0" (5.0, 13.0) (by simp [FEC])
  obtain ⟨a1, e1, g1, b1, c1⟩ := lget h "fec_lgm_x0" (11.0, 14.0) (by simp [FEC])
  obtain ⟨a2, e2, g2, b2, c2⟩ := lget h "fec_lgm_ylo_early" F_BOUNDS (by simp [FEC])
  obtain ⟨a3, e3, g3, b3, c3⟩ := lget h "fec_lgm_ylo_late" F_BOUNDS (by simp [FEC])
  obtain ⟨a4, e4, g4, b4, c4⟩ := lget h "fec_lgm_yhi_early" F_BOUNDS (by simp [FEC])
  obtain ⟨a5, e5, g5, b5, c5⟩ := lget h "fec_lgm_yhi_late" F_BOUNDS (by simp [FEC])
  norm_num [F_BOUNDS] at b0 c0 b1 c1 b2 c2 b3 c3 b4 c4 b5 c5
  have m0 := near_Icc b0 c0 (B := 14) (by norm_num) (by norm_num)
  have m1 := near_Icc b1 c1 (B := 15) (by norm_num) (by norm_num)
  have m2 := near_Icc b2 c2 (B := 1) (by norm_num) (by norm_num)
  have m3 := near_Icc b3 c3 (B := 1) (by norm_num) (by norm_num)
  have m4 := near_Icc b4 c4 (B := 1) (by norm_num) (by norm_num)
  have m5 := near_Icc b5 c5 (B := 1) (by norm_num) (by norm_num)
  have k1 : Near (lit FEC_T_K) (lit FEC_T_K : ℝ) 1 0 := by
    unfold FEC_T_K; exact near_rep rep_one' (by norm_num) (by norm_num)
  have k2 : Near (lit FEC_LGM_K) (lit FEC_LGM_K : ℝ) 4 0 := by
    unfold FEC_LGM_K; exact near_rep rep_four (by norm_num) (by norm_num)
  have s1 := (n2.sigmoid ha m0 k1 m2 m3 (by norm_num) (by norm_num) (by norm_num) (by norm_num) (by norm_num)).mono
    (B' := 1) (e' := 60) le_rfl (by norm_num)
  have s2 := (n2.sigmoid ha m0 k1 m4 m5 (by norm_num) (by norm_num) (by norm_num) (by norm_num) (by norm_num)).mono
    (B' := 1) (e' := 60) le_rfl (by norm_num)
  have s3 := n1.sigmoid ha m1 k2 s1 s2 (by norm_num) (by norm_num) (by norm_num) (by norm_num) (by norm_num)
  obtain ⟨y, hy, hyY⟩ := s3.within (by norm_num)
  refine ⟨y, _, ?_, ?_, hyY, ?_⟩
  · unfold frac_early_cens_kern
    simp only [g0, g1, g2, g3, g4, g5, bind, Except.bind, pure, Except.pure]
    rw [← hy]
  · unfold frac_early_cens_kern
    simp only [e0, e1, e2, e3, e4, e5, bind, Except.bind, pure, Except.pure]
  · have r1 := usigmoid_Icc (x := t_obs) (x0 := a0) (k := lit FEC_T_K) (a := 0.2499) (b := 0.7501) (ylo := a2) (yhi := a3)
      ⟨by norm_num; linarith, by norm_num; linarith⟩ ⟨by norm_num; linarith, by norm_num; linarith⟩
    have r2 := usigmoid_Icc (x := t_obs) (x0 := a0) (k := lit FEC_T_K) (a := 0.2499) (b := 0.7501) (ylo := a4) (yhi := a5)
      ⟨by norm_num; linarith, by norm_num; linarith⟩ ⟨by norm_num; linarith, by norm_num; linarith⟩
    exact usigmoid_Icc (x := lgm) (x0 := a1) (k := lit FEC_LGM_K) r1 r2

theorem logtc_near [Libm] (ha : Libm.Accurate) {sfx : String} {q : NT ℝ} (h : Loose (LOGTC_BOUNDS_PDICT sfx) q)
    {lgm t_obs tp : ℝ} (hi : Inputs lgm t_obs tp) :
    ∃ y Y, pred_logtc_kern sfx (q.mapv num) (num lgm) (num t_obs) (num tp) = .ok (num y) ∧
      pred_logtc_kern sfx q lgm t_obs tp = .ok Y ∧ |y - Y| ≤ 2 ^ (-14 : ℤ) ∧ -0.999 ≤ Y ∧ Y ≤ 0.999 := by
  obtain ⟨n1, n2, n3⟩ := hi.near
  obtain ⟨a1, e1, g1, b1, c1⟩ := lget h _ _ (mem_withSuffix (n := "logtc_lgm_c0_tp_ytp_tobs_c0") (b := (0.2, 0.9)) (by simp))
  obtain ⟨a2, e2, g2, b2, c2⟩ := lget h _ _ (mem_withSuffix (n := "logtc_lgm_c0_tp_ytp_tobs_c1") (b := (0.0, 0.05)) (by simp))
  obtain ⟨a3, e3, g3, b3, c3⟩ := lget h _ _ (mem_withSuffix (n := "logtc_lgm_c0_tp_ylo") (b := (0.02, 0.15)) (by simp))
  obtain ⟨a4, e4, g4, b4, c4⟩ := lget h _ _ (mem_withSuffix (n := "logtc_lgm_c0_tp_yhi") (b := (-0.25, 0.0)) (by simp))
  obtain ⟨a5, e5, g5, b5, c5⟩ := lget h _ _ (mem_withSuffix (n := "logtc_lgm_c1") (b := (0.02, 0.15)) (by simp))
  obtain ⟨a6, e6, g6, b6, c6⟩ := lget h _ _ (mem_withSuffix (n := "logtc_c0_ss_x0") (b := (11.0, 13.0)) (by simp))
  norm_num at b1 c1 b2 c2 b3 c3 b4 c4 b5 c5 b6 c6
  have m1 := near_Icc b1 c1 (B := 1) (by norm_num) (by norm_num)
  have m2 := near_Icc b2 c2 (B := 0.1) (by norm_num) (by norm_num)
  have m3 := near_Icc b3 c3 (B := 0.3) (by norm_num) (by norm_num)
  have m4 := near_Icc b4 c4 (B := 0.3) (by norm_num) (by norm_num)
  have m5 := near_Icc b5 c5 (B := 0.2) (by norm_num) (by norm_num)
  have m6 := near_Icc b6 c6 (B := 14) (by norm_num) (by norm_num)
  have k1 := near_rep rep_half (B := 0.5) (by norm_num) (by norm_num)
  have k2 := near_rep rep_ten (B := 10) (by norm_num) (by norm_num)
  have k3 := near_rep rep_twelve (B := 12) (by norm_num) (by norm_num)
  have s1 := (m1.add (m2.mul n2 (by norm_num) (by norm_num) (by norm_num) (by norm_num)) (by norm_num) (by norm_num)).mono
    (B' := 3) (e' := 10) (by norm_num) (by norm_num)
  have hd : |tp - (lit 10.0 : ℝ)| ≤ 10 := by
    change |tp - 10.0| ≤ 10
    exact abs_sub_le_of hi.tp_lo hi.tp_hi (by norm_num) (by norm_num)
  have s2 := (n3.sig_slope ha k2 hd s1 m6 k1 m3 m4 (by norm_num) (by norm_num) (by norm_num) (by norm_num) (by norm_num)
    (by norm_num) (by norm_num)).mono (B' := 6) (e' := 400) (by norm_num) (by norm_num)
  have hd2 : |lgm - (lit 12.0 : ℝ)| ≤ 12 := by
    change |lgm - 12.0| ≤ 12
    exact abs_sub_le_of hi.lgm_lo hi.lgm_hi (by norm_num) (by norm_num)
  have s3 := s2.add (m5.mul ((n1.sub k3 (by norm_num) (by norm_num)).bound hd2) (by norm_num) (by norm_num) (by norm_num)
    (by norm_num)) (by norm_num) (by norm_num)
  have s4 := ((s3.mono (B' := 10) (e' := 1000) (by norm_num) (by norm_num)).clip (lo := MAH_PBOUNDS.logtc.1 + EPS)
    (hi := MAH_PBOUNDS.logtc.2 - EPS) (by norm_num [MAH_PBOUNDS, EPS, abs_le]) (by norm_num [MAH_PBOUNDS, EPS, abs_le])
    (by norm_num) (by norm_num))
  obtain ⟨y, hy, hyY⟩ := s4.within (by norm_num)
  refine ⟨y, _, ?_, ?_, hyY, ?_⟩
  · unfold pred_logtc_kern logtc_get_c0
    simp only [g1, g2, g3, g4, g5, g6, bind, Except.bind, pure, Except.pure]
    rw [← hy]
  · unfold pred_logtc_kern logtc_get_c0
    simp only [e1, e2, e3, e4, e5, e6, bind, Except.bind, pure, Except.pure]
  · have hlo : MAH_PBOUNDS.logtc.1 + EPS = -0.999 := by simp only [MAH_PBOUNDS, EPS]; norm_num
    have hhi : MAH_PBOUNDS.logtc.2 - EPS = 0.999 := by simp only [MAH_PBOUNDS, EPS]; norm_num
    rw [hlo, hhi]
    exact clip_mem (by norm_num)

theorem usigmoid_le {x x0 k ylo yhi b : ℝ} (h1 : ylo ≤ b) (h2 : yhi ≤ b) : Utils.sigmoid x x0 k ylo yhi ≤ b :=
  (usigmoid_Icc (a := min ylo yhi) ⟨min_le_left _ _, h1⟩ ⟨min_le_right _ _, h2⟩).2

/-- The predicted present-day mass in exact arithmetic: a line in the observed mass, whose coefficients are in their usual ranges up to
the rounding of the bounds. -/
def LooseLine (t_obs lgm m : ℝ) : Prop :=
  ∃ c0 c1, m = lgm + (c0 + c1 * (lgm - 12)) ∧ 0.0009 ≤ c1 ∧ c1 ≤ 0.6001 ∧ c0 ≤ 2.66 ∧ (t_obs ≤ 15 → 0.009 ≤ c0)

theorem logm0_near [Libm] (ha : Libm.Accurate) {sfx : String} {q : NT ℝ} (h : Loose (LGM0POP_C0_BOUNDS_DICT sfx) q)
    (h' : Loose (LGM0POP_C1_BOUNDS_DICT sfx) q) {lgm t_obs tp : ℝ} (hi : Inputs lgm t_obs tp) :
    ∃ y Y, pred_logm0_kern sfx (q.mapv num) (num lgm) (num t_obs) (num tp) = .ok (num y) ∧
      pred_logm0_kern sfx q lgm t_obs tp = .ok Y ∧ |y - Y| ≤ 2 ^ (-14 : ℤ) ∧ LooseLine t_obs lgm Y := by
  obtain ⟨n1, n2, n3⟩ := hi.near
  obtain ⟨a1, e1, g1, b1, c1⟩ := lget h _ _ (mem_withSuffix (n := "lgm0pop_c0_ytp") (b := (0.01, 0.4)) (by simp))
  obtain ⟨a2, e2, g2, b2, c2⟩ := lget h _ _ (mem_withSuffix (n := "lgm0pop_c0_ylo") (b := (-0.15, -0.05)) (by simp))
  obtain ⟨a3, e3, g3, b3, c3⟩ := lget h _ _ (mem_withSuffix (n := "lgm0pop_c0_clip_c0") (b := (0.5, 0.9)) (by simp))
  obtain ⟨a4, e4, g4, b4, c4⟩ := lget h _ _ (mem_withSuffix (n := "lgm0pop_c0_clip_c1") (b := (-0.1, -0.01)) (by simp))
  obtain ⟨a5, e5, g5, b5, c5⟩ := lget h _ _ (mem_withSuffix (n := "lgm0pop_c0_t_obs_x0") (b := (1.5, 6.0)) (by simp))
  obtain ⟨d1, f1, j1, i1, l1⟩ := lget h' _ _ (mem_withSuffix (n := "lgm0pop_c1_ytp") (b := (0.001, 0.1)) (by simp))
  obtain ⟨d2, f2, j2, i2, l2⟩ := lget h' _ _ (mem_withSuffix (n := "lgm0pop_c1_ylo") (b := (-0.05, -0.001)) (by simp))
  obtain ⟨d3, f3, j3, i3, l3⟩ := lget h' _ _ (mem_withSuffix (n := "lgm0pop_c1_clip_x0") (b := (4.0, 11.0)) (by simp))
  obtain ⟨d4, f4, j4, i4, l4⟩ := lget h' _ _ (mem_withSuffix (n := "lgm0pop_c1_clip_ylo") (b := (0.02, 0.15)) (by simp))
  obtain ⟨d5, f5, j5, i5, l5⟩ := lget h' _ _ (mem_withSuffix (n := "lgm0pop_c1_clip_yhi") (b := (0.001, 0.05)) (by simp))
  obtain ⟨d6, f6, j6, i6, l6⟩ := lget h' _ _ (mem_withSuffix (n := "lgm0pop_c1_t_obs_x0") (b := (3.0, 10.0)) (by simp))
  norm_num at b1 c1 b2 c2 b3 c3 b4 c4 b5 c5 i1 l1 i2 l2 i3 l3 i4 l4 i5 l5 i6 l6
  have m1 := near_Icc b1 c1 (B := 0.41) (by norm_num) (by norm_num)
  have m2 := near_Icc b2 c2 (B := 0.16) (by norm_num) (by norm_num)
  have m3 := near_Icc b3 c3 (B := 1) (by norm_num) (by norm_num)
  have m4 := near_Icc b4 c4 (B := 0.11) (by norm_num) (by norm_num)
  have m5 := near_Icc b5 c5 (B := 7) (by norm_num) (by norm_num)
  have p1 := near_Icc i1 l1 (B := 0.11) (by norm_num) (by norm_num)
  have p2 := near_Icc i2 l2 (B := 0.06) (by norm_num) (by norm_num)
  have p3 := near_Icc i3 l3 (B := 12) (by norm_num) (by norm_num)
  have p4 := near_Icc i4 l4 (B := 0.16) (by norm_num) (by norm_num)
  have p5 := near_Icc i5 l5 (B := 0.16) (by norm_num) (by norm_num)
  have p6 := near_Icc i6 l6 (B := 11) (by norm_num) (by norm_num)
  have k1 := near_rep rep_quarter (B := 0.25) (by norm_num) (by norm_num)
  have k2 := near_rep rep_ten (B := 10) (by norm_num) (by norm_num)
  have k3 := near_rep rep_twelve (B := 12) (by norm_num) (by norm_num)
  have k4 := near_rep rep_fifteen (B := 15) (by norm_num) (by norm_num)
  have k5 := near_rep rep_one' (B := 1) (by norm_num) (by norm_num)
  have k0 := near_rep rep_zero' (B := 0.16) (by norm_num) (by norm_num)
  have k0' := near_rep rep_zero' (B := 0.06) (by norm_num) (by norm_num)
  have hd1 : |t_obs - (lit 15 : ℝ)| ≤ 15 := by
    change |t_obs - 15| ≤ 15
    exact abs_sub_le_of hi.t_lo hi.t_hi (by norm_num) (by norm_num)
  have hd2 : |t_obs - (lit 10.0 : ℝ)| ≤ 10 := by
    change |t_obs - 10.0| ≤ 10
    exact abs_sub_le_of hi.t_lo hi.t_hi (by norm_num) (by norm_num)
  have hd3 : |lgm - (lit 12.0 : ℝ)| ≤ 12 := by
    change |lgm - 12.0| ≤ 12
    exact abs_sub_le_of hi.lgm_lo hi.lgm_hi (by norm_num) (by norm_num)
  have s1 := (n2.sig_slope ha k4 hd1 m1 m5 k1 m2 k0 (by norm_num) (by norm_num) (by norm_num) (by norm_num) (by norm_num)
    (by norm_num) (by norm_num)).mono (B' := 3) (e' := 300) (by norm_num) (by norm_num)
  have s2 := (m3.add (m4.mul n3 (by norm_num) (by norm_num) (by norm_num) (by norm_num)) (by norm_num) (by norm_num)).mono
    (B' := 3.2) (e' := 300) (by norm_num) (by norm_num)
  have s3 := (s1.mono (B' := 3.2) (e' := 300) (by norm_num) le_rfl).max s2
  have s4 := (n2.sig_slope ha k2 hd2 p1 p6 k1 p2 k0' (by norm_num) (by norm_num) (by norm_num) (by norm_num) (by norm_num)
    (by norm_num) (by norm_num)).mono (B' := 0.8) (e' := 50) (by norm_num) (by norm_num)
  have s5 := (n3.sigmoid ha p3 k5 p4 p5 (by norm_num) (by norm_num) (by norm_num) (by norm_num) (by norm_num)).mono
    (B' := 0.8) (e' := 50) (by norm_num) (by norm_num)
  have s6 := s4.max s5
  have s7 := s3.add (s6.mul ((n1.sub k3 (by norm_num) (by norm_num)).bound hd3) (by norm_num) (by norm_num) (by norm_num)
    (by norm_num)) (by norm_num) (by norm_num)
  have s8 := n1.add s7 (by norm_num) (by norm_num)
  obtain ⟨y, hy, hyY⟩ := s8.within (by norm_num)
  refine ⟨y, _, ?_, ?_, hyY, ?_⟩
  · unfold pred_logm0_kern pred_c0_kern pred_c1_kern
    simp only [g1, g2, g3, g4, g5, j1, j2, j3, j4, j5, j6, bind, Except.bind, pure, Except.pure]
    rw [← hy]
  · unfold pred_logm0_kern pred_c0_kern pred_c1_kern
    simp only [e1, e2, e3, e4, e5, f1, f2, f3, f4, f5, f6, bind, Except.bind, pure, Except.pure]
  · have ht0 := hi.t_lo
    have ht1 := hi.t_hi
    have hp0 := hi.tp_lo
    have u1 := usigmoid_Icc (x := t_obs) (x0 := a5) (k := 0.25) (ylo := a2) (yhi := 0.0) (a := -0.1501) (b := 0)
      ⟨by norm_num; linarith, by linarith⟩ (by norm_num)
    have u2 := usigmoid_Icc (x := t_obs) (x0 := d6) (k := 0.25) (ylo := d2) (yhi := 0.0) (a := -0.050002) (b := 0)
      ⟨by norm_num; linarith, by linarith⟩ (by norm_num)
    have u3 := usigmoid_Icc (x := tp) (x0 := d3) (k := 1.0) (ylo := d4) (yhi := d5) (a := 0.0009) (b := 0.6001)
      ⟨by norm_num; linarith, by norm_num; linarith⟩ ⟨by norm_num; linarith, by norm_num; linarith⟩
    refine ⟨max (Utils.sig_slope t_obs 15 a1 a5 0.25 a2 0.0) (a3 + a4 * tp),
      max (Utils.sig_slope t_obs 10.0 d1 d6 0.25 d2 0.0) (Utils.sigmoid tp d3 1.0 d4 d5), ?_, ?_, ?_, ?_, ?_⟩
    · norm_num [JOps.lit, JMinMax.jmax]
    · exact u3.1.trans (le_max_right _ _)
    · refine max_le ?_ u3.2
      unfold Utils.sig_slope
      norm_num at u2 ⊢
      nlinarith
    · refine max_le ?_ (by norm_num; nlinarith)
      unfold Utils.sig_slope
      norm_num at u1 ⊢
      nlinarith
    · intro ht
      refine le_max_of_le_left ?_
      unfold Utils.sig_slope
      norm_num at u1 ⊢
      nlinarith

/-! ## Parameter sets -/

theorem loose_app_left {b1 b2 : List (String × ℝ × ℝ)} {q : NT ℝ} (h : Loose (b1 ++ b2) q) : Loose b1 q :=
  fun b hb => h b (List.mem_append_left _ hb)

theorem loose_app_right {b1 b2 : List (String × ℝ × ℝ)} {q : NT ℝ} (h : Loose (b1 ++ b2) q) : Loose b2 q :=
  fun b hb => h b (List.mem_append_right _ hb)

theorem loose_block {blocks : List (NT ℝ)} (hn : (NT.fields blocks.flatten).Nodup) {q : NT ℝ}
    (hq : q ∈ blocks) {c : Component} (hc : c.Wf) (hf : q.fields = c.fields)
    (hb : Loose c.bounds blocks.flatten) : Loose c.bounds q := by
  intro b hb'
  obtain ⟨v, hv, h1, h2⟩ := hb b hb'
  refine ⟨v, ?_, h1, h2⟩
  rw [lookup_block hn hq, hv]
  rw [hf, ← hc.same]
  exact List.mem_map.2 ⟨b, hb', rfl⟩

structure ComponentsLoose (c : ComponentParams ℝ) : Prop where
  logm0 : Loose LOGM0_BIMOD.bounds c.logm0
  logm0_sats : Loose LOGM0_BIMOD_SATS.bounds c.logm0_sats
  logtc : Loose LOGTC_BIMOD.bounds c.logtc
  early_index : Loose EARLY_INDEX_BIMOD.bounds c.early_index
  late_index : Loose LATE_INDEX_BIMOD.bounds c.late_index

/-- Every parameter of the full set has the right name and is inside its bounds up to `2^-20`. -/
theorem components_loose {p : NT ℝ} (hp : p.map Prod.fst = FIELDS) (hb : Loose FULL.bounds p) :
    ∃ c, get_component_model_params p = .ok c ∧ get_component_model_params (p.mapv num) = .ok (c.mapv num) ∧
      ComponentsLoose c := by
  obtain ⟨c, hc, hfl, hnames⟩ := C50_partition p hp
  refine ⟨c, hc, by rw [get_component_model_params_mapv, hc]; rfl, ?_⟩
  have hn : (NT.fields c.toList.flatten).Nodup := by
    rw [hfl]
    show (p.map Prod.fst).Nodup
    rw [hp, FIELDS_eq]; exact NAMES_nodup
  simp only [ComponentParams.toList, COMPONENT_PDICTS, List.map_cons, List.map_nil, List.cons.injEq,
    and_true] at hnames
  obtain ⟨n1, n2, n3, n4, n5, n6, n7, n8, n9⟩ := hnames
  simp only [Loose, FULL, NINE, catAll, List.map_cons, List.map_nil, List.flatten_cons, List.flatten_nil, List.mem_append,
    List.not_mem_nil, or_false, or_imp, forall_and] at hb
  obtain ⟨-, -, b3, b4, b5, b6, b7, -, -⟩ := hb
  rw [← hfl] at b3 b4 b5 b6 b7
  constructor
  · exact loose_block hn (by simp [ComponentParams.toList]) LOGM0_BIMOD_wf n3 b3
  · exact loose_block hn (by simp [ComponentParams.toList]) LOGM0_BIMOD_SATS_wf n4 b4
  · exact loose_block hn (by simp [ComponentParams.toList]) LOGTC_BIMOD_wf n5 b5
  · exact loose_block hn (by simp [ComponentParams.toList]) EARLY_INDEX_BIMOD_wf n6 b6
  · exact loose_block hn (by simp [ComponentParams.toList]) LATE_INDEX_BIMOD_wf n7 b7

/-- Two parameter sets within `2^-14` of each other, with the same peak time. -/
structure Close (m M : MahParams ℝ) : Prop where
  logm0 : |m.logm0 - M.logm0| ≤ 2 ^ (-14 : ℤ)
  logtc : |m.logtc - M.logtc| ≤ 2 ^ (-14 : ℤ)
  early_index : |m.early_index - M.early_index| ≤ 2 ^ (-14 : ℤ)
  late_index : |m.late_index - M.late_index| ≤ 2 ^ (-14 : ℤ)
  t_peak : m.t_peak = M.t_peak

/-- What is known of the exact means. -/
structure LooseOk (lgm t_obs : ℝ) (M : MahParams ℝ) : Prop where
  line : LooseLine t_obs lgm M.logm0
  logtc : -0.999 ≤ M.logtc ∧ M.logtc ≤ 0.999
  early_index : 0.49 ≤ M.early_index ∧ M.early_index ≤ 4.01
  late_index : 0.101 ≤ M.late_index ∧ M.late_index ≤ 0.21

theorem mean_early_near [Libm] (ha : Libm.Accurate) {p : NT ℝ} (hp : p.map Prod.fst = FIELDS) (hb : Loose FULL.bounds p)
    (kind : Kind) {lgm t_obs tp : ℝ} (hi : Inputs lgm t_obs tp) :
    ∃ m M, mean_diffmah_params_early_t_peak kind (p.mapv num) (num lgm) (num t_obs) (num tp) = .ok (m.map num) ∧
      mean_diffmah_params_early_t_peak kind p lgm t_obs tp = .ok M ∧ Close m M ∧ M.t_peak = tp ∧ LooseOk lgm t_obs M := by
  obtain ⟨c, hc, hc', hcb⟩ := components_loose hp hb
  have h1 := hcb.logtc
  have h2 := hcb.early_index
  have h3 := hcb.late_index
  have h4 := hcb.logm0
  have h5 := hcb.logm0_sats
  rw [LOGTC_BIMOD_eq] at h1
  rw [EARLY_INDEX_BIMOD_eq] at h2
  rw [LATE_INDEX_BIMOD_eq] at h3
  rw [LOGM0_BIMOD_eq] at h4
  rw [LOGM0_BIMOD_SATS_eq] at h5
  obtain ⟨m, M, hm, hM, dm, lm⟩ : ∃ y Y, pred_logm0_early kind (c.mapv num) (num lgm) (num t_obs) (num tp) = .ok (num y) ∧
      pred_logm0_early kind c lgm t_obs tp = .ok Y ∧ |y - Y| ≤ 2 ^ (-14 : ℤ) ∧ LooseLine t_obs lgm Y := by
    have h4l := loose_app_left h4
    have h5l := loose_app_left h5
    cases kind
    · exact logm0_near ha (sfx := "_early") (loose_app_left h4l) (loose_app_right h4l) hi
    · exact logm0_near ha (sfx := "_early_sats") (loose_app_left h5l) (loose_app_right h5l) hi
  obtain ⟨tc, TC, htc, hTC, dtc, ltc⟩ := logtc_near ha (sfx := "_early") (loose_app_left h1) hi
  obtain ⟨e, E, he, hE, de, le⟩ := early_near ha (sfx := "_alpha") (loose_app_left h2) hi
  obtain ⟨l, L, hl, hL, dl, ll⟩ := late_near ha (sfx := "_alpha") (loose_app_left h3) hi.lgm_lo hi.lgm_hi
  refine ⟨⟨m, tc, e, l, tp⟩, ⟨M, TC, E, L, tp⟩, ?_, ?_, ⟨dm, dtc, de, dl, rfl⟩, rfl, ⟨lm, ltc, le, ll⟩⟩
  · have he1 : pred_early_index_early (c.mapv num).early_index (num lgm) (num t_obs) (num tp) = .ok (num e) := he
    have hl1 : pred_late_index_early (c.mapv num).late_index (num lgm) = .ok (num l) := hl
    have htc1 : pred_logtc_kern "_early" (c.mapv num).logtc (num lgm) (num t_obs) (num tp) = .ok (num tc) := htc
    unfold mean_diffmah_params_early_t_peak
    simp only [hc', hm, htc1, he1, hl1, bind, Except.bind, pure, Except.pure]
    rfl
  · have he1 : pred_early_index_early c.early_index lgm t_obs tp = .ok E := hE
    have hl1 : pred_late_index_early c.late_index lgm = .ok L := hL
    unfold mean_diffmah_params_early_t_peak
    simp only [hc, hM, hTC, he1, hl1, bind, Except.bind, pure, Except.pure]

theorem mean_late_near [Libm] (ha : Libm.Accurate) {p : NT ℝ} (hp : p.map Prod.fst = FIELDS) (hb : Loose FULL.bounds p)
    (kind : Kind) {lgm t_obs tp : ℝ} (hi : Inputs lgm t_obs tp) :
    ∃ m M, mean_diffmah_params_late_t_peak kind (p.mapv num) (num lgm) (num t_obs) (num tp) = .ok (m.map num) ∧
      mean_diffmah_params_late_t_peak kind p lgm t_obs tp = .ok M ∧ Close m M ∧ M.t_peak = tp ∧ LooseOk lgm t_obs M := by
  obtain ⟨c, hc, hc', hcb⟩ := components_loose hp hb
  have h1 := hcb.logtc
  have h2 := hcb.early_index
  have h3 := hcb.late_index
  have h4 := hcb.logm0
  have h5 := hcb.logm0_sats
  rw [LOGTC_BIMOD_eq] at h1
  rw [EARLY_INDEX_BIMOD_eq] at h2
  rw [LATE_INDEX_BIMOD_eq] at h3
  rw [LOGM0_BIMOD_eq] at h4
  rw [LOGM0_BIMOD_SATS_eq] at h5
  obtain ⟨m, M, hm, hM, dm, lm⟩ : ∃ y Y, pred_logm0_late kind (c.mapv num) (num lgm) (num t_obs) (num tp) = .ok (num y) ∧
      pred_logm0_late kind c lgm t_obs tp = .ok Y ∧ |y - Y| ≤ 2 ^ (-14 : ℤ) ∧ LooseLine t_obs lgm Y := by
    have h4l := loose_app_right h4
    have h5l := loose_app_right h5
    cases kind
    · exact logm0_near ha (sfx := "_late") (loose_app_left h4l) (loose_app_right h4l) hi
    · exact logm0_near ha (sfx := "_late_sats") (loose_app_left h5l) (loose_app_right h5l) hi
  obtain ⟨tc, TC, htc, hTC, dtc, ltc⟩ := logtc_near ha (sfx := "_late") (loose_app_right h1) hi
  obtain ⟨e, E, he, hE, de, le⟩ := early_near ha (sfx := "_beta") (loose_app_right h2) hi
  obtain ⟨l, L, hl, hL, dl, ll⟩ := late_near ha (sfx := "_beta") (loose_app_right h3) hi.lgm_lo hi.lgm_hi
  refine ⟨⟨m, tc, e, l, tp⟩, ⟨M, TC, E, L, tp⟩, ?_, ?_, ⟨dm, dtc, de, dl, rfl⟩, rfl, ⟨lm, ltc, le, ll⟩⟩
  · have he1 : pred_early_index_late (c.mapv num).early_index (num lgm) (num t_obs) (num tp) = .ok (num e) := he
    have hl1 : pred_late_index_late (c.mapv num).late_index (num lgm) = .ok (num l) := hl
    have htc1 : pred_logtc_kern "_late" (c.mapv num).logtc (num lgm) (num t_obs) (num tp) = .ok (num tc) := htc
    unfold mean_diffmah_params_late_t_peak
    simp only [hc', hm, htc1, he1, hl1, bind, Except.bind, pure, Except.pure]
    rfl
  · have he1 : pred_early_index_late c.early_index lgm t_obs tp = .ok E := hE
    have hl1 : pred_late_index_late c.late_index lgm = .ok L := hL
    unfold mean_diffmah_params_late_t_peak
    simp only [hc, hM, hTC, he1, hl1, bind, Except.bind, pure, Except.pure]

theorem loose_fec {p : NT ℝ} (hb : Loose FULL.bounds p) : Loose FEC.bounds p := by
  simp only [Loose, FULL, NINE, catAll, List.map_cons, List.map_nil, List.flatten_cons, List.flatten_nil, List.mem_append,
    List.not_mem_nil, or_false, or_imp, forall_and] at hb
  exact hb.2.2.2.2.2.2.2.1

theorem mean_near [Libm] (ha : Libm.Accurate) {p : NT ℝ} (hp : p.map Prod.fst = FIELDS) (hb : Loose FULL.bounds p)
    (kind : Kind) {lgm t_obs tp : ℝ} (hi : Inputs lgm t_obs tp) :
    ∃ e l f E L F, mean_diffmah_params_t_peak kind (p.mapv num) (num lgm) (num t_obs) (num tp) =
        .ok (e.map num, l.map num, num f) ∧
      mean_diffmah_params_t_peak kind p lgm t_obs tp = .ok (E, L, F) ∧ Close e E ∧ Close l L ∧ |f - F| ≤ 2 ^ (-14 : ℤ) ∧
      E.t_peak = tp ∧ L.t_peak = tp ∧ LooseOk lgm t_obs E ∧ LooseOk lgm t_obs L ∧ 0.2499 ≤ F ∧ F ≤ 0.7501 := by
  obtain ⟨e, E, he, hE, d1, t1, l1⟩ := mean_early_near ha hp hb kind hi
  obtain ⟨l, L, hl, hL, d2, t2, l2⟩ := mean_late_near ha hp hb kind hi
  obtain ⟨f, F, hf, hF, d3, l3⟩ := frac_near ha (loose_fec hb) hi
  refine ⟨e, l, f, E, L, F, ?_, ?_, d1, d2, d3, t1, t2, l1, l2, l3⟩
  · unfold mean_diffmah_params_t_peak
    simp only [he, hl, hf, bind, Except.bind, pure, Except.pure]
  · unfold mean_diffmah_params_t_peak
    simp only [hE, hL, hF, bind, Except.bind, pure, Except.pure]

/-- Means within `2^-14` of the exact ones are valid parameters, with a margin. -/
theorem Close.valid {lgm t_obs tp : ℝ} {m M : MahParams ℝ} (h : Close m M) (ht : M.t_peak = tp) (ho : LooseOk lgm t_obs M)
    (h1 : 4.5 ≤ lgm) (h2 : lgm ≤ 13.4) (h4 : t_obs ≤ 15) (h5 : 0.05 < tp) (h6 : tp < 20) :
    Spec.Valid m ∧ 0.001 ≤ m.logm0 ∧ m.logm0 ≤ 16.99 ∧ -0.9991 ≤ m.logtc ∧ m.logtc ≤ 0.9991 ∧
      0.48 ≤ m.early_index ∧ m.early_index ≤ 4.1 ∧ 0.1009 ≤ m.late_index ∧ m.late_index ≤ 0.22 := by
  obtain ⟨c0, c1, hl, b1, b2, b3, b4⟩ := ho.line
  have b4 := b4 h4
  have e : (2 : ℝ) ^ (-14 : ℤ) ≤ 0.00007 := by norm_num
  obtain ⟨d1, d1'⟩ := abs_le.1 h.logm0
  obtain ⟨d2, d2'⟩ := abs_le.1 h.logtc
  obtain ⟨d3, d3'⟩ := abs_le.1 h.early_index
  obtain ⟨d4, d4'⟩ := abs_le.1 h.late_index
  have d5 := h.t_peak
  obtain ⟨i1, i1'⟩ := ho.logtc
  obtain ⟨i2, i2'⟩ := ho.early_index
  obtain ⟨i3, i3'⟩ := ho.late_index
  generalize (2 : ℝ) ^ (-14 : ℤ) = c at *
  have hL1 : 0.0019 ≤ M.logm0 := by
    rw [hl]; norm_num at *
    rcases le_total 12 lgm with hh | hh <;> nlinarith
  have hL2 : M.logm0 ≤ 16.98 := by
    rw [hl]; norm_num at *
    rcases le_total 12 lgm with hh | hh <;> nlinarith
  norm_num at e i1 i1' i2 i2' i3 i3' hL1 hL2 h5 ⊢
  refine ⟨⟨⟨?_, ?_, ?_, ?_, ?_, ?_, ?_, ?_, ?_, ?_⟩, ?_⟩, ?_, ?_, ?_, ?_, ?_, ?_, ?_, ?_⟩ <;> first | linarith | (norm_num; linarith)

end Diffmah.F32

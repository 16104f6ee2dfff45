import Verif.Lemmas.PopRound
import Verif.Props.Utils
import Verif.Model.TPeak

/-!
# Lemmas about the population kernels
-/

namespace Diffmah

namespace Pop

theorem usigmoid_Ioo {x x0 k ylo yhi a b : ℝ} (h1 : a < ylo ∧ ylo < b) (h2 : a < yhi ∧ yhi < b) :
    a < Utils.sigmoid x x0 k ylo yhi ∧ Utils.sigmoid x x0 k ylo yhi < b :=
  sigmoid_mem_Ioo_of h1.1 h1.2 h2.1 h2.2

theorem bget {bounds : List (String × ℝ × ℝ)} {p : NT ℝ} (h : Spec.Bounded bounds p) (n : String)
    (b : ℝ × ℝ) (hm : (n, b) ∈ bounds) :
    ∃ v, p.lookup n = some v ∧ p.getattr n = .ok v ∧ b.1 < v ∧ v < b.2 := by
  obtain ⟨v, hv, h1, h2⟩ := h (n, b) hm
  exact ⟨v, hv, NT.getattr_eq_ok.2 hv, h1, h2⟩

theorem mem_withSuffix {β : Type} {sfx : String} {l : NT β} {n : String} {b : β} (h : (n, b) ∈ l) :
    (n ++ sfx, b) ∈ withSuffix sfx l := List.mem_map.2 ⟨(n, b), h, rfl⟩

theorem clip_real (x lo hi : ℝ) : (clip x lo hi : ℝ) = min (max x lo) hi := rfl

theorem clip_mem {x lo hi : ℝ} (h : lo ≤ hi) : lo ≤ (clip x lo hi : ℝ) ∧ (clip x lo hi : ℝ) ≤ hi :=
  ⟨le_min (le_max_right _ _) h, min_le_right _ _⟩

theorem clip_mono {x y lo hi : ℝ} (h : x ≤ y) : (clip x lo hi : ℝ) ≤ clip y lo hi :=
  min_le_min_right _ (max_le_max_right _ h)

theorem clip_id {x lo hi : ℝ} (h1 : lo ≤ x) (h2 : x ≤ hi) : (clip x lo hi : ℝ) = x := by
  rw [clip_real, max_eq_left h1, min_eq_left h2]

/-! ### Shape kernels -/

theorem early_index_val {sfx : String} {p : NT ℝ} (h : Spec.Bounded (EARLY_INDEX_BOUNDS_PDICT sfx) p)
    (lgm t_obs t_peak : ℝ) :
    ∃ e, pred_early_index_kern sfx p lgm t_obs t_peak = .ok e ∧ 0.5 < e ∧ e < 4 := by
  obtain ⟨a1, -, e1, -⟩ := bget h _ _ (mem_withSuffix (n := "early_index_ylo_x0") (b := (1.0, 7.0)) (by simp))
  obtain ⟨a2, -, e2, b2, c2⟩ := bget h _ _ (mem_withSuffix (n := "early_index_ylo_ylo") (b := (1.0, 3.5)) (by simp))
  obtain ⟨a3, -, e3, b3, c3⟩ := bget h _ _ (mem_withSuffix (n := "early_index_ylo_yhi") (b := (0.5, 3.0)) (by simp))
  obtain ⟨a4, -, e4, b4, c4⟩ := bget h _ _ (mem_withSuffix (n := "early_index_yhi_ylo") (b := (2.0, 4.0)) (by simp))
  obtain ⟨a5, -, e5, b5, c5⟩ := bget h _ _ (mem_withSuffix (n := "early_index_yhi_yhi") (b := (1.5, 4.0)) (by simp))
  obtain ⟨a6, -, e6, -⟩ := bget h _ _ (mem_withSuffix (n := "early_index_yhi_x0") (b := (4.0, 13.0)) (by simp))
  obtain ⟨a7, -, e7, -⟩ := bget h _ _ (mem_withSuffix (n := "early_index_lgm_x0") (b := (12.0, 14.0)) (by simp))
  refine ⟨_, by
    unfold pred_early_index_kern
    simp only [e1, e2, e3, e4, e5, e6, e7, bind, Except.bind, pure, Except.pure]
    rfl, ?_⟩
  have hlo : 0.5 < get_early_index_ylo a1 a2 a3 t_peak ∧ get_early_index_ylo a1 a2 a3 t_peak < 4 :=
    usigmoid_Ioo ⟨by norm_num at b2 ⊢; linarith, by norm_num at c2 ⊢; linarith⟩
      ⟨by norm_num at b3 ⊢; linarith, by norm_num at c3 ⊢; linarith⟩
  have hhi : 0.5 < get_early_index_yhi a6 a4 a5 t_obs ∧ get_early_index_yhi a6 a4 a5 t_obs < 4 :=
    usigmoid_Ioo ⟨by norm_num at b4 ⊢; linarith, by norm_num at c4 ⊢; linarith⟩
      ⟨by norm_num at b5 ⊢; linarith, by norm_num at c5 ⊢; linarith⟩
  have := usigmoid_Ioo (x := lgm) (x0 := a7) (k := JOps.lit 1.0) hlo hhi
  rw [clip_id (by simp only [MAH_PBOUNDS, EPS]; norm_num at this ⊢; linarith)
    (by simp only [MAH_PBOUNDS, EPS]; norm_num at this ⊢; linarith)]
  exact this

theorem late_index_val {sfx : String} {p : NT ℝ} (h : Spec.Bounded (LATE_INDEX_BOUNDS_PDICT sfx) p)
    (lgm : ℝ) :
    ∃ l, pred_late_index_kern sfx p lgm = .ok l ∧ 0.101 ≤ l ∧ l < 0.2 := by
  obtain ⟨a1, -, e1, -⟩ := bget h _ _ (mem_withSuffix (n := "late_index_x0") (b := (11.5, 14.0)) (by simp))
  obtain ⟨a2, -, e2, b2, c2⟩ := bget h _ _ (mem_withSuffix (n := "late_index_ylo") (b := (0.01, 0.2)) (by simp))
  obtain ⟨a3, -, e3, b3, c3⟩ := bget h _ _ (mem_withSuffix (n := "late_index_yhi") (b := (0.01, 0.2)) (by simp))
  refine ⟨_, by
    unfold pred_late_index_kern
    simp only [e1, e2, e3, bind, Except.bind, pure, Except.pure]
    rfl, ?_⟩
  have := usigmoid_Ioo (x := lgm) (x0 := a1) (k := JOps.lit 1.0) ⟨b2, c2⟩ ⟨b3, c3⟩
  have hlo : MAH_PBOUNDS.late_index.1 + EPS = 0.101 := by simp only [MAH_PBOUNDS, EPS]; norm_num
  have hhi : MAH_PBOUNDS.late_index.2 - EPS = 4.999 := by simp only [MAH_PBOUNDS, EPS]; norm_num
  rw [hlo, hhi]
  refine ⟨(clip_mem (by norm_num)).1, ?_⟩
  rw [clip_real]
  refine (min_le_left _ _).trans_lt (max_lt this.2 (by norm_num))

theorem logtc_val {sfx : String} {p : NT ℝ} (h : Spec.Bounded (LOGTC_BOUNDS_PDICT sfx) p)
    (lgm t_obs t_peak : ℝ) :
    ∃ c, pred_logtc_kern sfx p lgm t_obs t_peak = .ok c ∧ -0.999 ≤ c ∧ c ≤ 0.999 := by
  obtain ⟨a1, -, e1, -⟩ := bget h _ _ (mem_withSuffix (n := "logtc_lgm_c0_tp_ytp_tobs_c0") (b := (0.2, 0.9)) (by simp))
  obtain ⟨a2, -, e2, -⟩ := bget h _ _ (mem_withSuffix (n := "logtc_lgm_c0_tp_ytp_tobs_c1") (b := (0.0, 0.05)) (by simp))
  obtain ⟨a3, -, e3, -⟩ := bget h _ _ (mem_withSuffix (n := "logtc_lgm_c0_tp_ylo") (b := (0.02, 0.15)) (by simp))
  obtain ⟨a4, -, e4, -⟩ := bget h _ _ (mem_withSuffix (n := "logtc_lgm_c0_tp_yhi") (b := (-0.25, 0.0)) (by simp))
  obtain ⟨a5, -, e5, -⟩ := bget h _ _ (mem_withSuffix (n := "logtc_lgm_c1") (b := (0.02, 0.15)) (by simp))
  obtain ⟨a6, -, e6, -⟩ := bget h _ _ (mem_withSuffix (n := "logtc_c0_ss_x0") (b := (11.0, 13.0)) (by simp))
  refine ⟨_, by
    unfold pred_logtc_kern logtc_get_c0
    simp only [e1, e2, e3, e4, e5, e6, bind, Except.bind, pure, Except.pure]
    rfl, ?_⟩
  have hlo : MAH_PBOUNDS.logtc.1 + EPS = -0.999 := by simp only [MAH_PBOUNDS, EPS]; norm_num
  have hhi : MAH_PBOUNDS.logtc.2 - EPS = 0.999 := by simp only [MAH_PBOUNDS, EPS]; norm_num
  rw [hlo, hhi]
  exact clip_mem (by norm_num)

/-! ### logm0 -/

/-- `c1` is positive, and bounded for non-negative times; `c0` is positive and bounded for
`0 ≤ t_obs ≤ 15`, `0 ≤ t_peak`. -/
theorem logm0_coeffs {sfx : String} {p : NT ℝ} (h0 : Spec.Bounded (LGM0POP_C0_BOUNDS_DICT sfx) p)
    (h1 : Spec.Bounded (LGM0POP_C1_BOUNDS_DICT sfx) p) (t_obs t_peak : ℝ) :
    ∃ c0 c1, (∀ lgm, pred_logm0_kern sfx p lgm t_obs t_peak = .ok (lgm + (c0 + c1 * (lgm - 12)))) ∧
      0.001 < c1 ∧ (0 ≤ t_obs → c1 < 0.6) ∧ (t_obs ≤ 15 → 0.01 < c0) ∧
      (0 ≤ t_obs → 0 ≤ t_peak → c0 < 2.65) := by
  obtain ⟨a1, -, e1, b1, c1⟩ := bget h0 _ _ (mem_withSuffix (n := "lgm0pop_c0_ytp") (b := (0.01, 0.4)) (by simp))
  obtain ⟨a2, -, e2, b2, c2⟩ := bget h0 _ _ (mem_withSuffix (n := "lgm0pop_c0_ylo") (b := (-0.15, -0.05)) (by simp))
  obtain ⟨a3, -, e3, b3, c3⟩ := bget h0 _ _ (mem_withSuffix (n := "lgm0pop_c0_clip_c0") (b := (0.5, 0.9)) (by simp))
  obtain ⟨a4, -, e4, b4, c4⟩ := bget h0 _ _ (mem_withSuffix (n := "lgm0pop_c0_clip_c1") (b := (-0.1, -0.01)) (by simp))
  obtain ⟨a5, -, e5, b5, c5⟩ := bget h0 _ _ (mem_withSuffix (n := "lgm0pop_c0_t_obs_x0") (b := (1.5, 6.0)) (by simp))
  obtain ⟨d1, -, f1, g1, i1⟩ := bget h1 _ _ (mem_withSuffix (n := "lgm0pop_c1_ytp") (b := (0.001, 0.1)) (by simp))
  obtain ⟨d2, -, f2, g2, i2⟩ := bget h1 _ _ (mem_withSuffix (n := "lgm0pop_c1_ylo") (b := (-0.05, -0.001)) (by simp))
  obtain ⟨d3, -, f3, g3, i3⟩ := bget h1 _ _ (mem_withSuffix (n := "lgm0pop_c1_clip_x0") (b := (4.0, 11.0)) (by simp))
  obtain ⟨d4, -, f4, g4, i4⟩ := bget h1 _ _ (mem_withSuffix (n := "lgm0pop_c1_clip_ylo") (b := (0.02, 0.15)) (by simp))
  obtain ⟨d5, -, f5, g5, i5⟩ := bget h1 _ _ (mem_withSuffix (n := "lgm0pop_c1_clip_yhi") (b := (0.001, 0.05)) (by simp))
  obtain ⟨d6, -, f6, g6, i6⟩ := bget h1 _ _ (mem_withSuffix (n := "lgm0pop_c1_t_obs_x0") (b := (3.0, 10.0)) (by simp))
  refine ⟨max (Utils.sig_slope t_obs 15 a1 a5 0.25 a2 0.0) (a3 + a4 * t_peak),
    max (Utils.sig_slope t_obs 10.0 d1 d6 0.25 d2 0.0) (Utils.sigmoid t_peak d3 1.0 d4 d5), ?_, ?_, ?_, ?_, ?_⟩
  · intro lgm
    unfold pred_logm0_kern pred_c0_kern pred_c1_kern
    simp only [e1, e2, e3, e4, e5, f1, f2, f3, f4, f5, f6, bind, Except.bind, pure, Except.pure]
    norm_num [JOps.lit, JMinMax.jmax]
  · refine lt_max_of_lt_right ?_
    exact (usigmoid_Ioo (a := 0.001) (b := 1) ⟨by norm_num at g4 ⊢; linarith, by norm_num at i4 ⊢; linarith⟩
      ⟨by norm_num at g5 ⊢; linarith, by norm_num at i5 ⊢; linarith⟩).1
  · intro ht
    apply max_lt
    · have hs := usigmoid_Ioo (x := t_obs) (x0 := d6) (k := 0.25) (ylo := d2) (yhi := 0.0) (a := -0.05) (b := 0.01)
        ⟨g2, by norm_num at i2 ⊢; linarith⟩ ⟨by norm_num, by norm_num⟩
      have hs2 : Utils.sigmoid t_obs d6 0.25 d2 0.0 < 0 := by
        have := (sigmoid_mem_Ioo (x := t_obs) (x0 := d6) (k := 0.25) (ylo := d2) (yhi := 0.0) (by norm_num at i2 ⊢; linarith)).2
        norm_num at this ⊢; exact this
      unfold Utils.sig_slope
      norm_num at hs hs2 i1 ⊢
      nlinarith
    · exact (usigmoid_Ioo (a := 0) (b := 0.6) ⟨by norm_num at g4 ⊢; linarith, by norm_num at i4 ⊢; linarith⟩
      ⟨by norm_num at g5 ⊢; linarith, by norm_num at i5 ⊢; linarith⟩).2
  · intro ht
    refine lt_max_of_lt_left ?_
    have hs2 : Utils.sigmoid t_obs a5 0.25 a2 0.0 < 0 := by
      have := (sigmoid_mem_Ioo (x := t_obs) (x0 := a5) (k := 0.25) (ylo := a2) (yhi := 0.0) (by norm_num at c2 ⊢; linarith)).2
      norm_num at this ⊢; exact this
    unfold Utils.sig_slope
    norm_num at hs2 b1 ⊢
    nlinarith
  · intro ht hp
    apply max_lt
    · have hs := usigmoid_Ioo (x := t_obs) (x0 := a5) (k := 0.25) (ylo := a2) (yhi := 0.0) (a := -0.15) (b := 0.01)
        ⟨b2, by norm_num at c2 ⊢; linarith⟩ ⟨by norm_num, by norm_num⟩
      have hs2 : Utils.sigmoid t_obs a5 0.25 a2 0.0 < 0 := by
        have := (sigmoid_mem_Ioo (x := t_obs) (x0 := a5) (k := 0.25) (ylo := a2) (yhi := 0.0) (by norm_num at c2 ⊢; linarith)).2
        norm_num at this ⊢; exact this
      unfold Utils.sig_slope
      norm_num at hs hs2 c1 ⊢
      nlinarith
    · norm_num at c3 c4 ⊢
      nlinarith

end Pop

end Diffmah

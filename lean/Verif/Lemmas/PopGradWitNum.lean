import Verif.Lemmas.PopGradWit
import Verif.Lemmas.PopDefault

/-!
# The default parameters meet no tie

Numerical facts about the default parameters at observed log mass 12, time 15 and the two peak times
`1/2` and `1.5015`.
-/

set_option maxRecDepth 10000

namespace Diffmah

namespace PopGrad

open JOps JMinMax JFlow Pop TPeak PopParams MC

theorem sigm_bounds (x : ℝ) : 0 < Real.sigmoid x ∧ Real.sigmoid x < 1 :=
  ⟨Real.sigmoid_pos x, Real.sigmoid_lt_one x⟩

/-- `σ(-x) ≤ 1 / (2 + x)` for `x ≥ 0`. -/
theorem sigm_neg_le {x : ℝ} (h : 0 ≤ x) : Real.sigmoid (-x) ≤ 1 / (2 + x) := by
  rw [Real.sigmoid_def, neg_neg, one_div]
  apply inv_anti₀ (by linarith)
  have := Real.add_one_le_exp x
  linarith

theorem sigm_le_of_le {x y : ℝ} (hy : 0 ≤ y) (h : x ≤ -y) : Real.sigmoid x ≤ 1 / (2 + y) :=
  (Real.sigmoid_monotone h).trans (sigm_neg_le hy)

theorem mix_bounds {a b lo hi s : ℝ} (h1 : a < lo) (h2 : lo < b) (h3 : a < hi) (h4 : hi < b) (h5 : 0 < s)
    (h6 : s < 1) : a < lo + (hi - lo) * s ∧ lo + (hi - lo) * s < b := by
  constructor <;> nlinarith

macro "dflt" "[" ls:Lean.Parser.Tactic.simpLemma,* "]" "at" h:ident : tactic =>
  `(tactic| simp [DEFAULT_COMPONENTS, Component.app, withSuffix, NT.getattr, List.lookup, bind, Except.bind,
      pure, Except.pure, $ls,*] at $h:ident)

theorem early_raw_default (s : String) (hs : s ∈ ["_alpha", "_beta"]) (lgm t tp r : ℝ)
    (h : early_index_raw s DEFAULT_COMPONENTS.early_index lgm t tp = .ok r) : 0.5 < r ∧ r < 4 := by
  simp only [List.mem_cons, List.not_mem_nil, or_false] at hs
  rcases hs with rfl | rfl
  all_goals
    dflt [early_index_raw, EARLY_INDEX_BIMOD_eq, EARLY_INDEX_ALPHA, EARLY_INDEX_BETA] at h
    rw [← h]
    unfold Utils.sigmoid get_early_index_ylo get_early_index_yhi Utils.sigmoid
    have key : ∀ a b c d u v w : ℝ, 0.5 < a → a < 4 → 0.5 < b → b < 4 → 0.5 < c → c < 4 → 0.5 < d → d < 4 →
        (0 < u ∧ u < 1) → (0 < v ∧ v < 1) → (0 < w ∧ w < 1) →
        0.5 < (a + (b - a) * u) + ((c + (d - c) * v) - (a + (b - a) * u)) * w ∧
        (a + (b - a) * u) + ((c + (d - c) * v) - (a + (b - a) * u)) * w < 4 := by
      intro a b c d u v w a1 a2 b1 b2 c1 c2 d1 d2 hu hv hw
      obtain ⟨x1, x2⟩ := mix_bounds a1 a2 b1 b2 hu.1 hu.2
      obtain ⟨y1, y2⟩ := mix_bounds c1 c2 d1 d2 hv.1 hv.2
      exact mix_bounds x1 x2 y1 y2 hw.1 hw.2
    exact key _ _ _ _ _ _ _ (by norm_num) (by norm_num) (by norm_num) (by norm_num) (by norm_num) (by norm_num)
      (by norm_num) (by norm_num) (sigm_bounds _) (sigm_bounds _) (sigm_bounds _)

theorem late_raw_default (s : String) (hs : s ∈ ["_alpha", "_beta"]) (lgm r : ℝ)
    (h : late_index_raw s DEFAULT_COMPONENTS.late_index lgm = .ok r) : r = 0.19 := by
  simp only [List.mem_cons, List.not_mem_nil, or_false] at hs
  rcases hs with rfl | rfl
  all_goals
    dflt [late_index_raw, LATE_INDEX_BIMOD_eq, LATE_INDEX_ALPHA, LATE_INDEX_BETA] at h
    rw [← h]
    unfold Utils.sigmoid
    norm_num

theorem logtc_raw_default (s : String) (hs : s ∈ ["_early", "_late"]) (tp r : ℝ) (h1 : 0.4 ≤ tp) (h2 : tp ≤ 1.6)
    (h : logtc_raw s DEFAULT_COMPONENTS.logtc 12 15 tp = .ok r) : -0.5 < r ∧ r < 0.5 := by
  simp only [List.mem_cons, List.not_mem_nil, or_false] at hs
  norm_num at h1 h2
  rcases hs with rfl | rfl
  · dflt [logtc_raw, logtc_get_c0, LOGTC_BIMOD_eq, LOGTC_EARLY, LOGTC_LATE] at h
    rw [← h]
    unfold Utils.sig_slope Utils.sigmoid
    change -0.5 < 0.447 + 2e-3 * 15 + (69e-3 + (-0.201 - 69e-3) * Real.sigmoid (0.5 * (tp - 12.221))) * (tp - 10.0) +
      0.130 * (12 - 12.0) ∧ 0.447 + 2e-3 * 15 + (69e-3 + (-0.201 - 69e-3) * Real.sigmoid (0.5 * (tp - 12.221))) *
      (tp - 10.0) + 0.130 * (12 - 12.0) < 0.5
    have a1 := (sigm_bounds (0.5 * (tp - 12.221))).1
    have a2 := sigm_le_of_le (x := 0.5 * (tp - 12.221)) (y := 5) (by norm_num) (by norm_num; linarith)
    generalize Real.sigmoid (0.5 * (tp - 12.221)) = u at a1 a2 ⊢
    norm_num at a2 ⊢
    constructor <;> nlinarith
  · dflt [logtc_raw, logtc_get_c0, LOGTC_BIMOD_eq, LOGTC_EARLY, LOGTC_LATE] at h
    rw [← h]
    unfold Utils.sig_slope Utils.sigmoid
    change -0.5 < 0.898 + 5e-3 * 15 + (0.118 + (-6e-3 - 0.118) * Real.sigmoid (0.5 * (tp - 11.091))) * (tp - 10.0) +
      0.146 * (12 - 12.0) ∧ 0.898 + 5e-3 * 15 + (0.118 + (-6e-3 - 0.118) * Real.sigmoid (0.5 * (tp - 11.091))) *
      (tp - 10.0) + 0.146 * (12 - 12.0) < 0.5
    have a1 := (sigm_bounds (0.5 * (tp - 11.091))).1
    have a2 := sigm_le_of_le (x := 0.5 * (tp - 11.091)) (y := 4) (by norm_num) (by norm_num; linarith)
    generalize Real.sigmoid (0.5 * (tp - 11.091)) = u at a1 a2 ⊢
    norm_num at a2 ⊢
    constructor <;> nlinarith

theorem c0_raw_default (s : String) (hs : s ∈ ["_early", "_late"]) (tp : ℝ) (r : ℝ × ℝ) (h2 : tp ≤ 1.6)
    (h : c0_raw s DEFAULT_COMPONENTS.logm0 15 tp = .ok r) : r.1 < r.2 := by
  simp only [List.mem_cons, List.not_mem_nil, or_false] at hs
  norm_num at h2
  rcases hs with rfl | rfl
  all_goals
    dflt [c0_raw, LOGM0_BIMOD_eq, LGM0_C0_EARLY, LGM0_C1_EARLY, LGM0_C0_LATE, LGM0_C1_LATE, lgm0pop_c0,
      lgm0pop_c1] at h
    rw [← h]
    unfold Utils.sig_slope
    simp only [lit, sub_self, mul_zero, add_zero]
    norm_num
    linarith

theorem c0_raw_default_sats (s : String) (hs : s ∈ ["_early_sats", "_late_sats"]) (tp : ℝ) (r : ℝ × ℝ)
    (h2 : tp ≤ 1.6) (h : c0_raw s DEFAULT_COMPONENTS.logm0_sats 15 tp = .ok r) : r.1 < r.2 := by
  simp only [List.mem_cons, List.not_mem_nil, or_false] at hs
  norm_num at h2
  rcases hs with rfl | rfl
  all_goals
    dflt [c0_raw, LOGM0_BIMOD_SATS_eq, LGM0_C0_EARLY_SATS, LGM0_C1_EARLY_SATS, LGM0_C0_LATE_SATS,
      LGM0_C1_LATE_SATS, lgm0pop_c0, lgm0pop_c1] at h
    rw [← h]
    unfold Utils.sig_slope
    simp only [lit, sub_self, mul_zero, add_zero]
    norm_num
    linarith

theorem slope_le {a b x0 k : ℝ} (hb : b < 0) : Utils.sig_slope 15 10.0 a x0 k b 0.0 ≤ a := by
  unfold Utils.sig_slope Utils.sigmoid
  change a + (b + (0.0 - b) * Real.sigmoid (k * (15 - x0))) * (15 - 10.0) ≤ _
  obtain ⟨h2, h3⟩ := sigm_bounds (k * (15 - x0))
  norm_num
  nlinarith

theorem c1_raw_default (s : String) (hs : s ∈ ["_early", "_late"]) (tp : ℝ) (r : ℝ × ℝ) (h2 : tp ≤ 1.6)
    (h : c1_raw s DEFAULT_COMPONENTS.logm0 15 tp = .ok r) : r.1 < r.2 := by
  simp only [List.mem_cons, List.not_mem_nil, or_false] at hs
  norm_num at h2
  rcases hs with rfl | rfl
  · dflt [c1_raw, LOGM0_BIMOD_eq, LGM0_C0_EARLY, LGM0_C1_EARLY, LGM0_C0_LATE, LGM0_C1_LATE, lgm0pop_c0,
      lgm0pop_c1] at h
    rw [← h]
    refine (slope_le (by norm_num)).trans_lt ?_
    exact (sigmoid_mem_Ioo' (by norm_num)).1
  · dflt [c1_raw, LOGM0_BIMOD_eq, LGM0_C0_EARLY, LGM0_C1_EARLY, LGM0_C0_LATE, LGM0_C1_LATE, lgm0pop_c0,
      lgm0pop_c1] at h
    rw [← h]
    refine (slope_le (by norm_num)).trans_lt ?_
    unfold Utils.sigmoid
    change (_ : ℝ) < 0.145 + (2e-3 - 0.145) * Real.sigmoid (1.0 * (tp - 8.443))
    have a2 := sigm_le_of_le (x := 1.0 * (tp - 8.443)) (y := 4) (by norm_num) (by norm_num; linarith)
    generalize Real.sigmoid (1.0 * (tp - 8.443)) = u at a2 ⊢
    norm_num at a2 ⊢
    linarith

theorem c1_raw_default_sats (s : String) (hs : s ∈ ["_early_sats", "_late_sats"]) (tp : ℝ) (r : ℝ × ℝ)
    (h : c1_raw s DEFAULT_COMPONENTS.logm0_sats 15 tp = .ok r) : r.1 < r.2 := by
  simp only [List.mem_cons, List.not_mem_nil, or_false] at hs
  rcases hs with rfl | rfl
  all_goals
    dflt [c1_raw, LOGM0_BIMOD_SATS_eq, LGM0_C0_EARLY_SATS, LGM0_C1_EARLY_SATS, LGM0_C0_LATE_SATS,
      LGM0_C1_LATE_SATS, lgm0pop_c0, lgm0pop_c1] at h
    rw [← h]
    refine (slope_le (by norm_num)).trans_lt (lt_trans ?_ (sigmoid_mem_Ioo' (by norm_num)).1)
    norm_num

theorem meanNoTies_default (kind : Kind) (tp : ℝ) (h1 : 0.4 ≤ tp) (h2 : tp ≤ 1.6) :
    MeanNoTies kind DEFAULT_COMPONENTS 12 15 tp := by
  refine ⟨?_, ?_, ?_, ?_, ?_⟩
  · intro s hs r hr
    have := early_raw_default s hs _ _ _ r hr
    norm_num at this ⊢
    constructor <;> intro h <;> linarith
  · intro s hs r hr
    have := late_raw_default s hs _ r hr
    rw [this]
    norm_num
  · intro s hs r hr
    have := logtc_raw_default s hs tp r h1 h2 hr
    norm_num at this ⊢
    constructor <;> intro h <;> linarith
  · rintro rfl s hs r (hr | hr)
    · exact (c0_raw_default s hs tp r h2 hr).ne
    · exact (c1_raw_default s hs tp r h2 hr).ne
  · rintro rfl s hs r (hr | hr)
    · exact (c0_raw_default_sats s hs tp r h2 hr).ne
    · exact (c1_raw_default_sats s hs tp r hr).ne

end PopGrad

end Diffmah

import Verif.Lemmas.Float32Mean
import Verif.Props.Float32Trip
import Verif.Props.MCMean

/-!
# C127: population predictions and Monte Carlo haloes in single precision

The population model turns a mass, a time and a peak time into the mean parameters of two kinds of haloes, by some hundred
operations on sixty-odd parameters, and the Monte Carlo functions add noise to the unbounded counterparts of these means. All
of it is done in single precision. C55 shows, over the reals, when the means are valid parameters; here are the accuracy of
the single-precision means and the consequences for the generated haloes.
-/

namespace Diffmah.F32

set_option maxRecDepth 10000

open JOps XR JMinMax Pop TPeak PopParams MC

/-- C127. The mean parameters of the early and late haloes and the early fraction, computed in single precision, are those of
exact arithmetic to within `2^-14`, and no name is missing and no value infinite or NaN. The parameters may be anywhere within
their bounds, and outside by the rounding of the bounds. The peak time is passed on unchanged. -/
theorem C127_mean_accurate [Libm] (ha : Libm.Accurate) (p : NT ℝ) (hp : p.map Prod.fst = FIELDS)
    (hb : ∀ b ∈ FULL.bounds, ∃ v, p.lookup b.1 = some v ∧ b.2.1 - 2 ^ (-20 : ℤ) ≤ v ∧ v ≤ b.2.2 + 2 ^ (-20 : ℤ))
    (kind : Kind) (lgm t_obs tp : ℝ) (hm0 : 0 ≤ lgm) (hm1 : lgm ≤ 20) (ht0 : 0 ≤ t_obs) (ht1 : t_obs ≤ 20) (hp0 : 0 ≤ tp)
    (hp1 : tp ≤ 20) :
    ∃ (e l : MahParams ℝ) (f : ℝ) (E L : MahParams ℝ) (F : ℝ),
      mean_diffmah_params_t_peak kind (p.mapv num) (num lgm) (num t_obs) (num tp) = .ok (e.map num, l.map num, num f) ∧
      mean_diffmah_params_t_peak kind p lgm t_obs tp = .ok (E, L, F) ∧
      (∀ mM ∈ [(e, E), (l, L)], |mM.1.logm0 - mM.2.logm0| ≤ 2 ^ (-14 : ℤ) ∧ |mM.1.logtc - mM.2.logtc| ≤ 2 ^ (-14 : ℤ) ∧
        |mM.1.early_index - mM.2.early_index| ≤ 2 ^ (-14 : ℤ) ∧ |mM.1.late_index - mM.2.late_index| ≤ 2 ^ (-14 : ℤ) ∧
        mM.1.t_peak = tp ∧ mM.2.t_peak = tp) ∧
      |f - F| ≤ 2 ^ (-14 : ℤ) := by
  obtain ⟨e, l, f, E, L, F, h1, h2, h3, h4, h5, h6, h7, -⟩ := mean_near ha hp hb kind (lgm := lgm) (t_obs := t_obs) (tp := tp)
    ⟨hm0, hm1, ht0, ht1, hp0, hp1⟩
  refine ⟨e, l, f, E, L, F, h1, h2, ?_, h5⟩
  simp only [List.forall_mem_cons, List.not_mem_nil, false_imp_iff, implies_true, and_true]
  exact ⟨⟨h3.logm0, h3.logtc, h3.early_index, h3.late_index, h3.t_peak.trans h6, h6⟩,
    ⟨h4.logm0, h4.logtc, h4.early_index, h4.late_index, h4.t_peak.trans h7, h7⟩⟩

/-- C127. For the masses and times the model is made for, the single-precision means are valid halo parameters, strictly inside
every bound and with `late < early`, and the early fraction is between a quarter and three quarters. -/
theorem C127_mean_valid [Libm] (ha : Libm.Accurate) (p : NT ℝ) (hp : p.map Prod.fst = FIELDS)
    (hb : ∀ b ∈ FULL.bounds, ∃ v, p.lookup b.1 = some v ∧ b.2.1 - 2 ^ (-20 : ℤ) ≤ v ∧ v ≤ b.2.2 + 2 ^ (-20 : ℤ))
    (kind : Kind) (lgm t_obs tp : ℝ) (hm0 : 4.5 ≤ lgm) (hm1 : lgm ≤ 13.4) (ht0 : 0 ≤ t_obs) (ht1 : t_obs ≤ 15)
    (hp0 : 0.05 < tp) (hp1 : tp < 20) :
    ∃ (e l : MahParams ℝ) (f : ℝ),
      mean_diffmah_params_t_peak kind (p.mapv num) (num lgm) (num t_obs) (num tp) = .ok (e.map num, l.map num, num f) ∧
      Spec.Valid e ∧ Spec.Valid l ∧ e.t_peak = tp ∧ l.t_peak = tp ∧ 0.249 < f ∧ f < 0.751 := by
  norm_num at hp0 hm0
  obtain ⟨e, l, f, E, L, F, h1, h2, h3, h4, h5, h6, h7, h8, h9, h10, h11⟩ := mean_near ha hp hb kind (lgm := lgm)
    (t_obs := t_obs) (tp := tp) ⟨by linarith, by norm_num at hm1; linarith, ht0, by linarith, by linarith, hp1.le⟩
  have v1 := h3.valid h6 h8 (by norm_num; exact hm0) hm1 ht1 (by norm_num; exact hp0) hp1
  have v2 := h4.valid h7 h9 (by norm_num; exact hm0) hm1 ht1 (by norm_num; exact hp0) hp1
  have e14 : (2 : ℝ) ^ (-14 : ℤ) ≤ 0.00007 := by norm_num
  obtain ⟨d1, d2⟩ := abs_le.1 h5
  refine ⟨e, l, f, h1, v1.1, v2.1, h3.t_peak.trans h6, h4.t_peak.trans h7, ?_, ?_⟩
  · generalize (2 : ℝ) ^ (-14 : ℤ) = c at *
    norm_num at h10 e14 ⊢; linarith only [h10, d1, e14]
  · generalize (2 : ℝ) ^ (-14 : ℤ) = c at *
    norm_num at h11 e14 ⊢; linarith only [h11, d2, e14]

/-! ## Scatter -/

theorem inv_finite [Libm] (ha : Libm.AccurateInverse) {x0 lo hi y : ℝ} (hx0 : |x0| ≤ 64) (w1 : 2 ^ (-10 : ℤ) ≤ hi - lo)
    (w2 : hi - lo ≤ 128) (h1 : 0.00001 * (hi - lo) ≤ y - lo) (h2 : 0.00001 * (hi - lo) ≤ hi - y) :
    ∃ u, inverse_sigmoid (num y) (num x0) (num κ) (num lo) (num hi) = num u := by
  have e0 := ε_pos
  have e1 := ε_small
  have hW : 0 < hi - lo := lt_of_lt_of_le (two_zpow_pos _) w1
  have big : ∀ {x : ℝ}, |x| ≤ 10000 → |x| ≤ 2 ^ (127 : ℕ) := fun h => h.trans (by norm_num)
  have hyl : 0 ≤ y - lo := le_trans (by positivity) h1
  have hyh : y ≤ hi := by have : 0 ≤ hi - y := le_trans (by positivity) h2
                          linarith
  have we := round_ε (hi - lo)
  have be := round_ε (y - lo)
  have s1 : num hi - num lo = num (round (hi - lo)) := sub_fin (big (by rw [abs_of_pos hW]; linarith))
  have s2 : num y - num lo = num (round (y - lo)) := sub_fin (big (by rw [abs_of_nonneg hyl]; linarith))
  have tiny : ε * (1 / 1000000) ≤ 0.01 * ε * (hi - lo) := by
    have : (1 : ℝ) / 1000000 ≤ 0.01 * (hi - lo) := by
      have : (2 : ℝ) ^ (-10 : ℤ) = 1 / 1024 := by norm_num
      rw [this] at w1; linarith
    calc _ ≤ ε * (0.01 * (hi - lo)) := mul_le_mul_of_nonneg_left this e0.le
      _ = _ := by ring
  have bw : round (y - lo) ≤ round (hi - lo) := round_mono (by linarith)
  have b0 : 0 ≤ round (y - lo) := round_nonneg (by linarith)
  rw [abs_of_pos hW] at we
  rw [abs_of_nonneg hyl] at be
  have we' : |round (hi - lo) - (hi - lo)| ≤ 1.01 * ε * (hi - lo) := by linarith only [we, tiny]
  have be' : |round (y - lo) - (y - lo)| ≤ 1.01 * ε * (hi - lo) := by
    have := mul_le_mul_of_nonneg_left (show y - lo ≤ hi - lo by linarith) e0.le
    linarith only [be, tiny, this]
  have eW : ε * (hi - lo) ≤ 1 / 10000000 * (hi - lo) := mul_le_mul_of_nonneg_right e1.le hW.le
  have wb := abs_le.1 we'
  have bb := abs_le.1 be'
  have hw1 : 2 ^ (-11 : ℤ) ≤ round (hi - lo) := by
    have : (2 : ℝ) ^ (-11 : ℤ) = 2 ^ (-10 : ℤ) / 2 := by norm_num
    rw [this]; generalize (2 : ℝ) ^ (-10 : ℤ) = c at *; linarith only [w1, wb.1, eW, hW]
  have ew : ε * round (hi - lo) ≤ 1.001 * ε * (hi - lo) := by
    have := mul_le_mul_of_nonneg_left wb.2 e0.le
    have h3 := mul_le_mul_of_nonneg_left eW e0.le
    have h4 := mul_pos e0 hW
    linarith only [this, h3, h4]
  unfold inverse_sigmoid
  simp only
  rw [s1, s2]
  rcases quot_cases b0 bw hw1 with ⟨-, hb⟩ | ⟨-, hb⟩ | ⟨r, h, r1, r2, -⟩
  · exfalso
    norm_num at h1 bb ew
    linarith only [hb, ew, bb.1, h1, eW, hW]
  · exfalso
    have hb := (abs_le.1 hb).2
    norm_num at h2 bb ew wb hb
    linarith only [hb, ew, bb.2, wb.1, h2, eW, hW]
  · obtain ⟨l, hl, hlL⟩ := ha.ln_acc r r1 r2
    have hL := log_bd r1 r2
    have k0 := κ_lo
    have kp : 0 < κ := by linarith
    have h4 : |l - Real.log r| ≤ 4 * ε * (1 + |Real.log r|) := by
      have : (2 : ℝ) ^ (-22 : ℤ) = 4 * ε := by unfold ε; norm_num
      rw [this] at hlL; exact hlL
    have la : |l| ≤ 101 := by
      have := abs_of_near h4 hL; nlinarith
    have lk : |l / κ| ≤ 1100 := by
      rw [abs_div, abs_of_pos kp, div_le_iff₀ kp]; nlinarith
    have d1 := round_ε (l / κ)
    have da : |round (l / κ)| ≤ 1200 := by
      have := abs_of_near d1 lk; nlinarith [abs_nonneg (l / κ)]
    have u0 : |x0 - round (l / κ)| ≤ 1300 := (abs_sub _ _).trans (by linarith)
    have s0 : (ln (num r) : F32) = num l := by change (⟨Libm.ln (fin r)⟩ : F32) = _; rw [hl]; rfl
    have s3 : num l / num κ = num (round (l / κ)) := div_fin kp.ne' (big (lk.trans (by norm_num)))
    exact ⟨_, by rw [h, s0, s3]; exact sub_fin (big (u0.trans (by norm_num)))⟩

theorem unbounded_finite [Libm] (ha : Libm.AccurateInverse) {b : ℝ × ℝ} (hb : Wide b) {y : ℝ}
    (h1 : 0.00003 * (b.2 - b.1) ≤ y - b.1) (h2 : 0.00003 * (b.2 - b.1) ≤ b.2 - y) (hs' : |b.1| + |b.2| ≤ 21 * (b.2 - b.1)) :
    ∃ u, get_unbounded_diffmah_param (num y) b = num u := by
  obtain ⟨lo, hi⟩ := b
  obtain ⟨hs, hw⟩ := hb
  simp only at hs hw h1 h2 hs' ⊢
  have e0 := ε_pos
  have e1 := ε_small
  have l0 := abs_nonneg lo
  have g0 := abs_nonneg hi
  have b1 : |lo| ≤ 2 ^ (7 : ℕ) := by norm_num; linarith
  have b2 : |hi| ≤ 2 ^ (7 : ℕ) := by norm_num; linarith
  have e7 : (2 : ℝ) ^ (7 : ℕ) ≤ 2 ^ (127 : ℕ) := pow_le127 (by norm_num)
  have rl := round_ε lo
  have rh := round_ε hi
  have eL : ε * |lo| ≤ 0.0001 := by nlinarith
  have eH : ε * |hi| ≤ 0.0001 := by nlinarith
  have al := abs_of_near rl le_rfl
  have ah := abs_of_near rh le_rfl
  have wl := abs_le.1 rl
  have wh := abs_le.1 rh
  have hmid : |round (1 / 2 * round (round lo + round hi))| ≤ 64 := by
    have s0 : |round lo + round hi| ≤ 127.01 := (abs_add_le _ _).trans (by linarith only [al, ah, eL, eH, hs, e1])
    have s1 := abs_of_near (round_ε (round lo + round hi)) s0
    have s1' : |round (round lo + round hi)| ≤ 127.02 := by nlinarith
    have s2 : |1 / 2 * round (round lo + round hi)| ≤ 63.51 := by
      rw [abs_mul, abs_of_pos (by norm_num)]; linarith
    have s3 := abs_of_near (round_ε (1 / 2 * round (round lo + round hi))) s2
    nlinarith
  have W1 : 2 ^ (-10 : ℤ) ≤ round hi - round lo := by
    have : (2 : ℝ) ^ (-10 : ℤ) ≤ 1 / 64 := by norm_num
    generalize (2 : ℝ) ^ (-10 : ℤ) = c at *
    linarith only [this, wl.2, wh.1, eL, eH, e1, hw]
  have W2 : round hi - round lo ≤ 128 := by
    have := le_abs_self hi
    have := neg_abs_le lo
    linarith only [wl.1, wh.2, eL, eH, e1, hs, this, le_abs_self hi]
  have eW : ε * |lo| + ε * |hi| + 2 * (ε * (1 / 1000000)) ≤ 0.000003 * (hi - lo) := by
    have m1 : ε * (|lo| + |hi|) ≤ 1 / 10000000 * (21 * (hi - lo)) := mul_le_mul e1.le hs' (by positivity) (by norm_num)
    have m2 : ε * (1 / 1000000) ≤ 1 / 10000000 * (1 / 1000000) := mul_le_mul_of_nonneg_right e1.le (by norm_num)
    norm_num at m1 m2 ⊢
    linarith only [m1, m2, hw]
  have q1 := mul_nonneg e0.le l0
  have q2 := mul_nonneg e0.le g0
  obtain ⟨u, hu⟩ := inv_finite ha (y := y) hmid W1 W2 (by norm_num at h1 eW wl wh ⊢; linarith only [wl.1, wl.2, wh.1, wh.2, h1, eW, hw, q1, q2, e0])
    (by norm_num at h2 eW wl wh ⊢; linarith only [wl.1, wl.2, wh.1, wh.2, h2, eW, hw, q1, q2, e0])
  refine ⟨u, ?_⟩
  unfold get_unbounded_diffmah_param
  simp only [BOUNDING_K]
  rw [(PopBounds.mid_fin b1 b2).1, lit_fin (b1.trans e7), lit_fin (b2.trans e7), lit_κ]
  exact hu

theorem add_not_nan {u : ℝ} {d : F32} (h : d.v ≠ nan) : (num u + d).v ≠ nan := by
  obtain ⟨v⟩ := d
  change rd (fin u + v) ≠ nan
  cases v with
  | fin x =>
    change rd (fin (u + x)) ≠ nan
    unfold rd; simp only; split_ifs <;> simp
  | pinf => change pinf ≠ nan; simp
  | ninf => change ninf ≠ nan; simp
  | nan => exact absurd rfl h

/-- The unbounded counterpart of a set of parameters well inside the bounds is finite. -/
theorem halo_unbounded_finite [Libm] (ha : Libm.AccurateInverse) {m : MahParams ℝ} (h1 : 0.001 ≤ m.logm0)
    (h2 : m.logm0 ≤ 16.99) (h3 : -0.9991 ≤ m.logtc) (h4 : m.logtc ≤ 0.9991) (h5 : 0.48 ≤ m.early_index)
    (h6 : m.early_index ≤ 4.1) (h7 : 0.1009 ≤ m.late_index) (h8 : m.late_index ≤ 0.22) (h9 : 0.051 ≤ m.t_peak)
    (h10 : m.t_peak ≤ 19.99) : ∃ u : MahUParams ℝ, get_unbounded_mah_params (m.map num) = u.map num := by
  norm_num at h1 h2 h3 h4 h5 h6 h7 h8 h9 h10
  obtain ⟨a, ea⟩ := unbounded_finite ha (b := MAH_PBOUNDS.logm0) (y := m.logm0)
    ⟨by norm_num [MAH_PBOUNDS], by norm_num [MAH_PBOUNDS]⟩ (by norm_num [MAH_PBOUNDS]; linarith)
    (by norm_num [MAH_PBOUNDS]; linarith) (by norm_num [MAH_PBOUNDS])
  obtain ⟨b, eb⟩ := unbounded_finite ha (b := MAH_PBOUNDS.logtc) (y := m.logtc)
    ⟨by norm_num [MAH_PBOUNDS], by norm_num [MAH_PBOUNDS]⟩ (by norm_num [MAH_PBOUNDS]; linarith)
    (by norm_num [MAH_PBOUNDS]; linarith) (by norm_num [MAH_PBOUNDS])
  obtain ⟨c, ec⟩ := unbounded_finite ha (b := MAH_PBOUNDS.late_index) (y := m.late_index)
    ⟨by norm_num [MAH_PBOUNDS, abs_of_pos], by norm_num [MAH_PBOUNDS]⟩ (by norm_num [MAH_PBOUNDS]; linarith)
    (by norm_num [MAH_PBOUNDS]; linarith) (by norm_num [MAH_PBOUNDS, abs_of_pos])
  obtain ⟨d, ed⟩ := unbounded_finite ha (b := MAH_PBOUNDS.t_peak) (y := m.t_peak)
    ⟨by norm_num [MAH_PBOUNDS, abs_of_pos], by norm_num [MAH_PBOUNDS]⟩ (by norm_num [MAH_PBOUNDS]; linarith)
    (by norm_num [MAH_PBOUNDS]; linarith) (by norm_num [MAH_PBOUNDS, abs_of_pos])
  have W1 : (2 : ℝ) ^ (-10 : ℤ) ≤ 10 - m.late_index := by
    have : (2 : ℝ) ^ (-10 : ℤ) ≤ 1 := by norm_num
    linarith
  obtain ⟨e, ee⟩ := inv_finite ha (x0 := 0) (lo := m.late_index) (hi := 10) (y := m.early_index) (by norm_num) W1 (by linarith)
    (by norm_num; linarith) (by norm_num; linarith)
  have hz : (lit 0.0 : F32) = num 0 := by
    rw [lit_fin (by norm_num), show (0.0 : ℝ) = 0 by norm_num, round_zero]; rfl
  have ht : (lit MAH_PBOUNDS.early_index.2 : F32) = num 10 := by
    have : round (10.0 : ℝ) = 10 := by
      have := round_rep (rep_nat 10 (by norm_num)); norm_num at this ⊢; exact this
    rw [show MAH_PBOUNDS.early_index.2 = 10.0 from rfl, lit_fin (by norm_num [abs_of_pos]), this]; rfl
  refine ⟨⟨a, b, e, c, d⟩, ?_⟩
  unfold get_unbounded_mah_params get_u_early_late
  simp only [MahParams.map]
  rw [ea, eb, ec, ed, hz, ht, show (BOUNDING_K : ℝ) = 0.1 from rfl, lit_κ, ee]
  rfl

/-- C127. Monte Carlo haloes. The unbounded counterparts of the means are finite, so that whatever is drawn and added to the first
four of them (any noise but NaN, however large, with any correlations), the parameters of the generated halo are within their
bounds, with `late <= early`, and its peak time is the one asked for, to within `2^-15`. Its mass history is then finite and
that of exact arithmetic with the same parameters, to within `2^-15` dex. -/
theorem C127_monte_carlo [Libm] (hs : Libm.Sane) (ha : Libm.AccurateInverse) (p : NT ℝ) (hp : p.map Prod.fst = FIELDS)
    (hb : ∀ b ∈ FULL.bounds, ∃ v, p.lookup b.1 = some v ∧ b.2.1 - 2 ^ (-20 : ℤ) ≤ v ∧ v ≤ b.2.2 + 2 ^ (-20 : ℤ))
    (kind : Kind) (lgm t_obs tp : ℝ) (hm0 : 4.5 ≤ lgm) (hm1 : lgm ≤ 13.4) (ht0 : 0 ≤ t_obs) (ht1 : t_obs ≤ 15)
    (hp0 : 0.051 ≤ tp) (hp1 : tp ≤ 19.99) :
    ∃ e l f, mean_diffmah_params_t_peak kind (p.mapv num) (num lgm) (num t_obs) (num tp) = .ok (e, l, f) ∧
      ∀ m ∈ [e, l],
        (∃ u : MahUParams ℝ, get_unbounded_mah_params m = u.map num) ∧
        ∀ d1 d2 d3 d4 : F32, d1.v ≠ nan → d2.v ≠ nan → d3.v ≠ nan → d4.v ≠ nan →
          ∃ h : MahParams ℝ, get_bounded_mah_params { get_unbounded_mah_params m with
              u_logm0 := (get_unbounded_mah_params m).u_logm0 + d1
              u_logtc := (get_unbounded_mah_params m).u_logtc + d2
              u_early_index := (get_unbounded_mah_params m).u_early_index + d3
              u_late_index := (get_unbounded_mah_params m).u_late_index + d4 } = h.map num ∧
            (0 ≤ h.logm0 ∧ h.logm0 ≤ 17) ∧ (-1 ≤ h.logtc ∧ h.logtc ≤ 1) ∧ (0.1 < h.late_index ∧ h.late_index ≤ 5) ∧
            (h.late_index ≤ h.early_index ∧ h.early_index ≤ 10) ∧ (0.05 < h.t_peak ∧ h.t_peak ≤ 20) ∧
            |h.t_peak - tp| ≤ 2 ^ (-15 : ℤ) ∧
            ∀ t lgt0 : ℝ, 0.05 ≤ t → t ≤ 20 → 0 ≤ lgt0 → lgt0 ≤ 4 / 3 →
              ∃ y, logmh_at_t_obs (h.map num) (num t) (num lgt0) = num y ∧
                |y - logmh_at_t_obs h t lgt0| ≤ 2 ^ (-15 : ℤ) := by
  have hp0' : 0.05 < tp := by norm_num at hp0 ⊢; linarith
  have hp1' : tp < 20 := by norm_num at hp1 ⊢; linarith
  norm_num at hm0
  obtain ⟨e, l, f, E, L, F, h1, h2, h3, h4, h5, h6, h7, h8, h9, -⟩ := mean_near ha.toAccurate hp hb kind (lgm := lgm)
    (t_obs := t_obs) (tp := tp)
    ⟨by linarith, by norm_num at hm1; linarith, ht0, by linarith, by norm_num at hp0; linarith, hp1'.le⟩
  have v1 := h3.valid h6 h8 (by norm_num; exact hm0) hm1 ht1 hp0' hp1'
  have v2 := h4.valid h7 h9 (by norm_num; exact hm0) hm1 ht1 hp0' hp1'
  refine ⟨_, _, _, h1, ?_⟩
  have key : ∀ {m M : MahParams ℝ}, M.t_peak = tp → Close m M →
      (Spec.Valid m ∧ 0.001 ≤ m.logm0 ∧ m.logm0 ≤ 16.99 ∧ -0.9991 ≤ m.logtc ∧ m.logtc ≤ 0.9991 ∧
      0.48 ≤ m.early_index ∧ m.early_index ≤ 4.1 ∧ 0.1009 ≤ m.late_index ∧ m.late_index ≤ 0.22) →
      (∃ u : MahUParams ℝ, get_unbounded_mah_params (m.map num) = u.map num) ∧
        ∀ d1 d2 d3 d4 : F32, d1.v ≠ nan → d2.v ≠ nan → d3.v ≠ nan → d4.v ≠ nan →
          ∃ h : MahParams ℝ, get_bounded_mah_params { get_unbounded_mah_params (m.map num) with
              u_logm0 := (get_unbounded_mah_params (m.map num)).u_logm0 + d1
              u_logtc := (get_unbounded_mah_params (m.map num)).u_logtc + d2
              u_early_index := (get_unbounded_mah_params (m.map num)).u_early_index + d3
              u_late_index := (get_unbounded_mah_params (m.map num)).u_late_index + d4 } = h.map num ∧
            (0 ≤ h.logm0 ∧ h.logm0 ≤ 17) ∧ (-1 ≤ h.logtc ∧ h.logtc ≤ 1) ∧ (0.1 < h.late_index ∧ h.late_index ≤ 5) ∧
            (h.late_index ≤ h.early_index ∧ h.early_index ≤ 10) ∧ (0.05 < h.t_peak ∧ h.t_peak ≤ 20) ∧
            |h.t_peak - tp| ≤ 2 ^ (-15 : ℤ) ∧
            ∀ t lgt0 : ℝ, 0.05 ≤ t → t ≤ 20 → 0 ≤ lgt0 → lgt0 ≤ 4 / 3 →
              ∃ y, logmh_at_t_obs (h.map num) (num t) (num lgt0) = num y ∧
                |y - logmh_at_t_obs h t lgt0| ≤ 2 ^ (-15 : ℤ) := by
    rintro m M hM hc ⟨-, w1, w2, w3, w4, w5, w6, w7, w8⟩
    have htp : m.t_peak = tp := hc.t_peak.trans hM
    obtain ⟨u, hu⟩ := halo_unbounded_finite ha w1 w2 w3 w4 w5 w6 w7 w8 (htp ▸ hp0) (htp ▸ hp1)
    refine ⟨⟨u, hu⟩, fun d1 d2 d3 d4 n1 n2 n3 n4 => ?_⟩
    have ut : get_unbounded_diffmah_param (num tp) MAH_PBOUNDS.t_peak = num u.u_t_peak := by
      have := congrArg MahUParams.u_t_peak hu
      rw [← htp]; exact this
    rw [hu]
    obtain ⟨h, e1, b1, b2, b3, b4, b5⟩ := C98_bounded_params hs
      ⟨num u.u_logm0 + d1, num u.u_logtc + d2, num u.u_early_index + d3, num u.u_late_index + d4, num u.u_t_peak⟩
      (add_not_nan n1) (add_not_nan n2) (add_not_nan n3) (add_not_nan n4) (by simp [num])
    have r05 := round_ε (0.05 : ℝ)
    have e0 := ε_pos
    have es := ε_small
    obtain ⟨t', et, at'⟩ := bounded_trip ha (b := MAH_PBOUNDS.t_peak)
      ⟨by norm_num [MAH_PBOUNDS, abs_of_pos], by norm_num [MAH_PBOUNDS]⟩ (y := tp)
      (by
        have := (abs_le.1 r05).2
        rw [abs_of_pos (by norm_num)] at this
        change round 0.05 ≤ tp
        norm_num at this hp0 ⊢
        linarith)
      (by
        have : round (20.0 : ℝ) = 20 := by
          have := round_rep (rep_nat 20 (by norm_num)); norm_num at this ⊢; exact this
        rw [show MAH_PBOUNDS.t_peak.2 = 20.0 from rfl, this]; exact hp1'.le)
    rw [ut] at et
    have ht' : h.t_peak = t' := by
      have := congrArg MahParams.t_peak e1
      have h' : get_bounded_diffmah_param (num u.u_t_peak) MAH_PBOUNDS.t_peak = num h.t_peak := this
      rw [et] at h'
      exact (XR.fin.inj (congrArg F32.v h')).symm
    refine ⟨h, e1, b1, b2, b3, b4, b5, ?_, fun t lgt0 t0 t1 g0 g1 => ?_⟩
    · rw [ht']
      refine at'.trans ?_
      have E15 : (2 : ℝ) ^ (-15 : ℤ) = 512 * ε := by unfold ε; norm_num
      rw [E15]
      norm_num [MAH_PBOUNDS, abs_of_pos]; linarith
    · have cb : ClosedBox h := ⟨b1.1, b1.2, b2.1, b2.2, b3.1.le, b3.2, b3.1.le.trans b4.1, b4.2, b5.1.le, b5.2⟩
      exact kern_near ha.toAccurate cb t0 t1 g0 g1
  simp only [List.forall_mem_cons, List.not_mem_nil, false_imp_iff, implies_true, and_true]
  exact ⟨key h6 h3 v1, key h7 h4 v2⟩

/-! ## The hypotheses can be met -/

/-- The real number in a finite binary32 value. -/
noncomputable def toR : F32 → ℝ
  | ⟨fin x⟩ => x
  | _ => 0

/-- A bound whose rounding error is below `2^-20 - 2^-28`. -/
def Mild (x : ℝ) : Prop := |x| ≤ 15 ∨ x = 100

theorem Mild.near {x : ℝ} (h : Mild x) : |round x - x| ≤ 2 ^ (-20 : ℤ) - 2 ^ (-28 : ℤ) := by
  rcases h with h | rfl
  · refine (round_ε x).trans ?_
    have e0 := ε_pos
    have m := mul_le_mul_of_nonneg_left h e0.le
    have : (2 : ℝ) ^ (-20 : ℤ) - 2 ^ (-28 : ℤ) = (16 - 1 / 16) * ε := by unfold ε; norm_num
    rw [this]; linarith only [m, e0]
  · have : round (100 : ℝ) = 100 := by exact_mod_cast round_rep (rep_nat 100 (by norm_num))
    rw [this]; norm_num

def MildBounds (l : List (String × ℝ × ℝ)) : Prop := ∀ b ∈ l, Mild b.2.1 ∧ Mild b.2.2

theorem mild_app {l1 l2 : List (String × ℝ × ℝ)} (h1 : MildBounds l1) (h2 : MildBounds l2) : MildBounds (l1 ++ l2) :=
  fun b hb => (List.mem_append.1 hb).elim (h1 b) (h2 b)

local macro "mild_simp" : tactic => `(tactic| (simp only [MildBounds, withSuffix, List.map_cons, List.map_nil,
  List.forall_mem_cons, List.not_mem_nil, false_imp_iff, implies_true, and_true]; norm_num [Mild, abs_le]))

theorem mild_early (sfx : String) : MildBounds (EARLY_INDEX_BOUNDS_PDICT sfx) := by
  unfold EARLY_INDEX_BOUNDS_PDICT; mild_simp
theorem mild_late (sfx : String) : MildBounds (LATE_INDEX_BOUNDS_PDICT sfx) := by
  unfold LATE_INDEX_BOUNDS_PDICT; mild_simp
theorem mild_logtc (sfx : String) : MildBounds (LOGTC_BOUNDS_PDICT sfx) := by
  unfold LOGTC_BOUNDS_PDICT; mild_simp
theorem mild_c0 (sfx : String) : MildBounds (LGM0POP_C0_BOUNDS_DICT sfx) := by
  unfold LGM0POP_C0_BOUNDS_DICT; mild_simp
theorem mild_c1 (sfx : String) : MildBounds (LGM0POP_C1_BOUNDS_DICT sfx) := by
  unfold LGM0POP_C1_BOUNDS_DICT; mild_simp
theorem mild_fec : MildBounds FEC.bounds := by unfold FEC F_BOUNDS; mild_simp
theorem mild_cov : MildBounds COV.bounds := by
  unfold COV COV_X0_BOUNDS RHO_BOUNDS STD_BOUNDS; mild_simp
theorem mild_cens : MildBounds TPCENS.bounds := by unfold TPCENS; mild_simp
theorem mild_sats : MildBounds TPSATS.bounds := by unfold TPSATS; mild_simp

theorem full_mild : MildBounds FULL.bounds := by
  have h : ∀ c ∈ NINE, MildBounds c.bounds := by
    simp only [NINE, List.forall_mem_cons, List.not_mem_nil, false_imp_iff, implies_true, and_true]
    rw [LOGM0_BIMOD_eq, LOGM0_BIMOD_SATS_eq, LOGTC_BIMOD_eq, EARLY_INDEX_BIMOD_eq, LATE_INDEX_BIMOD_eq]
    exact ⟨mild_cens, mild_sats, mild_app (mild_app (mild_c0 _) (mild_c1 _)) (mild_app (mild_c0 _) (mild_c1 _)),
      mild_app (mild_app (mild_c0 _) (mild_c1 _)) (mild_app (mild_c0 _) (mild_c1 _)), mild_app (mild_logtc _) (mild_logtc _),
      mild_app (mild_early _) (mild_early _), mild_app (mild_late _) (mild_late _), mild_fec, mild_cov⟩
  intro b hb
  obtain ⟨l, hl, hbl⟩ := List.mem_flatten.1 (show b ∈ (NINE.map Component.bounds).flatten from hb)
  obtain ⟨c, hc, rfl⟩ := List.mem_map.1 hl
  exact h c hc b hbl

theorem full_good : ∀ b ∈ FULL.bounds, PopBounds.Good b := by
  have g := components_good
  have h : ∀ c ∈ NINE, ∀ b ∈ c.bounds, PopBounds.Good b := by
    simp only [NINE, List.forall_mem_cons (l := _ :: _), List.forall_mem_cons (l := [])]
    rw [LOGM0_BIMOD_eq, LOGM0_BIMOD_SATS_eq, LOGTC_BIMOD_eq, EARLY_INDEX_BIMOD_eq, LATE_INDEX_BIMOD_eq]
    refine ⟨g _ (by simp [COMPONENTS32]), g _ (by simp [COMPONENTS32]),
      good_app (good_app (g _ (by simp [COMPONENTS32])) (g _ (by simp [COMPONENTS32])))
        (good_app (g _ (by simp [COMPONENTS32])) (g _ (by simp [COMPONENTS32]))),
      good_app (good_app (g _ (by simp [COMPONENTS32])) (g _ (by simp [COMPONENTS32])))
        (good_app (g _ (by simp [COMPONENTS32])) (g _ (by simp [COMPONENTS32]))),
      good_app (g _ (by simp [COMPONENTS32])) (g _ (by simp [COMPONENTS32])),
      good_app (g _ (by simp [COMPONENTS32])) (g _ (by simp [COMPONENTS32])),
      good_app (g _ (by simp [COMPONENTS32])) (g _ (by simp [COMPONENTS32])),
      g _ (by simp [COMPONENTS32]), g _ (by simp [COMPONENTS32]), by simp⟩
  intro b hb
  obtain ⟨l, hl, hbl⟩ := List.mem_flatten.1 (show b ∈ (NINE.map Component.bounds).flatten from hb)
  obtain ⟨c, hc, rfl⟩ := List.mem_map.1 hl
  exact h c hc b hbl

theorem from_u_eq32 [Libm] {u : NT F32} (hu : u.fields = FULL.upnames) :
    PopGrad.get_diffmahpop_params_from_u_params u = FULL.get_bounded (aliasBy lateAliasU u) := by
  obtain ⟨x1, p1, c1, b1, f1⟩ := comp_bounded (c := TPCENS) (by simp [NINE]) TPCENS_na hu
  obtain ⟨x2, p2, c2, b2, f2⟩ := comp_bounded (c := TPSATS) (by simp [NINE]) TPSATS_na hu
  obtain ⟨x3, p3, c3, b3, f3⟩ := comp_bounded (c := LOGM0_BIMOD) (by simp [NINE]) LOGM0_BIMOD_na hu
  obtain ⟨x4, p4, c4, b4, f4⟩ :=
    comp_bounded (c := LOGM0_BIMOD_SATS) (by simp [NINE]) LOGM0_BIMOD_SATS_na hu
  obtain ⟨x5, p5, c5, b5, f5⟩ := comp_bounded (c := LOGTC_BIMOD) (by simp [NINE]) LOGTC_BIMOD_na hu
  obtain ⟨x6, p6, c6, b6, f6⟩ :=
    comp_bounded (c := EARLY_INDEX_BIMOD) (by simp [NINE]) EARLY_INDEX_BIMOD_na hu
  obtain ⟨x7, p7, c7, b7, f7⟩ := late_comp_bounded hu
  obtain ⟨x8, p8, c8, b8, f8⟩ := comp_bounded (c := FEC) (by simp [NINE]) FEC_na hu
  obtain ⟨x9, p9, c9, b9, f9⟩ := comp_bounded (c := COV) (by simp [NINE]) COV_na hu
  have hfull : FULL.get_bounded (aliasBy lateAliasU u) =
      .ok [p1, p2, p3, p4, p5, p6, p7, p8, p9].flatten :=
    catAll_get_bounded NINE_wf FULL_nodup
      (.cons f1 (.cons f2 (.cons f3 (.cons f4 (.cons f5 (.cons f6 (.cons f7 (.cons f8
        (.cons f9 .nil)))))))))
  have hff := get_bounded_fields FULL_wf hfull
  rw [hfull]
  unfold PopGrad.get_diffmahpop_params_from_u_params get_component_model_u_params bound_components
  simp only [logm0_bimod_bounded_eq, logm0_bimod_sats_bounded_eq, logtc_bimod_bounded_eq,
    early_index_bimod_bounded_eq, c1, c2, c3, c4, c5, c6, c7, c8, c9, bind, Except.bind, pure,
    Except.pure, b1, b2, b3, b4, b5, b6, b7, b8, b9, ComponentParams.toList]
  have hdf : (DEFAULT_DIFFMAHPOP_PARAMS.mapv (lit : ℝ → F32)).fields = FULL.fields := by
    rw [NT.fields_mapv, DEFAULT_eq]; rfl
  have := replace_all_blocks [p1, p2, p3, p4, p5, p6, p7, p8, p9] [] (DEFAULT_DIFFMAHPOP_PARAMS.mapv lit)
    (by rw [hdf, hff])
    (by rw [hdf]; simp only [NT.fields_nil, List.nil_append]; exact FULL_nodup)
  exact this

/-- C127. Where the hypotheses come from: whatever the unbounded parameters of the population model, in single precision and
without NaN (however large, or infinite), `get_diffmahpop_params_from_u_params` returns a full set of finite parameters that
meets the hypotheses of the other theorems of this claim. So no step of a fit can lead out of their reach. -/
theorem C127_from_unbounded [Libm] (hs : Libm.Sane) (u : NT F32) (hu : u.map Prod.fst = FIELDS.map ("u_" ++ ·))
    (hn : ∀ kv ∈ u, kv.2.v ≠ nan) :
    ∃ p : NT ℝ, PopGrad.get_diffmahpop_params_from_u_params u = .ok (p.mapv num) ∧ p.map Prod.fst = FIELDS ∧
      ∀ b ∈ FULL.bounds, ∃ v, p.lookup b.1 = some v ∧ b.2.1 - 2 ^ (-20 : ℤ) ≤ v ∧ v ≤ b.2.2 + 2 ^ (-20 : ℤ) := by
  have hu1 : u.fields = FULL.upnames := by rw [full_upnames]; exact hu
  have hun : u.fields.Nodup := by rw [hu1]; exact NAMES_U_nodup
  have haf : (aliasBy lateAliasU u).fields = FULL.upnames := by rw [aliasBy_fields, hu1]
  obtain ⟨q, hq, hr⟩ := comp_range hs FULL_wf full_good (u := aliasBy lateAliasU u) (by
      have := haf
      simp only [Component.upnames, Component.fields, NT.fields, List.map_map] at this; exact this) (by
    intro kv hkv
    have hk : kv.1 ∈ (aliasBy lateAliasU u).fields := List.mem_map.2 ⟨kv, hkv, rfl⟩
    rw [haf] at hk
    have h1 := aliasBy_lookup lateAliasU hun (by rw [hu1]; exact hk) (by rw [hu1]; exact lateAliasU_mem hk)
    have h2 := NT.lookup_of_mem (by rw [haf]; exact NAMES_U_nodup) (show (kv.1, kv.2) ∈ aliasBy lateAliasU u from hkv)
    rw [h2] at h1
    exact hn (lateAliasU kv.1, kv.2) (NT.mem_of_lookup h1.symm))
  obtain ⟨hqf, hqb⟩ := hr
  have hqn : q.fields.Nodup := by
    have : q.fields = FULL.fields := hqf
    rw [this]; exact FULL_nodup
  have hfin : ∀ kv ∈ q, kv.2 = num (toR kv.2) := by
    intro kv hkv
    have hk : kv.1 ∈ q.map Prod.fst := List.mem_map.2 ⟨kv, hkv, rfl⟩
    rw [hqf] at hk
    have hs' := FULL_wf.same
    have hk' : kv.1 ∈ FULL.bounds.map Prod.fst := by
      change kv.1 ∈ NT.fields FULL.bounds
      rw [hs']; exact hk
    obtain ⟨b, hb, hbe⟩ := List.mem_map.1 hk'
    obtain ⟨y, hy, -⟩ := hqb b hb
    have h2 := NT.lookup_of_mem hqn (show (kv.1, kv.2) ∈ q from hkv)
    rw [hbe, h2] at hy
    rw [Option.some.inj hy]; rfl
  have hmap : NT.mapv num (NT.mapv toR q) = q := by
    unfold NT.mapv
    rw [List.map_map]
    conv_rhs => rw [← List.map_id q]
    refine List.map_congr_left fun kv hkv => ?_
    exact Prod.ext rfl (hfin kv hkv).symm
  refine ⟨NT.mapv toR q, by rw [from_u_eq32 hu1, hq, hmap], ?_, fun b hb => ?_⟩
  · have : NT.fields (NT.mapv toR q) = q.fields := NT.fields_mapv _ _
    change NT.fields (NT.mapv toR q) = _
    rw [this]
    have h3 : q.fields = FULL.fields := hqf
    rw [h3, FULL_fields, FIELDS_eq]
  · obtain ⟨y, hy, h1, h2, -⟩ := hqb b hb
    obtain ⟨m1, m2⟩ := full_mild b hb
    have m1 := abs_le.1 m1.near
    have m2 := abs_le.1 m2.near
    have p28 := two_zpow_pos (-28)
    refine ⟨y, ?_, ?_, ?_⟩
    · rw [NT.lookup_mapv, hy]; rfl
    · linarith only [m1.1, h1, p28]
    · linarith only [m2.2, h2]

/-- The hypotheses are met: by any parameters within their bounds, for a halo of `10^12` solar masses seen today. -/
example : ∃ L : Libm, @Libm.Sane L ∧ @Libm.Accurate L ∧ @Libm.AccurateInverse L ∧ ∃ p : NT ℝ, p.map Prod.fst = FIELDS ∧
    (∀ b ∈ FULL.bounds, ∃ v, p.lookup b.1 = some v ∧ b.2.1 - 2 ^ (-20 : ℤ) ≤ v ∧ v ≤ b.2.2 + 2 ^ (-20 : ℤ)) ∧
    ∃ lgm t_obs tp : ℝ, 4.5 ≤ lgm ∧ lgm ≤ 13.4 ∧ 0 ≤ t_obs ∧ t_obs ≤ 15 ∧ 0.051 ≤ tp ∧ tp ≤ 19.99 := by
  obtain ⟨p, hp, hb⟩ := exists_allInBounds
  rw [allInBounds_iff] at hb
  refine ⟨ideal, ideal_sane, ideal_accurate, ideal_accurateInverse, p, hp, fun b hm => ?_, 12, 13.5, 10, by norm_num,
    by norm_num, by norm_num, by norm_num, by norm_num, by norm_num⟩
  obtain ⟨v, hv, h1, h2⟩ := hb b hm
  have := two_zpow_pos (-20)
  exact ⟨v, hv, by linarith, by linarith⟩

/-- The hypotheses of `C127_from_unbounded` are met, with infinite values too. -/
example : ∃ L : Libm, @Libm.Sane L ∧ ∃ u : NT F32, u.map Prod.fst = FIELDS.map ("u_" ++ ·) ∧
    (∀ kv ∈ u, kv.2.v ≠ nan) ∧ ∃ kv ∈ u, kv.2.v = pinf := by
  have hm : "cov_lgm_x0_late" ∈ FIELDS := by rw [FIELDS_eq]; decide
  refine ⟨ideal, ideal_sane, FIELDS.map fun n => ("u_" ++ n, ⟨pinf⟩), ?_, ?_, _, List.mem_map.2 ⟨_, hm, rfl⟩, rfl⟩
  · rw [List.map_map]; rfl
  · intro kv hkv
    obtain ⟨n, -, rfl⟩ := List.mem_map.1 hkv
    simp

end Diffmah.F32

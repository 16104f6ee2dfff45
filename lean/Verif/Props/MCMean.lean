import Verif.Lemmas.MC

/-!
# Mean population parameters (C55)
-/

set_option maxRecDepth 10000

namespace Diffmah

open Pop TPeak PopParams MC

/-- The predicted present-day mass: a line in the observed mass, with bounded coefficients. -/
def Logm0Line (t_obs tp lgm m : ℝ) : Prop :=
  ∃ c0 c1, m = lgm + (c0 + c1 * (lgm - 12)) ∧ 0.001 < c1 ∧ (0 ≤ t_obs → c1 < 0.6) ∧
    (t_obs ≤ 15 → 0.01 < c0) ∧ (0 ≤ t_obs → 0 ≤ tp → c0 < 2.65)

theorem logm0_early_line (kind : Kind) {c : ComponentParams ℝ} (h : ComponentsBounded c)
    (lgm t_obs tp : ℝ) :
    ∃ m, pred_logm0_early kind c lgm t_obs tp = .ok m ∧ Logm0Line t_obs tp lgm m := by
  have h1 := h.logm0
  have h2 := h.logm0_sats
  rw [LOGM0_BIMOD_eq] at h1
  rw [LOGM0_BIMOD_SATS_eq] at h2
  have h1l := bounded_app_left h1
  have h2l := bounded_app_left h2
  cases kind
  · obtain ⟨c0, c1, hm, h3⟩ := logm0_coeffs (sfx := "_early") (bounded_app_left h1l) (bounded_app_right h1l) t_obs tp
    exact ⟨_, hm lgm, c0, c1, rfl, h3⟩
  · obtain ⟨c0, c1, hm, h3⟩ := logm0_coeffs (sfx := "_early_sats") (bounded_app_left h2l) (bounded_app_right h2l) t_obs tp
    exact ⟨_, hm lgm, c0, c1, rfl, h3⟩

theorem logm0_late_line (kind : Kind) {c : ComponentParams ℝ} (h : ComponentsBounded c)
    (lgm t_obs tp : ℝ) :
    ∃ m, pred_logm0_late kind c lgm t_obs tp = .ok m ∧ Logm0Line t_obs tp lgm m := by
  have h1 := h.logm0
  have h2 := h.logm0_sats
  rw [LOGM0_BIMOD_eq] at h1
  rw [LOGM0_BIMOD_SATS_eq] at h2
  have h1l := bounded_app_right h1
  have h2l := bounded_app_right h2
  cases kind
  · obtain ⟨c0, c1, hm, h3⟩ := logm0_coeffs (sfx := "_late") (bounded_app_left h1l) (bounded_app_right h1l) t_obs tp
    exact ⟨_, hm lgm, c0, c1, rfl, h3⟩
  · obtain ⟨c0, c1, hm, h3⟩ := logm0_coeffs (sfx := "_late_sats") (bounded_app_left h2l) (bounded_app_right h2l) t_obs tp
    exact ⟨_, hm lgm, c0, c1, rfl, h3⟩

/-- What is known of one mean parameter tuple. -/
structure MeanOk (lgm t_obs tp : ℝ) (m : MahParams ℝ) : Prop where
  shape : ShapeOk m.logtc m.early_index m.late_index
  t_peak : m.t_peak = tp
  line : Logm0Line t_obs tp lgm m.logm0

theorem mean_early_ok {p : NT ℝ} (hp : p.map Prod.fst = FIELDS) (hb : AllInBounds p) (kind : Kind)
    (lgm t_obs tp : ℝ) :
    ∃ e, mean_diffmah_params_early_t_peak kind p lgm t_obs tp = .ok e ∧ MeanOk lgm t_obs tp e := by
  obtain ⟨c, hc, hcb⟩ := components_bounded hp hb
  obtain ⟨m, hm, hline⟩ := logm0_early_line kind hcb lgm t_obs tp
  have h1 := hcb.logtc
  have h2 := hcb.early_index
  have h3 := hcb.late_index
  rw [LOGTC_BIMOD_eq] at h1
  rw [EARLY_INDEX_BIMOD_eq] at h2
  rw [LATE_INDEX_BIMOD_eq] at h3
  obtain ⟨tc, htc, htc'⟩ := logtc_val (sfx := "_early") (bounded_app_left h1) lgm t_obs tp
  obtain ⟨e, he, he'⟩ := early_index_val (sfx := "_alpha") (bounded_app_left h2) lgm t_obs tp
  obtain ⟨l, hl, hl'⟩ := late_index_val (sfx := "_alpha") (bounded_app_left h3) lgm
  have he1 : pred_early_index_early c.early_index lgm t_obs tp = .ok e := he
  have hl1 : pred_late_index_early c.late_index lgm = .ok l := hl
  refine ⟨⟨m, tc, e, l, tp⟩, ?_, shapeOk htc' he' hl', rfl, hline⟩
  unfold mean_diffmah_params_early_t_peak
  simp only [hc, hm, htc, he1, hl1, bind, Except.bind, pure, Except.pure]

theorem mean_late_ok {p : NT ℝ} (hp : p.map Prod.fst = FIELDS) (hb : AllInBounds p) (kind : Kind)
    (lgm t_obs tp : ℝ) :
    ∃ e, mean_diffmah_params_late_t_peak kind p lgm t_obs tp = .ok e ∧ MeanOk lgm t_obs tp e := by
  obtain ⟨c, hc, hcb⟩ := components_bounded hp hb
  obtain ⟨m, hm, hline⟩ := logm0_late_line kind hcb lgm t_obs tp
  have h1 := hcb.logtc
  have h2 := hcb.early_index
  have h3 := hcb.late_index
  rw [LOGTC_BIMOD_eq] at h1
  rw [EARLY_INDEX_BIMOD_eq] at h2
  rw [LATE_INDEX_BIMOD_eq] at h3
  obtain ⟨tc, htc, htc'⟩ := logtc_val (sfx := "_late") (bounded_app_right h1) lgm t_obs tp
  obtain ⟨e, he, he'⟩ := early_index_val (sfx := "_beta") (bounded_app_right h2) lgm t_obs tp
  obtain ⟨l, hl, hl'⟩ := late_index_val (sfx := "_beta") (bounded_app_right h3) lgm
  have he1 : pred_early_index_late c.early_index lgm t_obs tp = .ok e := he
  have hl1 : pred_late_index_late c.late_index lgm = .ok l := hl
  refine ⟨⟨m, tc, e, l, tp⟩, ?_, shapeOk htc' he' hl', rfl, hline⟩
  unfold mean_diffmah_params_late_t_peak
  simp only [hc, hm, htc, he1, hl1, bind, Except.bind, pure, Except.pure]

theorem mean_t_peak_ok {p : NT ℝ} (hp : p.map Prod.fst = FIELDS) (hb : AllInBounds p) (kind : Kind)
    (lgm t_obs tp : ℝ) :
    ∃ e l f, mean_diffmah_params_t_peak kind p lgm t_obs tp = .ok (e, l, f) ∧
      mean_diffmah_params_early_t_peak kind p lgm t_obs tp = .ok e ∧
      mean_diffmah_params_late_t_peak kind p lgm t_obs tp = .ok l ∧
      frac_early_cens_kern p lgm t_obs = .ok f ∧
      MeanOk lgm t_obs tp e ∧ MeanOk lgm t_obs tp l := by
  obtain ⟨e, he, he'⟩ := mean_early_ok hp hb kind lgm t_obs tp
  obtain ⟨l, hl, hl'⟩ := mean_late_ok hp hb kind lgm t_obs tp
  obtain ⟨f, hf, -⟩ := C52_frac_early p hb.2.2.2.2.2.2.2.1 lgm t_obs
  refine ⟨e, l, f, ?_, he, hl, hf, he', hl'⟩
  unfold mean_diffmah_params_t_peak
  simp only [he, hl, hf, bind, Except.bind, pure, Except.pure]

theorem MeanOk.valid_iff {lgm t_obs tp : ℝ} {m : MahParams ℝ} (h : MeanOk lgm t_obs tp m) :
    Spec.Valid m ↔ 0 < m.logm0 ∧ m.logm0 < 17 ∧ 0.05 < tp ∧ tp < 20 := by
  obtain ⟨s1, s2, s3, s4, s5, s6, s7⟩ := h.shape
  have ht := h.t_peak
  constructor
  · intro hv
    exact ⟨hv.logm0_lo, hv.logm0_hi, ht ▸ hv.tpeak_lo, ht ▸ hv.tpeak_hi⟩
  · rintro ⟨h1, h2, h3, h4⟩
    exact ⟨⟨h1, h2, s1, s2, s3, s4, s5, s6, ht ▸ h3, ht ▸ h4⟩, s7⟩

theorem MeanOk.valid {lgm t_obs tp : ℝ} {m : MahParams ℝ} (h : MeanOk lgm t_obs tp m)
    (h1 : 4.5 ≤ lgm) (h2 : lgm ≤ 13.4) (h3 : 0 ≤ t_obs) (h4 : t_obs ≤ 15) (h5 : 0.05 < tp)
    (h6 : tp < 20) : Spec.Valid m := by
  rw [h.valid_iff]
  obtain ⟨c0, c1, hm, a1, a2, a3, a4⟩ := h.line
  have b1 := a2 h3
  have b2 := a3 h4
  have b3 := a4 h3 (by norm_num at h5 ⊢; linarith)
  norm_num at *
  rw [hm]
  refine ⟨?_, ?_, h5, h6⟩ <;> nlinarith

/-- C55 (partial). For every in-bounds population parameter set, observed mass, observed time and
peak time, centrals or satellites: the mean early and late parameters exist, carry the peak time
given, and have logtc, early index and late index inside the single-halo bounds with late < early.
So they are valid exactly when the present-day mass is in (0, 17) and the peak time in (0.05, 20);
this holds at least for observed masses in [4.5, 13.4], times in [0, 15] and peak times in
(0.05, 20). Missing: validity for every observed mass, which is false of the code
(`C55_massive_haloes_invalid`), because the present-day mass is not clipped. -/
theorem C55_mean_params_partial (p : NT ℝ) (hp : p.map Prod.fst = FIELDS) (hb : AllInBounds p)
    (kind : Kind) (lgm t_obs tp : ℝ) :
    ∃ e l f, mean_diffmah_params_t_peak kind p lgm t_obs tp = .ok (e, l, f) ∧
      ShapeOk e.logtc e.early_index e.late_index ∧ ShapeOk l.logtc l.early_index l.late_index ∧
      e.t_peak = tp ∧ l.t_peak = tp ∧ 1 / 4 < f ∧ f < 3 / 4 ∧
      (Spec.Valid e ↔ 0 < e.logm0 ∧ e.logm0 < 17 ∧ 0.05 < tp ∧ tp < 20) ∧
      (Spec.Valid l ↔ 0 < l.logm0 ∧ l.logm0 < 17 ∧ 0.05 < tp ∧ tp < 20) ∧
      (4.5 ≤ lgm → lgm ≤ 13.4 → 0 ≤ t_obs → t_obs ≤ 15 → 0.05 < tp → tp < 20 →
        Spec.Valid e ∧ Spec.Valid l) := by
  obtain ⟨e, l, f, h, -, -, hf, he, hl⟩ := mean_t_peak_ok hp hb kind lgm t_obs tp
  obtain ⟨f', hf', f1, f2⟩ := C52_frac_early p hb.2.2.2.2.2.2.2.1 lgm t_obs
  rw [hf] at hf'
  cases hf'
  exact ⟨e, l, f, h, he.shape, hl.shape, he.t_peak, hl.t_peak, f1, f2, he.valid_iff, hl.valid_iff,
    fun h1 h2 h3 h4 h5 h6 => ⟨he.valid h1 h2 h3 h4 h5 h6, hl.valid h1 h2 h3 h4 h5 h6⟩⟩

/-- C55 is false: for every in-bounds parameter set, a halo observed before 15 Gyr with log mass 17 or
more has a mean present-day mass above the bound 17, and its unbounded mass is NaN. -/
theorem C55_massive_haloes_invalid (p : NT ℝ) (hp : p.map Prod.fst = FIELDS) (hb : AllInBounds p)
    (kind : Kind) (lgm t_obs tp : ℝ) (h1 : 17 ≤ lgm) (h2 : t_obs ≤ 15) :
    ∃ e l f, mean_diffmah_params_t_peak kind p lgm t_obs tp = .ok (e, l, f) ∧
      ¬ Spec.Valid e ∧ ¬ Spec.Valid l ∧
      (get_unbounded_mah_params (e.map XR.fin)).u_logm0 = XR.nan ∧
      (get_unbounded_mah_params (l.map XR.fin)).u_logm0 = XR.nan := by
  obtain ⟨e, l, f, h, -, -, -, he, hl⟩ := mean_t_peak_ok hp hb kind lgm t_obs tp
  have big : ∀ m : MahParams ℝ, MeanOk lgm t_obs tp m → 17 < m.logm0 := by
    intro m hm
    obtain ⟨c0, c1, hm, a1, -, a3, -⟩ := hm.line
    have := a3 h2
    norm_num at *
    nlinarith
  have nn : ∀ m : MahParams ℝ, 17 < m.logm0 →
      (get_unbounded_mah_params (m.map XR.fin)).u_logm0 = XR.nan := by
    intro m hm
    show get_unbounded_diffmah_param (XR.fin m.logm0) MAH_PBOUNDS.logm0 = XR.nan
    simp only [get_unbounded_diffmah_param, XR.lit_fin, XR.fin_add, XR.fin_mul]
    exact inverse_sigmoid_out (by norm_num [MAH_PBOUNDS]) (Or.inr (by norm_num [MAH_PBOUNDS]; exact hm))
  refine ⟨e, l, f, h, ?_, ?_, nn e (big e he), nn l (big l hl)⟩
  · intro hv; exact absurd hv.logm0_hi (not_lt.2 (big e he).le)
  · intro hv; exact absurd hv.logm0_hi (not_lt.2 (big l hl).le)

theorem logm0_early_lines (kind : Kind) {c : ComponentParams ℝ} (h : ComponentsBounded c) (t_obs tp : ℝ) :
    ∃ c0 c1, (∀ lgm, pred_logm0_early kind c lgm t_obs tp = .ok (lgm + (c0 + c1 * (lgm - 12)))) ∧
      0.001 < c1 ∧ (0 ≤ t_obs → c1 < 0.6) ∧ (t_obs ≤ 15 → 0.01 < c0) ∧ (0 ≤ t_obs → 0 ≤ tp → c0 < 2.65) := by
  have h1 := h.logm0
  have h2 := h.logm0_sats
  rw [LOGM0_BIMOD_eq] at h1
  rw [LOGM0_BIMOD_SATS_eq] at h2
  have h1l := bounded_app_left h1
  have h2l := bounded_app_left h2
  cases kind
  · obtain ⟨c0, c1, hm, h3⟩ := logm0_coeffs (sfx := "_early") (bounded_app_left h1l) (bounded_app_right h1l) t_obs tp
    exact ⟨c0, c1, hm, h3⟩
  · obtain ⟨c0, c1, hm, h3⟩ := logm0_coeffs (sfx := "_early_sats") (bounded_app_left h2l) (bounded_app_right h2l) t_obs tp
    exact ⟨c0, c1, hm, h3⟩

theorem logm0_late_lines (kind : Kind) {c : ComponentParams ℝ} (h : ComponentsBounded c) (t_obs tp : ℝ) :
    ∃ c0 c1, (∀ lgm, pred_logm0_late kind c lgm t_obs tp = .ok (lgm + (c0 + c1 * (lgm - 12)))) ∧
      0.001 < c1 ∧ (0 ≤ t_obs → c1 < 0.6) ∧ (t_obs ≤ 15 → 0.01 < c0) ∧ (0 ≤ t_obs → 0 ≤ tp → c0 < 2.65) := by
  have h1 := h.logm0
  have h2 := h.logm0_sats
  rw [LOGM0_BIMOD_eq] at h1
  rw [LOGM0_BIMOD_SATS_eq] at h2
  have h1l := bounded_app_right h1
  have h2l := bounded_app_right h2
  cases kind
  · obtain ⟨c0, c1, hm, h3⟩ := logm0_coeffs (sfx := "_late") (bounded_app_left h1l) (bounded_app_right h1l) t_obs tp
    exact ⟨c0, c1, hm, h3⟩
  · obtain ⟨c0, c1, hm, h3⟩ := logm0_coeffs (sfx := "_late_sats") (bounded_app_left h2l) (bounded_app_right h2l) t_obs tp
    exact ⟨c0, c1, hm, h3⟩

/-- A line with slope above one is in (0, 17) exactly between two masses. -/
theorem line_window {t_obs tp c0 c1 : ℝ} (h : 0.001 < c1 ∧ (0 ≤ t_obs → c1 < 0.6) ∧
    (t_obs ≤ 15 → 0.01 < c0) ∧ (0 ≤ t_obs → 0 ≤ tp → c0 < 2.65)) (htp : 0 ≤ tp) :
    ∃ a b : ℝ, a < b ∧ b - a < 17 ∧
      (∀ lgm, (0 < lgm + (c0 + c1 * (lgm - 12)) ↔ a < lgm) ∧ (lgm + (c0 + c1 * (lgm - 12)) < 17 ↔ lgm < b)) ∧
      (0 ≤ t_obs → t_obs ≤ 15 → a < 4.5 ∧ 13.4 < b ∧ b < 17) := by
  obtain ⟨h1, h2, h3, h4⟩ := h
  norm_num at h1 h2 h3 h4
  have hc : 0 < 1 + c1 := by linarith
  refine ⟨(12 * c1 - c0) / (1 + c1), (17 + 12 * c1 - c0) / (1 + c1), ?_, ?_, fun lgm => ⟨?_, ?_⟩, fun h5 h6 => ?_⟩
  · rw [div_lt_div_iff_of_pos_right hc]; linarith
  · rw [← sub_div, div_lt_iff₀ hc]; linarith
  · rw [div_lt_iff₀ hc]; constructor <;> intro h <;> linarith
  · rw [lt_div_iff₀ hc]; constructor <;> intro h <;> linarith
  · have b1 := h2 h5
    have b2 := h3 h6
    have b3 := h4 h5 htp
    refine ⟨?_, ?_, ?_⟩
    · rw [div_lt_iff₀ hc]; norm_num; linarith
    · rw [lt_div_iff₀ hc]; norm_num; linarith
    · rw [div_lt_iff₀ hc]; linarith

/-- C55 (where the means are valid). For every in-bounds parameter set, observed time and peak time in
(0.05, 20) there are two intervals of observed masses, each narrower than 17: the mean early parameters are
valid exactly in the one, the mean late parameters exactly in the other. For times in [0, 15] both intervals
start below 4.5 and end between 13.4 and 17. -/
theorem C55_valid_masses (p : NT ℝ) (hp : p.map Prod.fst = FIELDS) (hb : AllInBounds p) (kind : Kind)
    (t_obs tp : ℝ) (h1 : 0.05 < tp) (h2 : tp < 20) :
    ∃ a b a' b' : ℝ, (a < b ∧ b - a < 17) ∧ (a' < b' ∧ b' - a' < 17) ∧
      (∀ lgm, ∃ e l f, mean_diffmah_params_t_peak kind p lgm t_obs tp = .ok (e, l, f) ∧
        (Spec.Valid e ↔ a < lgm ∧ lgm < b) ∧ (Spec.Valid l ↔ a' < lgm ∧ lgm < b')) ∧
      (0 ≤ t_obs → t_obs ≤ 15 → (a < 4.5 ∧ 13.4 < b ∧ b < 17) ∧ (a' < 4.5 ∧ 13.4 < b' ∧ b' < 17)) := by
  have htp : 0 ≤ tp := by norm_num at h1; linarith
  obtain ⟨c, hc, hcb⟩ := components_bounded hp hb
  obtain ⟨c0, c1, hm, hc1⟩ := logm0_early_lines kind hcb t_obs tp
  obtain ⟨d0, d1, hm', hd1⟩ := logm0_late_lines kind hcb t_obs tp
  obtain ⟨a, b, hab, hab', hw, hr⟩ := line_window hc1 htp
  obtain ⟨a', b', hab2, hab2', hw', hr'⟩ := line_window hd1 htp
  refine ⟨a, b, a', b', ⟨hab, hab'⟩, ⟨hab2, hab2'⟩, fun lgm => ?_, fun h3 h4 => ⟨hr h3 h4, hr' h3 h4⟩⟩
  obtain ⟨e, l, f, h, he, hl, -, heo, hlo⟩ := mean_t_peak_ok hp hb kind lgm t_obs tp
  have ke : e.logm0 = lgm + (c0 + c1 * (lgm - 12)) := by
    unfold mean_diffmah_params_early_t_peak at he
    simp only [hc, hm, bind, Except.bind, pure, Except.pure] at he
    split at he <;> try contradiction
    split at he <;> try contradiction
    split at he <;> try contradiction
    cases he; rfl
  have kl : l.logm0 = lgm + (d0 + d1 * (lgm - 12)) := by
    unfold mean_diffmah_params_late_t_peak at hl
    simp only [hc, hm', bind, Except.bind, pure, Except.pure] at hl
    split at hl <;> try contradiction
    split at hl <;> try contradiction
    split at hl <;> try contradiction
    cases hl; rfl
  refine ⟨e, l, f, h, ?_, ?_⟩
  · rw [heo.valid_iff, ke, (hw lgm).1, (hw lgm).2]
    exact ⟨fun h => ⟨h.1, h.2.1⟩, fun h => ⟨h.1, h.2, h1, h2⟩⟩
  · rw [hlo.valid_iff, kl, (hw' lgm).1, (hw' lgm).2]
    exact ⟨fun h => ⟨h.1, h.2.1⟩, fun h => ⟨h.1, h.2, h1, h2⟩⟩

/-- In-bounds full parameter sets exist. -/
theorem exists_allInBounds : ∃ p : NT ℝ, p.map Prod.fst = FIELDS ∧ AllInBounds p := by
  obtain ⟨u, _, _, hu, _⟩ := C49_not_a_roundtrip
  obtain ⟨p, _, _, h1, h, _⟩ := C49_u_roundtrip_partial u hu
  exact ⟨p, h1, h⟩

end Diffmah

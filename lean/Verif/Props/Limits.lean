import Verif.Props.TPeak
import Verif.Props.Bounding
import Verif.Props.MC
import Verif.Lemmas.PopDefault

/-!
# C134: every population parameter sets the limit its name says
-/

namespace Diffmah

open JOps Filter Topology

namespace Pop

/-! ## Specification -/

/-- `params.name` is `v`. -/
def Reads (params : NT ℝ) (name : String) (v : ℝ) : Prop := params.getattr name = .ok v

/-- A transition in one variable, from `lo` to `hi`, half-way at `x0` -/
structure Step (f : ℝ → ℝ) (x0 lo hi : ℝ) : Prop where
  before : Tendsto f atBot (𝓝 lo)
  after : Tendsto f atTop (𝓝 hi)
  middle : f x0 = (lo + hi) / 2

/-- A transition in two variables (mass, time): its limits for low masses at early and late times and for high masses at early and
late times, and its value at the half-way point -/
structure Corners (f : ℝ → ℝ → ℝ) (m0 t0 lowEarly lowLate highEarly highLate : ℝ) : Prop where
  low_early : Tendsto (fun q : ℝ × ℝ => f q.1 q.2) (atBot ×ˢ atBot) (𝓝 lowEarly)
  low_late : Tendsto (fun q : ℝ × ℝ => f q.1 q.2) (atBot ×ˢ atTop) (𝓝 lowLate)
  high_early : Tendsto (fun q : ℝ × ℝ => f q.1 q.2) (atTop ×ˢ atBot) (𝓝 highEarly)
  high_late : Tendsto (fun q : ℝ × ℝ => f q.1 q.2) (atTop ×ˢ atTop) (𝓝 highLate)
  middle : f m0 t0 = (lowEarly + lowLate + highEarly + highLate) / 4

/-- A curve through `(x, y)` whose slope, seen from that point, goes from `lo` to `hi` and is half-way at `x0` -/
structure Bends (f : ℝ → ℝ) (x y x0 lo hi : ℝ) : Prop where
  through : f x = y
  before : Tendsto (fun t => (f t - y) / (t - x)) atBot (𝓝 lo)
  after : Tendsto (fun t => (f t - y) / (t - x)) atTop (𝓝 hi)
  middle : f x0 - y = (lo + hi) / 2 * (x0 - x)

/-- A transition in mass between two transitions, in the peak time for low masses and in the time of observation for high masses -/
structure MassPeakObs (f : ℝ → ℝ → ℝ → ℝ) (m0 tp0 lowEarly lowLate to0 highEarly highLate : ℝ) : Prop where
  low_early : ∀ t_obs, Tendsto (fun q : ℝ × ℝ => f q.1 t_obs q.2) (atBot ×ˢ atBot) (𝓝 lowEarly)
  low_late : ∀ t_obs, Tendsto (fun q : ℝ × ℝ => f q.1 t_obs q.2) (atBot ×ˢ atTop) (𝓝 lowLate)
  high_early : ∀ t_peak, Tendsto (fun q : ℝ × ℝ => f q.1 q.2 t_peak) (atTop ×ˢ atBot) (𝓝 highEarly)
  high_late : ∀ t_peak, Tendsto (fun q : ℝ × ℝ => f q.1 q.2 t_peak) (atTop ×ˢ atTop) (𝓝 highLate)
  middle : f m0 to0 tp0 = (lowEarly + lowLate + highEarly + highLate) / 4

/-! ## Lemmas -/

theorem sigmoid_val (x x0 k a b : ℝ) : Utils.sigmoid x x0 k a b = a + (b - a) * Real.sigmoid (k * (x - x0)) := rfl

theorem sig_top {ι : Type} {F : Filter ι} {x a b : ι → ℝ} {x0 k A B : ℝ} (hk : 0 < k) (hx : Tendsto x F atTop)
    (ha : Tendsto a F (𝓝 A)) (hb : Tendsto b F (𝓝 B)) :
    Tendsto (fun i => Utils.sigmoid (x i) x0 k (a i) (b i)) F (𝓝 B) := by
  have h1 : Tendsto (fun i => k * (x i - x0)) F atTop :=
    (tendsto_atTop_add_const_right F (-x0) hx).const_mul_atTop hk
  have h := ha.add ((hb.sub ha).mul (Real.tendsto_sigmoid_atTop.comp h1))
  simpa [sigmoid_val, Function.comp_def] using h

theorem sig_bot {ι : Type} {F : Filter ι} {x a b : ι → ℝ} {x0 k A B : ℝ} (hk : 0 < k) (hx : Tendsto x F atBot)
    (ha : Tendsto a F (𝓝 A)) (hb : Tendsto b F (𝓝 B)) :
    Tendsto (fun i => Utils.sigmoid (x i) x0 k (a i) (b i)) F (𝓝 A) := by
  have h1 : Tendsto (fun i => k * (x i - x0)) F atBot :=
    (tendsto_atBot_add_const_right F (-x0) hx).const_mul_atBot hk
  have h := ha.add ((hb.sub ha).mul (Real.tendsto_sigmoid_atBot.comp h1))
  simpa [sigmoid_val, Function.comp_def] using h

theorem sig_mid (x0 k a b : ℝ) : Utils.sigmoid x0 x0 k a b = (a + b) / 2 := by
  rw [sigmoid_val, sub_self, mul_zero, Real.sigmoid_zero]; ring

theorem step_sig {x0 k a b : ℝ} (hk : 0 < k) : Step (fun x => Utils.sigmoid x x0 k a b) x0 a b :=
  ⟨sig_bot hk tendsto_id tendsto_const_nhds tendsto_const_nhds, sig_top hk tendsto_id tendsto_const_nhds tendsto_const_nhds,
    sig_mid _ _ _ _⟩

theorem Step.cast {f g : ℝ → ℝ} {x a b x' a' b' : ℝ} (h : Step f x a b) (hf : f = g) (hx : x = x') (ha : a = a') (hb : b = b') :
    Step g x' a' b' := by subst hf hx ha hb; exact h

theorem Corners.cast {f g : ℝ → ℝ → ℝ} {m t a b c d m' a' b' c' d' : ℝ} (h : Corners f m t a b c d) (hf : f = g) (hm : m = m')
    (ha : a = a') (hb : b = b') (hc : c = c') (hd : d = d') : Corners g m' t a' b' c' d' := by
  subst hf hm ha hb hc hd; exact h

theorem corners_sig {m0 t0 k k1 k2 a b c d : ℝ} (hk : 0 < k) (h1 : 0 < k1) (h2 : 0 < k2) :
    Corners (fun m t => Utils.sigmoid m m0 k (Utils.sigmoid t t0 k1 a b) (Utils.sigmoid t t0 k2 c d)) m0 t0 a b c d := by
  have eb : ∀ (F : Filter ℝ) {k a b : ℝ}, 0 < k →
      Tendsto (fun q : ℝ × ℝ => Utils.sigmoid q.2 t0 k a b) (F ×ˢ atBot) (𝓝 a) := fun F k a b h =>
    sig_bot h tendsto_snd tendsto_const_nhds tendsto_const_nhds
  have et : ∀ (F : Filter ℝ) {k a b : ℝ}, 0 < k →
      Tendsto (fun q : ℝ × ℝ => Utils.sigmoid q.2 t0 k a b) (F ×ˢ atTop) (𝓝 b) := fun F k a b h =>
    sig_top h tendsto_snd tendsto_const_nhds tendsto_const_nhds
  refine ⟨sig_bot hk tendsto_fst (eb _ h1) (eb _ h2), sig_bot hk tendsto_fst (et _ h1) (et _ h2),
    sig_top hk tendsto_fst (eb _ h1) (eb _ h2), sig_top hk tendsto_fst (et _ h1) (et _ h2), ?_⟩
  simp only [sig_mid]; ring

theorem corners_sig' {m0 t0 k k1 a b c d : ℝ} (hk : 0 < k) (h1 : 0 < k1) :
    Corners (fun m t => Utils.sigmoid t t0 k (Utils.sigmoid m m0 k1 a c) (Utils.sigmoid m m0 k1 b d)) m0 t0 a b c d := by
  have eb : ∀ (F : Filter ℝ) {a b : ℝ},
      Tendsto (fun q : ℝ × ℝ => Utils.sigmoid q.1 m0 k1 a b) (atBot ×ˢ F) (𝓝 a) := fun F a b =>
    sig_bot h1 tendsto_fst tendsto_const_nhds tendsto_const_nhds
  have et : ∀ (F : Filter ℝ) {a b : ℝ},
      Tendsto (fun q : ℝ × ℝ => Utils.sigmoid q.1 m0 k1 a b) (atTop ×ˢ F) (𝓝 b) := fun F a b =>
    sig_top h1 tendsto_fst tendsto_const_nhds tendsto_const_nhds
  refine ⟨sig_bot hk tendsto_snd (eb _) (eb _), sig_top hk tendsto_snd (eb _) (eb _),
    sig_bot hk tendsto_snd (et _) (et _), sig_top hk tendsto_snd (et _) (et _), ?_⟩
  simp only [sig_mid]; ring

theorem bends_sig {x y x0 k a b : ℝ} (hk : 0 < k) : Bends (fun t => Utils.sig_slope t x y x0 k a b) x y x0 a b := by
  have e : ∀ t, t ≠ x → (Utils.sig_slope t x y x0 k a b - y) / (t - x) = Utils.sigmoid t x0 k a b := by
    intro t h
    have : t - x ≠ 0 := sub_ne_zero.2 h
    simp only [Utils.sig_slope]
    field_simp
    ring
  obtain ⟨h1, h2, h3⟩ := step_sig (x0 := x0) (a := a) (b := b) hk
  refine ⟨by simp [Utils.sig_slope], ?_, ?_, ?_⟩
  · refine h1.congr' ?_
    filter_upwards [eventually_lt_atBot x] with t ht
    exact (e t ht.ne).symm
  · refine h2.congr' ?_
    filter_upwards [eventually_gt_atTop x] with t ht
    exact (e t ht.ne').symm
  · simp only [Utils.sig_slope, sig_mid]; ring

/-! ## C134 -/

variable {params : NT ℝ}

/-- C134, frac_early_cens.py. The fraction of early-forming centrals -/
theorem C134_frac_early {m0 t0 a b c d : ℝ} (h1 : Reads params "fec_lgm_x0" m0) (h2 : Reads params "fec_t_obs_x0" t0)
    (h3 : Reads params "fec_lgm_ylo_early" a) (h4 : Reads params "fec_lgm_ylo_late" b)
    (h5 : Reads params "fec_lgm_yhi_early" c) (h6 : Reads params "fec_lgm_yhi_late" d) :
    ∃ f : ℝ → ℝ → ℝ, (∀ lgm t_obs, frac_early_cens_kern params lgm t_obs = .ok (f lgm t_obs)) ∧ Corners f m0 t0 a b c d := by
  unfold Reads at *
  refine ⟨_, fun lgm t_obs => ?_, corners_sig (k := FEC_LGM_K) (k1 := FEC_T_K) (k2 := FEC_T_K) (by norm_num [FEC_LGM_K])
    (by norm_num [FEC_T_K]) (by norm_num [FEC_T_K])⟩
  unfold frac_early_cens_kern
  rw [h1, h2, h3, h4, h5, h6]
  rfl

/-- The default parameters -/
example : ∃ f : ℝ → ℝ → ℝ, (∀ lgm t_obs, frac_early_cens_kern FEC.pdict lgm t_obs = .ok (f lgm t_obs)) ∧
    Corners f 12.510 5.485 0.546 0.421 0.415 0.298 :=
  C134_frac_early rfl rfl rfl rfl rfl rfl

/-- C134, tp_pdf_cens_flex.py. The fraction of centrals that have peaked by a given time (in units of the final time), whose
half-way time depends on mass and time of observation -/
theorem C134_frac_peaked {m0 t0 a b c d : ℝ} (h1 : Reads params "cen_tp_lgm_x0_x0" m0)
    (h2 : Reads params "cen_tp_t_obs_x0_x0" t0)
    (h3 : Reads params "cen_tp_x0_ylo_early" a) (h4 : Reads params "cen_tp_x0_ylo_late" b)
    (h5 : Reads params "cen_tp_x0_yhi_early" c) (h6 : Reads params "cen_tp_x0_yhi_late" d) :
    ∃ f : ℝ → ℝ → ℝ → ℝ, (∀ utp lgm t_obs, TPeak.frac_peaked_vs_lgm params utp lgm t_obs = .ok (utp.map (f lgm t_obs))) ∧
      ∃ half : ℝ → ℝ → ℝ, (∀ lgm t_obs, Step (f lgm t_obs) (half lgm t_obs) 0 1) ∧ Corners half m0 t0 a b c d := by
  unfold Reads at *
  refine ⟨_, fun utp lgm t_obs => ?_, _, fun lgm t_obs => (step_sig (k := 5.0) (a := 0.0) (b := 1.0)
    (by norm_num)).cast rfl rfl (by norm_num) (by norm_num), corners_sig' (k := 2.0) (k1 := 1.0) (by norm_num) (by norm_num)⟩
  unfold TPeak.frac_peaked_vs_lgm TPeak.get_utp_x0_from_lgm
  rw [h1, h2, h3, h4, h5, h6]
  rfl

/-- The default parameters -/
example := C134_frac_peaked (params := TPeak.TPCENS.pdict) (m0 := 11.010) (t0 := 3.798) (a := 0.99) (b := 0.690) (c := 1.750)
  (d := 1.351) rfl rfl rfl rfl rfl rfl

/-- C134, tp_pdf_sats.py. Location and scale of the distribution of satellite peak times (in units of the time of observation) -/
theorem C134_sats {ml tl a b ts c d : ℝ} (h1 : Reads params "utp_loc_lgm_x0" ml) (h2 : Reads params "utp_loc_lgm_ylo_t0" tl)
    (h3 : Reads params "utp_loc_lgm_ylo_early" a) (h4 : Reads params "utp_loc_lgm_ylo_late" b)
    (h5 : Reads params "utp_scale_lgm_ylo_t0" ts) (h6 : Reads params "utp_scale_lgm_ylo_early" c)
    (h7 : Reads params "utp_scale_lgm_ylo_late" d) :
    ∃ loc scale : ℝ → ℝ → ℝ, (∀ lgm t_obs, TPeak.get_utp_loc params lgm t_obs = .ok (loc lgm t_obs) ∧
        TPeak.get_utp_scale params lgm t_obs = .ok (scale lgm t_obs)) ∧
      Corners loc ml tl a b 0.95 0.95 ∧ Corners scale 12 ts c d 0.16 0.16 := by
  unfold Reads at *
  have hc : ∀ t t0 k y : ℝ, Utils.sigmoid t t0 k y y = y := fun t t0 k y => by rw [sigmoid_val]; ring
  have cl := corners_sig (m0 := ml) (t0 := tl) (k := 1.5) (k1 := 0.4) (k2 := 1) (a := a) (b := b) (c := 0.95) (d := 0.95)
    (by norm_num) (by norm_num) (by norm_num)
  have cs := corners_sig (m0 := 12.0) (t0 := ts) (k := 1.0) (k1 := 1.0) (k2 := 1) (a := c) (b := d) (c := 0.16) (d := 0.16)
    (by norm_num) (by norm_num) (by norm_num)
  simp only [hc] at cl cs
  refine ⟨_, _, fun lgm t_obs => ⟨?_, ?_⟩, cl, cs.cast rfl (by norm_num) rfl rfl rfl rfl⟩
  · unfold TPeak.get_utp_loc TPeak.get_utp_loc_lgm_ylo
    rw [h1, h2, h3, h4]
    rfl
  · unfold TPeak.get_utp_scale TPeak.get_utp_scale_lgm_ylo
    rw [h5, h6, h7]
    rfl

/-- The default parameters -/
example := C134_sats (params := TPeak.TPSATS.pdict) (ml := 12.967) (tl := 8.779) (a := 0.797) (b := 0.160) (ts := 6.623)
  (c := 0.105) (d := 0.334) rfl rfl rfl rfl rfl rfl rfl

/-- C134, tp_pdf_cens.py. Scale of the distribution of central peak times: a term that depends on mass, and one that fades with
time -/
theorem C134_old_cens {a b c : ℝ} (h1 : Reads params "tpck_scale_mh_lo" a) (h2 : Reads params "tpck_scale_mh_hi" b)
    (h3 : Reads params "tpck_scale_boost_early" c) (t_0 : ℝ) :
    ∃ scale boost : ℝ → ℝ, (∀ lgm, TPeak.get_truncnorm_scale params lgm = .ok (scale lgm)) ∧
      (∀ t_obs, TPeak.get_truncnorm_scale_boost params t_obs t_0 = .ok (boost t_obs)) ∧
      Step scale 12.5 a b ∧ Step boost (t_0 / 2) c 0 := by
  unfold Reads at *
  have cb := step_sig (x0 := t_0 / 2.0) (k := 1.0) (a := c) (b := 0.0) (by norm_num)
  refine ⟨_, _, fun lgm => ?_, fun t_obs => ?_, step_sig (k := 2.0) (by norm_num),
    cb.cast rfl (by norm_num) rfl (by norm_num)⟩
  · unfold TPeak.get_truncnorm_scale
    rw [h1, h2]
    rfl
  · unfold TPeak.get_truncnorm_scale_boost
    rw [h3]
    rfl

/-- The default parameters -/
example := C134_old_cens (params := TPeak.TPCENS_OLD.pdict) (a := 0.469) (b := 0.292) (c := 0.314) rfl rfl rfl 13.8

theorem early_index_lim {sfx : String} {x1 a b x2 c d m0 : ℝ} (h1 : Reads params ("early_index_ylo_x0" ++ sfx) x1)
    (h2 : Reads params ("early_index_ylo_ylo" ++ sfx) a) (h3 : Reads params ("early_index_ylo_yhi" ++ sfx) b)
    (h4 : Reads params ("early_index_yhi_x0" ++ sfx) x2) (h5 : Reads params ("early_index_yhi_ylo" ++ sfx) c)
    (h6 : Reads params ("early_index_yhi_yhi" ++ sfx) d) (h7 : Reads params ("early_index_lgm_x0" ++ sfx) m0) :
    ∃ f : ℝ → ℝ → ℝ → ℝ, (∀ lgm t_obs t_peak, pred_early_index_kern sfx params lgm t_obs t_peak =
        .ok (min (max (f lgm t_obs t_peak) 0.101) 9.999)) ∧ MassPeakObs f m0 x1 a b x2 c d := by
  unfold Reads at *
  refine ⟨fun m t_obs t_peak => Utils.sigmoid m m0 1.0 (Utils.sigmoid t_peak x1 1.0 a b) (Utils.sigmoid t_obs x2 0.5 c d),
    fun lgm t_obs t_peak => ?_, fun t_obs => ?_, fun t_obs => ?_, fun t_peak => ?_, fun t_peak => ?_, ?_⟩
  · unfold pred_early_index_kern
    rw [h1, h2, h3, h4, h5, h6, h7]
    refine congrArg Except.ok ?_
    change min (max _ (MAH_PBOUNDS.early_index.1 + EPS)) (MAH_PBOUNDS.early_index.2 - EPS) = _
    rw [show MAH_PBOUNDS.early_index.1 + EPS = 0.101 by norm_num [MAH_PBOUNDS, EPS],
      show MAH_PBOUNDS.early_index.2 - EPS = 9.999 by norm_num [MAH_PBOUNDS, EPS]]
    rfl
  · exact sig_bot (by norm_num) tendsto_fst (sig_bot (by norm_num) tendsto_snd tendsto_const_nhds tendsto_const_nhds)
      tendsto_const_nhds
  · exact sig_bot (by norm_num) tendsto_fst (sig_top (by norm_num) tendsto_snd tendsto_const_nhds tendsto_const_nhds)
      tendsto_const_nhds
  · exact sig_top (by norm_num) tendsto_fst tendsto_const_nhds
      (sig_bot (by norm_num) tendsto_snd tendsto_const_nhds tendsto_const_nhds)
  · exact sig_top (by norm_num) tendsto_fst tendsto_const_nhds
      (sig_top (by norm_num) tendsto_snd tendsto_const_nhds tendsto_const_nhds)
  · simp only [sig_mid]; ring

/-- C134, early_index_*.py. The mean early index of early-forming haloes -/
theorem C134_early_index_early {x1 a b x2 c d m0 : ℝ} (h1 : Reads params "early_index_ylo_x0_alpha" x1)
    (h2 : Reads params "early_index_ylo_ylo_alpha" a) (h3 : Reads params "early_index_ylo_yhi_alpha" b)
    (h4 : Reads params "early_index_yhi_x0_alpha" x2) (h5 : Reads params "early_index_yhi_ylo_alpha" c)
    (h6 : Reads params "early_index_yhi_yhi_alpha" d) (h7 : Reads params "early_index_lgm_x0_alpha" m0) :
    ∃ f : ℝ → ℝ → ℝ → ℝ, (∀ lgm t_obs t_peak, pred_early_index_early params lgm t_obs t_peak =
        .ok (min (max (f lgm t_obs t_peak) 0.101) 9.999)) ∧ MassPeakObs f m0 x1 a b x2 c d :=
  early_index_lim (sfx := "_alpha") h1 h2 h3 h4 h5 h6 h7

/-- The default parameters -/
example := C134_early_index_early (params := EARLY_INDEX_ALPHA.pdict) (x1 := 4.319) (a := 3.49) (b := 2.985) (x2 := 10.405)
  (c := 3.950) (d := 3.665) (m0 := 12.918) rfl rfl rfl rfl rfl rfl rfl

/-- C134, early_index_*.py. The mean early index of late-forming haloes -/
theorem C134_early_index_late {x1 a b x2 c d m0 : ℝ} (h1 : Reads params "early_index_ylo_x0_beta" x1)
    (h2 : Reads params "early_index_ylo_ylo_beta" a) (h3 : Reads params "early_index_ylo_yhi_beta" b)
    (h4 : Reads params "early_index_yhi_x0_beta" x2) (h5 : Reads params "early_index_yhi_ylo_beta" c)
    (h6 : Reads params "early_index_yhi_yhi_beta" d) (h7 : Reads params "early_index_lgm_x0_beta" m0) :
    ∃ f : ℝ → ℝ → ℝ → ℝ, (∀ lgm t_obs t_peak, pred_early_index_late params lgm t_obs t_peak =
        .ok (min (max (f lgm t_obs t_peak) 0.101) 9.999)) ∧ MassPeakObs f m0 x1 a b x2 c d :=
  early_index_lim (sfx := "_beta") h1 h2 h3 h4 h5 h6 h7

/-- The default parameters -/
example := C134_early_index_late (params := EARLY_INDEX_BETA.pdict) (x1 := 1.456) (a := 1.037) (b := 0.879) (x2 := 8.144)
  (c := 2.760) (d := 2.195) (m0 := 12.641) rfl rfl rfl rfl rfl rfl rfl

/-- C134, early_index_*.py. The mean early index of a population that is not split -/
theorem C134_early_index_pop {x1 a b x2 c d m0 : ℝ} (h1 : Reads params "early_index_ylo_x0" x1)
    (h2 : Reads params "early_index_ylo_ylo" a) (h3 : Reads params "early_index_ylo_yhi" b)
    (h4 : Reads params "early_index_yhi_x0" x2) (h5 : Reads params "early_index_yhi_ylo" c)
    (h6 : Reads params "early_index_yhi_yhi" d) (h7 : Reads params "early_index_lgm_x0" m0) :
    ∃ f : ℝ → ℝ → ℝ → ℝ, (∀ lgm t_obs t_peak, pred_early_index_kern "" params lgm t_obs t_peak =
        .ok (min (max (f lgm t_obs t_peak) 0.101) 9.999)) ∧ MassPeakObs f m0 x1 a b x2 c d :=
  early_index_lim (sfx := "") h1 h2 h3 h4 h5 h6 h7

/-- The default parameters -/
example := C134_early_index_pop (params := EARLY_INDEX_POP.pdict) (x1 := 6.072) (a := 3.018) (b := 1.517) (x2 := 10.274)
  (c := 3.204) (d := 2.774) (m0 := 13.504) rfl rfl rfl rfl rfl rfl rfl

theorem late_index_lim {sfx : String} {x0 a b : ℝ} (h1 : Reads params ("late_index_x0" ++ sfx) x0)
    (h2 : Reads params ("late_index_ylo" ++ sfx) a) (h3 : Reads params ("late_index_yhi" ++ sfx) b) :
    ∃ f : ℝ → ℝ, (∀ lgm, pred_late_index_kern sfx params lgm = .ok (min (max (f lgm) 0.101) 4.999)) ∧ Step f x0 a b := by
  unfold Reads at *
  refine ⟨_, fun lgm => ?_, step_sig (k := 1.0) (by norm_num)⟩
  unfold pred_late_index_kern
  rw [h1, h2, h3]
  refine congrArg Except.ok ?_
  change min (max _ (MAH_PBOUNDS.late_index.1 + EPS)) (MAH_PBOUNDS.late_index.2 - EPS) = _
  rw [show MAH_PBOUNDS.late_index.1 + EPS = 0.101 by norm_num [MAH_PBOUNDS, EPS],
    show MAH_PBOUNDS.late_index.2 - EPS = 4.999 by norm_num [MAH_PBOUNDS, EPS]]
  rfl

/-- C134, late_index_*.py. The mean late index of early-forming haloes -/
theorem C134_late_index_early {x0 a b : ℝ} (h1 : Reads params "late_index_x0_alpha" x0)
    (h2 : Reads params "late_index_ylo_alpha" a) (h3 : Reads params "late_index_yhi_alpha" b) :
    ∃ f : ℝ → ℝ, (∀ lgm, pred_late_index_early params lgm = .ok (min (max (f lgm) 0.101) 4.999)) ∧ Step f x0 a b :=
  late_index_lim (sfx := "_alpha") h1 h2 h3

/-- The default parameters -/
example := C134_late_index_early (params := LATE_INDEX_ALPHA.pdict) (x0 := 11.567) (a := 0.190) (b := 0.190) rfl rfl rfl

/-- C134, late_index_*.py. The mean late index of late-forming haloes -/
theorem C134_late_index_late {x0 a b : ℝ} (h1 : Reads params "late_index_x0_beta" x0)
    (h2 : Reads params "late_index_ylo_beta" a) (h3 : Reads params "late_index_yhi_beta" b) :
    ∃ f : ℝ → ℝ, (∀ lgm, pred_late_index_late params lgm = .ok (min (max (f lgm) 0.101) 4.999)) ∧ Step f x0 a b :=
  late_index_lim (sfx := "_beta") h1 h2 h3

/-- Parameters of which the limits differ -/
example := C134_late_index_late (params := [("late_index_x0_beta", 12), ("late_index_ylo_beta", 0.12), ("late_index_yhi_beta", 0.18)])
  (x0 := 12) (a := 0.12) (b := 0.18) rfl rfl rfl

theorem logtc_lim {sfx : String} {a b c d e x0 : ℝ} (h1 : Reads params ("logtc_lgm_c0_tp_ytp_tobs_c0" ++ sfx) a)
    (h2 : Reads params ("logtc_lgm_c0_tp_ytp_tobs_c1" ++ sfx) b) (h3 : Reads params ("logtc_lgm_c0_tp_ylo" ++ sfx) c)
    (h4 : Reads params ("logtc_lgm_c0_tp_yhi" ++ sfx) d) (h5 : Reads params ("logtc_lgm_c1" ++ sfx) e)
    (h6 : Reads params ("logtc_c0_ss_x0" ++ sfx) x0) :
    ∃ f : ℝ → ℝ → ℝ, (∀ lgm t_obs t_peak, pred_logtc_kern sfx params lgm t_obs t_peak =
        .ok (min (max (f t_obs t_peak + e * (lgm - 12)) (-0.999)) 0.999)) ∧
      ∀ t_obs, Bends (f t_obs) 10 (a + b * t_obs) x0 c d := by
  unfold Reads at *
  refine ⟨fun t_obs t_peak => Utils.sig_slope t_peak 10 (a + b * t_obs) x0 0.5 c d, fun lgm t_obs t_peak => ?_, fun t_obs =>
    bends_sig (by norm_num)⟩
  unfold pred_logtc_kern logtc_get_c0
  rw [h1, h2, h3, h4, h5, h6]
  refine congrArg Except.ok ?_
  change min (max (Utils.sig_slope t_peak (10.0 : ℝ) (a + b * t_obs) x0 0.5 c d + e * (lgm - (12.0 : ℝ)))
    (MAH_PBOUNDS.logtc.1 + EPS)) (MAH_PBOUNDS.logtc.2 - EPS) = _
  rw [show MAH_PBOUNDS.logtc.1 + EPS = -0.999 by norm_num [MAH_PBOUNDS, EPS],
    show MAH_PBOUNDS.logtc.2 - EPS = 0.999 by norm_num [MAH_PBOUNDS, EPS], show (10.0 : ℝ) = 10 by norm_num,
    show (12.0 : ℝ) = 12 by norm_num]

/-- C134, logtc_early.py. The mean transition time of early-forming haloes: linear in mass, with an offset that bends with the peak
time -/
theorem C134_logtc_early {a b c d e x0 : ℝ} (h1 : Reads params "logtc_lgm_c0_tp_ytp_tobs_c0_early" a)
    (h2 : Reads params "logtc_lgm_c0_tp_ytp_tobs_c1_early" b) (h3 : Reads params "logtc_lgm_c0_tp_ylo_early" c)
    (h4 : Reads params "logtc_lgm_c0_tp_yhi_early" d) (h5 : Reads params "logtc_lgm_c1_early" e)
    (h6 : Reads params "logtc_c0_ss_x0_early" x0) :
    ∃ f : ℝ → ℝ → ℝ, (∀ lgm t_obs t_peak, pred_logtc_kern "_early" params lgm t_obs t_peak =
        .ok (min (max (f t_obs t_peak + e * (lgm - 12)) (-0.999)) 0.999)) ∧
      ∀ t_obs, Bends (f t_obs) 10 (a + b * t_obs) x0 c d :=
  logtc_lim (sfx := "_early") h1 h2 h3 h4 h5 h6

/-- The default parameters -/
example := C134_logtc_early (params := LOGTC_EARLY.pdict) (a := 0.447) (b := 0.002) (c := 0.069) (d := -0.201) (e := 0.130)
  (x0 := 12.221) rfl rfl rfl rfl rfl rfl

/-- C134, logtc_late.py. The mean transition time of late-forming haloes: linear in mass, with an offset that bends with the peak
time -/
theorem C134_logtc_late {a b c d e x0 : ℝ} (h1 : Reads params "logtc_lgm_c0_tp_ytp_tobs_c0_late" a)
    (h2 : Reads params "logtc_lgm_c0_tp_ytp_tobs_c1_late" b) (h3 : Reads params "logtc_lgm_c0_tp_ylo_late" c)
    (h4 : Reads params "logtc_lgm_c0_tp_yhi_late" d) (h5 : Reads params "logtc_lgm_c1_late" e)
    (h6 : Reads params "logtc_c0_ss_x0_late" x0) :
    ∃ f : ℝ → ℝ → ℝ, (∀ lgm t_obs t_peak, pred_logtc_kern "_late" params lgm t_obs t_peak =
        .ok (min (max (f t_obs t_peak + e * (lgm - 12)) (-0.999)) 0.999)) ∧
      ∀ t_obs, Bends (f t_obs) 10 (a + b * t_obs) x0 c d :=
  logtc_lim (sfx := "_late") h1 h2 h3 h4 h5 h6

/-- The default parameters -/
example := C134_logtc_late (params := LOGTC_LATE.pdict) (a := 0.898) (b := 0.005) (c := 0.118) (d := -0.006) (e := 0.146)
  (x0 := 11.091) rfl rfl rfl rfl rfl rfl

theorem logm0_lim {sfx : String} {y0 x0 l0 a b y1 x1 l1 z0 za zb : ℝ} (h1 : Reads params ("lgm0pop_c0_ytp" ++ sfx) y0)
    (h2 : Reads params ("lgm0pop_c0_t_obs_x0" ++ sfx) x0) (h3 : Reads params ("lgm0pop_c0_ylo" ++ sfx) l0)
    (h4 : Reads params ("lgm0pop_c0_clip_c0" ++ sfx) a) (h5 : Reads params ("lgm0pop_c0_clip_c1" ++ sfx) b)
    (h6 : Reads params ("lgm0pop_c1_ytp" ++ sfx) y1) (h7 : Reads params ("lgm0pop_c1_t_obs_x0" ++ sfx) x1)
    (h8 : Reads params ("lgm0pop_c1_ylo" ++ sfx) l1) (h9 : Reads params ("lgm0pop_c1_clip_x0" ++ sfx) z0)
    (h10 : Reads params ("lgm0pop_c1_clip_ylo" ++ sfx) za) (h11 : Reads params ("lgm0pop_c1_clip_yhi" ++ sfx) zb) :
    ∃ f g h : ℝ → ℝ, (∀ lgm t_obs t_peak, pred_logm0_kern sfx params lgm t_obs t_peak =
        .ok (lgm + (max (f t_obs) (a + b * t_peak) + max (g t_obs) (h t_peak) * (lgm - 12)))) ∧
      Bends f 15 y0 x0 l0 0 ∧ Bends g 10 y1 x1 l1 0 ∧ Step h z0 za zb := by
  unfold Reads at *
  refine ⟨fun t => Utils.sig_slope t 15 y0 x0 0.25 l0 0, fun t => Utils.sig_slope t 10 y1 x1 0.25 l1 0, _,
    fun lgm t_obs t_peak => ?_, bends_sig (by norm_num), bends_sig (by norm_num), step_sig (k := 1.0) (by norm_num)⟩
  unfold pred_logm0_kern pred_c0_kern pred_c1_kern
  rw [h1, h2, h3, h4, h5, h6, h7, h8, h9, h10, h11]
  refine congrArg Except.ok ?_
  change lgm + (max (Utils.sig_slope t_obs (15 : ℝ) y0 x0 0.25 l0 (0.0 : ℝ)) (a + b * t_peak) +
    max (Utils.sig_slope t_obs (10.0 : ℝ) y1 x1 0.25 l1 (0.0 : ℝ)) (Utils.sigmoid t_peak z0 1.0 za zb) * (lgm - (12.0 : ℝ))) = _
  rw [show (0.0 : ℝ) = 0 by norm_num, show (10.0 : ℝ) = 10 by norm_num, show (12.0 : ℝ) = 12 by norm_num]

/-- C134, logm0_pop*.py. The mean final mass of early-forming centrals: the mass at observation plus a term linear in it, whose offset and
slope depend on the time of observation and are bounded from below by functions of the peak time -/
theorem C134_logm0_early {y0 x0 l0 a b y1 x1 l1 z0 za zb : ℝ} (h1 : Reads params "lgm0pop_c0_ytp_early" y0)
    (h2 : Reads params "lgm0pop_c0_t_obs_x0_early" x0) (h3 : Reads params "lgm0pop_c0_ylo_early" l0)
    (h4 : Reads params "lgm0pop_c0_clip_c0_early" a) (h5 : Reads params "lgm0pop_c0_clip_c1_early" b)
    (h6 : Reads params "lgm0pop_c1_ytp_early" y1) (h7 : Reads params "lgm0pop_c1_t_obs_x0_early" x1)
    (h8 : Reads params "lgm0pop_c1_ylo_early" l1) (h9 : Reads params "lgm0pop_c1_clip_x0_early" z0)
    (h10 : Reads params "lgm0pop_c1_clip_ylo_early" za) (h11 : Reads params "lgm0pop_c1_clip_yhi_early" zb) :
    ∃ f g h : ℝ → ℝ, (∀ lgm t_obs t_peak, pred_logm0_kern_early params lgm t_obs t_peak =
        .ok (lgm + (max (f t_obs) (a + b * t_peak) + max (g t_obs) (h t_peak) * (lgm - 12)))) ∧
      Bends f 15 y0 x0 l0 0 ∧ Bends g 10 y1 x1 l1 0 ∧ Step h z0 za zb :=
  logm0_lim (sfx := "_early") h1 h2 h3 h4 h5 h6 h7 h8 h9 h10 h11

/-- The default parameters -/
example := C134_logm0_early (params := LGM0_C0_EARLY.pdict ++ LGM0_C1_EARLY.pdict) (y0 := 0.020) (x0 := 1.51) (l0 := -0.130)
  (a := 0.897) (b := -0.090) (y1 := 0.002) (x1 := 3.01) (l1 := -0.043) (z0 := 7.185) (za := 0.140) (zb := 0.002)
  rfl rfl rfl rfl rfl rfl rfl rfl rfl rfl rfl

/-- C134, logm0_pop*.py. The mean final mass of late-forming centrals: the mass at observation plus a term linear in it, whose offset and
slope depend on the time of observation and are bounded from below by functions of the peak time -/
theorem C134_logm0_late {y0 x0 l0 a b y1 x1 l1 z0 za zb : ℝ} (h1 : Reads params "lgm0pop_c0_ytp_late" y0)
    (h2 : Reads params "lgm0pop_c0_t_obs_x0_late" x0) (h3 : Reads params "lgm0pop_c0_ylo_late" l0)
    (h4 : Reads params "lgm0pop_c0_clip_c0_late" a) (h5 : Reads params "lgm0pop_c0_clip_c1_late" b)
    (h6 : Reads params "lgm0pop_c1_ytp_late" y1) (h7 : Reads params "lgm0pop_c1_t_obs_x0_late" x1)
    (h8 : Reads params "lgm0pop_c1_ylo_late" l1) (h9 : Reads params "lgm0pop_c1_clip_x0_late" z0)
    (h10 : Reads params "lgm0pop_c1_clip_ylo_late" za) (h11 : Reads params "lgm0pop_c1_clip_yhi_late" zb) :
    ∃ f g h : ℝ → ℝ, (∀ lgm t_obs t_peak, pred_logm0_kern_late params lgm t_obs t_peak =
        .ok (lgm + (max (f t_obs) (a + b * t_peak) + max (g t_obs) (h t_peak) * (lgm - 12)))) ∧
      Bends f 15 y0 x0 l0 0 ∧ Bends g 10 y1 x1 l1 0 ∧ Step h z0 za zb :=
  logm0_lim (sfx := "_late") h1 h2 h3 h4 h5 h6 h7 h8 h9 h10 h11

/-- The default parameters -/
example := C134_logm0_late (params := LGM0_C0_LATE.pdict ++ LGM0_C1_LATE.pdict) (y0 := 0.020) (x0 := 2.533) (l0 := -0.140)
  (a := 0.89) (b := -0.090) (y1 := 0.027) (x1 := 6.377) (l1 := -0.048) (z0 := 8.443) (za := 0.145) (zb := 0.002)
  rfl rfl rfl rfl rfl rfl rfl rfl rfl rfl rfl

/-- C134, logm0_pop*.py. The mean final mass of early-forming satellites: the mass at observation plus a term linear in it, whose offset and
slope depend on the time of observation and are bounded from below by functions of the peak time -/
theorem C134_logm0_early_sats {y0 x0 l0 a b y1 x1 l1 z0 za zb : ℝ} (h1 : Reads params "lgm0pop_c0_ytp_early_sats" y0)
    (h2 : Reads params "lgm0pop_c0_t_obs_x0_early_sats" x0) (h3 : Reads params "lgm0pop_c0_ylo_early_sats" l0)
    (h4 : Reads params "lgm0pop_c0_clip_c0_early_sats" a) (h5 : Reads params "lgm0pop_c0_clip_c1_early_sats" b)
    (h6 : Reads params "lgm0pop_c1_ytp_early_sats" y1) (h7 : Reads params "lgm0pop_c1_t_obs_x0_early_sats" x1)
    (h8 : Reads params "lgm0pop_c1_ylo_early_sats" l1) (h9 : Reads params "lgm0pop_c1_clip_x0_early_sats" z0)
    (h10 : Reads params "lgm0pop_c1_clip_ylo_early_sats" za) (h11 : Reads params "lgm0pop_c1_clip_yhi_early_sats" zb) :
    ∃ f g h : ℝ → ℝ, (∀ lgm t_obs t_peak, pred_logm0_kern_early_sats params lgm t_obs t_peak =
        .ok (lgm + (max (f t_obs) (a + b * t_peak) + max (g t_obs) (h t_peak) * (lgm - 12)))) ∧
      Bends f 15 y0 x0 l0 0 ∧ Bends g 10 y1 x1 l1 0 ∧ Step h z0 za zb :=
  logm0_lim (sfx := "_early_sats") h1 h2 h3 h4 h5 h6 h7 h8 h9 h10 h11

/-- The default parameters -/
example := C134_logm0_early_sats (params := LGM0_C0_EARLY_SATS.pdict ++ LGM0_C1_EARLY_SATS.pdict) (y0 := 0.018) (x0 := 1.55) (l0 := -0.107)
  (a := 0.734) (b := -0.085) (y1 := 0.002) (x1 := 3.031) (l1 := -0.020) (z0 := 10.539) (za := 0.116) (zb := 0.048)
  rfl rfl rfl rfl rfl rfl rfl rfl rfl rfl rfl

/-- C134, logm0_pop*.py. The mean final mass of late-forming satellites: the mass at observation plus a term linear in it, whose offset and
slope depend on the time of observation and are bounded from below by functions of the peak time -/
theorem C134_logm0_late_sats {y0 x0 l0 a b y1 x1 l1 z0 za zb : ℝ} (h1 : Reads params "lgm0pop_c0_ytp_late_sats" y0)
    (h2 : Reads params "lgm0pop_c0_t_obs_x0_late_sats" x0) (h3 : Reads params "lgm0pop_c0_ylo_late_sats" l0)
    (h4 : Reads params "lgm0pop_c0_clip_c0_late_sats" a) (h5 : Reads params "lgm0pop_c0_clip_c1_late_sats" b)
    (h6 : Reads params "lgm0pop_c1_ytp_late_sats" y1) (h7 : Reads params "lgm0pop_c1_t_obs_x0_late_sats" x1)
    (h8 : Reads params "lgm0pop_c1_ylo_late_sats" l1) (h9 : Reads params "lgm0pop_c1_clip_x0_late_sats" z0)
    (h10 : Reads params "lgm0pop_c1_clip_ylo_late_sats" za) (h11 : Reads params "lgm0pop_c1_clip_yhi_late_sats" zb) :
    ∃ f g h : ℝ → ℝ, (∀ lgm t_obs t_peak, pred_logm0_kern_late_sats params lgm t_obs t_peak =
        .ok (lgm + (max (f t_obs) (a + b * t_peak) + max (g t_obs) (h t_peak) * (lgm - 12)))) ∧
      Bends f 15 y0 x0 l0 0 ∧ Bends g 10 y1 x1 l1 0 ∧ Step h z0 za zb :=
  logm0_lim (sfx := "_late_sats") h1 h2 h3 h4 h5 h6 h7 h8 h9 h10 h11

/-- The default parameters -/
example := C134_logm0_late_sats (params := LGM0_C0_LATE_SATS.pdict ++ LGM0_C1_LATE_SATS.pdict) (y0 := 0.011) (x0 := 1.581) (l0 := -0.080)
  (a := 0.521) (b := -0.043) (y1 := 0.005) (x1 := 3.781) (l1 := -0.014) (z0 := 10.587) (za := 0.074) (zb := 0.037)
  rfl rfl rfl rfl rfl rfl rfl rfl rfl rfl rfl

/-- C134, ftpt0_cens.py. The fraction of centrals that peak at the present time: linear in mass and time, kept in [0.01, 0.99] -/
theorem C134_ftpt0 {a b c : ℝ} (h1 : Reads params "ftpt0_c0_c0" a) (h2 : Reads params "ftpt0_c0_c1" b)
    (h3 : Reads params "ftpt0_c1" c) (lgm t_obs : ℝ) :
    ftpt0_kernel params lgm t_obs =
      .ok (min (max (min (max (a + b * (t_obs - 10)) 0.01) 0.99 + c * (lgm - 12)) 0.01) 0.99) := by
  unfold Reads at *
  unfold ftpt0_kernel
  rw [h1, h2, h3]
  refine congrArg Except.ok ?_
  change min (max (min (max (a + b * (t_obs - (10.0 : ℝ))) (0.01 : ℝ)) (0.99 : ℝ) + c * (lgm - (12.0 : ℝ))) (0.01 : ℝ)) (0.99 : ℝ) = _
  rw [show (10.0 : ℝ) = 10 by norm_num, show (12.0 : ℝ) = 12 by norm_num]

/-- The default parameters -/
example := C134_ftpt0 (params := FTPT0.pdict) (a := 0.081) (b := 0.041) (c := 0.044) rfl rfl rfl 13 7

/-- C134, covariance_kernels.py. The scatter of each of the four unbounded parameters -/
theorem C134_scatter {x1 a1 b1 x2 a2 b2 x3 a3 b3 x4 a4 b4 : ℝ}
    (h1 : Reads params "cov_lgm_x0_logm0" x1) (h2 : Reads params "std_u_logm0_ylo" a1) (h3 : Reads params "std_u_logm0_yhi" b1)
    (h4 : Reads params "cov_lgm_x0_logtc" x2) (h5 : Reads params "std_u_logtc_ylo" a2) (h6 : Reads params "std_u_logtc_yhi" b2)
    (h7 : Reads params "cov_lgm_x0_early" x3) (h8 : Reads params "std_u_early_ylo" a3) (h9 : Reads params "std_u_early_yhi" b3)
    (h10 : Reads params "cov_lgm_x0_late" x4) (h11 : Reads params "std_u_late_ylo" a4) (h12 : Reads params "std_u_late_yhi" b4)
    {rhos : List ℝ} (hr : params.getattrs (params.fields.filter is_rho) = .ok rhos) :
    ∃ f1 f2 f3 f4 : ℝ → ℝ, (∀ lgm, get_cov_params params lgm = .ok ([f1 lgm, f2 lgm, f3 lgm, f4 lgm], rhos)) ∧
      Step f1 x1 a1 b1 ∧ Step f2 x2 a2 b2 ∧ Step f3 x3 a3 b3 ∧ Step f4 x4 a4 b4 := by
  unfold Reads at *
  have hk : (0 : ℝ) < COV_LGM_K := by norm_num [COV_LGM_K]
  refine ⟨_, _, _, _, fun lgm => ?_, step_sig hk, step_sig hk, step_sig hk, step_sig hk⟩
  unfold get_cov_params
  rw [h1, h2, h3, h4, h5, h6, h7, h8, h9, h10, h11, h12, hr]
  rfl

/-- The default parameters -/
example := C134_scatter (params := COV.pdict) (x1 := 13.716) (a1 := 0.011) (b1 := 0.047) (x2 := 12.988) (a2 := 0.072)
  (b2 := 2.002) (x3 := 11.51) (a3 := 0.362) (b3 := 0.081) (x4 := 13.900) (a4 := 0.186) (b4 := 22.433) rfl rfl rfl rfl rfl rfl rfl
  rfl rfl rfl rfl rfl (rhos := [-0.227, 0.290, 0.210, 0.290, -0.121, -0.290]) rfl

/-! ### The ingredients read the full parameter set by name -/

open PopParams in
theorem component_getattr : ∀ {fields : List String} {p c : NT ℝ}, component fields p = .ok c → ∀ n ∈ fields,
    c.getattr n = p.getattr n := by
  intro fields p c h
  unfold component at h
  cases hv : p.getattrs fields with
  | error e => rw [hv] at h; cases h
  | ok vals =>
    rw [hv] at h
    have h' : NT.make fields vals = .ok c := h
    unfold NT.make at h'
    split at h'
    · cases h'
      clear h
      induction fields generalizing vals with
      | nil => intro n hn; cases hn
      | cons k ks ih =>
        rw [NT.getattrs, List.mapM_cons] at hv
        cases hk : p.getattr k with
        | error e => rw [hk] at hv; cases hv
        | ok v =>
          rw [hk] at hv
          cases hr : ks.mapM p.getattr with
          | error e => rw [hr] at hv; cases hv
          | ok vs =>
            rw [hr] at hv
            cases hv
            intro n hn
            have ih' := ih vs hr (by simp_all)
            by_cases e : n = k
            · subst e
              rw [hk]
              simp [NT.getattr]
            · have hn' : n ∈ ks := by
                rcases List.mem_cons.1 hn with h | h
                · exact absurd h e
                · exact h
              rw [← ih' n hn']
              have : (n == k) = false := by simpa using e
              simp [NT.getattr, List.lookup, this]
    · cases h'

theorem bind_ok {β γ : Type} {x : Except PyErr β} {g : β → Except PyErr γ} {y : γ} (h : (x >>= g) = .ok y) :
    ∃ a, x = .ok a ∧ g a = .ok y := by
  cases x with
  | error e => cases h
  | ok a => exact ⟨a, rfl, h⟩

open PopParams MC in
theorem components_read {c : ComponentParams ℝ} (h : get_component_model_params params = .ok c) :
    (∀ n ∈ LOGM0_BIMOD.fields, c.logm0.getattr n = params.getattr n) ∧
    (∀ n ∈ LOGM0_BIMOD_SATS.fields, c.logm0_sats.getattr n = params.getattr n) ∧
    (∀ n ∈ LOGTC_BIMOD.fields, c.logtc.getattr n = params.getattr n) ∧
    (∀ n ∈ EARLY_INDEX_BIMOD.fields, c.early_index.getattr n = params.getattr n) ∧
    (∀ n ∈ LATE_INDEX_BIMOD.fields, c.late_index.getattr n = params.getattr n) := by
  unfold get_component_model_params at h
  obtain ⟨_, -, h⟩ := bind_ok h
  obtain ⟨_, -, h⟩ := bind_ok h
  obtain ⟨a, ha, h⟩ := bind_ok h
  obtain ⟨b, hb, h⟩ := bind_ok h
  obtain ⟨d, hd, h⟩ := bind_ok h
  obtain ⟨e, he, h⟩ := bind_ok h
  obtain ⟨g, hg, h⟩ := bind_ok h
  obtain ⟨_, -, h⟩ := bind_ok h
  obtain ⟨_, -, h⟩ := bind_ok h
  cases h
  exact ⟨component_getattr ha, component_getattr hb, component_getattr hd, component_getattr he, component_getattr hg⟩

theorem logtc_congr {p q : NT ℝ} {sfx : String} (h : ∀ n ∈ ["logtc_lgm_c0_tp_ytp_tobs_c0" ++ sfx,
      "logtc_lgm_c0_tp_ytp_tobs_c1" ++ sfx, "logtc_lgm_c0_tp_ylo" ++ sfx, "logtc_lgm_c0_tp_yhi" ++ sfx, "logtc_lgm_c1" ++ sfx,
      "logtc_c0_ss_x0" ++ sfx], p.getattr n = q.getattr n) (m t tp : ℝ) :
    pred_logtc_kern sfx p m t tp = pred_logtc_kern sfx q m t tp := by
  simp only [List.forall_mem_cons] at h
  obtain ⟨h1, h2, h3, h4, h5, h6, -⟩ := h
  unfold pred_logtc_kern logtc_get_c0
  rw [h1, h2, h3, h4, h5, h6]

theorem early_index_congr {p q : NT ℝ} {sfx : String} (h : ∀ n ∈ ["early_index_ylo_x0" ++ sfx, "early_index_ylo_ylo" ++ sfx,
      "early_index_ylo_yhi" ++ sfx, "early_index_yhi_x0" ++ sfx, "early_index_yhi_ylo" ++ sfx, "early_index_yhi_yhi" ++ sfx,
      "early_index_lgm_x0" ++ sfx], p.getattr n = q.getattr n) (m t tp : ℝ) :
    pred_early_index_kern sfx p m t tp = pred_early_index_kern sfx q m t tp := by
  simp only [List.forall_mem_cons] at h
  obtain ⟨h1, h2, h3, h4, h5, h6, h7, -⟩ := h
  unfold pred_early_index_kern
  rw [h1, h2, h3, h4, h5, h6, h7]

theorem late_index_congr {p q : NT ℝ} {sfx : String} (h : ∀ n ∈ ["late_index_x0" ++ sfx, "late_index_ylo" ++ sfx,
      "late_index_yhi" ++ sfx], p.getattr n = q.getattr n) (m : ℝ) :
    pred_late_index_kern sfx p m = pred_late_index_kern sfx q m := by
  simp only [List.forall_mem_cons] at h
  obtain ⟨h1, h2, h3, -⟩ := h
  unfold pred_late_index_kern
  rw [h1, h2, h3]

theorem logm0_congr {p q : NT ℝ} {sfx : String} (h : ∀ n ∈ ["lgm0pop_c0_ytp" ++ sfx, "lgm0pop_c0_t_obs_x0" ++ sfx,
      "lgm0pop_c0_ylo" ++ sfx, "lgm0pop_c0_clip_c0" ++ sfx, "lgm0pop_c0_clip_c1" ++ sfx, "lgm0pop_c1_ytp" ++ sfx,
      "lgm0pop_c1_t_obs_x0" ++ sfx, "lgm0pop_c1_ylo" ++ sfx, "lgm0pop_c1_clip_x0" ++ sfx, "lgm0pop_c1_clip_ylo" ++ sfx,
      "lgm0pop_c1_clip_yhi" ++ sfx], p.getattr n = q.getattr n) (m t tp : ℝ) :
    pred_logm0_kern sfx p m t tp = pred_logm0_kern sfx q m t tp := by
  simp only [List.forall_mem_cons] at h
  obtain ⟨h1, h2, h3, h4, h5, h6, h7, h8, h9, h10, h11, -⟩ := h
  unfold pred_logm0_kern pred_c0_kern pred_c1_kern
  rw [h1, h2, h3, h4, h5, h6, h7, h8, h9, h10, h11]

open PopParams MC in
/-- C134. The mean parameters of the early- and late-forming haloes, of centrals and of satellites, are the ingredients above,
each evaluated on the parameters with its own names. -/
theorem C134_population (kind : Kind) {lgm t_obs t_peak fe : ℝ} {E L : MahParams ℝ}
    (h : mean_diffmah_params_t_peak kind params lgm t_obs t_peak = .ok (E, L, fe)) :
    frac_early_cens_kern params lgm t_obs = .ok fe ∧ E.t_peak = t_peak ∧ L.t_peak = t_peak ∧
    pred_logtc_kern "_early" params lgm t_obs t_peak = .ok E.logtc ∧
    pred_logtc_kern "_late" params lgm t_obs t_peak = .ok L.logtc ∧
    pred_early_index_early params lgm t_obs t_peak = .ok E.early_index ∧
    pred_early_index_late params lgm t_obs t_peak = .ok L.early_index ∧
    pred_late_index_early params lgm = .ok E.late_index ∧ pred_late_index_late params lgm = .ok L.late_index ∧
    (kind = .cens → pred_logm0_kern_early params lgm t_obs t_peak = .ok E.logm0 ∧
      pred_logm0_kern_late params lgm t_obs t_peak = .ok L.logm0) ∧
    (kind = .sats → pred_logm0_kern_early_sats params lgm t_obs t_peak = .ok E.logm0 ∧
      pred_logm0_kern_late_sats params lgm t_obs t_peak = .ok L.logm0) := by
  have hE : ∀ {F : List String} {c : NT ℝ}, (∀ n ∈ F, c.getattr n = params.getattr n) → ∀ (l : List String), (∀ n ∈ l, n ∈ F) →
      ∀ n ∈ l, c.getattr n = params.getattr n := fun h l hl n hn => h n (hl n hn)
  unfold mean_diffmah_params_t_peak at h
  obtain ⟨E', h1, h⟩ := bind_ok h
  obtain ⟨L', h2, h⟩ := bind_ok h
  obtain ⟨f', h3, h⟩ := bind_ok h
  cases h
  unfold mean_diffmah_params_early_t_peak at h1
  obtain ⟨c, hc, h1⟩ := bind_ok h1
  obtain ⟨em, hem, h1⟩ := bind_ok h1
  obtain ⟨et, het, h1⟩ := bind_ok h1
  obtain ⟨ee, hee, h1⟩ := bind_ok h1
  obtain ⟨el, hel, h1⟩ := bind_ok h1
  cases h1
  unfold mean_diffmah_params_late_t_peak at h2
  obtain ⟨c', hc', h2⟩ := bind_ok h2
  rw [hc] at hc'
  cases hc'
  obtain ⟨lm, hlm, h2⟩ := bind_ok h2
  obtain ⟨lt, hlt, h2⟩ := bind_ok h2
  obtain ⟨le, hle, h2⟩ := bind_ok h2
  obtain ⟨ll, hll, h2⟩ := bind_ok h2
  cases h2
  obtain ⟨r1, r2, r3, r4, r5⟩ := components_read hc
  refine ⟨h3, rfl, rfl, ?_, ?_, ?_, ?_, ?_, ?_, ?_, ?_⟩
  · exact (logtc_congr (hE r3 _ (by decide)) _ _ _).symm.trans het
  · exact (logtc_congr (hE r3 _ (by decide)) _ _ _).symm.trans hlt
  · exact (early_index_congr (hE r4 _ (by decide)) _ _ _).symm.trans hee
  · exact (early_index_congr (hE r4 _ (by decide)) _ _ _).symm.trans hle
  · exact (late_index_congr (hE r5 _ (by decide)) _).symm.trans hel
  · exact (late_index_congr (hE r5 _ (by decide)) _).symm.trans hll
  · rintro rfl
    exact ⟨(logm0_congr (hE r1 _ (by decide)) _ _ _).symm.trans hem, (logm0_congr (hE r1 _ (by decide)) _ _ _).symm.trans hlm⟩
  · rintro rfl
    exact ⟨(logm0_congr (hE r2 _ (by decide)) _ _ _).symm.trans hem, (logm0_congr (hE r2 _ (by decide)) _ _ _).symm.trans hlm⟩

/-- The default parameters -/
example (kind : MC.Kind) : ∃ E L fe, MC.mean_diffmah_params_t_peak kind PopParams.DEFAULT_DIFFMAHPOP_PARAMS 12.3 10 7 = .ok (E, L, fe) := by
  obtain ⟨e, l, f, h, -⟩ := mean_t_peak_ok rfl default_inBounds kind 12.3 10 7
  exact ⟨e, l, f, h⟩

end Pop

end Diffmah

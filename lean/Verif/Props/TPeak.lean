import Verif.Lemmas.TPeak

/-!
# Peak times (C56, C57, C66)
-/

namespace Diffmah

open Pop TPeak

variable (ext : Ext) (rng : Rng)

/-! ## C56: centrals -/

theorem utp_x0_ok {p : NT ℝ} (hb : Spec.Bounded TPCENS.bounds p) (lgm t_obs : ℝ) :
    ∃ x0, get_utp_x0_from_lgm p lgm t_obs = .ok x0 := by
  obtain ⟨a0, -, e0, -⟩ := bget hb "cen_tp_lgm_x0_x0" (11.0, 14.0) (by simp [TPCENS])
  obtain ⟨a1, -, e1, -⟩ := bget hb "cen_tp_t_obs_x0_x0" (3.0, 10.0) (by simp [TPCENS])
  obtain ⟨a2, -, e2, -⟩ := bget hb "cen_tp_x0_ylo_early" (0.5, 1.0) (by simp [TPCENS])
  obtain ⟨a3, -, e3, -⟩ := bget hb "cen_tp_x0_yhi_early" (1.0, 1.8) (by simp [TPCENS])
  obtain ⟨a4, -, e4, -⟩ := bget hb "cen_tp_x0_ylo_late" (0.5, 1.0) (by simp [TPCENS])
  obtain ⟨a5, -, e5, -⟩ := bget hb "cen_tp_x0_yhi_late" (1.0, 1.8) (by simp [TPCENS])
  refine ⟨_, by
    unfold get_utp_x0_from_lgm
    simp only [e0, e1, e2, e3, e4, e5, bind, Except.bind, pure, Except.pure]
    rfl⟩

/-- The tabulated function and the returned value. -/
theorem cen_value {p : NT ℝ} (hb : Spec.Bounded TPCENS.bounds p) (lgm t_obs : ℝ) (t_0 : ℝ) :
    ∃ F : ℝ → ℝ, (∀ utp, frac_peaked_vs_lgm p utp lgm t_obs = .ok (utp.map F)) ∧
      (UTP_TABLE.map F).Pairwise (· < ·) ∧
      ∀ (rng : Rng) (key : Key), mc_tpeak_singlecen ext rng p lgm t_obs key t_0 =
        Except.ok (max (interp ext.interp_eps (rng.uniform key) (UTP_TABLE.map F) UTP_TABLE) UTP_MIN * t_0,
          [key]) := by
  obtain ⟨x0, hx0⟩ := utp_x0_ok hb lgm t_obs
  refine ⟨fun x => Utils.sigmoid x x0 (JOps.lit 5.0) (JOps.lit 0.0) (JOps.lit 1.0), ?_,
    map_sigmoid_strict utp_table_strict x0, ?_⟩
  · intro utp
    unfold frac_peaked_vs_lgm
    rw [hx0]; rfl
  · intro rng key
    unfold mc_tpeak_singlecen mc_utp_singlecen frac_peaked_vs_lgm
    rw [hx0]; rfl

/-- C56. Central peak times lie in [0.05 t_0, t_0], whatever the draw; exactly the given key is
consumed. -/
theorem C56_range (hext : ext.Lawful) (p : NT ℝ) (hb : Spec.Bounded TPCENS.bounds p)
    (lgm t_obs t_0 : ℝ) (ht : 0 ≤ t_0) (key : Key) :
    ∃ tp, mc_tpeak_singlecen ext rng p lgm t_obs key t_0 = Except.ok (tp, [key]) ∧
      0.05 * t_0 ≤ tp ∧ tp ≤ t_0 := by
  obtain ⟨F, -, hs, h⟩ := cen_value ext hb lgm t_obs t_0
  refine ⟨_, h rng key, ?_, ?_⟩
  · generalize interp _ _ _ _ = y
    clear h hs
    have hle : (0.05 : ℝ) ≤ max y UTP_MIN := by rw [UTP_MIN]; exact le_max_right _ _
    nlinarith
  · have hl : UTP_TABLE.length = (UTP_TABLE.map F).length := by simp
    have := (interp_mem (x := rng.uniform key) hext.eps_nonneg (hs.imp fun h => h.le)
      (utp_table_strict.imp fun h => h.le) (by rw [← hl, utp_table_length]; norm_num) hl).2
    rw [← hl, utp_table_length] at this
    have hlast : UTP_TABLE.getD (200 - 1) 0 = 1.0 := linspace_last _ _ (by norm_num)
    rw [hlast] at this
    have hm : max (interp ext.interp_eps (rng.uniform key) (UTP_TABLE.map F) UTP_TABLE) UTP_MIN ≤ 1 := by
      apply max_le
      · norm_num at this ⊢; exact this
      · norm_num [UTP_MIN]
    exact (mul_le_mul_of_nonneg_right hm ht).trans_eq (one_mul _)

/-- C56. A larger uniform draw never gives an earlier peak. -/
theorem C56_monotone (hext : ext.Lawful) (p : NT ℝ) (hb : Spec.Bounded TPCENS.bounds p)
    (lgm t_obs t_0 : ℝ) (ht : 0 ≤ t_0) (rng rng' : Rng) (key key' : Key)
    (hu : rng.uniform key ≤ rng'.uniform key') :
    ∃ tp tp', mc_tpeak_singlecen ext rng p lgm t_obs key t_0 = Except.ok (tp, [key]) ∧
      mc_tpeak_singlecen ext rng' p lgm t_obs key' t_0 = Except.ok (tp', [key']) ∧ tp ≤ tp' := by
  obtain ⟨F, -, hs, h⟩ := cen_value ext hb lgm t_obs t_0
  refine ⟨_, _, h rng key, h rng' key', ?_⟩
  apply mul_le_mul_of_nonneg_right _ ht
  apply max_le_max_right
  have hl : UTP_TABLE.length = (UTP_TABLE.map F).length := by simp
  exact interp_mono hext.eps_nonneg (hs.imp fun h => h.le) (utp_table_strict.imp fun h => h.le)
    (by rw [← hl, utp_table_length]; norm_num) hl hu

/-- C56. The draw inverts the distribution function at the table nodes `i / 199`: if the uniform
draw is exactly the fraction of centrals peaked by `i / 199`, the peak time is `i / 199 · t_0` (or
the floor `0.05 t_0`). The last node (`i = 199`) needs the last two tabulated fractions to differ by
more than the tolerance of `jnp.interp`. -/
theorem C56_inverts_cdf (p : NT ℝ) (hb : Spec.Bounded TPCENS.bounds p) (lgm t_obs t_0 : ℝ) (key : Key)
    (i : ℕ) (hi : i < 200) (u : ℝ)
    (hu : frac_peaked_vs_lgm p [(i : ℝ) / 199] lgm t_obs = .ok [u]) (hdraw : rng.uniform key = u)
    (hlast : i = 199 → ∃ a b, frac_peaked_vs_lgm p [198 / 199, 1] lgm t_obs = .ok [a, b] ∧
      ext.interp_eps < b - a) :
    mc_tpeak_singlecen ext rng p lgm t_obs key t_0
      = Except.ok (max ((i : ℝ) / 199) 0.05 * t_0, [key]) := by
  obtain ⟨F, hF, hs, h⟩ := cen_value ext hb lgm t_obs t_0
  have hnode : ∀ j, j < 200 → UTP_TABLE.getD j 0 = (j : ℝ) / 199 := by
    intro j hj
    rw [UTP_TABLE, linspace_getD _ _ hj]; norm_num; ring
  have hFn : ∀ j, j < 200 → (UTP_TABLE.map F).getD j 0 = F ((j : ℝ) / 199) := by
    intro j hj
    rw [List.getD_eq_getElem _ _ (by simp [utp_table_length, hj]), List.getElem_map, ← hnode j hj,
      List.getD_eq_getElem _ _ (by rw [utp_table_length]; exact hj)]
  rw [hF] at hu
  have huF : F ((i : ℝ) / 199) = u := by simpa using hu
  have hlen : (UTP_TABLE.map F).length = 200 := by simp [utp_table_length]
  rw [h rng key, hdraw, ← huF, ← hFn i hi]
  by_cases hil : i = 199
  · obtain ⟨a, b, hab, hgap⟩ := hlast hil
    rw [hF] at hab
    simp only [List.map_cons, List.map_nil, Except.ok.injEq, List.cons.injEq, and_true] at hab
    have hi2 : i = (UTP_TABLE.map F).length - 1 := by rw [hlen]; exact hil
    rw [hi2, interp_last hs (by rw [hlen]; norm_num), ← hi2, hnode i hi]
    · rfl
    · rw [hlen, hFn _ (by norm_num), hFn _ (by norm_num)]
      norm_num
      rw [hab.1, hab.2]; exact hgap
  · rw [interp_node hs (by rw [hlen]; omega), hnode i hi]
    rfl

/-- C56. A population draw gives one peak time per halo, in order: entry `i` is what the generator for
one halo draws for halo `i` from the `i`th of the keys. Each is in range, and no key is reused. -/
theorem C56_population (hext : ext.Lawful) (p : NT ℝ) (hb : Spec.Bounded TPCENS.bounds p)
    (lgm t_obs : List ℝ) (hlen : t_obs.length = lgm.length) (t_0 : ℝ) (ht : 0 ≤ t_0) (key : Key) :
    ∃ tps keys, mc_t_peak_cenpop ext rng p lgm t_obs key t_0 = Except.ok (tps, keys) ∧
      tps.length = lgm.length ∧ keys.Nodup ∧ (∀ tp ∈ tps, 0.05 * t_0 ≤ tp ∧ tp ≤ t_0) ∧
      ∀ i < lgm.length, mc_tpeak_singlecen ext rng p (lgm.getD i 0) (t_obs.getD i 0)
        (.child key lgm.length i) t_0 = Except.ok (tps.getD i 0, [.child key lgm.length i]) := by
  choose tp htp h1 h2 using fun i => C56_range ext rng hext p hb (lgm.getD i 0) (t_obs.getD i 0) t_0 ht
    (((key.split lgm.length).getD i key))
  refine ⟨_, _, by
    unfold mc_t_peak_cenpop
    refine (if_pos hlen).trans ?_
    exact RandM.all_of (List.range lgm.length) _ tp _ fun i _ => htp i, by simp, ?_, ?_, ?_⟩
  · rw [split_lanes]
    exact Key.split_nodup key _
  · intro x hx
    obtain ⟨i, _, rfl⟩ := List.mem_map.1 hx
    exact ⟨h1 i, h2 i⟩
  · intro i hi
    have hk : (key.split lgm.length).getD i key = .child key lgm.length i := by
      simp [Key.split, hi]
    have := htp i
    rw [hk] at this
    rw [this]
    simp [hi]
    rfl

/-- The hypotheses of C56 and C57 can be met. -/
example : Spec.Bounded TPCENS.bounds TPCENS.pdict ∧ Spec.Bounded TPSATS.bounds TPSATS.pdict := by
  constructor
  · intro b hb
    simp only [TPCENS, List.mem_cons, List.not_mem_nil, or_false] at hb
    rcases hb with rfl | rfl | rfl | rfl | rfl | rfl <;>
    refine ⟨_, by simp [TPCENS, List.lookup]; rfl, ?_, ?_⟩ <;> norm_num
  · intro b hb
    simp only [TPSATS, List.mem_cons, List.not_mem_nil, or_false] at hb
    rcases hb with rfl | rfl | rfl | rfl | rfl | rfl | rfl <;>
    refine ⟨_, by simp [TPSATS, List.lookup]; rfl, ?_, ?_⟩ <;> norm_num

/-- A lawful `Ext` exists: take the uniform distribution on the truncation interval. -/
theorem ext_lawful_exists : ∃ e : Ext, e.Lawful := by
  refine ⟨⟨0, fun x a b loc scale => max 0 (min 1 (((x - loc) / scale - a) / (b - a)))
    ⊓ (if a < b then 1 else 0), fun _ _ _ _ _ => 0⟩, le_rfl, ?_, ?_, ?_⟩
  · intro a b loc scale hs x y hxy
    by_cases hab : a < b
    · simp only [hab, if_true]
      apply min_le_min_right
      apply max_le_max_left
      apply min_le_min_left
      apply div_le_div_of_nonneg_right _ (by linarith)
      have : (x - loc) / scale ≤ (y - loc) / scale := div_le_div_of_nonneg_right (by linarith) hs.le
      linarith
    · simp [hab]
  · intro a b loc scale hs hab
    have : (loc + a * scale - loc) / scale - a = 0 := by field_simp; ring
    simp only [this, hab, if_true, zero_div]
    norm_num
  · intro a b loc scale hs hab
    have h1 : ((loc + b * scale - loc) / scale - a) / (b - a) = 1 := by
      have : (loc + b * scale - loc) / scale - a = b - a := by field_simp; ring
      rw [this, div_self (by linarith)]
    simp only [h1, hab, if_true]
    norm_num

/-! ## C57: satellites -/

/-- One draw from the truncated normal of `utp_pdf_kernels.py` stays strictly inside (0.1, 1). -/
theorem sat_draw (hext : ext.Lawful) (key : Key) {loc scale : ℝ} (h1 : 0.1 < loc) (h2 : loc < 0.9999)
    (hs : 0.01 ≤ scale) :
    ∃ x, mc_tp_pdf_singlesat ext rng key loc scale = Except.ok (x, [key]) ∧ 0.1 < x ∧ x < 1 := by
  have hmin : X_MIN + UTP_EPS = 0.1001 := by norm_num [X_MIN, UTP_EPS]
  have hmax : X_MAX - UTP_EPS = 0.9999 := by norm_num [X_MAX, UTP_EPS]
  refine ⟨_, rfl, ?_⟩
  rw [hmin, hmax]
  norm_num at h1 h2 hs
  set xmin := max (loc - 4 * scale) 0.1001 with hxmin
  set xmax := min (loc + 4 * scale) 0.9999 with hxmax
  have hlt : xmin < xmax := by
    rw [hxmin, hxmax]
    apply max_lt <;> apply lt_min <;> norm_num <;> linarith
  have hst := linspace_strict hlt (n := NPTS_CDF_TABLE) (by norm_num [NPTS_CDF_TABLE])
  have hcdf : (tp_cdf_kern ext (linspace xmin xmax NPTS_CDF_TABLE) loc scale).Pairwise (· ≤ ·) := by
    unfold tp_cdf_kern
    rw [List.pairwise_map]
    refine hst.imp ?_
    intro a b hab
    exact hext.cdf_mono _ _ _ _ (by linarith) _ _ hab.le
  have hlen : (linspace xmin xmax NPTS_CDF_TABLE).length
      = (tp_cdf_kern ext (linspace xmin xmax NPTS_CDF_TABLE) loc scale).length := by
    simp [tp_cdf_kern]
  have hm := interp_mem (x := rng.uniform key) hext.eps_nonneg hcdf (hst.imp fun h => h.le)
    (by rw [← hlen, linspace_length]; norm_num [NPTS_CDF_TABLE]) hlen
  rw [← hlen, linspace_length, linspace_last _ _ (by norm_num [NPTS_CDF_TABLE]),
    linspace_getD _ _ (by norm_num [NPTS_CDF_TABLE])] at hm
  have e1 : 0.1001 ≤ xmin := le_max_right _ _
  have e2 : xmax ≤ 0.9999 := min_le_right _ _
  norm_num at hm e1 e2 ⊢
  exact ⟨by linarith [hm.1], by linarith [hm.2]⟩

theorem sat_params {p : NT ℝ} (hb : Spec.Bounded TPSATS.bounds p) (lgm t_obs : ℝ) :
    (∃ loc, get_utp_loc p lgm t_obs = .ok loc ∧ 0.1 < loc ∧ loc < 0.9999) ∧
    ∃ s, get_utp_scale p lgm t_obs = .ok s ∧ 0.01 < s ∧ s < 1 := by
  obtain ⟨a0, -, e0, -⟩ := bget hb "utp_loc_lgm_ylo_t0" (5.0, 10.0) (by simp [TPSATS])
  obtain ⟨a1, -, e1, u1, v1⟩ := bget hb "utp_loc_lgm_ylo_early" (0.4, 0.8) (by simp [TPSATS])
  obtain ⟨a2, -, e2, u2, v2⟩ := bget hb "utp_loc_lgm_ylo_late" (0.15, 0.25) (by simp [TPSATS])
  obtain ⟨a3, -, e3, -⟩ := bget hb "utp_loc_lgm_x0" (11.0, 13.0) (by simp [TPSATS])
  obtain ⟨a4, -, e4, -⟩ := bget hb "utp_scale_lgm_ylo_t0" (6.0, 11.0) (by simp [TPSATS])
  obtain ⟨a5, -, e5, u5, v5⟩ := bget hb "utp_scale_lgm_ylo_early" (0.1, 0.5) (by simp [TPSATS])
  obtain ⟨a6, -, e6, u6, v6⟩ := bget hb "utp_scale_lgm_ylo_late" (0.1, 0.6) (by simp [TPSATS])
  norm_num at u1 v1 u2 v2 u5 v5 u6 v6
  have hloc : ∃ loc, get_utp_loc p lgm t_obs = .ok loc ∧ 0.1 < loc ∧ loc < 0.9999 := by
    refine ⟨_, by
      unfold get_utp_loc get_utp_loc_lgm_ylo
      simp only [e0, e1, e2, e3, bind, Except.bind, pure, Except.pure]
      rfl, ?_⟩
    refine usigmoid_Ioo (usigmoid_Ioo ⟨?_, ?_⟩ ⟨?_, ?_⟩) ⟨?_, ?_⟩ <;> norm_num [JOps.lit] <;> linarith
  have hsc : ∃ s, get_utp_scale p lgm t_obs = .ok s ∧ 0.01 < s ∧ s < 1 := by
    refine ⟨_, by
      unfold get_utp_scale get_utp_scale_lgm_ylo
      simp only [e4, e5, e6, bind, Except.bind, pure, Except.pure]
      rfl, ?_⟩
    refine usigmoid_Ioo (usigmoid_Ioo ⟨?_, ?_⟩ ⟨?_, ?_⟩) ⟨?_, ?_⟩ <;> norm_num [JOps.lit] <;> linarith
  exact ⟨hloc, hsc⟩

/-- C57. Satellite peak times lie strictly between 0.1 t_obs and t_obs, whatever the draw. -/
theorem C57_range (hext : ext.Lawful) (p : NT ℝ) (hb : Spec.Bounded TPSATS.bounds p)
    (lgm t_obs : ℝ) (ht : 0 < t_obs) (key : Key) :
    ∃ tp, mc_tpeak_singlesat ext rng p key lgm t_obs = Except.ok (tp, [key]) ∧
      0.1 * t_obs < tp ∧ tp < t_obs := by
  obtain ⟨⟨loc, hl, l1, l2⟩, s, hs, s1, -⟩ := sat_params hb lgm t_obs
  obtain ⟨x, hx, x1, x2⟩ := sat_draw ext rng hext key l1 l2 s1.le
  refine ⟨x * t_obs, ?_, by nlinarith, by nlinarith⟩
  unfold mc_tpeak_singlesat
  rw [hl, hs]
  exact RandM.bind_of (ks := []) rfl (RandM.bind_of (ks := []) rfl (RandM.bind_of (ks' := []) hx rfl))

/-- C57. A population draw gives one value per satellite, in order, from distinct keys. -/
theorem C57_population (hext : ext.Lawful) (loc scale : List ℝ) (hlen : scale.length = loc.length)
    (hloc : ∀ x ∈ loc, 0.1 < x ∧ x < 0.9999) (hscale : ∀ x ∈ scale, 0.01 ≤ x) (key : Key) :
    ∃ xs keys, mc_tp_pdf_satpop ext rng key loc scale = Except.ok (xs, keys) ∧
      xs.length = loc.length ∧ keys = key.split loc.length ∧ (∀ x ∈ xs, 0.1 < x ∧ x < 1) ∧
      ∀ i < loc.length, mc_tp_pdf_singlesat ext rng (.child key loc.length i) (loc.getD i 0) (scale.getD i 0)
        = Except.ok (xs.getD i 0, [.child key loc.length i]) := by
  have hh : ∀ i : ℕ, ∃ x, i < loc.length → mc_tp_pdf_singlesat ext rng ((key.split loc.length).getD i key)
      (loc.getD i 0) (scale.getD i 0) = Except.ok (x, [(key.split loc.length).getD i key]) ∧
        0.1 < x ∧ x < 1 := by
    intro i
    by_cases hi : i < loc.length
    · have m1 : loc.getD i 0 ∈ loc := by rw [List.getD_eq_getElem _ _ hi]; exact List.getElem_mem hi
      have m2 : scale.getD i 0 ∈ scale := by
        rw [List.getD_eq_getElem _ _ (by omega)]; exact List.getElem_mem _
      obtain ⟨x, hx⟩ := sat_draw ext rng hext ((key.split loc.length).getD i key) (hloc _ m1).1
        (hloc _ m1).2 (hscale _ m2)
      exact ⟨x, fun _ => hx⟩
    · exact ⟨0, fun h => absurd h hi⟩
  choose v hv using hh
  refine ⟨_, _, by
    unfold mc_tp_pdf_satpop
    refine (if_pos hlen).trans ?_
    exact RandM.all_of (List.range loc.length) _ v _ fun i hi => (hv i (List.mem_range.1 hi)).1, by simp, ?_, ?_, ?_⟩
  · exact split_lanes key _
  · intro x hx
    obtain ⟨i, hi, rfl⟩ := List.mem_map.1 hx
    exact (hv i (List.mem_range.1 hi)).2
  · intro i hi
    have := (hv i hi).1
    rw [Key.split_getD _ _ hi] at this
    rw [this, List.getD_eq_getElem _ _ (by simpa using hi), List.getElem_map, List.getElem_range]

theorem mapM_zip_ok {β : Type} (f : ℝ → ℝ → Except PyErr β) (g : ℝ → ℝ → β) (hf : ∀ a b, f a b = .ok (g a b))
    (xs ys : List ℝ) :
    ((xs.zip ys).mapM fun q => f q.1 q.2) = Except.ok (List.zipWith g xs ys) := by
  induction xs generalizing ys with
  | nil => rfl
  | cons x xs ih =>
    cases ys with
    | nil => rfl
    | cons y ys =>
      rw [List.zip_cons_cons, List.mapM_cons, hf, ih]; rfl

theorem getD_zipWith {f : ℝ → ℝ → ℝ} {xs ys : List ℝ} {i : ℕ} (h1 : i < xs.length) (h2 : i < ys.length) :
    (List.zipWith f xs ys).getD i 0 = f (xs.getD i 0) (ys.getD i 0) := by
  rw [List.getD_eq_getElem _ _ (by simp; omega), List.getElem_zipWith, List.getD_eq_getElem _ _ h1,
    List.getD_eq_getElem _ _ h2]

/-- C57. `mc_tpeak_sats` draws each satellite on its own: entry `i` is what `mc_tpeak_singlesat` draws
from the `i`th of the keys, and lies strictly between 0.1 t_obs and t_obs of that satellite. -/
theorem C57_sats (hext : ext.Lawful) (p : NT ℝ) (hb : Spec.Bounded TPSATS.bounds p)
    (lgm t_obs : List ℝ) (hl : t_obs.length = lgm.length) (ht : ∀ t ∈ t_obs, 0 < t) (key : Key) :
    ∃ tps, mc_tpeak_sats ext rng p key lgm t_obs = Except.ok (tps, key.split lgm.length) ∧
      tps.length = lgm.length ∧ ∀ i < lgm.length,
        mc_tpeak_singlesat ext rng p (.child key lgm.length i) (lgm.getD i 0) (t_obs.getD i 0)
          = Except.ok (tps.getD i 0, [.child key lgm.length i]) ∧
        0.1 * t_obs.getD i 0 < tps.getD i 0 ∧ tps.getD i 0 < t_obs.getD i 0 := by
  choose loc hloc l1 l2 using fun a b => (sat_params hb a b).1
  choose sc hsc s1 s2 using fun a b => (sat_params hb a b).2
  have hz : (List.zipWith loc lgm t_obs).length = lgm.length := by simp [hl]
  have hz' : (List.zipWith sc lgm t_obs).length = lgm.length := by simp [hl]
  obtain ⟨xs, keys, h1, h2, rfl, h4, h5⟩ := C57_population ext rng hext (List.zipWith loc lgm t_obs)
    (List.zipWith sc lgm t_obs) (by rw [hz, hz'])
    (by
      intro x hx
      obtain ⟨i, hi, rfl⟩ := List.getElem_of_mem hx
      rw [List.getElem_zipWith]; exact ⟨l1 _ _, l2 _ _⟩)
    (by
      intro x hx
      obtain ⟨i, hi, rfl⟩ := List.getElem_of_mem hx
      rw [List.getElem_zipWith]; exact (s1 _ _).le) key
  rw [hz] at h1 h2 h5
  refine ⟨List.zipWith (· * ·) xs t_obs, ?_, by simp [h2, hl], ?_⟩
  · have hu : mc_utp_pdf ext rng p key lgm t_obs = Except.ok (xs, key.split lgm.length) := by
      unfold mc_utp_pdf
      rw [mapM_zip_ok _ loc hloc, mapM_zip_ok _ sc hsc]
      refine (if_pos hl).trans ?_
      exact RandM.bind_of (ks := []) rfl (RandM.bind_of (ks := []) rfl h1)
    unfold mc_tpeak_sats
    exact (RandM.bind_of (ks' := []) hu rfl).trans (by rw [List.append_nil])
  · intro i hi
    have hd := h5 i hi
    rw [getD_zipWith hi (by omega), getD_zipWith hi (by omega)] at hd
    have hx : xs.getD i 0 ∈ xs := by
      rw [List.getD_eq_getElem _ _ (by omega)]; exact List.getElem_mem _
    have htm : t_obs.getD i 0 ∈ t_obs := by
      rw [List.getD_eq_getElem _ _ (by omega)]; exact List.getElem_mem _
    obtain ⟨x1, x2⟩ := h4 _ hx
    have ht' := ht _ htm
    rw [getD_zipWith (by omega) (by omega)]
    refine ⟨?_, by nlinarith, by nlinarith⟩
    unfold mc_tpeak_singlesat
    rw [hloc, hsc]
    exact RandM.bind_of (ks := []) rfl (RandM.bind_of (ks := []) rfl (RandM.bind_of (ks' := []) hd rfl))

example : Spec.Bounded TPSATS.bounds TPSATS.pdict ∧ ([8, 13.7] : List ℝ).length = ([12, 13] : List ℝ).length ∧
    ∀ t ∈ ([8, 13.7] : List ℝ), 0 < t := by
  refine ⟨?_, rfl, ?_⟩
  · intro b hb
    simp only [TPSATS, List.mem_cons, List.not_mem_nil, or_false] at hb
    rcases hb with rfl | rfl | rfl | rfl | rfl | rfl | rfl <;>
    refine ⟨_, by simp [TPSATS, List.lookup]; rfl, ?_, ?_⟩ <;> norm_num
  · intro t ht
    simp at ht
    rcases ht with rfl | rfl <;> norm_num

/-! ## C66: the t_peak CDF of `tp_pdf_cens.py` -/

theorem old_scale_ok {p : NT ℝ} (hb : Spec.Bounded TPCENS_OLD.bounds p) (lgm t_obs t_0 : ℝ) :
    ∃ s b, get_truncnorm_scale p lgm = .ok s ∧ get_truncnorm_scale_boost p t_obs t_0 = .ok b ∧
      0.1 < s ∧ 0 < b := by
  obtain ⟨a0, -, e0, u0, v0⟩ := bget hb "tpck_scale_boost_early" (0.01, 0.9) (by simp [TPCENS_OLD])
  obtain ⟨a1, -, e1, u1, v1⟩ := bget hb "tpck_scale_mh_lo" (0.1, 0.9) (by simp [TPCENS_OLD])
  obtain ⟨a2, -, e2, u2, v2⟩ := bget hb "tpck_scale_mh_hi" (0.1, 0.9) (by simp [TPCENS_OLD])
  refine ⟨_, _, by
    unfold get_truncnorm_scale
    simp only [e1, e2, bind, Except.bind, pure, Except.pure]
    rfl, by
    unfold get_truncnorm_scale_boost
    simp only [e0, bind, Except.bind, pure, Except.pure]
    rfl, ?_, ?_⟩
  · exact (usigmoid_Ioo ⟨u1, v1⟩ ⟨u2, v2⟩).1
  · have := (sigmoid_mem_Ioo' (x := t_obs) (x0 := t_0 / 2.0) (k := 1.0) (ylo := a0) (yhi := 0.0)
      (by norm_num at u0 ⊢; linarith)).1
    norm_num at this ⊢; exact this

/-- C66 (partial). The CDF returned for centrals is non-decreasing, starts at 0 (at 0.1 t_0), and at
`t_peak = t_0` it is `1 / t_0`. Missing: the value 1 at `t_0`, which is false of the code except
for `t_0 = 1` (`C66_cdf_does_not_reach_one`), because the result is divided by `t_0` once too
often. -/
theorem C66_cdf_partial (hext : ext.Lawful) (p : NT ℝ) (hb : Spec.Bounded TPCENS_OLD.bounds p)
    (lgm t_obs t_0 : ℝ) (ht : 0 < t_0) :
    ∃ G : ℝ → ℝ, (∀ ts, t_peak_cen_cdf_singlehalo_kern ext p lgm t_obs ts t_0 = .ok (ts.map G)) ∧
      Monotone G ∧ G (0.1 * t_0) = 0 ∧ G t_0 = 1 / t_0 := by
  obtain ⟨s, b, hs, hbo, s1, b1⟩ := old_scale_ok hb lgm t_obs t_0
  have hpos : 0 < s + b := by norm_num at s1; linarith
  have hab : (X_MIN - DEFAULT_TRUNCNORM_LOC) / (s + b) < (X_MAX - DEFAULT_TRUNCNORM_LOC) / (s + b) :=
    div_lt_div_of_pos_right (by norm_num [X_MIN, X_MAX]) hpos
  refine ⟨fun t => ext.truncnorm_cdf (t / t_0) ((X_MIN - DEFAULT_TRUNCNORM_LOC) / (s + b))
    ((X_MAX - DEFAULT_TRUNCNORM_LOC) / (s + b)) DEFAULT_TRUNCNORM_LOC (s + b) / t_0, ?_, ?_, ?_, ?_⟩
  · intro ts
    unfold t_peak_cen_cdf_singlehalo_kern
    rw [hs, hbo]
    simp only [bind, Except.bind, pure, Except.pure, t_peak_cens_cdf_kern, tp_cdf_kern, List.map_map]
    rfl
  · intro x y hxy
    apply div_le_div_of_nonneg_right _ ht.le
    exact hext.cdf_mono _ _ _ _ hpos _ _ (div_le_div_of_nonneg_right hxy ht.le)
  · have := hext.cdf_lower _ _ DEFAULT_TRUNCNORM_LOC (s + b) hpos hab
    rw [div_mul_cancel₀ _ hpos.ne', add_sub_cancel] at this
    have e : 0.1 * t_0 / t_0 = X_MIN := by rw [mul_div_assoc, div_self ht.ne', mul_one, X_MIN]
    simp only [e, this, zero_div]
  · have := hext.cdf_upper _ _ DEFAULT_TRUNCNORM_LOC (s + b) hpos hab
    rw [div_mul_cancel₀ _ hpos.ne', add_sub_cancel] at this
    have e : t_0 / t_0 = X_MAX := by rw [div_self ht.ne', X_MAX]; norm_num
    simp only [e, this]

/-- C66. So for today's `t_0 = 13.8` Gyr the CDF at `t_0` is not 1. -/
theorem C66_cdf_does_not_reach_one (hext : ext.Lawful) (p : NT ℝ)
    (hb : Spec.Bounded TPCENS_OLD.bounds p) (lgm t_obs t_0 : ℝ) (ht : 0 < t_0) (h1 : t_0 ≠ 1) :
    ∃ c, t_peak_cen_cdf_singlehalo_kern ext p lgm t_obs [t_0] t_0 = .ok [c] ∧ c ≠ 1 := by
  obtain ⟨G, hG, -, -, h⟩ := C66_cdf_partial ext hext p hb lgm t_obs t_0 ht
  refine ⟨1 / t_0, by rw [hG]; simp [h], ?_⟩
  intro h2
  rw [div_eq_one_iff_eq ht.ne'] at h2
  exact h1 h2.symm

/-- The draws of `tp_pdf_cens.py` are nevertheless physical: strictly between 0.1 t_0 and t_0. -/
theorem C66_draw_range (hext : ext.Lawful) (p : NT ℝ) (hb : Spec.Bounded TPCENS_OLD.bounds p)
    (lgm t_obs t_0 : ℝ) (ht : 0 < t_0) (key : Key) :
    ∃ tp, old_mc_tpeak_singlecen ext rng p key lgm t_obs t_0 = Except.ok (tp, [key]) ∧
      0.1 * t_0 < tp ∧ tp < t_0 := by
  obtain ⟨s, b, hs, hbo, s1, b1⟩ := old_scale_ok hb lgm t_obs t_0
  have hloc : 0.0 * (s + b) + DEFAULT_TRUNCNORM_LOC = 0.95 := by norm_num [DEFAULT_TRUNCNORM_LOC]
  obtain ⟨x, hx, x1, x2⟩ := sat_draw ext rng hext key (loc := 0.95) (scale := s + b) (by norm_num)
    (by norm_num) (by norm_num at s1 ⊢; linarith)
  refine ⟨x * t_0, ?_, by nlinarith, by nlinarith⟩
  unfold old_mc_tpeak_singlecen
  rw [hs, hbo]
  refine RandM.bind_of (ks := []) rfl (RandM.bind_of (ks := []) rfl ?_)
  show (mc_tp_pdf_singlesat ext rng key (0.0 * (s + b) + DEFAULT_TRUNCNORM_LOC) (s + b) >>=
    fun utp => (pure (utp * t_0) : RandM ℝ)) = _
  rw [hloc]
  exact RandM.bind_of (ks' := []) hx rfl

/-- The population draw of `tp_pdf_cens.py` draws each central on its own, from its own key. -/
theorem C66_population_range (hext : ext.Lawful) (p : NT ℝ) (hb : Spec.Bounded TPCENS_OLD.bounds p)
    (lgm t_obs : List ℝ) (t_0 : ℝ) (ht : 0 < t_0) (hl : t_obs.length = lgm.length) (key : Key) :
    ∃ tps, old_mc_tpeak_cens ext rng p key lgm t_obs t_0 = Except.ok (tps, key.split lgm.length) ∧
      tps.length = lgm.length ∧ ∀ i < lgm.length,
        old_mc_tpeak_singlecen ext rng p (.child key lgm.length i) (lgm.getD i 0) (t_obs.getD i 0) t_0
          = Except.ok (tps.getD i 0, [.child key lgm.length i]) ∧
        0.1 * t_0 < tps.getD i 0 ∧ tps.getD i 0 < t_0 := by
  choose s b hs hbo s1 b1 using fun q : ℝ × ℝ => old_scale_ok hb q.1 q.2 t_0
  have hloc : ∀ x : ℝ, 0.0 * x + DEFAULT_TRUNCNORM_LOC = 0.95 := by
    intro x; norm_num [DEFAULT_TRUNCNORM_LOC]
  have hz : ((List.zipWith (fun a c => s (a, c) + b (a, c)) lgm t_obs).map
      fun x => 0.0 * x + DEFAULT_TRUNCNORM_LOC).length = lgm.length := by simp [hl]
  have hz' : (List.zipWith (fun a c => s (a, c) + b (a, c)) lgm t_obs).length = lgm.length := by simp [hl]
  obtain ⟨xs, keys, h1, h2, rfl, h4, h5⟩ := C57_population ext rng hext
    ((List.zipWith (fun a c => s (a, c) + b (a, c)) lgm t_obs).map
      fun x => 0.0 * x + DEFAULT_TRUNCNORM_LOC)
    (List.zipWith (fun a c => s (a, c) + b (a, c)) lgm t_obs) (by rw [hz, hz'])
    (by
      intro x hx
      obtain ⟨y, -, rfl⟩ := List.mem_map.1 hx
      rw [hloc]; norm_num)
    (by
      intro x hx
      obtain ⟨i, hi, rfl⟩ := List.getElem_of_mem hx
      rw [List.getElem_zipWith]
      have a1 := s1 (lgm[i]'(by omega), t_obs[i]'(by omega))
      have a2 := b1 (lgm[i]'(by omega), t_obs[i]'(by omega))
      norm_num at a1 ⊢
      linarith) key
  rw [hz] at h1 h2 h5
  refine ⟨xs.map fun x => x * t_0, ?_, by simp [h2], ?_⟩
  · unfold old_mc_tpeak_cens
    rw [mapM_zip_ok (fun a c => do
      let scale_t0 ← get_truncnorm_scale p a
      let boost ← get_truncnorm_scale_boost p c t_0
      return scale_t0 + boost) (fun a c => s (a, c) + b (a, c)) (by
        intro a c
        simp only [hs (a, c), hbo (a, c), bind, Except.bind, pure, Except.pure])]
    refine (if_pos hl).trans ?_
    exact (RandM.bind_of (ks := []) rfl (RandM.bind_of (ks' := []) h1 rfl)).trans
      (by rw [List.append_nil]; rfl)
  · intro i hi
    have hd := h5 i hi
    rw [getD_zipWith hi (by omega), List.getD_eq_getElem _ _ (by rw [hz]; exact hi), List.getElem_map, hloc] at hd
    have hx : xs.getD i 0 ∈ xs := by
      rw [List.getD_eq_getElem _ _ (by omega)]; exact List.getElem_mem _
    obtain ⟨x1, x2⟩ := h4 _ hx
    have e : (xs.map fun x => x * t_0).getD i 0 = xs.getD i 0 * t_0 := by
      rw [List.getD_eq_getElem _ _ (by simp; omega), List.getElem_map, List.getD_eq_getElem _ _ (by omega)]
    rw [e]
    refine ⟨?_, by nlinarith, by nlinarith⟩
    unfold old_mc_tpeak_singlecen
    have q1 := hs (lgm.getD i 0, t_obs.getD i 0)
    have q2 := hbo (lgm.getD i 0, t_obs.getD i 0)
    simp only at q1 q2
    rw [q1, q2]
    refine RandM.bind_of (ks := []) rfl (RandM.bind_of (ks := []) rfl ?_)
    show (mc_tp_pdf_singlesat ext rng _ (0.0 * _ + DEFAULT_TRUNCNORM_LOC) _ >>=
      fun utp => (pure (utp * t_0) : RandM ℝ)) = _
    rw [hloc]
    exact RandM.bind_of (ks' := []) hd rfl

example : Spec.Bounded TPCENS_OLD.bounds TPCENS_OLD.pdict := by
  intro b hb
  simp only [TPCENS_OLD, List.mem_cons, List.not_mem_nil, or_false] at hb
  rcases hb with rfl | rfl | rfl <;>
  refine ⟨_, by simp [TPCENS_OLD, List.lookup]; rfl, ?_, ?_⟩ <;> norm_num

end Diffmah

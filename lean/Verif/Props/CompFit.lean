import Verif.Props.CompLoss
import Verif.Lemmas.XR

/-!
# Losses of the logm0 and peak-time models (C88) and fitters of the component models (C89)
-/

namespace Diffmah

open JOps Pop TPeak

namespace CompLoss

/-! ## C88: logm0 -/

/-- The copies of the two coefficient models of logm0: their parameters and their kernels. -/
noncomputable def LOGM0_COPIES : List (Component × (NT ℝ → ℝ → ℝ → Except PyErr ℝ)) := [
  (LGM0_C0_EARLY, pred_c0_kern "_early"), (LGM0_C0_LATE, pred_c0_kern "_late"),
  (LGM0_C0_EARLY_SATS, pred_c0_kern "_early_sats"), (LGM0_C0_LATE_SATS, pred_c0_kern "_late_sats"),
  (LGM0_C1_EARLY, pred_c1_kern "_early"), (LGM0_C1_LATE, pred_c1_kern "_late"),
  (LGM0_C1_EARLY_SATS, pred_c1_kern "_early_sats"), (LGM0_C1_LATE_SATS, pred_c1_kern "_late_sats")]

theorem getattr_of_mem {p : NT ℝ} {n : String} (h : n ∈ p.fields) : ∃ v, p.getattr n = .ok v := by
  obtain ⟨v, hv⟩ := NT.lookup_isSome h
  exact ⟨v, NT.getattr_eq_ok.2 hv⟩

theorem c0_ok {sfx : String} {p : NT ℝ} (h : p.fields = (LGM0POP_C0_BOUNDS_DICT sfx).fields) (t_obs t_peak : ℝ) :
    ∃ v, pred_c0_kern sfx p t_obs t_peak = .ok v := by
  have hm : ∀ n, n ∈ ["lgm0pop_c0_ytp", "lgm0pop_c0_ylo", "lgm0pop_c0_clip_c0", "lgm0pop_c0_clip_c1",
      "lgm0pop_c0_t_obs_x0"] → ∃ v, p.getattr (n ++ sfx) = .ok v := by
    intro n hn
    apply getattr_of_mem
    rw [h]
    simp only [LGM0POP_C0_BOUNDS_DICT, withSuffix, NT.fields, List.map_map, List.mem_map]
    simp only [List.mem_cons, List.not_mem_nil, or_false] at hn
    rcases hn with rfl | rfl | rfl | rfl | rfl <;> simp
  obtain ⟨v1, e1⟩ := hm "lgm0pop_c0_ytp" (by simp)
  obtain ⟨v2, e2⟩ := hm "lgm0pop_c0_ylo" (by simp)
  obtain ⟨v3, e3⟩ := hm "lgm0pop_c0_clip_c0" (by simp)
  obtain ⟨v4, e4⟩ := hm "lgm0pop_c0_clip_c1" (by simp)
  obtain ⟨v5, e5⟩ := hm "lgm0pop_c0_t_obs_x0" (by simp)
  unfold pred_c0_kern
  simp only [e1, e2, e3, e4, e5, bind, Except.bind, pure, Except.pure]
  exact ⟨_, rfl⟩

theorem c1_ok {sfx : String} {p : NT ℝ} (h : p.fields = (LGM0POP_C1_BOUNDS_DICT sfx).fields) (t_obs t_peak : ℝ) :
    ∃ v, pred_c1_kern sfx p t_obs t_peak = .ok v := by
  have hm : ∀ n, n ∈ ["lgm0pop_c1_ytp", "lgm0pop_c1_ylo", "lgm0pop_c1_clip_x0", "lgm0pop_c1_clip_ylo",
      "lgm0pop_c1_clip_yhi", "lgm0pop_c1_t_obs_x0"] → ∃ v, p.getattr (n ++ sfx) = .ok v := by
    intro n hn
    apply getattr_of_mem
    rw [h]
    simp only [LGM0POP_C1_BOUNDS_DICT, withSuffix, NT.fields, List.map_map, List.mem_map]
    simp only [List.mem_cons, List.not_mem_nil, or_false] at hn
    rcases hn with rfl | rfl | rfl | rfl | rfl | rfl <;> simp
  obtain ⟨v1, e1⟩ := hm "lgm0pop_c1_ytp" (by simp)
  obtain ⟨v2, e2⟩ := hm "lgm0pop_c1_ylo" (by simp)
  obtain ⟨v3, e3⟩ := hm "lgm0pop_c1_clip_x0" (by simp)
  obtain ⟨v4, e4⟩ := hm "lgm0pop_c1_clip_ylo" (by simp)
  obtain ⟨v5, e5⟩ := hm "lgm0pop_c1_clip_yhi" (by simp)
  obtain ⟨v6, e6⟩ := hm "lgm0pop_c1_t_obs_x0" (by simp)
  unfold pred_c1_kern
  simp only [e1, e2, e3, e4, e5, e6, bind, Except.bind, pure, Except.pure]
  exact ⟨_, rfl⟩

theorem logm0_copies {c : Component} {pred : NT ℝ → ℝ → ℝ → Except PyErr ℝ} (h : (c, pred) ∈ LOGM0_COPIES) :
    (∀ p : NT ℝ, p.fields = c.fields → ∀ t_obs t_peak, ∃ v, pred p t_obs t_peak = .ok v) ∧
    ∀ t_obs t_peak, pred [] t_obs t_peak = .error .attributeError := by
  simp only [LOGM0_COPIES, List.mem_cons, Prod.mk.injEq, List.not_mem_nil, or_false] at h
  rcases h with ⟨rfl, rfl⟩ | ⟨rfl, rfl⟩ | ⟨rfl, rfl⟩ | ⟨rfl, rfl⟩ | ⟨rfl, rfl⟩ | ⟨rfl, rfl⟩ | ⟨rfl, rfl⟩ |
    ⟨rfl, rfl⟩
  · exact ⟨fun p hp => c0_ok (hp.trans LGM0_C0_EARLY_wf.same.symm), fun _ _ => rfl⟩
  · exact ⟨fun p hp => c0_ok (hp.trans LGM0_C0_LATE_wf.same.symm), fun _ _ => rfl⟩
  · exact ⟨fun p hp => c0_ok (hp.trans LGM0_C0_EARLY_SATS_wf.same.symm), fun _ _ => rfl⟩
  · exact ⟨fun p hp => c0_ok (hp.trans LGM0_C0_LATE_SATS_wf.same.symm), fun _ _ => rfl⟩
  · exact ⟨fun p hp => c1_ok (hp.trans LGM0_C1_EARLY_wf.same.symm), fun _ _ => rfl⟩
  · exact ⟨fun p hp => c1_ok (hp.trans LGM0_C1_LATE_wf.same.symm), fun _ _ => rfl⟩
  · exact ⟨fun p hp => c1_ok (hp.trans LGM0_C1_EARLY_SATS_wf.same.symm), fun _ _ => rfl⟩
  · exact ⟨fun p hp => c1_ok (hp.trans LGM0_C1_LATE_SATS_wf.same.symm), fun _ _ => rfl⟩

/-- **C88** (logm0). For every parameter tuple and every list of non-empty data sets, `global_loss_kern`
is the sum over the data sets of the mean squared difference between targets and predictions. -/
theorem C88_logm0 {c : Component} {pred : NT ℝ → ℝ → ℝ → Except PyErr ℝ} (h : (c, pred) ∈ LOGM0_COPIES)
    (params : NT ℝ) (hp : params.map Prod.fst = c.pdict.map Prod.fst) (sets : List (List (TEntry ℝ)))
    (hne : ∀ d ∈ sets, d ≠ []) :
    ∃ f : TEntry ℝ → ℝ, (∀ x, pred params x.t_obs x.t_peak = .ok (f x)) ∧
      ∃ ls : List ℝ, List.Forall₂ (Spec.MeasuresFit f TEntry.target) sets ls ∧
        global_loss_kern pred (.tuple params) sets = .ok ls.sum := by
  obtain ⟨h1, -⟩ := logm0_copies h
  choose f hf using fun x : TEntry ℝ => h1 params hp x.t_obs x.t_peak
  refine ⟨f, hf, sets.map fun d => Spec.mean (d.map fun x => (f x - x.target) ^ 2), ?_, ?_⟩
  · rw [List.forall₂_map_right_iff, List.forall₂_same]
    exact fun d hd => measuresFit_mean f TEntry.target (hne d hd)
  · have hs : ∀ d, loss_kern_scalar pred (.tuple params) d
        = .ok (Spec.mean (d.map fun x => (f x - x.target) ^ 2)) := by
      intro d
      unfold loss_kern_scalar
      simp only [PArg.attrs, bind, Except.bind]
      rw [mapM_ok' _ f _ fun x _ => hf x]
      change Except.ok _ = _
      rw [mse_comm, mse_map]
    have hfold : ∀ (l : List (List (TEntry ℝ))) (a : ℝ), l.foldlM (fun loss loss_data => do
        let l ← loss_kern_scalar pred (.tuple params) loss_data
        return loss + l) a
        = (.ok (a + (l.map fun d => Spec.mean (d.map fun x => (f x - x.target) ^ 2)).sum) : Except PyErr ℝ) := by
      intro l
      induction l with
      | nil => intro a; simp; rfl
      | cons d l ih =>
        intro a
        rw [List.foldlM_cons, hs]
        simp only [bind, Except.bind, pure, Except.pure] at ih ⊢
        rw [ih, List.map_cons, List.sum_cons, add_assoc]
    unfold global_loss_kern
    rw [hfold]
    change Except.ok ((0.0 : ℝ) + _) = _
    norm_num

/-- The hypotheses are met, e.g. by the default parameters. -/
example : ∃ (params : NT ℝ) (sets : List (List (TEntry ℝ))),
    params.map Prod.fst = LGM0_C0_LATE_SATS.pdict.map Prod.fst ∧ sets ≠ [] ∧ ∀ d ∈ sets, d ≠ [] :=
  ⟨LGM0_C0_LATE_SATS.pdict, [[⟨10, 5, 0.5⟩, ⟨10, 8, 0.4⟩], [⟨13, 5, 0.5⟩]], rfl, by simp, by simp⟩

/-! ## C88: peak times -/

theorem utp_params {u : List ℝ} (hu : u.length = 2) :
    ∃ p loc scale, NT.make UTP.upnames u = .ok (UTP.upnames.zip u) ∧
      UTP.get_bounded (UTP.upnames.zip u) = .ok p ∧
      p.getattr "utp_loc" = .ok loc ∧ p.getattr "utp_scale" = .ok scale ∧
      (0.1001 < loc ∧ loc < 0.9999) ∧ (0.0001 < scale ∧ scale < 1) := by
  obtain ⟨p, h1, h2, h3, -⟩ := bounded_of_u UTP_wf (u := u) (by rw [hu]; rfl)
  obtain ⟨loc, -, e1, b1, c1⟩ := bget h3 "utp_loc" (X_MIN + UTP_EPS, X_MAX - UTP_EPS) (by simp [UTP])
  obtain ⟨scale, -, e2, b2, c2⟩ := bget h3 "utp_scale" (0.0 + UTP_EPS, 1.0) (by simp [UTP])
  simp only [X_MIN, X_MAX, UTP_EPS] at b1 c1 b2 c2
  refine ⟨p, loc, scale, h1, h2, e1, e2, ⟨?_, ?_⟩, ?_, ?_⟩
  · norm_num at b1 ⊢; linarith
  · norm_num at c1 ⊢; linarith
  · norm_num at b2 ⊢; linarith
  · norm_num at c2 ⊢; linarith

theorem zip_fst {xs ys : List ℝ} (h : xs.length = ys.length) : (xs.zip ys).map Prod.fst = xs := by
  rw [List.map_fst_zip (by omega)]
theorem zip_snd {xs ys : List ℝ} (h : xs.length = ys.length) : (xs.zip ys).map Prod.snd = ys := by
  rw [List.map_snd_zip (by omega)]

variable (ext : Ext)

/-- **C88** (peak times). The loss of `t_peak_fitter` is the mean squared difference between the target
density and the density of the normal distribution truncated to `[0.1, 1]`, at bounded parameters. -/
theorem C88_utp (u xs ys : List ℝ) (hu : u.length = 2) (hl : xs.length = ys.length) (hne : xs ≠ []) :
    ∃ p loc scale l, UTP.get_bounded (UTP.upnames.zip u) = .ok p ∧ p.getattr "utp_loc" = .ok loc ∧
      p.getattr "utp_scale" = .ok scale ∧ utp_loss ext u xs ys = .ok l ∧
      Spec.MeasuresFit
        (fun q : ℝ × ℝ => ext.truncnorm_pdf q.1 ((0.1 - loc) / scale) ((1 - loc) / scale) loc scale)
        Prod.snd (xs.zip ys) l := by
  obtain ⟨p, loc, scale, h1, h2, h3, h4, -, -⟩ := utp_params hu
  have hz : xs.zip ys ≠ [] := by
    intro e
    have := congrArg List.length e
    rw [List.length_zip, ← hl, min_self] at this
    exact hne (List.length_eq_zero_iff.1 this)
  refine ⟨p, loc, scale, _, h2, h3, h4, ?_, measuresFit_mean _ _ hz⟩
  unfold utp_loss
  simp only [h1, h2, h3, h4, bind, Except.bind]
  rw [if_pos (by simp [tp_pdf_kern, hl])]
  change Except.ok _ = _
  rw [← mse_map, zip_snd hl]
  congr 2
  unfold tp_pdf_kern X_MIN X_MAX
  conv_lhs => rw [← zip_fst hl, List.map_map]
  apply List.map_congr_left
  intro q _
  norm_num [Function.comp]

/-- **C88** (peak times of centrals). The same for `t_peak_cens_fitter`, whose times are in units of
`t_0` inside the density. -/
theorem C88_tp_cens (u xs ys : List ℝ) (t_0 : ℝ) (hu : u.length = 2) (hl : xs.length = ys.length)
    (hne : xs ≠ []) :
    ∃ p loc scale l, UTP.get_bounded (UTP.upnames.zip u) = .ok p ∧ p.getattr "utp_loc" = .ok loc ∧
      p.getattr "utp_scale" = .ok scale ∧ tp_cens_loss ext u xs ys t_0 = .ok l ∧
      Spec.MeasuresFit
        (fun q : ℝ × ℝ =>
          ext.truncnorm_pdf (q.1 / t_0) ((0.1 - loc) / scale) ((1 - loc) / scale) loc scale / t_0)
        Prod.snd (xs.zip ys) l := by
  obtain ⟨p, loc, scale, h1, h2, h3, h4, -, -⟩ := utp_params hu
  have hz : xs.zip ys ≠ [] := by
    intro e
    have := congrArg List.length e
    rw [List.length_zip, ← hl, min_self] at this
    exact hne (List.length_eq_zero_iff.1 this)
  refine ⟨p, loc, scale, _, h2, h3, h4, ?_, measuresFit_mean _ _ hz⟩
  unfold tp_cens_loss
  simp only [h1, h2, h3, h4, bind, Except.bind]
  rw [if_pos (by simp [t_peak_cens_pdf_kern, tp_pdf_kern, hl])]
  change Except.ok _ = _
  rw [← mse_map, zip_snd hl]
  congr 2
  unfold t_peak_cens_pdf_kern tp_pdf_kern X_MIN X_MAX
  conv_lhs => rw [← zip_fst hl]
  simp only [List.map_map]
  apply List.map_congr_left
  intro q _
  norm_num [Function.comp]

/-- A case that meets the hypotheses. -/
example : ∃ u xs ys : List ℝ, u.length = 2 ∧ xs.length = ys.length ∧ xs ≠ [] :=
  ⟨[0, 1], [0.2, 0.5, 0.8], [0.1, 1.5, 1], rfl, rfl, by simp⟩

theorem utp_x0_ok {params : NT ℝ} (h : params.map Prod.fst = TPCENS.pdict.map Prod.fst) (lgm t_obs : ℝ) :
    ∃ v, get_utp_x0_from_lgm params lgm t_obs = .ok v := by
  have hm : ∀ n, n ∈ ["cen_tp_lgm_x0_x0", "cen_tp_t_obs_x0_x0", "cen_tp_x0_ylo_early",
      "cen_tp_x0_yhi_early", "cen_tp_x0_ylo_late", "cen_tp_x0_yhi_late"] → ∃ v, params.getattr n = .ok v := by
    intro n hn
    apply getattr_of_mem
    rw [NT.fields, h]
    exact hn
  obtain ⟨v1, e1⟩ := hm "cen_tp_lgm_x0_x0" (by simp)
  obtain ⟨v2, e2⟩ := hm "cen_tp_t_obs_x0_x0" (by simp)
  obtain ⟨v3, e3⟩ := hm "cen_tp_x0_ylo_early" (by simp)
  obtain ⟨v4, e4⟩ := hm "cen_tp_x0_yhi_early" (by simp)
  obtain ⟨v5, e5⟩ := hm "cen_tp_x0_ylo_late" (by simp)
  obtain ⟨v6, e6⟩ := hm "cen_tp_x0_yhi_late" (by simp)
  unfold get_utp_x0_from_lgm
  simp only [e1, e2, e3, e4, e5, e6, bind, Except.bind, pure, Except.pure]
  exact ⟨_, rfl⟩

/-- The points of all bins: bin, scaled time and target. -/
def points (bins : List MassBin) : List (MassBin × ℝ × ℝ) :=
  bins.flatMap fun b => (b.utp_target.zip b.y_target).map fun q => (b, q)

/-- **C88** (fraction of peaked centrals). `loss_multimass` is the mean absolute difference, over all
points of all bins, between the target and the predicted fraction; it is not negative, and it vanishes
exactly when every target is predicted. -/
theorem C88_multimass (params : NT ℝ) (hp : params.map Prod.fst = TPCENS.pdict.map Prod.fst)
    (bins : List MassBin) (hl : ∀ b ∈ bins, b.utp_target.length = b.y_target.length)
    (hne : points bins ≠ []) :
    ∃ pred : MassBin → ℝ → ℝ,
      (∀ b x, frac_peaked_vs_lgm params [x] b.lgm_obs b.t_obs = .ok [pred b x]) ∧
      ∃ l, loss_multimass params bins = .ok l ∧
        l = Spec.mean ((points bins).map fun q => |pred q.1 q.2.1 - q.2.2|) ∧ 0 ≤ l ∧
        (l = 0 ↔ ∀ q ∈ points bins, pred q.1 q.2.1 = q.2.2) := by
  choose x0 hx0 using fun b : MassBin => utp_x0_ok hp b.lgm_obs b.t_obs
  refine ⟨fun b x => Utils.sigmoid x (x0 b) (lit 5.0) (lit 0.0) (lit 1.0), ?_, _, ?_, rfl, ?_, ?_⟩
  · intro b x
    unfold frac_peaked_vs_lgm
    rw [hx0]; rfl
  · have hs : ∀ b ∈ bins, loss_kern_single_mass params b = .ok ((b.utp_target.zip b.y_target).map fun q =>
        |Utils.sigmoid q.1 (x0 b) (lit 5.0) (lit 0.0) (lit 1.0) - q.2|) := by
      intro b hb
      unfold loss_kern_single_mass frac_peaked_vs_lgm
      simp only [hx0, bind, Except.bind, pure, Except.pure]
      rw [if_pos (by simp [hl b hb])]
      congr 1
      rw [List.zipWith_map_left, ← List.map_uncurry_zip_eq_zipWith]
      apply List.map_congr_left
      intro q _
      exact abs_sub_comm _ _
    unfold loss_multimass
    simp only [bind, Except.bind]
    rw [mapM_ok' _ _ _ hs]
    change Except.ok _ = _
    rw [jmean_real]
    congr 2
    unfold points
    rw [← List.flatMap_def, List.map_flatMap]
    congr 1
    funext b
    rw [List.map_map]; rfl
  · exact mean_nonneg _ _ fun _ _ => abs_nonneg _
  · rw [mean_eq_zero_iff _ _ hne fun _ _ => abs_nonneg _]
    simp only [abs_eq_zero, sub_eq_zero]

/-- A case that meets the hypotheses. -/
example : TPCENS.pdict.map Prod.fst = TPCENS.pdict.map Prod.fst ∧
    points [⟨[0.2, 0.5], [0.1, 0.4], 12, 10⟩, ⟨[0.3, 0.6], [0.2, 0.5], 13, 11⟩] ≠ [] := ⟨rfl, by simp [points]⟩

/-- **C88** (fraction of peaked centrals at one mass). -/
theorem C88_flex (utp_x0 : ℝ) (xs ys : List ℝ) (hl : xs.length = ys.length) (hne : xs ≠ []) :
    ∃ l, flex_loss utp_x0 xs ys = .ok l ∧
      Spec.MeasuresFit (fun q : ℝ × ℝ => Real.sigmoid (5 * (q.1 - utp_x0))) Prod.snd (xs.zip ys) l := by
  have hz : xs.zip ys ≠ [] := by
    intro e
    have := congrArg List.length e
    rw [List.length_zip, ← hl, min_self] at this
    exact hne (List.length_eq_zero_iff.1 this)
  refine ⟨_, ?_, measuresFit_mean _ _ hz⟩
  unfold flex_loss
  simp only [List.length_map]
  rw [if_pos hl, ← mse_map, zip_snd hl]
  congr 2
  conv_lhs => rw [← zip_fst hl, List.map_map]
  apply List.map_congr_left
  intro q _
  simp only [Function.comp, Utils.sigmoid, JOps.sigm]
  norm_num

/-! ## C89: fitters -/

open Fit

/-- A parameter vector with entries that are numbers or not. -/
def XInBounds (bounds : List (String × ℝ × ℝ)) (p : NT XR) : Prop :=
  p.map Prod.fst = bounds.map Prod.fst ∧
    ∀ b ∈ bounds, ∃ v, p.lookup b.1 = some v ∧ (v = XR.nan ∨ ∃ r, v = XR.fin r ∧ b.2.1 ≤ r ∧ r ≤ b.2.2)

theorem bounded_param_xr (x : XR) {b : ℝ × ℝ} (hb : b.1 < b.2) :
    (x = XR.nan ∧ get_bounded_param x b = XR.nan) ∨
      ∃ r, get_bounded_param x b = XR.fin r ∧ b.1 ≤ r ∧ r ≤ b.2 ∧
        ∀ a, x = XR.fin a → b.1 < r ∧ r < b.2 := by
  have hk : (lit K_BOUNDING : XR) = XR.fin 0.1 := rfl
  cases x with
  | nan =>
    left
    refine ⟨rfl, ?_⟩
    simp [get_bounded_param, Utils.sigmoid]
  | fin a =>
    right
    refine ⟨get_bounded_param a b, ?_, ?_, ?_, ?_⟩
    · simp only [get_bounded_param, Utils.sigmoid, XR.lit_fin, XR.fin_add, XR.fin_mul, XR.fin_sub, XR.sigm_fin]
      rfl
    · exact (bounded_mem a hb).1.le
    · exact (bounded_mem a hb).2.le
    · intro a' h
      exact bounded_mem a hb
  | pinf =>
    right
    refine ⟨b.2, ?_, hb.le, le_rfl, fun a h => by cases h⟩
    have e1 : XR.pinf - lit 0.5 * (lit b.1 + lit b.2) = XR.pinf := rfl
    have e2 : (lit K_BOUNDING : XR) * XR.pinf = XR.pinf := XR.ofSign_pos (by norm_num [K_BOUNDING])
    unfold get_bounded_param Utils.sigmoid
    dsimp only
    rw [e1, e2, XR.sigm_pinf]
    simp only [XR.lit_fin, XR.fin_sub, XR.fin_mul, XR.fin_add]
    congr 1; ring
  | ninf =>
    right
    refine ⟨b.1, ?_, le_rfl, hb.le, fun a h => by cases h⟩
    have e1 : XR.ninf - lit 0.5 * (lit b.1 + lit b.2) = XR.ninf := rfl
    have e2 : (lit K_BOUNDING : XR) * XR.ninf = XR.ninf := XR.ofSign_neg (by norm_num [K_BOUNDING])
    unfold get_bounded_param Utils.sigmoid
    dsimp only
    rw [e1, e2, XR.sigm_ninf]
    simp only [XR.lit_fin, XR.fin_sub, XR.fin_mul, XR.fin_add]
    congr 1; ring
/-- The bounds of the two parameters of the peak-time density. -/
def UTP_LIMITS : List (String × ℝ × ℝ) := [("utp_loc", 0.1001, 0.9999), ("utp_scale", 0.0001, 1)]

theorem utp_bounds : UTP.bounds = UTP_LIMITS := by
  simp only [UTP, UTP_LIMITS, X_MIN, X_MAX, UTP_EPS]
  norm_num

/-- What the two peak-time fitters do with the vector their optimiser returns. -/
theorem utp_finish (v : PVec) (hv : v.length = 2) :
    ∃ p, (do let u ← NT.make UTP.upnames v; UTP.get_bounded u) = Except.ok p ∧ XInBounds UTP_LIMITS p ∧
      ((∀ x ∈ v, ∃ a, x = XR.fin a) →
        ∀ b ∈ UTP_LIMITS, ∃ r, p.lookup b.1 = some (XR.fin r) ∧ b.2.1 < r ∧ r < b.2.2) := by
  match v, hv with
  | [x, y], _ =>
    have hb : UTP.bounds.values = [((0.1001 : ℝ), (0.9999 : ℝ)), ((0.0001 : ℝ), (1 : ℝ))] := by
      rw [utp_bounds]; rfl
    have e : (do let u ← NT.make UTP.upnames [x, y]; UTP.get_bounded u)
        = Except.ok [("utp_loc", get_bounded_param x (0.1001, 0.9999)),
            ("utp_scale", get_bounded_param y (0.0001, 1))] := by
      have h0 : (do let u ← NT.make UTP.upnames [x, y]; UTP.get_bounded u) =
        NT.make UTP.fields (List.zipWith get_bounded_param [x, y] UTP.bounds.values) := rfl
      rw [h0, hb]; rfl
    have hx := bounded_param_xr x (b := ((0.1001 : ℝ), (0.9999 : ℝ))) (by norm_num)
    have hy := bounded_param_xr y (b := ((0.0001 : ℝ), (1 : ℝ))) (by norm_num)
    refine ⟨_, e, ⟨rfl, ?_⟩, ?_⟩
    · intro b hb
      simp only [UTP_LIMITS, List.mem_cons, List.not_mem_nil, or_false] at hb
      rcases hb with rfl | rfl
      · refine ⟨_, rfl, ?_⟩
        rcases hx with ⟨-, h⟩ | ⟨r, h1, h2, h3, -⟩
        · exact .inl h
        · exact .inr ⟨r, h1, h2, h3⟩
      · refine ⟨_, rfl, ?_⟩
        rcases hy with ⟨-, h⟩ | ⟨r, h1, h2, h3, -⟩
        · exact .inl h
        · exact .inr ⟨r, h1, h2, h3⟩
    · intro hfin b hb
      obtain ⟨a, rfl⟩ := hfin x (by simp)
      obtain ⟨c, rfl⟩ := hfin y (by simp)
      simp only [UTP_LIMITS, List.mem_cons, List.not_mem_nil, or_false] at hb
      rcases hb with rfl | rfl
      · rcases hx with ⟨h, -⟩ | ⟨r, h1, -, -, h4⟩
        · cases h
        · exact ⟨r, by rw [← h1]; rfl, h4 a rfl⟩
      · rcases hy with ⟨h, -⟩ | ⟨r, h1, -, -, h4⟩
        · cases h
        · exact ⟨r, by rw [← h1]; rfl, h4 c rfl⟩

variable {S : Type} (lbfgs : (PVec → XR × PVec) → PVec → LbfgsResult) (adam : ℝ → AdamOpt S)
  (f4 : XR → XR) (lg : PVec → XR × PVec)

/-- **C89** (peak times of centrals). Whatever the two optimisers return, `t_peak_cens_fitter` returns
parameters whose numbers all lie in the bounds of the model (strictly, when the optimiser returned numbers),
together with the loss, the flag and the code of the optimiser that was used. -/
theorem C89_t_peak_cens_fitter_partial (u_p_init : NT XR) (nstep n_warmup : ℕ) (r0 : FallbackResult)
    (h : bfgs_adam_fallback lbfgs adam f4 lg u_p_init.values nstep n_warmup = .ok r0)
    (hl : r0.p_best.length = 2) :
    ∃ r, t_peak_cens_fitter lbfgs adam f4 lg u_p_init nstep n_warmup = .ok r ∧
      XInBounds UTP_LIMITS r.p_best ∧
      ((∀ x ∈ r0.p_best, ∃ a, x = XR.fin a) →
        ∀ b ∈ UTP_LIMITS, ∃ a, r.p_best.lookup b.1 = some (XR.fin a) ∧ b.2.1 < a ∧ a < b.2.2) ∧
      r.loss_best = r0.loss_best ∧ r.fit_terminates = r0.fit_terminates ∧ r.code_used = r0.code_used := by
  obtain ⟨p, h1, h2, h3⟩ := utp_finish r0.p_best hl
  refine ⟨⟨p, r0.loss_best, r0.fit_terminates, r0.code_used⟩, ?_, h2, h3, rfl, rfl, rfl⟩
  unfold t_peak_cens_fitter
  rw [h]
  simp only [bind, Except.bind] at h1 ⊢
  cases hm : NT.make UTP.upnames r0.p_best with
  | error e => rw [hm] at h1; cases h1
  | ok u =>
    rw [hm] at h1
    simp only at h1 ⊢
    rw [h1]; rfl

/-- **C89** (peak times). The same for `t_peak_fitter`, which starts at the default parameters and allows
200 steps and one warm-up. -/
theorem C89_t_peak_fitter_partial (u0 : NT XR) (r0 : FallbackResult)
    (hu : UTP.get_unbounded (UTP.pdict.map fun q => (q.1, XR.fin q.2)) = .ok u0)
    (h : bfgs_adam_fallback lbfgs adam f4 lg u0.values 200 1 = .ok r0)
    (hl : r0.p_best.length = 2) :
    ∃ r, t_peak_fitter lbfgs adam f4 lg = .ok r ∧
      XInBounds UTP_LIMITS r.p_best ∧
      ((∀ x ∈ r0.p_best, ∃ a, x = XR.fin a) →
        ∀ b ∈ UTP_LIMITS, ∃ a, r.p_best.lookup b.1 = some (XR.fin a) ∧ b.2.1 < a ∧ a < b.2.2) ∧
      r.loss_best = r0.loss_best ∧ r.fit_terminates = r0.fit_terminates ∧ r.code_used = r0.code_used := by
  obtain ⟨p, h1, h2, h3⟩ := utp_finish r0.p_best hl
  refine ⟨⟨p, r0.loss_best, r0.fit_terminates, r0.code_used⟩, ?_, h2, h3, rfl, rfl, rfl⟩
  have hd : DEFAULT_UTP_U_PARAMS = .ok u0 := hu
  unfold t_peak_fitter
  rw [hd]
  simp only [bind, Except.bind] at h1 ⊢
  rw [h]
  simp only
  cases hm : NT.make UTP.upnames r0.p_best with
  | error e => rw [hm] at h1; cases h1
  | ok u =>
    rw [hm] at h1
    simp only at h1 ⊢
    rw [h1]; rfl

/-- An optimiser that succeeds at once at the point `(1, 2)` with loss `0.5` meets the hypotheses. -/
example (u : NT XR) :
    bfgs_adam_fallback (fun _ _ => ⟨[XR.fin 1, XR.fin 2], XR.fin 0.5, true⟩) adam f4 lg u.values 200 1
      = .ok ⟨[XR.fin 1, XR.fin 2], XR.fin 0.5, true, 0⟩ ∧
    ([XR.fin 1, XR.fin 2] : PVec).length = 2 ∧ ∀ x ∈ ([XR.fin 1, XR.fin 2] : PVec), ∃ a, x = XR.fin a := by
  refine ⟨?_, rfl, by simp⟩
  unfold bfgs_adam_fallback
  rw [if_pos ⟨rfl, trivial, by show (0 : ℝ) < 0.5; norm_num⟩]
  rfl

/-- And so do the default parameters. -/
example : ∃ u0, UTP.get_unbounded (UTP.pdict.map fun q => (q.1, XR.fin q.2)) = .ok u0 := ⟨_, rfl⟩

/-- **C89, negated** (logm0). `fit_global_c0_model` and `fit_global_c1_model` never fit anything: for
every starting point, every data and every minimiser, they raise `AttributeError`, because the loss
reads named attributes of the plain array that the minimiser passes to it. -/
theorem C89_fit_global_never_works {c : Component} {pred : NT ℝ → ℝ → ℝ → Except PyErr ℝ}
    (h : (c, pred) ∈ LOGM0_COPIES) (m : Minimizer)
    (adam : (PArg ℝ → Except PyErr ℝ) → NT ℝ → Except PyErr (List ℝ × ℝ × Bool))
    (sets : List (List (TEntry ℝ))) (hs : sets ≠ []) (hne : ∀ d ∈ sets, d ≠ []) (p_init : NT ℝ) :
    fit_global_model m adam pred sets p_init = .error .attributeError := by
  obtain ⟨-, h2⟩ := logm0_copies h
  have hf : global_loss_and_grads_kern pred sets (.array p_init.values) = .error .attributeError := by
    obtain ⟨d, ds, rfl⟩ := List.exists_cons_of_ne_nil hs
    obtain ⟨x, xs, rfl⟩ := List.exists_cons_of_ne_nil (hne d (by simp))
    unfold global_loss_and_grads_kern global_loss_kern
    rw [List.foldlM_cons]
    have e : loss_kern_scalar pred (.array p_init.values) (x :: xs) = .error .attributeError := by
      unfold loss_kern_scalar
      simp only [PArg.attrs, bind, Except.bind, List.mapM_cons]
      rw [h2]
    rw [e]; rfl
  unfold fit_global_model
  simp only [bind, Except.bind]
  rw [m.calls_start _ _ _ hf]

/-- A minimiser that evaluates the loss at the start and returns it meets the assumption. -/
example : Minimizer where
  minimize f x0 := do
    let l ← f (.array x0)
    return (x0, l, true)
  calls_start f x0 e h := by rw [h]; rfl

end CompLoss

end Diffmah

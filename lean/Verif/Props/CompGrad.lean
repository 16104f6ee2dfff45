import Verif.Model.CompGrad
import Verif.Lemmas.Normal
import Verif.Props.CompFit
import Mathlib.Analysis.Calculus.Deriv.Abs

/-!
# Gradients of the component losses (C120)

C88 covers the gradients of the early_index and logtc losses; here are those of the other components.
-/

namespace Diffmah

open JOps Pop TPeak ProbabilityTheory

theorem IsAD.jabs {f : ℝ → ℝ} {x : ℝ} {D : Dual} (hf : IsAD f x D) (h0 : f x ≠ 0) :
    IsAD (fun y => JAbs.jabs (f y)) x (JAbs.jabs D) := by
  refine ⟨by change |D.v| = |f x|; rw [hf.1], ?_⟩
  change HasDerivAt (fun y => |f y|) (D.d * (SignType.sign D.v : ℝ)) x
  rw [hf.1, mul_comm]
  exact (hasDerivAt_abs h0).comp x hf.2

theorem IsAD.gaussianPDF {f : ℝ → ℝ} {x : ℝ} {D : Dual} (hf : IsAD f x D) :
    IsAD (fun y => gaussianPDFReal 0 1 (f y)) x (gaussianPDFDual D) := by
  refine ⟨by change gaussianPDFReal 0 1 D.v = _; rw [hf.1], ?_⟩
  change HasDerivAt _ (D.d * (-D.v * gaussianPDFReal 0 1 D.v)) x
  rw [hf.1]
  have h : HasDerivAt (gaussianPDFReal 0 1) (-f x * gaussianPDFReal 0 1 (f x)) (f x) := by
    have h1 : HasDerivAt (fun z : ℝ => -(z - 0) ^ 2 / (2 * ((1 : NNReal) : ℝ))) (-f x) (f x) := by
      have := ((((hasDerivAt_id (f x)).sub_const 0).pow 2).neg).div_const (2 * ((1 : NNReal) : ℝ))
      refine this.congr_deriv ?_
      simp only [id, NNReal.coe_one]
      ring
    have h2 := (h1.exp).const_mul (√(2 * Real.pi * ((1 : NNReal) : ℝ)))⁻¹
    refine h2.congr_deriv ?_
    unfold gaussianPDFReal
    ring
  rw [mul_comm]
  exact h.comp x hf.2

/-- The density at a fixed point, of a distribution truncated to fixed limits, is differentiable in location
and scale wherever the point is: whether it lies between the limits does not depend on them. -/
theorem isAD_truncnorm_pdf {loc scale : ℝ → ℝ} {x : ℝ} {L S : Dual} (hl : IsAD loc x L) (hs : IsAD scale x S)
    (h0 : 0 < scale x) (t : ℝ) {lo hi : ℝ} (hlh : lo < hi) :
    IsAD (fun y => truncnorm_pdf t ((lo - loc y) / scale y) ((hi - loc y) / scale y) (loc y) (scale y)) x
      (truncnorm_pdfDual (Dual.const t) ((Dual.const lo - L) / S) ((Dual.const hi - L) / S) L S) := by
  have hpos : ∀ᶠ y in nhds x, 0 < scale y := hs.2.continuousAt.eventually_const_lt h0
  have hy := ((IsAD.const t x).sub hl).div hs h0.ne'
  have ha := ((IsAD.const lo x).sub hl).div hs h0.ne'
  have hb := ((IsAD.const hi x).sub hl).div hs h0.ne'
  have key : ∀ a b l s : ℝ, 0 < s → ((a - l) / s < (b - l) / s ↔ a < b) := by
    intro a b l s h
    rw [div_lt_div_iff_of_pos_right h]
    constructor <;> intro h <;> linarith
  by_cases hin : t < lo ∨ hi < t
  · have e1 : truncnorm_pdfDual (Dual.const t) ((Dual.const lo - L) / S) ((Dual.const hi - L) / S) L S
        = Dual.const 0 := by
      unfold truncnorm_pdfDual
      simp only
      rw [if_pos]
      rw [hy.1, ha.1, hb.1, key _ _ _ _ h0, key _ _ _ _ h0]
      exact hin
    have e2 : (fun y => truncnorm_pdf t ((lo - loc y) / scale y) ((hi - loc y) / scale y) (loc y) (scale y))
        =ᶠ[nhds x] fun _ => 0 := by
      filter_upwards [hpos] with y hy0
      unfold truncnorm_pdf
      simp only
      rw [if_pos]
      rw [key _ _ _ _ hy0, key _ _ _ _ hy0]
      exact hin
    rw [e1]
    exact ⟨e2.eq_of_nhds.symm, (hasDerivAt_const x 0).congr_of_eventuallyEq e2⟩
  · have hne : scale x * (ndtr ((hi - loc x) / scale x) - ndtr ((lo - loc x) / scale x)) ≠ 0 :=
      (mul_pos h0 (sub_pos.2 (ndtr_strictMono ((key _ _ _ _ h0).2 hlh)))).ne'
    have hq := hy.gaussianPDF.div (hs.mul (hb.ndtr.sub ha.ndtr)) hne
    have e1 : truncnorm_pdfDual (Dual.const t) ((Dual.const lo - L) / S) ((Dual.const hi - L) / S) L S
        = gaussianPDFDual ((Dual.const t - L) / S) / (S * (ndtrDual ((Dual.const hi - L) / S)
          - ndtrDual ((Dual.const lo - L) / S))) := by
      unfold truncnorm_pdfDual
      simp only
      rw [if_neg]
      rw [hy.1, ha.1, hb.1, key _ _ _ _ h0, key _ _ _ _ h0]
      exact hin
    have e2 : (fun y => truncnorm_pdf t ((lo - loc y) / scale y) ((hi - loc y) / scale y) (loc y) (scale y))
        =ᶠ[nhds x] fun y => gaussianPDFReal 0 1 ((t - loc y) / scale y) /
          (scale y * (ndtr ((hi - loc y) / scale y) - ndtr ((lo - loc y) / scale y))) := by
      filter_upwards [hpos] with y hy0
      unfold truncnorm_pdf
      simp only
      rw [if_neg]
      rw [key _ _ _ _ hy0, key _ _ _ _ hy0]
      exact hin
    rw [e1]
    exact ⟨hq.1.trans e2.eq_of_nhds.symm, hq.2.congr_of_eventuallyEq e2⟩

/-- A named tuple of which one entry is the variable. -/
theorem isADNT_seed (p : NT ℝ) (i : ℕ) (hi : i < p.values.length) :
    IsADNT (CompLoss.setNT p i) p.values[i] (CompLoss.seedNT p i) := by
  refine ⟨p.fields.zip (seedPair p.values i), ?_, ?_, ?_⟩
  · intro y
    unfold CompLoss.setNT
    rw [← seedPair_fst, show (fun e : String × (ℝ → ℝ) × Dual => (e.1, e.2.1 y))
        = Prod.map id (fun e : (ℝ → ℝ) × Dual => e.1 y) from rfl, ← List.zip_map_right]
  · unfold CompLoss.seedNT
    rw [← seedPair_snd, show (fun e : String × (ℝ → ℝ) × Dual => (e.1, e.2.2))
        = Prod.map id (fun e : (ℝ → ℝ) × Dual => e.2) from rfl, ← List.zip_map_right]
  · intro e he
    exact seedPair_isAD p.values i hi _ (List.of_mem_zip he).2

theorem NT_zip_self (p : NT ℝ) : p.fields.zip p.values = p := by
  unfold NT.fields NT.values
  rw [← List.unzip_fst, ← List.unzip_snd, List.zip_unzip]

theorem setNT_self (p : NT ℝ) (i : ℕ) (hi : i < p.values.length) :
    CompLoss.setNT p i p.values[i] = p := by
  unfold CompLoss.setNT
  rw [List.set_getElem_self, NT_zip_self]

theorem setNT_fields (p : NT ℝ) (i : ℕ) (y : ℝ) : (CompLoss.setNT p i y).fields = p.fields := by
  unfold CompLoss.setNT
  rw [NT.fields_zip]
  simp [NT.fields, NT.values]

namespace CompLoss

/-- As `isAD_mse`, with the arguments the other way round. -/
theorem isAD_msr {D : Type} (g : D → ℝ → ℝ) (G : D → Dual) (t : D → ℝ) (x : ℝ) {data : List D}
    (hne : data ≠ []) (h : ∀ e ∈ data, IsAD (g e) x (G e)) :
    IsAD (fun y => mse (data.map t) (data.map fun e => g e y)) x
      (mse (data.map fun e => Dual.const (t e)) (data.map G)) := by
  have hR : ∀ y, (List.zipWith (fun a b : ℝ => b - a) (data.map t) (data.map fun e => g e y)).map
      (fun d => d * d) = data.map fun e => (g e y - t e) * (g e y - t e) := by
    intro y
    rw [List.zipWith_map, List.zipWith_self, List.map_map]; rfl
  have hD : (List.zipWith (fun a b : Dual => b - a) (data.map fun e => Dual.const (t e)) (data.map G)).map
      (fun d => d * d) = data.map fun e => (G e - Dual.const (t e)) * (G e - Dual.const (t e)) := by
    rw [List.zipWith_map, List.zipWith_self, List.map_map]; rfl
  unfold mse jmean
  simp only [hR, hD, List.length_map]
  refine IsAD.div (isAD_foldl' (fun e y => (g e y - t e) * (g e y - t e)) _ x _ ?_ _ _ (IsAD.lit 0 x))
    (IsAD.lit _ x) ?_
  · intro e he
    exact ((h e he).sub (IsAD.const (t e) x)).mul ((h e he).sub (IsAD.const (t e) x))
  · change ((data.length : ℕ) : ℝ) ≠ 0
    exact_mod_cast fun e => hne (List.length_eq_zero_iff.1 e)

/-! ## Peak times -/

theorem utp_loss_of_real (eps : ℝ) (u xs ys : List ℝ) :
    utp_loss_of truncnorm_pdf u xs ys = utp_loss (Ext.normal eps) u xs ys := rfl

theorem tp_cens_loss_of_real (eps : ℝ) (u xs ys : List ℝ) (t_0 : ℝ) :
    tp_cens_loss_of truncnorm_pdf u xs ys t_0 = tp_cens_loss (Ext.normal eps) u xs ys t_0 := rfl

theorem flex_loss_of_real (x0 : ℝ) (xs ys : List ℝ) : flex_loss_of x0 xs ys = flex_loss x0 xs ys := rfl

/-- Location and scale as functions of one unbounded parameter. -/
theorem utp_isAD {u : List ℝ} (hu : u.length = 2) {i : ℕ} (hi : i < u.length) :
    ∃ (p : ℝ → NT ℝ) (P : NT Dual) (loc scale : ℝ → ℝ) (L S : Dual),
      (∀ y, NT.make UTP.upnames (u.set i y) = .ok (UTP.upnames.zip (u.set i y))) ∧
      (∀ y, UTP.get_bounded (UTP.upnames.zip (u.set i y)) = .ok (p y)) ∧
      (∀ y, (p y).getattr "utp_loc" = .ok (loc y)) ∧ (∀ y, (p y).getattr "utp_scale" = .ok (scale y)) ∧
      NT.make UTP.upnames (seed u i) = .ok (UTP.upnames.zip (seed u i)) ∧
      UTP.get_bounded (UTP.upnames.zip (seed u i)) = .ok P ∧
      P.getattr "utp_loc" = .ok L ∧ P.getattr "utp_scale" = .ok S ∧
      IsAD loc u[i] L ∧ IsAD scale u[i] S ∧ 0 < scale u[i] := by
  obtain ⟨p, P, hAD, h1, h2, h3⟩ := isADNT_bounded UTP_wf u (by rw [hu]; rfl) i hi
  obtain ⟨loc, L, a1, b1, c1⟩ := hAD.getattr (n := "utp_loc") (by rw [h3]; simp [Component.fields, UTP, NT.fields])
  obtain ⟨scale, S, a2, b2, c2⟩ := hAD.getattr (n := "utp_scale") (by rw [h3]; simp [Component.fields, UTP, NT.fields])
  refine ⟨p, P, loc, scale, L, S, fun y => NT.make_eq (by simp [hu]; rfl), h1, a1, a2, ?_, h2, b1, b2, c1, c2, ?_⟩
  · exact NT.make_eq (by rw [← seedPair_snd, List.length_map, seedPair_length, hu]; rfl)
  · obtain ⟨q, l, s, -, e2, -, e4, -, e6, -⟩ := utp_params (u := u.set i u[i]) (by simp [hu])
    rw [h1] at e2
    cases e2
    rw [a2] at e4
    cases e4
    linarith

theorem zip_ne {xs ys : List ℝ} (hl : xs.length = ys.length) (hne : xs ≠ []) : xs.zip ys ≠ [] := by
  intro e
  have := congrArg List.length e
  rw [List.length_zip, ← hl, min_self] at this
  exact hne (List.length_eq_zero_iff.1 this)

/-- **C120** (peak times). At every parameter vector, for all non-empty data, component `i` of the gradient
that `t_peak_fitter` follows is the derivative of its loss with respect to unbounded parameter `i`. -/
theorem C120_utp (eps : ℝ) (u xs ys : List ℝ) (hu : u.length = 2) (hl : xs.length = ys.length)
    (hne : xs ≠ []) (i : ℕ) (hi : i < u.length) :
    ∃ (L : ℝ → ℝ) (g : ℝ), (∀ y, utp_loss (Ext.normal eps) (u.set i y) xs ys = .ok (L y)) ∧
      utp_grad u xs ys i = .ok g ∧ HasDerivAt L g u[i] := by
  obtain ⟨p, P, loc, scale, L, S, m1, m2, m3, m4, m5, m6, m7, m8, hL, hS, h0⟩ := utp_isAD hu hi
  have hk := isAD_mse (fun (q : ℝ × ℝ) y => truncnorm_pdf q.1 ((X_MIN - loc y) / scale y)
    ((X_MAX - loc y) / scale y) (loc y) (scale y)) _ Prod.snd u[i] (zip_ne hl hne) fun q _ =>
    isAD_truncnorm_pdf hL hS h0 q.1 (by norm_num [X_MIN, X_MAX])
  refine ⟨_, _, ?_, ?_, hk.2⟩
  · intro y
    rw [← utp_loss_of_real]
    unfold utp_loss_of
    simp only [m1, m2, m3, m4, bind, Except.bind]
    rw [if_pos (by simp [tp_pdf_kern_of, hl])]
    change Except.ok _ = Except.ok _
    congr 2
    · unfold tp_pdf_kern_of
      conv_lhs => rw [← zip_fst hl]
      rw [List.map_map]; rfl
    · exact (zip_snd hl).symm
  · unfold utp_grad utp_loss_of
    simp only [m5, m6, m7, m8, bind, Except.bind]
    rw [if_pos (by simp [tp_pdf_kern_of, hl])]
    change Except.ok _ = Except.ok _
    congr 3
    · unfold tp_pdf_kern_of
      conv_lhs => rw [← zip_fst hl]
      rw [List.map_map, List.map_map]; rfl
    · conv_lhs => rw [← zip_snd hl]
      rw [List.map_map]; rfl

/-- **C120** (peak times of centrals). The same for `t_peak_cens_fitter`, at every `t_0` other than zero. -/
theorem C120_tp_cens (eps : ℝ) (u xs ys : List ℝ) (t_0 : ℝ) (ht : t_0 ≠ 0) (hu : u.length = 2)
    (hl : xs.length = ys.length) (hne : xs ≠ []) (i : ℕ) (hi : i < u.length) :
    ∃ (L : ℝ → ℝ) (g : ℝ), (∀ y, tp_cens_loss (Ext.normal eps) (u.set i y) xs ys t_0 = .ok (L y)) ∧
      tp_cens_grad u xs ys t_0 i = .ok g ∧ HasDerivAt L g u[i] := by
  obtain ⟨p, P, loc, scale, L, S, m1, m2, m3, m4, m5, m6, m7, m8, hL, hS, h0⟩ := utp_isAD hu hi
  have hc : ∀ a : ℝ, Dual.const a / Dual.const t_0 = Dual.const (a / t_0) := by
    intro a
    ext
    · rfl
    · change (0 * t_0 - a * 0) / (t_0 * t_0) = 0
      simp
  have hk := isAD_mse (fun (q : ℝ × ℝ) y => truncnorm_pdf (q.1 / t_0) ((X_MIN - loc y) / scale y)
    ((X_MAX - loc y) / scale y) (loc y) (scale y) / t_0) _ Prod.snd u[i] (zip_ne hl hne) fun q _ =>
    (isAD_truncnorm_pdf hL hS h0 (q.1 / t_0) (by norm_num [X_MIN, X_MAX])).div (IsAD.const t_0 _) ht
  refine ⟨_, _, ?_, ?_, hk.2⟩
  · intro y
    rw [← tp_cens_loss_of_real]
    unfold tp_cens_loss_of
    simp only [m1, m2, m3, m4, bind, Except.bind]
    rw [if_pos (by simp [tp_pdf_kern_of, hl])]
    change Except.ok _ = Except.ok _
    congr 2
    · unfold tp_pdf_kern_of
      conv_lhs => rw [← zip_fst hl]
      simp only [List.map_map]; rfl
    · exact (zip_snd hl).symm
  · unfold tp_cens_grad tp_cens_loss_of
    simp only [m5, m6, m7, m8, bind, Except.bind]
    rw [if_pos (by simp [tp_pdf_kern_of, hl])]
    change Except.ok _ = Except.ok _
    congr 3
    · unfold tp_pdf_kern_of
      conv_lhs => rw [← zip_fst hl]
      simp only [List.map_map]
      apply List.map_congr_left
      intro q _
      simp only [Function.comp, hc]
      rfl
    · conv_lhs => rw [← zip_snd hl]
      rw [List.map_map]; rfl

/-- **C120** (fraction of peaked centrals at one mass). -/
theorem C120_flex (x0 : ℝ) (xs ys : List ℝ) (hl : xs.length = ys.length) (hne : xs ≠ []) :
    ∃ (L : ℝ → ℝ) (g : ℝ), (∀ y, flex_loss y xs ys = .ok (L y)) ∧ flex_grad x0 xs ys = .ok g ∧
      HasDerivAt L g x0 := by
  have hk := isAD_mse (fun (q : ℝ × ℝ) y => Utils.sigmoid q.1 y (lit 5.0) (lit 0.0) (lit 1.0)) _ Prod.snd x0
    (zip_ne hl hne) fun q _ => IsAD.usigmoid (IsAD.const q.1 x0) (IsAD.var x0) (IsAD.lit 5.0 x0)
      (IsAD.lit 0.0 x0) (IsAD.lit 1.0 x0)
  refine ⟨_, _, ?_, ?_, hk.2⟩
  · intro y
    rw [← flex_loss_of_real]
    unfold flex_loss_of
    simp only [List.length_map]
    rw [if_pos hl]
    congr 2
    · conv_lhs => rw [← zip_fst hl]
      rw [List.map_map]; rfl
    · exact (zip_snd hl).symm
  · unfold flex_grad flex_loss_of
    simp only [List.length_map]
    rw [if_pos hl]
    change Except.ok _ = Except.ok _
    congr 3
    · conv_lhs => rw [← zip_fst hl]
      rw [List.map_map, List.map_map]; rfl
    · conv_lhs => rw [← zip_snd hl]
      rw [List.map_map]; rfl

/-! ## logm0 -/

theorem isAD_c0 {sfx : String} {p : ℝ → NT ℝ} {x : ℝ} {P : NT Dual} (h : IsADNT p x P)
    (hf : (p x).fields = (LGM0POP_C0_BOUNDS_DICT sfx).fields) (t_obs t_peak : ℝ) :
    ∃ g D, (∀ y, pred_c0_kern sfx (p y) t_obs t_peak = .ok (g y)) ∧
      pred_c0_kern sfx P (Dual.const t_obs) (Dual.const t_peak) = .ok D ∧
      ((∀ ytp ylo c0 c1 x0, (p x).getattr ("lgm0pop_c0_ytp" ++ sfx) = .ok ytp →
        (p x).getattr ("lgm0pop_c0_ylo" ++ sfx) = .ok ylo →
        (p x).getattr ("lgm0pop_c0_clip_c0" ++ sfx) = .ok c0 →
        (p x).getattr ("lgm0pop_c0_clip_c1" ++ sfx) = .ok c1 →
        (p x).getattr ("lgm0pop_c0_t_obs_x0" ++ sfx) = .ok x0 →
        Utils.sig_slope t_obs 15 ytp x0 0.25 ylo 0 ≠ c0 + c1 * t_peak) → IsAD g x D) := by
  have hm : ∀ n, n ∈ ["lgm0pop_c0_ytp", "lgm0pop_c0_ylo", "lgm0pop_c0_clip_c0", "lgm0pop_c0_clip_c1",
      "lgm0pop_c0_t_obs_x0"] → n ++ sfx ∈ (p x).fields := by
    intro n hn
    rw [hf]
    simp only [LGM0POP_C0_BOUNDS_DICT, withSuffix, NT.fields, List.map_map, List.mem_map]
    simp only [List.mem_cons, List.not_mem_nil, or_false] at hn
    rcases hn with rfl | rfl | rfl | rfl | rfl <;> simp
  obtain ⟨f1, D1, a1, b1, c1⟩ := h.getattr (hm "lgm0pop_c0_ytp" (by simp))
  obtain ⟨f2, D2, a2, b2, c2⟩ := h.getattr (hm "lgm0pop_c0_ylo" (by simp))
  obtain ⟨f3, D3, a3, b3, c3⟩ := h.getattr (hm "lgm0pop_c0_clip_c0" (by simp))
  obtain ⟨f4, D4, a4, b4, c4⟩ := h.getattr (hm "lgm0pop_c0_clip_c1" (by simp))
  obtain ⟨f5, D5, a5, b5, c5⟩ := h.getattr (hm "lgm0pop_c0_t_obs_x0" (by simp))
  refine ⟨fun y => JMinMax.jmax (Utils.sig_slope t_obs (lit 15) (f1 y) (f5 y) (lit 0.25) (f2 y) (lit 0.0))
      (f3 y + f4 y * t_peak),
    JMinMax.jmax (Utils.sig_slope (Dual.const t_obs) (lit 15) D1 D5 (lit 0.25) D2 (lit 0.0))
      (D3 + D4 * Dual.const t_peak), ?_, ?_, ?_⟩
  · intro y
    unfold pred_c0_kern
    simp only [a1, a2, a3, a4, a5, bind, Except.bind, pure, Except.pure]
  · unfold pred_c0_kern
    simp only [b1, b2, b3, b4, b5, bind, Except.bind, pure, Except.pure]
  · intro hk
    refine IsAD.jmax (IsAD.sig_slope (IsAD.const _ _) (IsAD.lit _ _) c1 c5 (IsAD.lit _ _) c2 (IsAD.lit _ _))
      (c3.add (c4.mul (IsAD.const _ _))) ?_
    have := hk _ _ _ _ _ (a1 x) (a2 x) (a3 x) (a4 x) (a5 x)
    have e0 : (lit 0.0 : ℝ) = 0 := by change (0.0 : ℝ) = 0; norm_num
    rw [e0]
    exact this

theorem isAD_c1 {sfx : String} {p : ℝ → NT ℝ} {x : ℝ} {P : NT Dual} (h : IsADNT p x P)
    (hf : (p x).fields = (LGM0POP_C1_BOUNDS_DICT sfx).fields) (t_obs t_peak : ℝ) :
    ∃ g D, (∀ y, pred_c1_kern sfx (p y) t_obs t_peak = .ok (g y)) ∧
      pred_c1_kern sfx P (Dual.const t_obs) (Dual.const t_peak) = .ok D ∧
      ((∀ ytp ylo cx clo chi x0, (p x).getattr ("lgm0pop_c1_ytp" ++ sfx) = .ok ytp →
        (p x).getattr ("lgm0pop_c1_ylo" ++ sfx) = .ok ylo →
        (p x).getattr ("lgm0pop_c1_clip_x0" ++ sfx) = .ok cx →
        (p x).getattr ("lgm0pop_c1_clip_ylo" ++ sfx) = .ok clo →
        (p x).getattr ("lgm0pop_c1_clip_yhi" ++ sfx) = .ok chi →
        (p x).getattr ("lgm0pop_c1_t_obs_x0" ++ sfx) = .ok x0 →
        Utils.sig_slope t_obs 10 ytp x0 0.25 ylo 0 ≠ Utils.sigmoid t_peak cx 1 clo chi) → IsAD g x D) := by
  have hm : ∀ n, n ∈ ["lgm0pop_c1_ytp", "lgm0pop_c1_ylo", "lgm0pop_c1_clip_x0", "lgm0pop_c1_clip_ylo",
      "lgm0pop_c1_clip_yhi", "lgm0pop_c1_t_obs_x0"] → n ++ sfx ∈ (p x).fields := by
    intro n hn
    rw [hf]
    simp only [LGM0POP_C1_BOUNDS_DICT, withSuffix, NT.fields, List.map_map, List.mem_map]
    simp only [List.mem_cons, List.not_mem_nil, or_false] at hn
    rcases hn with rfl | rfl | rfl | rfl | rfl | rfl <;> simp
  obtain ⟨f1, D1, a1, b1, c1⟩ := h.getattr (hm "lgm0pop_c1_ytp" (by simp))
  obtain ⟨f2, D2, a2, b2, c2⟩ := h.getattr (hm "lgm0pop_c1_ylo" (by simp))
  obtain ⟨f3, D3, a3, b3, c3⟩ := h.getattr (hm "lgm0pop_c1_clip_x0" (by simp))
  obtain ⟨f4, D4, a4, b4, c4⟩ := h.getattr (hm "lgm0pop_c1_clip_ylo" (by simp))
  obtain ⟨f5, D5, a5, b5, c5⟩ := h.getattr (hm "lgm0pop_c1_clip_yhi" (by simp))
  obtain ⟨f6, D6, a6, b6, c6⟩ := h.getattr (hm "lgm0pop_c1_t_obs_x0" (by simp))
  refine ⟨fun y => JMinMax.jmax (Utils.sig_slope t_obs (lit 10.0) (f1 y) (f6 y) (lit 0.25) (f2 y) (lit 0.0))
      (Utils.sigmoid t_peak (f3 y) (lit 1.0) (f4 y) (f5 y)),
    JMinMax.jmax (Utils.sig_slope (Dual.const t_obs) (lit 10.0) D1 D6 (lit 0.25) D2 (lit 0.0))
      (Utils.sigmoid (Dual.const t_peak) D3 (lit 1.0) D4 D5), ?_, ?_, ?_⟩
  · intro y
    unfold pred_c1_kern
    simp only [a1, a2, a3, a4, a5, a6, bind, Except.bind, pure, Except.pure]
  · unfold pred_c1_kern
    simp only [b1, b2, b3, b4, b5, b6, bind, Except.bind, pure, Except.pure]
  · intro hk
    refine IsAD.jmax (IsAD.sig_slope (IsAD.const _ _) (IsAD.lit _ _) c1 c6 (IsAD.lit _ _) c2 (IsAD.lit _ _))
      (IsAD.usigmoid (IsAD.const _ _) c3 (IsAD.lit _ _) c4 c5) ?_
    have := hk _ _ _ _ _ _ (a1 x) (a2 x) (a3 x) (a4 x) (a5 x) (a6 x)
    have e0 : (lit 0.0 : ℝ) = 0 := by change (0.0 : ℝ) = 0; norm_num
    have e1 : (lit 1.0 : ℝ) = 1 := by change (1.0 : ℝ) = 1; norm_num
    have e10 : (lit 10.0 : ℝ) = 10 := by change (10.0 : ℝ) = 10; norm_num
    rw [e0, e1, e10]
    exact this

theorem isAD_global {predR : NT ℝ → ℝ → ℝ → Except PyErr ℝ} {predD : NT Dual → Dual → Dual → Except PyErr Dual}
    {p : ℝ → NT ℝ} {P : NT Dual} {x : ℝ} (g : TEntry ℝ → ℝ → ℝ) (G : TEntry ℝ → Dual)
    (k1 : ∀ e y, predR (p y) e.t_obs e.t_peak = .ok (g e y))
    (k2 : ∀ e, predD P (Dual.const e.t_obs) (Dual.const e.t_peak) = .ok (G e))
    (sets : List (List (TEntry ℝ))) (hne : ∀ d ∈ sets, d ≠ [])
    (k3 : ∀ d ∈ sets, ∀ e ∈ d, IsAD (g e) x (G e)) :
    ∃ L D, (∀ y, global_loss_kern predR (.tuple (p y)) sets = .ok (L y)) ∧
      global_loss_kern predD (.tuple P) (sets.map fun d => d.map TEntry.const) = .ok D ∧ IsAD L x D := by
  have hmse : ∀ d ∈ sets, IsAD (fun y => mse (d.map TEntry.target) (d.map fun e => g e y)) x
      (mse ((d.map TEntry.const).map TEntry.target) (d.map G)) := by
    intro d hd
    have := isAD_msr g G TEntry.target x (hne d hd) (k3 d hd)
    rw [List.map_map]
    exact this
  have hR : ∀ (l : List (List (TEntry ℝ))) (a y : ℝ), l.foldlM (fun loss loss_data => do
        let l ← loss_kern_scalar predR (.tuple (p y)) loss_data
        return loss + l) a
      = (.ok ((l.map fun d => mse (d.map TEntry.target) (d.map fun e => g e y)).foldl (· + ·) a) :
        Except PyErr ℝ) := by
    intro l
    induction l with
    | nil => intro a y; rfl
    | cons d l ih =>
      intro a y
      rw [List.foldlM_cons]
      unfold loss_kern_scalar
      simp only [PArg.attrs, bind, Except.bind]
      rw [mapM_ok' _ (fun e => g e y) _ fun e _ => k1 e y]
      simp only [pure, Except.pure]
      exact ih _ y
  have hD : ∀ (l : List (List (TEntry ℝ))) (a : Dual), (l.map fun d => d.map TEntry.const).foldlM
      (fun loss loss_data => do
        let l ← loss_kern_scalar predD (.tuple P) loss_data
        return loss + l) a
      = (.ok ((l.map fun d => mse ((d.map TEntry.const).map TEntry.target) (d.map G)).foldl (· + ·) a) :
        Except PyErr Dual) := by
    intro l
    induction l with
    | nil => intro a; rfl
    | cons d l ih =>
      intro a
      rw [List.map_cons, List.foldlM_cons]
      unfold loss_kern_scalar
      simp only [PArg.attrs, bind, Except.bind]
      rw [List.mapM_map, mapM_ok' _ G _ (by intro e _; exact k2 e)]
      simp only [pure, Except.pure]
      exact ih _
  refine ⟨_, _, fun y => hR sets _ y, hD sets _, ?_⟩
  exact isAD_foldl' (fun d y => mse (d.map TEntry.target) (d.map fun e => g e y)) _ x sets hmse _ _
    (IsAD.lit 0.0 x)

/-- **C120** (first coefficient of logm0). For every parameter tuple of a copy (given by the suffix of its
names) at which no prediction sits exactly on its floor, field `i` of the gradient is the derivative of
`global_loss_kern` with respect to parameter `i`. -/
theorem C120_logm0_c0 {sfx : String} (params : NT ℝ)
    (hp : params.map Prod.fst = (lgm0pop_c0 sfx 0 0 0 0 0).pdict.map Prod.fst) (sets : List (List (TEntry ℝ)))
    (hne : ∀ d ∈ sets, d ≠ [])
    (hfloor : ∀ d ∈ sets, ∀ e ∈ d, ∀ ytp ylo c0 c1 x0, params.getattr ("lgm0pop_c0_ytp" ++ sfx) = .ok ytp →
      params.getattr ("lgm0pop_c0_ylo" ++ sfx) = .ok ylo → params.getattr ("lgm0pop_c0_clip_c0" ++ sfx) = .ok c0 →
      params.getattr ("lgm0pop_c0_clip_c1" ++ sfx) = .ok c1 →
      params.getattr ("lgm0pop_c0_t_obs_x0" ++ sfx) = .ok x0 →
      Utils.sig_slope e.t_obs 15 ytp x0 0.25 ylo 0 ≠ c0 + c1 * e.t_peak)
    (i : ℕ) (hi : i < params.values.length) :
    ∃ (L : ℝ → ℝ) (g : ℝ), (∀ y, global_loss_kern (pred_c0_kern sfx) (.tuple (setNT params i y)) sets = .ok (L y)) ∧
      logm0_grad (pred_c0_kern sfx) params sets i = .ok g ∧ HasDerivAt L g params.values[i] := by
  have hAD := isADNT_seed params i hi
  have hf : (setNT params i params.values[i]).fields = (LGM0POP_C0_BOUNDS_DICT sfx).fields := by
    rw [setNT_fields, NT.fields, hp]
    simp [lgm0pop_c0, LGM0POP_C0_BOUNDS_DICT, withSuffix, NT.fields]
  choose g G k1 k2 k3 using fun e : TEntry ℝ => isAD_c0 hAD hf e.t_obs e.t_peak
  rw [setNT_self] at k3
  obtain ⟨L, D, h1, h2, h3⟩ := isAD_global g G k1 k2 sets hne fun d hd e he => k3 e (hfloor d hd e he)
  refine ⟨L, D.d, h1, ?_, h3.2⟩
  unfold logm0_grad
  rw [h2]; rfl

/-- **C120** (second coefficient of logm0). -/
theorem C120_logm0_c1 {sfx : String} (params : NT ℝ)
    (hp : params.map Prod.fst = (lgm0pop_c1 sfx 0 0 0 0 0 0).pdict.map Prod.fst)
    (sets : List (List (TEntry ℝ))) (hne : ∀ d ∈ sets, d ≠ [])
    (hfloor : ∀ d ∈ sets, ∀ e ∈ d, ∀ ytp ylo cx clo chi x0,
      params.getattr ("lgm0pop_c1_ytp" ++ sfx) = .ok ytp →
      params.getattr ("lgm0pop_c1_ylo" ++ sfx) = .ok ylo → params.getattr ("lgm0pop_c1_clip_x0" ++ sfx) = .ok cx →
      params.getattr ("lgm0pop_c1_clip_ylo" ++ sfx) = .ok clo →
      params.getattr ("lgm0pop_c1_clip_yhi" ++ sfx) = .ok chi →
      params.getattr ("lgm0pop_c1_t_obs_x0" ++ sfx) = .ok x0 →
      Utils.sig_slope e.t_obs 10 ytp x0 0.25 ylo 0 ≠ Utils.sigmoid e.t_peak cx 1 clo chi)
    (i : ℕ) (hi : i < params.values.length) :
    ∃ (L : ℝ → ℝ) (g : ℝ), (∀ y, global_loss_kern (pred_c1_kern sfx) (.tuple (setNT params i y)) sets = .ok (L y)) ∧
      logm0_grad (pred_c1_kern sfx) params sets i = .ok g ∧ HasDerivAt L g params.values[i] := by
  have hAD := isADNT_seed params i hi
  have hf : (setNT params i params.values[i]).fields = (LGM0POP_C1_BOUNDS_DICT sfx).fields := by
    rw [setNT_fields, NT.fields, hp]
    simp [lgm0pop_c1, LGM0POP_C1_BOUNDS_DICT, withSuffix, NT.fields]
  choose g G k1 k2 k3 using fun e : TEntry ℝ => isAD_c1 hAD hf e.t_obs e.t_peak
  rw [setNT_self] at k3
  obtain ⟨L, D, h1, h2, h3⟩ := isAD_global g G k1 k2 sets hne fun d hd e he => k3 e (hfloor d hd e he)
  refine ⟨L, D.d, h1, ?_, h3.2⟩
  unfold logm0_grad
  rw [h2]; rfl

/-- The hypotheses are met at time 15, where the prediction is `ytp` itself, below the floor of the default
parameters. -/
example : (∀ ytp ylo c0 c1 x0, LGM0_C0_EARLY.pdict.getattr "lgm0pop_c0_ytp_early" = .ok ytp →
      LGM0_C0_EARLY.pdict.getattr "lgm0pop_c0_ylo_early" = .ok ylo →
      LGM0_C0_EARLY.pdict.getattr "lgm0pop_c0_clip_c0_early" = .ok c0 →
      LGM0_C0_EARLY.pdict.getattr "lgm0pop_c0_clip_c1_early" = .ok c1 →
      LGM0_C0_EARLY.pdict.getattr "lgm0pop_c0_t_obs_x0_early" = .ok x0 →
      Utils.sig_slope (15 : ℝ) 15 ytp x0 0.25 ylo 0 ≠ c0 + c1 * 5) ∧
    LGM0_C0_EARLY.pdict.map Prod.fst = (lgm0pop_c0 "_early" 0 0 0 0 0).pdict.map Prod.fst := by
  refine ⟨?_, rfl⟩
  intro ytp ylo c0 c1 x0 h1 h2 h3 h4 h5
  have e1 : LGM0_C0_EARLY.pdict.getattr "lgm0pop_c0_ytp_early" = .ok 0.020 := rfl
  have e3 : LGM0_C0_EARLY.pdict.getattr "lgm0pop_c0_clip_c0_early" = .ok 0.897 := rfl
  have e4 : LGM0_C0_EARLY.pdict.getattr "lgm0pop_c0_clip_c1_early" = .ok (-0.090) := rfl
  rw [e1] at h1; rw [e3] at h3; rw [e4] at h4
  cases h1; cases h3; cases h4
  simp only [Utils.sig_slope, sub_self, mul_zero, add_zero]
  norm_num

/-! ## Fraction of peaked centrals -/

def MassBin.toReal (b : MassBin) : MassBinOf ℝ := ⟨b.utp_target, b.y_target, b.lgm_obs, b.t_obs⟩

theorem loss_multimass_of_real (params : NT ℝ) (bins : List MassBin) :
    loss_multimass_of params (bins.map MassBin.toReal) = loss_multimass params bins := by
  unfold loss_multimass_of loss_multimass
  rw [List.mapM_map]
  rfl

theorem isAD_utp_x0 {p : ℝ → NT ℝ} {x : ℝ} {P : NT Dual} (h : IsADNT p x P)
    (hf : (p x).fields = TPCENS.pdict.map Prod.fst) (lgm t_obs : ℝ) :
    ∃ g D, (∀ y, get_utp_x0_from_lgm (p y) lgm t_obs = .ok (g y)) ∧
      get_utp_x0_from_lgm P (Dual.const lgm) (Dual.const t_obs) = .ok D ∧ IsAD g x D := by
  obtain ⟨f1, D1, a1, b1, c1⟩ := h.getattr (n := "cen_tp_lgm_x0_x0") (by rw [hf]; simp [TPCENS])
  obtain ⟨f2, D2, a2, b2, c2⟩ := h.getattr (n := "cen_tp_x0_ylo_early") (by rw [hf]; simp [TPCENS])
  obtain ⟨f3, D3, a3, b3, c3⟩ := h.getattr (n := "cen_tp_x0_yhi_early") (by rw [hf]; simp [TPCENS])
  obtain ⟨f4, D4, a4, b4, c4⟩ := h.getattr (n := "cen_tp_x0_ylo_late") (by rw [hf]; simp [TPCENS])
  obtain ⟨f5, D5, a5, b5, c5⟩ := h.getattr (n := "cen_tp_x0_yhi_late") (by rw [hf]; simp [TPCENS])
  obtain ⟨f6, D6, a6, b6, c6⟩ := h.getattr (n := "cen_tp_t_obs_x0_x0") (by rw [hf]; simp [TPCENS])
  refine ⟨fun y => Utils.sigmoid t_obs (f6 y) (lit 2.0) (Utils.sigmoid lgm (f1 y) (lit 1.0) (f2 y) (f3 y))
      (Utils.sigmoid lgm (f1 y) (lit 1.0) (f4 y) (f5 y)),
    Utils.sigmoid (Dual.const t_obs) D6 (lit 2.0) (Utils.sigmoid (Dual.const lgm) D1 (lit 1.0) D2 D3)
      (Utils.sigmoid (Dual.const lgm) D1 (lit 1.0) D4 D5), ?_, ?_, ?_⟩
  · intro y
    unfold get_utp_x0_from_lgm
    simp only [a1, a2, a3, a4, a5, a6, bind, Except.bind, pure, Except.pure]
  · unfold get_utp_x0_from_lgm
    simp only [b1, b2, b3, b4, b5, b6, bind, Except.bind, pure, Except.pure]
  · exact IsAD.usigmoid (IsAD.const _ _) c6 (IsAD.lit _ _)
      (IsAD.usigmoid (IsAD.const _ _) c1 (IsAD.lit _ _) c2 c3)
      (IsAD.usigmoid (IsAD.const _ _) c1 (IsAD.lit _ _) c4 c5)

/-- The losses of all points, over a number system. -/
theorem multimass_eval {α : Type} [Add α] [Sub α] [Mul α] [Div α] [JOps α] [JAbs α] (params : NT α) (c : ℝ → α)
    (bins : List MassBin) (hl : ∀ b ∈ bins, b.utp_target.length = b.y_target.length) (x0 : MassBin → α)
    (hx0 : ∀ b : MassBin, get_utp_x0_from_lgm params (c b.lgm_obs) (c b.t_obs) = .ok (x0 b)) :
    loss_multimass_of params (bins.map fun b => ⟨b.utp_target.map c, b.y_target.map c, c b.lgm_obs, c b.t_obs⟩)
      = .ok (jmean ((points bins).map fun q =>
        JAbs.jabs (c q.2.2 - Utils.sigmoid (c q.2.1) (x0 q.1) (lit 5.0) (lit 0.0) (lit 1.0)))) := by
  have hs : ∀ b ∈ bins, loss_kern_single_mass_of params
      ⟨b.utp_target.map c, b.y_target.map c, c b.lgm_obs, c b.t_obs⟩
      = .ok ((b.utp_target.zip b.y_target).map fun q =>
        JAbs.jabs (c q.2 - Utils.sigmoid (c q.1) (x0 b) (lit 5.0) (lit 0.0) (lit 1.0))) := by
    intro b hb
    unfold loss_kern_single_mass_of frac_peaked_vs_lgm
    simp only [hx0, bind, Except.bind, pure, Except.pure]
    rw [if_pos (by simp [hl b hb])]
    congr 1
    rw [List.map_map, List.zipWith_map, ← List.map_uncurry_zip_eq_zipWith]
    rfl
  unfold loss_multimass_of
  rw [List.mapM_map]
  simp only [bind, Except.bind]
  rw [mapM_ok' _ _ _ (by intro b hb; exact hs b hb)]
  change Except.ok _ = _
  congr 2
  unfold points
  rw [← List.flatMap_def, List.map_flatMap]
  congr 1
  funext b
  rw [List.map_map]; rfl

theorem foldl_dual_d (l : List Dual) (a : Dual) (h : ∀ D ∈ l, D.d = 0) : (l.foldl (· + ·) a).d = a.d := by
  induction l generalizing a with
  | nil => rfl
  | cons b l ih =>
    rw [List.foldl_cons, ih _ fun D hD => h D (List.mem_cons_of_mem _ hD)]
    change a.d + b.d = a.d
    rw [h b List.mem_cons_self, add_zero]

/-- **C120** (fraction of peaked centrals). Where no target is predicted exactly, field `i` of the gradient
of `loss_multimass` is its derivative with respect to parameter `i`; where every target is predicted exactly,
the gradient vanishes. -/
theorem C120_multimass (params : NT ℝ) (hp : params.map Prod.fst = TPCENS.pdict.map Prod.fst)
    (bins : List MassBin) (hl : ∀ b ∈ bins, b.utp_target.length = b.y_target.length)
    (hne : points bins ≠ []) (i : ℕ) (hi : i < params.values.length) :
    ∃ (pred : MassBin → ℝ → ℝ) (L : ℝ → ℝ) (g : ℝ),
      (∀ b x, frac_peaked_vs_lgm params [x] b.lgm_obs b.t_obs = .ok [pred b x]) ∧
      (∀ y, loss_multimass (setNT params i y) bins = .ok (L y)) ∧ multimass_grad params bins i = .ok g ∧
      ((∀ q ∈ points bins, pred q.1 q.2.1 ≠ q.2.2) → HasDerivAt L g params.values[i]) ∧
      ((∀ q ∈ points bins, pred q.1 q.2.1 = q.2.2) → g = 0) := by
  have hAD := isADNT_seed params i hi
  have hf : (setNT params i params.values[i]).fields = TPCENS.pdict.map Prod.fst := by
    rw [setNT_fields, NT.fields, hp]
  choose x0 X0 k1 k2 k3 using fun b : MassBin => isAD_utp_x0 hAD hf b.lgm_obs b.t_obs
  have hn : ((points bins).length : ℝ) ≠ 0 := by exact_mod_cast fun e => hne (List.length_eq_zero_iff.1 e)
  have hR : ∀ y, loss_multimass (setNT params i y) bins = .ok (jmean ((points bins).map fun q =>
      JAbs.jabs (q.2.2 - Utils.sigmoid q.2.1 (x0 q.1 y) (lit 5.0) (lit 0.0) (lit 1.0)))) := by
    intro y
    rw [← loss_multimass_of_real]
    have := multimass_eval (setNT params i y) id bins hl (fun b => x0 b y) fun b => k1 b y
    simp only [List.map_id, id] at this
    exact this
  have hD := multimass_eval (seedNT params i) Dual.const bins hl X0 k2
  refine ⟨fun b x => Utils.sigmoid x (x0 b params.values[i]) (lit 5.0) (lit 0.0) (lit 1.0), _,
    Dual.d (jmean ((points bins).map fun q => JAbs.jabs (Dual.const q.2.2 -
      Utils.sigmoid (Dual.const q.2.1) (X0 q.1) (lit 5.0) (lit 0.0) (lit 1.0)))), ?_, hR, ?_, ?_, ?_⟩
  · intro b x
    have := k1 b params.values[i]
    rw [setNT_self] at this
    unfold frac_peaked_vs_lgm
    rw [this]; rfl
  · unfold multimass_grad
    rw [show MassBin.const = fun b => ⟨b.utp_target.map Dual.const, b.y_target.map Dual.const,
      Dual.const b.lgm_obs, Dual.const b.t_obs⟩ from rfl, hD]
    rfl
  · intro hq
    have : IsAD (fun y => jmean ((points bins).map fun q =>
        JAbs.jabs (q.2.2 - Utils.sigmoid q.2.1 (x0 q.1 y) (lit 5.0) (lit 0.0) (lit 1.0)))) params.values[i]
        (jmean ((points bins).map fun q => JAbs.jabs (Dual.const q.2.2 -
          Utils.sigmoid (Dual.const q.2.1) (X0 q.1) (lit 5.0) (lit 0.0) (lit 1.0)))) := by
      unfold jmean
      simp only [List.length_map]
      refine IsAD.div (isAD_foldl' (fun (q : MassBin × ℝ × ℝ) y => JAbs.jabs (q.2.2 -
        Utils.sigmoid q.2.1 (x0 q.1 y) (lit 5.0) (lit 0.0) (lit 1.0))) _ _ _ ?_ _ _ (IsAD.lit 0 _))
        (IsAD.lit _ _) hn
      intro q hqm
      refine IsAD.jabs ((IsAD.const _ _).sub (IsAD.usigmoid (IsAD.const _ _) (k3 q.1) (IsAD.lit _ _)
        (IsAD.lit _ _) (IsAD.lit _ _))) ?_
      exact sub_ne_zero.2 (hq q hqm).symm
    exact this.2
  · intro hq
    have hz : ∀ D ∈ (points bins).map (fun q => JAbs.jabs (Dual.const q.2.2 -
        Utils.sigmoid (Dual.const q.2.1) (X0 q.1) (lit 5.0) (lit 0.0) (lit 1.0))), D.d = 0 := by
      intro D hDm
      obtain ⟨q, hqm, rfl⟩ := List.mem_map.1 hDm
      have hs := (IsAD.const q.2.2 params.values[i]).sub (IsAD.usigmoid (IsAD.const q.2.1 _) (k3 q.1)
        (IsAD.lit 5.0 _) (IsAD.lit 0.0 _) (IsAD.lit 1.0 _))
      change _ * ((SignType.sign _ : SignType) : ℝ) = 0
      rw [hs.1]
      beta_reduce
      rw [show q.2.2 - Utils.sigmoid q.2.1 (x0 q.1 params.values[i]) (lit 5.0) (lit 0.0) (lit 1.0) = 0 from
        sub_eq_zero.2 (hq q hqm).symm]
      simp
    unfold jmean
    simp only [List.length_map]
    change (Dual.d (List.foldl _ _ _) * _ - Dual.v (List.foldl _ _ _) * 0) / _ = 0
    rw [foldl_dual_d _ _ hz]
    change (0 * _ - _) / _ = _
    simp

/-- The hypotheses are met: a target far below the prediction at the default parameters, which never
reaches zero. -/
example : ∃ (bins : List MassBin), (∀ b ∈ bins, b.utp_target.length = b.y_target.length) ∧ points bins ≠ [] ∧
    ∀ pred : MassBin → ℝ → ℝ, (∀ b x, frac_peaked_vs_lgm TPCENS.pdict [x] b.lgm_obs b.t_obs = .ok [pred b x]) →
      ∀ q ∈ points bins, pred q.1 q.2.1 ≠ q.2.2 := by
  refine ⟨[⟨[0.5, 0.8], [0, 0], 12, 10⟩], by simp, by simp [points], ?_⟩
  intro pred hpred q hq
  obtain ⟨v, hv⟩ := utp_x0_ok (params := TPCENS.pdict) rfl q.1.lgm_obs q.1.t_obs
  have h := hpred q.1 q.2.1
  unfold frac_peaked_vs_lgm at h
  rw [hv] at h
  simp only [bind, Except.bind, pure, Except.pure, List.map_cons, List.map_nil, Except.ok.injEq,
    List.cons.injEq, and_true] at h
  have h0 : q.2.2 = 0 := by
    simp [points] at hq
    rcases hq with rfl | rfl <;> rfl
  rw [h0, ← h]
  change (0.0 : ℝ) + (1.0 - 0.0) * Real.sigmoid _ ≠ 0
  have := Real.sigmoid_pos (x := (5.0 * (q.2.1 - v) : ℝ))
  norm_num at this ⊢
  exact this.ne'

end CompLoss

end Diffmah

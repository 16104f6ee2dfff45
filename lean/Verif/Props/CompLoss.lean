import Verif.Lemmas.CompLoss

/-!
# Losses of the component models (C88)
-/

namespace Diffmah

open JOps Pop TPeak

/-- `l` measures how far the predictions for `data` are from the targets: it is the mean of the squared
differences, it is not negative, and it vanishes exactly when every target is predicted. -/
def Spec.MeasuresFit {D : Type} (pred target : D → ℝ) (data : List D) (l : ℝ) : Prop :=
  l = Spec.mean (data.map fun x => (pred x - target x) ^ 2) ∧ 0 ≤ l ∧
    (l = 0 ↔ ∀ x ∈ data, pred x = target x)

namespace CompLoss

theorem measuresFit_mean {D : Type} (pred target : D → ℝ) {data : List D} (hne : data ≠ []) :
    Spec.MeasuresFit pred target data (Spec.mean (data.map fun x => (pred x - target x) ^ 2)) := by
  refine ⟨rfl, mean_nonneg _ _ fun _ _ => sq_nonneg _, ?_⟩
  rw [mean_eq_zero_iff _ _ hne fun _ _ => sq_nonneg _]
  simp [sub_eq_zero]

/-! ## early_index and logtc -/

/-- The copies of the early-index model: its parameters, the suffix of their names. -/
noncomputable def EARLY_COPIES : List (Component × String) :=
  [(EARLY_INDEX_ALPHA, "_alpha"), (EARLY_INDEX_BETA, "_beta"), (EARLY_INDEX_POP, "")]

/-- The copies of the logtc model. -/
noncomputable def LOGTC_COPIES : List (Component × String) :=
  [(LOGTC_EARLY, "_early"), (LOGTC_LATE, "_late")]

theorem early_copies {c : Component} {sfx : String} (h : (c, sfx) ∈ EARLY_COPIES) :
    c.Wf ∧ c.bounds = EARLY_INDEX_BOUNDS_PDICT sfx := by
  simp only [EARLY_COPIES, List.mem_cons, Prod.mk.injEq, List.not_mem_nil, or_false] at h
  rcases h with ⟨rfl, rfl⟩ | ⟨rfl, rfl⟩ | ⟨rfl, rfl⟩
  · exact ⟨EARLY_INDEX_ALPHA_wf, rfl⟩
  · exact ⟨EARLY_INDEX_BETA_wf, rfl⟩
  · exact ⟨EARLY_INDEX_POP_wf, rfl⟩

theorem logtc_copies {c : Component} {sfx : String} (h : (c, sfx) ∈ LOGTC_COPIES) :
    c.Wf ∧ c.bounds = LOGTC_BOUNDS_PDICT sfx := by
  simp only [LOGTC_COPIES, List.mem_cons, Prod.mk.injEq, List.not_mem_nil, or_false] at h
  rcases h with ⟨rfl, rfl⟩ | ⟨rfl, rfl⟩
  · exact ⟨LOGTC_EARLY_wf, rfl⟩
  · exact ⟨LOGTC_LATE_wf, rfl⟩

theorem bounded_of_u {c : Component} (h : c.Wf) {u : List ℝ} (hu : u.length = c.fields.length) :
    ∃ p, NT.make c.upnames u = .ok (c.upnames.zip u) ∧ c.get_bounded (c.upnames.zip u) = .ok p ∧
      Spec.Bounded c.bounds p ∧ p.fields = c.fields := by
  have hg : NT.getattrs (c.upnames.zip u) c.upnames = .ok u := NT.getattrs_zip h.upnodup (by simp [hu])
  exact ⟨_, NT.make_eq (by simp [hu]), get_bounded_eq h hg, get_bounded_Bounded h (get_bounded_eq h hg),
    get_bounded_fields h (get_bounded_eq h hg)⟩

/-- **C88** (early index). For every vector of unbounded parameters of the right length and all
non-empty data the loss is the mean squared difference between the targets and the predictions at the
bounded parameters; a vector of another length raises `TypeError`. -/
theorem C88_early_index {c : Component} {sfx : String} (h : (c, sfx) ∈ EARLY_COPIES) (u : List ℝ)
    (data : List (Entry ℝ)) (hne : data ≠ []) :
    (u.length = c.pdict.length → ∃ (p : NT ℝ) (pred : Entry ℝ → ℝ) (l : ℝ),
      c.get_bounded (c.upnames.zip u) = .ok p ∧
      (∀ x, pred_early_index_kern sfx p x.lgm_obs x.t_obs x.t_peak = .ok (pred x)) ∧
      early_index_loss c sfx u data = .ok l ∧ Spec.MeasuresFit pred Entry.target data l) ∧
    (u.length ≠ c.pdict.length → early_index_loss c sfx u data = .error .typeError) := by
  obtain ⟨hw, hb⟩ := early_copies h
  have hfl : c.fields.length = c.pdict.length := by simp [Component.fields]
  constructor
  · intro hu
    obtain ⟨p, h1, h2, h3, -⟩ := bounded_of_u hw (u := u) (by rw [hfl, hu])
    rw [hb] at h3
    choose pred hp _ using fun x : Entry ℝ => early_index_val h3 x.lgm_obs x.t_obs x.t_peak
    refine ⟨p, pred, _, h2, hp, ?_, measuresFit_mean pred Entry.target hne⟩
    unfold early_index_loss
    simp only [h1, h2, bind, Except.bind]
    rw [mapM_ok' _ pred _ fun x _ => hp x]
    change Except.ok _ = _
    rw [mse_map]
  · intro hu
    unfold early_index_loss NT.make
    rw [if_neg (by simpa [hfl] using hu)]
    rfl

/-- **C88** (logtc). The same for `logtc_early.py` and `logtc_late.py`. -/
theorem C88_logtc {c : Component} {sfx : String} (h : (c, sfx) ∈ LOGTC_COPIES) (u : List ℝ)
    (data : List (Entry ℝ)) (hne : data ≠ []) :
    (u.length = c.pdict.length → ∃ (p : NT ℝ) (pred : Entry ℝ → ℝ) (l : ℝ),
      c.get_bounded (c.upnames.zip u) = .ok p ∧
      (∀ x, pred_logtc_kern sfx p x.lgm_obs x.t_obs x.t_peak = .ok (pred x)) ∧
      logtc_loss c sfx u data = .ok l ∧ Spec.MeasuresFit pred Entry.target data l) ∧
    (u.length ≠ c.pdict.length → logtc_loss c sfx u data = .error .typeError) := by
  obtain ⟨hw, hb⟩ := logtc_copies h
  have hfl : c.fields.length = c.pdict.length := by simp [Component.fields]
  constructor
  · intro hu
    obtain ⟨p, h1, h2, h3, -⟩ := bounded_of_u hw (u := u) (by rw [hfl, hu])
    rw [hb] at h3
    choose pred hp _ using fun x : Entry ℝ => logtc_val h3 x.lgm_obs x.t_obs x.t_peak
    refine ⟨p, pred, _, h2, hp, ?_, measuresFit_mean pred Entry.target hne⟩
    unfold logtc_loss
    simp only [h1, h2, bind, Except.bind]
    rw [mapM_ok' _ pred _ fun x _ => hp x]
    change Except.ok _ = _
    rw [mse_map]
  · intro hu
    unfold logtc_loss NT.make
    rw [if_neg (by simpa [hfl] using hu)]
    rfl

/-- A case that meets the hypotheses. -/
example : ∃ (u : List ℝ) (data : List (Entry ℝ)), u.length = EARLY_INDEX_ALPHA.pdict.length ∧ data ≠ [] :=
  ⟨[0, 0, 0, 0, 0, 0, 0], [⟨12, 10, 8, 2.5⟩, ⟨13, 10, 4, 2.7⟩], rfl, by simp⟩

/-! ## Gradients -/

theorem isAD_foldl' {β : Type} (f : β → ℝ → ℝ) (D : β → Dual) (x : ℝ) (l : List β)
    (h : ∀ b ∈ l, IsAD (f b) x (D b)) (g : ℝ → ℝ) (G : Dual) (hg : IsAD g x G) :
    IsAD (fun y => (l.map fun b => f b y).foldl (· + ·) (g y)) x
      ((l.map D).foldl (· + ·) G) := by
  induction l generalizing g G with
  | nil => exact hg
  | cons a l ih =>
    simp only [List.map_cons, List.foldl_cons]
    exact ih (fun b hb => h b (List.mem_cons_of_mem _ hb)) _ _ (hg.add (h a List.mem_cons_self))

theorem isAD_mse {D : Type} (g : D → ℝ → ℝ) (G : D → Dual) (t : D → ℝ) (x : ℝ) {data : List D}
    (hne : data ≠ []) (h : ∀ e ∈ data, IsAD (g e) x (G e)) :
    IsAD (fun y => mse (data.map fun e => g e y) (data.map t)) x
      (mse (data.map G) (data.map fun e => Dual.const (t e))) := by
  have hR : ∀ y, (List.zipWith (fun a b : ℝ => b - a) (data.map fun e => g e y) (data.map t)).map
      (fun d => d * d) = data.map fun e => (t e - g e y) * (t e - g e y) := by
    intro y
    induction data with
    | nil => rfl
    | cons a l ih =>
      by_cases hl : l = []
      · subst hl; rfl
      · simp only [List.map_cons, List.zipWith_cons_cons]
        rw [ih hl fun e he => h e (List.mem_cons_of_mem _ he)]
  have hD : (List.zipWith (fun a b : Dual => b - a) (data.map G) (data.map fun e => Dual.const (t e))).map
      (fun d => d * d) = data.map fun e => (Dual.const (t e) - G e) * (Dual.const (t e) - G e) := by
    clear hR
    induction data with
    | nil => rfl
    | cons a l ih =>
      by_cases hl : l = []
      · subst hl; rfl
      · simp only [List.map_cons, List.zipWith_cons_cons]
        rw [ih hl fun e he => h e (List.mem_cons_of_mem _ he)]
  unfold mse jmean
  simp only [hR, hD, List.length_map]
  apply IsAD.div
  · apply isAD_foldl' (fun e y => (t e - g e y) * (t e - g e y)) _ x _ _ _ _ (IsAD.lit 0 x)
    intro e he
    exact ((IsAD.const (t e) x).sub (h e he)).mul ((IsAD.const (t e) x).sub (h e he))
  · exact IsAD.lit _ x
  · change ((data.length : ℕ) : ℝ) ≠ 0
    exact_mod_cast fun e => hne (List.length_eq_zero_iff.1 e)

theorem isAD_early {sfx : String} {p : ℝ → NT ℝ} {x : ℝ} {P : NT Dual} (h : IsADNT p x P)
    (hf : (p x).fields = (EARLY_INDEX_BOUNDS_PDICT sfx).fields)
    (hb : Spec.Bounded (EARLY_INDEX_BOUNDS_PDICT sfx) (p x)) (lgm t_obs t_peak : ℝ) :
    ∃ g D, (∀ y, pred_early_index_kern sfx (p y) lgm t_obs t_peak = .ok (g y)) ∧
      pred_early_index_kern sfx P (Dual.const lgm) (Dual.const t_obs) (Dual.const t_peak) = .ok D ∧
      IsAD g x D := by
  have hm : ∀ n, n ∈ ["early_index_ylo_x0", "early_index_ylo_ylo", "early_index_ylo_yhi",
      "early_index_yhi_ylo", "early_index_yhi_yhi", "early_index_yhi_x0", "early_index_lgm_x0"] →
      n ++ sfx ∈ (p x).fields := by
    intro n hn
    rw [hf]
    simp only [EARLY_INDEX_BOUNDS_PDICT, withSuffix, NT.fields, List.map_map, List.mem_map]
    simp only [List.mem_cons, List.not_mem_nil, or_false] at hn
    rcases hn with rfl | rfl | rfl | rfl | rfl | rfl | rfl <;> simp
  obtain ⟨f1, D1, a1, b1, c1⟩ := h.getattr (hm "early_index_ylo_x0" (by simp))
  obtain ⟨f2, D2, a2, b2, c2⟩ := h.getattr (hm "early_index_ylo_ylo" (by simp))
  obtain ⟨f3, D3, a3, b3, c3⟩ := h.getattr (hm "early_index_ylo_yhi" (by simp))
  obtain ⟨f4, D4, a4, b4, c4⟩ := h.getattr (hm "early_index_yhi_ylo" (by simp))
  obtain ⟨f5, D5, a5, b5, c5⟩ := h.getattr (hm "early_index_yhi_yhi" (by simp))
  obtain ⟨f6, D6, a6, b6, c6⟩ := h.getattr (hm "early_index_yhi_x0" (by simp))
  obtain ⟨f7, D7, a7, b7, c7⟩ := h.getattr (hm "early_index_lgm_x0" (by simp))
  obtain ⟨e, he, he1, he2⟩ := early_index_val hb lgm t_obs t_peak
  refine ⟨fun y => clip (Utils.sigmoid lgm (f7 y) (lit 1.0) (get_early_index_ylo (f1 y) (f2 y) (f3 y) t_peak)
      (get_early_index_yhi (f6 y) (f4 y) (f5 y) t_obs)) (MAH_PBOUNDS.early_index.1 + EPS)
      (MAH_PBOUNDS.early_index.2 - EPS),
    clip (Utils.sigmoid (Dual.const lgm) D7 (lit 1.0) (get_early_index_ylo D1 D2 D3 (Dual.const t_peak))
      (get_early_index_yhi D6 D4 D5 (Dual.const t_obs))) (MAH_PBOUNDS.early_index.1 + EPS)
      (MAH_PBOUNDS.early_index.2 - EPS), ?_, ?_, ?_⟩
  · intro y
    unfold pred_early_index_kern
    simp only [a1, a2, a3, a4, a5, a6, a7, bind, Except.bind, pure, Except.pure]
  · unfold pred_early_index_kern
    simp only [b1, b2, b3, b4, b5, b6, b7, bind, Except.bind, pure, Except.pure]
  · unfold pred_early_index_kern at he
    simp only [a1, a2, a3, a4, a5, a6, a7, bind, Except.bind, pure, Except.pure, Except.ok.injEq] at he
    obtain ⟨n1, n2⟩ := clip_inside (r := Utils.sigmoid lgm (f7 x) (lit 1.0) (get_early_index_ylo (f1 x) (f2 x) (f3 x) t_peak)
      (get_early_index_yhi (f6 x) (f4 x) (f5 x) t_obs)) (lo := MAH_PBOUNDS.early_index.1 + EPS)
      (hi := MAH_PBOUNDS.early_index.2 - EPS)
      (by rw [he]; simp only [MAH_PBOUNDS, EPS]; norm_num at he1 ⊢; linarith)
      (by rw [he]; simp only [MAH_PBOUNDS, EPS]; norm_num at he2 ⊢; linarith)
    refine IsAD.clip (IsAD.usigmoid (IsAD.const _ _) c7 (IsAD.lit _ _)
      (IsAD.usigmoid (IsAD.const _ _) c1 (IsAD.lit _ _) c2 c3)
      (IsAD.usigmoid (IsAD.const _ _) c6 (IsAD.lit _ _) c4 c5)) ?_ n1 n2
    simp only [MAH_PBOUNDS, EPS]; norm_num

/-- **C88** (gradient of the early-index loss). Component `i` of the gradient is the derivative of the
loss with respect to unbounded parameter `i`, at every parameter vector and for all non-empty data: no
prediction is ever clipped. -/
theorem C88_early_index_gradient {c : Component} {sfx : String} (h : (c, sfx) ∈ EARLY_COPIES)
    (u : List ℝ) (hu : u.length = c.pdict.length) (data : List (Entry ℝ)) (hne : data ≠ []) (i : ℕ)
    (hi : i < u.length) :
    ∃ (L : ℝ → ℝ) (g : ℝ), (∀ y, early_index_loss c sfx (u.set i y) data = .ok (L y)) ∧
      early_index_grad c sfx u data i = .ok g ∧ HasDerivAt L g u[i] := by
  obtain ⟨hw, hb⟩ := early_copies h
  have hfl : c.fields.length = c.pdict.length := by simp [Component.fields]
  obtain ⟨p, P, hAD, h1, h2, h3⟩ := isADNT_bounded hw u (by rw [hfl, hu]) i hi
  have hbx : Spec.Bounded (EARLY_INDEX_BOUNDS_PDICT sfx) (p u[i]) := by
    rw [← hb]; exact get_bounded_Bounded hw (h1 _)
  have hfx : (p u[i]).fields = (EARLY_INDEX_BOUNDS_PDICT sfx).fields := by
    rw [h3, ← hb, hw.same]
  choose g G k1 k2 k3 using fun x : Entry ℝ => isAD_early hAD hfx hbx x.lgm_obs x.t_obs x.t_peak
  have hk := isAD_mse g G Entry.target u[i] hne fun e _ => k3 e
  refine ⟨fun y => mse (data.map fun e => g e y) (data.map Entry.target), _, ?_, ?_, hk.2⟩
  · intro y
    unfold early_index_loss
    rw [NT.make_eq (by simp [hu, hfl])]
    simp only [bind, Except.bind, h1]
    rw [mapM_ok' _ (fun e => g e y) _ fun x _ => k1 x y]
    rfl
  · unfold early_index_grad early_index_loss
    rw [NT.make_eq (by rw [← seedPair_snd, List.length_map, seedPair_length, Component.upnames_length, hfl, hu])]
    simp only [bind, Except.bind, h2]
    rw [List.mapM_map, mapM_ok' _ G _ (by intro x _; exact k2 x), List.map_map]
    rfl

theorem isAD_logtc {sfx : String} {p : ℝ → NT ℝ} {x : ℝ} {P : NT Dual} (h : IsADNT p x P)
    (hf : (p x).fields = (LOGTC_BOUNDS_PDICT sfx).fields) (lgm t_obs t_peak : ℝ) :
    ∃ g D, (∀ y, pred_logtc_kern sfx (p y) lgm t_obs t_peak = .ok (g y)) ∧
      pred_logtc_kern sfx P (Dual.const lgm) (Dual.const t_obs) (Dual.const t_peak) = .ok D ∧
      ((∀ c0 c1, logtc_get_c0 sfx (p x) t_peak t_obs = .ok c0 →
        (p x).getattr ("logtc_lgm_c1" ++ sfx) = .ok c1 →
        c0 + c1 * (lgm - 12) ≠ -0.999 ∧ c0 + c1 * (lgm - 12) ≠ 0.999) → IsAD g x D) := by
  have hm : ∀ n, n ∈ ["logtc_lgm_c0_tp_ytp_tobs_c0", "logtc_lgm_c0_tp_ytp_tobs_c1", "logtc_lgm_c0_tp_ylo",
      "logtc_lgm_c0_tp_yhi", "logtc_lgm_c1", "logtc_c0_ss_x0"] → n ++ sfx ∈ (p x).fields := by
    intro n hn
    rw [hf]
    simp only [LOGTC_BOUNDS_PDICT, withSuffix, NT.fields, List.map_map, List.mem_map]
    simp only [List.mem_cons, List.not_mem_nil, or_false] at hn
    rcases hn with rfl | rfl | rfl | rfl | rfl | rfl <;> simp
  obtain ⟨f1, D1, a1, b1, c1⟩ := h.getattr (hm "logtc_lgm_c0_tp_ytp_tobs_c0" (by simp))
  obtain ⟨f2, D2, a2, b2, c2⟩ := h.getattr (hm "logtc_lgm_c0_tp_ytp_tobs_c1" (by simp))
  obtain ⟨f3, D3, a3, b3, c3⟩ := h.getattr (hm "logtc_lgm_c0_tp_ylo" (by simp))
  obtain ⟨f4, D4, a4, b4, c4⟩ := h.getattr (hm "logtc_lgm_c0_tp_yhi" (by simp))
  obtain ⟨f5, D5, a5, b5, c5⟩ := h.getattr (hm "logtc_lgm_c1" (by simp))
  obtain ⟨f6, D6, a6, b6, c6⟩ := h.getattr (hm "logtc_c0_ss_x0" (by simp))
  refine ⟨fun y => clip (Utils.sig_slope t_peak (lit 10.0) (f1 y + f2 y * t_obs) (f6 y) (lit 0.5) (f3 y) (f4 y)
      + f5 y * (lgm - lit 12.0)) (MAH_PBOUNDS.logtc.1 + EPS)
      (MAH_PBOUNDS.logtc.2 - EPS),
    clip (Utils.sig_slope (Dual.const t_peak) (lit 10.0) (D1 + D2 * Dual.const t_obs) D6 (lit 0.5) D3 D4
      + D5 * (Dual.const lgm - lit 12.0)) (MAH_PBOUNDS.logtc.1 + EPS)
      (MAH_PBOUNDS.logtc.2 - EPS), ?_, ?_, ?_⟩
  · intro y
    unfold pred_logtc_kern logtc_get_c0
    simp only [a1, a2, a3, a4, a5, a6, bind, Except.bind, pure, Except.pure]
  · unfold pred_logtc_kern logtc_get_c0
    simp only [b1, b2, b3, b4, b5, b6, bind, Except.bind, pure, Except.pure]
  · intro hn
    have hlo : MAH_PBOUNDS.logtc.1 + EPS = -0.999 := by simp only [MAH_PBOUNDS, EPS]; norm_num
    have hhi : MAH_PBOUNDS.logtc.2 - EPS = 0.999 := by simp only [MAH_PBOUNDS, EPS]; norm_num
    have := hn _ _ (by
      unfold logtc_get_c0
      simp only [a1, a2, a3, a4, a6, bind, Except.bind, pure, Except.pure]
      rfl) (a5 x)
    rw [hlo, hhi]
    refine IsAD.clip ((IsAD.sig_slope (IsAD.const _ _) (IsAD.lit _ _) (c1.add (c2.mul (IsAD.const _ _))) c6
      (IsAD.lit _ _) c3 c4).add (c5.mul ((IsAD.const _ _).sub (IsAD.lit _ _)))) (by norm_num) ?_ ?_
    · have e : (lit 12.0 : ℝ) = 12 := by change (12.0 : ℝ) = 12; norm_num
      rw [e]; exact this.1
    · have e : (lit 12.0 : ℝ) = 12 := by change (12.0 : ℝ) = 12; norm_num
      rw [e]; exact this.2

/-- **C88** (gradient of the logtc loss). Component `i` of the gradient is the derivative of the loss
with respect to unbounded parameter `i`, at every parameter vector at which no prediction, before
clipping, is exactly at one of the limits `± 0.999`. -/
theorem C88_logtc_gradient {c : Component} {sfx : String} (h : (c, sfx) ∈ LOGTC_COPIES)
    (u : List ℝ) (hu : u.length = c.pdict.length) (data : List (Entry ℝ)) (hne : data ≠ []) (i : ℕ)
    (hi : i < u.length)
    (hkink : ∀ e ∈ data, ∀ p c0 c1, c.get_bounded (c.upnames.zip u) = .ok p →
      logtc_get_c0 sfx p e.t_peak e.t_obs = .ok c0 → p.getattr ("logtc_lgm_c1" ++ sfx) = .ok c1 →
      c0 + c1 * (e.lgm_obs - 12) ≠ -0.999 ∧ c0 + c1 * (e.lgm_obs - 12) ≠ 0.999) :
    ∃ (L : ℝ → ℝ) (g : ℝ), (∀ y, logtc_loss c sfx (u.set i y) data = .ok (L y)) ∧
      logtc_grad c sfx u data i = .ok g ∧ HasDerivAt L g u[i] := by
  obtain ⟨hw, hb⟩ := logtc_copies h
  have hfl : c.fields.length = c.pdict.length := by simp [Component.fields]
  obtain ⟨p, P, hAD, h1, h2, h3⟩ := isADNT_bounded hw u (by rw [hfl, hu]) i hi
  have hfx : (p u[i]).fields = (LOGTC_BOUNDS_PDICT sfx).fields := by
    rw [h3, ← hb, hw.same]
  have hux : c.get_bounded (c.upnames.zip u) = .ok (p u[i]) := by
    have := h1 u[i]
    rwa [List.set_getElem_self] at this
  choose g G k1 k2 k3 using fun x : Entry ℝ => isAD_logtc hAD hfx x.lgm_obs x.t_obs x.t_peak
  have hk := isAD_mse g G Entry.target u[i] hne fun e he => k3 e fun c0 c1 => hkink e he _ c0 c1 hux
  refine ⟨fun y => mse (data.map fun e => g e y) (data.map Entry.target), _, ?_, ?_, hk.2⟩
  · intro y
    unfold logtc_loss
    rw [NT.make_eq (by simp [hu, hfl])]
    simp only [bind, Except.bind, h1]
    rw [mapM_ok' _ (fun e => g e y) _ fun x _ => k1 x y]
    rfl
  · unfold logtc_grad logtc_loss
    rw [NT.make_eq (by rw [← seedPair_snd, List.length_map, seedPair_length, Component.upnames_length, hfl, hu])]
    simp only [bind, Except.bind, h2]
    rw [List.mapM_map, mapM_ok' _ G _ (by intro x _; exact k2 x), List.map_map]
    rfl

/-- The hypothesis about the limits is met, e.g. at the middle of all bounds. -/
example : ∀ e ∈ [(⟨12, 10, 10, 0.5⟩ : Entry ℝ)], ∀ p c0 c1,
    LOGTC_EARLY.get_bounded (LOGTC_EARLY.upnames.zip (LOGTC_EARLY.bounds.map fun b => 0.5 * (b.2.1 + b.2.2)))
      = .ok p →
    logtc_get_c0 "_early" p e.t_peak e.t_obs = .ok c0 →
    p.getattr ("logtc_lgm_c1" ++ "_early") = .ok c1 →
    c0 + c1 * (e.lgm_obs - 12) ≠ -0.999 ∧ c0 + c1 * (e.lgm_obs - 12) ≠ 0.999 := by
  intro e he p c0 c1 hp h0 _
  obtain rfl := List.mem_singleton.1 he
  have hg : NT.getattrs (LOGTC_EARLY.upnames.zip (LOGTC_EARLY.bounds.map fun b => 0.5 * (b.2.1 + b.2.2)))
      LOGTC_EARLY.upnames = .ok _ := NT.getattrs_zip LOGTC_EARLY_wf.upnodup rfl
  rw [get_bounded_eq LOGTC_EARLY_wf hg] at hp
  cases hp
  have h3 : c0 = 0.55 + 0.025 * 10 := by
    unfold logtc_get_c0 at h0
    simp [LOGTC_EARLY, LOGTC_BOUNDS_PDICT, withSuffix, Component.fields, NT.fields, NT.values, NT.getattr,
      bind, Except.bind, pure, Except.pure, List.lookup, get_bounded_param, Utils.sigmoid, Utils.sig_slope,
      JOps.lit, JOps.sigm, Real.sigmoid_zero] at h0
    rw [← h0]
    norm_num
  rw [h3]
  constructor <;> norm_num

end CompLoss

end Diffmah

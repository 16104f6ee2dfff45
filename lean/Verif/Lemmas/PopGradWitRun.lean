import Verif.Lemmas.PopGradWitNum

/-!
# A run of the loss, with the default parameters, that meets no tie
-/

set_option maxRecDepth 10000

namespace Diffmah

namespace PopGrad

open JOps JMinMax JFlow Pop TPeak PopParams MC

/-! ## Standard deviations -/

theorem wvar_pos {pts : List (ℝ × ℝ)} (hw : ∀ q ∈ pts, 0 < q.1) {a b : ℝ × ℝ} (ha : a ∈ pts) (hb : b ∈ pts)
    (h : a.2 ≠ b.2) : 0 < Spec.wvar pts := by
  have hnn : ∀ x ∈ pts.map fun p => p.1 * (p.2 - Spec.wmean pts) ^ 2, 0 ≤ x := by
    intro x hx
    obtain ⟨q, hq, rfl⟩ := List.mem_map.1 hx
    have := hw q hq
    positivity
  rcases (List.sum_nonneg hnn).lt_or_eq with h0 | h0
  · exact h0
  · exfalso
    have hz := (sum_eq_zero_iff_of_nonneg hnn).1 h0.symm
    have hv : ∀ q ∈ pts, q.2 = Spec.wmean pts := by
      intro q hq
      have := hz _ (List.mem_map_of_mem hq)
      have h1 := hw q hq
      have h2 : (q.2 - Spec.wmean pts) ^ 2 = 0 := by
        rcases mul_eq_zero.1 this with h | h
        · linarith
        · exact h
      have := pow_eq_zero_iff (two_ne_zero) |>.1 h2
      linarith
    exact h ((hv a ha).trans (hv b hb).symm)

variable (ext : Ext) (rng : Rng)

theorem std_pos (kind : Kind) (p : NT ℝ) (hb : AllInBounds p) (tarr : List ℝ)
    (lgm t_obs : ℝ) (key : Key) (lgt0 : ℝ) (out : List (ℝ × ℝ × ℝ))
    (h : (MC.predict_mah_moments_singlebin ext rng kind p tarr lgm t_obs key lgt0).val? = some out)
    (hd : ∀ k s ks, MC.mc_diffmah_single ext rng kind p tarr lgm t_obs k lgt0 = Except.ok (s, ks) →
      ∀ it < tarr.length, s.log_mah_early.getD it 0 ≠ s.log_mah_late.getD it 0) :
    ∀ m ∈ out, 0 < m.2.1 := by
  rcases hr : MC.predict_mah_moments_singlebin ext rng kind p tarr lgm t_obs key lgt0 with e | ⟨out', ks⟩
  · rw [hr] at h; cases h
  rw [hr] at h
  cases h
  obtain ⟨sample, hs, hl, ho, -, hm⟩ := C62_moments_of_mixture ext rng kind p hb tarr lgm t_obs key lgt0 _ ks hr
  obtain ⟨hl', hinv⟩ := sample_inv ext rng hs
  intro m hm'
  obtain ⟨it, hit, rfl⟩ := List.getElem_of_mem hm'
  obtain ⟨pts, hpts, -, -, hout, -⟩ := hm it (by rw [← ho]; exact hit)
  rw [List.getElem?_eq_getElem hit] at hout
  rw [Option.some.inj hout]
  change 0 < Real.sqrt (Spec.wvar pts)
  apply Real.sqrt_pos.2
  have hf : ∀ s ∈ sample, 1 / 4 < s.frac_early ∧ s.frac_early < 3 / 4 := by
    intro s hs'
    obtain ⟨i, k, -, hi⟩ := hinv s hs'
    have hf := single_frac ext rng hi
    obtain ⟨f, hf', h4, h5⟩ := C52_frac_early p hb.2.2.2.2.2.2.2.1 lgm t_obs
    rw [hf] at hf'
    cases hf'
    exact ⟨h4, h5⟩
  have hpos : ∀ q ∈ pts, 0 < q.1 := by
    intro q hq
    rw [hpts] at hq
    unfold Spec.mixture at hq
    have hn : (0 : ℝ) < ((sample.map fun s => s.log_mah_early.getD it 0).length : ℝ) := by
      rw [List.length_map, hl]; norm_num
    generalize ((sample.map fun s => s.log_mah_early.getD it 0).length : ℝ) = n at hq hn
    rw [List.zipWith_map, List.zipWith_self, List.zipWith_map, List.zipWith_self] at hq
    rcases List.mem_append.1 hq with hq | hq <;> obtain ⟨s, hs', rfl⟩ := List.mem_map.1 hq <;>
      have := hf s hs' <;> apply div_pos _ hn <;> linarith
  have h0 : 0 < sample.length := by rw [hl]; norm_num
  have hmem : sample[0] ∈ sample := List.getElem_mem h0
  obtain ⟨i, k, -, hi⟩ := hinv _ hmem
  have hne := hd _ _ _ hi it (by rw [← ho]; exact hit)
  refine wvar_pos hpos (a := (sample[0].frac_early / (sample.length : ℝ), sample[0].log_mah_early.getD it 0))
    (b := (((1 : ℝ) - sample[0].frac_early) / (sample.length : ℝ), sample[0].log_mah_late.getD it 0)) ?_ ?_ hne
  · rw [hpts]
    unfold Spec.mixture
    rw [List.zipWith_map, List.zipWith_self, List.length_map]
    exact List.mem_append_left _ (List.mem_map.2 ⟨_, hmem, rfl⟩)
  · rw [hpts]
    unfold Spec.mixture
    apply List.mem_append_right
    rw [List.zipWith_map, List.zipWith_self, List.length_map]
    exact List.mem_map.2 ⟨_, hmem, rfl⟩

/-! ## The external functions of the example -/

/-- A distribution function that is linear between the truncation points. -/
noncomputable def wExt : Ext where
  interp_eps := 0
  truncnorm_cdf x a b loc scale := ((x - loc) / scale - a) / |b - a|
  truncnorm_pdf _ _ _ _ _ := 0

theorem wExt_lawful : wExt.Lawful := by
  refine ⟨le_refl _, ?_, ?_, ?_⟩
  · intro a b loc scale hs x y hxy
    change ((x - loc) / scale - a) / |b - a| ≤ ((y - loc) / scale - a) / |b - a|
    gcongr
  · intro a b loc scale hs hab
    change ((loc + a * scale - loc) / scale - a) / |b - a| = 0
    rw [add_sub_cancel_left, mul_div_cancel_right₀ _ hs.ne', sub_self, zero_div]
  · intro a b loc scale hs hab
    change ((loc + b * scale - loc) / scale - a) / |b - a| = 1
    rw [add_sub_cancel_left, mul_div_cancel_right₀ _ hs.ne', abs_of_pos (by linarith)]
    exact div_self (by linarith)

/-- The late haloes of the example, whatever their mean. -/
noncomputable def wLate : MahParams ℝ := ⟨16.9, 0.5, 0.2, 0.15, 1⟩

theorem wLate_valid : Spec.Valid wLate := by
  refine ⟨⟨?_, ?_, ?_, ?_, ?_, ?_, ?_, ?_, ?_, ?_⟩, ?_⟩ <;> norm_num [wLate]

/-- Uniform draws are zero; normal draws are the mean for early haloes and constant for late ones. -/
noncomputable def wRng : Rng where
  uniform _ := 0
  uniforms _ n := List.replicate n 0
  mvn k m _ := match k, m with
    | .child _ _ 1, [_, _, _, _] => first4 (get_unbounded_mah_params wLate)
    | _, m => m

theorem wRng_lawful : wRng.Lawful := by
  refine ⟨by simp [wRng], by simp [wRng], ?_, ?_⟩
  · intro k n x hx
    rw [List.eq_of_mem_replicate hx]; norm_num
  · intro k m c
    simp only [wRng]
    split <;> rfl

/-- Forward-mode rules for the functions above. -/
noncomputable def wED : Env Dual where
  uniform _ := 0
  mvn k m _ := match k, m with
    | .child _ _ 1, [_, _, _, _] => (first4 (get_unbounded_mah_params wLate)).map Dual.const
    | _, m => m
  interp_eps := 0
  truncnorm_cdf x a b loc scale :=
    ⟨((x.v - loc.v) / scale.v - a.v) / |b.v - a.v|, (((x - loc) / scale - a) / (b - a)).d⟩

theorem mvn_late (k : Key) (n : ℕ) (a b c d : ℝ) (C : Matrix (Fin 4) (Fin 4) ℝ) :
    wRng.mvn (.child k n 1) [a, b, c, d] C = first4 (get_unbounded_mah_params wLate) := rfl

theorem mvn_early (k : Key) (n : ℕ) (m : List ℝ) (C : Matrix (Fin 4) (Fin 4) ℝ) :
    wRng.mvn (.child k n 0) m C = m := by
  simp only [wRng]

theorem w_differentiates : (Env.real wExt wRng).Differentiates wED := by
  refine ⟨fun _ => rfl, rfl, ?_, ?_, ?_, fun _ _ _ _ _ => rfl, ?_⟩
  · intro k a b c d s
    by_cases hk : ∃ k' n, k = .child k' n 1
    · obtain ⟨k', n, rfl⟩ := hk
      change ((first4 (get_unbounded_mah_params wLate)).map Dual.const).map Dual.v = first4 _
      rw [List.map_map]
      exact List.map_id _
    · have e1 : wED.mvn k [a, b, c, d] s = [a, b, c, d] := by
        simp only [wED]
        split
        · exact absurd ⟨_, _, rfl⟩ hk
        · rfl
      have e2 : (Env.real wExt wRng).mvn k [a.v, b.v, c.v, d.v] (fun i j => (s i j).v) = [a.v, b.v, c.v, d.v] := by
        simp only [Env.real, wRng]
        split
        · exact absurd ⟨_, _, rfl⟩ hk
        · rfl
      rw [e1, e2]; rfl
  · intro k a b c d s
    exact wRng_lawful.mvn_length k [a, b, c, d] (Matrix.of s)
  · intro k a b c d A B C D s S x ha hb hc hd hs hC n hn
    by_cases hk : ∃ k' n, k = .child k' n 1
    · obtain ⟨k', m, rfl⟩ := hk
      change HasDerivAt (fun y => (first4 (get_unbounded_mah_params wLate)).getD n 0)
        (((first4 (get_unbounded_mah_params wLate)).map Dual.const).getD n (Dual.const 0)).d x
      have : (((first4 (get_unbounded_mah_params wLate)).map Dual.const).getD n (Dual.const 0)).d = 0 := by
        rw [List.getD_eq_getElem?_getD, List.getElem?_map]
        cases (first4 (get_unbounded_mah_params wLate))[n]? <;> rfl
      rw [this]
      exact hasDerivAt_const _ _
    · have e1 : wED.mvn k [A, B, C, D] S = [A, B, C, D] := by
        simp only [wED]
        split
        · exact absurd ⟨_, _, rfl⟩ hk
        · rfl
      have e2 : ∀ y, (Env.real wExt wRng).mvn k [a y, b y, c y, d y] (fun i j => s i j y) =
          [a y, b y, c y, d y] := by
        intro y
        simp only [Env.real, wRng]
        split
        · exact absurd ⟨_, _, rfl⟩ hk
        · rfl
      simp only [e1, e2]
      interval_cases n
      · exact ha.2
      · exact hb.2
      · exact hc.2
      · exact hd.2
  · intro t a b l s T A B L S x ht ha hb hl hs h0 h1 h2
    have hab : a x < b x := by
      by_contra h
      have : b x * s x ≤ a x * s x := mul_le_mul_of_nonneg_right (not_lt.1 h) h0.le
      linarith
    have key := (((ht.sub hl).div hs h0.ne').sub ha).div (hb.sub ha) (by linarith [hab] : b x - a x ≠ 0)
    refine key.2.congr_of_eventuallyEq ?_
    have hc : ContinuousAt (fun y => b y - a y) x := (hb.2.sub ha.2).continuousAt
    filter_upwards [hc.eventually (lt_mem_nhds (show (0 : ℝ) < b x - a x by linarith))] with y hy
    change ((t y - l y) / s y - a y) / |b y - a y| = _
    rw [abs_of_pos hy]

/-! ## Peak times -/

theorem interp_first {x : ℝ} {xp fp : List ℝ} (h : ∀ a ∈ xp, x < a) (hn : xp ≠ []) :
    TPeak.interp 0 x xp fp = fp.getD 0 0 := by
  have hpos : 0 < xp.length := List.length_pos_iff.2 hn
  have hlt : ∀ i, i < xp.length → x < xp.getD i 0 := by
    intro i hi
    apply h
    rw [List.getD_eq_getElem?_getD, List.getElem?_eq_getElem hi]
    exact List.getElem_mem hi
  unfold TPeak.interp
  simp only
  rw [if_neg (not_lt.2 (hlt (xp.length - 1) (by omega)).le), if_pos (hlt 0 hpos)]

theorem interpNoTies_first {x : ℝ} {xp : List ℝ} (h : ∀ a ∈ xp, x < a) (hn : 1 < xp.length)
    (hne : xp.getD 1 0 ≠ xp.getD 0 0) : InterpNoTies 0 x xp := by
  refine ⟨le_refl _, by rintro rfl; simp at hn, fun a ha => (h a ha).ne', ?_⟩
  have hc : countLe x xp = 0 := by
    unfold countLe
    rw [List.length_eq_zero_iff, List.filter_eq_nil_iff]
    intro a ha
    simpa using h a ha
  rw [hc, show min (max 0 1) (xp.length - 1) = 1 by omega]
  rw [ne_eq, abs_eq_zero, sub_eq_zero]
  exact hne

theorem linspace_getD (a b : ℝ) (n i : ℕ) (h : i < n) :
    (TPeak.linspace a b n).getD i 0 = a + (i : ℝ) * ((b - a) / ((n : ℝ) - 1)) := by
  unfold TPeak.linspace
  rw [List.getD_eq_getElem?_getD, List.getElem?_map, List.getElem?_range h]
  rfl

theorem map_getD (l : List ℝ) (f : ℝ → ℝ) (i : ℕ) (h : i < l.length) : (l.map f).getD i 0 = f (l.getD i 0) := by
  rw [List.getD_eq_getElem?_getD, List.getD_eq_getElem?_getD, List.getElem?_map, List.getElem?_eq_getElem h]
  rfl

theorem linspace_length (a b : ℝ) (n : ℕ) : (TPeak.linspace a b n).length = n := by
  simp [TPeak.linspace]

theorem cens_table (lgm t : ℝ) (p : NT ℝ) (tab : List ℝ) (h : frac_peaked_vs_lgm p UTP_TABLE lgm t = .ok tab) :
    (∀ a ∈ tab, 0 < a) ∧ tab.length = 200 ∧ tab.getD 1 0 ≠ tab.getD 0 0 := by
  unfold frac_peaked_vs_lgm at h
  rcases hx : get_utp_x0_from_lgm p lgm t with e | x0
  · rw [hx] at h; cases h
  rw [hx] at h
  cases h
  have hl : UTP_TABLE.length = 200 := linspace_length _ _ _
  have e : ∀ x : ℝ, Utils.sigmoid x x0 (lit 5.0) (lit 0.0) (lit 1.0) = Real.sigmoid (5.0 * (x - x0)) := by
    intro x
    unfold Utils.sigmoid
    change (0.0 : ℝ) + (1.0 - 0.0) * Real.sigmoid (5.0 * (x - x0)) = _
    norm_num
  simp only [e]
  refine ⟨?_, by rw [List.length_map, hl], ?_⟩
  · intro a ha
    obtain ⟨x, -, rfl⟩ := List.mem_map.1 ha
    exact Real.sigmoid_pos _
  · rw [map_getD _ _ _ (by omega), map_getD _ _ _ (by omega)]
    apply ne_of_gt
    apply Real.sigmoid_strictMono
    unfold UTP_TABLE
    rw [linspace_getD _ _ _ _ (by norm_num), linspace_getD _ _ _ _ (by norm_num)]
    norm_num
    linarith

theorem sats_loc (loc : ℝ) (h : get_utp_loc DEFAULT_COMPONENTS.tp_sats 12 15 = .ok loc) : 0.16 < loc ∧ loc < 0.75 := by
  dflt [get_utp_loc, get_utp_loc_lgm_ylo, TPSATS] at h
  rw [← h]
  unfold Utils.sigmoid
  change (_ : ℝ) < 0.797 + (0.160 - 0.797) * Real.sigmoid (0.4 * (15 - 8.779)) +
    (0.95 - (0.797 + (0.160 - 0.797) * Real.sigmoid (0.4 * (15 - 8.779)))) * Real.sigmoid (1.5 * (12 - 12.967)) ∧
    0.797 + (0.160 - 0.797) * Real.sigmoid (0.4 * (15 - 8.779)) +
    (0.95 - (0.797 + (0.160 - 0.797) * Real.sigmoid (0.4 * (15 - 8.779)))) * Real.sigmoid (1.5 * (12 - 12.967)) < 0.75
  have a1 := sigm_bounds (0.4 * (15 - 8.779))
  have a2 := sigm_bounds (1.5 * (12 - 12.967))
  have a3 := sigm_le_of_le (x := 1.5 * (12 - 12.967)) (y := 1.45) (by norm_num) (by norm_num)
  have a4 := sigm_le_of_le (x := -(0.4 * (15 - 8.779))) (y := 2.4) (by norm_num) (by norm_num)
  rw [Real.sigmoid_neg] at a4
  generalize Real.sigmoid (0.4 * (15 - 8.779)) = u at a1 a4 ⊢
  generalize Real.sigmoid (1.5 * (12 - 12.967)) = v at a2 a3 ⊢
  norm_num at a1 a2 a3 a4 ⊢
  constructor <;> nlinarith [mul_pos a2.1 (sub_pos.2 a1.2)]

theorem sats_scale (scale : ℝ) (h : get_utp_scale DEFAULT_COMPONENTS.tp_sats 12 15 = .ok scale) :
    0.23 < scale ∧ scale < 0.25 := by
  dflt [get_utp_scale, get_utp_scale_lgm_ylo, TPSATS] at h
  rw [← h]
  unfold Utils.sigmoid
  change (_ : ℝ) < 0.105 + (0.334 - 0.105) * Real.sigmoid (1.0 * (15 - 6.623)) +
    (0.16 - (0.105 + (0.334 - 0.105) * Real.sigmoid (1.0 * (15 - 6.623)))) * Real.sigmoid (1.0 * (12 - 12.0)) ∧
    0.105 + (0.334 - 0.105) * Real.sigmoid (1.0 * (15 - 6.623)) +
    (0.16 - (0.105 + (0.334 - 0.105) * Real.sigmoid (1.0 * (15 - 6.623)))) * Real.sigmoid (1.0 * (12 - 12.0)) < 0.25
  have a1 := sigm_bounds (1.0 * (15 - 6.623))
  have a4 := sigm_le_of_le (x := -(1.0 * (15 - 6.623))) (y := 8) (by norm_num) (by norm_num)
  rw [Real.sigmoid_neg] at a4
  rw [show (1.0 : ℝ) * (12 - 12.0) = 0 by norm_num, Real.sigmoid_zero]
  generalize Real.sigmoid (1.0 * (15 - 6.623)) = u at a1 a4 ⊢
  norm_num at a1 a4 ⊢
  constructor <;> linarith

/-- The table of a satellite of the example. -/
theorem sats_table {loc scale : ℝ} (hl : 0.16 < loc ∧ loc < 0.75) (hs : 0.23 < scale ∧ scale < 0.25) :
    max (loc - 4 * scale) (X_MIN + UTP_EPS) = 0.1001 ∧ min (loc + 4 * scale) (X_MAX - UTP_EPS) = 0.9999 ∧
      (∀ a ∈ tp_cdf_kern wExt (TPeak.linspace 0.1001 0.9999 NPTS_CDF_TABLE) loc scale, 0 < a) ∧
      (tp_cdf_kern wExt (TPeak.linspace 0.1001 0.9999 NPTS_CDF_TABLE) loc scale).length = 50 ∧
      (tp_cdf_kern wExt (TPeak.linspace 0.1001 0.9999 NPTS_CDF_TABLE) loc scale).getD 1 0 ≠
        (tp_cdf_kern wExt (TPeak.linspace 0.1001 0.9999 NPTS_CDF_TABLE) loc scale).getD 0 0 := by
  obtain ⟨l1, l2⟩ := hl
  obtain ⟨s1, s2⟩ := hs
  have hpos : (0 : ℝ) < scale := by linarith
  have hab : 0 < |(1.0 - loc) / scale - (0.1 - loc) / scale| := by
    rw [← sub_div, abs_pos]
    apply div_ne_zero _ hpos.ne'
    norm_num
  have hlen : (TPeak.linspace 0.1001 0.9999 NPTS_CDF_TABLE).length = 50 := linspace_length _ _ _
  refine ⟨?_, ?_, ?_, ?_, ?_⟩
  · unfold X_MIN UTP_EPS
    rw [max_eq_right (by norm_num; linarith)]; norm_num
  · unfold X_MAX UTP_EPS
    rw [min_eq_right (by norm_num; linarith)]; norm_num
  · intro a ha
    obtain ⟨x, hx, rfl⟩ := List.mem_map.1 ha
    obtain ⟨i, -, rfl⟩ := List.mem_map.1 hx
    have hi : (0 : ℝ) ≤ i := Nat.cast_nonneg i
    apply div_pos _ hab
    unfold X_MIN
    rw [← sub_div]
    apply div_pos _ hpos
    unfold NPTS_CDF_TABLE
    have : (0 : ℝ) ≤ (i : ℝ) * ((0.9999 - 0.1001) / ((50 : ℕ) - 1)) := by
      apply mul_nonneg hi; norm_num
    norm_num at this ⊢
    linarith
  · rw [tp_cdf_kern, List.length_map, hlen]
  · rw [tp_cdf_kern]
    rw [map_getD _ _ _ (by omega), map_getD _ _ _ (by omega), linspace_getD _ _ _ _ (by decide),
      linspace_getD _ _ _ _ (by decide)]
    apply ne_of_gt
    apply div_lt_div_of_pos_right _ hab
    apply sub_lt_sub_right
    apply div_lt_div_of_pos_right _ hpos
    unfold NPTS_CDF_TABLE
    norm_num

theorem drawNoTies_default (kind : Kind) (key : Key) :
    DrawNoTies wExt wRng kind DEFAULT_COMPONENTS 12 15 key := by
  constructor
  · intro _ tab h
    obtain ⟨h1, h2, h3⟩ := cens_table _ _ _ _ h
    refine ⟨interpNoTies_first h1 (by omega) h3, ?_⟩
    change TPeak.interp 0 0 tab UTP_TABLE ≠ UTP_MIN
    rw [interp_first h1 (by rintro rfl; simp at h2)]
    unfold UTP_TABLE UTP_MIN
    rw [linspace_getD _ _ _ _ (by norm_num)]
    norm_num
  · intro _ loc scale h1 h2
    have hl := sats_loc _ h1
    have hs := sats_scale _ h2
    obtain ⟨e1, e2, h3, h4, h5⟩ := sats_table hl hs
    rw [e1, e2]
    refine ⟨by linarith [hs.1], ?_, ?_, ?_, ?_, interpNoTies_first h3 (by omega) h5⟩
    · unfold X_MIN UTP_EPS; norm_num; linarith [hl.1]
    · unfold X_MAX UTP_EPS; norm_num; linarith [hl.2]
    · unfold X_MIN UTP_EPS; apply ne_of_lt; norm_num; linarith [hl.2, hs.1]
    · unfold X_MAX UTP_EPS; apply ne_of_gt; norm_num; linarith [hl.1, hs.1]

/-- The peak time drawn in the example. -/
noncomputable def wTp : Kind → ℝ
  | .cens => 0.5
  | .sats => 1.5015

theorem draw_default (kind : Kind) (key : Key) (tp : ℝ) (ks : List Key)
    (h : MC.draw_t_peak wExt wRng kind DEFAULT_DIFFMAHPOP_PARAMS 12 15 key 1 = .ok (tp, ks)) : tp = wTp kind := by
  unfold MC.draw_t_peak at h
  rw [default_components] at h
  obtain ⟨c, k1, k2, h1, h2, -⟩ := RandM.bind_inv h
  cases (RandM.lift_inv h1).1
  cases kind
  · simp only at h2
    unfold TPeak.mc_tpeak_singlecen at h2
    obtain ⟨utp, k3, k4, h3, h4, -⟩ := RandM.bind_inv h2
    unfold TPeak.mc_utp_singlecen at h3
    obtain ⟨tab, k5, k6, h5, h6, -⟩ := RandM.bind_inv h3
    obtain ⟨u, k7, k8, h7, h8, -⟩ := RandM.bind_inv h6
    obtain ⟨a1, a2, a3⟩ := cens_table _ _ _ _ (RandM.lift_inv h5).1
    have e1 := (RandM.draw_inv h7).1
    have e2 := (RandM.pure_inv h8).1
    have e3 := (RandM.pure_inv h4).1
    subst e1
    change utp = max (TPeak.interp 0 0 tab UTP_TABLE) UTP_MIN at e2
    rw [interp_first a1 (by rintro rfl; simp at a2)] at e2
    rw [e3, e2]
    unfold UTP_TABLE UTP_MIN wTp
    rw [linspace_getD _ _ _ _ (by norm_num), max_eq_right (by norm_num)]
    norm_num
  · simp only at h2
    unfold TPeak.mc_tpeak_singlesat at h2
    obtain ⟨loc, k3, k4, h3, h4, -⟩ := RandM.bind_inv h2
    obtain ⟨scale, k5, k6, h5, h6, -⟩ := RandM.bind_inv h4
    obtain ⟨utp, k7, k8, h7, h8, -⟩ := RandM.bind_inv h6
    have hl := sats_loc _ (RandM.lift_inv h3).1
    have hs := sats_scale _ (RandM.lift_inv h5).1
    obtain ⟨e1, e2, a1, a2, a3⟩ := sats_table hl hs
    unfold TPeak.mc_tp_pdf_singlesat at h7
    rw [e1, e2] at h7
    obtain ⟨u, k9, k10, h9, h10, -⟩ := RandM.bind_inv h7
    have b1 := (RandM.draw_inv h9).1
    have b2 := (RandM.pure_inv h10).1
    have b3 := (RandM.pure_inv h8).1
    subst b1
    change utp = TPeak.interp 0 0 _ _ at b2
    rw [interp_first a1 (by intro h; rw [h] at a2; simp at a2),
      linspace_getD _ _ _ _ (by decide)] at b2
    rw [b3, b2]
    unfold wTp
    norm_num

end PopGrad

end Diffmah

import Verif.Lemmas.Float32Peak
import Verif.Props.Float32Cov
import Verif.Props.Float32Rate

/-!
# C129: peak times drawn in single precision

The peak time of a halo is drawn by looking up a uniform number in the table of a distribution function. In single precision
the table need not be increasing where the function is flat, neighbouring entries may coincide, and the division by their
difference may fail. Yet the peak time that comes out is always finite and physical, and so is the whole Monte Carlo halo that
is built on it.
-/

namespace Diffmah.F32

set_option maxRecDepth 10000

open JOps XR JMinMax JFlow Pop TPeak PopParams MC

/-! ## Logistic steps -/

theorem num_mul_comm (a b : ℝ) : num a * num b = num b * num a := by
  change (⟨rd (fin (a * b))⟩ : F32) = ⟨rd (fin (b * a))⟩
  rw [mul_comm]

theorem sig_range [Libm] (hs : Libm.Sane) {x x0 k : F32} {lo hi f g : ℝ} (hx : Bd x 8) (hx0 : Bd x0 8) (hk : Bd k 8)
    (hlo : -1 ≤ lo) (hhi : hi ≤ 2) (hf : lo ≤ f ∧ f ≤ hi) (hg : lo ≤ g ∧ g ≤ hi) :
    ∃ y, Utils.sigmoid x x0 k (num f) (num g) = num y ∧ lo - 10 * ε ≤ y ∧ y ≤ hi + 10 * ε := by
  have hb : Bd (k * (x - x0)) (8 + 9) := hk.mul (hx.sub hx0 (by norm_num)) (by norm_num)
  obtain ⟨s, e, h0, h1⟩ := hs.sg_range _ hb.ne_nan
  have hsg : (sigm (k * (x - x0)) : F32) = num s := congrArg F32.mk e
  obtain ⟨y, hy, h2⟩ := convex_step hlo hhi hf hg h0 h1
  refine ⟨y, ?_, h2⟩
  rw [← hy]
  unfold Utils.sigmoid
  have q : num g - num f = num (round (g - f)) :=
    sub_fin ((abs_le.2 ⟨by linarith [hg.1, hf.2], by linarith [hg.2, hf.1]⟩ : |g - f| ≤ 3).trans (by norm_num))
  rw [hsg, q, num_mul_comm]

theorem lit_range [Libm] {a : ℝ} (h : |a| ≤ 100) : ∃ y, (lit a : F32) = num y ∧ |y - a| ≤ 1 / 100000 := by
  have e0 := ε_pos
  have e1 := ε_le
  refine ⟨round a, lit_fin (h.trans (by norm_num)), ?_⟩
  have := round_ε a
  have := mul_le_mul_of_nonneg_left h e0.le
  linarith

theorem bd8 {v b : ℝ} (h : |v| ≤ b) (hb : b ≤ 256) : Bd (num v) 8 := Bd.num (h.trans (hb.trans (by norm_num)))

theorem exists_map_num {l : List F32} {P : ℝ → Prop} (h : ∀ a ∈ l, ∃ r, a = num r ∧ P r) :
    ∃ X : List ℝ, l = X.map num ∧ ∀ r ∈ X, P r := by
  induction l with
  | nil => exact ⟨[], rfl, by simp⟩
  | cons a l ih =>
    obtain ⟨r, e, hr⟩ := h a (by simp)
    obtain ⟨X, eX, hX⟩ := ih fun b hb => h b (by simp [hb])
    exact ⟨r :: X, by rw [e, eX]; rfl, by simpa using ⟨hr, hX⟩⟩

/-- The parameters of the peak times of centrals and satellites. -/
theorem peak_components {p : NT ℝ} (hp : p.map Prod.fst = FIELDS) (hb : Loose FULL.bounds p) :
    ∃ c : ComponentParams ℝ, get_component_model_params (p.mapv num) = .ok (c.mapv num) ∧ Loose TPCENS.bounds c.tp_cens ∧
      Loose TPSATS.bounds c.tp_sats := by
  obtain ⟨c, hc, hfl, hnames⟩ := C50_partition p hp
  refine ⟨c, by rw [get_component_model_params_mapv, hc]; rfl, ?_⟩
  have hn : (NT.fields c.toList.flatten).Nodup := by
    rw [hfl]
    show (p.map Prod.fst).Nodup
    rw [hp, FIELDS_eq]; exact NAMES_nodup
  simp only [ComponentParams.toList, COMPONENT_PDICTS, List.map_cons, List.map_nil, List.cons.injEq,
    and_true] at hnames
  obtain ⟨n1, n2, -⟩ := hnames
  simp only [Loose, FULL, NINE, catAll, List.map_cons, List.map_nil, List.flatten_cons, List.flatten_nil, List.mem_append,
    List.not_mem_nil, or_false, or_imp, forall_and] at hb
  obtain ⟨b1, b2, -⟩ := hb
  rw [← hfl] at b1 b2
  exact ⟨loose_block hn (by simp [ComponentParams.toList]) TPCENS_wf n1 b1,
    loose_block hn (by simp [ComponentParams.toList]) TPSATS_wf n2 b2⟩

/-! ## Centrals -/

theorem frac_peaked_num [Libm] (hs : Libm.Sane) {q : NT ℝ} (hb : Loose TPCENS.bounds q) {U : List ℝ}
    (hU : ∀ u ∈ U, -(2 : ℝ) ^ (-20 : ℤ) ≤ u ∧ u ≤ 1 + 2 ^ (-20 : ℤ)) {lgm t_obs : ℝ} (h0 : 0 ≤ lgm) (h20 : lgm ≤ 20)
    (t0 : 0 ≤ t_obs) (t20 : t_obs ≤ 20) :
    ∃ X : List ℝ, frac_peaked_vs_lgm (q.mapv num) (U.map num) (num lgm) (num t_obs) = .ok (X.map num) ∧
      X.length = U.length ∧ ∀ a ∈ X, |a| ≤ 4 := by
  have e0 := ε_pos
  have e1 := ε_le
  obtain ⟨x0, -, g1, b1⟩ := lget hb "cen_tp_lgm_x0_x0" (11.0, 14.0) (by simp [TPCENS])
  obtain ⟨tx, -, g2, b2⟩ := lget hb "cen_tp_t_obs_x0_x0" (3.0, 10.0) (by simp [TPCENS])
  obtain ⟨ye, -, g3, b3⟩ := lget hb "cen_tp_x0_ylo_early" (0.5, 1.0) (by simp [TPCENS])
  obtain ⟨ze, -, g4, b4⟩ := lget hb "cen_tp_x0_yhi_early" (1.0, 1.8) (by simp [TPCENS])
  obtain ⟨yl, -, g5, b5⟩ := lget hb "cen_tp_x0_ylo_late" (0.5, 1.0) (by simp [TPCENS])
  obtain ⟨zl, -, g6, b6⟩ := lget hb "cen_tp_x0_yhi_late" (1.0, 1.8) (by simp [TPCENS])
  norm_num at b1 b2 b3 b4 b5 b6
  have L : ∀ {a : ℝ}, |a| ≤ 100 → Bd (lit a : F32) 8 := fun h => Bd.lit 8 (h.trans (by norm_num)) (by norm_num)
  have Bm : Bd (num lgm) 8 := bd8 (b := 20) (abs_le.2 ⟨by linarith, h20⟩) (by norm_num)
  have Bt : Bd (num t_obs) 8 := bd8 (b := 20) (abs_le.2 ⟨by linarith, t20⟩) (by norm_num)
  have Bx : Bd (num x0) 8 := bd8 (b := 20) (abs_le.2 ⟨by linarith, by linarith⟩) (by norm_num)
  have Btx : Bd (num tx) 8 := bd8 (b := 20) (abs_le.2 ⟨by linarith, by linarith⟩) (by norm_num)
  obtain ⟨e, he, he0, he1⟩ := sig_range hs (k := lit 1.0) (lo := 0) (hi := 1.9) Bm Bx (L (by norm_num)) (by norm_num)
    (by norm_num) (f := ye) (g := ze) ⟨by linarith, by norm_num; linarith⟩ ⟨by linarith, by norm_num; linarith⟩
  obtain ⟨l, hl, hl0, hl1⟩ := sig_range hs (k := lit 1.0) (lo := 0) (hi := 1.9) Bm Bx (L (by norm_num)) (by norm_num)
    (by norm_num) (f := yl) (g := zl) ⟨by linarith, by norm_num; linarith⟩ ⟨by linarith, by norm_num; linarith⟩
  norm_num at he1 hl1
  obtain ⟨w, hw, hw0, hw1⟩ := sig_range hs (k := lit 2.0) (lo := -1) (hi := 2) Bt Btx (L (by norm_num)) le_rfl
    le_rfl (f := e) (g := l) ⟨by linarith, by linarith⟩ ⟨by linarith, by linarith⟩
  have Bw : Bd (num w) 8 := bd8 (b := 3) (abs_le.2 ⟨by linarith, by linarith⟩) (by norm_num)
  have hx0 : get_utp_x0_from_lgm (q.mapv num) (num lgm) (num t_obs) = .ok (num w) := by
    unfold get_utp_x0_from_lgm
    simp only [g1, g2, g3, g4, g5, g6, bind, Except.bind, pure, Except.pure, he, hl, hw]
  obtain ⟨X, hX, hX4⟩ := exists_map_num (P := fun r => |r| ≤ 4)
    (l := (U.map num).map fun x => Utils.sigmoid x (num w) (lit 5.0) (lit 0.0) (lit 1.0)) (by
      intro a ha
      simp only [List.map_map, List.mem_map, Function.comp] at ha
      obtain ⟨u, hu, rfl⟩ := ha
      obtain ⟨u0, u1⟩ := hU u hu
      have e20 : (2 : ℝ) ^ (-20 : ℤ) ≤ 1 := by norm_num
      have Bu : Bd (num u) 8 := bd8 (b := 2) (abs_le.2 ⟨by linarith, by linarith⟩) (by norm_num)
      obtain ⟨z, hz, z1⟩ := lit_range (a := 0.0) (by norm_num)
      obtain ⟨o, ho, o1⟩ := lit_range (a := 1.0) (by norm_num)
      rw [hz, ho]
      rw [abs_le] at z1 o1
      norm_num at z1 o1
      obtain ⟨y, hy, y0, y1⟩ := sig_range hs (x := num u) (k := lit 5.0) (lo := -1) (hi := 2) Bu Bw (L (by norm_num)) le_rfl le_rfl
        (f := z) (g := o) ⟨by linarith, by linarith⟩ ⟨by linarith, by linarith⟩
      exact ⟨y, hy, abs_le.2 ⟨by linarith, by linarith⟩⟩)
  refine ⟨X, ?_, ?_, hX4⟩
  · unfold frac_peaked_vs_lgm
    rw [hx0]
    simp only [bind, Except.bind, pure, Except.pure, hX]
  · have := congrArg List.length hX
    simpa using this.symm

/-! ## Satellites -/

theorem loc_scale_num [Libm] (hs : Libm.Sane) {q : NT ℝ} (hb : Loose TPSATS.bounds q) {lgm t_obs : ℝ} (h0 : 0 ≤ lgm)
    (h20 : lgm ≤ 20) (t0 : 0 ≤ t_obs) (t20 : t_obs ≤ 20) :
    ∃ l s, get_utp_loc (q.mapv num) (num lgm) (num t_obs) = .ok (num l) ∧
      get_utp_scale (q.mapv num) (num lgm) (num t_obs) = .ok (num s) ∧
      (149 / 1000 ≤ l ∧ l ≤ 951 / 1000) ∧ 99 / 1000 ≤ s ∧ s ≤ 601 / 1000 := by
  have e0 := ε_pos
  have e1 := ε_le
  obtain ⟨v1, -, g1, b1⟩ := lget hb "utp_loc_lgm_ylo_t0" (5.0, 10.0) (by simp [TPSATS])
  obtain ⟨v2, -, g2, b2⟩ := lget hb "utp_loc_lgm_ylo_early" (0.4, 0.8) (by simp [TPSATS])
  obtain ⟨v3, -, g3, b3⟩ := lget hb "utp_loc_lgm_ylo_late" (0.15, 0.25) (by simp [TPSATS])
  obtain ⟨v4, -, g4, b4⟩ := lget hb "utp_loc_lgm_x0" (11.0, 13.0) (by simp [TPSATS])
  obtain ⟨v5, -, g5, b5⟩ := lget hb "utp_scale_lgm_ylo_t0" (6.0, 11.0) (by simp [TPSATS])
  obtain ⟨v6, -, g6, b6⟩ := lget hb "utp_scale_lgm_ylo_early" (0.1, 0.5) (by simp [TPSATS])
  obtain ⟨v7, -, g7, b7⟩ := lget hb "utp_scale_lgm_ylo_late" (0.1, 0.6) (by simp [TPSATS])
  norm_num at b1 b2 b3 b4 b5 b6 b7
  have L : ∀ {a : ℝ}, |a| ≤ 100 → Bd (lit a : F32) 8 := fun h => Bd.lit 8 (h.trans (by norm_num)) (by norm_num)
  have Bm : Bd (num lgm) 8 := bd8 (b := 20) (abs_le.2 ⟨by linarith, h20⟩) (by norm_num)
  have Bt : Bd (num t_obs) 8 := bd8 (b := 20) (abs_le.2 ⟨by linarith, t20⟩) (by norm_num)
  have B1 : Bd (num v1) 8 := bd8 (b := 20) (abs_le.2 ⟨by linarith, by linarith⟩) (by norm_num)
  have B4 : Bd (num v4) 8 := bd8 (b := 20) (abs_le.2 ⟨by linarith, by linarith⟩) (by norm_num)
  have B5 : Bd (num v5) 8 := bd8 (b := 20) (abs_le.2 ⟨by linarith, by linarith⟩) (by norm_num)
  obtain ⟨c, hc, c1⟩ := lit_range (a := 0.95) (by norm_num)
  obtain ⟨d, hd, d1⟩ := lit_range (a := 0.16) (by norm_num)
  rw [abs_le] at c1 d1
  norm_num at c1 d1
  obtain ⟨y, hy, y0, y1⟩ := sig_range hs (k := lit 0.4) (lo := 1499 / 10000) (hi := 9501 / 10000) Bt B1 (L (by norm_num))
    (by norm_num) (by norm_num) (f := v2) (g := v3) ⟨by linarith, by linarith⟩ ⟨by linarith, by linarith⟩
  obtain ⟨l, hl, l0, l1⟩ := sig_range hs (k := lit 1.5) (lo := 1498 / 10000) (hi := 9502 / 10000) Bm B4 (L (by norm_num))
    (by norm_num) (by norm_num) (f := y) (g := c) ⟨by linarith, by linarith⟩ ⟨by linarith, by linarith⟩
  obtain ⟨z, hz, z0, z1⟩ := sig_range hs (k := lit 1.0) (lo := 999 / 10000) (hi := 6001 / 10000) Bt B5 (L (by norm_num))
    (by norm_num) (by norm_num) (f := v6) (g := v7) ⟨by linarith, by linarith⟩ ⟨by linarith, by linarith⟩
  obtain ⟨s, hss, s0, s1⟩ := sig_range hs (x0 := lit 12.0) (k := lit 1.0) (lo := 998 / 10000) (hi := 6002 / 10000) Bm (L (by norm_num))
    (L (by norm_num)) (by norm_num) (by norm_num) (f := z) (g := d) ⟨by linarith, by linarith⟩ ⟨by linarith, by linarith⟩
  refine ⟨l, s, ?_, ?_, ⟨by linarith, by linarith⟩, by linarith, by linarith⟩
  · unfold get_utp_loc get_utp_loc_lgm_ylo
    simp only [g1, g2, g3, g4, bind, Except.bind, pure, Except.pure, hy, hc, hl]
  · unfold get_utp_scale get_utp_scale_lgm_ylo
    simp only [g5, g6, g7, bind, Except.bind, pure, Except.pure, hz, hd, hss]

/-! ## The theorems -/

/-- What is assumed of the random numbers, of the tolerance of `jnp.interp` and of `truncnorm.cdf`: the latter returns
a number between -2 and 2 for numbers with a positive scale; it need not be increasing. -/
structure EnvOk (E : Env F32) : Prop where
  uniform : ∀ k, 0 ≤ E.uniform k ∧ E.uniform k ≤ 1
  eps : 0 ≤ E.interp_eps ∧ E.interp_eps ≤ 1
  cdf : ∀ x a b loc scale : ℝ, 0 < scale →
    ∃ y, E.truncnorm_cdf (num x) (num a) (num b) (num loc) (num scale) = num y ∧ |y| ≤ 2

/-- What is assumed of `jnp.linspace`: the table of the centrals runs from 0 to 1, the one of the satellites between the
arguments, up to `2^-20`. The entries need not be increasing. -/
structure TablesOk (U : List ℝ) (tab : F32 → F32 → List F32) : Prop where
  cens_length : 2 ≤ U.length
  cens : ∀ u ∈ U, -(2 : ℝ) ^ (-20 : ℤ) ≤ u ∧ u ≤ 1 + 2 ^ (-20 : ℤ)
  sats : ∀ a b : ℝ, 0 ≤ a → a ≤ 1 → 0 ≤ b → b ≤ 1 → ∃ T : List ℝ, tab (num a) (num b) = T.map num ∧ 2 ≤ T.length ∧
    ∀ t ∈ T, min a b - 2 ^ (-20 : ℤ) ≤ t ∧ t ≤ max a b + 2 ^ (-20 : ℤ)

theorem lit_unit [Libm] {u : ℝ} (h : 0 ≤ u ∧ u ≤ 1) : ∃ x, (lit u : F32) = num x ∧ |x| ≤ 4 := by
  obtain ⟨y, e, hy⟩ := lit_range (a := u) (abs_le.2 ⟨by linarith, by linarith⟩)
  rw [abs_le] at hy
  exact ⟨y, e, abs_le.2 ⟨by linarith, by linarith⟩⟩

theorem tpeak_cen [Libm] (hs : Libm.Sane) {E : Env F32} (hE : EnvOk E) {U : List ℝ} {tab : F32 → F32 → List F32}
    (hT : TablesOk U tab) {q : NT ℝ} (hb : Loose TPCENS.bounds q) {lgm t_obs t0 : ℝ} (h0 : 0 ≤ lgm) (h20 : lgm ≤ 20)
    (ht0 : 0 ≤ t_obs) (ht20 : t_obs ≤ 20) (ha : 1 / 100 ≤ t0) (hb' : t0 ≤ 1000) (key : Key) :
    ∃ tp, mc_tpeak_singlecen_tab (U.map num) E (q.mapv num) (num lgm) (num t_obs) key (num t0) = .ok (num tp, [key]) ∧
      49990 / 1000000 * t0 ≤ tp ∧ tp ≤ 1000010 / 1000000 * t0 := by
  have e0 := ε_pos
  have e1 := ε_le
  obtain ⟨X, hX, hl, hX4⟩ := frac_peaked_num hs hb hT.cens h0 h20 ht0 ht20
  obtain ⟨x, hx, hx4⟩ := lit_unit (hE.uniform key)
  have e20 : (2 : ℝ) ^ (-20 : ℤ) ≤ 1 / 1000000 := by norm_num
  obtain ⟨u, hu, u0, u1⟩ := interp_range (lo := -(1 / 1000000)) (hi := 1 + 1 / 1000000) (X := X) (Y := U) hE.eps.1 hE.eps.2 hx4
    hX4 (by norm_num) (by norm_num) (fun b hb => ⟨(neg_le_neg e20).trans (hT.cens b hb).1,
      (hT.cens b hb).2.trans (add_le_add_right e20 1)⟩)
    (hl ▸ hT.cens_length) hl.symm
  obtain ⟨m, hm, m1⟩ := lit_range (a := UTP_MIN) (by unfold UTP_MIN; norm_num)
  have hm1 : |m - 5 / 100| ≤ ε := by
    have e : (lit UTP_MIN : F32) = num (round UTP_MIN) := lit_fin (by unfold UTP_MIN; norm_num)
    rw [e] at hm
    have hmm : round UTP_MIN = m := XR.fin.inj (congrArg F32.v hm)
    have h := round_ε UTP_MIN
    rw [hmm] at h
    unfold UTP_MIN at h
    norm_num at h ⊢
    linarith
  rw [abs_le] at hm1
  have hw : jmax (num u) (num m) = num (max u m) := rfl
  have w0 : 49999 / 1000000 ≤ max u m := le_max_of_le_right (by linarith [hm1.1])
  have w1 : max u m ≤ 1000003 / 1000000 := max_le (by linarith) (by linarith [hm1.2])
  have pos : 0 < max u m * t0 := by positivity
  have le2 : max u m * t0 ≤ 2 * 1000 := mul_le_mul (by linarith) hb' (by linarith) (by norm_num)
  have r := round_ε (max u m * t0)
  rw [abs_of_pos pos] at r
  have r' : ε * (max u m * t0) ≤ ε * (2 * t0) :=
    mul_le_mul_of_nonneg_left (mul_le_mul_of_nonneg_right (by linarith) (by linarith)) e0.le
  have r2 : ε * (2 * t0) ≤ 6 / 100000000 * (2 * t0) := mul_le_mul_of_nonneg_right e1 (by linarith)
  obtain ⟨r3, r4⟩ := abs_le.1 r
  have k0 := mul_le_mul_of_nonneg_right w0 (show (0 : ℝ) ≤ t0 by linarith)
  have k1 := mul_le_mul_of_nonneg_right w1 (show (0 : ℝ) ≤ t0 by linarith)
  refine ⟨round (max u m * t0), ?_, by linarith, by linarith⟩
  unfold mc_tpeak_singlecen_tab
  rw [hX]
  simp only [RandM.lift, RandM.draw, bind, RandM.bind, pure, RandM.pure, hx, hu, hm, hw]
  rw [show num (max u m) * num t0 = num (round (max u m * t0)) from
    mul_fin (by rw [abs_of_pos pos]; exact le2.trans (by norm_num))]
  rfl

theorem tpeak_sat [Libm] (hs : Libm.Sane) {E : Env F32} (hE : EnvOk E) {U : List ℝ} {tab : F32 → F32 → List F32}
    (hT : TablesOk U tab) {q : NT ℝ} (hb : Loose TPSATS.bounds q) {lgm t_obs : ℝ} (h0 : 0 ≤ lgm) (h20 : lgm ≤ 20)
    (ht0 : 1 / 1000 ≤ t_obs) (ht20 : t_obs ≤ 20) (key : Key) :
    ∃ tp, mc_tpeak_singlesat_tab tab E (q.mapv num) key (num lgm) (num t_obs) = .ok (num tp, [key]) ∧
      10007 / 100000 * t_obs ≤ tp ∧ tp ≤ 99993 / 100000 * t_obs := by
  have e0 := ε_pos
  have e1 := ε_le
  obtain ⟨l, s, hl, hsc, ⟨l0, l1⟩, s0, s1⟩ := loc_scale_num hs hb h0 h20 (by linarith) ht20
  have one : ∀ {r : ℝ}, |r| ≤ 10 → |round r - r| ≤ 1 / 1000000 := fun {r} h => by
    have h1 := round_ε r
    have h2 := mul_le_mul_of_nonneg_left h e0.le
    linarith
  have l4 : (lit 4 : F32) = num 4 := by
    have := round_rep (rep_nat 4 (by norm_num)); norm_num at this
    rw [lit_fin (by norm_num), this]; rfl
  have q1 : num 4 * num s = num (round (4 * s)) := mul_fin (by rw [abs_of_pos (by linarith)]; exact (by linarith : 4 * s ≤ 10).trans (by norm_num))
  have r1 := abs_le.1 (one (r := 4 * s) (by rw [abs_of_pos (by linarith)]; linarith))
  generalize round (4 * s) = d at *
  have q2 : num l - num d = num (round (l - d)) := sub_fin ((abs_le.2 ⟨by linarith, by linarith⟩ : |l - d| ≤ 10).trans (by norm_num))
  have q3 : num l + num d = num (round (l + d)) := add_fin ((abs_le.2 ⟨by linarith, by linarith⟩ : |l + d| ≤ 10).trans (by norm_num))
  have r2 := abs_le.1 (one (r := l - d) (abs_le.2 ⟨by linarith, by linarith⟩))
  have r3 := abs_le.1 (one (r := l + d) (abs_le.2 ⟨by linarith, by linarith⟩))
  generalize round (l - d) = A at *
  generalize round (l + d) = B at *
  have c1 : |X_MIN + UTP_EPS| ≤ 10 := by unfold X_MIN UTP_EPS; norm_num
  have c2 : |X_MAX - UTP_EPS| ≤ 10 := by unfold X_MAX UTP_EPS; norm_num
  have q4 : (lit (X_MIN + UTP_EPS) : F32) = num (round (X_MIN + UTP_EPS)) := lit_fin (c1.trans (by norm_num))
  have q5 : (lit (X_MAX - UTP_EPS) : F32) = num (round (X_MAX - UTP_EPS)) := lit_fin (c2.trans (by norm_num))
  have r4 := abs_le.1 (one c1)
  have r5 := abs_le.1 (one c2)
  generalize round (X_MIN + UTP_EPS) = F at *
  generalize round (X_MAX - UTP_EPS) = G at *
  unfold X_MIN UTP_EPS at r4
  unfold X_MAX UTP_EPS at r5
  norm_num at r4 r5
  have a0 : 100098 / 1000000 ≤ max A F := le_max_of_le_right (by linarith)
  have a1 : max A F ≤ 999 / 1000 := max_le (by linarith) (by linarith)
  have b0 : 101 / 1000 ≤ min B G := le_min (by linarith) (by linarith)
  have b1 : min B G ≤ 999902 / 1000000 := min_le_of_right_le (by linarith)
  obtain ⟨T, hTt, hTn, hTr⟩ := hT.sats (max A F) (min B G) (by linarith) (by linarith) (by linarith) (by linarith)
  have e20 : (2 : ℝ) ^ (-20 : ℤ) ≤ 1 / 1000000 := by norm_num
  have hTb : ∀ t ∈ T, 100096 / 1000000 ≤ t ∧ t ≤ 999904 / 1000000 := fun t ht => by
    obtain ⟨x1, x2⟩ := hTr t ht
    generalize (2 : ℝ) ^ (-20 : ℤ) = c20 at x1 x2 e20
    have : 100098 / 1000000 ≤ min (max A F) (min B G) := le_min a0 (by linarith)
    have : max (max A F) (min B G) ≤ 999902 / 1000000 := max_le (by linarith) b1
    exact ⟨by linarith, by linarith⟩
  -- the truncation points are numbers
  have div : ∀ {z : ℝ}, |z| ≤ 2 → ∃ w, num z / num s = num w := fun {z} hz => by
    refine ⟨_, div_fin (by linarith) ?_⟩
    rw [abs_div, abs_of_pos (show 0 < s by linarith)]
    have h21 : |z| / s ≤ 2 / (99 / 1000) := by gcongr
    exact h21.trans (by norm_num)
  have ab : ∀ {c : ℝ}, |c| ≤ 1 → ∃ w, ((lit c : F32) - num l) / num s = num w := fun {c} hc => by
    obtain ⟨y, hy, y1⟩ := lit_range (a := c) (hc.trans (by norm_num))
    rw [abs_le] at hc y1
    have hd : |y - l| ≤ 1999 / 1000 := abs_le.2 ⟨by linarith, by linarith⟩
    have hr := abs_le.1 (one (r := y - l) (by linarith))
    rw [abs_le] at hd
    rw [hy, show num y - num l = num (round (y - l)) from
      sub_fin ((abs_le.2 ⟨by linarith, by linarith⟩ : |y - l| ≤ 10).trans (by norm_num))]
    exact div (abs_le.2 ⟨by linarith, by linarith⟩)
  obtain ⟨a, haa⟩ := ab (c := X_MIN) (by unfold X_MIN; norm_num)
  obtain ⟨b, hbb⟩ := ab (c := X_MAX) (by unfold X_MAX; norm_num)
  obtain ⟨X, hX, hX4⟩ := exists_map_num (P := fun r => |r| ≤ 4)
    (l := (T.map num).map fun x => E.truncnorm_cdf x (num a) (num b) (num l) (num s)) (by
      intro w hw
      simp only [List.map_map, List.mem_map, Function.comp] at hw
      obtain ⟨t, -, rfl⟩ := hw
      obtain ⟨y, hy, y2⟩ := hE.cdf t a b l s (by linarith)
      exact ⟨y, hy, y2.trans (by norm_num)⟩)
  have hlen : X.length = T.length := by have := congrArg List.length hX; simpa using this.symm
  obtain ⟨x, hx, hx4⟩ := lit_unit (hE.uniform key)
  obtain ⟨u, hu, u0, u1⟩ := interp_range (lo := 100096 / 1000000) (hi := 999904 / 1000000) (X := X) (Y := T) hE.eps.1 hE.eps.2
    hx4 hX4 (by norm_num) (by norm_num) hTb (hlen ▸ hTn) hlen.symm
  have u2 : 100095 / 1000000 ≤ u := by linarith
  have u3 : u ≤ 999905 / 1000000 := by linarith
  have pos : 0 < u * t_obs := mul_pos (by linarith) (by linarith)
  have le2 : u * t_obs ≤ 1 * 20 := mul_le_mul (by linarith) ht20 (by linarith) (by norm_num)
  have r := round_ε (u * t_obs)
  rw [abs_of_pos pos] at r
  have r' : ε * (u * t_obs) ≤ ε * (1 * t_obs) :=
    mul_le_mul_of_nonneg_left (mul_le_mul_of_nonneg_right (by linarith) (by linarith)) e0.le
  have r2' : ε * (1 * t_obs) ≤ 6 / 100000000 * (1 * t_obs) := mul_le_mul_of_nonneg_right e1 (by linarith)
  obtain ⟨r6, r7⟩ := abs_le.1 r
  have k0 := mul_le_mul_of_nonneg_right u2 (show (0 : ℝ) ≤ t_obs by linarith)
  have k1 := mul_le_mul_of_nonneg_right u3 (show (0 : ℝ) ≤ t_obs by linarith)
  have jx : jmax (num A) (num F) = num (max A F) := rfl
  have jn : jmin (num B) (num G) = num (min B G) := rfl
  refine ⟨round (u * t_obs), ?_, by linarith, by linarith⟩
  unfold mc_tpeak_singlesat_tab
  rw [hl, hsc]
  simp only [RandM.lift, RandM.draw, bind, RandM.bind, pure, RandM.pure, l4, q1, q2, q3, q4, q5, jx, jn, hTt, haa, hbb, hX, hx, hu]
  rw [show num u * num t_obs = num (round (u * t_obs)) from
    mul_fin (by rw [abs_of_pos pos]; exact le2.trans (by norm_num))]
  rfl

/-- C129. In single precision, for population parameters within their bounds (and outside by the rounding of the bounds) and
every mass and time in range, a peak time is drawn without exception, infinity or NaN, with the one random key meant for it.
That of a central lies between 0.0499 and 1.0001 times the age `10^lgt0` of the universe, that of a satellite strictly between
a tenth of the time of observation and that time. -/
theorem C129_peak_times [Libm] (hs : Libm.Sane) (ha : Libm.AccurateRate) (p : NT ℝ) (hp : p.map Prod.fst = FIELDS)
    (hb : ∀ b ∈ FULL.bounds, ∃ v, p.lookup b.1 = some v ∧ b.2.1 - 2 ^ (-20 : ℤ) ≤ v ∧ v ≤ b.2.2 + 2 ^ (-20 : ℤ))
    (E : Env F32) (hE : EnvOk E) (U : List ℝ) (tab : F32 → F32 → List F32) (hT : TablesOk U tab)
    (kind : Kind) (lgm t_obs lgt0 : ℝ) (hm0 : 0 ≤ lgm) (hm1 : lgm ≤ 20) (ht0 : 0.001 ≤ t_obs) (ht1 : t_obs ≤ 20)
    (hl0 : -1 ≤ lgt0) (hl1 : lgt0 ≤ 2) (key : Key) :
    ∃ tp : ℝ, draw_t_peak_tab (U.map num) tab E kind (p.mapv num) (num lgm) (num t_obs) key (num lgt0) =
        .ok (num tp, [Key.child key 2 0]) ∧
      (kind = .cens → 0.0499 * (10 : ℝ) ^ lgt0 < tp ∧ tp < 1.0001 * (10 : ℝ) ^ lgt0) ∧
      (kind = .sats → 0.1 * t_obs < tp ∧ tp < t_obs) := by
  norm_num at ht0
  obtain ⟨c, hc, hcc, hcs⟩ := peak_components hp hb
  cases kind with
  | cens =>
    obtain ⟨t0, h1, h2⟩ := ha.pow10_acc lgt0 (by linarith) (by linarith)
    have p0 : (1 : ℝ) / 10 ≤ (10 : ℝ) ^ lgt0 := by
      have := Real.rpow_le_rpow_of_exponent_le (x := 10) (by norm_num) hl0
      rw [Real.rpow_neg_one] at this
      linarith
    have p1 : (10 : ℝ) ^ lgt0 ≤ 100 := by
      have := Real.rpow_le_rpow_of_exponent_le (x := 10) (by norm_num) hl1
      norm_num at this
      exact this
    generalize (10 : ℝ) ^ lgt0 = T at *
    have e16 : (2 : ℝ) ^ (-16 : ℤ) ≤ 2 / 100000 := by norm_num
    have h3 := mul_le_mul_of_nonneg_right e16 (show (0 : ℝ) ≤ T by linarith)
    obtain ⟨h4, h5⟩ := abs_le.1 (h2.trans h3)
    obtain ⟨tp, k1, k2, k3⟩ := tpeak_cen hs hE hT hcc hm0 hm1 (t_obs := t_obs) (by linarith) ht1 (t0 := t0) (by linarith)
      (by linarith) (Key.child key 2 0)
    refine ⟨tp, ?_, fun _ => ⟨?_, ?_⟩, fun h => by cases h⟩
    · unfold draw_t_peak_tab
      rw [hc, show (pow10 (num lgt0) : F32) = num t0 from congrArg F32.mk h1]
      change RandM.bind (RandM.lift (Except.ok _)) _ = _
      simp only [RandM.lift, RandM.bind]
      have k1' : mc_tpeak_singlecen_tab (U.map num) E (c.mapv num).tp_cens (num lgm) (num t_obs) (Key.child key 2 0) (num t0) =
        .ok (num tp, [Key.child key 2 0]) := k1
      rw [k1']
      rfl
    · norm_num; linarith
    · norm_num; linarith
  | sats =>
    obtain ⟨tp, k1, k2, k3⟩ := tpeak_sat hs hE hT hcs hm0 hm1 ht0 ht1 (Key.child key 2 0)
    refine ⟨tp, ?_, fun h => (by cases h), fun _ => ⟨?_, ?_⟩⟩
    · unfold draw_t_peak_tab
      rw [hc]
      change RandM.bind (RandM.lift (Except.ok _)) _ = _
      simp only [RandM.lift, RandM.bind]
      have k1' : mc_tpeak_singlesat_tab tab E (c.mapv num).tp_sats (Key.child key 2 0) (num lgm) (num t_obs) =
        .ok (num tp, [Key.child key 2 0]) := k1
      rw [k1']
      rfl
    · norm_num; linarith
    · linarith

theorem single_tab_val {E : Env F32} [Libm] {utab : List F32} {tab : F32 → F32 → List F32} {kind : Kind} {p : NT F32}
    {lgm t_obs lgt0 tp : F32} {key : Key} {ks : List Key}
    (h : draw_t_peak_tab utab tab E kind p lgm t_obs key lgt0 = .ok (tp, ks)) :
    (mc_diffmah_params_single_tab utab tab E kind p lgm t_obs key lgt0).val? =
      (mc_diffmah_params_single_t_peak E kind p lgm t_obs key tp).val? := by
  unfold mc_diffmah_params_single_tab mc_diffmah_params_single_t_peak mean_diffmah_params_tab mean_diffmah_params_t_peak
  simp only [h, bind, RandM.bind]
  cases h1 : mean_diffmah_params_early_t_peak kind p lgm t_obs tp with
  | error e => rfl
  | ok a =>
    cases h2 : mean_diffmah_params_late_t_peak kind p lgm t_obs tp with
    | error e => rfl
    | ok b =>
      cases h3 : frac_early_cens_kern p lgm t_obs with
      | error e => rfl
      | ok f =>
        cases h4 : PopGrad.get_diffmahpop_cov p lgm with
        | error e => rfl
        | ok cov =>
          simp only [RandM.lift, Except.bind, pure, Except.pure, RandM.pure]
          cases h5 : PopGrad.scatter E (Key.child key 2 0) a cov with
          | error e => rfl
          | ok x =>
            cases h6 : PopGrad.scatter E (Key.child key 2 1) b cov with
            | error e => rfl
            | ok y => rfl

/-- C129. A whole Monte Carlo halo in single precision, with its peak time drawn: at an age of the universe between 1.03 and
19.98 Gyr, both the early and the late halo have finite parameters within their bounds, with `late <= early`, both have the
same drawn peak time to within `2^-15`, and the early fraction is a probability. -/
theorem C129_monte_carlo [Libm] (hs : Libm.Sane) (hr : Libm.AccurateRate) (ha : Libm.AccurateInverse) (p : NT ℝ)
    (hp : p.map Prod.fst = FIELDS)
    (hb : ∀ b ∈ FULL.bounds, ∃ v, p.lookup b.1 = some v ∧ b.2.1 - 2 ^ (-20 : ℤ) ≤ v ∧ v ≤ b.2.2 + 2 ^ (-20 : ℤ))
    (E : Env F32) (hE : EnvOk E) (U : List ℝ) (tab : F32 → F32 → List F32) (hT : TablesOk U tab)
    (z : Key → Fin 4 → ℝ) (hz : ∀ k i, |z k i| ≤ 2 ^ 64) (hmvn : ∀ k m c, E.mvn k m c = multivariate_normal (z k) m c)
    (kind : Kind) (lgm t_obs lgt0 : ℝ) (hm0 : 4.5 ≤ lgm) (hm1 : lgm ≤ 13.4) (ht0 : 0.51 ≤ t_obs) (ht1 : t_obs ≤ 15)
    (hl0 : 1.03 ≤ (10 : ℝ) ^ lgt0) (hl1 : (10 : ℝ) ^ lgt0 ≤ 19.98) (key : Key) :
    ∃ (e l : MahParams ℝ) (f tp : ℝ),
      (mc_diffmah_params_single_tab (U.map num) tab E kind (p.mapv num) (num lgm) (num t_obs) key (num lgt0)).val? =
        some (e.map num, l.map num, num f) ∧
      (draw_t_peak_tab (U.map num) tab E kind (p.mapv num) (num lgm) (num t_obs) key (num lgt0)).val? = some (num tp) ∧
      (∀ h ∈ [e, l], (0 ≤ h.logm0 ∧ h.logm0 ≤ 17) ∧ (-1 ≤ h.logtc ∧ h.logtc ≤ 1) ∧ (0.1 < h.late_index ∧ h.late_index ≤ 5) ∧
        (h.late_index ≤ h.early_index ∧ h.early_index ≤ 10) ∧ (0.05 < h.t_peak ∧ h.t_peak ≤ 20) ∧
        |h.t_peak - tp| ≤ 2 ^ (-15 : ℤ)) ∧
      0.249 < f ∧ f < 0.751 := by
  have g0 : -1 ≤ lgt0 := by
    by_contra hc
    push Not at hc
    have := Real.rpow_le_rpow_of_exponent_le (x := 10) (by norm_num) hc.le
    rw [Real.rpow_neg_one] at this
    norm_num at hl0 this
    linarith
  have g1 : lgt0 ≤ 2 := by
    by_contra hc
    push Not at hc
    have := Real.rpow_le_rpow_of_exponent_le (x := 10) (by norm_num) hc.le
    norm_num at hl1 this
    linarith
  have hm0' := hm0
  have hm1' := hm1
  norm_num at hm0' hm1' ht0 hl0 hl1
  obtain ⟨tp, h1, h2, h3⟩ := C129_peak_times hs hr p hp hb E hE U tab hT kind lgm t_obs lgt0 (by linarith) (by linarith)
    (by norm_num; linarith) (by linarith) g0 g1 key
  obtain ⟨b0, b1⟩ : 51 / 1000 ≤ tp ∧ tp ≤ 1999 / 100 := by
    cases kind with
    | cens => have := h2 rfl; norm_num at this; exact ⟨by linarith, by linarith⟩
    | sats => have := h3 rfl; norm_num at this; exact ⟨by linarith, by linarith⟩
  obtain ⟨e, l, f, k1, k2, k3⟩ := C128_monte_carlo hs ha p hp hb kind lgm t_obs tp hm0 hm1 (by linarith) ht1
    (by norm_num; linarith) (by norm_num; linarith) E z hz hmvn key
  exact ⟨e, l, f, tp, (single_tab_val h1).trans k1, by rw [h1]; rfl, k2, k3⟩

/-! ## The hypotheses can be met -/

/-- The exact table of the centrals, rounded, and a plausible way to compute the one of the satellites are close enough. -/
theorem tablesOk_linspace [Libm] : TablesOk (UTP_TABLE.map round) (linspaceJax NPTS_CDF_TABLE) where
  cens_length := by simp [UTP_TABLE, linspace]
  cens := by
    intro u hu
    simp only [UTP_TABLE, linspace, List.map_map, List.mem_map, List.mem_range, Function.comp] at hu
    obtain ⟨i, hi, rfl⟩ := hu
    have hi' : (i : ℝ) ≤ 199 := by exact_mod_cast Nat.le_of_lt_succ hi
    have one : Rep (1 : ℝ) := ⟨1, 0, by norm_num, by norm_num, by norm_num⟩
    have h0 : (0 : ℝ) ≤ 0.0 + (i : ℝ) * ((1.0 - 0.0) / (((200 : ℕ) : ℝ) - 1)) := by norm_num
    have h1 : 0.0 + (i : ℝ) * ((1.0 - 0.0) / (((200 : ℕ) : ℝ) - 1)) ≤ 1 := by norm_num; linarith
    have m0 := round_mono h0
    rw [round_zero] at m0
    have m1 := round_le h1 one
    have := two_zpow_pos (-20)
    exact ⟨by linarith, by linarith⟩
  sats := by
    intro a b ha0 ha1 hb0 hb1
    have e0 := ε_pos
    have e1 := ε_le
    have e20 : (2 : ℝ) ^ (-20 : ℤ) = 16 * ε := by unfold ε; norm_num
    rw [e20]
    have l1 : (lit 1 : F32) = num 1 := lit_one'
    have hM0 := le_max_left a b
    have hM1 := le_max_right a b
    have hm0 := min_le_left a b
    have hm1 := min_le_right a b
    obtain ⟨T, hT, hTr⟩ := exists_map_num (P := fun t => min a b - 16 * ε ≤ t ∧ t ≤ max a b + 16 * ε)
      (l := linspaceJax NPTS_CDF_TABLE (num a) (num b)) (by
        intro w hw
        unfold linspaceJax at hw
        simp only [List.mem_append, List.mem_map, List.mem_range, List.mem_singleton] at hw
        rcases hw with ⟨i, hi, rfl⟩ | rfl
        · have hi' : i ≤ 48 := by unfold NPTS_CDF_TABLE at hi; omega
          have hiR : (i : ℝ) ≤ 48 := by exact_mod_cast hi'
          have hi0 : (0 : ℝ) ≤ i := Nat.cast_nonneg i
          have n49 : (lit (((NPTS_CDF_TABLE : ℕ) : ℝ) - 1) : F32) = num 49 := by
            have e : ((NPTS_CDF_TABLE : ℕ) : ℝ) - 1 = ((49 : ℕ) : ℝ) := by unfold NPTS_CDF_TABLE; norm_num
            rw [e, lit_nat (by norm_num)]; norm_num
          have hni : (lit (i : ℝ) : F32) = num i := lit_nat (by omega)
          have hq0 : (0 : ℝ) ≤ (i : ℝ) / 49 := by positivity
          have hq1 : (i : ℝ) / 49 ≤ 1 := by rw [div_le_one (by norm_num)]; linarith
          have one : Rep (1 : ℝ) := ⟨1, 0, by norm_num, by norm_num, by norm_num⟩
          have k1 : num (i : ℝ) / num 49 = num (round ((i : ℝ) / 49)) :=
            div_fin (by norm_num) (by rw [abs_of_nonneg hq0]; exact hq1.trans (by norm_num))
          have s0 : 0 ≤ round ((i : ℝ) / 49) := by have := round_mono hq0; rwa [round_zero] at this
          have s1 : round ((i : ℝ) / 49) ≤ 1 := round_le hq1 one
          simp only [hni, n49, l1, k1]
          generalize round ((i : ℝ) / 49) = s at *
          have small : ∀ {r : ℝ}, |r| ≤ 3 → |round r - r| ≤ 31 / 10 * ε := fun {r} h => by
            have h1 := round_ε r
            have h2 := mul_le_mul_of_nonneg_left h e0.le
            linarith
          have k2 : num 1 - num s = num (round (1 - s)) :=
            sub_fin ((abs_le.2 ⟨by linarith, by linarith⟩ : |1 - s| ≤ 3).trans (by norm_num))
          have u0 : 0 ≤ round (1 - s) := by
            have := round_mono (show 0 ≤ 1 - s by linarith); rwa [round_zero] at this
          have u1 : round (1 - s) ≤ 1 := round_le (by linarith) one
          have d1 := abs_le.1 (small (r := 1 - s) (abs_le.2 ⟨by linarith, by linarith⟩))
          rw [k2]
          generalize round (1 - s) = u at *
          have pu0 : 0 ≤ a * u := mul_nonneg ha0 u0
          have pu1 : a * u ≤ 1 := mul_le_one₀ ha1 u0 u1
          have ps0 : 0 ≤ b * s := mul_nonneg hb0 s0
          have ps1 : b * s ≤ 1 := mul_le_one₀ hb1 s0 s1
          have k3 : num a * num u = num (round (a * u)) := mul_fin (by rw [abs_of_nonneg pu0]; exact pu1.trans (by norm_num))
          have k4 : num b * num s = num (round (b * s)) := mul_fin (by rw [abs_of_nonneg ps0]; exact ps1.trans (by norm_num))
          have d2 := abs_le.1 (small (r := a * u) (by rw [abs_of_nonneg pu0]; linarith))
          have d3 := abs_le.1 (small (r := b * s) (by rw [abs_of_nonneg ps0]; linarith))
          rw [k3, k4]
          generalize round (a * u) = P at *
          generalize round (b * s) = Q at *
          have hPQ : |P + Q| ≤ 3 := abs_le.2 ⟨by linarith, by linarith⟩
          have d4 := abs_le.1 (small hPQ)
          refine ⟨round (P + Q), add_fin (hPQ.trans (by norm_num)), ?_⟩
          -- the exact convex combination
          have c0 : min a b ≤ a * (1 - s) + b * s := by nlinarith
          have c1 : a * (1 - s) + b * s ≤ max a b := by nlinarith
          have d5 : a * (u - (1 - s)) ≤ 31 / 10 * ε := by nlinarith
          have d6 : -(31 / 10 * ε) ≤ a * (u - (1 - s)) := by nlinarith
          constructor <;> nlinarith
        · exact ⟨b, rfl, by linarith, by linarith⟩)
    refine ⟨T, hT, ?_, hTr⟩
    have hl := congrArg List.length hT
    simp only [linspaceJax, List.length_append, List.length_map, List.length_range, List.length_singleton] at hl
    rw [← hl]; unfold NPTS_CDF_TABLE; norm_num

example : ∃ L : Libm, @Libm.Sane L ∧ @Libm.AccurateRate L ∧ @Libm.AccurateInverse L ∧ ∃ p : NT ℝ, p.map Prod.fst = FIELDS ∧
    (∀ b ∈ FULL.bounds, ∃ v, p.lookup b.1 = some v ∧ b.2.1 - 2 ^ (-20 : ℤ) ≤ v ∧ v ≤ b.2.2 + 2 ^ (-20 : ℤ)) ∧
    (∃ lgm t_obs lgt0 : ℝ, 4.5 ≤ lgm ∧ lgm ≤ 13.4 ∧ 0.51 ≤ t_obs ∧ t_obs ≤ 15 ∧ 1.03 ≤ (10 : ℝ) ^ lgt0 ∧
      (10 : ℝ) ^ lgt0 ≤ 19.98) ∧
    (∃ U tab, TablesOk U tab) ∧
    ∃ (E : Env F32) (z : Key → Fin 4 → ℝ), EnvOk E ∧ (∀ k i, |z k i| ≤ 2 ^ 64) ∧ (∀ k i, z k i ≠ 0) ∧
      ∀ k m c, E.mvn k m c = (letI := L; multivariate_normal (z k) m c) := by
  obtain ⟨p, hp, hb⟩ := exists_allInBounds
  rw [allInBounds_iff] at hb
  let := ideal
  refine ⟨ideal, ideal_sane, ideal_accurateRate, ideal_accurateInverse, p, hp, fun b hm => ?_, ⟨12, 13.5, 1, by norm_num,
    by norm_num, by norm_num, by norm_num, by norm_num, by norm_num⟩, ⟨_, _, tablesOk_linspace⟩, ⟨fun _ => 1 / 2,
    fun k m c => multivariate_normal (fun i => 1 - 3 * (i : ℝ)) m c, 2 ^ (-46 : ℤ), fun x _ _ _ _ => jmin (jmax x (num 0)) (num 1)⟩,
    fun _ i => 1 - 3 * (i : ℝ), ⟨fun _ => by norm_num, by norm_num, fun x _ _ _ _ _ => ⟨min (max x 0) 1, rfl, ?_⟩⟩, ?_, ?_,
    fun k m c => rfl⟩
  · obtain ⟨v, hv, h1, h2⟩ := hb b hm
    have := two_zpow_pos (-20)
    exact ⟨v, hv, by linarith, by linarith⟩
  · have h0 : (0 : ℝ) ≤ min (max x 0) 1 := le_min (le_max_right _ _) (by norm_num)
    have h1 : min (max x 0) 1 ≤ (1 : ℝ) := min_le_right _ _
    rw [abs_of_nonneg h0]; linarith
  · intro _ i; fin_cases i <;> norm_num
  · intro _ i; fin_cases i <;> norm_num

end Diffmah.F32

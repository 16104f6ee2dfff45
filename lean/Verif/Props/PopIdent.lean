import Verif.Props.Limits
import Mathlib.Analysis.Analytic.Uniqueness

/-!
# C143: the predictions of the population model determine its parameters
-/

namespace Diffmah

open JOps Set

namespace Pop

/-! ## Specification -/

/-- `params` has the attributes `names`. -/
def HasAll (params : NT ℝ) (names : List String) : Prop := ∀ n ∈ names, ∃ v, Reads params n v

/-- `p.name` and `q.name` are the same. -/
def Same (p q : NT ℝ) (name : String) : Prop := p.getattr name = q.getattr name

/-- `p.n1` and `p.n2` differ. -/
def Differ (p : NT ℝ) (n1 n2 : String) : Prop := p.getattr n1 ≠ p.getattr n2

/-! ## Lemmas -/

theorem sigmoid_analytic (x0 k a b : ℝ) : AnalyticOnNhd ℝ (fun x => Utils.sigmoid x x0 k a b) univ := by
  intro x _
  have h : AnalyticAt ℝ (fun x : ℝ => k * (x - x0)) x := by fun_prop
  exact analyticAt_const.add (analyticAt_const.mul h.sigmoid')

theorem eq_of_eq_on {f g : ℝ → ℝ} (hf : AnalyticOnNhd ℝ f univ) (hg : AnalyticOnNhd ℝ g univ) {l u : ℝ} (hlu : l < u)
    (h : ∀ x ∈ Ioo l u, f x = g x) : f = g := by
  obtain ⟨z, hz⟩ := exists_between hlu
  refine hf.eq_of_eventuallyEq hg (z₀ := z) ?_
  filter_upwards [Ioo_mem_nhds hz.1 hz.2] with x hx using h x hx

theorem step_unique {k x0 x0' a a' b b' l u : ℝ} (hk : 0 < k) (hlu : l < u)
    (h : ∀ x ∈ Ioo l u, Utils.sigmoid x x0 k a b = Utils.sigmoid x x0' k a' b') :
    a = a' ∧ b = b' ∧ (a ≠ b → x0 = x0') := by
  have e := eq_of_eq_on (sigmoid_analytic x0 k a b) (sigmoid_analytic x0' k a' b') hlu h
  have s := step_sig (x0 := x0) (a := a) (b := b) hk
  have s' := step_sig (x0 := x0') (a := a') (b := b') hk
  rw [e] at s
  have ha := tendsto_nhds_unique s.before s'.before
  have hb := tendsto_nhds_unique s.after s'.after
  refine ⟨ha, hb, fun hab => ?_⟩
  subst ha hb
  have h0 := congrFun e 0
  simp only [sigmoid_val] at h0
  have h1 := mul_left_cancel₀ (sub_ne_zero.2 hab.symm) (add_left_cancel h0)
  have h2 := mul_left_cancel₀ hk.ne' (Real.sigmoid_injective h1)
  linarith

theorem sigmoid_const (x x0 k y : ℝ) : Utils.sigmoid x x0 k y y = y := by rw [sigmoid_val]; ring

/-- Two nested transitions of the same width in one variable, inside one in another -/
theorem corners_unique {k k1 m0 t0 a b c d m0' t0' a' b' c' d' l u l' u' : ℝ} (hk : 0 < k) (hk1 : 0 < k1) (hlu : l < u)
    (hlu' : l' < u')
    (h : ∀ m ∈ Ioo l u, ∀ t ∈ Ioo l' u',
      Utils.sigmoid m m0 k (Utils.sigmoid t t0 k1 a b) (Utils.sigmoid t t0 k1 c d) =
        Utils.sigmoid m m0' k (Utils.sigmoid t t0' k1 a' b') (Utils.sigmoid t t0' k1 c' d')) :
    a = a' ∧ b = b' ∧ c = c' ∧ d = d' ∧ (a ≠ c ∨ b ≠ d → m0 = m0') ∧ (a ≠ b ∨ c ≠ d → t0 = t0') := by
  have key := fun t ht => step_unique hk hlu fun m hm => h m hm t ht
  obtain ⟨ha, hb, hab⟩ := step_unique hk1 hlu' fun t ht => (key t ht).1
  obtain ⟨hc, hd, hcd⟩ := step_unique hk1 hlu' fun t ht => (key t ht).2.1
  refine ⟨ha, hb, hc, hd, fun hne => ?_, fun hne => hne.elim hab hcd⟩
  by_contra hm
  have := step_unique hk1 hlu' (x0 := t0) (x0' := t0) (a := a) (a' := c) (b := b) (b' := d) fun t ht => by
    by_contra hn
    exact hm ((key t ht).2.2 hn)
  rcases hne with hn | hn
  · exact hn this.1
  · exact hn this.2.1

/-- A transition in one variable between transitions in two others -/
theorem three_unique {k k1 k2 m0 x1 a b x2 c d m0' x1' a' b' x2' c' d' l u l1 u1 l2 u2 : ℝ} (hk : 0 < k) (hk1 : 0 < k1)
    (hk2 : 0 < k2) (hlu : l < u) (hlu1 : l1 < u1) (hlu2 : l2 < u2)
    (h : ∀ m ∈ Ioo l u, ∀ s ∈ Ioo l1 u1, ∀ t ∈ Ioo l2 u2,
      Utils.sigmoid m m0 k (Utils.sigmoid s x1 k1 a b) (Utils.sigmoid t x2 k2 c d) =
        Utils.sigmoid m m0' k (Utils.sigmoid s x1' k1 a' b') (Utils.sigmoid t x2' k2 c' d')) :
    a = a' ∧ b = b' ∧ c = c' ∧ d = d' ∧ (a ≠ b → x1 = x1') ∧ (c ≠ d → x2 = x2') ∧ (a ≠ b ∨ c ≠ d ∨ a ≠ c → m0 = m0') := by
  have key := fun s hs t ht => step_unique hk hlu fun m hm => h m hm s hs t ht
  obtain ⟨s0, hs0⟩ := exists_between hlu1
  obtain ⟨r0, hr0⟩ := exists_between hlu2
  obtain ⟨ha, hb, hab⟩ := step_unique hk1 hlu1 fun s hs => (key s hs r0 hr0).1
  obtain ⟨hc, hd, hcd⟩ := step_unique hk2 hlu2 fun t ht => (key s0 hs0 t ht).2.1
  refine ⟨ha, hb, hc, hd, hab, hcd, fun hne => ?_⟩
  by_contra hm
  have eq : ∀ s ∈ Ioo l1 u1, ∀ t ∈ Ioo l2 u2, Utils.sigmoid s x1 k1 a b = Utils.sigmoid t x2 k2 c d := fun s hs t ht => by
    by_contra hn
    exact hm ((key s hs t ht).2.2 hn)
  have e1 := step_unique hk1 hlu1 (x0 := x1) (x0' := 0) (a := a) (b := b) (a' := Utils.sigmoid r0 x2 k2 c d)
    (b' := Utils.sigmoid r0 x2 k2 c d) fun s hs => by rw [sigmoid_const]; exact eq s hs r0 hr0
  have e2 := step_unique hk2 hlu2 (x0 := x2) (x0' := 0) (a := c) (b := d) (a' := Utils.sigmoid s0 x1 k1 a b)
    (b' := Utils.sigmoid s0 x1 k1 a b) fun t ht => by rw [sigmoid_const]; exact (eq s0 hs0 t ht).symm
  have e3 := eq s0 hs0 r0 hr0
  have e12 : a = b := e1.1.trans e1.2.1.symm
  have e34 : c = d := e2.1.trans e2.2.1.symm
  rcases hne with hn | hn | hn
  · exact hn e12
  · exact hn e34
  · exact hn (e1.1.trans (e3.symm.trans e2.1.symm))

/-- A curve through a fixed abscissa whose slope is a transition -/
theorem bends_unique {k x y y' x0 x0' a a' b b' l u : ℝ} (hk : 0 < k) (hlu : l < u)
    (h : ∀ t ∈ Ioo l u, Utils.sig_slope t x y x0 k a b = Utils.sig_slope t x y' x0' k a' b') :
    y = y' ∧ a = a' ∧ b = b' ∧ (a ≠ b → x0 = x0') := by
  have an : ∀ y x0 a b : ℝ, AnalyticOnNhd ℝ (fun t => Utils.sig_slope t x y x0 k a b) univ := by
    intro y x0 a b t ht
    have h1 : AnalyticAt ℝ (fun t : ℝ => t - x) t := by fun_prop
    exact analyticAt_const.add ((sigmoid_analytic x0 k a b t ht).mul h1)
  have e := eq_of_eq_on (an y x0 a b) (an y' x0' a' b') hlu h
  have hy : y = y' := by simpa [Utils.sig_slope] using congrFun e x
  subst hy
  refine ⟨rfl, step_unique hk (lt_add_one x) fun t ht => ?_⟩
  have h1 := congrFun e t
  simp only [Utils.sig_slope] at h1
  exact mul_right_cancel₀ (sub_ne_zero.2 ht.1.ne') (add_left_cancel h1)

theorem clip_inside {v lo hi : ℝ} (h1 : lo < min (max v lo) hi) (h2 : min (max v lo) hi < hi) : min (max v lo) hi = v := by
  rcases min_choice (max v lo) hi with h | h
  · rcases max_choice v lo with h' | h'
    · rw [h, h']
    · rw [h, h'] at h1; exact absurd h1 (lt_irrefl _)
  · rw [h] at h2; exact absurd h2 (lt_irrefl _)

theorem HasAll.get {params : NT ℝ} {names : List String} (h : HasAll params names) {n : String} (hn : n ∈ names := by simp) :
    ∃ v, params.getattr n = .ok v := h n hn

theorem ok_inj {a b : ℝ} (h : (Except.ok a : Except PyErr ℝ) = .ok b) : a = b := Except.ok.inj h

theorem sigmoid_mem {lo hi x x0 k a b : ℝ} (ha : a ∈ Icc lo hi) (hb : b ∈ Icc lo hi) : Utils.sigmoid x x0 k a b ∈ Icc lo hi := by
  have h0 := Real.sigmoid_pos (k * (x - x0))
  have h1 := Real.sigmoid_lt_one (k * (x - x0))
  rw [sigmoid_val]
  constructor
  · nlinarith [ha.1, hb.1, mul_nonneg h0.le (sub_nonneg.2 hb.1), mul_nonneg (sub_nonneg.2 h1.le) (sub_nonneg.2 ha.1)]
  · nlinarith [ha.2, hb.2, mul_nonneg h0.le (sub_nonneg.2 hb.2), mul_nonneg (sub_nonneg.2 h1.le) (sub_nonneg.2 ha.2)]

/-! ## C143 -/

variable {p q : NT ℝ} {m1 m2 t1 t2 : ℝ}

/-- C143, frac_early_cens.py. Two sets of parameters that predict the same fraction of early-forming haloes over some range of
masses and times agree -/
theorem C143_frac_early
    (hp : HasAll p ["fec_lgm_x0", "fec_t_obs_x0", "fec_lgm_ylo_early", "fec_lgm_ylo_late", "fec_lgm_yhi_early", "fec_lgm_yhi_late"])
    (hq : HasAll q ["fec_lgm_x0", "fec_t_obs_x0", "fec_lgm_ylo_early", "fec_lgm_ylo_late", "fec_lgm_yhi_early", "fec_lgm_yhi_late"])
    (hm : m1 < m2) (ht : t1 < t2)
    (h : ∀ lgm ∈ Ioo m1 m2, ∀ t ∈ Ioo t1 t2, frac_early_cens_kern p lgm t = frac_early_cens_kern q lgm t) :
    Same p q "fec_lgm_ylo_early" ∧ Same p q "fec_lgm_ylo_late" ∧ Same p q "fec_lgm_yhi_early" ∧ Same p q "fec_lgm_yhi_late" ∧
      (Differ p "fec_lgm_ylo_early" "fec_lgm_yhi_early" ∨ Differ p "fec_lgm_ylo_late" "fec_lgm_yhi_late" →
        Same p q "fec_lgm_x0") ∧
      (Differ p "fec_lgm_ylo_early" "fec_lgm_ylo_late" ∨ Differ p "fec_lgm_yhi_early" "fec_lgm_yhi_late" →
        Same p q "fec_t_obs_x0") := by
  unfold Same Differ
  obtain ⟨m0, h1⟩ := hp.get (n := "fec_lgm_x0")
  obtain ⟨t0, h2⟩ := hp.get (n := "fec_t_obs_x0")
  obtain ⟨a, h3⟩ := hp.get (n := "fec_lgm_ylo_early")
  obtain ⟨b, h4⟩ := hp.get (n := "fec_lgm_ylo_late")
  obtain ⟨c, h5⟩ := hp.get (n := "fec_lgm_yhi_early")
  obtain ⟨d, h6⟩ := hp.get (n := "fec_lgm_yhi_late")
  obtain ⟨m0', g1⟩ := hq.get (n := "fec_lgm_x0")
  obtain ⟨t0', g2⟩ := hq.get (n := "fec_t_obs_x0")
  obtain ⟨a', g3⟩ := hq.get (n := "fec_lgm_ylo_early")
  obtain ⟨b', g4⟩ := hq.get (n := "fec_lgm_ylo_late")
  obtain ⟨c', g5⟩ := hq.get (n := "fec_lgm_yhi_early")
  obtain ⟨d', g6⟩ := hq.get (n := "fec_lgm_yhi_late")
  have key := corners_unique (k := FEC_LGM_K) (k1 := FEC_T_K) (m0 := m0) (t0 := t0) (a := a) (b := b) (c := c) (d := d)
    (m0' := m0') (t0' := t0') (a' := a') (b' := b') (c' := c') (d' := d')
    (by norm_num [FEC_LGM_K]) (by norm_num [FEC_T_K]) hm ht fun m hm t ht => by
      have e := h m hm t ht
      unfold frac_early_cens_kern at e
      rw [h1, h2, h3, h4, h5, h6, g1, g2, g3, g4, g5, g6] at e
      exact ok_inj e
  simpa only [h1, h2, h3, h4, h5, h6, g1, g2, g3, g4, g5, g6, Except.ok.injEq, ne_eq] using key

/-- The default parameters: every parameter is determined. -/
example {q : NT ℝ}
    (hq : HasAll q ["fec_lgm_x0", "fec_t_obs_x0", "fec_lgm_ylo_early", "fec_lgm_ylo_late", "fec_lgm_yhi_early", "fec_lgm_yhi_late"])
    (h : ∀ lgm ∈ Ioo 12 13, ∀ t ∈ Ioo 5 6, frac_early_cens_kern FEC.pdict lgm t = frac_early_cens_kern q lgm t) :
    ∀ n ∈ FEC.pdict.fields, Same FEC.pdict q n := by
  have hp : HasAll FEC.pdict ["fec_lgm_x0", "fec_t_obs_x0", "fec_lgm_ylo_early", "fec_lgm_ylo_late", "fec_lgm_yhi_early",
      "fec_lgm_yhi_late"] := by
    simp only [HasAll, List.forall_mem_cons]
    exact ⟨⟨_, rfl⟩, ⟨_, rfl⟩, ⟨_, rfl⟩, ⟨_, rfl⟩, ⟨_, rfl⟩, ⟨_, rfl⟩, by simp⟩
  obtain ⟨r1, r2, r3, r4, r5, r6⟩ := C143_frac_early hp hq (by norm_num) (by norm_num) h
  have d1 : Differ FEC.pdict "fec_lgm_ylo_early" "fec_lgm_yhi_early" := by
    change (Except.ok (0.546 : ℝ) : Except PyErr ℝ) ≠ .ok 0.415
    intro h
    norm_num at h
  have d2 : Differ FEC.pdict "fec_lgm_ylo_early" "fec_lgm_ylo_late" := by
    change (Except.ok (0.546 : ℝ) : Except PyErr ℝ) ≠ .ok 0.421
    intro h
    norm_num at h
  intro n hn
  have hn : n ∈ ["fec_t_obs_x0", "fec_lgm_x0", "fec_lgm_ylo_early", "fec_lgm_ylo_late", "fec_lgm_yhi_early",
      "fec_lgm_yhi_late"] := hn
  simp only [List.mem_cons, List.not_mem_nil, or_false] at hn
  rcases hn with rfl | rfl | rfl | rfl | rfl | rfl
  · exact r6 (.inl d2)
  · exact r5 (.inl d1)
  · exact r1
  · exact r2
  · exact r3
  · exact r4

/-- C143, tp_pdf_cens_flex.py. Two sets of parameters that predict the same fraction of peaked centrals at one time, over some range
of masses and times of observation, agree -/
theorem C143_frac_peaked
    (hp : HasAll p ["cen_tp_lgm_x0_x0", "cen_tp_t_obs_x0_x0", "cen_tp_x0_ylo_early", "cen_tp_x0_ylo_late", "cen_tp_x0_yhi_early",
      "cen_tp_x0_yhi_late"])
    (hq : HasAll q ["cen_tp_lgm_x0_x0", "cen_tp_t_obs_x0_x0", "cen_tp_x0_ylo_early", "cen_tp_x0_ylo_late", "cen_tp_x0_yhi_early",
      "cen_tp_x0_yhi_late"])
    (hm : m1 < m2) (ht : t1 < t2) {utp : ℝ}
    (h : ∀ lgm ∈ Ioo m1 m2, ∀ t ∈ Ioo t1 t2, TPeak.frac_peaked_vs_lgm p [utp] lgm t = TPeak.frac_peaked_vs_lgm q [utp] lgm t) :
    Same p q "cen_tp_x0_ylo_early" ∧ Same p q "cen_tp_x0_yhi_early" ∧ Same p q "cen_tp_x0_ylo_late" ∧
      Same p q "cen_tp_x0_yhi_late" ∧
      (Differ p "cen_tp_x0_ylo_early" "cen_tp_x0_ylo_late" ∨ Differ p "cen_tp_x0_yhi_early" "cen_tp_x0_yhi_late" →
        Same p q "cen_tp_t_obs_x0_x0") ∧
      (Differ p "cen_tp_x0_ylo_early" "cen_tp_x0_yhi_early" ∨ Differ p "cen_tp_x0_ylo_late" "cen_tp_x0_yhi_late" →
        Same p q "cen_tp_lgm_x0_x0") := by
  unfold Same Differ
  obtain ⟨m0, h1⟩ := hp.get (n := "cen_tp_lgm_x0_x0")
  obtain ⟨t0, h2⟩ := hp.get (n := "cen_tp_t_obs_x0_x0")
  obtain ⟨a, h3⟩ := hp.get (n := "cen_tp_x0_ylo_early")
  obtain ⟨b, h4⟩ := hp.get (n := "cen_tp_x0_ylo_late")
  obtain ⟨c, h5⟩ := hp.get (n := "cen_tp_x0_yhi_early")
  obtain ⟨d, h6⟩ := hp.get (n := "cen_tp_x0_yhi_late")
  obtain ⟨m0', g1⟩ := hq.get (n := "cen_tp_lgm_x0_x0")
  obtain ⟨t0', g2⟩ := hq.get (n := "cen_tp_t_obs_x0_x0")
  obtain ⟨a', g3⟩ := hq.get (n := "cen_tp_x0_ylo_early")
  obtain ⟨b', g4⟩ := hq.get (n := "cen_tp_x0_ylo_late")
  obtain ⟨c', g5⟩ := hq.get (n := "cen_tp_x0_yhi_early")
  obtain ⟨d', g6⟩ := hq.get (n := "cen_tp_x0_yhi_late")
  have key := corners_unique (k := 2.0) (k1 := 1.0) (m0 := t0) (t0 := m0) (a := a) (b := c) (c := b) (d := d)
    (m0' := t0') (t0' := m0') (a' := a') (b' := c') (c' := b') (d' := d') (by norm_num) (by norm_num) ht hm
    fun t ht m hm => by
      have e := h m hm t ht
      unfold TPeak.frac_peaked_vs_lgm TPeak.get_utp_x0_from_lgm at e
      rw [h1, h2, h3, h4, h5, h6, g1, g2, g3, g4, g5, g6] at e
      have e1 := Except.ok.inj e
      simp only [List.map_cons, List.map_nil, List.cons.injEq, and_true] at e1
      rw [sigmoid_val, sigmoid_val] at e1
      have e2 := mul_left_cancel₀ (by change (1.0 : ℝ) - 0.0 ≠ 0; norm_num) (add_left_cancel e1)
      have e3 := mul_left_cancel₀ (by change (5.0 : ℝ) ≠ 0; norm_num) (Real.sigmoid_injective e2)
      exact sub_right_injective e3
  simpa only [h1, h2, h3, h4, h5, h6, g1, g2, g3, g4, g5, g6, Except.ok.injEq, ne_eq] using key

/-- The default parameters have the attributes, and the limits differ. -/
example : HasAll TPeak.TPCENS.pdict ["cen_tp_lgm_x0_x0", "cen_tp_t_obs_x0_x0", "cen_tp_x0_ylo_early", "cen_tp_x0_ylo_late",
      "cen_tp_x0_yhi_early", "cen_tp_x0_yhi_late"] ∧
    Differ TPeak.TPCENS.pdict "cen_tp_x0_ylo_early" "cen_tp_x0_ylo_late" ∧
    Differ TPeak.TPCENS.pdict "cen_tp_x0_ylo_early" "cen_tp_x0_yhi_early" := by
  refine ⟨?_, ?_, ?_⟩
  · simp only [HasAll, List.forall_mem_cons]
    exact ⟨⟨_, rfl⟩, ⟨_, rfl⟩, ⟨_, rfl⟩, ⟨_, rfl⟩, ⟨_, rfl⟩, ⟨_, rfl⟩, by simp⟩
  · change (Except.ok (0.99 : ℝ) : Except PyErr ℝ) ≠ .ok 0.690
    intro h
    norm_num at h
  · change (Except.ok (0.99 : ℝ) : Except PyErr ℝ) ≠ .ok 1.750
    intro h
    norm_num at h

/-- C143, tp_pdf_sats.py. Two sets of parameters that predict the same location of satellite peak times over some range of masses and
times of observation agree in the parameters of the location -/
theorem C143_sats_loc
    (hp : HasAll p ["utp_loc_lgm_x0", "utp_loc_lgm_ylo_t0", "utp_loc_lgm_ylo_early", "utp_loc_lgm_ylo_late"])
    (hq : HasAll q ["utp_loc_lgm_x0", "utp_loc_lgm_ylo_t0", "utp_loc_lgm_ylo_early", "utp_loc_lgm_ylo_late"])
    (hm : m1 < m2) (ht : t1 < t2)
    (h : ∀ lgm ∈ Ioo m1 m2, ∀ t ∈ Ioo t1 t2, TPeak.get_utp_loc p lgm t = TPeak.get_utp_loc q lgm t) :
    Same p q "utp_loc_lgm_ylo_early" ∧ Same p q "utp_loc_lgm_ylo_late" ∧
      (¬ Reads p "utp_loc_lgm_ylo_early" 0.95 ∨ ¬ Reads p "utp_loc_lgm_ylo_late" 0.95 → Same p q "utp_loc_lgm_x0") ∧
      (Differ p "utp_loc_lgm_ylo_early" "utp_loc_lgm_ylo_late" → Same p q "utp_loc_lgm_ylo_t0") := by
  unfold Same Differ Reads
  obtain ⟨m0, h1⟩ := hp.get (n := "utp_loc_lgm_x0")
  obtain ⟨t0, h2⟩ := hp.get (n := "utp_loc_lgm_ylo_t0")
  obtain ⟨a, h3⟩ := hp.get (n := "utp_loc_lgm_ylo_early")
  obtain ⟨b, h4⟩ := hp.get (n := "utp_loc_lgm_ylo_late")
  obtain ⟨m0', g1⟩ := hq.get (n := "utp_loc_lgm_x0")
  obtain ⟨t0', g2⟩ := hq.get (n := "utp_loc_lgm_ylo_t0")
  obtain ⟨a', g3⟩ := hq.get (n := "utp_loc_lgm_ylo_early")
  obtain ⟨b', g4⟩ := hq.get (n := "utp_loc_lgm_ylo_late")
  have key := corners_unique (k := 1.5) (k1 := 0.4) (m0 := m0) (t0 := t0) (a := a) (b := b) (c := 0.95) (d := 0.95)
    (m0' := m0') (t0' := t0') (a' := a') (b' := b') (c' := 0.95) (d' := 0.95)
    (by norm_num) (by norm_num) hm ht fun m hm t ht => by
      have e := h m hm t ht
      unfold TPeak.get_utp_loc TPeak.get_utp_loc_lgm_ylo at e
      rw [h1, h2, h3, h4, g1, g2, g3, g4] at e
      rw [sigmoid_const, sigmoid_const]
      exact ok_inj e
  simp only [h1, h2, h3, h4, g1, g2, g3, g4, Except.ok.injEq, ne_eq]
  exact ⟨key.1, key.2.1, key.2.2.2.2.1, fun hn => key.2.2.2.2.2 (.inl hn)⟩

/-- C143, tp_pdf_sats.py. As `C143_sats_loc`, for the scale -/
theorem C143_sats_scale
    (hp : HasAll p ["utp_scale_lgm_ylo_t0", "utp_scale_lgm_ylo_early", "utp_scale_lgm_ylo_late"])
    (hq : HasAll q ["utp_scale_lgm_ylo_t0", "utp_scale_lgm_ylo_early", "utp_scale_lgm_ylo_late"])
    (hm : m1 < m2) (ht : t1 < t2)
    (h : ∀ lgm ∈ Ioo m1 m2, ∀ t ∈ Ioo t1 t2, TPeak.get_utp_scale p lgm t = TPeak.get_utp_scale q lgm t) :
    Same p q "utp_scale_lgm_ylo_early" ∧ Same p q "utp_scale_lgm_ylo_late" ∧
      (Differ p "utp_scale_lgm_ylo_early" "utp_scale_lgm_ylo_late" → Same p q "utp_scale_lgm_ylo_t0") := by
  unfold Same Differ
  obtain ⟨t0, h2⟩ := hp.get (n := "utp_scale_lgm_ylo_t0")
  obtain ⟨a, h3⟩ := hp.get (n := "utp_scale_lgm_ylo_early")
  obtain ⟨b, h4⟩ := hp.get (n := "utp_scale_lgm_ylo_late")
  obtain ⟨t0', g2⟩ := hq.get (n := "utp_scale_lgm_ylo_t0")
  obtain ⟨a', g3⟩ := hq.get (n := "utp_scale_lgm_ylo_early")
  obtain ⟨b', g4⟩ := hq.get (n := "utp_scale_lgm_ylo_late")
  have key := corners_unique (k := 1.0) (k1 := 1.0) (m0 := 12.0) (t0 := t0) (a := a) (b := b) (c := 0.16) (d := 0.16)
    (m0' := 12.0) (t0' := t0') (a' := a') (b' := b') (c' := 0.16) (d' := 0.16)
    (by norm_num) (by norm_num) hm ht fun m hm t ht => by
      have e := h m hm t ht
      unfold TPeak.get_utp_scale TPeak.get_utp_scale_lgm_ylo at e
      rw [h2, h3, h4, g2, g3, g4] at e
      rw [sigmoid_const, sigmoid_const]
      exact ok_inj e
  simp only [h2, h3, h4, g2, g3, g4, Except.ok.injEq, ne_eq]
  exact ⟨key.1, key.2.1, fun hn => key.2.2.2.2.2 (.inl hn)⟩

/-- The default parameters have the attributes, and the limits differ. -/
example : HasAll TPeak.TPSATS.pdict ["utp_loc_lgm_x0", "utp_loc_lgm_ylo_t0", "utp_loc_lgm_ylo_early", "utp_loc_lgm_ylo_late"] ∧
    HasAll TPeak.TPSATS.pdict ["utp_scale_lgm_ylo_t0", "utp_scale_lgm_ylo_early", "utp_scale_lgm_ylo_late"] ∧
    Differ TPeak.TPSATS.pdict "utp_loc_lgm_ylo_early" "utp_loc_lgm_ylo_late" ∧
    Differ TPeak.TPSATS.pdict "utp_scale_lgm_ylo_early" "utp_scale_lgm_ylo_late" ∧
    ¬ Reads TPeak.TPSATS.pdict "utp_loc_lgm_ylo_late" 0.95 := by
  refine ⟨?_, ?_, ?_, ?_, ?_⟩
  · simp only [HasAll, List.forall_mem_cons]
    exact ⟨⟨_, rfl⟩, ⟨_, rfl⟩, ⟨_, rfl⟩, ⟨_, rfl⟩, by simp⟩
  · simp only [HasAll, List.forall_mem_cons]
    exact ⟨⟨_, rfl⟩, ⟨_, rfl⟩, ⟨_, rfl⟩, by simp⟩
  · change (Except.ok (0.797 : ℝ) : Except PyErr ℝ) ≠ .ok 0.160
    intro h
    norm_num at h
  · change (Except.ok (0.105 : ℝ) : Except PyErr ℝ) ≠ .ok 0.334
    intro h
    norm_num at h
  · change ¬ (Except.ok (0.160 : ℝ) : Except PyErr ℝ) = .ok 0.95
    intro h
    norm_num at h

/-- C143, early_index_*.py (`sfx` is `"_alpha"`, `"_beta"` or empty). Two sets of parameters that predict the same mean early index,
off the limits to which it is clipped, over some range of masses, times of observation and peak times, agree -/
theorem C143_early_index {sfx : String} {s1 s2 : ℝ}
    (hp : HasAll p ["early_index_ylo_x0" ++ sfx, "early_index_ylo_ylo" ++ sfx, "early_index_ylo_yhi" ++ sfx,
      "early_index_yhi_x0" ++ sfx, "early_index_yhi_ylo" ++ sfx, "early_index_yhi_yhi" ++ sfx, "early_index_lgm_x0" ++ sfx])
    (hq : HasAll q ["early_index_ylo_x0" ++ sfx, "early_index_ylo_ylo" ++ sfx, "early_index_ylo_yhi" ++ sfx,
      "early_index_yhi_x0" ++ sfx, "early_index_yhi_ylo" ++ sfx, "early_index_yhi_yhi" ++ sfx, "early_index_lgm_x0" ++ sfx])
    (hm : m1 < m2) (ht : t1 < t2) (hs : s1 < s2)
    (h : ∀ lgm ∈ Ioo m1 m2, ∀ t_obs ∈ Ioo t1 t2, ∀ t_peak ∈ Ioo s1 s2, ∃ v, 0.101 < v ∧ v < 9.999 ∧
      pred_early_index_kern sfx p lgm t_obs t_peak = .ok v ∧ pred_early_index_kern sfx q lgm t_obs t_peak = .ok v) :
    Same p q ("early_index_ylo_ylo" ++ sfx) ∧ Same p q ("early_index_ylo_yhi" ++ sfx) ∧ Same p q ("early_index_yhi_ylo" ++ sfx) ∧
      Same p q ("early_index_yhi_yhi" ++ sfx) ∧
      (Differ p ("early_index_ylo_ylo" ++ sfx) ("early_index_ylo_yhi" ++ sfx) → Same p q ("early_index_ylo_x0" ++ sfx)) ∧
      (Differ p ("early_index_yhi_ylo" ++ sfx) ("early_index_yhi_yhi" ++ sfx) → Same p q ("early_index_yhi_x0" ++ sfx)) ∧
      (Differ p ("early_index_ylo_ylo" ++ sfx) ("early_index_ylo_yhi" ++ sfx) ∨
        Differ p ("early_index_yhi_ylo" ++ sfx) ("early_index_yhi_yhi" ++ sfx) ∨
        Differ p ("early_index_ylo_ylo" ++ sfx) ("early_index_yhi_ylo" ++ sfx) → Same p q ("early_index_lgm_x0" ++ sfx)) := by
  unfold Same Differ
  obtain ⟨x1, h1⟩ := hp.get (n := "early_index_ylo_x0" ++ sfx)
  obtain ⟨a, h2⟩ := hp.get (n := "early_index_ylo_ylo" ++ sfx)
  obtain ⟨b, h3⟩ := hp.get (n := "early_index_ylo_yhi" ++ sfx)
  obtain ⟨x2, h4⟩ := hp.get (n := "early_index_yhi_x0" ++ sfx)
  obtain ⟨c, h5⟩ := hp.get (n := "early_index_yhi_ylo" ++ sfx)
  obtain ⟨d, h6⟩ := hp.get (n := "early_index_yhi_yhi" ++ sfx)
  obtain ⟨m0, h7⟩ := hp.get (n := "early_index_lgm_x0" ++ sfx)
  obtain ⟨x1', g1⟩ := hq.get (n := "early_index_ylo_x0" ++ sfx)
  obtain ⟨a', g2⟩ := hq.get (n := "early_index_ylo_ylo" ++ sfx)
  obtain ⟨b', g3⟩ := hq.get (n := "early_index_ylo_yhi" ++ sfx)
  obtain ⟨x2', g4⟩ := hq.get (n := "early_index_yhi_x0" ++ sfx)
  obtain ⟨c', g5⟩ := hq.get (n := "early_index_yhi_ylo" ++ sfx)
  obtain ⟨d', g6⟩ := hq.get (n := "early_index_yhi_yhi" ++ sfx)
  obtain ⟨m0', g7⟩ := hq.get (n := "early_index_lgm_x0" ++ sfx)
  have lo : MAH_PBOUNDS.early_index.1 + EPS = 0.101 := by norm_num [MAH_PBOUNDS, EPS]
  have hi : MAH_PBOUNDS.early_index.2 - EPS = 9.999 := by norm_num [MAH_PBOUNDS, EPS]
  have key := three_unique (k := 1.0) (k1 := 1.0) (k2 := 0.5) (m0 := m0) (x1 := x1) (a := a) (b := b) (x2 := x2) (c := c)
    (d := d) (m0' := m0') (x1' := x1') (a' := a') (b' := b') (x2' := x2') (c' := c') (d' := d')
    (by norm_num) (by norm_num) (by norm_num) hm hs ht fun m hm s hs t ht => by
      obtain ⟨v, v1, v2, e1, e2⟩ := h m hm t ht s hs
      unfold pred_early_index_kern at e1 e2
      rw [h1, h2, h3, h4, h5, h6, h7] at e1
      rw [g1, g2, g3, g4, g5, g6, g7] at e2
      have e1 : min (max (Utils.sigmoid m m0 1.0 (Utils.sigmoid s x1 1.0 a b) (Utils.sigmoid t x2 0.5 c d))
        (MAH_PBOUNDS.early_index.1 + EPS)) (MAH_PBOUNDS.early_index.2 - EPS) = v := ok_inj e1
      have e2 : min (max (Utils.sigmoid m m0' 1.0 (Utils.sigmoid s x1' 1.0 a' b') (Utils.sigmoid t x2' 0.5 c' d'))
        (MAH_PBOUNDS.early_index.1 + EPS)) (MAH_PBOUNDS.early_index.2 - EPS) = v := ok_inj e2
      rw [lo, hi] at e1 e2
      have i1 := clip_inside (by rw [e1]; exact v1) (by rw [e1]; exact v2)
      have i2 := clip_inside (by rw [e2]; exact v1) (by rw [e2]; exact v2)
      rw [← i1, e1, ← i2, e2]
  simpa only [h1, h2, h3, h4, h5, h6, h7, g1, g2, g3, g4, g5, g6, g7, Except.ok.injEq, ne_eq] using key

/-- The default parameters have the attributes, and the predictions are off the limits. -/
example : HasAll EARLY_INDEX_ALPHA.pdict ["early_index_ylo_x0_alpha", "early_index_ylo_ylo_alpha", "early_index_ylo_yhi_alpha",
      "early_index_yhi_x0_alpha", "early_index_yhi_ylo_alpha", "early_index_yhi_yhi_alpha", "early_index_lgm_x0_alpha"] ∧
    ∀ lgm t_obs t_peak : ℝ, ∃ v, 0.101 < v ∧ v < 9.999 ∧
      pred_early_index_kern "_alpha" EARLY_INDEX_ALPHA.pdict lgm t_obs t_peak = .ok v := by
  constructor
  · simp only [HasAll, List.forall_mem_cons]
    exact ⟨⟨_, rfl⟩, ⟨_, rfl⟩, ⟨_, rfl⟩, ⟨_, rfl⟩, ⟨_, rfl⟩, ⟨_, rfl⟩, ⟨_, rfl⟩, by simp⟩
  · intro m t s
    have hv := sigmoid_mem (lo := 2) (hi := 5) (x := m) (x0 := 12.918) (k := 1.0)
      (sigmoid_mem (x := s) (x0 := 4.319) (k := 1.0) (a := 3.49) (b := 2.985) (by constructor <;> norm_num)
        (by constructor <;> norm_num))
      (sigmoid_mem (x := t) (x0 := 10.405) (k := 0.5) (a := 3.950) (b := 3.665) (by constructor <;> norm_num)
        (by constructor <;> norm_num))
    have e : pred_early_index_kern "_alpha" EARLY_INDEX_ALPHA.pdict m t s = .ok (min (max (Utils.sigmoid m 12.918 1.0
        (Utils.sigmoid s 4.319 1.0 3.49 2.985) (Utils.sigmoid t 10.405 0.5 3.950 3.665)) (MAH_PBOUNDS.early_index.1 + EPS))
        (MAH_PBOUNDS.early_index.2 - EPS)) := rfl
    rw [show MAH_PBOUNDS.early_index.1 + EPS = 0.101 by norm_num [MAH_PBOUNDS, EPS],
      show MAH_PBOUNDS.early_index.2 - EPS = 9.999 by norm_num [MAH_PBOUNDS, EPS], max_eq_left (by linarith [hv.1]),
      min_eq_left (by linarith [hv.2])] at e
    exact ⟨_, by linarith [hv.1], by linarith [hv.2], e⟩

/-- C143, late_index_*.py (`sfx` is `"_alpha"`, `"_beta"` or empty). As `C143_early_index`, for the mean late index -/
theorem C143_late_index {sfx : String}
    (hp : HasAll p ["late_index_x0" ++ sfx, "late_index_ylo" ++ sfx, "late_index_yhi" ++ sfx])
    (hq : HasAll q ["late_index_x0" ++ sfx, "late_index_ylo" ++ sfx, "late_index_yhi" ++ sfx])
    (hm : m1 < m2)
    (h : ∀ lgm ∈ Ioo m1 m2, ∃ v, 0.101 < v ∧ v < 4.999 ∧ pred_late_index_kern sfx p lgm = .ok v ∧
      pred_late_index_kern sfx q lgm = .ok v) :
    Same p q ("late_index_ylo" ++ sfx) ∧ Same p q ("late_index_yhi" ++ sfx) ∧
      (Differ p ("late_index_ylo" ++ sfx) ("late_index_yhi" ++ sfx) → Same p q ("late_index_x0" ++ sfx)) := by
  unfold Same Differ
  obtain ⟨x0, h1⟩ := hp.get (n := "late_index_x0" ++ sfx)
  obtain ⟨a, h2⟩ := hp.get (n := "late_index_ylo" ++ sfx)
  obtain ⟨b, h3⟩ := hp.get (n := "late_index_yhi" ++ sfx)
  obtain ⟨x0', g1⟩ := hq.get (n := "late_index_x0" ++ sfx)
  obtain ⟨a', g2⟩ := hq.get (n := "late_index_ylo" ++ sfx)
  obtain ⟨b', g3⟩ := hq.get (n := "late_index_yhi" ++ sfx)
  have lo : MAH_PBOUNDS.late_index.1 + EPS = 0.101 := by norm_num [MAH_PBOUNDS, EPS]
  have hi : MAH_PBOUNDS.late_index.2 - EPS = 4.999 := by norm_num [MAH_PBOUNDS, EPS]
  have key := step_unique (k := 1.0) (x0 := x0) (x0' := x0') (a := a) (a' := a') (b := b) (b' := b') (by norm_num) hm
    fun m hm => by
      obtain ⟨v, v1, v2, e1, e2⟩ := h m hm
      unfold pred_late_index_kern at e1 e2
      rw [h1, h2, h3] at e1
      rw [g1, g2, g3] at e2
      have e1 : min (max (Utils.sigmoid m x0 1.0 a b) (MAH_PBOUNDS.late_index.1 + EPS)) (MAH_PBOUNDS.late_index.2 - EPS) = v :=
        ok_inj e1
      have e2 : min (max (Utils.sigmoid m x0' 1.0 a' b') (MAH_PBOUNDS.late_index.1 + EPS)) (MAH_PBOUNDS.late_index.2 - EPS) = v :=
        ok_inj e2
      rw [lo, hi] at e1 e2
      have i1 := clip_inside (by rw [e1]; exact v1) (by rw [e1]; exact v2)
      have i2 := clip_inside (by rw [e2]; exact v1) (by rw [e2]; exact v2)
      rw [← i1, e1, ← i2, e2]
  simpa only [h1, h2, h3, g1, g2, g3, Except.ok.injEq, ne_eq] using key

/-- Parameters whose limits differ have the attributes, and the predictions are off the limits. -/
example : HasAll [("late_index_x0_beta", 12), ("late_index_ylo_beta", 0.12), ("late_index_yhi_beta", 0.18)]
      ["late_index_x0_beta", "late_index_ylo_beta", "late_index_yhi_beta"] ∧
    ∀ lgm : ℝ, ∃ v, 0.101 < v ∧ v < 4.999 ∧ pred_late_index_kern "_beta"
      [("late_index_x0_beta", 12), ("late_index_ylo_beta", 0.12), ("late_index_yhi_beta", 0.18)] lgm = .ok v := by
  constructor
  · simp only [HasAll, List.forall_mem_cons]
    exact ⟨⟨_, rfl⟩, ⟨_, rfl⟩, ⟨_, rfl⟩, by simp⟩
  · intro m
    have hv := sigmoid_mem (lo := 0.11) (hi := 1) (x := m) (x0 := 12) (k := 1.0) (a := 0.12) (b := 0.18)
      (by constructor <;> norm_num) (by constructor <;> norm_num)
    have e : pred_late_index_kern "_beta" [("late_index_x0_beta", 12), ("late_index_ylo_beta", 0.12),
        ("late_index_yhi_beta", 0.18)] m = .ok (min (max (Utils.sigmoid m 12 1.0 0.12 0.18) (MAH_PBOUNDS.late_index.1 + EPS))
        (MAH_PBOUNDS.late_index.2 - EPS)) := rfl
    rw [show MAH_PBOUNDS.late_index.1 + EPS = 0.101 by norm_num [MAH_PBOUNDS, EPS],
      show MAH_PBOUNDS.late_index.2 - EPS = 4.999 by norm_num [MAH_PBOUNDS, EPS], max_eq_left (by linarith [hv.1]),
      min_eq_left (by linarith [hv.2])] at e
    exact ⟨_, by linarith [hv.1], by linarith [hv.2], e⟩

/-- C143, late_index_*.py. The condition on the half-way mass cannot be left out: the limits are the same by default, and then every
half-way mass gives the same predictions. -/
theorem C143_late_index_default (x0 lgm : ℝ) :
    pred_late_index_early [("late_index_x0_alpha", x0), ("late_index_ylo_alpha", 0.190), ("late_index_yhi_alpha", 0.190)] lgm =
      pred_late_index_early LATE_INDEX_ALPHA.pdict lgm := by
  have e : ∀ x0 : ℝ, pred_late_index_early
      [("late_index_x0_alpha", x0), ("late_index_ylo_alpha", 0.190), ("late_index_yhi_alpha", 0.190)] lgm =
        .ok (min (max (Utils.sigmoid lgm x0 1.0 0.190 0.190) (MAH_PBOUNDS.late_index.1 + EPS))
          (MAH_PBOUNDS.late_index.2 - EPS)) := fun x0 => rfl
  have e' : pred_late_index_early LATE_INDEX_ALPHA.pdict lgm =
        .ok (min (max (Utils.sigmoid lgm 11.567 1.0 0.190 0.190) (MAH_PBOUNDS.late_index.1 + EPS))
          (MAH_PBOUNDS.late_index.2 - EPS)) := rfl
  rw [e, e', sigmoid_const, sigmoid_const]

/-- C143, logtc_*.py (`sfx` is `"_early"` or `"_late"`). As `C143_early_index`, for the mean transition time -/
theorem C143_logtc {sfx : String} {s1 s2 : ℝ}
    (hp : HasAll p ["logtc_lgm_c0_tp_ytp_tobs_c0" ++ sfx, "logtc_lgm_c0_tp_ytp_tobs_c1" ++ sfx, "logtc_lgm_c0_tp_ylo" ++ sfx,
      "logtc_lgm_c0_tp_yhi" ++ sfx, "logtc_lgm_c1" ++ sfx, "logtc_c0_ss_x0" ++ sfx])
    (hq : HasAll q ["logtc_lgm_c0_tp_ytp_tobs_c0" ++ sfx, "logtc_lgm_c0_tp_ytp_tobs_c1" ++ sfx, "logtc_lgm_c0_tp_ylo" ++ sfx,
      "logtc_lgm_c0_tp_yhi" ++ sfx, "logtc_lgm_c1" ++ sfx, "logtc_c0_ss_x0" ++ sfx])
    (hm : m1 < m2) (ht : t1 < t2) (hs : s1 < s2)
    (h : ∀ lgm ∈ Ioo m1 m2, ∀ t_obs ∈ Ioo t1 t2, ∀ t_peak ∈ Ioo s1 s2, ∃ v, -0.999 < v ∧ v < 0.999 ∧
      pred_logtc_kern sfx p lgm t_obs t_peak = .ok v ∧ pred_logtc_kern sfx q lgm t_obs t_peak = .ok v) :
    Same p q ("logtc_lgm_c0_tp_ytp_tobs_c0" ++ sfx) ∧ Same p q ("logtc_lgm_c0_tp_ytp_tobs_c1" ++ sfx) ∧
      Same p q ("logtc_lgm_c0_tp_ylo" ++ sfx) ∧ Same p q ("logtc_lgm_c0_tp_yhi" ++ sfx) ∧ Same p q ("logtc_lgm_c1" ++ sfx) ∧
      (Differ p ("logtc_lgm_c0_tp_ylo" ++ sfx) ("logtc_lgm_c0_tp_yhi" ++ sfx) → Same p q ("logtc_c0_ss_x0" ++ sfx)) := by
  unfold Same Differ
  obtain ⟨a, h1⟩ := hp.get (n := "logtc_lgm_c0_tp_ytp_tobs_c0" ++ sfx)
  obtain ⟨b, h2⟩ := hp.get (n := "logtc_lgm_c0_tp_ytp_tobs_c1" ++ sfx)
  obtain ⟨c, h3⟩ := hp.get (n := "logtc_lgm_c0_tp_ylo" ++ sfx)
  obtain ⟨d, h4⟩ := hp.get (n := "logtc_lgm_c0_tp_yhi" ++ sfx)
  obtain ⟨e, h5⟩ := hp.get (n := "logtc_lgm_c1" ++ sfx)
  obtain ⟨x0, h6⟩ := hp.get (n := "logtc_c0_ss_x0" ++ sfx)
  obtain ⟨a', g1⟩ := hq.get (n := "logtc_lgm_c0_tp_ytp_tobs_c0" ++ sfx)
  obtain ⟨b', g2⟩ := hq.get (n := "logtc_lgm_c0_tp_ytp_tobs_c1" ++ sfx)
  obtain ⟨c', g3⟩ := hq.get (n := "logtc_lgm_c0_tp_ylo" ++ sfx)
  obtain ⟨d', g4⟩ := hq.get (n := "logtc_lgm_c0_tp_yhi" ++ sfx)
  obtain ⟨e', g5⟩ := hq.get (n := "logtc_lgm_c1" ++ sfx)
  obtain ⟨x0', g6⟩ := hq.get (n := "logtc_c0_ss_x0" ++ sfx)
  have lo : MAH_PBOUNDS.logtc.1 + EPS = -0.999 := by norm_num [MAH_PBOUNDS, EPS]
  have hi : MAH_PBOUNDS.logtc.2 - EPS = 0.999 := by norm_num [MAH_PBOUNDS, EPS]
  have eq : ∀ m ∈ Ioo m1 m2, ∀ t ∈ Ioo t1 t2, ∀ s ∈ Ioo s1 s2,
      Utils.sig_slope s 10.0 (a + b * t) x0 0.5 c d + e * (m - 12.0) =
        Utils.sig_slope s 10.0 (a' + b' * t) x0' 0.5 c' d' + e' * (m - 12.0) := by
    intro m hm t ht s hs
    obtain ⟨v, v1, v2, e1, e2⟩ := h m hm t ht s hs
    unfold pred_logtc_kern logtc_get_c0 at e1 e2
    rw [h1, h2, h3, h4, h5, h6] at e1
    rw [g1, g2, g3, g4, g5, g6] at e2
    have e1 : min (max (Utils.sig_slope s 10.0 (a + b * t) x0 0.5 c d + e * (m - 12.0))
      (MAH_PBOUNDS.logtc.1 + EPS)) (MAH_PBOUNDS.logtc.2 - EPS) = v := ok_inj e1
    have e2 : min (max (Utils.sig_slope s 10.0 (a' + b' * t) x0' 0.5 c' d' + e' * (m - 12.0))
      (MAH_PBOUNDS.logtc.1 + EPS)) (MAH_PBOUNDS.logtc.2 - EPS) = v := ok_inj e2
    rw [lo, hi] at e1 e2
    have i1 := clip_inside (by rw [e1]; exact v1) (by rw [e1]; exact v2)
    have i2 := clip_inside (by rw [e2]; exact v1) (by rw [e2]; exact v2)
    rw [← i1, e1, ← i2, e2]
  have he : e = e' := by
    obtain ⟨ma, hma⟩ := exists_between hm
    obtain ⟨mb, hmb⟩ := exists_between hma.2
    obtain ⟨t, ht⟩ := exists_between ht
    obtain ⟨s, hs⟩ := exists_between hs
    have ea := eq ma hma t ht s hs
    have eb := eq mb ⟨hma.1.trans hmb.1, hmb.2⟩ t ht s hs
    have : (e - e') * (mb - ma) = 0 := by linarith
    rcases mul_eq_zero.1 this with h | h
    · linarith
    · linarith [hmb.1]
  subst he
  obtain ⟨m, hm⟩ := exists_between hm
  have bu := fun t ht => bends_unique (k := 0.5) (by norm_num) hs fun s hs => add_right_cancel (eq m hm t ht s hs)
  obtain ⟨ta, hta⟩ := exists_between ht
  obtain ⟨tb, htb⟩ := exists_between hta.2
  obtain ⟨ya, hc, hd, hx⟩ := bu ta hta
  have yb := (bu tb ⟨hta.1.trans htb.1, htb.2⟩).1
  have hb : b = b' := by
    have : (b - b') * (tb - ta) = 0 := by linarith
    rcases mul_eq_zero.1 this with h | h
    · linarith
    · linarith [htb.1]
  subst hb
  have ha : a = a' := by linarith
  simp only [h1, h2, h3, h4, h5, h6, g1, g2, g3, g4, g5, g6, Except.ok.injEq, ne_eq]
  exact ⟨ha, trivial, hc, hd, trivial, hx⟩

/-- The default parameters have the attributes, and predictions are off the limits near 10^12 Msun and a peak at 10 Gyr. -/
example : HasAll LOGTC_EARLY.pdict ["logtc_lgm_c0_tp_ytp_tobs_c0_early", "logtc_lgm_c0_tp_ytp_tobs_c1_early",
      "logtc_lgm_c0_tp_ylo_early", "logtc_lgm_c0_tp_yhi_early", "logtc_lgm_c1_early", "logtc_c0_ss_x0_early"] ∧
    ∀ lgm ∈ Ioo (12 : ℝ) 13, ∀ t_obs ∈ Ioo (12 : ℝ) 13, ∀ t_peak ∈ Ioo (10 : ℝ) 11, ∃ v, -0.999 < v ∧ v < 0.999 ∧
      pred_logtc_kern "_early" LOGTC_EARLY.pdict lgm t_obs t_peak = .ok v := by
  constructor
  · simp only [HasAll, List.forall_mem_cons]
    exact ⟨⟨_, rfl⟩, ⟨_, rfl⟩, ⟨_, rfl⟩, ⟨_, rfl⟩, ⟨_, rfl⟩, ⟨_, rfl⟩, by simp⟩
  · intro m hm t ht s hs
    have hv := sigmoid_mem (lo := -0.21) (hi := 0.07) (x := s) (x0 := 12.221) (k := 0.5) (a := 0.069) (b := -0.201)
      (by constructor <;> norm_num) (by constructor <;> norm_num)
    have e : pred_logtc_kern "_early" LOGTC_EARLY.pdict m t s = .ok (min (max ((0.447 + 0.002 * t) +
        Utils.sigmoid s 12.221 0.5 0.069 (-0.201) * (s - 10.0) + 0.130 * (m - 12.0)) (MAH_PBOUNDS.logtc.1 + EPS))
        (MAH_PBOUNDS.logtc.2 - EPS)) := rfl
    have h1 : -0.21 ≤ Utils.sigmoid s 12.221 0.5 0.069 (-0.201) * (s - 10.0) := by nlinarith [hv.1, hs.1, hs.2]
    have h2 : Utils.sigmoid s 12.221 0.5 0.069 (-0.201) * (s - 10.0) ≤ 0.07 := by nlinarith [hv.2, hs.1, hs.2]
    have h3 : -0.999 < (0.447 + 0.002 * t) + Utils.sigmoid s 12.221 0.5 0.069 (-0.201) * (s - 10.0) + 0.130 * (m - 12.0) := by
      linarith [hm.1, ht.1]
    have h4 : (0.447 + 0.002 * t) + Utils.sigmoid s 12.221 0.5 0.069 (-0.201) * (s - 10.0) + 0.130 * (m - 12.0) < 0.999 := by
      linarith [hm.2, ht.2]
    rw [show MAH_PBOUNDS.logtc.1 + EPS = -0.999 by norm_num [MAH_PBOUNDS, EPS],
      show MAH_PBOUNDS.logtc.2 - EPS = 0.999 by norm_num [MAH_PBOUNDS, EPS], max_eq_left h3.le, min_eq_left h4.le] at e
    exact ⟨_, h3, h4, e⟩

/-- C143, covariance_kernels.py. Two sets of parameters that predict the same scatter and correlations over some range of masses agree
in the parameters of the scatter -/
theorem C143_scatter
    (hp : HasAll p ["cov_lgm_x0_logm0", "std_u_logm0_ylo", "std_u_logm0_yhi", "cov_lgm_x0_logtc", "std_u_logtc_ylo",
      "std_u_logtc_yhi", "cov_lgm_x0_early", "std_u_early_ylo", "std_u_early_yhi", "cov_lgm_x0_late", "std_u_late_ylo",
      "std_u_late_yhi"])
    (hq : HasAll q ["cov_lgm_x0_logm0", "std_u_logm0_ylo", "std_u_logm0_yhi", "cov_lgm_x0_logtc", "std_u_logtc_ylo",
      "std_u_logtc_yhi", "cov_lgm_x0_early", "std_u_early_ylo", "std_u_early_yhi", "cov_lgm_x0_late", "std_u_late_ylo",
      "std_u_late_yhi"])
    (hm : m1 < m2)
    (h : ∀ lgm ∈ Ioo m1 m2, ∃ v, get_cov_params p lgm = .ok v ∧ get_cov_params q lgm = .ok v) :
    ∀ n ∈ ["logm0", "logtc", "early", "late"],
      Same p q ("std_u_" ++ n ++ "_ylo") ∧ Same p q ("std_u_" ++ n ++ "_yhi") ∧
        (Differ p ("std_u_" ++ n ++ "_ylo") ("std_u_" ++ n ++ "_yhi") → Same p q ("cov_lgm_x0_" ++ n)) := by
  unfold Same Differ
  obtain ⟨x1, h1⟩ := hp.get (n := "cov_lgm_x0_logm0")
  obtain ⟨a1, h2⟩ := hp.get (n := "std_u_logm0_ylo")
  obtain ⟨b1, h3⟩ := hp.get (n := "std_u_logm0_yhi")
  obtain ⟨x2, h4⟩ := hp.get (n := "cov_lgm_x0_logtc")
  obtain ⟨a2, h5⟩ := hp.get (n := "std_u_logtc_ylo")
  obtain ⟨b2, h6⟩ := hp.get (n := "std_u_logtc_yhi")
  obtain ⟨x3, h7⟩ := hp.get (n := "cov_lgm_x0_early")
  obtain ⟨a3, h8⟩ := hp.get (n := "std_u_early_ylo")
  obtain ⟨b3, h9⟩ := hp.get (n := "std_u_early_yhi")
  obtain ⟨x4, h10⟩ := hp.get (n := "cov_lgm_x0_late")
  obtain ⟨a4, h11⟩ := hp.get (n := "std_u_late_ylo")
  obtain ⟨b4, h12⟩ := hp.get (n := "std_u_late_yhi")
  obtain ⟨x1', g1⟩ := hq.get (n := "cov_lgm_x0_logm0")
  obtain ⟨a1', g2⟩ := hq.get (n := "std_u_logm0_ylo")
  obtain ⟨b1', g3⟩ := hq.get (n := "std_u_logm0_yhi")
  obtain ⟨x2', g4⟩ := hq.get (n := "cov_lgm_x0_logtc")
  obtain ⟨a2', g5⟩ := hq.get (n := "std_u_logtc_ylo")
  obtain ⟨b2', g6⟩ := hq.get (n := "std_u_logtc_yhi")
  obtain ⟨x3', g7⟩ := hq.get (n := "cov_lgm_x0_early")
  obtain ⟨a3', g8⟩ := hq.get (n := "std_u_early_ylo")
  obtain ⟨b3', g9⟩ := hq.get (n := "std_u_early_yhi")
  obtain ⟨x4', g10⟩ := hq.get (n := "cov_lgm_x0_late")
  obtain ⟨a4', g11⟩ := hq.get (n := "std_u_late_ylo")
  obtain ⟨b4', g12⟩ := hq.get (n := "std_u_late_yhi")
  have key : ∀ m ∈ Ioo m1 m2,
      Utils.sigmoid m x1 COV_LGM_K a1 b1 = Utils.sigmoid m x1' COV_LGM_K a1' b1' ∧
      Utils.sigmoid m x2 COV_LGM_K a2 b2 = Utils.sigmoid m x2' COV_LGM_K a2' b2' ∧
      Utils.sigmoid m x3 COV_LGM_K a3 b3 = Utils.sigmoid m x3' COV_LGM_K a3' b3' ∧
      Utils.sigmoid m x4 COV_LGM_K a4 b4 = Utils.sigmoid m x4' COV_LGM_K a4' b4' := by
    intro m hm
    obtain ⟨v, e1, e2⟩ := h m hm
    unfold get_cov_params at e1 e2
    rw [h1, h2, h3, h4, h5, h6, h7, h8, h9, h10, h11, h12] at e1
    rw [g1, g2, g3, g4, g5, g6, g7, g8, g9, g10, g11, g12] at e2
    cases hr : p.getattrs (p.fields.filter is_rho) with
    | error x => rw [hr] at e1; cases e1
    | ok r =>
    cases hr' : q.getattrs (q.fields.filter is_rho) with
    | error x => rw [hr'] at e2; cases e2
    | ok r' =>
    rw [hr] at e1
    rw [hr'] at e2
    have e1 : (([Utils.sigmoid m x1 COV_LGM_K a1 b1, Utils.sigmoid m x2 COV_LGM_K a2 b2, Utils.sigmoid m x3 COV_LGM_K a3 b3,
      Utils.sigmoid m x4 COV_LGM_K a4 b4], r) : List ℝ × List ℝ) = v := Except.ok.inj (ε := PyErr) e1
    have e2 : (([Utils.sigmoid m x1' COV_LGM_K a1' b1', Utils.sigmoid m x2' COV_LGM_K a2' b2',
      Utils.sigmoid m x3' COV_LGM_K a3' b3', Utils.sigmoid m x4' COV_LGM_K a4' b4'], r') : List ℝ × List ℝ) = v :=
      Except.ok.inj (ε := PyErr) e2
    have e := e1.trans e2.symm
    have e := congrArg Prod.fst e
    simp only [List.cons.injEq, and_true] at e
    exact e
  have hk : (0 : ℝ) < COV_LGM_K := by norm_num [COV_LGM_K]
  have k1 := step_unique hk hm fun m hm => (key m hm).1
  have k2 := step_unique hk hm fun m hm => (key m hm).2.1
  have k3 := step_unique hk hm fun m hm => (key m hm).2.2.1
  have k4 := step_unique hk hm fun m hm => (key m hm).2.2.2
  simp only [List.forall_mem_cons]
  refine ⟨?_, ?_, ?_, ?_, by simp⟩
  · change p.getattr "std_u_logm0_ylo" = q.getattr "std_u_logm0_ylo" ∧ p.getattr "std_u_logm0_yhi" = q.getattr "std_u_logm0_yhi" ∧
      (p.getattr "std_u_logm0_ylo" ≠ p.getattr "std_u_logm0_yhi" → p.getattr "cov_lgm_x0_logm0" = q.getattr "cov_lgm_x0_logm0")
    simpa only [h1, h2, h3, g1, g2, g3, Except.ok.injEq, ne_eq] using k1
  · change p.getattr "std_u_logtc_ylo" = q.getattr "std_u_logtc_ylo" ∧ p.getattr "std_u_logtc_yhi" = q.getattr "std_u_logtc_yhi" ∧
      (p.getattr "std_u_logtc_ylo" ≠ p.getattr "std_u_logtc_yhi" → p.getattr "cov_lgm_x0_logtc" = q.getattr "cov_lgm_x0_logtc")
    simpa only [h4, h5, h6, g4, g5, g6, Except.ok.injEq, ne_eq] using k2
  · change p.getattr "std_u_early_ylo" = q.getattr "std_u_early_ylo" ∧ p.getattr "std_u_early_yhi" = q.getattr "std_u_early_yhi" ∧
      (p.getattr "std_u_early_ylo" ≠ p.getattr "std_u_early_yhi" → p.getattr "cov_lgm_x0_early" = q.getattr "cov_lgm_x0_early")
    simpa only [h7, h8, h9, g7, g8, g9, Except.ok.injEq, ne_eq] using k3
  · change p.getattr "std_u_late_ylo" = q.getattr "std_u_late_ylo" ∧ p.getattr "std_u_late_yhi" = q.getattr "std_u_late_yhi" ∧
      (p.getattr "std_u_late_ylo" ≠ p.getattr "std_u_late_yhi" → p.getattr "cov_lgm_x0_late" = q.getattr "cov_lgm_x0_late")
    simpa only [h10, h11, h12, g10, g11, g12, Except.ok.injEq, ne_eq] using k4

/-- The default parameters have the attributes, and the scatter is predicted at every mass. -/
example : HasAll COV.pdict ["cov_lgm_x0_logm0", "std_u_logm0_ylo", "std_u_logm0_yhi", "cov_lgm_x0_logtc", "std_u_logtc_ylo",
      "std_u_logtc_yhi", "cov_lgm_x0_early", "std_u_early_ylo", "std_u_early_yhi", "cov_lgm_x0_late", "std_u_late_ylo",
      "std_u_late_yhi"] ∧ ∀ lgm, ∃ v, get_cov_params COV.pdict lgm = .ok v := by
  constructor
  · simp only [HasAll, List.forall_mem_cons]
    exact ⟨⟨_, rfl⟩, ⟨_, rfl⟩, ⟨_, rfl⟩, ⟨_, rfl⟩, ⟨_, rfl⟩, ⟨_, rfl⟩, ⟨_, rfl⟩, ⟨_, rfl⟩, ⟨_, rfl⟩, ⟨_, rfl⟩, ⟨_, rfl⟩, ⟨_, rfl⟩,
      by simp⟩
  · exact fun lgm => ⟨_, rfl⟩

/-- C143, ftpt0_cens.py. Two sets of parameters that predict the same fraction of centrals that peak today, off the limits to which it is
clipped, over some range of masses around 10^12 Msun and of times, agree -/
theorem C143_ftpt0 (hp : HasAll p ["ftpt0_c0_c0", "ftpt0_c0_c1", "ftpt0_c1"]) (hq : HasAll q ["ftpt0_c0_c0", "ftpt0_c0_c1", "ftpt0_c1"])
    (hm1 : m1 < 12) (hm2 : 12 < m2) (ht : t1 < t2)
    (h : ∀ lgm ∈ Ioo m1 m2, ∀ t_obs ∈ Ioo t1 t2, ∃ v, 0.01 < v ∧ v < 0.99 ∧ ftpt0_kernel p lgm t_obs = .ok v ∧
      ftpt0_kernel q lgm t_obs = .ok v) :
    Same p q "ftpt0_c0_c0" ∧ Same p q "ftpt0_c0_c1" ∧ Same p q "ftpt0_c1" := by
  obtain ⟨a, h1⟩ := hp.get (n := "ftpt0_c0_c0")
  obtain ⟨b, h2⟩ := hp.get (n := "ftpt0_c0_c1")
  obtain ⟨c, h3⟩ := hp.get (n := "ftpt0_c1")
  obtain ⟨a', g1⟩ := hq.get (n := "ftpt0_c0_c0")
  obtain ⟨b', g2⟩ := hq.get (n := "ftpt0_c0_c1")
  obtain ⟨c', g3⟩ := hq.get (n := "ftpt0_c1")
  have key : ∀ m ∈ Ioo m1 m2, ∀ t ∈ Ioo t1 t2,
      min (max (a + b * (t - 10)) 0.01) 0.99 + c * (m - 12) = min (max (a' + b' * (t - 10)) 0.01) 0.99 + c' * (m - 12) := by
    intro m hm t ht
    obtain ⟨v, v1, v2, e1, e2⟩ := h m hm t ht
    have e1 := ok_inj ((C134_ftpt0 h1 h2 h3 m t).symm.trans e1)
    have e2 := ok_inj ((C134_ftpt0 g1 g2 g3 m t).symm.trans e2)
    have i1 := clip_inside (by rw [e1]; exact v1) (by rw [e1]; exact v2)
    have i2 := clip_inside (by rw [e2]; exact v1) (by rw [e2]; exact v2)
    rw [← i1, e1, ← i2, e2]
  have lin : ∀ t ∈ Ioo t1 t2, a + b * (t - 10) = a' + b' * (t - 10) := by
    intro t ht
    obtain ⟨v, v1, v2, e1, e2⟩ := h 12 ⟨hm1, hm2⟩ t ht
    have e1 := ok_inj ((C134_ftpt0 h1 h2 h3 12 t).symm.trans e1)
    have e2 := ok_inj ((C134_ftpt0 g1 g2 g3 12 t).symm.trans e2)
    have i1 := clip_inside (by rw [e1]; exact v1) (by rw [e1]; exact v2)
    have i2 := clip_inside (by rw [e2]; exact v1) (by rw [e2]; exact v2)
    rw [e1, sub_self, mul_zero, add_zero] at i1
    rw [e2, sub_self, mul_zero, add_zero] at i2
    have j1 := clip_inside (by rw [← i1]; exact v1) (by rw [← i1]; exact v2)
    have j2 := clip_inside (by rw [← i2]; exact v1) (by rw [← i2]; exact v2)
    rw [← j1, ← i1, ← j2, ← i2]
  obtain ⟨ta, hta⟩ := exists_between ht
  obtain ⟨tb, htb⟩ := exists_between hta.2
  have ea := lin ta hta
  have eb := lin tb ⟨hta.1.trans htb.1, htb.2⟩
  have hb : b = b' := by
    have : (b - b') * (tb - ta) = 0 := by linarith
    rcases mul_eq_zero.1 this with h | h
    · linarith
    · linarith [htb.1]
  subst hb
  have ha : a = a' := by linarith
  subst ha
  obtain ⟨mb, hmb⟩ := exists_between hm2
  have ec := key mb ⟨hm1.trans hmb.1, hmb.2⟩ ta hta
  have hc : c = c' := by
    have : (c - c') * (mb - 12) = 0 := by linarith
    rcases mul_eq_zero.1 this with h | h
    · linarith
    · linarith [hmb.1]
  unfold Same
  exact ⟨h1.trans g1.symm, h2.trans g2.symm, by rw [h3, g3, hc]⟩

/-- The default parameters have the attributes, and predictions are off the limits near 10^12 Msun and 10 Gyr. -/
example : HasAll FTPT0.pdict ["ftpt0_c0_c0", "ftpt0_c0_c1", "ftpt0_c1"] ∧
    ∀ lgm ∈ Ioo (11.5 : ℝ) 12.5, ∀ t_obs ∈ Ioo (10 : ℝ) 11, ∃ v, 0.01 < v ∧ v < 0.99 ∧ ftpt0_kernel FTPT0.pdict lgm t_obs = .ok v := by
  constructor
  · simp only [HasAll, List.forall_mem_cons]
    exact ⟨⟨_, rfl⟩, ⟨_, rfl⟩, ⟨_, rfl⟩, by simp⟩
  · intro m hm t ht
    have e := C134_ftpt0 (params := FTPT0.pdict) (a := 0.081) (b := 0.041) (c := 0.044) rfl rfl rfl m t
    have h1 := hm.1
    have h2 := hm.2
    have h3 := ht.1
    have h4 := ht.2
    rw [max_eq_left (a := 0.081 + 0.041 * (t - 10)) (by linarith), min_eq_left (a := 0.081 + 0.041 * (t - 10)) (by linarith),
      max_eq_left (by linarith), min_eq_left (by linarith)] at e
    exact ⟨_, by linarith, by linarith, e⟩

/-! ### The final mass -/

theorem affine_unique {c0 c1 d0 d1 : ℝ} (hm : m1 < m2)
    (h : ∀ m ∈ Ioo m1 m2, m + (c0 + c1 * (m - 12)) = m + (d0 + d1 * (m - 12))) : c0 = d0 ∧ c1 = d1 := by
  obtain ⟨ma, ha⟩ := exists_between hm
  obtain ⟨mb, hb⟩ := exists_between ha.2
  have ea := h ma ha
  have eb := h mb ⟨ha.1.trans hb.1, hb.2⟩
  have h1 : c1 = d1 := by
    have : (c1 - d1) * (mb - ma) = 0 := by linarith
    rcases mul_eq_zero.1 this with h | h
    · linarith
    · linarith [hb.1]
  subst h1
  exact ⟨by linarith, rfl⟩

theorem line_not_const {a b c l u : ℝ} (hb : b ≠ 0) (hlu : l < u) : ¬ ∀ s ∈ Ioo l u, a + b * s = c := by
  intro h
  obtain ⟨x, hx⟩ := exists_between hlu
  obtain ⟨y, hy⟩ := exists_between hx.2
  have e1 := h x hx
  have e2 := h y ⟨hx.1.trans hy.1, hy.2⟩
  have : b * (y - x) = 0 := by linarith
  rcases mul_eq_zero.1 this with h | h
  · exact hb h
  · linarith [hy.1]

theorem sigmoid_not_const {x0 k a b c l u : ℝ} (hk : 0 < k) (hab : a ≠ b) (hlu : l < u) :
    ¬ ∀ s ∈ Ioo l u, Utils.sigmoid s x0 k a b = c := by
  intro h
  have e := step_unique (x0 := x0) (a := a) (b := b) (x0' := 0) (a' := c) (b' := c) hk hlu fun s hs => by rw [sigmoid_const]; exact h s hs
  exact hab (e.1.trans e.2.1.symm)

theorem sig_slope_not_const {x y x0 k a c l u : ℝ} (hk : 0 < k) (ha : a ≠ 0) (hlu : l < u) :
    ¬ ∀ s ∈ Ioo l u, Utils.sig_slope s x y x0 k a 0 = c := by
  intro h
  have e := bends_unique (y' := c) (x0' := 0) (a' := 0) (b' := 0) hk hlu fun s hs => by
    rw [h s hs, Utils.sig_slope, sigmoid_const]; ring
  exact ha e.2.1

theorem max_free {F C l u : ℝ} {g : ℝ → ℝ} (hg : ¬ ∀ s ∈ Ioo l u, g s = C) (h : ∀ s ∈ Ioo l u, max F (g s) = C) : F = C := by
  by_contra hn
  refine hg fun s hs => ?_
  rcases max_choice F (g s) with e | e
  · exact absurd (e.symm.trans (h s hs)) hn
  · exact e.symm.trans (h s hs)

theorem max_free' {F C l u : ℝ} {g : ℝ → ℝ} (hg : ¬ ∀ s ∈ Ioo l u, g s = C) (h : ∀ s ∈ Ioo l u, max (g s) F = C) : F = C :=
  max_free hg fun s hs => by rw [max_comm]; exact h s hs

/-- The attributes that the mean final mass of a population with suffix `sfx` depends on -/
def logm0Names (sfx : String) : List String :=
  ["lgm0pop_c0_ytp" ++ sfx, "lgm0pop_c0_t_obs_x0" ++ sfx, "lgm0pop_c0_ylo" ++ sfx, "lgm0pop_c0_clip_c0" ++ sfx,
    "lgm0pop_c0_clip_c1" ++ sfx, "lgm0pop_c1_ytp" ++ sfx, "lgm0pop_c1_t_obs_x0" ++ sfx, "lgm0pop_c1_ylo" ++ sfx,
    "lgm0pop_c1_clip_x0" ++ sfx, "lgm0pop_c1_clip_ylo" ++ sfx, "lgm0pop_c1_clip_yhi" ++ sfx]

theorem logm0_val {params : NT ℝ} {sfx : String} (hp : HasAll params (logm0Names sfx)) :
    ∃ y0 x0 l0 a b y1 x1 l1 z0 za zb : ℝ, Reads params ("lgm0pop_c0_ytp" ++ sfx) y0 ∧
      Reads params ("lgm0pop_c0_t_obs_x0" ++ sfx) x0 ∧ Reads params ("lgm0pop_c0_ylo" ++ sfx) l0 ∧
      Reads params ("lgm0pop_c0_clip_c0" ++ sfx) a ∧ Reads params ("lgm0pop_c0_clip_c1" ++ sfx) b ∧
      Reads params ("lgm0pop_c1_ytp" ++ sfx) y1 ∧ Reads params ("lgm0pop_c1_t_obs_x0" ++ sfx) x1 ∧
      Reads params ("lgm0pop_c1_ylo" ++ sfx) l1 ∧ Reads params ("lgm0pop_c1_clip_x0" ++ sfx) z0 ∧
      Reads params ("lgm0pop_c1_clip_ylo" ++ sfx) za ∧ Reads params ("lgm0pop_c1_clip_yhi" ++ sfx) zb ∧
      ∀ m t s, pred_logm0_kern sfx params m t s = .ok (m + (max (Utils.sig_slope t 15 y0 x0 0.25 l0 0) (a + b * s) +
        max (Utils.sig_slope t 10 y1 x1 0.25 l1 0) (Utils.sigmoid s z0 1 za zb) * (m - 12))) := by
  obtain ⟨y0, h1⟩ := hp.get (n := "lgm0pop_c0_ytp" ++ sfx) (by simp [logm0Names])
  obtain ⟨x0, h2⟩ := hp.get (n := "lgm0pop_c0_t_obs_x0" ++ sfx) (by simp [logm0Names])
  obtain ⟨l0, h3⟩ := hp.get (n := "lgm0pop_c0_ylo" ++ sfx) (by simp [logm0Names])
  obtain ⟨a, h4⟩ := hp.get (n := "lgm0pop_c0_clip_c0" ++ sfx) (by simp [logm0Names])
  obtain ⟨b, h5⟩ := hp.get (n := "lgm0pop_c0_clip_c1" ++ sfx) (by simp [logm0Names])
  obtain ⟨y1, h6⟩ := hp.get (n := "lgm0pop_c1_ytp" ++ sfx) (by simp [logm0Names])
  obtain ⟨x1, h7⟩ := hp.get (n := "lgm0pop_c1_t_obs_x0" ++ sfx) (by simp [logm0Names])
  obtain ⟨l1, h8⟩ := hp.get (n := "lgm0pop_c1_ylo" ++ sfx) (by simp [logm0Names])
  obtain ⟨z0, h9⟩ := hp.get (n := "lgm0pop_c1_clip_x0" ++ sfx) (by simp [logm0Names])
  obtain ⟨za, h10⟩ := hp.get (n := "lgm0pop_c1_clip_ylo" ++ sfx) (by simp [logm0Names])
  obtain ⟨zb, h11⟩ := hp.get (n := "lgm0pop_c1_clip_yhi" ++ sfx) (by simp [logm0Names])
  refine ⟨y0, x0, l0, a, b, y1, x1, l1, z0, za, zb, h1, h2, h3, h4, h5, h6, h7, h8, h9, h10, h11, fun m t s => ?_⟩
  unfold pred_logm0_kern pred_c0_kern pred_c1_kern
  rw [h1, h2, h3, h4, h5, h6, h7, h8, h9, h10, h11]
  refine congrArg Except.ok ?_
  change m + (max (Utils.sig_slope t (15 : ℝ) y0 x0 0.25 l0 (0.0 : ℝ)) (a + b * s) +
    max (Utils.sig_slope t (10.0 : ℝ) y1 x1 0.25 l1 (0.0 : ℝ)) (Utils.sigmoid s z0 (1.0 : ℝ) za zb) * (m - (12.0 : ℝ))) = _
  rw [show (0.0 : ℝ) = 0 by norm_num, show (10.0 : ℝ) = 10 by norm_num, show (12.0 : ℝ) = 12 by norm_num,
    show (1.0 : ℝ) = 1 by norm_num]

/-- C143, logm0_pop_*.py (`sfx` is one of the four suffixes). Two sets of parameters that predict the same mean final mass over some
range in which it does not depend on the peak time agree in the parameters of its dependence on the time of observation -/
theorem C143_logm0_t_obs {sfx : String} {s1 s2 : ℝ} (hp : HasAll p (logm0Names sfx)) (hq : HasAll q (logm0Names sfx))
    (hpb : ¬ Reads p ("lgm0pop_c0_clip_c1" ++ sfx) 0) (hqb : ¬ Reads q ("lgm0pop_c0_clip_c1" ++ sfx) 0)
    (hpz : Differ p ("lgm0pop_c1_clip_ylo" ++ sfx) ("lgm0pop_c1_clip_yhi" ++ sfx))
    (hqz : Differ q ("lgm0pop_c1_clip_ylo" ++ sfx) ("lgm0pop_c1_clip_yhi" ++ sfx))
    (hm : m1 < m2) (ht : t1 < t2) (hs : s1 < s2)
    (h : ∀ lgm ∈ Ioo m1 m2, ∀ t_obs ∈ Ioo t1 t2, ∀ t_peak ∈ Ioo s1 s2,
      pred_logm0_kern sfx p lgm t_obs t_peak = pred_logm0_kern sfx q lgm t_obs t_peak)
    (free : ∀ lgm ∈ Ioo m1 m2, ∀ t_obs ∈ Ioo t1 t2, ∀ t_peak ∈ Ioo s1 s2, ∀ t_peak' ∈ Ioo s1 s2,
      pred_logm0_kern sfx p lgm t_obs t_peak = pred_logm0_kern sfx p lgm t_obs t_peak') :
    Same p q ("lgm0pop_c0_ytp" ++ sfx) ∧ Same p q ("lgm0pop_c0_ylo" ++ sfx) ∧ Same p q ("lgm0pop_c1_ytp" ++ sfx) ∧
      Same p q ("lgm0pop_c1_ylo" ++ sfx) ∧
      (¬ Reads p ("lgm0pop_c0_ylo" ++ sfx) 0 → Same p q ("lgm0pop_c0_t_obs_x0" ++ sfx)) ∧
      (¬ Reads p ("lgm0pop_c1_ylo" ++ sfx) 0 → Same p q ("lgm0pop_c1_t_obs_x0" ++ sfx)) := by
  obtain ⟨y0, x0, l0, a, b, y1, x1, l1, z0, za, zb, h1, h2, h3, h4, h5, h6, h7, h8, h9, h10, h11, e⟩ := logm0_val hp
  obtain ⟨y0', x0', l0', a', b', y1', x1', l1', z0', za', zb', g1, g2, g3, g4, g5, g6, g7, g8, g9, g10, g11, e'⟩ := logm0_val hq
  unfold Same Differ Reads at *
  rw [h5] at hpb
  rw [g5] at hqb
  rw [h10, h11] at hpz
  rw [g10, g11] at hqz
  have hpb : b ≠ 0 := fun hn => hpb (congrArg _ hn)
  have hqb : b' ≠ 0 := fun hn => hqb (congrArg _ hn)
  have hpz : za ≠ zb := fun hn => hpz (congrArg _ hn)
  have hqz : za' ≠ zb' := fun hn => hqz (congrArg _ hn)
  obtain ⟨s0, hs0⟩ := exists_between hs
  have key : ∀ t ∈ Ioo t1 t2, Utils.sig_slope t 15 y0 x0 0.25 l0 0 = Utils.sig_slope t 15 y0' x0' 0.25 l0' 0 ∧
      Utils.sig_slope t 10 y1 x1 0.25 l1 0 = Utils.sig_slope t 10 y1' x1' 0.25 l1' 0 := by
    intro t ht
    have f1 := fun s hs => affine_unique hm fun m hm => ok_inj ((e m t s).symm.trans ((free m hm t ht s hs s0 hs0).trans (e m t s0)))
    have f2 := fun s hs => affine_unique hm fun m hm => ok_inj ((e' m t s).symm.trans ((h m hm t ht s hs).symm.trans
      ((free m hm t ht s hs s0 hs0).trans (e m t s0))))
    exact ⟨(max_free (line_not_const hpb hs) fun s hs => (f1 s hs).1).trans
        (max_free (line_not_const hqb hs) fun s hs => (f2 s hs).1).symm,
      (max_free (sigmoid_not_const one_pos hpz hs) fun s hs => (f1 s hs).2).trans
        (max_free (sigmoid_not_const one_pos hqz hs) fun s hs => (f2 s hs).2).symm⟩
  have k0 := bends_unique (by norm_num) ht fun t ht => (key t ht).1
  have k1 := bends_unique (by norm_num) ht fun t ht => (key t ht).2
  rw [h1, h2, h3, h6, h7, h8, g1, g2, g3, g6, g7, g8]
  simp only [Except.ok.injEq]
  exact ⟨k0.1, k0.2.1, k1.1, k1.2.1, k0.2.2.2, k1.2.2.2⟩

/-- C143, logm0_pop_*.py. Two sets of parameters that predict the same mean final mass over some range in which it does not depend on
the time of observation agree in the parameters of its dependence on the peak time -/
theorem C143_logm0_t_peak {sfx : String} {s1 s2 : ℝ} (hp : HasAll p (logm0Names sfx)) (hq : HasAll q (logm0Names sfx))
    (hp0 : ¬ Reads p ("lgm0pop_c0_ylo" ++ sfx) 0) (hq0 : ¬ Reads q ("lgm0pop_c0_ylo" ++ sfx) 0)
    (hp1 : ¬ Reads p ("lgm0pop_c1_ylo" ++ sfx) 0) (hq1 : ¬ Reads q ("lgm0pop_c1_ylo" ++ sfx) 0)
    (hm : m1 < m2) (ht : t1 < t2) (hs : s1 < s2)
    (h : ∀ lgm ∈ Ioo m1 m2, ∀ t_obs ∈ Ioo t1 t2, ∀ t_peak ∈ Ioo s1 s2,
      pred_logm0_kern sfx p lgm t_obs t_peak = pred_logm0_kern sfx q lgm t_obs t_peak)
    (free : ∀ lgm ∈ Ioo m1 m2, ∀ t_obs ∈ Ioo t1 t2, ∀ t_obs' ∈ Ioo t1 t2, ∀ t_peak ∈ Ioo s1 s2,
      pred_logm0_kern sfx p lgm t_obs t_peak = pred_logm0_kern sfx p lgm t_obs' t_peak) :
    Same p q ("lgm0pop_c0_clip_c0" ++ sfx) ∧ Same p q ("lgm0pop_c0_clip_c1" ++ sfx) ∧ Same p q ("lgm0pop_c1_clip_ylo" ++ sfx) ∧
      Same p q ("lgm0pop_c1_clip_yhi" ++ sfx) ∧
      (Differ p ("lgm0pop_c1_clip_ylo" ++ sfx) ("lgm0pop_c1_clip_yhi" ++ sfx) → Same p q ("lgm0pop_c1_clip_x0" ++ sfx)) := by
  obtain ⟨y0, x0, l0, a, b, y1, x1, l1, z0, za, zb, h1, h2, h3, h4, h5, h6, h7, h8, h9, h10, h11, e⟩ := logm0_val hp
  obtain ⟨y0', x0', l0', a', b', y1', x1', l1', z0', za', zb', g1, g2, g3, g4, g5, g6, g7, g8, g9, g10, g11, e'⟩ := logm0_val hq
  unfold Same Differ Reads at *
  rw [h3] at hp0
  rw [g3] at hq0
  rw [h8] at hp1
  rw [g8] at hq1
  have hp0 : l0 ≠ 0 := fun hn => hp0 (congrArg _ hn)
  have hq0 : l0' ≠ 0 := fun hn => hq0 (congrArg _ hn)
  have hp1 : l1 ≠ 0 := fun hn => hp1 (congrArg _ hn)
  have hq1 : l1' ≠ 0 := fun hn => hq1 (congrArg _ hn)
  obtain ⟨t0, ht0⟩ := exists_between ht
  have key : ∀ s ∈ Ioo s1 s2, a + b * s = a' + b' * s ∧ Utils.sigmoid s z0 1 za zb = Utils.sigmoid s z0' 1 za' zb' := by
    intro s hs
    have f1 := fun t ht => affine_unique hm fun m hm => ok_inj ((e m t s).symm.trans ((free m hm t ht t0 ht0 s hs).trans (e m t0 s)))
    have f2 := fun t ht => affine_unique hm fun m hm => ok_inj ((e' m t s).symm.trans ((h m hm t ht s hs).symm.trans
      ((free m hm t ht t0 ht0 s hs).trans (e m t0 s))))
    have hk : (0 : ℝ) < 0.25 := by norm_num
    exact ⟨(max_free' (sig_slope_not_const hk hp0 ht) fun t ht => (f1 t ht).1).trans
        (max_free' (sig_slope_not_const hk hq0 ht) fun t ht => (f2 t ht).1).symm,
      (max_free' (sig_slope_not_const hk hp1 ht) fun t ht => (f1 t ht).2).trans
        (max_free' (sig_slope_not_const hk hq1 ht) fun t ht => (f2 t ht).2).symm⟩
  have k1 := step_unique one_pos hs fun s hs => (key s hs).2
  obtain ⟨sa, ha⟩ := exists_between hs
  obtain ⟨sb, hb⟩ := exists_between ha.2
  have ea := (key sa ha).1
  have eb := (key sb ⟨ha.1.trans hb.1, hb.2⟩).1
  have hbb : b = b' := by
    have : (b - b') * (sb - sa) = 0 := by linarith
    rcases mul_eq_zero.1 this with h | h
    · linarith
    · linarith [hb.1]
  subst hbb
  rw [h4, h5, h9, h10, h11, g4, g5, g9, g10, g11]
  simp only [Except.ok.injEq, ne_eq]
  exact ⟨by linarith, trivial, k1.1, k1.2.1, k1.2.2⟩

/-- The default parameters of early-forming centrals have the attributes; their predictions do not depend on the peak time for early
times of observation and late peaks, nor on the time of observation for late times of observation and early peaks. -/
example : HasAll (LGM0_C0_EARLY.pdict ++ LGM0_C1_EARLY.pdict) (logm0Names "_early") ∧
    (∀ lgm, ∀ t ∈ Ioo (2 : ℝ) 3, ∀ s ∈ Ioo (10 : ℝ) 11, ∀ s' ∈ Ioo (10 : ℝ) 11,
      pred_logm0_kern "_early" (LGM0_C0_EARLY.pdict ++ LGM0_C1_EARLY.pdict) lgm t s =
        pred_logm0_kern "_early" (LGM0_C0_EARLY.pdict ++ LGM0_C1_EARLY.pdict) lgm t s') ∧
    (∀ lgm, ∀ t ∈ Ioo (10 : ℝ) 11, ∀ t' ∈ Ioo (10 : ℝ) 11, ∀ s ∈ Ioo (1 : ℝ) 2,
      pred_logm0_kern "_early" (LGM0_C0_EARLY.pdict ++ LGM0_C1_EARLY.pdict) lgm t s =
        pred_logm0_kern "_early" (LGM0_C0_EARLY.pdict ++ LGM0_C1_EARLY.pdict) lgm t' s) ∧
    Differ (LGM0_C0_EARLY.pdict ++ LGM0_C1_EARLY.pdict) "lgm0pop_c1_clip_ylo_early" "lgm0pop_c1_clip_yhi_early" := by
  have e : ∀ m t s, pred_logm0_kern "_early" (LGM0_C0_EARLY.pdict ++ LGM0_C1_EARLY.pdict) m t s =
      .ok (m + (max (0.020 + Utils.sigmoid t 1.51 0.25 (-0.130) 0.0 * (t - 15)) (0.897 + -0.090 * s) +
        max (0.002 + Utils.sigmoid t 3.01 0.25 (-0.043) 0.0 * (t - 10.0)) (Utils.sigmoid s 7.185 1.0 0.140 0.002) *
          (m - 12.0))) := fun m t s => rfl
  have b0 : ∀ t, Utils.sigmoid t 1.51 0.25 (-0.130) 0.0 ∈ Icc (-0.130 : ℝ) 0 := fun t =>
    sigmoid_mem (by constructor <;> norm_num) (by constructor <;> norm_num)
  have b1 : ∀ t, Utils.sigmoid t 3.01 0.25 (-0.043) 0.0 ∈ Icc (-0.043 : ℝ) 0 := fun t =>
    sigmoid_mem (by constructor <;> norm_num) (by constructor <;> norm_num)
  have b2 : ∀ s, Utils.sigmoid s 7.185 1.0 0.140 0.002 ∈ Icc (0.002 : ℝ) 0.140 := fun s =>
    sigmoid_mem (by constructor <;> norm_num) (by constructor <;> norm_num)
  refine ⟨?_, fun m t ht s hs s' hs' => ?_, fun m t ht t' ht' s hs => ?_, ?_⟩
  · simp only [HasAll, logm0Names, List.forall_mem_cons]
    exact ⟨⟨_, rfl⟩, ⟨_, rfl⟩, ⟨_, rfl⟩, ⟨_, rfl⟩, ⟨_, rfl⟩, ⟨_, rfl⟩, ⟨_, rfl⟩, ⟨_, rfl⟩, ⟨_, rfl⟩, ⟨_, rfl⟩, ⟨_, rfl⟩, by simp⟩
  · have hg : 0.15 ≤ Utils.sigmoid t 3.01 0.25 (-0.043) 0.0 * (t - 10.0) := by
      have : Real.sigmoid (0.25 * (t - 3.01)) ≤ 1 / 2 := by
        have h := Real.sigmoid_le (show 0.25 * (t - 3.01) ≤ 0 by linarith [ht.2])
        rw [Real.sigmoid_zero] at h
        linarith
      have h2 : Utils.sigmoid t 3.01 0.25 (-0.043) 0.0 ≤ -0.0215 := by rw [sigmoid_val]; linarith
      nlinarith [ht.1, ht.2]
    have hf : 0 ≤ Utils.sigmoid t 1.51 0.25 (-0.130) 0.0 * (t - 15) :=
      mul_nonneg_of_nonpos_of_nonpos (b0 t).2 (by linarith [ht.2])
    rw [e, e, max_eq_left (by linarith [hs.1]), max_eq_left (by linarith [(b2 s).2]), max_eq_left (by linarith [hs'.1]),
      max_eq_left (by linarith [(b2 s').2])]
  · have hf : ∀ t ∈ Ioo (10 : ℝ) 11, Utils.sigmoid t 1.51 0.25 (-0.130) 0.0 * (t - 15) ≤ 0.65 := fun t ht => by
      nlinarith [ht.1, ht.2, (b0 t).1, (b0 t).2]
    have hg : ∀ t ∈ Ioo (10 : ℝ) 11, Utils.sigmoid t 3.01 0.25 (-0.043) 0.0 * (t - 10.0) ≤ 0 := fun t ht =>
      mul_nonpos_of_nonpos_of_nonneg (b1 t).2 (by linarith [ht.1])
    rw [e, e, max_eq_right (by linarith [hs.2, hf t ht]), max_eq_right (by linarith [(b2 s).1, hg t ht]),
      max_eq_right (by linarith [hs.2, hf t' ht']), max_eq_right (by linarith [(b2 s).1, hg t' ht'])]
  · change (Except.ok (0.140 : ℝ) : Except PyErr ℝ) ≠ .ok 0.002
    intro h
    norm_num at h

/-! ### The covariance -/

theorem getattr_of_lookup {p : NT ℝ} {n : String} {v : ℝ} (h : p.lookup n = some v) : p.getattr n = .ok v := by
  simp [NT.getattr, h]

/-- C143, covariance_kernels.py. Two sets of parameters inside the bounds (of the covariance alone, or full sets) with the same
covariance matrix over some range of masses have the same correlations and the same limits of each scatter, and the same half-way mass
unless the limits are equal. -/
theorem C143_covariance
    (fp : p.map Prod.fst = COV.pdict.map Prod.fst ∨ p.map Prod.fst = PopParams.FIELDS)
    (fq : q.map Prod.fst = COV.pdict.map Prod.fst ∨ q.map Prod.fst = PopParams.FIELDS)
    (bp : Spec.Bounded COV.bounds p) (bq : Spec.Bounded COV.bounds q) (hm : m1 < m2)
    (h : ∀ lgm ∈ Ioo m1 m2, get_diffmahpop_cov p lgm = get_diffmahpop_cov q lgm) :
    (∀ n ∈ ["logm0", "logtc", "early", "late"],
      Same p q ("std_u_" ++ n ++ "_ylo") ∧ Same p q ("std_u_" ++ n ++ "_yhi") ∧
        (Differ p ("std_u_" ++ n ++ "_ylo") ("std_u_" ++ n ++ "_yhi") → Same p q ("cov_lgm_x0_" ++ n))) ∧
    ∀ n ∈ ["rho_logtc_logm0", "rho_early_logm0", "rho_early_logtc", "rho_late_logm0", "rho_late_logtc", "rho_late_early"],
      Same p q n := by
  have std : ∀ lgm ∈ Ioo m1 m2, ∀ (C D : Matrix (Fin 4) (Fin 4) ℝ) (s r : Fin 4 → ℝ), get_diffmahpop_cov p lgm = .ok C →
      get_diffmahpop_cov q lgm = .ok D → (∀ i, 0.01 < s i ∧ s i < 100 ∧ C i i = s i ^ 2) →
      (∀ i, 0.01 < r i ∧ r i < 100 ∧ D i i = r i ^ 2) → C = D ∧ s = r := by
    intro lgm hl C D s r hC hD hs hr
    have e : C = D := Except.ok.inj (hC.symm.trans ((h lgm hl).trans hD))
    refine ⟨e, funext fun i => ?_⟩
    obtain ⟨s1, -, s2⟩ := hs i
    obtain ⟨r1, -, r2⟩ := hr i
    rw [e, r2] at s2
    have hs0 : 0 ≤ s i := by norm_num at s1; linarith
    have hr0 : 0 ≤ r i := by norm_num at r1; linarith
    exact (pow_left_inj₀ hs0 hr0 two_ne_zero).1 s2.symm
  constructor
  · have main : ∀ (i : Fin 4) (n : String), (i, n) ∈ [((0 : Fin 4), "logm0"), (1, "logtc"), (2, "early"), (3, "late")] →
        Same p q ("std_u_" ++ n ++ "_ylo") ∧ Same p q ("std_u_" ++ n ++ "_yhi") ∧
          (Differ p ("std_u_" ++ n ++ "_ylo") ("std_u_" ++ n ++ "_yhi") → Same p q ("cov_lgm_x0_" ++ n)) := by
      intro i n hin
      obtain ⟨m, hmm⟩ := exists_between hm
      obtain ⟨_, _, _, _, _, _, hp, _⟩ := C51_covariance p fp bp m
      obtain ⟨_, _, _, _, _, _, hq, _⟩ := C51_covariance q fq bq m
      obtain ⟨a, b, x0, e1, e2, e3, -⟩ := hp i n hin
      obtain ⟨a', b', x0', g1, g2, g3, -⟩ := hq i n hin
      have key := step_unique (k := COV_LGM_K) (x0 := x0) (x0' := x0') (a := a) (a' := a') (b := b) (b' := b')
        (by norm_num [COV_LGM_K]) hm fun l hl => by
          obtain ⟨C, s, hC, -, -, hs, hp, -⟩ := C51_covariance p fp bp l
          obtain ⟨D, r, hD, -, -, hr, hq, -⟩ := C51_covariance q fq bq l
          obtain ⟨u, v, w, i1, i2, i3, i4⟩ := hp i n hin
          obtain ⟨u', v', w', j1, j2, j3, j4⟩ := hq i n hin
          rw [e1] at i1; rw [e2] at i2; rw [e3] at i3
          rw [g1] at j1; rw [g2] at j2; rw [g3] at j3
          cases i1; cases i2; cases i3; cases j1; cases j2; cases j3
          have := congrFun (std l hl C D s r hC hD hs hr).2 i
          rw [i4, j4, ← stdStep_eq, ← stdStep_eq] at this
          exact this
      unfold Same Differ
      simpa only [getattr_of_lookup e1, getattr_of_lookup e2, getattr_of_lookup e3, getattr_of_lookup g1, getattr_of_lookup g2,
        getattr_of_lookup g3, Except.ok.injEq, ne_eq] using key
    simp only [List.forall_mem_cons]
    exact ⟨main 0 _ (by simp), main 1 _ (by simp), main 2 _ (by simp), main 3 _ (by simp), by simp⟩
  · obtain ⟨l, hl⟩ := exists_between hm
    obtain ⟨C, s, hC, -, -, hs, -, hp⟩ := C51_covariance p fp bp l
    obtain ⟨D, r, hD, -, -, hr, -, hq⟩ := C51_covariance q fq bq l
    obtain ⟨rfl, rfl⟩ := std l hl C D s r hC hD hs hr
    have main : ∀ (i j : Fin 4) (n : String), (i, j, n) ∈ [((1 : Fin 4), (0 : Fin 4), "rho_logtc_logm0"), (2, 0, "rho_early_logm0"),
          (2, 1, "rho_early_logtc"), (3, 0, "rho_late_logm0"), (3, 1, "rho_late_logtc"), (3, 2, "rho_late_early")] →
        Same p q n := by
      intro i j n hin
      obtain ⟨a, e1, -, e2⟩ := hp i j n hin
      obtain ⟨b, g1, -, g2⟩ := hq i j n hin
      have hi : s i ≠ 0 := fun hz => by have := (hs i).1; rw [hz] at this; norm_num at this
      have hj : s j ≠ 0 := fun hz => by have := (hs j).1; rw [hz] at this; norm_num at this
      have hab : a = b := mul_right_cancel₀ hi (mul_right_cancel₀ hj (e2.symm.trans g2))
      subst hab
      exact (getattr_of_lookup e1).trans (getattr_of_lookup g1).symm
    simp only [List.forall_mem_cons]
    exact ⟨main 1 0 _ (by simp), main 2 0 _ (by simp), main 2 1 _ (by simp), main 3 0 _ (by simp), main 3 1 _ (by simp),
      main 3 2 _ (by simp), by simp⟩

/-- The default parameters meet the hypotheses. -/
example : PopParams.DEFAULT_DIFFMAHPOP_PARAMS.map Prod.fst = PopParams.FIELDS ∧
    Spec.Bounded COV.bounds PopParams.DEFAULT_DIFFMAHPOP_PARAMS :=
  ⟨rfl, default_inBounds.2.2.2.2.2.2.2.2⟩

end Pop

end Diffmah

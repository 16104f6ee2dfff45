import Verif.Props.NormalPop
import Verif.Lemmas.Chord

/-!
# The law of peak times (C108)

A peak time is drawn by looking up a uniform number in a table of the distribution function. The law of the
draws agrees with that distribution function up to the tolerance of `jnp.interp` and the error of a piecewise
linear table.
-/

set_option maxRecDepth 10000

namespace Diffmah

open Pop TPeak PopParams MC MeasureTheory ProbabilityTheory

/-- Below the last tabulated value the look-up is below the last node, from there on it is the last node. -/
theorem interp_top {eps u : ℝ} {xp fp : List ℝ} (hs : xp.Pairwise (· ≤ ·))
    (hf : fp.Pairwise (· < ·)) (hn : 2 ≤ xp.length) (hlen : fp.length = xp.length) :
    (u < xp.getD (xp.length - 1) 0 → interp eps u xp fp < fp.getD (xp.length - 1) 0) ∧
    (xp.getD (xp.length - 1) 0 < u → interp eps u xp fp = fp.getD (xp.length - 1) 0) := by
  have hlt : ∀ a b, a < b → b < fp.length → fp.getD a 0 < fp.getD b 0 := by
    intro a b hab hb
    rw [List.getD_eq_getElem _ _ (by omega), List.getD_eq_getElem _ _ hb]
    exact List.pairwise_iff_getElem.1 hf a b (by omega) hb hab
  have hf' : fp.Pairwise (· ≤ ·) := hf.imp fun h => h.le
  constructor
  · intro hu
    rcases interp_cases (eps := eps) (x := u) (fp := fp) hs hn with ⟨hx, h⟩ | ⟨hx, h⟩ | ⟨j, hj, h1, h2, h6, h⟩
    · rw [h]; exact hlt _ _ (by omega) (by omega)
    · linarith
    · have h5 := hlt j (j + 1) (by omega) (by omega)
      have h7 := sorted_getD hf' (i := j + 1) (j := xp.length - 1) (by omega) (by omega)
      refine lt_of_lt_of_le ?_ h7
      rw [h]
      split_ifs with h8
      · exact h5
      · have h9 : u < xp.getD (j + 1) 0 := by
          rcases h6 with h6 | h6
          · exact h6
          · rw [h6]; exact hu
        have h4 : (u - xp.getD j 0) / (xp.getD (j + 1) 0 - xp.getD j 0) < 1 := by
          rw [div_lt_one (by linarith)]; linarith
        nlinarith
  · intro hu
    rcases interp_cases (eps := eps) (x := u) (fp := fp) hs hn with ⟨hx, h⟩ | ⟨hx, h⟩ | ⟨j, hj, h1, h2, h6, h⟩
    · have := sorted_getD hs (i := 0) (j := xp.length - 1) (by omega) (by omega)
      linarith
    · exact h
    · have := sorted_getD hs (i := j + 1) (j := xp.length - 1) (by omega) (by omega)
      linarith

section
variable {Ω : Type} [MeasurableSpace Ω]

theorem IsUniform.prob {P : Measure Ω} {U : Ω → ℝ} (h : IsUniform P U) : IsProbabilityMeasure P := by
  refine ⟨?_⟩
  have := congrArg (fun m => m Set.univ) h.law
  simp only [Measure.map_apply h.measurable MeasurableSet.univ, Set.preimage_univ, Measure.restrict_apply_univ,
    Real.volume_Ico] at this
  rw [this]; norm_num

/-- The probability of an event that is certain below `a` and impossible above `b`. -/
theorem IsUniform.between {P : Measure Ω} {U : Ω → ℝ} (h : IsUniform P U) {A : Set Ω} {a b : ℝ} (h0 : 0 ≤ a)
    (hab : a ≤ b) (h1 : a ≤ 1) (hA : ∀ ω, U ω < a → ω ∈ A) (hB : ∀ ω, b < U ω → ω ∉ A) :
    a ≤ P.real A ∧ P.real A ≤ b := by
  have hP := h.prob
  have hlt : ∀ c, 0 ≤ c → c ≤ 1 → P.real {ω | U ω < c} = c := by
    intro c hc hc'
    rw [measureReal_def, h.lt hc', ENNReal.toReal_ofReal hc]
  constructor
  · rw [← hlt a h0 h1]
    exact measureReal_mono fun ω hω => hA ω hω
  · by_cases hb : b < 1
    · have hle : P.real A ≤ P.real {ω | U ω ≤ b} := measureReal_mono fun ω hω => by
        by_contra hc
        exact hB ω (not_le.1 hc) hω
      refine hle.trans ?_
      have : ∀ c, b < c → c ≤ 1 → P.real {ω | U ω ≤ b} ≤ c := by
        intro c hc hc'
        rw [← hlt c (by linarith) hc']
        exact measureReal_mono fun ω hω => lt_of_le_of_lt hω hc
      refine le_of_forall_gt_imp_ge_of_dense ?_
      intro c hc
      rcases le_or_gt c 1 with h' | h'
      · exact this c hc h'
      · exact measureReal_le_one.trans h'.le
    · exact measureReal_le_one.trans (not_lt.1 hb)

/-- The probability of an event that is impossible below `a` and certain above `a`. -/
theorem IsUniform.between_ge {P : Measure Ω} {U : Ω → ℝ} (h : IsUniform P U) {A : Set Ω} {a : ℝ} (h0 : 0 ≤ a)
    (h1 : a < 1) (hA : ∀ ω, U ω < a → ω ∉ A) (hB : ∀ ω, a < U ω → ω ∈ A) : P.real A = 1 - a := by
  have hP := h.prob
  have hge : ∀ c, 0 ≤ c → c ≤ 1 → P.real {ω | ¬ U ω < c} = 1 - c := by
    intro c hc hc'
    rw [measureReal_def, h.ge hc, ENNReal.toReal_ofReal (by linarith)]
  apply le_antisymm
  · rw [← hge a h0 h1.le]
    exact measureReal_mono fun ω hω hc => hA ω hc hω
  · have : ∀ c, a < c → c ≤ 1 → 1 - P.real A ≤ c := by
      intro c hc hc'
      have := hge c (by linarith) hc'
      have h2 : P.real {ω | ¬ U ω < c} ≤ P.real A :=
        measureReal_mono fun ω hω => hB ω (lt_of_lt_of_le hc (not_lt.1 hω))
      linarith
    have h3 : 1 - P.real A ≤ a := by
      refine le_of_forall_gt_imp_ge_of_dense ?_
      intro c hc
      rcases le_or_gt c 1 with h' | h'
      · exact this c hc h'
      · have := measureReal_nonneg (μ := P) (s := A); linarith
    linarith

/-- The law of a look-up in a table is the piecewise linear interpolant of the table. -/
theorem IsUniform.table {P : Measure Ω} {U : Ω → ℝ} (h : IsUniform P U) {eps : ℝ} {xp fp : List ℝ} (he : 0 ≤ eps)
    (hs : xp.Pairwise (· ≤ ·)) (hf : fp.Pairwise (· < ·)) (hn : 2 ≤ xp.length) (hlen : fp.length = xp.length)
    (h01 : ∀ y ∈ xp, 0 ≤ y ∧ y ≤ 1) {k : ℕ} (hk : k + 1 < xp.length) {x : ℝ} (h1 : fp.getD k 0 ≤ x)
    (h2 : x < fp.getD (k + 1) 0) {c : ℝ}
    (hc : c = xp.getD k 0 + (x - fp.getD k 0) / (fp.getD (k + 1) 0 - fp.getD k 0) *
      (xp.getD (k + 1) 0 - xp.getD k 0)) :
    c ≤ P.real {ω | interp eps (U ω) xp fp ≤ x} ∧ P.real {ω | interp eps (U ω) xp fp ≤ x} ≤ c + eps := by
  have hm : ∀ j, j < xp.length → 0 ≤ xp.getD j 0 ∧ xp.getD j 0 ≤ 1 := by
    intro j hj
    rw [List.getD_eq_getElem _ _ hj]
    exact h01 _ (List.getElem_mem _)
  have hx := chord_mem h1 h2 (sorted_getD hs (i := k) (j := k + 1) (by omega) (by omega))
  rw [← hc] at hx
  refine h.between ((hm k (by omega)).1.trans hx.1) (by linarith) (hx.2.trans (hm (k + 1) hk).2) ?_ ?_
  · intro ω hω
    exact (interp_chord he hs hf hn hlen hk h1 h2 hc).1 hω
  · intro ω hω
    exact not_le.2 ((interp_chord he hs hf hn hlen hk h1 h2 hc).2 hω)

/-- C108, centrals. The peak times drawn for a central halo follow the distribution function `F` of the model
(`frac_peaked_vs_lgm`) in units of `t_0`: at every `x` to better than 8e-6 plus the tolerance of `jnp.interp`,
and at the table nodes `i / 199` up to that tolerance. The halo peaks at `t_0` itself with exactly the remaining
probability `1 - F 1`, and at the floor `0.05 t_0` with probability `F 0.05`. -/
theorem C108_centrals (P : Measure Ω) (ext : Ext) (hext : ext.Lawful) (rng : Ω → Rng) (p : NT ℝ)
    (hb : Spec.Bounded TPCENS.bounds p) (lgm t_obs t_0 : ℝ) (ht : 0 < t_0) (key : Key)
    (hu : IsUniform P fun ω => (rng ω).uniform key) (tp : Ω → ℝ)
    (h : ∀ ω, (mc_tpeak_singlecen ext (rng ω) p lgm t_obs key t_0).val? = some (tp ω)) :
    ∃ F : ℝ → ℝ, (∀ x, frac_peaked_vs_lgm p [x] lgm t_obs = .ok [F x]) ∧ StrictMono F ∧
      (∀ x, 0.05 ≤ x → x < 1 → |P.real {ω | tp ω ≤ x * t_0} - F x| ≤ 0.000008 + ext.interp_eps) ∧
      (∀ i : ℕ, 10 ≤ i → i < 199 → F (i / 199) ≤ P.real {ω | tp ω ≤ i / 199 * t_0} ∧
        P.real {ω | tp ω ≤ i / 199 * t_0} ≤ F (i / 199) + ext.interp_eps) ∧
      P.real {ω | tp ω < t_0} = F 1 ∧ P.real {ω | tp ω = t_0} = 1 - F 1 ∧
      |P.real {ω | tp ω = 0.05 * t_0} - F 0.05| ≤ 0.000008 + ext.interp_eps ∧
      P.real {ω | tp ω < 0.05 * t_0} = 0 := by
  have hP := hu.prob
  obtain ⟨x0, hx0⟩ := utp_x0_ok hb lgm t_obs
  set F : ℝ → ℝ := fun x => Utils.sigmoid x x0 (JOps.lit 5.0) (JOps.lit 0.0) (JOps.lit 1.0) with hF
  have hFe : ∀ x, F x = Real.sigmoid (5 * (x - x0)) := by
    intro x
    show (0.0 : ℝ) + (1.0 - 0.0) * Real.sigmoid (5.0 * (x - x0)) = _
    norm_num
  have hF01 : ∀ x, 0 < F x ∧ F x < 1 := by
    intro x
    rw [hFe]
    exact ⟨Real.sigmoid_pos _, Real.sigmoid_lt_one _⟩
  have hFm : StrictMono F := sigmoid_strictMono (x0 := x0) (k := 5.0) (ylo := 0.0) (yhi := 1.0) (by norm_num)
    (by norm_num)
  have hs : (UTP_TABLE.map F).Pairwise (· < ·) := map_sigmoid_strict utp_table_strict x0
  have hs' : (UTP_TABLE.map F).Pairwise (· ≤ ·) := hs.imp fun h => h.le
  have hlen : (UTP_TABLE.map F).length = 200 := by simp [utp_table_length]
  have hlen2 : 2 ≤ (UTP_TABLE.map F).length := by omega
  have hlen3 : UTP_TABLE.length = (UTP_TABLE.map F).length := by simp
  have h01 : ∀ y ∈ UTP_TABLE.map F, 0 ≤ y ∧ y ≤ 1 := by
    intro y hy
    obtain ⟨x, -, rfl⟩ := List.mem_map.1 hy
    exact ⟨(hF01 x).1.le, (hF01 x).2.le⟩
  have hnode : ∀ j : ℕ, j < 200 → UTP_TABLE.getD j 0 = (j : ℝ) / 199 := by
    intro j hj
    rw [UTP_TABLE, linspace_getD _ _ hj]; norm_num; ring
  have hFn : ∀ j : ℕ, j < 200 → (UTP_TABLE.map F).getD j 0 = F ((j : ℝ) / 199) := by
    intro j hj
    rw [List.getD_eq_getElem _ _ (by rw [hlen]; exact hj), List.getElem_map, ← hnode j hj,
      List.getD_eq_getElem _ _ (by rw [utp_table_length]; exact hj)]
  set v : Ω → ℝ := fun ω => interp ext.interp_eps ((rng ω).uniform key) (UTP_TABLE.map F) UTP_TABLE with hv
  have htp : ∀ ω, tp ω = max (v ω) UTP_MIN * t_0 := by
    intro ω
    have h1 : mc_tpeak_singlecen ext (rng ω) p lgm t_obs key t_0 = Except.ok (max (v ω) UTP_MIN * t_0, [key]) := by
      unfold mc_tpeak_singlecen mc_utp_singlecen frac_peaked_vs_lgm
      rw [hx0]; rfl
    have h2 := h ω
    rw [h1] at h2
    exact (Option.some.inj h2).symm
  have hmin : UTP_MIN = 0.05 := rfl
  have htop : ∀ ω, ((rng ω).uniform key < F 1 → v ω < 1) ∧ (F 1 < (rng ω).uniform key → v ω = 1) := by
    intro ω
    have h1 := interp_top (eps := ext.interp_eps) (u := (rng ω).uniform key) hs' utp_table_strict hlen2 hlen3
    have e1 : (((199 : ℕ) : ℝ)) / 199 = 1 := by norm_num
    have e2 := hFn 199 (by norm_num)
    have e3 := hnode 199 (by norm_num)
    rw [e1] at e2 e3
    rw [hlen, show 200 - 1 = 199 from rfl, e2, e3] at h1
    exact h1
  have hle : ∀ x, 0.05 ≤ x → {ω | tp ω ≤ x * t_0} = {ω | v ω ≤ x} := by
    intro x hx
    ext ω
    show tp ω ≤ x * t_0 ↔ v ω ≤ x
    rw [htp ω, mul_le_mul_iff_left₀ ht, max_le_iff, hmin]
    exact ⟨fun h => h.1, fun h => ⟨h, hx⟩⟩
  have hcell : ∀ (k : ℕ) (x : ℝ), k < 199 → (k : ℝ) / 199 ≤ x → x < ((k : ℝ) + 1) / 199 → 0.05 ≤ x →
      F (k / 199) + (x - k / 199) / (((k : ℝ) + 1) / 199 - k / 199) * (F (((k : ℝ) + 1) / 199) - F (k / 199)) ≤
        P.real {ω | tp ω ≤ x * t_0} ∧ P.real {ω | tp ω ≤ x * t_0} ≤
      F (k / 199) + (x - k / 199) / (((k : ℝ) + 1) / 199 - k / 199) * (F (((k : ℝ) + 1) / 199) - F (k / 199)) +
        ext.interp_eps := by
    intro k x hk h1 h2 hx
    rw [hle x hx]
    have e1 := hnode (k + 1) (by omega)
    have e2 := hFn (k + 1) (by omega)
    push_cast at e1 e2
    refine hu.table hext.eps_nonneg hs' utp_table_strict hlen2 hlen3 h01 (k := k) (by omega)
      (by rw [hnode k (by omega)]; exact h1) (by rw [e1]; exact h2) ?_
    rw [hnode k (by omega), hFn k (by omega), e1, e2]
  have hall : ∀ x, 0.05 ≤ x → x < 1 → |P.real {ω | tp ω ≤ x * t_0} - F x| ≤ 0.000008 + ext.interp_eps := by
    intro x hx hx1
    have hx0' : (0 : ℝ) ≤ x * 199 := by norm_num at hx; linarith
    have hk1 := Nat.floor_le hx0'
    have hk2 := Nat.lt_floor_add_one (x * 199)
    set k := ⌊x * 199⌋₊
    have hk : k < 199 := by
      rw [Nat.floor_lt hx0']; push_cast; linarith
    have a1 : (k : ℝ) / 199 ≤ x := by rw [div_le_iff₀ (by norm_num)]; exact hk1
    have a2 : x < ((k : ℝ) + 1) / 199 := by rw [lt_div_iff₀ (by norm_num)]; exact hk2
    obtain ⟨b1, b2⟩ := hcell k x hk a1 a2 hx
    have c := chord_error (by norm_num) (sigm_deriv x0) (sigm_deriv2 x0) (a1.trans_lt a2) a1 a2.le
    simp only [← hFe] at c
    have c4 : (5 / 2 : ℝ) * (((k : ℝ) + 1) / 199 - k / 199) ^ 2 / 8 ≤ 0.000008 := by
      have : ((k : ℝ) + 1) / 199 - k / 199 = 1 / 199 := by ring
      rw [this]; norm_num
    have he := hext.eps_nonneg
    have c5 := abs_le.1 (c.trans c4)
    rw [abs_le]
    constructor <;> linarith [c5.1, c5.2]
  refine ⟨F, fun x => ?_, hFm, hall, ?_, ?_, ?_, ?_, ?_⟩
  · unfold frac_peaked_vs_lgm
    rw [hx0]; rfl
  · intro i h1 h2
    have hi' : (10 : ℝ) ≤ i := by exact_mod_cast h1
    have hx : (0.05 : ℝ) ≤ i / 199 := by norm_num; linarith
    have := hcell i (i / 199) h2 le_rfl (by rw [div_lt_div_iff_of_pos_right (by norm_num)]; linarith) hx
    rw [sub_self, zero_div, zero_mul, add_zero] at this
    exact this
  · have : ∀ ω, tp ω < t_0 ↔ v ω < 1 := by
      intro ω
      have e : tp ω < t_0 ↔ tp ω < 1 * t_0 := by rw [one_mul]
      rw [e, htp ω, mul_lt_mul_iff_left₀ ht, max_lt_iff, hmin]
      exact ⟨fun h => h.1, fun h => ⟨h, by norm_num⟩⟩
    have hb := hu.between (A := {ω | tp ω < t_0}) (hF01 1).1.le le_rfl (hF01 1).2.le
      (fun ω hω => (this ω).2 ((htop ω).1 hω)) (fun ω hω => by
        show ¬ tp ω < t_0
        rw [this, (htop ω).2 hω]; exact lt_irrefl _)
    exact le_antisymm hb.2 hb.1
  · have : ∀ ω, tp ω = t_0 ↔ v ω = 1 := by
      intro ω
      have e : tp ω = t_0 ↔ tp ω = 1 * t_0 := by rw [one_mul]
      rw [e, htp ω, mul_left_inj' ht.ne', hmin]
      constructor
      · intro h
        rcases max_choice (v ω) 0.05 with h' | h' <;> rw [h'] at h
        · exact h
        · norm_num at h
      · intro h; rw [h]; norm_num
    exact hu.between_ge (A := {ω | tp ω = t_0}) (hF01 1).1.le (hF01 1).2
      (fun ω hω => by
        show ¬ tp ω = t_0
        rw [this]; exact ((htop ω).1 hω).ne) (fun ω hω => (this ω).2 ((htop ω).2 hω))
  · have : {ω | tp ω = 0.05 * t_0} = {ω | tp ω ≤ 0.05 * t_0} := by
      ext ω
      show tp ω = 0.05 * t_0 ↔ tp ω ≤ 0.05 * t_0
      refine ⟨fun h => h.le, fun h => le_antisymm h ?_⟩
      rw [htp ω, mul_le_mul_iff_left₀ ht, hmin]
      exact le_max_right _ _
    rw [this]
    exact hall 0.05 le_rfl (by norm_num)
  · have : {ω | tp ω < 0.05 * t_0} = ∅ := by
      apply Set.eq_empty_of_forall_notMem
      intro ω
      show ¬ tp ω < 0.05 * t_0
      rw [htp ω, not_lt, mul_le_mul_iff_left₀ ht, hmin]
      exact le_max_right _ _
    rw [this, measureReal_empty]

theorem sat_params_range {p : NT ℝ} (hb : Spec.Bounded TPSATS.bounds p) (lgm t_obs : ℝ) :
    (∃ loc, get_utp_loc p lgm t_obs = .ok loc ∧ 0.15 < loc ∧ loc < 0.96) ∧
    ∃ s, get_utp_scale p lgm t_obs = .ok s ∧ 0.1 < s ∧ s < 0.6 := by
  obtain ⟨a0, -, e0, -⟩ := bget hb "utp_loc_lgm_ylo_t0" (5.0, 10.0) (by simp [TPSATS])
  obtain ⟨a1, -, e1, u1, v1⟩ := bget hb "utp_loc_lgm_ylo_early" (0.4, 0.8) (by simp [TPSATS])
  obtain ⟨a2, -, e2, u2, v2⟩ := bget hb "utp_loc_lgm_ylo_late" (0.15, 0.25) (by simp [TPSATS])
  obtain ⟨a3, -, e3, -⟩ := bget hb "utp_loc_lgm_x0" (11.0, 13.0) (by simp [TPSATS])
  obtain ⟨a4, -, e4, -⟩ := bget hb "utp_scale_lgm_ylo_t0" (6.0, 11.0) (by simp [TPSATS])
  obtain ⟨a5, -, e5, u5, v5⟩ := bget hb "utp_scale_lgm_ylo_early" (0.1, 0.5) (by simp [TPSATS])
  obtain ⟨a6, -, e6, u6, v6⟩ := bget hb "utp_scale_lgm_ylo_late" (0.1, 0.6) (by simp [TPSATS])
  norm_num at u1 v1 u2 v2 u5 v5 u6 v6
  constructor
  · refine ⟨_, by
      unfold get_utp_loc get_utp_loc_lgm_ylo
      simp only [e0, e1, e2, e3, bind, Except.bind, pure, Except.pure]
      rfl, ?_⟩
    refine usigmoid_Ioo (usigmoid_Ioo ⟨?_, ?_⟩ ⟨?_, ?_⟩) ⟨?_, ?_⟩ <;> norm_num [JOps.lit] <;> linarith
  · refine ⟨_, by
      unfold get_utp_scale get_utp_scale_lgm_ylo
      simp only [e4, e5, e6, bind, Except.bind, pure, Except.pure]
      rfl, ?_⟩
    refine usigmoid_Ioo (usigmoid_Ioo ⟨?_, ?_⟩ ⟨?_, ?_⟩) ⟨?_, ?_⟩ <;> norm_num [JOps.lit] <;> linarith

theorem cell_bound {s m Z w : ℝ} (s0 : 0 < s) (hm0 : 0 < m) (hm8 : m ≤ 8) (hZ0 : 0 < Z)
    (hZm : 1249 / 10000 * m ≤ Z) (hw0 : 0 ≤ w) (h1 : w ≤ s * m / 49) :
    29 / 100 / (s ^ 2 * Z) * w ^ 2 / 8 ≤ 0.001 := by
  have h2 : w ^ 2 ≤ (s * m / 49) ^ 2 := pow_le_pow_left₀ hw0 h1 2
  have h3 : 29 / 100 / (s ^ 2 * Z) * w ^ 2 / 8 ≤ 29 / 100 / (s ^ 2 * Z) * (s * m / 49) ^ 2 / 8 := by
    apply div_le_div_of_nonneg_right _ (by norm_num)
    exact mul_le_mul_of_nonneg_left h2 (by positivity)
  refine h3.trans ?_
  have e2 : 29 / 100 / (s ^ 2 * Z) * (s * m / 49) ^ 2 / 8 = (29 / (100 * 2401 * 8)) * (m * (m / Z)) := by
    field_simp
    norm_num
  rw [e2]
  have h5 : m / Z ≤ 10000 / 1249 := by
    rw [div_le_div_iff₀ hZ0 (by norm_num)]; linarith
  have h6 : m * (m / Z) ≤ 8 * (10000 / 1249) := mul_le_mul hm8 h5 (by positivity) (by norm_num)
  calc (29 / (100 * 2401 * 8) : ℝ) * (m * (m / Z)) ≤ 29 / (100 * 2401 * 8) * (8 * (10000 / 1249)) :=
        mul_le_mul_of_nonneg_left h6 (by norm_num)
    _ ≤ 0.001 := by norm_num

set_option maxHeartbeats 1000000 in
/-- The distribution of one draw of `mc_tp_pdf_singlesat` against the truncated normal distribution. -/
theorem sat_law {P : Measure Ω} {eps : ℝ} (he : 0 ≤ eps) {rng : Ω → Rng} {key : Key}
    (hu : IsUniform P fun ω => (rng ω).uniform key) {loc s : ℝ} (l1 : 0.15 < loc) (l2 : loc < 0.96) (s1 : 0.1 < s)
    {v : Ω → ℝ} (hv : ∀ ω, mc_tp_pdf_singlesat (Ext.normal eps) (rng ω) key loc s = .ok (v ω, [key])) (x : ℝ) :
    |P.real {ω | v ω ≤ x} - ((gaussianReal loc (s ^ 2).toNNReal)[|Set.Icc 0.1 1]).real (Set.Iic x)| ≤
      0.001 + eps := by
  have hP := hu.prob
  norm_num at l1 l2 s1
  have s0 : 0 < s := by linarith
  set a := (X_MIN - loc) / s with ha
  set b := (X_MAX - loc) / s with hb
  have hXm : X_MIN = 1 / 10 := by norm_num [X_MIN]
  have hXM : X_MAX = 1 := by norm_num [X_MAX]
  have a0 : a ≤ 0 := div_nonpos_of_nonpos_of_nonneg (by rw [hXm]; linarith) s0.le
  have b0 : 0 ≤ b := div_nonneg (by rw [hXM]; linarith) s0.le
  have has : a * s = 1 / 10 - loc := by rw [ha, div_mul_cancel₀ _ s0.ne', hXm]
  have hbs : b * s = 1 - loc := by rw [hb, div_mul_cancel₀ _ s0.ne', hXM]
  have hab : a < b := by
    rw [ha, hb]
    exact div_lt_div_of_pos_right (by rw [hXm, hXM]; norm_num) s0
  set Z := ndtr b - ndtr a with hZ
  have hZ0 : 0 < Z := sub_pos.2 (ndtr_strictMono hab)
  set m := min 4 b + min 4 (-a) with hm
  have hZm : 1249 / 10000 * m ≤ Z := ndtr_around a0 b0
  have hm8 : m ≤ 8 := by have := min_le_left 4 b; have := min_le_left 4 (-a); linarith
  have hsm : s * m = min (4 * s) (1 - loc) + min (4 * s) (loc - 1 / 10) := by
    rw [hm, mul_add, mul_min_of_nonneg _ _ s0.le, mul_min_of_nonneg _ _ s0.le]
    have e1 : s * b = 1 - loc := by linarith
    have e2 : s * -a = loc - 1 / 10 := by linarith
    rw [e1, e2, mul_comm s 4]
  have hsm4 : 2 / 5 ≤ s * m := by
    rw [hsm]
    rcases min_cases (4 * s) (1 - loc) with ⟨h1, h2⟩ | ⟨h1, h2⟩ <;>
    rcases min_cases (4 * s) (loc - 1 / 10) with ⟨h3, h4⟩ | ⟨h3, h4⟩ <;> rw [h1, h3] <;> linarith
  have hm0 : 0 < m := by
    by_contra hc
    have := mul_nonpos_of_nonneg_of_nonpos s0.le (not_lt.1 hc)
    linarith
  -- the distribution function
  set F : ℝ → ℝ := fun x => truncnorm_cdf x a b loc s with hF
  have hFD : ∀ x, ((gaussianReal loc (s ^ 2).toNNReal)[|Set.Icc 0.1 1]).real (Set.Iic x) = F x := by
    intro x
    rw [hF]
    have := truncnorm_cdf_eq (x := x) (loc := loc) s0 hab (v := (s ^ 2).toNNReal)
      (Real.coe_toNNReal _ (sq_nonneg s))
    rw [has, hbs] at this
    have e1 : loc + (1 / 10 - loc) = 0.1 := by norm_num
    have e2 : loc + (1 - loc) = 1 := by ring
    rw [e1, e2] at this
    exact this.symm
  rw [hFD]
  set G : ℝ → ℝ := fun x => (ndtr ((x - loc) / s) - ndtr a) / Z with hG
  have hFG : ∀ x, 1 / 10 ≤ x → x ≤ 1 → F x = G x := by
    intro x h1 h2
    have h3 : a ≤ (x - loc) / s := by rw [ha, hXm]; exact div_le_div_of_nonneg_right (by linarith) s0.le
    have h4 : (x - loc) / s ≤ b := by rw [hb, hXM]; exact div_le_div_of_nonneg_right (by linarith) s0.le
    simp only [hF, hG, truncnorm_cdf]
    split_ifs with h5 h6
    · rw [le_antisymm h4 h5, div_self hZ0.ne']
    · rw [le_antisymm h6 h3, sub_self, zero_div]
    · rfl
  have hy : ∀ x, HasDerivAt (fun x => (x - loc) / s) (1 / s) x := fun x =>
    ((hasDerivAt_id x).sub_const loc).div_const s
  have hG1 : ∀ x, HasDerivAt G (gaussianPDFReal 0 1 ((x - loc) / s) / (s * Z)) x := by
    intro x
    have := ((HasDerivAt.comp (h₂ := ndtr) x (ndtr_hasDerivAt ((x - loc) / s)) (hy x)).sub_const (ndtr a)).div_const Z
    exact this.congr_deriv (by field_simp)
  have hG2 : ∀ x y, x ≤ y → |gaussianPDFReal 0 1 ((y - loc) / s) / (s * Z) -
      gaussianPDFReal 0 1 ((x - loc) / s) / (s * Z)| ≤ 29 / 100 / (s ^ 2 * Z) * (y - x) := by
    intro x y hxy
    refine lip_of_deriv (G := fun x => gaussianPDFReal 0 1 ((x - loc) / s) / (s * Z))
      (G' := fun x => (- ((x - loc) / s) * gaussianPDFReal 0 1 ((x - loc) / s)) / (s ^ 2 * Z)) ?_ ?_ x y hxy
    · intro x
      have := (HasDerivAt.comp (h₂ := gaussianPDFReal 0 1) x (pdf_deriv ((x - loc) / s)) (hy x)).div_const (s * Z)
      exact this.congr_deriv (by field_simp)
    · intro x
      rw [abs_div, abs_of_pos (show 0 < s ^ 2 * Z by positivity)]
      exact div_le_div_of_nonneg_right (pdf_deriv_le _) (by positivity)
  have hFm : Monotone F := fun x y hxy => (normal_lawful he).cdf_mono a b loc s s0 x y hxy
  have hF01 : ∀ x, 0 ≤ F x ∧ F x ≤ 1 := by
    intro x
    rw [← hFD]
    exact ⟨measureReal_nonneg, by
      have : IsProbabilityMeasure ((gaussianReal loc (s ^ 2).toNNReal)[|Set.Icc 0.1 1]) := by
        apply cond_isProbabilityMeasure
        intro h0
        have h1 := gaussian_real_Icc loc s0 (Real.coe_toNNReal _ (sq_nonneg s))
          (show (0.1 : ℝ) ≤ 1 by norm_num)
        rw [measureReal_def, h0, ENNReal.toReal_zero] at h1
        have h2 : (1 - loc) / s = b := by rw [hb, hXM]
        have h3 : (0.1 - loc) / s = a := by rw [ha, hXm]; norm_num
        rw [h2, h3] at h1
        exact hZ0.ne h1
      exact measureReal_le_one⟩
  -- the table
  set xmin := max (loc - 4 * s) (X_MIN + UTP_EPS) with hxmin
  set xmax := min (loc + 4 * s) (X_MAX - UTP_EPS) with hxmax
  have hq1 : X_MIN + UTP_EPS = 1001 / 10000 := by norm_num [X_MIN, UTP_EPS]
  have hq2 : X_MAX - UTP_EPS = 9999 / 10000 := by norm_num [X_MAX, UTP_EPS]
  have hlo : 1001 / 10000 ≤ xmin := by rw [hxmin, hq1]; exact le_max_right _ _
  have hhi : xmax ≤ 9999 / 10000 := by rw [hxmax, hq2]; exact min_le_right _ _
  have hminloc : xmin < loc := by rw [hxmin, hq1]; apply max_lt <;> linarith
  have hlocmax : loc < xmax := by rw [hxmax, hq2]; apply lt_min <;> linarith
  have hlt : xmin < xmax := hminloc.trans hlocmax
  have hwid : xmax - xmin ≤ s * m := by
    rw [hsm]
    have h1 : xmax - loc ≤ min (4 * s) (1 - loc) := by
      apply le_min
      · have := min_le_left (loc + 4 * s) (X_MAX - UTP_EPS); rw [← hxmax] at this; linarith
      · linarith
    have h2 : loc - xmin ≤ min (4 * s) (loc - 1 / 10) := by
      apply le_min
      · have := le_max_left (loc - 4 * s) (X_MIN + UTP_EPS); rw [← hxmin] at this; linarith
      · linarith
    linarith
  set T := linspace xmin xmax NPTS_CDF_TABLE with hT
  have hTlen : T.length = 50 := linspace_length _ _ _
  have hst : T.Pairwise (· < ·) := linspace_strict hlt (n := NPTS_CDF_TABLE) (by norm_num [NPTS_CDF_TABLE])
  have hnode : ∀ j : ℕ, j < 50 → T.getD j 0 = xmin + j * ((xmax - xmin) / 49) := by
    intro j hj
    rw [hT, linspace_getD _ _ (by exact hj)]
    norm_num [NPTS_CDF_TABLE]
  have hFn : ∀ j : ℕ, j < 50 → (T.map F).getD j 0 = F (xmin + j * ((xmax - xmin) / 49)) := by
    intro j hj
    rw [List.getD_eq_getElem _ _ (by simp [hTlen, hj]), List.getElem_map, ← hnode j hj,
      List.getD_eq_getElem _ _ (by rw [hTlen]; exact hj)]
  have hmap : (T.map F).Pairwise (· ≤ ·) := by
    rw [List.pairwise_map]
    exact hst.imp fun h => hFm h.le
  have hv' : ∀ ω, v ω = interp eps ((rng ω).uniform key) (T.map F) T := by
    intro ω
    exact (RandM.ok_inj (hv ω)).1
  have hlen2 : 2 ≤ (T.map F).length := by rw [List.length_map, hTlen]; norm_num
  have hlen3 : T.length = (T.map F).length := by simp
  have hrange : ∀ ω, xmin ≤ v ω ∧ v ω ≤ xmax := by
    intro ω
    have := interp_mem (x := (rng ω).uniform key) he hmap (hst.imp fun h => h.le) hlen2 hlen3
    rw [List.length_map, hTlen, hnode 0 (by norm_num), hnode 49 (by norm_num), ← hv'] at this
    norm_num at this
    refine ⟨this.1, this.2.trans_eq (by ring)⟩
  -- the mass outside of the table
  have hslope : ∀ x y, x ≤ y → G y - G x ≤ 801 / 100 * (y - x) := by
    intro x y hxy
    refine image_sub_le_mul_sub_of_deriv_le (fun z => (hG1 z).differentiableAt) (fun z => ?_) hxy
    rw [(hG1 z).deriv]
    have h1 := pdf_le ((z - loc) / s)
    have h2 : 4996 / 100000 ≤ s * Z := by nlinarith
    rw [div_le_iff₀ (by positivity)]
    nlinarith
  have h4 := ndtr_four
  have h4' : ndtr (-4) ≤ 4 / 10000 := by rw [ndtr_neg]; linarith
  have hlow : F xmin ≤ 0.001 := by
    rw [hFG _ (by linarith) (by linarith)]
    rcases max_choice (loc - 4 * s) (X_MIN + UTP_EPS) with h | h
    · have e : (xmin - loc) / s = -4 := by rw [hxmin, h]; field_simp; ring
      have ha4 : a ≤ -4 := by
        rw [← e, ha, hXm]
        exact div_le_div_of_nonneg_right (by linarith) s0.le
      have h5 := ndtr_strictMono.monotone ha4
      have h6 := ndtr_strictMono.monotone b0
      rw [ndtr_zero] at h6
      have h7 : 0 ≤ ndtr a := cdf_nonneg _ _
      simp only [hG]
      rw [e, div_le_iff₀ hZ0, hZ]
      norm_num
      linarith
    · have h5 : G (1 / 10) = 0 := by
        have e : (1 / 10 - loc) / s = a := by rw [ha, hXm]
        simp only [hG]
        rw [e, sub_self, zero_div]
      have h6 := hslope (1 / 10) xmin (by linarith)
      rw [h5] at h6
      have h7 : xmin = 1001 / 10000 := by rw [hxmin, h, hq1]
      rw [h7] at h6 ⊢
      norm_num at h6 ⊢
      linarith
  have hhigh : 1 - F xmax ≤ 0.001 := by
    rw [hFG _ (by linarith) (by linarith)]
    rcases min_choice (loc + 4 * s) (X_MAX - UTP_EPS) with h | h
    · have e : (xmax - loc) / s = 4 := by rw [hxmax, h]; field_simp; ring
      have hb4 : 4 ≤ b := by
        rw [← e, hb, hXM]
        exact div_le_div_of_nonneg_right (by linarith) s0.le
      have h5 := ndtr_strictMono.monotone hb4
      have h6 := ndtr_strictMono.monotone a0
      rw [ndtr_zero] at h6
      have h7 : ndtr b ≤ 1 := cdf_le_one _ _
      simp only [hG]
      rw [e, sub_le_iff_le_add, ← sub_le_iff_le_add', le_div_iff₀ hZ0, hZ]
      norm_num
      linarith
    · have h5 : G 1 = 1 := by
        have e : (1 - loc) / s = b := by rw [hb, hXM]
        simp only [hG]
        rw [e, div_self hZ0.ne']
      have h6 := hslope xmax 1 (by linarith)
      rw [h5] at h6
      have h7 : xmax = 9999 / 10000 := by rw [hxmax, h, hq2]
      rw [h7] at h6 ⊢
      norm_num at h6 ⊢
      linarith
  rcases lt_or_ge x xmin with hx | hx
  · have : {ω | v ω ≤ x} = ∅ := by
      apply Set.eq_empty_of_forall_notMem
      intro ω hω
      have : v ω ≤ x := hω
      linarith [(hrange ω).1]
    rw [this, measureReal_empty, zero_sub, abs_neg, abs_of_nonneg (hF01 x).1]
    linarith [hFm hx.le]
  rcases le_or_gt xmax x with hx' | hx'
  · have : {ω | v ω ≤ x} = Set.univ := by
      apply Set.eq_univ_of_forall
      intro ω
      exact (hrange ω).2.trans hx'
    rw [this, probReal_univ, abs_of_nonneg (by linarith [(hF01 x).2])]
    linarith [hFm hx']
  -- a cell of the table
  set w := (xmax - xmin) / 49 with hw
  have hw0 : 0 < w := div_pos (by linarith) (by norm_num)
  have hq : 0 ≤ (x - xmin) / w := div_nonneg (by linarith) hw0.le
  have hk1 := Nat.floor_le hq
  have hk2 := Nat.lt_floor_add_one ((x - xmin) / w)
  set k := ⌊(x - xmin) / w⌋₊
  have hk : k < 49 := by
    rw [Nat.floor_lt hq, div_lt_iff₀ hw0]
    have : ((49 : ℕ) : ℝ) * w = xmax - xmin := by rw [hw]; push_cast; ring
    rw [this]; linarith
  rw [le_div_iff₀ hw0] at hk1
  rw [div_lt_iff₀ hw0] at hk2
  have c1 : xmin + k * w ≤ x := by linarith
  have c2 : x < xmin + ((k + 1 : ℕ) : ℝ) * w := by push_cast; linarith
  have hset : {ω | v ω ≤ x} = {ω | interp eps ((rng ω).uniform key) (T.map F) T ≤ x} := by
    ext ω
    show v ω ≤ x ↔ _
    rw [hv']; rfl
  have htab := hu.table he hmap hst hlen2 hlen3 (by
      intro y hy
      obtain ⟨z, -, rfl⟩ := List.mem_map.1 hy
      exact hF01 z) (k := k) (x := x) (by rw [List.length_map, hTlen]; omega) (by rw [hnode k (by omega)]; exact c1)
    (by rw [hnode (k + 1) (by omega)]; exact c2) rfl
  rw [← hset, hnode k (by omega), hnode (k + 1) (by omega), hFn k (by omega), hFn (k + 1) (by omega)] at htab
  have hk49 : ((k + 1 : ℕ) : ℝ) ≤ 49 := by exact_mod_cast hk
  have hkw : ((k + 1 : ℕ) : ℝ) * w ≤ xmax - xmin := by
    calc ((k + 1 : ℕ) : ℝ) * w ≤ 49 * w := mul_le_mul_of_nonneg_right hk49 hw0.le
      _ = xmax - xmin := by rw [hw]; ring
  have hkw0 : 0 ≤ (k : ℝ) * w := by positivity
  have hce := chord_error (x := x) (by positivity) hG1 hG2 (c1.trans_lt c2) c1 c2.le
  rw [← hFG x (by linarith) (by linarith), ← hFG (xmin + k * w) (by linarith) (by linarith),
    ← hFG (xmin + ((k + 1 : ℕ) : ℝ) * w) (by linarith) (by linarith)] at hce
  have hbound : 29 / 100 / (s ^ 2 * Z) * (xmin + ((k + 1 : ℕ) : ℝ) * w - (xmin + k * w)) ^ 2 / 8 ≤ 0.001 := by
    have e : xmin + ((k + 1 : ℕ) : ℝ) * w - (xmin + k * w) = w := by push_cast; ring
    rw [e]
    have h1 : w ≤ s * m / 49 := div_le_div_of_nonneg_right hwid (by norm_num)
    exact cell_bound s0 hm0 hm8 hZ0 hZm hw0.le h1
  have hce' := abs_le.1 (hce.trans hbound)
  rw [abs_le]
  constructor <;> linarith [htab.1, htab.2, hce'.1, hce'.2]

/-- C108, satellites. The peak times drawn for a satellite, in units of `t_obs`, follow the normal distribution
with the location and scale of the model, conditioned on lying in [0.1, 1]: the distribution functions differ
nowhere by more than 0.001 plus the tolerance of `jnp.interp`. -/
theorem C108_satellites (P : Measure Ω) (eps : ℝ) (he : 0 ≤ eps) (rng : Ω → Rng) (p : NT ℝ)
    (hb : Spec.Bounded TPSATS.bounds p) (lgm t_obs : ℝ) (ht : 0 < t_obs) (key : Key)
    (hu : IsUniform P fun ω => (rng ω).uniform key) (tp : Ω → ℝ)
    (h : ∀ ω, (mc_tpeak_singlesat (Ext.normal eps) (rng ω) p key lgm t_obs).val? = some (tp ω)) :
    ∃ loc s, get_utp_loc p lgm t_obs = .ok loc ∧ get_utp_scale p lgm t_obs = .ok s ∧ 0 < s ∧
      ∀ x, |P.real {ω | tp ω ≤ x * t_obs} -
        ((gaussianReal loc (s ^ 2).toNNReal)[|Set.Icc 0.1 1]).real (Set.Iic x)| ≤ 0.001 + eps := by
  obtain ⟨⟨loc, hl, l1, l2⟩, s, hs, s1, -⟩ := sat_params_range hb lgm t_obs
  refine ⟨loc, s, hl, hs, by norm_num at s1; linarith, fun x => ?_⟩
  have hd : ∀ ω, ∃ v, mc_tp_pdf_singlesat (Ext.normal eps) (rng ω) key loc s = .ok (v, [key]) := fun ω =>
    ⟨_, rfl⟩
  choose v hv using hd
  have htp : ∀ ω, tp ω = v ω * t_obs := by
    intro ω
    have h1 : mc_tpeak_singlesat (Ext.normal eps) (rng ω) p key lgm t_obs = .ok (v ω * t_obs, [key]) := by
      unfold mc_tpeak_singlesat
      rw [hl, hs]
      exact RandM.bind_of (ks := []) rfl (RandM.bind_of (ks := []) rfl (RandM.bind_of (ks' := []) (hv ω) rfl))
    have h2 := h ω
    rw [h1] at h2
    exact (Option.some.inj h2).symm
  have hset : {ω | tp ω ≤ x * t_obs} = {ω | v ω ≤ x} := by
    ext ω
    show tp ω ≤ x * t_obs ↔ v ω ≤ x
    rw [htp, mul_le_mul_iff_left₀ ht]
  rw [hset]
  exact sat_law he hu l1 l2 s1 hv x

theorem RandM.val_lift_bind {α β : Type} (a : α) (g : α → RandM β) :
    (RandM.lift (.ok a) >>= g).val? = (g a).val? := by
  show RandM.val? (RandM.bind (Except.ok (a, [])) g) = RandM.val? (g a)
  simp only [RandM.bind, RandM.val?]
  cases g a <;> rfl

/-- C108, haloes. A halo whose peak time is not given has the same peak time in its early and its late draw, and
that peak time has the distribution of `C108_centrals` or `C108_satellites`. -/
theorem C108_halos (P : Measure Ω) (eps : ℝ) (he : 0 ≤ eps) (rng : Ω → Rng) (hr : ∀ ω, (rng ω).Lawful) (kind : Kind)
    (p : NT ℝ) (hp : p.map Prod.fst = FIELDS) (hb : AllInBounds p) (lgm t_obs : ℝ) (key : Key) (lgt0 : ℝ)
    (hg : GoodInput kind lgm t_obs lgt0 none) (hu : IsUniform P fun ω => (rng ω).uniform (Key.child key 2 0)) :
    ∃ (c : ComponentParams ℝ) (E L : Ω → MahParams ℝ) (f : Ω → ℝ), get_component_model_params p = .ok c ∧
      (∀ ω, (mc_diffmah_params_single (Ext.normal eps) (rng ω) kind p lgm t_obs key lgt0 none).val? =
        some (E ω, L ω, f ω)) ∧
      (∀ ω, (E ω).t_peak = (L ω).t_peak) ∧
      (kind = .cens → ∃ F : ℝ → ℝ, (∀ x, frac_peaked_vs_lgm c.tp_cens [x] lgm t_obs = .ok [F x]) ∧
        (∀ x, 0.05 ≤ x → x < 1 → |P.real {ω | (E ω).t_peak ≤ x * (10 : ℝ) ^ lgt0} - F x| ≤ 0.000008 + eps) ∧
        P.real {ω | (E ω).t_peak = (10 : ℝ) ^ lgt0} = 1 - F 1) ∧
      (kind = .sats → ∃ loc s, get_utp_loc c.tp_sats lgm t_obs = .ok loc ∧
        get_utp_scale c.tp_sats lgm t_obs = .ok s ∧ 0 < s ∧
        ∀ x, |P.real {ω | (E ω).t_peak ≤ x * t_obs} -
          ((gaussianReal loc (s ^ 2).toNNReal)[|Set.Icc 0.1 1]).real (Set.Iic x)| ≤ 0.001 + eps) := by
  have hext := normal_lawful he
  obtain ⟨c, hc, hcb⟩ := components_bounded hp hb
  have ht : 0 < t_obs := by have := hg.2.2.1; norm_num at this; linarith
  have key' : ∀ ω, ∃ E L f, (mc_diffmah_params_single (Ext.normal eps) (rng ω) kind p lgm t_obs key lgt0 none).val? =
        some (E, L, f) ∧ E.t_peak = L.t_peak ∧
        (draw_t_peak (Ext.normal eps) (rng ω) kind p lgm t_obs key lgt0).val? = some E.t_peak := by
    intro ω
    obtain ⟨e, l, f, ks, hm, he', hl'⟩ := good_mean _ (rng ω) hext kind p hp hb lgm t_obs key lgt0 none hg
    obtain ⟨E, L, C, h1, -, h2, h3⟩ := C58_single _ (rng ω) (hr ω) kind p hp hb lgm t_obs key lgt0 none e l f ks
      hm he' hl'
    obtain ⟨tp, e1, l1, f1, h4, h5, h6⟩ := mean_res_none _ (rng ω) hext kind p hp hb lgm t_obs ht key lgt0
    rw [hm] at h4
    obtain ⟨h7, -⟩ := RandM.ok_inj h4
    obtain ⟨e2, l2, f2, h8, -, -, -, h9, h10⟩ := mean_t_peak_ok hp hb kind lgm t_obs tp
    rw [h5] at h8
    have h8 := Except.ok.inj h8
    simp only [Prod.mk.injEq] at h7 h8
    obtain ⟨rfl, rfl, rfl⟩ := h7
    obtain ⟨rfl, rfl, rfl⟩ := h8
    refine ⟨E, L, f1, ?_, ?_, ?_⟩
    · rw [h1]; rfl
    · rw [h2.t_peak, h3.t_peak, h9.t_peak, h10.t_peak]
    · rw [h2.t_peak, h9.t_peak, h6]; rfl
  choose E L f h1 h2 h3 using key'
  refine ⟨c, E, L, f, hc, h1, h2, ?_, ?_⟩
  · rintro rfl
    obtain ⟨F, a1, -, a2, -, -, a3, -⟩ := C108_centrals P _ hext rng c.tp_cens hcb.tp_cens lgm t_obs ((10 : ℝ) ^ lgt0)
      (by positivity) _ hu (fun ω => (E ω).t_peak) (fun ω => by
        have := h3 ω
        unfold draw_t_peak at this
        rwa [hc, RandM.val_lift_bind] at this)
    exact ⟨F, a1, a2, a3⟩
  · rintro rfl
    exact C108_satellites P eps he rng c.tp_sats hcb.tp_sats lgm t_obs ht _ hu (fun ω => (E ω).t_peak) (fun ω => by
        have := h3 ω
        unfold draw_t_peak at this
        rwa [hc, RandM.val_lift_bind] at this)

/-- The hypotheses of C108 can be met: there are parameters within their bounds, haloes in the range of the model
and lawful generators whose uniform number for a key is uniformly distributed. -/
example (key : Key) : (∃ p : NT ℝ, p.map Prod.fst = FIELDS ∧ AllInBounds p) ∧
    GoodInput .cens 12 10 1.1 none ∧ GoodInput .sats 12 10 1.1 none ∧
    ∃ (Ω : Type) (_ : MeasurableSpace Ω) (P : Measure Ω) (rng : Ω → Rng), (∀ ω, (rng ω).Lawful) ∧
      IsUniform P fun ω => (rng ω).uniform key := by
  refine ⟨exists_allInBounds, ⟨by norm_num, by norm_num, by norm_num, by norm_num, ?_⟩,
    ⟨by norm_num, by norm_num, by norm_num, by norm_num, trivial⟩,
    ℝ, inferInstance, volume.restrict (Set.Ico 0 1), fun ω => Rng.normal (fun _ => Int.fract ω)
      (fun _ n => List.replicate n 0) (fun _ => 0), fun ω => ?_, ?_⟩
  · have h0 : (10 : ℝ) ^ (0 : ℝ) < (10 : ℝ) ^ (1.1 : ℝ) := Real.rpow_lt_rpow_of_exponent_lt (by norm_num) (by norm_num)
    refine ⟨by simpa using h0, ?_⟩
    have h1 : ((10 : ℝ) ^ (1.1 : ℝ)) ^ (10 : ℕ) < 20 ^ (10 : ℕ) := by
      rw [← Real.rpow_natCast, ← Real.rpow_mul (by norm_num)]
      have : (1.1 : ℝ) * ((10 : ℕ) : ℝ) = ((11 : ℕ) : ℝ) := by norm_num
      rw [this, Real.rpow_natCast]
      norm_num
    exact lt_of_pow_lt_pow_left₀ 10 (by norm_num) h1
  · refine rng_normal_lawful (fun _ => ⟨Int.fract_nonneg _, Int.fract_lt_one _⟩) (by simp) ?_
    intro k n x hx
    rw [List.eq_of_mem_replicate hx]; norm_num
  · have h : IsUniform (volume.restrict (Set.Ico (0 : ℝ) 1)) (id : ℝ → ℝ) := ⟨measurable_id, Measure.map_id⟩
    exact uniform_fract h

end

end Diffmah

import Verif.Lemmas.PopGradWitRun

/-!
# The loss of the default parameters meets no tie
-/

set_option maxRecDepth 10000

namespace Diffmah

namespace PopGrad

open JOps JMinMax JFlow Pop TPeak PopParams MC

theorem first4_inj {x y : MahParams ℝ} (hx : Spec.Valid x) (hy : Spec.Valid y)
    (h : first4 (get_unbounded_mah_params x) = first4 (get_unbounded_mah_params y)) :
    x.logm0 = y.logm0 ∧ x.logtc = y.logtc ∧ x.early_index = y.early_index ∧ x.late_index = y.late_index := by
  have ex := C14_bounded_of_unbounded x hx
  have ey := C14_bounded_of_unbounded y hy
  unfold first4 at h
  injection h with h1 h
  injection h with h2 h
  injection h with h3 h
  injection h with h4 h
  rw [← ex, ← ey]
  simp only [get_bounded_mah_params, h1, h2, h3, h4, and_self]

/-- Before today (lgt0 = 1, time at least 0.1) a mass history is below its final mass, by at most
twice its largest index. -/
theorem noq_bounds {p : MahParams ℝ} (hl : 0 < p.late_index) (hle : p.late_index < p.early_index) {t : ℝ}
    (h1 : 0.1 ≤ t) (h2 : t ≤ 1) :
    p.logm0 - 2 * p.early_index ≤ log_mah_noq_kern p t 1 ∧ log_mah_noq_kern p t 1 < p.logm0 := by
  rw [noq_real, plaw_real]
  have ht : 0 < t := by norm_num at h1; linarith
  have hlo : (-1 : ℝ) ≤ Real.logb 10 t := by
    rw [Real.le_logb_iff_rpow_le (by norm_num) ht]
    norm_num at h1 ⊢
    exact h1
  have hhi : Real.logb 10 t ≤ 0 := by
    apply Real.logb_nonpos (by norm_num) ht.le h2
  generalize Real.logb 10 t = x at hlo hhi ⊢
  have hs := sigm_bounds (3.5 * (x - p.logtc))
  generalize Real.sigmoid (3.5 * (x - p.logtc)) = s at hs ⊢
  have hi1 : 0 < p.early_index + (p.late_index - p.early_index) * s := by nlinarith
  have hi2 : p.early_index + (p.late_index - p.early_index) * s ≤ p.early_index := by nlinarith
  generalize p.early_index + (p.late_index - p.early_index) * s = i at hi1 hi2 ⊢
  constructor <;> nlinarith

theorem good_default (kind : Kind) : GoodInput kind 12 15 1 none := by
  refine ⟨by norm_num, by norm_num, by norm_num, by norm_num, ?_⟩
  cases kind
  · simp only
    constructor <;> norm_num
  · trivial

theorem early_ne_late (kind : Kind) (k : Key) (s : SingleHistories) (ks : List Key)
    (h : MC.mc_diffmah_single wExt wRng kind DEFAULT_DIFFMAHPOP_PARAMS [1] 12 15 k 1 = Except.ok (s, ks)) :
    ∀ it < [(1 : ℝ)].length, s.log_mah_early.getD it 0 ≠ s.log_mah_late.getD it 0 := by
  have hp : DEFAULT_DIFFMAHPOP_PARAMS.map Prod.fst = FIELDS := rfl
  have hb := default_inBounds
  obtain ⟨h1, h2, h3⟩ := single_inv wExt wRng h
  obtain ⟨tp, e, l, f, hm, hmt, htp⟩ :=
    mean_res_none wExt wRng wExt_lawful kind _ hp hb 12 15 (by norm_num) k 1
  have htp' := draw_default kind k tp _ htp
  obtain ⟨e', l', f', hmt', -, -, -, hok, -⟩ := mean_t_peak_ok hp hb kind 12 15 tp
  rw [hmt] at hmt'
  cases hmt'
  obtain ⟨e', l', f', ks', hm', hve, hvl⟩ := good_mean wExt wRng wExt_lawful kind _ hp hb 12 15 k 1 none
    (good_default kind)
  obtain ⟨h4, -⟩ := RandM.ok_inj (hm'.symm.trans hm)
  cases h4
  obtain ⟨E, L, C, hs, -, hE, hL⟩ := C58_single wExt wRng wRng_lawful kind _ hp hb 12 15 k 1 none _ _ _ _ hm hve hvl
  obtain ⟨h5, -⟩ := RandM.ok_inj (hs.symm.trans h1)
  injection h5 with h6 h5
  injection h5 with h7 h5
  have htpE : E.t_peak = wTp kind := by rw [hE.t_peak, hok.t_peak, htp']
  have htpL : L.t_peak = wTp kind := by
    have : l.t_peak = tp := by
      obtain ⟨e', l', f', hmt', -, -, -, -, hok'⟩ := mean_t_peak_ok hp hb kind 12 15 tp
      rw [hmt] at hmt'
      cases hmt'
      exact hok'.t_peak
    rw [hL.t_peak, this, htp']
  have hn := hE.normal
  rw [mvn_early] at hn
  obtain ⟨a1, a2, a3, a4⟩ := first4_inj hve hE.valid hn
  have hn := hL.normal
  rw [show first4 (get_unbounded_mah_params l) = [_, _, _, _] from rfl, mvn_late] at hn
  obtain ⟨b1, b2, b3, b4⟩ := first4_inj wLate_valid hL.valid hn
  have hw1 : 0.1 ≤ min 1 (wTp kind) := by cases kind <;> norm_num [wTp]
  have hw2 : min 1 (wTp kind) ≤ 1 := min_le_left _ _
  have q1 := noq_bounds (p := E) (by have := hE.valid.late_lo; norm_num at this; linarith) hE.valid.late_lt_early
    hw1 hw2
  have q2 := noq_bounds (p := L) (by have := hL.valid.late_lo; norm_num at this; linarith) hL.valid.late_lt_early
    hw1 hw2
  obtain ⟨c0, c1, hc, -, -, -, hc0⟩ := hok.line
  have hc0 := hc0 (by norm_num) (by rw [htp']; cases kind <;> norm_num [wTp])
  intro it hit
  have hit0 : it = 0 := by simpa using hit
  subst hit0
  have r1 : s.log_mah_early.getD 0 0 = log_mah_kern E 1 1 := by
    rw [h6] at h2
    rw [show s.log_mah_early = (mah_singlehalo E [1] 1).2 from congrArg Prod.snd h2]
    rfl
  have r2 : s.log_mah_late.getD 0 0 = log_mah_kern L 1 1 := by
    rw [h7] at h3
    rw [show s.log_mah_late = (mah_singlehalo L [1] 1).2 from congrArg Prod.snd h3]
    rfl
  rw [r1, r2, log_mah_min, log_mah_min, htpE, htpL]
  rw [← b1, ← b3] at q2
  rw [← a1, hc] at q1
  apply ne_of_lt
  simp only [wLate] at q2
  norm_num at q1 q2 hc0 ⊢
  linarith [q1.2, q2.1]

theorem default_lookup {c : NT ℝ} (hc : c ∈ COMPONENT_PDICTS) {n : String} {v : ℝ} (h : (n, v) ∈ c) :
    DEFAULT_DIFFMAHPOP_PARAMS.lookup n = some v := by
  apply lookup_of_mem C50_no_collision.1
  rw [C50_no_collision.2.2]
  exact List.mem_flatten.2 ⟨c, hc, h⟩

theorem rhos_default : ∀ q ∈ RHOS, DEFAULT_DIFFMAHPOP_PARAMS.lookup q ≠ some 0 := by
  have hc : COV.pdict ∈ COMPONENT_PDICTS := by simp [COMPONENT_PDICTS]
  have key : ∀ q v, (q, v) ∈ COV.pdict → v ≠ 0 → DEFAULT_DIFFMAHPOP_PARAMS.lookup q ≠ some 0 := by
    intro q v h hv
    rw [default_lookup hc h]
    simpa using hv
  intro q hq
  simp only [RHOS, List.mem_cons, List.not_mem_nil, or_false] at hq
  rcases hq with rfl | rfl | rfl | rfl | rfl | rfl
  · exact key _ (-0.227) (by simp [COV]) (by norm_num)
  · exact key _ (0.290) (by simp [COV]) (by norm_num)
  · exact key _ (0.210) (by simp [COV]) (by norm_num)
  · exact key _ (0.290) (by simp [COV]) (by norm_num)
  · exact key _ (-0.121) (by simp [COV]) (by norm_num)
  · exact key _ (-0.290) (by simp [COV]) (by norm_num)

theorem haloNoTies_default (kind : Kind) (k : Key) :
    HaloNoTies wExt wRng kind DEFAULT_DIFFMAHPOP_PARAMS [1] 12 15 k 1 := by
  apply haloNoTies_good wExt wRng wExt_lawful wRng_lawful kind _ rfl default_inBounds _ _ _ _ _ (good_default kind)
    rhos_default
  · intro c hc
    rw [default_components] at hc
    cases hc
    exact drawNoTies_default kind _
  · intro c tp ks hc h
    rw [default_components] at hc
    cases hc
    rw [draw_default kind _ _ _ h]
    apply meanNoTies_default <;> cases kind <;> norm_num [wTp]
  · intro tp ks h t ht
    rw [List.mem_singleton.1 ht, draw_default kind _ _ _ h]
    cases kind <;> norm_num [wTp]

/-- One bin of the example: haloes of mass 12 at time 15, compared at time 1 with a mean and a
standard deviation. -/
noncomputable def wBin : PopLoss.Bin := ⟨[1], 12, 15, [11], [0.5]⟩

theorem lossNoTies_default (kind : Kind) (k : Key) :
    LossNoTies wExt wRng kind DEFAULT_DIFFMAHPOP_PARAMS [wBin, wBin] k 1 := by
  refine ⟨by simp, ?_⟩
  intro b hb
  have : b.1 = wBin := by
    have := (List.of_mem_zip hb).1
    simpa using this
  rw [this]
  refine ⟨by simp [wBin], by simp [wBin], fun k _ => haloNoTies_default kind k, ?_⟩
  intro ms hms
  exact std_pos wExt wRng kind _ default_inBounds _ _ _ _ _ ms hms (fun k s ks => early_ne_late kind k s ks)

theorem loss_default (kind : Kind) (k : Key) :
    ∃ l, (PopLoss.loss_mah_moments_multibin wExt wRng kind DEFAULT_DIFFMAHPOP_PARAMS [wBin, wBin] k 1).val? = some l := by
  obtain ⟨v, ks, h⟩ := many_bins_ok wExt wRng wExt_lawful wRng_lawful kind _ rfl default_inBounds [wBin, wBin] k 1 (by
    intro b hb
    have : b = wBin := by simpa using hb
    rw [this]
    exact ⟨good_default kind, rfl, rfl⟩)
  rw [h]
  exact ⟨v, rfl⟩

theorem default_u_params : ∃ u : NT ℝ, u.map Prod.fst = FIELDS.map ("u_" ++ ·) ∧
    params_of_u_params u = .ok DEFAULT_DIFFMAHPOP_PARAMS := by
  obtain ⟨u, p', h1, h2, h3, h4, h5, h6, h7, h8⟩ := C49_p_roundtrip_partial _ rfl default_inBounds
  refine ⟨u, h2, ?_⟩
  have : p' = DEFAULT_DIFFMAHPOP_PARAMS := by
    apply NT.ext_lookup h4 (by rw [NT.fields, h4]; exact C50_no_collision.1)
    intro n _
    by_cases hn : n ∈ ["late_index_x0_alpha", "late_index_ylo_alpha", "late_index_yhi_alpha"]
    · have hm : LATE_INDEX_BIMOD.pdict ∈ COMPONENT_PDICTS := by simp [COMPONENT_PDICTS]
      have k : ∀ n v, (n, v) ∈ (LATE_INDEX_ALPHA.app LATE_INDEX_BETA).pdict →
          DEFAULT_DIFFMAHPOP_PARAMS.lookup n = some v := by
        intro n v h
        rw [← LATE_INDEX_BIMOD_eq] at h
        exact default_lookup hm h
      simp only [List.mem_cons, List.not_mem_nil, or_false] at hn
      rcases hn with rfl | rfl | rfl
      · rw [h6, k "late_index_x0_beta" 11.567 (by simp [Component.app, LATE_INDEX_ALPHA, LATE_INDEX_BETA, withSuffix]),
          k "late_index_x0_alpha" 11.567 (by simp [Component.app, LATE_INDEX_ALPHA, LATE_INDEX_BETA, withSuffix])]
      · rw [h7, k "late_index_ylo_beta" 0.190 (by simp [Component.app, LATE_INDEX_ALPHA, LATE_INDEX_BETA, withSuffix]),
          k "late_index_ylo_alpha" 0.190 (by simp [Component.app, LATE_INDEX_ALPHA, LATE_INDEX_BETA, withSuffix])]
      · rw [h8, k "late_index_yhi_beta" 0.190 (by simp [Component.app, LATE_INDEX_ALPHA, LATE_INDEX_BETA, withSuffix]),
          k "late_index_yhi_alpha" 0.190 (by simp [Component.app, LATE_INDEX_ALPHA, LATE_INDEX_BETA, withSuffix])]
    · exact h5 n hn
  subst this
  obtain ⟨base, hb1, hb2⟩ := default_u_ok
  have hb3 : base.replace u = .ok u := by
    have h := NT.replace_block (pre := []) (mid := base) (post := []) (x := u) (by
        rw [hb2, NT.fields, h2, FIELDS_eq, ← FULL_fields]; rfl) (by
        simp only [NT.fields_nil, List.nil_append, List.append_nil]
        rw [hb2]; exact NAMES_U_nodup)
    simpa using h
  unfold params_of_u_params
  rw [hb1]
  change ((base.mapv lit).replace u >>= _) = _
  rw [mapv_lit_real, hb3]
  change get_diffmahpop_params_from_u_params u = _
  rw [from_u_real, h3]

end PopGrad

end Diffmah

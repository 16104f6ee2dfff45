import Verif.Lemmas.PopRound

/-!
# Population parameters (C47-C50)
-/

namespace Diffmah

set_option maxRecDepth 10000

open Pop TPeak PopParams

/-! ## C47: component transforms -/

/-- A module of the population model that has a pair of transforms between its bounded and its
unbounded parameters. -/
structure ParamModel where
  /-- default parameters, and (name, (lower, upper)) bounds -/
  comp : Component
  /-- `get_bounded_*_params` -/
  bounded : NT ℝ → Except PyErr (NT ℝ)
  /-- `get_unbounded_*_params` -/
  unbounded : NT ℝ → Except PyErr (NT ℝ)

/-- Every module with such a pair, except `late_index_bimod` (see C48). -/
noncomputable def PARAM_MODELS : List ParamModel := [
  ⟨COV, COV.get_bounded, COV.get_unbounded⟩,
  ⟨FTPT0, FTPT0.get_bounded, FTPT0.get_unbounded⟩,
  ⟨FEC, FEC.get_bounded, FEC.get_unbounded⟩,
  ⟨EARLY_INDEX_ALPHA, EARLY_INDEX_ALPHA.get_bounded, EARLY_INDEX_ALPHA.get_unbounded⟩,
  ⟨EARLY_INDEX_BETA, EARLY_INDEX_BETA.get_bounded, EARLY_INDEX_BETA.get_unbounded⟩,
  ⟨EARLY_INDEX_POP, EARLY_INDEX_POP.get_bounded, EARLY_INDEX_POP.get_unbounded⟩,
  ⟨LATE_INDEX_ALPHA, LATE_INDEX_ALPHA.get_bounded, LATE_INDEX_ALPHA.get_unbounded⟩,
  ⟨LATE_INDEX_BETA, LATE_INDEX_BETA.get_bounded, LATE_INDEX_BETA.get_unbounded⟩,
  ⟨LOGTC_EARLY, LOGTC_EARLY.get_bounded, LOGTC_EARLY.get_unbounded⟩,
  ⟨LOGTC_LATE, LOGTC_LATE.get_bounded, LOGTC_LATE.get_unbounded⟩,
  ⟨LGM0_C0_EARLY, LGM0_C0_EARLY.get_bounded, LGM0_C0_EARLY.get_unbounded⟩,
  ⟨LGM0_C1_EARLY, LGM0_C1_EARLY.get_bounded, LGM0_C1_EARLY.get_unbounded⟩,
  ⟨LGM0_C0_LATE, LGM0_C0_LATE.get_bounded, LGM0_C0_LATE.get_unbounded⟩,
  ⟨LGM0_C1_LATE, LGM0_C1_LATE.get_bounded, LGM0_C1_LATE.get_unbounded⟩,
  ⟨LGM0_C0_EARLY_SATS, LGM0_C0_EARLY_SATS.get_bounded, LGM0_C0_EARLY_SATS.get_unbounded⟩,
  ⟨LGM0_C1_EARLY_SATS, LGM0_C1_EARLY_SATS.get_bounded, LGM0_C1_EARLY_SATS.get_unbounded⟩,
  ⟨LGM0_C0_LATE_SATS, LGM0_C0_LATE_SATS.get_bounded, LGM0_C0_LATE_SATS.get_unbounded⟩,
  ⟨LGM0_C1_LATE_SATS, LGM0_C1_LATE_SATS.get_bounded, LGM0_C1_LATE_SATS.get_unbounded⟩,
  ⟨TPCENS, TPCENS.get_bounded, TPCENS.get_unbounded⟩,
  ⟨TPSATS, TPSATS.get_bounded, TPSATS.get_unbounded⟩,
  ⟨UTP, UTP.get_bounded, UTP.get_unbounded⟩,
  ⟨TPCENS_OLD, TPCENS_OLD.get_bounded, TPCENS_OLD.get_unbounded⟩,
  ⟨LOGTC_BIMOD, logtc_bimod_get_bounded, logtc_bimod_get_unbounded⟩,
  ⟨EARLY_INDEX_BIMOD, early_index_bimod_get_bounded, early_index_bimod_get_unbounded⟩,
  ⟨LOGM0_BIMOD, logm0_bimod_get_bounded, logm0_bimod_get_unbounded⟩,
  ⟨LOGM0_BIMOD_SATS, logm0_bimod_sats_get_bounded, logm0_bimod_sats_get_unbounded⟩,
  ⟨M0POP LGM0_C0_EARLY LGM0_C1_EARLY, m0pop_get_bounded LGM0_C0_EARLY LGM0_C1_EARLY,
    m0pop_get_unbounded LGM0_C0_EARLY LGM0_C1_EARLY⟩,
  ⟨M0POP LGM0_C0_LATE LGM0_C1_LATE, m0pop_get_bounded LGM0_C0_LATE LGM0_C1_LATE,
    m0pop_get_unbounded LGM0_C0_LATE LGM0_C1_LATE⟩,
  ⟨M0POP LGM0_C0_EARLY_SATS LGM0_C1_EARLY_SATS, m0pop_get_bounded LGM0_C0_EARLY_SATS LGM0_C1_EARLY_SATS,
    m0pop_get_unbounded LGM0_C0_EARLY_SATS LGM0_C1_EARLY_SATS⟩,
  ⟨M0POP LGM0_C0_LATE_SATS LGM0_C1_LATE_SATS, m0pop_get_bounded LGM0_C0_LATE_SATS LGM0_C1_LATE_SATS,
    m0pop_get_unbounded LGM0_C0_LATE_SATS LGM0_C1_LATE_SATS⟩]

/-- What C47 says about one module: from any unbounded parameter set (with the module's names,
prefixed with `u_`) the bounded one has the module's names and lies strictly inside the bounds, and
unbounding it gives back the input; from any parameter set inside the bounds, unbounding and
bounding again gives back the input. -/
def Roundtrips (m : ParamModel) : Prop :=
  (∀ u : NT ℝ, u.map Prod.fst = m.comp.pdict.map (fun kv => "u_" ++ kv.1) →
    ∃ p, m.bounded u = .ok p ∧ p.map Prod.fst = m.comp.pdict.map Prod.fst ∧
      Spec.Bounded m.comp.bounds p ∧ m.unbounded p = .ok u) ∧
  (∀ p : NT ℝ, p.map Prod.fst = m.comp.pdict.map Prod.fst → Spec.Bounded m.comp.bounds p →
    ∃ u, m.unbounded p = .ok u ∧ u.map Prod.fst = m.comp.pdict.map (fun kv => "u_" ++ kv.1) ∧
      m.bounded u = .ok p)

theorem upnames_eq (c : Component) : c.upnames = c.pdict.map (fun kv => "u_" ++ kv.1) := by
  simp [Component.upnames, Component.fields, NT.fields]

theorem roundtrips_comp {c : Component} (h : c.Wf) : Roundtrips ⟨c, c.get_bounded, c.get_unbounded⟩ := by
  constructor
  · intro u hu
    obtain ⟨p, h1, h2, h3⟩ := roundtrip_u h (u := u) (by rw [upnames_eq]; exact hu)
    exact ⟨p, h1, h2, get_bounded_Bounded h h1, h3⟩
  · intro p hf hp
    obtain ⟨u, h1, h2, h3⟩ := roundtrip_p h hf hp
    exact ⟨u, h1, by rw [← upnames_eq]; exact h2, h3⟩

theorem roundtrips_m0pop {c0 c1 : Component} (h0 : c0.Wf) (h1 : c1.Wf)
    (h : (c0.fields ++ c1.fields).Nodup) :
    Roundtrips ⟨M0POP c0 c1, m0pop_get_bounded c0 c1, m0pop_get_unbounded c0 c1⟩ := by
  have e : M0POP c0 c1 = c0.app c1 := merge2 h0 h1 h
  have e1 : m0pop_get_bounded (α := ℝ) c0 c1 = (M0POP c0 c1).get_bounded := by
    funext u
    unfold m0pop_get_bounded
    rw [e]; exact bimod2_bounded h0 h1 h u
  have e2 : m0pop_get_unbounded (α := ℝ) c0 c1 = (M0POP c0 c1).get_unbounded := by
    funext u
    unfold m0pop_get_unbounded
    rw [e]; exact bimod2_unbounded h0 h1 h u
  rw [e1, e2]
  exact roundtrips_comp (by rw [e]; exact h0.app h1 h)

/-- C47. Every module's transforms respect its bounds and are mutually inverse. -/
theorem C47_component_roundtrip : ∀ m ∈ PARAM_MODELS, Roundtrips m := by
  have e1 : logtc_bimod_get_bounded (α := ℝ) = LOGTC_BIMOD.get_bounded := funext logtc_bimod_bounded_eq
  have e2 : logtc_bimod_get_unbounded (α := ℝ) = LOGTC_BIMOD.get_unbounded :=
    funext logtc_bimod_unbounded_eq
  have e3 : early_index_bimod_get_bounded (α := ℝ) = EARLY_INDEX_BIMOD.get_bounded :=
    funext early_index_bimod_bounded_eq
  have e4 : early_index_bimod_get_unbounded (α := ℝ) = EARLY_INDEX_BIMOD.get_unbounded :=
    funext early_index_bimod_unbounded_eq
  have e5 : logm0_bimod_get_bounded (α := ℝ) = LOGM0_BIMOD.get_bounded := funext logm0_bimod_bounded_eq
  have e6 : logm0_bimod_get_unbounded (α := ℝ) = LOGM0_BIMOD.get_unbounded :=
    funext logm0_bimod_unbounded_eq
  have e7 : logm0_bimod_sats_get_bounded (α := ℝ) = LOGM0_BIMOD_SATS.get_bounded :=
    funext logm0_bimod_sats_bounded_eq
  have e8 : logm0_bimod_sats_get_unbounded (α := ℝ) = LOGM0_BIMOD_SATS.get_unbounded :=
    funext logm0_bimod_sats_unbounded_eq
  unfold PARAM_MODELS
  rw [e1, e2, e3, e4, e5, e6, e7, e8]
  simp only [List.forall_mem_cons, List.not_mem_nil, false_imp_iff, implies_true, and_true]
  exact ⟨roundtrips_comp COV_wf, roundtrips_comp FTPT0_wf, roundtrips_comp FEC_wf,
    roundtrips_comp EARLY_INDEX_ALPHA_wf, roundtrips_comp EARLY_INDEX_BETA_wf,
    roundtrips_comp EARLY_INDEX_POP_wf, roundtrips_comp LATE_INDEX_ALPHA_wf,
    roundtrips_comp LATE_INDEX_BETA_wf, roundtrips_comp LOGTC_EARLY_wf,
    roundtrips_comp LOGTC_LATE_wf, roundtrips_comp LGM0_C0_EARLY_wf,
    roundtrips_comp LGM0_C1_EARLY_wf, roundtrips_comp LGM0_C0_LATE_wf,
    roundtrips_comp LGM0_C1_LATE_wf, roundtrips_comp LGM0_C0_EARLY_SATS_wf,
    roundtrips_comp LGM0_C1_EARLY_SATS_wf, roundtrips_comp LGM0_C0_LATE_SATS_wf,
    roundtrips_comp LGM0_C1_LATE_SATS_wf, roundtrips_comp TPCENS_wf, roundtrips_comp TPSATS_wf,
    roundtrips_comp UTP_wf, roundtrips_comp TPCENS_OLD_wf, roundtrips_comp LOGTC_BIMOD_wf,
    roundtrips_comp EARLY_INDEX_BIMOD_wf, roundtrips_comp LOGM0_BIMOD_wf,
    roundtrips_comp LOGM0_BIMOD_SATS_wf, roundtrips_m0pop LGM0_C0_EARLY_wf LGM0_C1_EARLY_wf LGM0_EARLY_nodup,
    roundtrips_m0pop LGM0_C0_LATE_wf LGM0_C1_LATE_wf LGM0_LATE_nodup,
    roundtrips_m0pop LGM0_C0_EARLY_SATS_wf LGM0_C1_EARLY_SATS_wf LGM0_EARLY_SATS_nodup,
    roundtrips_m0pop LGM0_C0_LATE_SATS_wf LGM0_C1_LATE_SATS_wf LGM0_LATE_SATS_nodup⟩

/-- Both halves of `Roundtrips` apply, e.g. to `frac_early_cens.py`: its default parameters lie
inside its bounds. -/
example : FEC.pdict.map Prod.fst = FEC.pdict.map Prod.fst ∧ Spec.Bounded FEC.bounds FEC.pdict := by
  refine ⟨rfl, ?_⟩
  intro b hb
  simp only [FEC, F_BOUNDS, List.mem_cons, List.not_mem_nil, or_false] at hb
  rcases hb with rfl | rfl | rfl | rfl | rfl | rfl <;>
    refine ⟨_, by simp [FEC, List.lookup]; rfl, ?_, ?_⟩ <;> norm_num

/-! ## C48: late-index parameters -/

theorem late_names : LATE_INDEX_BIMOD.fields = ["late_index_x0_alpha", "late_index_ylo_alpha",
    "late_index_yhi_alpha", "late_index_x0_beta", "late_index_ylo_beta", "late_index_yhi_beta"] := by
  rw [LATE_INDEX_BIMOD_eq, Component.app_fields, LATE_INDEX_ALPHA_fields, LATE_INDEX_BETA_fields]; rfl

/-- C48 (partial). What the late-index transforms do instead of round-tripping: the alpha values are
lost, and the beta values are returned under both sets of names. Missing: the alpha half of the
property, which is false of the code (`C48_alpha_is_lost`). -/
theorem C48_beta_roundtrip_partial (a0 a1 a2 b0 b1 b2 : ℝ) :
    ∃ p, late_index_bimod_get_bounded [("u_late_index_x0_alpha", a0), ("u_late_index_ylo_alpha", a1),
        ("u_late_index_yhi_alpha", a2), ("u_late_index_x0_beta", b0), ("u_late_index_ylo_beta", b1),
        ("u_late_index_yhi_beta", b2)] = .ok p ∧
      Spec.Bounded LATE_INDEX_BIMOD.bounds p ∧
      late_index_bimod_get_unbounded p = .ok [("u_late_index_x0_alpha", b0),
        ("u_late_index_ylo_alpha", b1), ("u_late_index_yhi_alpha", b2), ("u_late_index_x0_beta", b0),
        ("u_late_index_ylo_beta", b1), ("u_late_index_yhi_beta", b2)] := by
  set u : NT ℝ := [("u_late_index_x0_alpha", a0), ("u_late_index_ylo_alpha", a1),
        ("u_late_index_yhi_alpha", a2), ("u_late_index_x0_beta", b0), ("u_late_index_ylo_beta", b1),
        ("u_late_index_yhi_beta", b2)] with hu
  have ha : u.getattrs LATE_INDEX_ALPHA.upnames = .ok [a0, a1, a2] := by
    rw [LATE_ALPHA_upnames]; simp [hu, NT.getattrs, NT.getattr, List.lookup, pure, bind, Except.pure, Except.bind]
  have hb : u.getattrs LATE_INDEX_BETA.upnames = .ok [b0, b1, b2] := by
    rw [LATE_BETA_upnames]; simp [hu, NT.getattrs, NT.getattr, List.lookup, pure, bind, Except.pure, Except.bind]
  set u' : NT ℝ := [("u_late_index_x0_alpha", b0), ("u_late_index_ylo_alpha", b1),
        ("u_late_index_yhi_alpha", b2), ("u_late_index_x0_beta", b0), ("u_late_index_ylo_beta", b1),
        ("u_late_index_yhi_beta", b2)] with hu'
  have huf : u'.fields = LATE_INDEX_BIMOD.upnames := by
    rw [Component.upnames, late_names]; simp [hu']
  have hu'g : u'.getattrs LATE_INDEX_BIMOD.upnames = .ok ([b0, b1, b2] ++ [b0, b1, b2]) := by
    rw [← huf, NT.getattrs_fields (by rw [huf]; exact LATE_INDEX_BIMOD_wf.upnodup)]; rfl
  obtain ⟨p, hp, hpf, hpu⟩ := roundtrip_u LATE_INDEX_BIMOD_wf huf
  refine ⟨p, by rw [late_bounded_alias ha hb hu'g, hp],
    get_bounded_Bounded LATE_INDEX_BIMOD_wf hp, ?_⟩
  -- the beta half of `p`
  have hsub : ∀ n ∈ LATE_INDEX_BETA.fields, n ∈ p.fields := by rw [hpf]; exact beta_sub'
  obtain ⟨v, hv⟩ := getattrs_sub hsub
  have hpa := NT.getattrs_fields (p := p) (by rw [hpf]; exact LATE_INDEX_BIMOD_wf.nodup)
  have hval : p.values = List.zipWith get_bounded_param ([b0, b1, b2] ++ [b0, b1, b2])
      LATE_INDEX_BIMOD.bounds.values := by
    rw [get_bounded_eq LATE_INDEX_BIMOD_wf hu'g] at hp
    rw [← Except.ok.inj hp, NT.values_zip]
    rw [List.length_zipWith, LATE_INDEX_BIMOD_wf.bounds_length, late_names]; rfl
  have e : LATE_INDEX_BIMOD.bounds.values = LATE_INDEX_BETA.bounds.values ++ LATE_INDEX_BETA.bounds.values := by
    rw [LATE_INDEX_BIMOD_eq, Component.app_values, late_bounds]
  have hbl : [b0, b1, b2].length = LATE_INDEX_BETA.bounds.values.length := by
    rw [LATE_INDEX_BETA_wf.bounds_length, LATE_INDEX_BETA_fields]; rfl
  rw [hpf, hval, e, List.zipWith_append hbl, LATE_INDEX_BIMOD_eq, Component.app_fields] at hpa
  obtain ⟨x, y, hx, hy, hxy⟩ := NT.getattrs_append_ok.1 hpa
  have hlx : x.length = (List.zipWith get_bounded_param [b0, b1, b2] LATE_INDEX_BETA.bounds.values).length := by
    rw [NT.getattrs_length hx, List.length_zipWith, ← hbl, LATE_INDEX_ALPHA_fields]; rfl
  obtain ⟨hx', hy'⟩ := List.append_inj hxy hlx.symm
  have hbb : p.getattrs LATE_INDEX_BIMOD.fields = .ok (y ++ y) := by
    rw [LATE_INDEX_BIMOD_eq, Component.app_fields, NT.getattrs_append_ok]
    exact ⟨x, y, hx, hy, by rw [← hx', hy']⟩
  rw [late_unbounded_alias hy hbb, hpu]

/-- C48. The round trip fails: alpha values do not survive. -/
theorem C48_alpha_is_lost :
    ∃ u p u', u.map Prod.fst = LATE_INDEX_BIMOD.pdict.map (fun kv => "u_" ++ kv.1) ∧
      late_index_bimod_get_bounded u = .ok p ∧ late_index_bimod_get_unbounded p = .ok u' ∧
      (u' : NT ℝ) ≠ u := by
  obtain ⟨p, h1, _, h2⟩ := C48_beta_roundtrip_partial 0 0 0 1 0 0
  refine ⟨_, p, _, ?_, h1, h2, by simp⟩
  have : LATE_INDEX_BIMOD.pdict.map (fun kv => "u_" ++ kv.1) = LATE_INDEX_BIMOD.fields.map ("u_" ++ ·) := by
    simp [Component.fields, NT.fields]
  rw [this, late_names]; simp

/-! ## C49: the whole model -/

/-- Every parameter of the merged set lies strictly inside its component's bounds. -/
def AllInBounds (p : NT ℝ) : Prop :=
  Spec.Bounded TPCENS.bounds p ∧ Spec.Bounded TPSATS.bounds p ∧ Spec.Bounded LOGM0_BIMOD.bounds p ∧
  Spec.Bounded LOGM0_BIMOD_SATS.bounds p ∧ Spec.Bounded LOGTC_BIMOD.bounds p ∧
  Spec.Bounded EARLY_INDEX_BIMOD.bounds p ∧ Spec.Bounded LATE_INDEX_BIMOD.bounds p ∧
  Spec.Bounded FEC.bounds p ∧ Spec.Bounded COV.bounds p

theorem allInBounds_iff (p : NT ℝ) : AllInBounds p ↔ Spec.Bounded FULL.bounds p := by
  simp only [AllInBounds, Spec.Bounded, FULL, NINE, catAll, List.map_cons, List.map_nil,
    List.flatten_cons, List.flatten_nil, List.mem_append, List.not_mem_nil, or_false, or_imp,
    forall_and]

theorem full_upnames : FULL.upnames = FIELDS.map ("u_" ++ ·) := by
  rw [Component.upnames, FULL_fields, FIELDS_eq]

/-- C49 (partial). From any unbounded parameters, bounding and unbounding the whole model returns
every parameter except the three late-index alpha ones, which come back with the values of the
beta ones. The bounded parameters carry the full set of names, each inside its bounds.
Missing: the three alpha values, which the code loses (`C49_not_a_roundtrip`). -/
theorem C49_u_roundtrip_partial (u : NT ℝ) (hu : u.map Prod.fst = FIELDS.map ("u_" ++ ·)) :
    ∃ p u', get_diffmahpop_params_from_u_params u = .ok p ∧ p.map Prod.fst = FIELDS ∧
      AllInBounds p ∧ get_diffmahpop_u_params_from_params p = .ok u' ∧
      u'.map Prod.fst = u.map Prod.fst ∧
      (∀ n, n ∉ ["u_late_index_x0_alpha", "u_late_index_ylo_alpha", "u_late_index_yhi_alpha"] →
        u'.lookup n = u.lookup n) ∧
      u'.lookup "u_late_index_x0_alpha" = u.lookup "u_late_index_x0_beta" ∧
      u'.lookup "u_late_index_ylo_alpha" = u.lookup "u_late_index_ylo_beta" ∧
      u'.lookup "u_late_index_yhi_alpha" = u.lookup "u_late_index_yhi_beta" := by
  have hu1 : u.fields = FULL.upnames := by rw [full_upnames]; exact hu
  have hun : u.fields.Nodup := by rw [hu1]; exact NAMES_U_nodup
  have haf : (aliasBy lateAliasU u).fields = FULL.upnames := by rw [aliasBy_fields, hu1]
  obtain ⟨p, hp, hpf, hpu⟩ := roundtrip_u FULL_wf haf
  have hlk : ∀ n ∈ FULL.upnames, (aliasBy lateAliasU u).lookup n = u.lookup (lateAliasU n) := fun n hn =>
    aliasBy_lookup _ hun (by rw [hu1]; exact hn) (by rw [hu1]; exact lateAliasU_mem hn)
  refine ⟨p, aliasBy lateAliasU u, by rw [from_u_eq hu1, hp], ?_, ?_, ?_, ?_, ?_, ?_, ?_, ?_⟩
  · show p.fields = FIELDS
    rw [hpf, FULL_fields, FIELDS_eq]
  · rw [allInBounds_iff]; exact get_bounded_Bounded FULL_wf hp
  · rw [from_p_eq hpf, bounded_alias_fix hu1 hp, hpu]
  · show NT.fields _ = NT.fields _
    exact aliasBy_fields _ _
  · intro n hn
    by_cases hm : n ∈ FULL.upnames
    · rw [hlk n hm]
      simp only [List.mem_cons, List.not_mem_nil, or_false, not_or] at hn
      simp [lateAliasU, hn]
    · rw [NT.lookup_none (by rw [haf]; exact hm), NT.lookup_none (by rw [hu1]; exact hm)]
  · rw [hlk "u_late_index_x0_alpha" (u_names_mem "late_index_x0_alpha" (by simp))]; simp [lateAliasU]
  · rw [hlk "u_late_index_ylo_alpha" (u_names_mem "late_index_ylo_alpha" (by simp))]; simp [lateAliasU]
  · rw [hlk "u_late_index_yhi_alpha" (u_names_mem "late_index_yhi_alpha" (by simp))]; simp [lateAliasU]

/-- C49 (partial). The other direction: from any parameters inside their bounds. -/
theorem C49_p_roundtrip_partial (p : NT ℝ) (hp : p.map Prod.fst = FIELDS) (hb : AllInBounds p) :
    ∃ u p', get_diffmahpop_u_params_from_params p = .ok u ∧ u.map Prod.fst = FIELDS.map ("u_" ++ ·) ∧
      get_diffmahpop_params_from_u_params u = .ok p' ∧ p'.map Prod.fst = FIELDS ∧
      (∀ n, n ∉ ["late_index_x0_alpha", "late_index_ylo_alpha", "late_index_yhi_alpha"] →
        p'.lookup n = p.lookup n) ∧
      p'.lookup "late_index_x0_alpha" = p.lookup "late_index_x0_beta" ∧
      p'.lookup "late_index_ylo_alpha" = p.lookup "late_index_ylo_beta" ∧
      p'.lookup "late_index_yhi_alpha" = p.lookup "late_index_yhi_beta" := by
  have hp1 : p.fields = FULL.fields := by rw [FULL_fields, ← FIELDS_eq]; exact hp
  have hpn : p.fields.Nodup := by rw [hp1]; exact FULL_nodup
  have haf : (aliasBy lateAlias p).fields = FULL.fields := by rw [aliasBy_fields, hp1]
  rw [allInBounds_iff] at hb
  obtain ⟨u, hu, huf, hup⟩ := roundtrip_p FULL_wf haf (alias_Bounded hp1 hb)
  have hlk : ∀ n ∈ FULL.fields, (aliasBy lateAlias p).lookup n = p.lookup (lateAlias n) := fun n hn =>
    aliasBy_lookup _ hpn (by rw [hp1]; exact hn) (by rw [hp1]; exact lateAlias_mem hn)
  refine ⟨u, aliasBy lateAlias p, by rw [from_p_eq hp1, hu], ?_, ?_, ?_, ?_, ?_, ?_, ?_⟩
  · rw [← full_upnames]; exact huf
  · rw [from_u_eq huf, unbounded_alias_fix hp1 hu, hup]
  · show NT.fields _ = FIELDS
    rw [haf, FULL_fields, FIELDS_eq]
  · intro n hn
    by_cases hm : n ∈ FULL.fields
    · rw [hlk n hm]
      simp only [List.mem_cons, List.not_mem_nil, or_false, not_or] at hn
      simp [lateAlias, hn]
    · rw [NT.lookup_none (by rw [haf]; exact hm), NT.lookup_none (by rw [hp1]; exact hm)]
  · rw [hlk "late_index_x0_alpha" (names_mem "late_index_x0_alpha" (by simp))]; simp [lateAlias]
  · rw [hlk "late_index_ylo_alpha" (names_mem "late_index_ylo_alpha" (by simp))]; simp [lateAlias]
  · rw [hlk "late_index_yhi_alpha" (names_mem "late_index_yhi_alpha" (by simp))]; simp [lateAlias]

/-- C49. The whole-model round trip fails for some parameters. -/
theorem C49_not_a_roundtrip :
    ∃ u p u' : NT ℝ, u.map Prod.fst = FIELDS.map ("u_" ++ ·) ∧
      get_diffmahpop_params_from_u_params u = .ok p ∧
      get_diffmahpop_u_params_from_params p = .ok u' ∧ u' ≠ u := by
  let g : String → ℝ := fun n => if n = "u_late_index_x0_alpha" then 0 else 1
  have hf : (FULL.upnames.map fun n => (n, g n)).map Prod.fst = FIELDS.map ("u_" ++ ·) := by
    rw [← full_upnames, List.map_map]; exact List.map_id'' (fun _ => rfl) _
  obtain ⟨p, u', h1, _, _, h2, _, _, h3, _⟩ := C49_u_roundtrip_partial _ hf
  refine ⟨_, p, u', hf, h1, h2, ?_⟩
  intro he
  have e1 : (FULL.upnames.map fun n => (n, g n)).lookup "u_late_index_x0_alpha" = _ :=
    lookup_map_fn g NAMES_U_nodup (u_names_mem "late_index_x0_alpha" (by simp))
  have e2 : (FULL.upnames.map fun n => (n, g n)).lookup "u_late_index_x0_beta" = _ :=
    lookup_map_fn g NAMES_U_nodup (u_names_mem "late_index_x0_beta" (by simp))
  rw [he, e1, e2] at h3
  simp [g] at h3

/-- Parameters meeting the hypotheses of `C49_p_roundtrip_partial` exist (and, through it, unbounded
ones meeting those of `C49_u_roundtrip_partial`). -/
example : ∃ p : NT ℝ, p.map Prod.fst = FIELDS ∧ AllInBounds p := by
  obtain ⟨u, _, _, hu, _⟩ := C49_not_a_roundtrip
  obtain ⟨p, _, _, h1, h2, _⟩ := C49_u_roundtrip_partial u hu
  exact ⟨p, h1, h2⟩

/-! ## C50: merging and excluding -/

/-- C50. The nine component dictionaries do not collide: the merged set has distinct names, and is
their concatenation, in order. -/
theorem C50_no_collision :
    FIELDS.Nodup ∧ FIELDS = (COMPONENT_PDICTS.map fun d => d.map Prod.fst).flatten ∧
      DEFAULT_DIFFMAHPOP_PARAMS = COMPONENT_PDICTS.flatten := by
  have h : COMPONENT_PDICTS.flatten = FULL.pdict := by simp [COMPONENT_PDICTS, FULL, NINE, catAll]
  refine ⟨by rw [FIELDS_eq]; exact NAMES_nodup, ?_, by rw [DEFAULT_eq, h]⟩
  have : (COMPONENT_PDICTS.map fun d => d.map Prod.fst).flatten = NT.fields COMPONENT_PDICTS.flatten := by
    simp [NT.fields, List.map_flatten]
  rw [this, h, FIELDS_eq, ← FULL_fields]; rfl

theorem split9 {α : Type} (p : NT α) (hn : p.fields.Nodup) (f1 f2 f3 f4 f5 f6 f7 f8 f9 : List String)
    (hf : p.fields = f1 ++ (f2 ++ (f3 ++ (f4 ++ (f5 ++ (f6 ++ (f7 ++ (f8 ++ f9)))))))) :
    ∃ p1 p2 p3 p4 p5 p6 p7 p8 p9 : NT α,
      component f1 p = .ok p1 ∧ component f2 p = .ok p2 ∧ component f3 p = .ok p3 ∧
      component f4 p = .ok p4 ∧ component f5 p = .ok p5 ∧ component f6 p = .ok p6 ∧
      component f7 p = .ok p7 ∧ component f8 p = .ok p8 ∧ component f9 p = .ok p9 ∧
      [p1, p2, p3, p4, p5, p6, p7, p8, p9].flatten = p ∧
      p1.fields = f1 ∧ p2.fields = f2 ∧ p3.fields = f3 ∧ p4.fields = f4 ∧ p5.fields = f5 ∧
      p6.fields = f6 ∧ p7.fields = f7 ∧ p8.fields = f8 ∧ p9.fields = f9 := by
  have h := NT.getattrs_fields hn
  rw [hf] at h
  obtain ⟨v1, w1, h1, h, e1⟩ := NT.getattrs_append_ok.1 h
  obtain ⟨v2, w2, h2, h, e2⟩ := NT.getattrs_append_ok.1 h
  obtain ⟨v3, w3, h3, h, e3⟩ := NT.getattrs_append_ok.1 h
  obtain ⟨v4, w4, h4, h, e4⟩ := NT.getattrs_append_ok.1 h
  obtain ⟨v5, w5, h5, h, e5⟩ := NT.getattrs_append_ok.1 h
  obtain ⟨v6, w6, h6, h, e6⟩ := NT.getattrs_append_ok.1 h
  obtain ⟨v7, w7, h7, h, e7⟩ := NT.getattrs_append_ok.1 h
  obtain ⟨v8, v9, h8, h9, e8⟩ := NT.getattrs_append_ok.1 h
  have l1 := NT.getattrs_length h1
  have l2 := NT.getattrs_length h2
  have l3 := NT.getattrs_length h3
  have l4 := NT.getattrs_length h4
  have l5 := NT.getattrs_length h5
  have l6 := NT.getattrs_length h6
  have l7 := NT.getattrs_length h7
  have l8 := NT.getattrs_length h8
  have l9 := NT.getattrs_length h9
  have hc : ∀ {f : List String} {v : List α}, p.getattrs f = .ok v → v.length = f.length →
      component f p = .ok (f.zip v) := by
    intro f v hv hl
    unfold component; rw [hv]; simp only [bind, Except.bind]; exact NT.make_eq hl
  refine ⟨_, _, _, _, _, _, _, _, _, hc h1 l1, hc h2 l2, hc h3 l3, hc h4 l4, hc h5 l5, hc h6 l6,
    hc h7 l7, hc h8 l8, hc h9 l9, ?_, NT.fields_zip _ _ l1, NT.fields_zip _ _ l2,
    NT.fields_zip _ _ l3, NT.fields_zip _ _ l4, NT.fields_zip _ _ l5, NT.fields_zip _ _ l6,
    NT.fields_zip _ _ l7, NT.fields_zip _ _ l8, NT.fields_zip _ _ l9⟩
  rw [← NT.zip_fields_values p, hf, e1, e2, e3, e4, e5, e6, e7, e8, List.zip_append l1.symm,
    List.zip_append l2.symm, List.zip_append l3.symm, List.zip_append l4.symm,
    List.zip_append l5.symm, List.zip_append l6.symm, List.zip_append l7.symm,
    List.zip_append l8.symm]
  simp

/-- C50. `get_component_model_params` partitions the full set: nine consecutive blocks, each with
its component's names. -/
theorem C50_partition (p : NT ℝ) (hp : p.map Prod.fst = FIELDS) :
    ∃ c, get_component_model_params p = .ok c ∧ c.toList.flatten = p ∧
      c.toList.map (fun d => d.map Prod.fst) = COMPONENT_PDICTS.map (fun d => d.map Prod.fst) := by
  have hp1 : p.fields = FULL.fields := by rw [FULL_fields, ← FIELDS_eq]; exact hp
  have hcons : ∀ c cs, (catAll (c :: cs)).fields = c.fields ++ (catAll cs).fields := fun c cs => by
    rw [catAll_cons, Component.app_fields]
  have hnil : (catAll []).fields = [] := rfl
  have hf := hp1
  simp only [FULL, NINE, hcons, hnil, List.append_nil] at hf
  obtain ⟨p1, p2, p3, p4, p5, p6, p7, p8, p9, h1, h2, h3, h4, h5, h6, h7, h8, h9, hfl, f1, f2, f3,
    f4, f5, f6, f7, f8, f9⟩ := split9 p (by rw [hp1]; exact FULL_nodup) _ _ _ _ _ _ _ _ _ hf
  refine ⟨⟨p1, p2, p3, p4, p5, p6, p7, p8, p9⟩, ?_, hfl, ?_⟩
  · unfold get_component_model_params
    simp only [h1, h2, h3, h4, h5, h6, h7, h8, h9, bind, Except.bind, pure, Except.pure]
  · simp only [ComponentParams.toList, COMPONENT_PDICTS, List.map_cons, List.map_nil]
    change [p1.fields, p2.fields, p3.fields, p4.fields, p5.fields, p6.fields, p7.fields, p8.fields,
      p9.fields] = _
    rw [f1, f2, f3, f4, f5, f6, f7, f8, f9]; rfl

/-- C50. The same for the unbounded set. -/
theorem C50_partition_unbounded (u : NT ℝ) (hu : u.map Prod.fst = FIELDS.map ("u_" ++ ·)) :
    ∃ c, get_component_model_u_params u = .ok c ∧ c.toList.flatten = u ∧
      c.toList.map (fun d => d.map Prod.fst) =
        COMPONENT_PDICTS.map (fun d => d.map fun kv => "u_" ++ kv.1) := by
  have hu1 : u.fields = FULL.upnames := by rw [full_upnames]; exact hu
  have hcons : ∀ c cs, (catAll (c :: cs)).upnames = c.upnames ++ (catAll cs).upnames := fun c cs => by
    rw [catAll_cons, Component.app_upnames]
  have hnil : (catAll []).upnames = [] := rfl
  have hf := hu1
  simp only [FULL, NINE, hcons, hnil, List.append_nil] at hf
  obtain ⟨p1, p2, p3, p4, p5, p6, p7, p8, p9, h1, h2, h3, h4, h5, h6, h7, h8, h9, hfl, f1, f2, f3,
    f4, f5, f6, f7, f8, f9⟩ := split9 u (by rw [hu1]; exact NAMES_U_nodup) _ _ _ _ _ _ _ _ _ hf
  refine ⟨⟨p1, p2, p3, p4, p5, p6, p7, p8, p9⟩, ?_, hfl, ?_⟩
  · unfold get_component_model_u_params
    simp only [h1, h2, h3, h4, h5, h6, h7, h8, h9, bind, Except.bind, pure, Except.pure]
  · simp only [ComponentParams.toList, COMPONENT_PDICTS, List.map_cons, List.map_nil]
    change [p1.fields, p2.fields, p3.fields, p4.fields, p5.fields, p6.fields, p7.fields, p8.fields,
      p9.fields] = _
    rw [f1, f2, f3, f4, f5, f6, f7, f8, f9]
    simp only [upnames_eq]

/-- C50. Excluding names from a parameter set and merging what is left over a default set: the
result has all the names, the kept parameters have their values, and the excluded ones have the
default values. -/
theorem C50_exclude_then_merge (p d : NT ℝ) (excluded : List String)
    (hn : (p.map Prod.fst).Nodup) (hd : d.map Prod.fst = p.map Prod.fst) :
    ∃ q, get_all_diffmahpop_params_from_varied (get_varied_params_by_exclusion p excluded) d = .ok q ∧
      q.map Prod.fst = p.map Prod.fst ∧
      ∀ n, q.lookup n = if n ∈ excluded then d.lookup n else p.lookup n := by
  have hnp : p.fields.Nodup := hn
  have hvar : ∀ n, (get_varied_params_by_exclusion p excluded).lookup n
      = if n ∈ excluded then none else p.lookup n := by
    intro n
    unfold get_varied_params_by_exclusion
    clear hd hn hnp
    induction p with
    | nil => simp
    | cons kv p ih =>
      obtain ⟨k, v⟩ := kv
      rw [List.filter_cons]
      by_cases hk : k ∈ excluded
      · have : (!excluded.contains k) = false := by simpa using hk
        rw [if_neg (by simp [hk]), ih]
        by_cases hne : n ∈ excluded
        · simp [hne]
        · have hnk : (n == k) = false := by
            simp only [beq_eq_false_iff_ne]; rintro rfl; exact hne hk
          simp [hne, List.lookup_cons, hnk]
      · rw [if_pos (by simp [hk])]
        by_cases hnk : n = k
        · subst hnk; simp [hk]
        · have hb : (n == k) = false := by simpa using hnk
          simp only [List.lookup_cons, hb, ih]
  have hsub : ∀ n ∈ (get_varied_params_by_exclusion p excluded).fields, n ∈ d.fields := by
    intro n hn'
    obtain ⟨kv, hkv, rfl⟩ := List.mem_map.1 hn'
    have : kv ∈ p := (List.mem_filter.1 hkv).1
    show kv.1 ∈ d.map Prod.fst
    rw [hd]; exact List.mem_map.2 ⟨kv, this, rfl⟩
  have hcond : ((get_varied_params_by_exclusion p excluded).fields.all
      fun k => d.fields.contains k) = true := by
    rw [List.all_eq_true]; intro n hn'; simpa using hsub n hn'
  refine ⟨_, by
    unfold get_all_diffmahpop_params_from_varied NT.replace; rw [if_pos hcond], ?_, ?_⟩
  · rw [← hd, List.map_map]; apply List.map_congr_left; intro a _; rfl
  · intro n
    have hdn : d.fields.Nodup := by show (d.map Prod.fst).Nodup; rw [hd]; exact hn
    set w := get_varied_params_by_exclusion p excluded
    have hqf : NT.fields (d.map fun kv => (kv.1, (w.lookup kv.1).getD kv.2)) = d.fields := by
      simp only [NT.fields, List.map_map]; apply List.map_congr_left; intro a _; rfl
    by_cases hm : n ∈ d.fields
    · obtain ⟨v, hv⟩ := NT.lookup_isSome hm
      have hmp : n ∈ p.fields := by
        have hm' := hm
        rw [show d.fields = p.fields from hd] at hm'; exact hm'
      obtain ⟨x, hx⟩ := NT.lookup_isSome hmp
      have : (d.map fun kv => (kv.1, (w.lookup kv.1).getD kv.2)).lookup n
          = some ((w.lookup n).getD v) := by
        apply NT.lookup_of_mem (by rw [hqf]; exact hdn)
        exact List.mem_map.2 ⟨(n, v), NT.mem_of_lookup hv, rfl⟩
      rw [this, hvar n]
      by_cases he : n ∈ excluded
      · simp [he, hv]
      · simp [he, hx]
    · rw [NT.lookup_none (by rw [hqf]; exact hm), NT.lookup_none hm, NT.lookup_none]
      · simp
      · intro hmp
        apply hm
        rw [show d.fields = p.fields from hd]; exact hmp

/-- C50. In particular, merging back over the same set restores it. -/
theorem C50_exclude_restores (p : NT ℝ) (excluded : List String) (hn : (p.map Prod.fst).Nodup) :
    get_all_diffmahpop_params_from_varied (get_varied_params_by_exclusion p excluded) p = .ok p := by
  obtain ⟨q, hq, hf, hl⟩ := C50_exclude_then_merge p p excluded hn rfl
  rw [hq]
  congr 1
  apply NT.ext_lookup hf (by rw [show q.fields = p.fields from hf]; exact hn)
  intro n _
  rw [hl n]; simp

/-- C50. Merging parameters that are not part of the model raises. -/
theorem C50_unknown_name_raises (varied d : NT ℝ) (n : String) (h1 : n ∈ varied.map Prod.fst)
    (h2 : n ∉ d.map Prod.fst) :
    get_all_diffmahpop_params_from_varied varied d = .error .valueError := by
  unfold get_all_diffmahpop_params_from_varied NT.replace
  rw [if_neg]
  intro h
  rw [List.all_eq_true] at h
  have := h n h1
  exact h2 (by simpa [NT.fields] using this)

example : (DEFAULT_DIFFMAHPOP_PARAMS.map Prod.fst) = FIELDS ∧
    ((DEFAULT_DIFFMAHPOP_PARAMS.map Prod.fst).Nodup) := ⟨rfl, C50_no_collision.1⟩

end Diffmah

import Verif.Lemmas.PopFull

/-!
# Whole-model transforms
-/

namespace Diffmah

set_option linter.unusedSectionVars false
set_option maxRecDepth 10000

namespace Pop

open TPeak PopParams

/-- No parameter of the component is a late-index alpha parameter. -/
def NotAlpha (c : Component) : Prop := ∀ n ∈ c.fields, n ∉ LATE_INDEX_ALPHA.fields

theorem NotAlpha.app {c d : Component} (hc : NotAlpha c) (hd : NotAlpha d) : NotAlpha (c.app d) := by
  intro n hn
  rw [Component.app_fields, List.mem_append] at hn
  exact hn.elim (hc n) (hd n)

theorem NotAlpha.up {c : Component} (hc : NotAlpha c) :
    ∀ n ∈ c.upnames, n ∉ LATE_INDEX_ALPHA.upnames := by
  intro n hn hn'
  obtain ⟨m, hm, rfl⟩ := List.mem_map.1 hn
  obtain ⟨m', hm', he⟩ := List.mem_map.1 hn'
  rw [String.append_right_inj] at he
  exact hc m hm (he ▸ hm')

macro "na_tac" h:ident : tactic => `(tactic| (
  unfold NotAlpha; rw [$h:ident, LATE_INDEX_ALPHA_fields]; decide))

theorem TPCENS_na : NotAlpha TPCENS := by na_tac TPCENS_fields
theorem TPSATS_na : NotAlpha TPSATS := by na_tac TPSATS_fields
theorem FEC_na : NotAlpha FEC := by na_tac FEC_fields
theorem COV_na : NotAlpha COV := by na_tac COV_fields
theorem LOGTC_BIMOD_na : NotAlpha LOGTC_BIMOD := by
  rw [LOGTC_BIMOD_eq]
  exact NotAlpha.app (by na_tac LOGTC_EARLY_fields) (by na_tac LOGTC_LATE_fields)
theorem EARLY_INDEX_BIMOD_na : NotAlpha EARLY_INDEX_BIMOD := by
  rw [EARLY_INDEX_BIMOD_eq]
  exact NotAlpha.app (by na_tac EARLY_INDEX_ALPHA_fields) (by na_tac EARLY_INDEX_BETA_fields)
theorem LOGM0_BIMOD_na : NotAlpha LOGM0_BIMOD := by
  rw [LOGM0_BIMOD_eq]
  exact (NotAlpha.app (by na_tac LGM0_C0_EARLY_fields) (by na_tac LGM0_C1_EARLY_fields)).app
    (NotAlpha.app (by na_tac LGM0_C0_LATE_fields) (by na_tac LGM0_C1_LATE_fields))
theorem LOGM0_BIMOD_SATS_na : NotAlpha LOGM0_BIMOD_SATS := by
  rw [LOGM0_BIMOD_SATS_eq]
  exact (NotAlpha.app (by na_tac LGM0_C0_EARLY_SATS_fields) (by na_tac LGM0_C1_EARLY_SATS_fields)).app
    (NotAlpha.app (by na_tac LGM0_C0_LATE_SATS_fields) (by na_tac LGM0_C1_LATE_SATS_fields))

section
variable {α : Type} [Add α] [Sub α] [Mul α] [Div α] [JOps α]

theorem component_ok {names : List String} (hn : names.Nodup) {u : NT α}
    (h : ∀ n ∈ names, n ∈ u.fields) :
    ∃ x, component names u = .ok x ∧ x.fields = names ∧ x.getattrs names = u.getattrs names := by
  obtain ⟨v, hv⟩ := getattrs_sub h
  have hl := NT.getattrs_length hv
  refine ⟨names.zip v, ?_, NT.fields_zip _ _ hl, ?_⟩
  · unfold component; rw [hv]; simp only [bind, Except.bind]; rw [NT.make_eq hl]
  · rw [NT.getattrs_zip hn hl, hv]

theorem get_bounded_congr {c : Component} {u u' : NT α}
    (h : u.getattrs c.upnames = u'.getattrs c.upnames) : c.get_bounded u = c.get_bounded u' := by
  unfold Component.get_bounded; rw [h]

theorem get_unbounded_congr {c : Component} {u u' : NT α}
    (h : u.getattrs c.fields = u'.getattrs c.fields) : c.get_unbounded u = c.get_unbounded u' := by
  unfold Component.get_unbounded; rw [h]

theorem getattrs_mem_congr {p q : NT α} {ns ms : List String} (h : p.getattrs ns = q.getattrs ns)
    (hok : ∃ v, q.getattrs ns = .ok v) (hm : ∀ m ∈ ms, m ∈ ns) : p.getattrs ms = q.getattrs ms := by
  obtain ⟨v, hv⟩ := hok
  induction ms with
  | nil => rfl
  | cons m ms ih =>
    rw [NT.getattrs_cons, NT.getattrs_cons, ih fun k hk => hm k (by simp [hk])]
    obtain ⟨i, hi, hmi⟩ := List.getElem_of_mem (hm m (by simp))
    have hi' : ns[i]? = some m := by rw [List.getElem?_eq_getElem hi, hmi]
    obtain ⟨x, hx, hgx⟩ := NT.getattrs_getElem (h.trans hv) i m hi'
    obtain ⟨y, hy, hgy⟩ := NT.getattrs_getElem hv i m hi'
    rw [hx] at hy
    rw [hgx, hgy, Option.some.inj hy]

/-- A component that contains no late-index alpha parameter. -/
theorem comp_bounded {c : Component} (hc : c ∈ NINE) (na : NotAlpha c) {u : NT α}
    (hu : u.fields = FULL.upnames) :
    ∃ x p, component c.upnames u = .ok x ∧ c.get_bounded x = .ok p ∧
      c.get_bounded (aliasBy lateAliasU u) = .ok p := by
  have hwf := NINE_wf c hc
  have hsub : ∀ n ∈ c.upnames, n ∈ u.fields := fun n hn => by rw [hu]; exact mem_FULL_u hc hn
  have hun : u.fields.Nodup := by rw [hu]; exact NAMES_U_nodup
  obtain ⟨x, hx, hxf, hxa⟩ := component_ok hwf.upnodup hsub
  obtain ⟨v, hv⟩ := getattrs_sub hsub
  have hmap := map_lateAliasU_id na.up
  have halias : (aliasBy lateAliasU u).getattrs c.upnames = u.getattrs c.upnames := by
    rw [aliasBy_getattrs _ hun hsub, hmap]
    intro n hn
    have : lateAliasU n ∈ c.upnames.map lateAliasU := List.mem_map.2 ⟨n, hn, rfl⟩
    rw [hmap] at this
    exact hsub _ this
  refine ⟨x, _, hx, get_bounded_eq hwf (hxa.trans hv), ?_⟩
  exact get_bounded_eq hwf (halias.trans hv)

theorem comp_unbounded {c : Component} (hc : c ∈ NINE) (na : NotAlpha c) {p : NT α}
    (hp : p.fields = FULL.fields) :
    ∃ x u, component c.fields p = .ok x ∧ c.get_unbounded x = .ok u ∧
      c.get_unbounded (aliasBy lateAlias p) = .ok u := by
  have hwf := NINE_wf c hc
  have hsub : ∀ n ∈ c.fields, n ∈ p.fields := fun n hn => by rw [hp]; exact mem_FULL hc hn
  have hun : p.fields.Nodup := by rw [hp]; exact FULL_nodup
  obtain ⟨x, hx, hxf, hxa⟩ := component_ok hwf.nodup hsub
  obtain ⟨v, hv⟩ := getattrs_sub hsub
  have hmap := map_lateAlias_id na
  have halias : (aliasBy lateAlias p).getattrs c.fields = p.getattrs c.fields := by
    rw [aliasBy_getattrs _ hun hsub, hmap]
    intro n hn
    have : lateAlias n ∈ c.fields.map lateAlias := List.mem_map.2 ⟨n, hn, rfl⟩
    rw [hmap] at this
    exact hsub _ this
  refine ⟨x, _, hx, get_unbounded_eq hwf (hxa.trans hv), ?_⟩
  exact get_unbounded_eq hwf (halias.trans hv)

theorem late_mem : LATE_INDEX_BIMOD ∈ NINE := by simp [NINE]

theorem alpha_sub : ∀ n ∈ LATE_INDEX_ALPHA.upnames, n ∈ LATE_INDEX_BIMOD.upnames := by
  rw [LATE_INDEX_BIMOD_eq, Component.app_upnames]; intro n hn; simp [hn]
theorem beta_sub : ∀ n ∈ LATE_INDEX_BETA.upnames, n ∈ LATE_INDEX_BIMOD.upnames := by
  rw [LATE_INDEX_BIMOD_eq, Component.app_upnames]; intro n hn; simp [hn]
theorem beta_sub' : ∀ n ∈ LATE_INDEX_BETA.fields, n ∈ LATE_INDEX_BIMOD.fields := by
  rw [LATE_INDEX_BIMOD_eq, Component.app_fields]; intro n hn; simp [hn]

theorem late_alias_getattrs {u : NT α} (hun : u.fields.Nodup)
    (hsub : ∀ n ∈ LATE_INDEX_BIMOD.upnames, n ∈ u.fields) {b : List α}
    (hb : u.getattrs LATE_INDEX_BETA.upnames = .ok b) :
    (aliasBy lateAliasU u).getattrs LATE_INDEX_BIMOD.upnames = .ok (b ++ b) := by
  rw [aliasBy_getattrs _ hun hsub, late_map_u, NT.getattrs_append, hb]
  · rfl
  · intro n hn
    have : lateAliasU n ∈ LATE_INDEX_BIMOD.upnames.map lateAliasU := List.mem_map.2 ⟨n, hn, rfl⟩
    rw [late_map_u] at this
    apply hsub; apply beta_sub
    simpa using this

theorem late_alias_getattrs' {p : NT α} (hun : p.fields.Nodup)
    (hsub : ∀ n ∈ LATE_INDEX_BIMOD.fields, n ∈ p.fields) {b : List α}
    (hb : p.getattrs LATE_INDEX_BETA.fields = .ok b) :
    (aliasBy lateAlias p).getattrs LATE_INDEX_BIMOD.fields = .ok (b ++ b) := by
  rw [aliasBy_getattrs _ hun hsub, late_map, NT.getattrs_append, hb]
  · rfl
  · intro n hn
    have : lateAlias n ∈ LATE_INDEX_BIMOD.fields.map lateAlias := List.mem_map.2 ⟨n, hn, rfl⟩
    rw [late_map] at this
    apply hsub; apply beta_sub'
    simpa using this

theorem late_comp_bounded {u : NT α} (hu : u.fields = FULL.upnames) :
    ∃ x p, component LATE_INDEX_BIMOD.upnames u = .ok x ∧
      late_index_bimod_get_bounded x = .ok p ∧
      LATE_INDEX_BIMOD.get_bounded (aliasBy lateAliasU u) = .ok p := by
  have hwf := LATE_INDEX_BIMOD_wf
  have hsub : ∀ n ∈ LATE_INDEX_BIMOD.upnames, n ∈ u.fields := fun n hn => by
    rw [hu]; exact mem_FULL_u late_mem hn
  have hun : u.fields.Nodup := by rw [hu]; exact NAMES_U_nodup
  obtain ⟨x, hx, hxf, hxa⟩ := component_ok hwf.upnodup hsub
  obtain ⟨a, ha⟩ := getattrs_sub fun n hn => hsub n (alpha_sub n hn)
  obtain ⟨b, hb⟩ := getattrs_sub fun n hn => hsub n (beta_sub n hn)
  have hok := getattrs_sub hsub
  have hxa' := (getattrs_mem_congr hxa hok alpha_sub).trans ha
  have hxb' := (getattrs_mem_congr hxa hok beta_sub).trans hb
  refine ⟨x, _, hx, late_bounded_eq hxa' hxb', ?_⟩
  exact get_bounded_eq hwf (late_alias_getattrs hun hsub hb)

theorem late_comp_unbounded {p : NT α} (hp : p.fields = FULL.fields) :
    ∃ x u, component LATE_INDEX_BIMOD.fields p = .ok x ∧
      late_index_bimod_get_unbounded x = .ok u ∧
      LATE_INDEX_BIMOD.get_unbounded (aliasBy lateAlias p) = .ok u := by
  have hwf := LATE_INDEX_BIMOD_wf
  have hsub : ∀ n ∈ LATE_INDEX_BIMOD.fields, n ∈ p.fields := fun n hn => by
    rw [hp]; exact mem_FULL late_mem hn
  have hun : p.fields.Nodup := by rw [hp]; exact FULL_nodup
  obtain ⟨x, hx, hxf, hxa⟩ := component_ok hwf.nodup hsub
  obtain ⟨b, hb⟩ := getattrs_sub fun n hn => hsub n (beta_sub' n hn)
  have hok := getattrs_sub hsub
  have hxb' := (getattrs_mem_congr hxa hok beta_sub').trans hb
  refine ⟨x, _, hx, late_unbounded_eq hxb', ?_⟩
  exact get_unbounded_eq hwf (late_alias_getattrs' hun hsub hb)

end

/-! ## The whole model -/

/-- The bounding of the whole model is bounding name by name, with the late-index alpha values read
from the beta names. -/
theorem from_u_eq {u : NT ℝ} (hu : u.fields = FULL.upnames) :
    get_diffmahpop_params_from_u_params u = FULL.get_bounded (aliasBy lateAliasU u) := by
  obtain ⟨x1, p1, c1, b1, f1⟩ := comp_bounded (c := TPCENS) (by simp [NINE]) TPCENS_na hu
  obtain ⟨x2, p2, c2, b2, f2⟩ := comp_bounded (c := TPSATS) (by simp [NINE]) TPSATS_na hu
  obtain ⟨x3, p3, c3, b3, f3⟩ := comp_bounded (c := LOGM0_BIMOD) (by simp [NINE]) LOGM0_BIMOD_na hu
  obtain ⟨x4, p4, c4, b4, f4⟩ :=
    comp_bounded (c := LOGM0_BIMOD_SATS) (by simp [NINE]) LOGM0_BIMOD_SATS_na hu
  obtain ⟨x5, p5, c5, b5, f5⟩ := comp_bounded (c := LOGTC_BIMOD) (by simp [NINE]) LOGTC_BIMOD_na hu
  obtain ⟨x6, p6, c6, b6, f6⟩ :=
    comp_bounded (c := EARLY_INDEX_BIMOD) (by simp [NINE]) EARLY_INDEX_BIMOD_na hu
  obtain ⟨x7, p7, c7, b7, f7⟩ := late_comp_bounded hu
  obtain ⟨x8, p8, c8, b8, f8⟩ := comp_bounded (c := FEC) (by simp [NINE]) FEC_na hu
  obtain ⟨x9, p9, c9, b9, f9⟩ := comp_bounded (c := COV) (by simp [NINE]) COV_na hu
  have hfull : FULL.get_bounded (aliasBy lateAliasU u) =
      .ok [p1, p2, p3, p4, p5, p6, p7, p8, p9].flatten :=
    catAll_get_bounded NINE_wf FULL_nodup
      (.cons f1 (.cons f2 (.cons f3 (.cons f4 (.cons f5 (.cons f6 (.cons f7 (.cons f8
        (.cons f9 .nil)))))))))
  have hff := get_bounded_fields FULL_wf hfull
  rw [hfull]
  unfold get_diffmahpop_params_from_u_params get_component_model_u_params bound_components
  simp only [logm0_bimod_bounded_eq, logm0_bimod_sats_bounded_eq, logtc_bimod_bounded_eq,
    early_index_bimod_bounded_eq, c1, c2, c3, c4, c5, c6, c7, c8, c9, bind, Except.bind, pure,
    Except.pure, b1, b2, b3, b4, b5, b6, b7, b8, b9, ComponentParams.toList]
  have := replace_all_blocks [p1, p2, p3, p4, p5, p6, p7, p8, p9] [] DEFAULT_DIFFMAHPOP_PARAMS
    (by rw [DEFAULT_eq, hff]; rfl)
    (by rw [DEFAULT_eq]; simp only [NT.fields_nil, List.nil_append]; exact FULL_nodup)
  exact this

theorem default_u_ok : ∃ base, DEFAULT_DIFFMAHPOP_U_PARAMS = .ok base ∧ base.fields = FULL.upnames := by
  have hself : ∀ {c : Component} (h : c.Wf), ∃ u, c.get_unbounded c.pdict = .ok u ∧ u.fields = c.upnames := by
    intro c h
    have := get_unbounded_eq h (NT.getattrs_fields h.nodup)
    exact ⟨_, this, get_unbounded_fields h this⟩
  have hlate : ∃ u, late_index_bimod_get_unbounded LATE_INDEX_BIMOD.pdict = .ok u ∧
      u.fields = LATE_INDEX_BIMOD.upnames := by
    obtain ⟨b, hb⟩ := getattrs_sub (p := LATE_INDEX_BIMOD.pdict) (ns := LATE_INDEX_BETA.fields) beta_sub'
    have := late_unbounded_eq hb
    refine ⟨_, this, ?_⟩
    rw [NT.fields_zip]
    have hl := NT.getattrs_length hb
    rw [List.length_zipWith, LATE_INDEX_BIMOD_wf.bounds_length, List.length_append, hl,
      Component.upnames_length, LATE_INDEX_BIMOD_eq, Component.app_fields, LATE_INDEX_ALPHA_fields,
      LATE_INDEX_BETA_fields]
    rfl
  obtain ⟨u1, h1, f1⟩ := hself TPCENS_wf
  obtain ⟨u2, h2, f2⟩ := hself TPSATS_wf
  obtain ⟨u3, h3, f3⟩ := hself LOGM0_BIMOD_wf
  obtain ⟨u4, h4, f4⟩ := hself LOGM0_BIMOD_SATS_wf
  obtain ⟨u5, h5, f5⟩ := hself LOGTC_BIMOD_wf
  obtain ⟨u6, h6, f6⟩ := hself EARLY_INDEX_BIMOD_wf
  obtain ⟨u7, h7, f7⟩ := hlate
  obtain ⟨u8, h8, f8⟩ := hself FEC_wf
  obtain ⟨u9, h9, f9⟩ := hself COV_wf
  have hf : NT.fields [u1, u2, u3, u4, u5, u6, u7, u8, u9].flatten = FULL.upnames := by
    have hcons : ∀ c cs, (catAll (c :: cs)).upnames = c.upnames ++ (catAll cs).upnames :=
      fun c cs => by rw [catAll_cons, Component.app_upnames]
    have hnil : (catAll []).upnames = [] := rfl
    unfold FULL NINE
    simp only [hcons, hnil, List.flatten_cons, List.flatten_nil, NT.fields_append, NT.fields_nil, f1,
      f2, f3, f4, f5, f6, f7, f8, f9]
  refine ⟨[u1, u2, u3, u4, u5, u6, u7, u8, u9].flatten, ?_, hf⟩
  unfold DEFAULT_DIFFMAHPOP_U_PARAMS COMPONENT_U_PDICTS
  simp only [logm0_bimod_unbounded_eq, logm0_bimod_sats_unbounded_eq, logtc_bimod_unbounded_eq,
    early_index_bimod_unbounded_eq, h1, h2, h3, h4, h5, h6, h7, h8, h9, bind, Except.bind, pure,
    Except.pure]
  rw [foldl_update]
  · rfl
  · rw [hf]; simp only [NT.fields_nil, List.nil_append]; exact NAMES_U_nodup

theorem from_p_eq {p : NT ℝ} (hp : p.fields = FULL.fields) :
    get_diffmahpop_u_params_from_params p = FULL.get_unbounded (aliasBy lateAlias p) := by
  obtain ⟨x1, p1, c1, b1, f1⟩ := comp_unbounded (c := TPCENS) (by simp [NINE]) TPCENS_na hp
  obtain ⟨x2, p2, c2, b2, f2⟩ := comp_unbounded (c := TPSATS) (by simp [NINE]) TPSATS_na hp
  obtain ⟨x3, p3, c3, b3, f3⟩ := comp_unbounded (c := LOGM0_BIMOD) (by simp [NINE]) LOGM0_BIMOD_na hp
  obtain ⟨x4, p4, c4, b4, f4⟩ :=
    comp_unbounded (c := LOGM0_BIMOD_SATS) (by simp [NINE]) LOGM0_BIMOD_SATS_na hp
  obtain ⟨x5, p5, c5, b5, f5⟩ := comp_unbounded (c := LOGTC_BIMOD) (by simp [NINE]) LOGTC_BIMOD_na hp
  obtain ⟨x6, p6, c6, b6, f6⟩ :=
    comp_unbounded (c := EARLY_INDEX_BIMOD) (by simp [NINE]) EARLY_INDEX_BIMOD_na hp
  obtain ⟨x7, p7, c7, b7, f7⟩ := late_comp_unbounded hp
  obtain ⟨x8, p8, c8, b8, f8⟩ := comp_unbounded (c := FEC) (by simp [NINE]) FEC_na hp
  obtain ⟨x9, p9, c9, b9, f9⟩ := comp_unbounded (c := COV) (by simp [NINE]) COV_na hp
  have hfull : FULL.get_unbounded (aliasBy lateAlias p) =
      .ok [p1, p2, p3, p4, p5, p6, p7, p8, p9].flatten :=
    catAll_get_unbounded NINE_wf FULL_nodup
      (.cons f1 (.cons f2 (.cons f3 (.cons f4 (.cons f5 (.cons f6 (.cons f7 (.cons f8
        (.cons f9 .nil)))))))))
  have hff := get_unbounded_fields FULL_wf hfull
  rw [hfull]
  obtain ⟨base, hbase, hbf⟩ := default_u_ok
  unfold get_diffmahpop_u_params_from_params get_component_model_params unbound_components
  simp only [logm0_bimod_unbounded_eq, logm0_bimod_sats_unbounded_eq, logtc_bimod_unbounded_eq,
    early_index_bimod_unbounded_eq, c1, c2, c3, c4, c5, c6, c7, c8, c9, bind, Except.bind, pure,
    Except.pure, b1, b2, b3, b4, b5, b6, b7, b8, b9, ComponentParams.toList, hbase]
  have := replace_all_blocks [p1, p2, p3, p4, p5, p6, p7, p8, p9] [] base
    (by rw [hbf, hff]) (by rw [hbf]; simp only [NT.fields_nil, List.nil_append]; exact NAMES_U_nodup)
  exact this

end Pop

end Diffmah

namespace Diffmah

set_option maxRecDepth 10000

namespace Pop

open TPeak PopParams

/-- Each bounded parameter is the transform of the unbounded parameter of the same name. -/
theorem get_bounded_lookup {α : Type} [Add α] [Sub α] [Mul α] [Div α] [JOps α] {c : Component} (h : c.Wf) {u p : NT α} (hp : c.get_bounded u = .ok p)
    {n : String} {b : ℝ × ℝ} (hb : (n, b) ∈ c.bounds) :
    ∃ x, u.lookup ("u_" ++ n) = some x ∧ p.lookup n = some (get_bounded_param x b) := by
  cases hu : u.getattrs c.upnames with
  | error e => rw [get_bounded_err hu] at hp; cases hp
  | ok v =>
    have hpf := get_bounded_fields h hp
    rw [get_bounded_eq h hu] at hp
    have hp := (Except.ok.inj hp).symm
    obtain ⟨i, hi, hbi⟩ := List.getElem_of_mem hb
    have hl := NT.getattrs_length hu
    rw [Component.upnames_length] at hl
    have hb' := h.bounds_length
    have hlen : i < c.fields.length := by rw [← hb']; simpa using hi
    have hbv : c.bounds.values[i]? = some b := by simp [NT.values, hi, hbi]
    have hfi : c.fields[i] = n := by
      have : c.bounds.fields[i]? = some n := by simp [NT.fields, hi, hbi]
      rw [h.same] at this
      simpa [hlen] using this
    have hui : c.upnames[i]? = some ("u_" ++ n) := by
      simp [Component.upnames, hlen, hfi]
    obtain ⟨x, hx, hgx⟩ := NT.getattrs_getElem hu i _ hui
    refine ⟨x, NT.getattr_eq_ok.1 hgx, ?_⟩
    apply NT.lookup_of_mem (by rw [hpf]; exact h.nodup)
    rw [hp]
    apply List.mem_of_getElem? (i := i)
    rw [List.getElem?_zip_eq_some]
    refine ⟨by rw [List.getElem?_eq_getElem hlen, hfi], ?_⟩
    rw [List.getElem?_zipWith, hx, hbv]

/-- Each unbounded parameter is the transform of the bounded parameter of the same name. -/
theorem get_unbounded_lookup {α : Type} [Add α] [Sub α] [Mul α] [Div α] [JOps α] {c : Component} (h : c.Wf) {u p : NT α} (hp : c.get_unbounded p = .ok u)
    {n : String} {b : ℝ × ℝ} (hb : (n, b) ∈ c.bounds) :
    ∃ x, p.lookup n = some x ∧ u.lookup ("u_" ++ n) = some (get_unbounded_param x b) := by
  cases hu : p.getattrs c.fields with
  | error e => rw [get_unbounded_err hu] at hp; cases hp
  | ok v =>
    have hpf := get_unbounded_fields h hp
    rw [get_unbounded_eq h hu] at hp
    have hp := (Except.ok.inj hp).symm
    obtain ⟨i, hi, hbi⟩ := List.getElem_of_mem hb
    have hl := NT.getattrs_length hu
    have hb' := h.bounds_length
    have hlen : i < c.fields.length := by rw [← hb']; simpa using hi
    have hbv : c.bounds.values[i]? = some b := by simp [NT.values, hi, hbi]
    have hfi : c.fields[i]? = some n := by
      rw [← h.same]; simp [NT.fields, hi, hbi]
    have hui : c.upnames[i]? = some ("u_" ++ n) := by
      simp [Component.upnames, hfi]
    obtain ⟨x, hx, hgx⟩ := NT.getattrs_getElem hu i _ hfi
    refine ⟨x, NT.getattr_eq_ok.1 hgx, ?_⟩
    apply NT.lookup_of_mem (by rw [hpf]; exact h.upnodup)
    rw [hp]
    apply List.mem_of_getElem? (i := i)
    rw [List.getElem?_zip_eq_some]
    refine ⟨hui, ?_⟩
    rw [List.getElem?_zipWith, hx, hbv]

/-- The late-index bounds, in the full table. -/
theorem late_bounds_mem {x : String} {b : ℝ × ℝ}
    (h : (x, b) ∈ ([("late_index_x0", (11.5, 14.0)), ("late_index_ylo", (0.01, 0.2)),
      ("late_index_yhi", (0.01, 0.2))] : List (String × ℝ × ℝ))) :
    (x ++ "_alpha", b) ∈ FULL.bounds ∧ (x ++ "_beta", b) ∈ FULL.bounds := by
  have hsub : ∀ kv ∈ LATE_INDEX_BIMOD.bounds, kv ∈ FULL.bounds := by
    intro kv hkv
    simp only [FULL, NINE, catAll, List.map_cons, List.map_nil, List.flatten_cons, List.mem_append]
    tauto
  constructor <;> apply hsub <;> rw [LATE_INDEX_BIMOD_eq] <;>
    simp only [Component.app, List.mem_append]
  · exact Or.inl (List.mem_map.2 ⟨(x, b), h, rfl⟩)
  · exact Or.inr (List.mem_map.2 ⟨(x, b), h, rfl⟩)

theorem lookup_map_fn {β : Type} {names : List String} (g : String → β) (hn : names.Nodup) {n : String}
    (h : n ∈ names) : (names.map fun n => (n, g n)).lookup n = some (g n) := by
  apply NT.lookup_of_mem
  · have : NT.fields (names.map fun n => (n, g n)) = names := by
      simp only [NT.fields, List.map_map]
      exact List.map_id'' (fun _ => rfl) _
    rw [this]; exact hn
  · exact List.mem_map.2 ⟨n, h, rfl⟩

theorem aliasBy_eq_self {f : String → String} {p : NT ℝ} (hp : p.fields.Nodup)
    (h : ∀ n ∈ p.fields, f n ∈ p.fields ∧ p.lookup (f n) = p.lookup n) : aliasBy f p = p := by
  apply NT.ext_lookup (aliasBy_fields f p) (by rw [aliasBy_fields]; exact hp)
  intro n hn
  rw [aliasBy_fields] at hn
  rw [aliasBy_lookup f hp hn (h n hn).1, (h n hn).2]

theorem names_mem (n : String) (h : n ∈ ["late_index_x0_alpha", "late_index_ylo_alpha",
    "late_index_yhi_alpha", "late_index_x0_beta", "late_index_ylo_beta", "late_index_yhi_beta"]) :
    n ∈ FULL.fields := by
  rw [FULL_fields]
  simp only [List.mem_cons, List.not_mem_nil, or_false] at h
  rcases h with rfl | rfl | rfl | rfl | rfl | rfl <;> decide

theorem u_names_mem (n : String) (h : n ∈ ["late_index_x0_alpha", "late_index_ylo_alpha",
    "late_index_yhi_alpha", "late_index_x0_beta", "late_index_ylo_beta", "late_index_yhi_beta"]) :
    "u_" ++ n ∈ FULL.upnames := List.mem_map.2 ⟨n, names_mem n h, rfl⟩

theorem lateAlias_mem {n : String} (hn : n ∈ FULL.fields) : lateAlias n ∈ FULL.fields := by
  unfold lateAlias
  split_ifs
  · exact names_mem _ (by simp)
  · exact names_mem _ (by simp)
  · exact names_mem _ (by simp)
  · exact hn

theorem lateAliasU_mem {n : String} (hn : n ∈ FULL.upnames) : lateAliasU n ∈ FULL.upnames := by
  unfold lateAliasU
  split_ifs
  · exact u_names_mem "late_index_x0_beta" (by simp)
  · exact u_names_mem "late_index_ylo_beta" (by simp)
  · exact u_names_mem "late_index_yhi_beta" (by simp)
  · exact hn

/-- After a bounding step alpha and beta agree. -/
theorem bounded_alias_fix {u p : NT ℝ} (hu : u.fields = FULL.upnames)
    (hp : FULL.get_bounded (aliasBy lateAliasU u) = .ok p) : aliasBy lateAlias p = p := by
  have hpf := get_bounded_fields FULL_wf hp
  have hun : u.fields.Nodup := by rw [hu]; exact NAMES_U_nodup
  apply aliasBy_eq_self (by rw [hpf]; exact FULL_nodup)
  intro n hn
  rw [hpf] at hn ⊢
  refine ⟨lateAlias_mem hn, ?_⟩
  have key : ∀ x b, (x, b) ∈ ([("late_index_x0", (11.5, 14.0)), ("late_index_ylo", (0.01, 0.2)),
      ("late_index_yhi", (0.01, 0.2))] : List (String × ℝ × ℝ)) →
      ("u_" ++ (x ++ "_alpha") ∈ FULL.upnames) → ("u_" ++ (x ++ "_beta") ∈ FULL.upnames) →
      lateAliasU ("u_" ++ (x ++ "_alpha")) = "u_" ++ (x ++ "_beta") →
      lateAliasU ("u_" ++ (x ++ "_beta")) = "u_" ++ (x ++ "_beta") →
      p.lookup (x ++ "_beta") = p.lookup (x ++ "_alpha") := by
    intro x b hb hm1 hm2 e1 e2
    obtain ⟨ha, hbm⟩ := late_bounds_mem hb
    obtain ⟨y, hy, hpy⟩ := get_bounded_lookup FULL_wf hp ha
    obtain ⟨z, hz, hpz⟩ := get_bounded_lookup FULL_wf hp hbm
    rw [aliasBy_lookup _ hun (by rw [hu]; exact hm1) (by rw [hu, e1]; exact hm2), e1] at hy
    rw [aliasBy_lookup _ hun (by rw [hu]; exact hm2) (by rw [hu, e2]; exact hm2), e2] at hz
    rw [hy] at hz
    rw [hpy, hpz, Option.some.inj hz]
  unfold lateAlias
  split_ifs with h1 h2 h3
  · subst h1
    exact key "late_index_x0" (11.5, 14.0) (by simp) (u_names_mem _ (by simp)) (u_names_mem _ (by simp))
      (by simp [lateAliasU]) (by simp [lateAliasU])
  · subst h2
    exact key "late_index_ylo" (0.01, 0.2) (by simp) (u_names_mem _ (by simp)) (u_names_mem _ (by simp))
      (by simp [lateAliasU]) (by simp [lateAliasU])
  · subst h3
    exact key "late_index_yhi" (0.01, 0.2) (by simp) (u_names_mem _ (by simp)) (u_names_mem _ (by simp))
      (by simp [lateAliasU]) (by simp [lateAliasU])
  · rfl

theorem unbounded_alias_fix {u p : NT ℝ} (hpn : p.fields = FULL.fields)
    (hp : FULL.get_unbounded (aliasBy lateAlias p) = .ok u) : aliasBy lateAliasU u = u := by
  have huf := get_unbounded_fields FULL_wf hp
  have hun : p.fields.Nodup := by rw [hpn]; exact FULL_nodup
  apply aliasBy_eq_self (by rw [huf]; exact NAMES_U_nodup)
  intro n hn
  rw [huf] at hn ⊢
  refine ⟨lateAliasU_mem hn, ?_⟩
  have key : ∀ x b, (x, b) ∈ ([("late_index_x0", (11.5, 14.0)), ("late_index_ylo", (0.01, 0.2)),
      ("late_index_yhi", (0.01, 0.2))] : List (String × ℝ × ℝ)) →
      (x ++ "_alpha" ∈ FULL.fields) → (x ++ "_beta" ∈ FULL.fields) →
      lateAlias (x ++ "_alpha") = x ++ "_beta" → lateAlias (x ++ "_beta") = x ++ "_beta" →
      u.lookup ("u_" ++ (x ++ "_beta")) = u.lookup ("u_" ++ (x ++ "_alpha")) := by
    intro x b hb hm1 hm2 e1 e2
    obtain ⟨ha, hbm⟩ := late_bounds_mem hb
    obtain ⟨y, hy, hpy⟩ := get_unbounded_lookup FULL_wf hp ha
    obtain ⟨z, hz, hpz⟩ := get_unbounded_lookup FULL_wf hp hbm
    rw [aliasBy_lookup _ hun (by rw [hpn]; exact hm1) (by rw [hpn, e1]; exact hm2), e1] at hy
    rw [aliasBy_lookup _ hun (by rw [hpn]; exact hm2) (by rw [hpn, e2]; exact hm2), e2] at hz
    rw [hy] at hz
    rw [hpy, hpz, Option.some.inj hz]
  unfold lateAliasU
  split_ifs with h1 h2 h3
  · subst h1
    exact key "late_index_x0" (11.5, 14.0) (by simp) (names_mem _ (by simp)) (names_mem _ (by simp))
      (by simp [lateAlias]) (by simp [lateAlias])
  · subst h2
    exact key "late_index_ylo" (0.01, 0.2) (by simp) (names_mem _ (by simp)) (names_mem _ (by simp))
      (by simp [lateAlias]) (by simp [lateAlias])
  · subst h3
    exact key "late_index_yhi" (0.01, 0.2) (by simp) (names_mem _ (by simp)) (names_mem _ (by simp))
      (by simp [lateAlias]) (by simp [lateAlias])
  · rfl

/-- Aliasing keeps a parameter set inside its bounds. -/
theorem alias_Bounded {p : NT ℝ} (hpn : p.fields = FULL.fields) (hp : Spec.Bounded FULL.bounds p) :
    Spec.Bounded FULL.bounds (aliasBy lateAlias p) := by
  have hun : p.fields.Nodup := by rw [hpn]; exact FULL_nodup
  have hbn : FULL.bounds.fields.Nodup := by rw [FULL_wf.same]; exact FULL_nodup
  intro kv hkv
  obtain ⟨n, b⟩ := kv
  have hn : n ∈ FULL.fields := by rw [← FULL_wf.same]; exact List.mem_map.2 ⟨_, hkv, rfl⟩
  rw [aliasBy_lookup _ hun (by rw [hpn]; exact hn) (by rw [hpn]; exact lateAlias_mem hn)]
  have key : ∀ x b', (x, b') ∈ ([("late_index_x0", (11.5, 14.0)), ("late_index_ylo", (0.01, 0.2)),
      ("late_index_yhi", (0.01, 0.2))] : List (String × ℝ × ℝ)) → n = x ++ "_alpha" →
      ∃ v, p.lookup (x ++ "_beta") = some v ∧ b.1 < v ∧ v < b.2 := by
    intro x b' hb hnx
    obtain ⟨ha, hbm⟩ := late_bounds_mem hb
    have h1 := NT.lookup_of_mem hbn ha
    have h2 := NT.lookup_of_mem hbn hkv
    rw [hnx, h1] at h2
    have := hp _ hbm
    simp only at this
    rwa [Option.some.inj h2] at this
  show ∃ v, p.lookup (lateAlias n) = some v ∧ _
  unfold lateAlias
  split_ifs with h1 h2 h3
  · exact key "late_index_x0" (11.5, 14.0) (by simp) h1
  · exact key "late_index_ylo" (0.01, 0.2) (by simp) h2
  · exact key "late_index_yhi" (0.01, 0.2) (by simp) h3
  · exact hp _ hkv

end Pop

end Diffmah

import Verif.Lemmas.PopParams

/-!
# Lemmas about the merged parameter set
-/

namespace Diffmah

set_option linter.unusedSectionVars false
set_option maxRecDepth 10000

namespace Pop

open TPeak PopParams

/-! ## Concatenating a list of components -/

/-- Concatenation of a list of components. -/
def catAll (cs : List Component) : Component := ⟨(cs.map (·.pdict)).flatten, (cs.map (·.bounds)).flatten⟩

theorem catAll_cons (c : Component) (cs : List Component) : catAll (c :: cs) = c.app (catAll cs) := by
  simp [catAll, Component.app]

theorem catAll_wf {cs : List Component} (h : ∀ c ∈ cs, c.Wf) (hn : (catAll cs).fields.Nodup) :
    (catAll cs).Wf := by
  induction cs with
  | nil => exact ⟨by simp [catAll, Component.fields], rfl, by simp [catAll]⟩
  | cons c cs ih =>
    rw [catAll_cons] at hn ⊢
    rw [Component.app_fields] at hn
    exact (h c (by simp)).app (ih (fun d hd => h d (by simp [hd])) (List.nodup_append.1 hn).2.1) hn

theorem catAll_get_bounded {α : Type} [Add α] [Sub α] [Mul α] [Div α] [JOps α]
    {cs : List Component} (h : ∀ c ∈ cs, c.Wf) (hn : (catAll cs).fields.Nodup) {u : NT α}
    {ps : List (NT α)} (hp : List.Forall₂ (fun c p => c.get_bounded u = .ok p) cs ps) :
    (catAll cs).get_bounded u = .ok ps.flatten := by
  induction hp with
  | nil => rfl
  | @cons c p cs ps hc hcs ih =>
    rw [catAll_cons] at hn ⊢
    rw [Component.app_fields] at hn
    have hn2 := (List.nodup_append.1 hn).2.1
    rw [app_get_bounded (h c (by simp)) (catAll_wf (fun d hd => h d (by simp [hd])) hn2) hn, hc,
      ih (fun d hd => h d (by simp [hd])) hn2]
    rfl

theorem catAll_get_unbounded {α : Type} [Add α] [Sub α] [Mul α] [Div α] [JOps α]
    {cs : List Component} (h : ∀ c ∈ cs, c.Wf) (hn : (catAll cs).fields.Nodup) {u : NT α}
    {ps : List (NT α)} (hp : List.Forall₂ (fun c p => c.get_unbounded u = .ok p) cs ps) :
    (catAll cs).get_unbounded u = .ok ps.flatten := by
  induction hp with
  | nil => rfl
  | @cons c p cs ps hc hcs ih =>
    rw [catAll_cons] at hn ⊢
    rw [Component.app_fields] at hn
    have hn2 := (List.nodup_append.1 hn).2.1
    rw [app_get_unbounded (h c (by simp)) (catAll_wf (fun d hd => h d (by simp [hd])) hn2) hn, hc,
      ih (fun d hd => h d (by simp [hd])) hn2]
    rfl

theorem foldl_update {β : Type} (ds : List (NT β)) (init : NT β)
    (h : (init.fields ++ NT.fields ds.flatten).Nodup) :
    ds.foldl NT.update init = init ++ ds.flatten := by
  induction ds generalizing init with
  | nil => simp
  | cons d ds ih =>
    have h' : (init.fields ++ d.fields ++ NT.fields ds.flatten).Nodup := by
      simpa using h
    rw [List.foldl_cons, NT.update_disjoint _ _ (List.nodup_append.1 h').1, ih _ (by simpa using h')]
    simp

/-! ## The full parameter set -/

/-- The nine components, in the order of the merged dictionary. -/
noncomputable def NINE : List Component := [TPCENS, TPSATS, LOGM0_BIMOD, LOGM0_BIMOD_SATS, LOGTC_BIMOD,
  EARLY_INDEX_BIMOD, LATE_INDEX_BIMOD, FEC, COV]

/-- All parameters as one component. -/
noncomputable def FULL : Component := catAll NINE

theorem NINE_wf : ∀ c ∈ NINE, c.Wf := by
  simp only [NINE, List.forall_mem_cons, List.not_mem_nil, false_imp_iff, implies_true, and_true]
  exact ⟨TPCENS_wf, TPSATS_wf, LOGM0_BIMOD_wf, LOGM0_BIMOD_SATS_wf, LOGTC_BIMOD_wf,
    EARLY_INDEX_BIMOD_wf, LATE_INDEX_BIMOD_wf, FEC_wf, COV_wf⟩

/-- The names of the full parameter set. -/
def NAMES : List String := [
  "cen_tp_lgm_x0_x0", "cen_tp_t_obs_x0_x0", "cen_tp_x0_ylo_early", "cen_tp_x0_yhi_early",
  "cen_tp_x0_ylo_late", "cen_tp_x0_yhi_late",
  "utp_loc_lgm_ylo_t0", "utp_loc_lgm_ylo_early", "utp_loc_lgm_ylo_late", "utp_loc_lgm_x0",
  "utp_scale_lgm_ylo_t0", "utp_scale_lgm_ylo_early", "utp_scale_lgm_ylo_late",
  "lgm0pop_c0_ytp_early", "lgm0pop_c0_ylo_early", "lgm0pop_c0_clip_c0_early",
  "lgm0pop_c0_clip_c1_early", "lgm0pop_c0_t_obs_x0_early",
  "lgm0pop_c1_ytp_early", "lgm0pop_c1_ylo_early", "lgm0pop_c1_clip_x0_early",
  "lgm0pop_c1_clip_ylo_early", "lgm0pop_c1_clip_yhi_early", "lgm0pop_c1_t_obs_x0_early",
  "lgm0pop_c0_ytp_late", "lgm0pop_c0_ylo_late", "lgm0pop_c0_clip_c0_late",
  "lgm0pop_c0_clip_c1_late", "lgm0pop_c0_t_obs_x0_late",
  "lgm0pop_c1_ytp_late", "lgm0pop_c1_ylo_late", "lgm0pop_c1_clip_x0_late",
  "lgm0pop_c1_clip_ylo_late", "lgm0pop_c1_clip_yhi_late", "lgm0pop_c1_t_obs_x0_late",
  "lgm0pop_c0_ytp_early_sats", "lgm0pop_c0_ylo_early_sats", "lgm0pop_c0_clip_c0_early_sats",
  "lgm0pop_c0_clip_c1_early_sats", "lgm0pop_c0_t_obs_x0_early_sats",
  "lgm0pop_c1_ytp_early_sats", "lgm0pop_c1_ylo_early_sats", "lgm0pop_c1_clip_x0_early_sats",
  "lgm0pop_c1_clip_ylo_early_sats", "lgm0pop_c1_clip_yhi_early_sats",
  "lgm0pop_c1_t_obs_x0_early_sats",
  "lgm0pop_c0_ytp_late_sats", "lgm0pop_c0_ylo_late_sats", "lgm0pop_c0_clip_c0_late_sats",
  "lgm0pop_c0_clip_c1_late_sats", "lgm0pop_c0_t_obs_x0_late_sats",
  "lgm0pop_c1_ytp_late_sats", "lgm0pop_c1_ylo_late_sats", "lgm0pop_c1_clip_x0_late_sats",
  "lgm0pop_c1_clip_ylo_late_sats", "lgm0pop_c1_clip_yhi_late_sats",
  "lgm0pop_c1_t_obs_x0_late_sats",
  "logtc_lgm_c0_tp_ytp_tobs_c0_early", "logtc_lgm_c0_tp_ytp_tobs_c1_early",
  "logtc_lgm_c0_tp_ylo_early", "logtc_lgm_c0_tp_yhi_early", "logtc_lgm_c1_early",
  "logtc_c0_ss_x0_early",
  "logtc_lgm_c0_tp_ytp_tobs_c0_late", "logtc_lgm_c0_tp_ytp_tobs_c1_late",
  "logtc_lgm_c0_tp_ylo_late", "logtc_lgm_c0_tp_yhi_late", "logtc_lgm_c1_late",
  "logtc_c0_ss_x0_late",
  "early_index_ylo_x0_alpha", "early_index_ylo_ylo_alpha", "early_index_ylo_yhi_alpha",
  "early_index_yhi_ylo_alpha", "early_index_yhi_yhi_alpha", "early_index_yhi_x0_alpha",
  "early_index_lgm_x0_alpha",
  "early_index_ylo_x0_beta", "early_index_ylo_ylo_beta", "early_index_ylo_yhi_beta",
  "early_index_yhi_ylo_beta", "early_index_yhi_yhi_beta", "early_index_yhi_x0_beta",
  "early_index_lgm_x0_beta",
  "late_index_x0_alpha", "late_index_ylo_alpha", "late_index_yhi_alpha",
  "late_index_x0_beta", "late_index_ylo_beta", "late_index_yhi_beta",
  "fec_t_obs_x0", "fec_lgm_x0", "fec_lgm_ylo_early", "fec_lgm_ylo_late", "fec_lgm_yhi_early",
  "fec_lgm_yhi_late",
  "std_u_logm0_ylo", "std_u_logtc_ylo", "std_u_early_ylo", "std_u_late_ylo", "std_u_logm0_yhi",
  "std_u_logtc_yhi", "std_u_early_yhi", "std_u_late_yhi", "rho_logtc_logm0", "rho_early_logm0",
  "rho_early_logtc", "rho_late_logm0", "rho_late_logtc", "rho_late_early", "cov_lgm_x0_logm0",
  "cov_lgm_x0_logtc", "cov_lgm_x0_early", "cov_lgm_x0_late"]

theorem NAMES_nodup : NAMES.Nodup := by unfold NAMES; decide

theorem FULL_fields : FULL.fields = NAMES := by
  have hcons : ∀ c cs, (catAll (c :: cs)).fields = c.fields ++ (catAll cs).fields := fun c cs => by
    rw [catAll_cons, Component.app_fields]
  have hnil : (catAll []).fields = [] := rfl
  unfold FULL NINE
  rw [LOGM0_BIMOD_eq, LOGM0_BIMOD_SATS_eq, LOGTC_BIMOD_eq, EARLY_INDEX_BIMOD_eq, LATE_INDEX_BIMOD_eq]
  simp only [hcons, hnil, Component.app_fields, TPCENS_fields, TPSATS_fields, LGM0_C0_EARLY_fields,
    LGM0_C1_EARLY_fields, LGM0_C0_LATE_fields, LGM0_C1_LATE_fields, LGM0_C0_EARLY_SATS_fields,
    LGM0_C1_EARLY_SATS_fields, LGM0_C0_LATE_SATS_fields, LGM0_C1_LATE_SATS_fields,
    LOGTC_EARLY_fields, LOGTC_LATE_fields, EARLY_INDEX_ALPHA_fields, EARLY_INDEX_BETA_fields,
    LATE_INDEX_ALPHA_fields, LATE_INDEX_BETA_fields, FEC_fields, COV_fields]
  rfl

theorem FULL_nodup : FULL.fields.Nodup := by rw [FULL_fields]; exact NAMES_nodup

theorem FULL_wf : FULL.Wf := catAll_wf NINE_wf FULL_nodup

theorem DEFAULT_eq : DEFAULT_DIFFMAHPOP_PARAMS = FULL.pdict := by
  unfold DEFAULT_DIFFMAHPOP_PARAMS
  have : COMPONENT_PDICTS.flatten = FULL.pdict := by simp [COMPONENT_PDICTS, FULL, NINE, catAll]
  rw [foldl_update, this]
  · rfl
  · rw [this]; simp only [NT.fields_nil, List.nil_append]; exact FULL_nodup

theorem FIELDS_eq : FIELDS = NAMES := by
  unfold FIELDS; rw [DEFAULT_eq]; exact FULL_fields

/-! ## Reading through a renaming -/

section Alias
variable {α : Type}

/-- The tuple whose value under `n` is the value of `p` under `f n`. -/
def aliasBy (f : String → String) (p : NT α) : NT α :=
  p.map fun kv => (kv.1, (p.lookup (f kv.1)).getD kv.2)

theorem aliasBy_fields (f : String → String) (p : NT α) : (aliasBy f p).fields = p.fields := by
  simp only [aliasBy, NT.fields, List.map_map]; apply List.map_congr_left; intro a _; rfl

theorem aliasBy_lookup (f : String → String) {p : NT α} (hp : p.fields.Nodup) {n : String}
    (h1 : n ∈ p.fields) (h2 : f n ∈ p.fields) : (aliasBy f p).lookup n = p.lookup (f n) := by
  obtain ⟨v, hv⟩ := NT.lookup_isSome h1
  obtain ⟨w, hw⟩ := NT.lookup_isSome h2
  rw [hw]
  apply NT.lookup_of_mem (by rw [aliasBy_fields]; exact hp)
  exact List.mem_map.2 ⟨(n, v), NT.mem_of_lookup hv, by simp [hw]⟩

theorem aliasBy_getattrs (f : String → String) {p : NT α} (hp : p.fields.Nodup) {ns : List String}
    (h1 : ∀ n ∈ ns, n ∈ p.fields) (h2 : ∀ n ∈ ns, f n ∈ p.fields) :
    (aliasBy f p).getattrs ns = p.getattrs (ns.map f) := by
  induction ns with
  | nil => rfl
  | cons n ns ih =>
    rw [List.map_cons, NT.getattrs_cons, NT.getattrs_cons, ih (fun m hm => h1 m (by simp [hm]))
      (fun m hm => h2 m (by simp [hm]))]
    have : (aliasBy f p).getattr n = p.getattr (f n) := by
      unfold NT.getattr; rw [aliasBy_lookup f hp (h1 n (by simp)) (h2 n (by simp))]
    rw [this]

/-- Each late-index alpha name is read from the beta name. -/
def lateAlias (n : String) : String :=
  if n = "late_index_x0_alpha" then "late_index_x0_beta"
  else if n = "late_index_ylo_alpha" then "late_index_ylo_beta"
  else if n = "late_index_yhi_alpha" then "late_index_yhi_beta"
  else n

/-- The same for the unbounded names. -/
def lateAliasU (n : String) : String :=
  if n = "u_late_index_x0_alpha" then "u_late_index_x0_beta"
  else if n = "u_late_index_ylo_alpha" then "u_late_index_ylo_beta"
  else if n = "u_late_index_yhi_alpha" then "u_late_index_yhi_beta"
  else n

end Alias

theorem LATE_ALPHA_upnames : LATE_INDEX_ALPHA.upnames = [
    "u_late_index_x0_alpha", "u_late_index_ylo_alpha", "u_late_index_yhi_alpha"] := by
  simp [Component.upnames, LATE_INDEX_ALPHA_fields]
theorem LATE_BETA_upnames : LATE_INDEX_BETA.upnames = [
    "u_late_index_x0_beta", "u_late_index_ylo_beta", "u_late_index_yhi_beta"] := by
  simp [Component.upnames, LATE_INDEX_BETA_fields]

theorem late_map : LATE_INDEX_BIMOD.fields.map lateAlias =
    LATE_INDEX_BETA.fields ++ LATE_INDEX_BETA.fields := by
  rw [LATE_INDEX_BIMOD_eq, Component.app_fields, LATE_INDEX_ALPHA_fields, LATE_INDEX_BETA_fields]
  simp [lateAlias]
theorem late_map_u : LATE_INDEX_BIMOD.upnames.map lateAliasU =
    LATE_INDEX_BETA.upnames ++ LATE_INDEX_BETA.upnames := by
  rw [LATE_INDEX_BIMOD_eq, Component.app_upnames, LATE_ALPHA_upnames, LATE_BETA_upnames]
  simp [lateAliasU]

theorem late_bounds : LATE_INDEX_ALPHA.bounds.values = LATE_INDEX_BETA.bounds.values := by
  simp [LATE_INDEX_ALPHA, LATE_INDEX_BETA, LATE_INDEX_BOUNDS_PDICT, withSuffix]

section Late
variable {α : Type} [Add α] [Sub α] [Mul α] [Div α] [JOps α]

/-- What the late-index bounding function computes: the beta values, twice. -/
theorem late_bounded_eq {u : NT α} {a b : List α} (ha : u.getattrs LATE_INDEX_ALPHA.upnames = .ok a)
    (hb : u.getattrs LATE_INDEX_BETA.upnames = .ok b) :
    late_index_bimod_get_bounded u = .ok (LATE_INDEX_BIMOD.fields.zip
      (List.zipWith get_bounded_param (b ++ b) LATE_INDEX_BIMOD.bounds.values)) := by
  have hl := NT.getattrs_length hb
  rw [Component.upnames_length] at hl
  have hbl := LATE_INDEX_BETA_wf.bounds_length
  have hbl' := LATE_INDEX_BIMOD_wf.bounds_length
  unfold late_index_bimod_get_bounded
  rw [sub_bounded_eq LATE_INDEX_ALPHA_wf, sub_bounded_eq LATE_INDEX_BETA_wf,
    get_bounded_eq LATE_INDEX_ALPHA_wf ha, get_bounded_eq LATE_INDEX_BETA_wf hb]
  simp only [bind, Except.bind]
  rw [NT.values_zip _ _ (by rw [List.length_zipWith, hl, hbl, min_self])]
  have e : List.zipWith get_bounded_param (b ++ b) LATE_INDEX_BIMOD.bounds.values =
      List.zipWith get_bounded_param b LATE_INDEX_BETA.bounds.values ++
      List.zipWith get_bounded_param b LATE_INDEX_BETA.bounds.values := by
    rw [LATE_INDEX_BIMOD_eq, Component.app_values, late_bounds, List.zipWith_append (by rw [hl, hbl])]
  rw [e, NT.make_eq]
  rw [List.length_append, List.length_zipWith, hl, hbl, min_self, LATE_INDEX_BIMOD_eq,
    Component.app_fields, List.length_append, LATE_INDEX_ALPHA_fields, LATE_INDEX_BETA_fields]
  rfl

theorem late_unbounded_eq {p : NT α} {b : List α} (hb : p.getattrs LATE_INDEX_BETA.fields = .ok b) :
    late_index_bimod_get_unbounded p = .ok (LATE_INDEX_BIMOD.upnames.zip
      (List.zipWith get_unbounded_param (b ++ b) LATE_INDEX_BIMOD.bounds.values)) := by
  have hl := NT.getattrs_length hb
  have hbl := LATE_INDEX_BETA_wf.bounds_length
  have hlen : LATE_INDEX_ALPHA.fields.length = LATE_INDEX_BETA.fields.length := by
    rw [LATE_INDEX_ALPHA_fields, LATE_INDEX_BETA_fields]; rfl
  unfold late_index_bimod_get_unbounded
  rw [hb]
  simp only [bind, Except.bind]
  rw [NT.make_eq (by rw [hl, hlen])]
  simp only
  rw [get_unbounded_eq LATE_INDEX_ALPHA_wf (NT.getattrs_zip LATE_INDEX_ALPHA_wf.nodup (by rw [hl, hlen])),
    sub_unbounded_eq LATE_INDEX_BETA_wf, get_unbounded_eq LATE_INDEX_BETA_wf hb]
  simp only
  rw [NT.values_zip _ _ (by rw [List.length_zipWith, hl, hbl, min_self, Component.upnames_length])]
  have e : List.zipWith get_unbounded_param (b ++ b) LATE_INDEX_BIMOD.bounds.values =
      List.zipWith get_unbounded_param b LATE_INDEX_BETA.bounds.values ++
      List.zipWith get_unbounded_param b LATE_INDEX_BETA.bounds.values := by
    rw [LATE_INDEX_BIMOD_eq, Component.app_values, late_bounds, List.zipWith_append (by rw [hl, hbl])]
  rw [e, NT.make_eq]
  rw [List.length_append, List.length_zipWith, hl, hbl, min_self, LATE_INDEX_BIMOD_eq,
    Component.app_upnames, List.length_append, Component.upnames_length, Component.upnames_length, hlen]

/-- Bounding the late-index parameters is bounding with alpha read from beta. -/
theorem late_bounded_alias {u u' : NT α} {a b : List α}
    (ha : u.getattrs LATE_INDEX_ALPHA.upnames = .ok a)
    (hb : u.getattrs LATE_INDEX_BETA.upnames = .ok b)
    (hu' : u'.getattrs LATE_INDEX_BIMOD.upnames = .ok (b ++ b)) :
    late_index_bimod_get_bounded u = LATE_INDEX_BIMOD.get_bounded u' := by
  rw [late_bounded_eq ha hb, get_bounded_eq LATE_INDEX_BIMOD_wf hu']

theorem late_unbounded_alias {p p' : NT α} {b : List α}
    (hb : p.getattrs LATE_INDEX_BETA.fields = .ok b)
    (hp' : p'.getattrs LATE_INDEX_BIMOD.fields = .ok (b ++ b)) :
    late_index_bimod_get_unbounded p = LATE_INDEX_BIMOD.get_unbounded p' := by
  rw [late_unbounded_eq hb, get_unbounded_eq LATE_INDEX_BIMOD_wf hp']

end Late

/-! ## Names of the components inside the full set -/

theorem NAMES_U_nodup : FULL.upnames.Nodup := FULL_wf.upnodup

theorem mem_FULL {c : Component} (hc : c ∈ NINE) {n : String} (hn : n ∈ c.fields) : n ∈ FULL.fields := by
  have : ∀ cs : List Component, c ∈ cs → n ∈ (catAll cs).fields := by
    intro cs
    induction cs with
    | nil => intro h; simp at h
    | cons d cs ih =>
      intro h
      rw [catAll_cons, Component.app_fields, List.mem_append]
      rcases List.mem_cons.1 h with rfl | h
      · exact Or.inl hn
      · exact Or.inr (ih h)
  exact this NINE hc

theorem mem_FULL_u {c : Component} (hc : c ∈ NINE) {n : String} (hn : n ∈ c.upnames) :
    n ∈ FULL.upnames := by
  obtain ⟨m, hm, rfl⟩ := List.mem_map.1 hn
  exact List.mem_map.2 ⟨m, mem_FULL hc hm, rfl⟩

theorem getattrs_sub {β : Type} {p : NT β} {ns : List String} (h : ∀ n ∈ ns, n ∈ p.fields) :
    ∃ v, p.getattrs ns = .ok v :=
  NT.getattrs_ok_of_forall fun n hn => by
    obtain ⟨v, hv⟩ := NT.lookup_isSome (h n hn)
    exact ⟨v, NT.getattr_eq_ok.2 hv⟩

/-- Names other than the six late-index ones are not renamed. -/
theorem map_lateAlias_id {ns : List String} (h : ∀ n ∈ ns, n ∉ LATE_INDEX_ALPHA.fields) :
    ns.map lateAlias = ns := by
  rw [List.map_congr_left (g := id), List.map_id]
  intro n hn
  have := h n hn
  rw [LATE_INDEX_ALPHA_fields] at this
  simp only [List.mem_cons, List.not_mem_nil, or_false, not_or] at this
  simp [lateAlias, this]

theorem map_lateAliasU_id {ns : List String} (h : ∀ n ∈ ns, n ∉ LATE_INDEX_ALPHA.upnames) :
    ns.map lateAliasU = ns := by
  rw [List.map_congr_left (g := id), List.map_id]
  intro n hn
  have := h n hn
  rw [LATE_ALPHA_upnames] at this
  simp only [List.mem_cons, List.not_mem_nil, or_false, not_or] at this
  simp [lateAliasU, this]

end Pop

end Diffmah

import Verif.Lemmas.Pop

/-!
# Lemmas about the component tables and the merged parameter set
-/

namespace Diffmah

set_option linter.unusedSectionVars false
set_option maxRecDepth 10000

namespace Pop

open TPeak

/-! ## Every component is well formed -/

macro "wf_tac" : tactic => `(tactic| (
  constructor
  · simp [Component.fields, withSuffix, lgm0pop_c0, lgm0pop_c1]
  · simp [Component.fields, withSuffix, lgm0pop_c0, lgm0pop_c1]
  · simp only [withSuffix, List.map_cons, List.map_nil, List.forall_mem_cons, List.not_mem_nil,
      false_imp_iff, implies_true, and_true, lgm0pop_c0, lgm0pop_c1, LGM0POP_C0_BOUNDS_DICT, LGM0POP_C1_BOUNDS_DICT,
      STD_BOUNDS, RHO_BOUNDS, COV_X0_BOUNDS, FTPT0_BOUNDS, F_BOUNDS, X_MIN, X_MAX, UTP_EPS]
    norm_num))

theorem COV_wf : COV.Wf := by unfold COV; wf_tac
theorem FTPT0_wf : FTPT0.Wf := by unfold FTPT0; wf_tac
theorem FEC_wf : FEC.Wf := by unfold FEC; wf_tac
theorem EARLY_INDEX_ALPHA_wf : EARLY_INDEX_ALPHA.Wf := by
  unfold EARLY_INDEX_ALPHA EARLY_INDEX_BOUNDS_PDICT; wf_tac
theorem EARLY_INDEX_BETA_wf : EARLY_INDEX_BETA.Wf := by
  unfold EARLY_INDEX_BETA EARLY_INDEX_BOUNDS_PDICT; wf_tac
theorem EARLY_INDEX_POP_wf : EARLY_INDEX_POP.Wf := by
  unfold EARLY_INDEX_POP EARLY_INDEX_BOUNDS_PDICT; wf_tac
theorem LATE_INDEX_ALPHA_wf : LATE_INDEX_ALPHA.Wf := by
  unfold LATE_INDEX_ALPHA LATE_INDEX_BOUNDS_PDICT; wf_tac
theorem LATE_INDEX_BETA_wf : LATE_INDEX_BETA.Wf := by
  unfold LATE_INDEX_BETA LATE_INDEX_BOUNDS_PDICT; wf_tac
theorem LOGTC_EARLY_wf : LOGTC_EARLY.Wf := by unfold LOGTC_EARLY LOGTC_BOUNDS_PDICT; wf_tac
theorem LOGTC_LATE_wf : LOGTC_LATE.Wf := by unfold LOGTC_LATE LOGTC_BOUNDS_PDICT; wf_tac
theorem LGM0_C0_EARLY_wf : LGM0_C0_EARLY.Wf := by
  unfold LGM0_C0_EARLY lgm0pop_c0 LGM0POP_C0_BOUNDS_DICT; wf_tac
theorem LGM0_C1_EARLY_wf : LGM0_C1_EARLY.Wf := by
  unfold LGM0_C1_EARLY lgm0pop_c1 LGM0POP_C1_BOUNDS_DICT; wf_tac
theorem LGM0_C0_LATE_wf : LGM0_C0_LATE.Wf := by
  unfold LGM0_C0_LATE lgm0pop_c0 LGM0POP_C0_BOUNDS_DICT; wf_tac
theorem LGM0_C1_LATE_wf : LGM0_C1_LATE.Wf := by
  unfold LGM0_C1_LATE lgm0pop_c1 LGM0POP_C1_BOUNDS_DICT; wf_tac
theorem LGM0_C0_EARLY_SATS_wf : LGM0_C0_EARLY_SATS.Wf := by
  unfold LGM0_C0_EARLY_SATS lgm0pop_c0 LGM0POP_C0_BOUNDS_DICT; wf_tac
theorem LGM0_C1_EARLY_SATS_wf : LGM0_C1_EARLY_SATS.Wf := by
  unfold LGM0_C1_EARLY_SATS lgm0pop_c1 LGM0POP_C1_BOUNDS_DICT; wf_tac
theorem LGM0_C0_LATE_SATS_wf : LGM0_C0_LATE_SATS.Wf := by
  unfold LGM0_C0_LATE_SATS lgm0pop_c0 LGM0POP_C0_BOUNDS_DICT; wf_tac
theorem LGM0_C1_LATE_SATS_wf : LGM0_C1_LATE_SATS.Wf := by
  unfold LGM0_C1_LATE_SATS lgm0pop_c1 LGM0POP_C1_BOUNDS_DICT; wf_tac
theorem TPCENS_wf : TPCENS.Wf := by unfold TPCENS; wf_tac
theorem TPSATS_wf : TPSATS.Wf := by unfold TPSATS; wf_tac
theorem UTP_wf : UTP.Wf := by unfold UTP; wf_tac
theorem TPCENS_OLD_wf : TPCENS_OLD.Wf := by unfold TPCENS_OLD; wf_tac

/-! ## The names -/

theorem COV_fields : COV.fields = [
    "std_u_logm0_ylo", "std_u_logtc_ylo", "std_u_early_ylo", "std_u_late_ylo", "std_u_logm0_yhi",
    "std_u_logtc_yhi", "std_u_early_yhi", "std_u_late_yhi", "rho_logtc_logm0", "rho_early_logm0",
    "rho_early_logtc", "rho_late_logm0", "rho_late_logtc", "rho_late_early", "cov_lgm_x0_logm0",
    "cov_lgm_x0_logtc", "cov_lgm_x0_early", "cov_lgm_x0_late"] := rfl
theorem FEC_fields : FEC.fields = [
    "fec_t_obs_x0", "fec_lgm_x0", "fec_lgm_ylo_early", "fec_lgm_ylo_late", "fec_lgm_yhi_early",
    "fec_lgm_yhi_late"] := rfl
theorem EARLY_INDEX_ALPHA_fields : EARLY_INDEX_ALPHA.fields = [
    "early_index_ylo_x0_alpha", "early_index_ylo_ylo_alpha", "early_index_ylo_yhi_alpha",
    "early_index_yhi_ylo_alpha", "early_index_yhi_yhi_alpha", "early_index_yhi_x0_alpha",
    "early_index_lgm_x0_alpha"] := by simp [EARLY_INDEX_ALPHA, Component.fields, withSuffix]
theorem EARLY_INDEX_BETA_fields : EARLY_INDEX_BETA.fields = [
    "early_index_ylo_x0_beta", "early_index_ylo_ylo_beta", "early_index_ylo_yhi_beta",
    "early_index_yhi_ylo_beta", "early_index_yhi_yhi_beta", "early_index_yhi_x0_beta",
    "early_index_lgm_x0_beta"] := by simp [EARLY_INDEX_BETA, Component.fields, withSuffix]
theorem LATE_INDEX_ALPHA_fields : LATE_INDEX_ALPHA.fields = [
    "late_index_x0_alpha", "late_index_ylo_alpha", "late_index_yhi_alpha"] := by
  simp [LATE_INDEX_ALPHA, Component.fields, withSuffix]
theorem LATE_INDEX_BETA_fields : LATE_INDEX_BETA.fields = [
    "late_index_x0_beta", "late_index_ylo_beta", "late_index_yhi_beta"] := by
  simp [LATE_INDEX_BETA, Component.fields, withSuffix]
theorem LOGTC_EARLY_fields : LOGTC_EARLY.fields = [
    "logtc_lgm_c0_tp_ytp_tobs_c0_early", "logtc_lgm_c0_tp_ytp_tobs_c1_early",
    "logtc_lgm_c0_tp_ylo_early", "logtc_lgm_c0_tp_yhi_early", "logtc_lgm_c1_early",
    "logtc_c0_ss_x0_early"] := by simp [LOGTC_EARLY, Component.fields, withSuffix]
theorem LOGTC_LATE_fields : LOGTC_LATE.fields = [
    "logtc_lgm_c0_tp_ytp_tobs_c0_late", "logtc_lgm_c0_tp_ytp_tobs_c1_late",
    "logtc_lgm_c0_tp_ylo_late", "logtc_lgm_c0_tp_yhi_late", "logtc_lgm_c1_late",
    "logtc_c0_ss_x0_late"] := by simp [LOGTC_LATE, Component.fields, withSuffix]
theorem LGM0_C0_EARLY_fields : LGM0_C0_EARLY.fields = [
    "lgm0pop_c0_ytp_early", "lgm0pop_c0_ylo_early", "lgm0pop_c0_clip_c0_early",
    "lgm0pop_c0_clip_c1_early", "lgm0pop_c0_t_obs_x0_early"] := by
  simp [LGM0_C0_EARLY, lgm0pop_c0, Component.fields, withSuffix]
theorem LGM0_C1_EARLY_fields : LGM0_C1_EARLY.fields = [
    "lgm0pop_c1_ytp_early", "lgm0pop_c1_ylo_early", "lgm0pop_c1_clip_x0_early",
    "lgm0pop_c1_clip_ylo_early", "lgm0pop_c1_clip_yhi_early", "lgm0pop_c1_t_obs_x0_early"] := by
  simp [LGM0_C1_EARLY, lgm0pop_c1, Component.fields, withSuffix]
theorem LGM0_C0_LATE_fields : LGM0_C0_LATE.fields = [
    "lgm0pop_c0_ytp_late", "lgm0pop_c0_ylo_late", "lgm0pop_c0_clip_c0_late",
    "lgm0pop_c0_clip_c1_late", "lgm0pop_c0_t_obs_x0_late"] := by
  simp [LGM0_C0_LATE, lgm0pop_c0, Component.fields, withSuffix]
theorem LGM0_C1_LATE_fields : LGM0_C1_LATE.fields = [
    "lgm0pop_c1_ytp_late", "lgm0pop_c1_ylo_late", "lgm0pop_c1_clip_x0_late",
    "lgm0pop_c1_clip_ylo_late", "lgm0pop_c1_clip_yhi_late", "lgm0pop_c1_t_obs_x0_late"] := by
  simp [LGM0_C1_LATE, lgm0pop_c1, Component.fields, withSuffix]
theorem LGM0_C0_EARLY_SATS_fields : LGM0_C0_EARLY_SATS.fields = [
    "lgm0pop_c0_ytp_early_sats", "lgm0pop_c0_ylo_early_sats", "lgm0pop_c0_clip_c0_early_sats",
    "lgm0pop_c0_clip_c1_early_sats", "lgm0pop_c0_t_obs_x0_early_sats"] := by
  simp [LGM0_C0_EARLY_SATS, lgm0pop_c0, Component.fields, withSuffix]
theorem LGM0_C1_EARLY_SATS_fields : LGM0_C1_EARLY_SATS.fields = [
    "lgm0pop_c1_ytp_early_sats", "lgm0pop_c1_ylo_early_sats", "lgm0pop_c1_clip_x0_early_sats",
    "lgm0pop_c1_clip_ylo_early_sats", "lgm0pop_c1_clip_yhi_early_sats",
    "lgm0pop_c1_t_obs_x0_early_sats"] := by
  simp [LGM0_C1_EARLY_SATS, lgm0pop_c1, Component.fields, withSuffix]
theorem LGM0_C0_LATE_SATS_fields : LGM0_C0_LATE_SATS.fields = [
    "lgm0pop_c0_ytp_late_sats", "lgm0pop_c0_ylo_late_sats", "lgm0pop_c0_clip_c0_late_sats",
    "lgm0pop_c0_clip_c1_late_sats", "lgm0pop_c0_t_obs_x0_late_sats"] := by
  simp [LGM0_C0_LATE_SATS, lgm0pop_c0, Component.fields, withSuffix]
theorem LGM0_C1_LATE_SATS_fields : LGM0_C1_LATE_SATS.fields = [
    "lgm0pop_c1_ytp_late_sats", "lgm0pop_c1_ylo_late_sats", "lgm0pop_c1_clip_x0_late_sats",
    "lgm0pop_c1_clip_ylo_late_sats", "lgm0pop_c1_clip_yhi_late_sats",
    "lgm0pop_c1_t_obs_x0_late_sats"] := by
  simp [LGM0_C1_LATE_SATS, lgm0pop_c1, Component.fields, withSuffix]
theorem TPCENS_fields : TPCENS.fields = [
    "cen_tp_lgm_x0_x0", "cen_tp_t_obs_x0_x0", "cen_tp_x0_ylo_early", "cen_tp_x0_yhi_early",
    "cen_tp_x0_ylo_late", "cen_tp_x0_yhi_late"] := rfl
theorem TPSATS_fields : TPSATS.fields = [
    "utp_loc_lgm_ylo_t0", "utp_loc_lgm_ylo_early", "utp_loc_lgm_ylo_late", "utp_loc_lgm_x0",
    "utp_scale_lgm_ylo_t0", "utp_scale_lgm_ylo_early", "utp_scale_lgm_ylo_late"] := rfl

/-! ## Two-population wrappers are concatenations -/

/-- Merging two dictionaries with distinct names. -/
theorem merge2 {c d : Component} (hc : c.Wf) (hd : d.Wf) (h : (c.fields ++ d.fields).Nodup) :
    (⟨(NT.update [] c.pdict).update d.pdict, (NT.update [] c.bounds).update d.bounds⟩ : Component)
      = c.app d := by
  have e1 : (NT.update [] c.pdict) = c.pdict := by
    rw [NT.update_disjoint _ _ (by simp only [NT.fields_nil, List.nil_append]; exact hc.nodup)]; rfl
  have e2 : (NT.update [] c.bounds) = c.bounds := by
    rw [NT.update_disjoint _ _ (by simpa [hc.same] using hc.nodup)]; rfl
  rw [e1, e2, NT.update_disjoint _ _ h, NT.update_disjoint _ _ (by rw [hc.same, hd.same]; exact h)]
  rfl

theorem LOGTC_nodup : (LOGTC_EARLY.fields ++ LOGTC_LATE.fields).Nodup := by
  rw [LOGTC_EARLY_fields, LOGTC_LATE_fields]; decide
theorem EARLY_INDEX_nodup : (EARLY_INDEX_ALPHA.fields ++ EARLY_INDEX_BETA.fields).Nodup := by
  rw [EARLY_INDEX_ALPHA_fields, EARLY_INDEX_BETA_fields]; decide
theorem LATE_INDEX_nodup : (LATE_INDEX_ALPHA.fields ++ LATE_INDEX_BETA.fields).Nodup := by
  rw [LATE_INDEX_ALPHA_fields, LATE_INDEX_BETA_fields]; decide
theorem LGM0_EARLY_nodup : (LGM0_C0_EARLY.fields ++ LGM0_C1_EARLY.fields).Nodup := by
  rw [LGM0_C0_EARLY_fields, LGM0_C1_EARLY_fields]; decide
theorem LGM0_LATE_nodup : (LGM0_C0_LATE.fields ++ LGM0_C1_LATE.fields).Nodup := by
  rw [LGM0_C0_LATE_fields, LGM0_C1_LATE_fields]; decide
theorem LGM0_nodup : ((LGM0_C0_EARLY.app LGM0_C1_EARLY).fields ++
    (LGM0_C0_LATE.app LGM0_C1_LATE).fields).Nodup := by
  rw [Component.app_fields, Component.app_fields, LGM0_C0_EARLY_fields, LGM0_C1_EARLY_fields,
    LGM0_C0_LATE_fields, LGM0_C1_LATE_fields]; decide
theorem LGM0_EARLY_SATS_nodup : (LGM0_C0_EARLY_SATS.fields ++ LGM0_C1_EARLY_SATS.fields).Nodup := by
  rw [LGM0_C0_EARLY_SATS_fields, LGM0_C1_EARLY_SATS_fields]; decide
theorem LGM0_LATE_SATS_nodup : (LGM0_C0_LATE_SATS.fields ++ LGM0_C1_LATE_SATS.fields).Nodup := by
  rw [LGM0_C0_LATE_SATS_fields, LGM0_C1_LATE_SATS_fields]; decide
theorem LGM0_SATS_nodup : ((LGM0_C0_EARLY_SATS.app LGM0_C1_EARLY_SATS).fields ++
    (LGM0_C0_LATE_SATS.app LGM0_C1_LATE_SATS).fields).Nodup := by
  rw [Component.app_fields, Component.app_fields, LGM0_C0_EARLY_SATS_fields,
    LGM0_C1_EARLY_SATS_fields, LGM0_C0_LATE_SATS_fields, LGM0_C1_LATE_SATS_fields]; decide

theorem LOGTC_BIMOD_eq : LOGTC_BIMOD = LOGTC_EARLY.app LOGTC_LATE :=
  merge2 LOGTC_EARLY_wf LOGTC_LATE_wf LOGTC_nodup
theorem EARLY_INDEX_BIMOD_eq : EARLY_INDEX_BIMOD = EARLY_INDEX_ALPHA.app EARLY_INDEX_BETA :=
  merge2 EARLY_INDEX_ALPHA_wf EARLY_INDEX_BETA_wf EARLY_INDEX_nodup
theorem LATE_INDEX_BIMOD_eq : LATE_INDEX_BIMOD = LATE_INDEX_ALPHA.app LATE_INDEX_BETA :=
  merge2 LATE_INDEX_ALPHA_wf LATE_INDEX_BETA_wf LATE_INDEX_nodup

theorem LGM0_EARLY_wf : (LGM0_C0_EARLY.app LGM0_C1_EARLY).Wf :=
  LGM0_C0_EARLY_wf.app LGM0_C1_EARLY_wf LGM0_EARLY_nodup
theorem LGM0_LATE_wf : (LGM0_C0_LATE.app LGM0_C1_LATE).Wf :=
  LGM0_C0_LATE_wf.app LGM0_C1_LATE_wf LGM0_LATE_nodup
theorem LGM0_EARLY_SATS_wf : (LGM0_C0_EARLY_SATS.app LGM0_C1_EARLY_SATS).Wf :=
  LGM0_C0_EARLY_SATS_wf.app LGM0_C1_EARLY_SATS_wf LGM0_EARLY_SATS_nodup
theorem LGM0_LATE_SATS_wf : (LGM0_C0_LATE_SATS.app LGM0_C1_LATE_SATS).Wf :=
  LGM0_C0_LATE_SATS_wf.app LGM0_C1_LATE_SATS_wf LGM0_LATE_SATS_nodup

theorem LOGM0_BIMOD_eq : LOGM0_BIMOD =
    (LGM0_C0_EARLY.app LGM0_C1_EARLY).app (LGM0_C0_LATE.app LGM0_C1_LATE) := by
  rw [← merge2 LGM0_EARLY_wf LGM0_LATE_wf LGM0_nodup,
    ← merge2 LGM0_C0_EARLY_wf LGM0_C1_EARLY_wf LGM0_EARLY_nodup,
    ← merge2 LGM0_C0_LATE_wf LGM0_C1_LATE_wf LGM0_LATE_nodup]
  rfl
theorem LOGM0_BIMOD_SATS_eq : LOGM0_BIMOD_SATS =
    (LGM0_C0_EARLY_SATS.app LGM0_C1_EARLY_SATS).app (LGM0_C0_LATE_SATS.app LGM0_C1_LATE_SATS) := by
  rw [← merge2 LGM0_EARLY_SATS_wf LGM0_LATE_SATS_wf LGM0_SATS_nodup,
    ← merge2 LGM0_C0_EARLY_SATS_wf LGM0_C1_EARLY_SATS_wf LGM0_EARLY_SATS_nodup,
    ← merge2 LGM0_C0_LATE_SATS_wf LGM0_C1_LATE_SATS_wf LGM0_LATE_SATS_nodup]
  rfl

theorem LOGTC_BIMOD_wf : LOGTC_BIMOD.Wf :=
  LOGTC_BIMOD_eq ▸ LOGTC_EARLY_wf.app LOGTC_LATE_wf LOGTC_nodup
theorem EARLY_INDEX_BIMOD_wf : EARLY_INDEX_BIMOD.Wf :=
  EARLY_INDEX_BIMOD_eq ▸ EARLY_INDEX_ALPHA_wf.app EARLY_INDEX_BETA_wf EARLY_INDEX_nodup
theorem LATE_INDEX_BIMOD_wf : LATE_INDEX_BIMOD.Wf :=
  LATE_INDEX_BIMOD_eq ▸ LATE_INDEX_ALPHA_wf.app LATE_INDEX_BETA_wf LATE_INDEX_nodup
theorem LOGM0_BIMOD_wf : LOGM0_BIMOD.Wf :=
  LOGM0_BIMOD_eq ▸ LGM0_EARLY_wf.app LGM0_LATE_wf LGM0_nodup
theorem LOGM0_BIMOD_SATS_wf : LOGM0_BIMOD_SATS.Wf :=
  LOGM0_BIMOD_SATS_eq ▸ LGM0_EARLY_SATS_wf.app LGM0_LATE_SATS_wf LGM0_SATS_nodup

section Generic
variable {α : Type} [Add α] [Sub α] [Mul α] [Div α] [JOps α]

theorem make_values (names : List String) (x : NT α) (h : x.fields = names) :
    NT.make names x.values = .ok x := by
  rw [NT.make_eq (by rw [← h]; simp), ← h, NT.zip_fields_values]

theorem bimod2_bounded {c d : Component} (hc : c.Wf) (hd : d.Wf)
    (h : (c.fields ++ d.fields).Nodup) (u : NT α) :
    (do let x ← sub_bounded c u
        let y ← sub_bounded d u
        NT.make (c.app d).fields (x.values ++ y.values)) = (c.app d).get_bounded u := by
  rw [app_get_bounded hc hd h, sub_bounded_eq hc, sub_bounded_eq hd]
  cases h1 : c.get_bounded u with
  | error e => rfl
  | ok x =>
    cases h2 : d.get_bounded u with
    | error e => rfl
    | ok y =>
      simp only [bind, Except.bind, pure, Except.pure]
      rw [← NT.values_append, make_values]
      rw [NT.fields_append, get_bounded_fields hc h1, get_bounded_fields hd h2, Component.app_fields]

theorem bimod2_unbounded {c d : Component} (hc : c.Wf) (hd : d.Wf)
    (h : (c.fields ++ d.fields).Nodup) (p : NT α) :
    (do let x ← sub_unbounded c p
        let y ← sub_unbounded d p
        NT.make (c.app d).upnames (x.values ++ y.values)) = (c.app d).get_unbounded p := by
  rw [app_get_unbounded hc hd h, sub_unbounded_eq hc, sub_unbounded_eq hd]
  cases h1 : c.get_unbounded p with
  | error e => rfl
  | ok x =>
    cases h2 : d.get_unbounded p with
    | error e => rfl
    | ok y =>
      simp only [bind, Except.bind, pure, Except.pure]
      rw [← NT.values_append, make_values]
      rw [NT.fields_append, get_unbounded_fields hc h1, get_unbounded_fields hd h2,
        Component.app_upnames]

theorem bimod4_bounded {a b c d : Component} (ha : a.Wf) (hb : b.Wf) (hc : c.Wf) (hd : d.Wf)
    (hab : (a.fields ++ b.fields).Nodup) (hcd : (c.fields ++ d.fields).Nodup)
    (h : ((a.app b).fields ++ (c.app d).fields).Nodup) (u : NT α) :
    (do let w ← sub_bounded a u
        let x ← sub_bounded b u
        let y ← sub_bounded c u
        let z ← sub_bounded d u
        NT.make ((a.app b).app (c.app d)).fields (w.values ++ x.values ++ y.values ++ z.values))
      = ((a.app b).app (c.app d)).get_bounded u := by
  rw [app_get_bounded (ha.app hb hab) (hc.app hd hcd) h, app_get_bounded ha hb hab,
    app_get_bounded hc hd hcd, sub_bounded_eq ha, sub_bounded_eq hb, sub_bounded_eq hc,
    sub_bounded_eq hd]
  cases h1 : a.get_bounded u with
  | error e => rfl
  | ok w =>
  cases h2 : b.get_bounded u with
  | error e => rfl
  | ok x =>
  cases h3 : c.get_bounded u with
  | error e => rfl
  | ok y =>
  cases h4 : d.get_bounded u with
  | error e => rfl
  | ok z =>
    simp only [bind, Except.bind, pure, Except.pure]
    rw [← NT.values_append, ← NT.values_append, ← NT.values_append, make_values]
    · simp
    · simp [get_bounded_fields ha h1, get_bounded_fields hb h2, get_bounded_fields hc h3,
        get_bounded_fields hd h4]

theorem bimod4_unbounded {a b c d : Component} (ha : a.Wf) (hb : b.Wf) (hc : c.Wf) (hd : d.Wf)
    (hab : (a.fields ++ b.fields).Nodup) (hcd : (c.fields ++ d.fields).Nodup)
    (h : ((a.app b).fields ++ (c.app d).fields).Nodup) (p : NT α) :
    (do let w ← sub_unbounded a p
        let x ← sub_unbounded b p
        let y ← sub_unbounded c p
        let z ← sub_unbounded d p
        NT.make ((a.app b).app (c.app d)).upnames (w.values ++ x.values ++ y.values ++ z.values))
      = ((a.app b).app (c.app d)).get_unbounded p := by
  rw [app_get_unbounded (ha.app hb hab) (hc.app hd hcd) h, app_get_unbounded ha hb hab,
    app_get_unbounded hc hd hcd, sub_unbounded_eq ha, sub_unbounded_eq hb, sub_unbounded_eq hc,
    sub_unbounded_eq hd]
  cases h1 : a.get_unbounded p with
  | error e => rfl
  | ok w =>
  cases h2 : b.get_unbounded p with
  | error e => rfl
  | ok x =>
  cases h3 : c.get_unbounded p with
  | error e => rfl
  | ok y =>
  cases h4 : d.get_unbounded p with
  | error e => rfl
  | ok z =>
    simp only [bind, Except.bind, pure, Except.pure]
    rw [← NT.values_append, ← NT.values_append, ← NT.values_append, make_values]
    · simp
    · simp [get_unbounded_fields ha h1, get_unbounded_fields hb h2, get_unbounded_fields hc h3,
        get_unbounded_fields hd h4]

theorem logtc_bimod_bounded_eq (u : NT α) : logtc_bimod_get_bounded u = LOGTC_BIMOD.get_bounded u := by
  unfold logtc_bimod_get_bounded
  rw [LOGTC_BIMOD_eq]; exact bimod2_bounded LOGTC_EARLY_wf LOGTC_LATE_wf LOGTC_nodup u
theorem logtc_bimod_unbounded_eq (p : NT α) :
    logtc_bimod_get_unbounded p = LOGTC_BIMOD.get_unbounded p := by
  unfold logtc_bimod_get_unbounded
  rw [LOGTC_BIMOD_eq]; exact bimod2_unbounded LOGTC_EARLY_wf LOGTC_LATE_wf LOGTC_nodup p
theorem early_index_bimod_bounded_eq (u : NT α) :
    early_index_bimod_get_bounded u = EARLY_INDEX_BIMOD.get_bounded u := by
  unfold early_index_bimod_get_bounded
  rw [EARLY_INDEX_BIMOD_eq]
  exact bimod2_bounded EARLY_INDEX_ALPHA_wf EARLY_INDEX_BETA_wf EARLY_INDEX_nodup u
theorem early_index_bimod_unbounded_eq (p : NT α) :
    early_index_bimod_get_unbounded p = EARLY_INDEX_BIMOD.get_unbounded p := by
  unfold early_index_bimod_get_unbounded
  rw [EARLY_INDEX_BIMOD_eq]
  exact bimod2_unbounded EARLY_INDEX_ALPHA_wf EARLY_INDEX_BETA_wf EARLY_INDEX_nodup p
theorem logm0_bimod_bounded_eq (u : NT α) : logm0_bimod_get_bounded u = LOGM0_BIMOD.get_bounded u := by
  unfold logm0_bimod_get_bounded
  rw [LOGM0_BIMOD_eq]
  exact bimod4_bounded LGM0_C0_EARLY_wf LGM0_C1_EARLY_wf LGM0_C0_LATE_wf LGM0_C1_LATE_wf
    LGM0_EARLY_nodup LGM0_LATE_nodup LGM0_nodup u
theorem logm0_bimod_unbounded_eq (p : NT α) :
    logm0_bimod_get_unbounded p = LOGM0_BIMOD.get_unbounded p := by
  unfold logm0_bimod_get_unbounded
  rw [LOGM0_BIMOD_eq]
  exact bimod4_unbounded LGM0_C0_EARLY_wf LGM0_C1_EARLY_wf LGM0_C0_LATE_wf LGM0_C1_LATE_wf
    LGM0_EARLY_nodup LGM0_LATE_nodup LGM0_nodup p
theorem logm0_bimod_sats_bounded_eq (u : NT α) :
    logm0_bimod_sats_get_bounded u = LOGM0_BIMOD_SATS.get_bounded u := by
  unfold logm0_bimod_sats_get_bounded
  rw [LOGM0_BIMOD_SATS_eq]
  exact bimod4_bounded LGM0_C0_EARLY_SATS_wf LGM0_C1_EARLY_SATS_wf LGM0_C0_LATE_SATS_wf
    LGM0_C1_LATE_SATS_wf LGM0_EARLY_SATS_nodup LGM0_LATE_SATS_nodup LGM0_SATS_nodup u
theorem logm0_bimod_sats_unbounded_eq (p : NT α) :
    logm0_bimod_sats_get_unbounded p = LOGM0_BIMOD_SATS.get_unbounded p := by
  unfold logm0_bimod_sats_get_unbounded
  rw [LOGM0_BIMOD_SATS_eq]
  exact bimod4_unbounded LGM0_C0_EARLY_SATS_wf LGM0_C1_EARLY_SATS_wf LGM0_C0_LATE_SATS_wf
    LGM0_C1_LATE_SATS_wf LGM0_EARLY_SATS_nodup LGM0_LATE_SATS_nodup LGM0_SATS_nodup p

end Generic

end Pop

end Diffmah

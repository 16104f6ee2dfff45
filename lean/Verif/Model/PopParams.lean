import Verif.Model.TPeak

/-!
# Model of `/repo/diffmah/diffmahpop_kernels/bimod_censat_params.py` and `param_utils.py`
-/

namespace Diffmah

namespace PopParams

open Pop TPeak

/-- bimod_censat_params.py:20-30: the nine component dictionaries, in order. -/
noncomputable def COMPONENT_PDICTS : List (NT ℝ) := [
  TPCENS.pdict, TPSATS.pdict, LOGM0_BIMOD.pdict, LOGM0_BIMOD_SATS.pdict, LOGTC_BIMOD.pdict,
  EARLY_INDEX_BIMOD.pdict, LATE_INDEX_BIMOD.pdict, FEC.pdict, COV.pdict]

/-- bimod_censat_params.py:19, 31-34 -/
noncomputable def DEFAULT_DIFFMAHPOP_PARAMS : NT ℝ := COMPONENT_PDICTS.foldl NT.update []

/-- The fields of `DiffmahPop_Params`, bimod_censat_params.py:33 -/
noncomputable def FIELDS : List String := DEFAULT_DIFFMAHPOP_PARAMS.fields

/-- The nine named tuples returned by `get_component_model_params` and
`get_component_model_u_params`. -/
@[ext] structure ComponentParams (α : Type) where
  tp_cens : NT α
  tp_sats : NT α
  logm0 : NT α
  logm0_sats : NT α
  logtc : NT α
  early_index : NT α
  late_index : NT α
  fec : NT α
  cov : NT α

/-- The component named tuples as a list, in the order of bimod_censat_params.py:220-230, 262-272. -/
def ComponentParams.toList {α : Type} (c : ComponentParams α) : List (NT α) :=
  [c.tp_cens, c.tp_sats, c.logm0, c.logm0_sats, c.logtc, c.early_index, c.late_index, c.fec, c.cov]

section Generic
variable {α : Type}

/-- `T(*[getattr(params, key) for key in T._fields])` (e.g. bimod_censat_params.py:57-62) -/
def component (fields : List String) (params : NT α) : Except PyErr (NT α) := do
  let vals ← params.getattrs fields
  NT.make fields vals

/-- bimod_censat_params.py:55-116 -/
noncomputable def get_component_model_params (params : NT α) : Except PyErr (ComponentParams α) := do
  let tp_cens ← component TPCENS.fields params
  let tp_sats ← component TPSATS.fields params
  let logm0 ← component LOGM0_BIMOD.fields params
  let logm0_sats ← component LOGM0_BIMOD_SATS.fields params
  let logtc ← component LOGTC_BIMOD.fields params
  let early_index ← component EARLY_INDEX_BIMOD.fields params
  let late_index ← component LATE_INDEX_BIMOD.fields params
  let fec ← component FEC.fields params
  let cov ← component COV.fields params
  return { tp_cens, tp_sats, logm0, logm0_sats, logtc, early_index, late_index, fec, cov }

/-- bimod_censat_params.py:119-190 -/
noncomputable def get_component_model_u_params (u : NT α) : Except PyErr (ComponentParams α) := do
  let tp_cens ← component TPCENS.upnames u
  let tp_sats ← component TPSATS.upnames u
  let logm0 ← component LOGM0_BIMOD.upnames u
  let logm0_sats ← component LOGM0_BIMOD_SATS.upnames u
  let logtc ← component LOGTC_BIMOD.upnames u
  let early_index ← component EARLY_INDEX_BIMOD.upnames u
  let late_index ← component LATE_INDEX_BIMOD.upnames u
  let fec ← component FEC.upnames u
  let cov ← component COV.upnames u
  return { tp_cens, tp_sats, logm0, logm0_sats, logtc, early_index, late_index, fec, cov }

/-- The loop of bimod_censat_params.py:232-233 and 274-275 -/
def replace_all (base : NT α) (parts : List (NT α)) : Except PyErr (NT α) :=
  parts.foldlM NT.replace base

end Generic

section Transform
variable {α : Type} [Add α] [Sub α] [Mul α] [Div α] [JOps α]

/-- Bound every component (bimod_censat_params.py:203-218) -/
noncomputable def bound_components (u : ComponentParams α) : Except PyErr (ComponentParams α) := do
  let tp_cens ← TPCENS.get_bounded u.tp_cens
  let tp_sats ← TPSATS.get_bounded u.tp_sats
  let logm0 ← logm0_bimod_get_bounded u.logm0
  let logm0_sats ← logm0_bimod_sats_get_bounded u.logm0_sats
  let logtc ← logtc_bimod_get_bounded u.logtc
  let early_index ← early_index_bimod_get_bounded u.early_index
  let late_index ← late_index_bimod_get_bounded u.late_index
  let fec ← FEC.get_bounded u.fec
  let cov ← COV.get_bounded u.cov
  return { tp_cens, tp_sats, logm0, logm0_sats, logtc, early_index, late_index, fec, cov }

/-- Unbound every component (bimod_censat_params.py:246-260) -/
noncomputable def unbound_components (p : ComponentParams α) : Except PyErr (ComponentParams α) := do
  let tp_cens ← TPCENS.get_unbounded p.tp_cens
  let tp_sats ← TPSATS.get_unbounded p.tp_sats
  let logm0 ← logm0_bimod_get_unbounded p.logm0
  let logm0_sats ← logm0_bimod_sats_get_unbounded p.logm0_sats
  let logtc ← logtc_bimod_get_unbounded p.logtc
  let early_index ← early_index_bimod_get_unbounded p.early_index
  let late_index ← late_index_bimod_get_unbounded p.late_index
  let fec ← FEC.get_unbounded p.fec
  let cov ← COV.get_unbounded p.cov
  return { tp_cens, tp_sats, logm0, logm0_sats, logtc, early_index, late_index, fec, cov }

end Transform

/-- bimod_censat_params.py:37-52. Each entry is the module's `DEFAULT_..._U_PARAMS`, i.e. the
unbounded image of its default parameters. -/
noncomputable def COMPONENT_U_PDICTS : Except PyErr (List (NT ℝ)) := do
  let tpc ← TPCENS.get_unbounded TPCENS.pdict
  let tps ← TPSATS.get_unbounded TPSATS.pdict
  let lgm0 ← logm0_bimod_get_unbounded LOGM0_BIMOD.pdict
  let lgm0s ← logm0_bimod_sats_get_unbounded LOGM0_BIMOD_SATS.pdict
  let logtc ← logtc_bimod_get_unbounded LOGTC_BIMOD.pdict
  let early ← early_index_bimod_get_unbounded EARLY_INDEX_BIMOD.pdict
  let late ← late_index_bimod_get_unbounded LATE_INDEX_BIMOD.pdict
  let fec ← FEC.get_unbounded FEC.pdict
  let cov ← COV.get_unbounded COV.pdict
  return [tpc, tps, lgm0, lgm0s, logtc, early, late, fec, cov]

/-- bimod_censat_params.py:48-52 -/
noncomputable def DEFAULT_DIFFMAHPOP_U_PARAMS : Except PyErr (NT ℝ) := do
  let dicts ← COMPONENT_U_PDICTS
  return dicts.foldl NT.update []

/-- bimod_censat_params.py:193-235 -/
noncomputable def get_diffmahpop_params_from_u_params (u : NT ℝ) : Except PyErr (NT ℝ) := do
  let comps ← get_component_model_u_params u
  let bounded ← bound_components comps
  replace_all DEFAULT_DIFFMAHPOP_PARAMS bounded.toList

/-- bimod_censat_params.py:238-277 -/
noncomputable def get_diffmahpop_u_params_from_params (p : NT ℝ) : Except PyErr (NT ℝ) := do
  let comps ← get_component_model_params p
  let unbounded ← unbound_components comps
  let base ← DEFAULT_DIFFMAHPOP_U_PARAMS
  replace_all base unbounded.toList

/-- bimod_censat_params.py:280-285 -/
def get_all_diffmahpop_params_from_varied (varied default_params : NT ℝ) : Except PyErr (NT ℝ) :=
  default_params.replace varied

/-- bimod_censat_params.py:288-295; values are already floats -/
def get_varied_params_by_exclusion (all_params : NT ℝ) (excluded_pnames : List String) : NT ℝ :=
  all_params.filter fun kv => !excluded_pnames.contains kv.1

end PopParams

end Diffmah

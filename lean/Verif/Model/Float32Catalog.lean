import Verif.Model.Float32Moments

/-!
# Monte Carlo catalogues in single precision

`mc_diffmah_cenpop`, `mc_diffmah_satpop`, `mc_cenpop` and `mc_satpop` in every number system, as in `Model/MC.lean`. The tables of
`jnp.linspace` are given, as in `Model/Float32Peak.lean`, and so are the uniform numbers that choose between early and late.
Accretion rates are computed as in `Model/Float32.lean`.
-/

namespace Diffmah

open JOps JMinMax JFlow Pop TPeak PopParams MC PopGrad

/-- As `MahPopArrays` -/
structure PopArrays (α : Type) where
  logm0 : List α
  logtc : List α
  early_index : List α
  late_index : List α
  t_peak : List α

/-- As `MC.stack` -/
def PopArrays.stack {α : Type} (rows : List (MahParams α)) : PopArrays α where
  logm0 := rows.map MahParams.logm0
  logtc := rows.map MahParams.logtc
  early_index := rows.map MahParams.early_index
  late_index := rows.map MahParams.late_index
  t_peak := rows.map MahParams.t_peak

/-- mc_bimod_cens.py:271-272, 304-306; param_utils.py:28-33: as `MC.mc_select_diffmah_params` -/
def PopArrays.select {α : Type} (p1 p0 : PopArrays α) (mc_is_1 : List Bool) : PopArrays α where
  logm0 := whereArr mc_is_1 p1.logm0 p0.logm0
  logtc := whereArr mc_is_1 p1.logtc p0.logtc
  early_index := whereArr mc_is_1 p1.early_index p0.early_index
  late_index := whereArr mc_is_1 p1.late_index p0.late_index
  t_peak := whereArr mc_is_1 p1.t_peak p0.t_peak

/-- `HaloPop` of mc_bimod_cens.py:274-284 -/
structure HaloPopOf (α : Type) where
  mah_params : PopArrays α
  mah_params_early : PopArrays α
  mah_params_late : PopArrays α
  frac_early_cens : List α
  mc_early : List Bool

/-- `HaloPop` of mc_bimod_cens.py:311-313 -/
structure HaloHistOf (α : Type) where
  mah_params : PopArrays α
  dmhdt : List (List α)
  log_mah : List (List α)

/-- The seven outputs of `_mc_diffmah_singlecen` -/
structure SingleHistoriesOf (α : Type) where
  params_early : MahParams α
  dmhdt_early : List α
  log_mah_early : List α
  params_late : MahParams α
  dmhdt_late : List α
  log_mah_late : List α
  frac_early : α

open Classical in
/-- `uran < frac_early_cens`: as `MC.below` -/
noncomputable def belowOf {α : Type} [JOps α] (uran frac : List α) : List Bool :=
  List.zipWith (fun u f => decide (lt u f)) uran frac

section Generic
variable {α : Type} [Add α] [Sub α] [Mul α] [Div α] [JOps α] [JMinMax α] [JFlow α]
variable (utab : List α) (tab : α → α → List α) (E : Env α) (uniforms : Key → ℕ → List α)

/-- mc_bimod_cens.py:184-220, mc_bimod_sats.py:185-220: as `MC.mc_diffmah_params_single` -/
noncomputable def mc_diffmah_params_single_opt (kind : Kind) (params : NT α) (lgm_obs t_obs : α)
    (ran_key : Key) (lgt0 : α) (t_peak : Option α) : RandM (MahParams α × MahParams α × α) :=
  match t_peak with
  | none => mc_diffmah_params_single_tab utab tab E kind params lgm_obs t_obs ran_key lgt0
  | some t_peak => mc_diffmah_params_single_t_peak E kind params lgm_obs t_obs ran_key t_peak

/-- mc_bimod_cens.py:258-284, mc_bimod_sats.py:258-284: as `MC.mc_diffmah_pop` -/
noncomputable def mc_diffmah_pop_tab (kind : Kind) (params : NT α) (lgm_obs t_obs : List α) (ran_key : Key)
    (lgt0 : α) (t_peak : Option (List α)) : RandM (HaloPopOf α) := do
  let early_late_key := Key.child ran_key 2 0
  let ran_key := Key.child ran_key 2 1
  let n := lgm_obs.length
  let ran_keys := ran_key.split n
  if t_obs.length = n ∧ (∀ tp ∈ t_peak, tp.length = n) then
    let rows ← RandM.all ((List.range n).map fun i =>
      mc_diffmah_params_single_opt utab tab E kind params (lgm_obs.getD i (lit 0)) (t_obs.getD i (lit 0))
        (ran_keys.getD i ran_key) lgt0 (t_peak.map fun tp => tp.getD i (lit 0)))
    let early := PopArrays.stack (rows.map fun r => r.1)
    let late := PopArrays.stack (rows.map fun r => r.2.1)
    let frac := rows.map fun r => r.2.2
    let uran ← RandM.draw early_late_key (uniforms early_late_key frac.length)
    let mc_early := belowOf uran frac
    return ⟨early.select late mc_early, early, late, frac, mc_early⟩
  else .error .valueError

/-- mc_bimod_cens.py:223-233, mc_bimod_sats.py:223-233: as `MC.mc_diffmah_single` -/
noncomputable def mc_diffmah_single_hist (kind : Kind) (params : NT α) (tarr : List α) (lgm_obs t_obs : α)
    (ran_key : Key) (lgt0 : α) : RandM (SingleHistoriesOf α) := do
  let res ← mc_diffmah_params_single_tab utab tab E kind params lgm_obs t_obs ran_key lgt0
  let e := mah_singlehalo_rev res.1 tarr lgt0
  let l := mah_singlehalo_rev res.2.1 tarr lgt0
  return ⟨res.1, e.1, e.2, res.2.1, l.1, l.2, res.2.2⟩

/-- mc_bimod_cens.py:287-313, mc_bimod_sats.py:287-313: as `MC.mc_pop` -/
noncomputable def mc_pop_tab (kind : Kind) (params : NT α) (tarr lgm_obs t_obs : List α) (ran_key : Key)
    (lgt0 : α) : RandM (HaloHistOf α) := do
  let n_mc := lgm_obs.length
  let ran_keys := ran_key.split (n_mc + 1)
  let dmah_keys := ran_keys.dropLast
  let uran_key := ran_keys.getD n_mc ran_key
  if t_obs.length = n_mc then
    let res ← RandM.all ((List.range n_mc).map fun i =>
      mc_diffmah_single_hist utab tab E kind params tarr (lgm_obs.getD i (lit 0)) (t_obs.getD i (lit 0))
        (dmah_keys.getD i ran_key) lgt0)
    let p_e := PopArrays.stack (res.map (·.params_early))
    let p_l := PopArrays.stack (res.map (·.params_late))
    let frac := res.map (·.frac_early)
    let uran ← RandM.draw uran_key (uniforms uran_key n_mc)
    let msk := belowOf uran frac
    return {
      mah_params := p_e.select p_l msk
      dmhdt := whereArr msk (res.map (·.dmhdt_early)) (res.map (·.dmhdt_late))
      log_mah := whereArr msk (res.map (·.log_mah_early)) (res.map (·.log_mah_late)) }
  else .error .valueError

end Generic

end Diffmah

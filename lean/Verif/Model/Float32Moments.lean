import Verif.Model.Float32Peak
import Verif.Model.Float32Fit

/-!
# Moments and losses of populations in single precision

The code of `Model/PopGrad.lean`, for given tables of `jnp.linspace` as in `Model/Float32Peak.lean`, and for a given way `sum` of
adding up an array, since XLA promises no order. The numbers of a bin are Python or NumPy floats, which JAX rounds to
single precision (`lit`).
-/

namespace Diffmah

open JOps JMinMax JFlow Pop TPeak PopParams MC PopGrad

section Generic
variable {α : Type} [Add α] [Sub α] [Mul α] [Div α] [JOps α] [JMinMax α] [JFlow α]
variable (sum : List α → α) (utab : List α) (tab : α → α → List α) (E : Env α)

/-- mc_bimod_cens.py:223-233, mc_bimod_sats.py:223-233: as `PopGrad.mc_diffmah_single` -/
noncomputable def mc_diffmah_single_tab (kind : Kind) (params : NT α) (tarr : List α) (lgm_obs t_obs : α)
    (ran_key : Key) (lgt0 : α) : RandM (List α × List α × α) := do
  let res ← mc_diffmah_params_single_tab utab tab E kind params lgm_obs t_obs ran_key lgt0
  return (tarr.map fun t => log_mah res.1 t lgt0, tarr.map fun t => log_mah res.2.1 t lgt0, res.2.2)

/-- mc_bimod_cens.py:247-255, mc_bimod_sats.py:240-248: as `PopGrad.mc_diffmah_halo_sample` -/
noncomputable def mc_diffmah_halo_sample_tab (kind : Kind) (params : NT α) (tarr : List α)
    (lgm_obs t_obs : α) (ran_key : Key) (lgt0 : α) (n_mc : ℕ) : RandM (List (List α × List α × α)) :=
  RandM.all ((ran_key.split n_mc).map fun k =>
    mc_diffmah_single_tab utab tab E kind params tarr (lgm_obs + lit 0) (t_obs + lit 0) k lgt0)

/-- mc_bimod_cens.py:323-349 for one time: as `PopGrad.moments` -/
noncomputable def moments_with (x_e x_l frac_early : List α) : α × α :=
  let n_early := x_e.length
  let n_late := x_l.length
  let frac_late := frac_early.map fun f => lit 1.0 - f
  let weights_early : α := lit (1 / (n_early : ℝ))
  let weights_late : α := lit (1 / (n_late : ℝ))
  let w_e := frac_early.map fun f => f * weights_late
  let w_l := frac_late.map fun f => f * weights_early
  let mu_e := sum (List.zipWith (· * ·) x_e w_e)
  let mu_l := sum (List.zipWith (· * ·) x_l w_l)
  let mean_log_mah := mu_e + mu_l
  let var_e := sum (List.zipWith (fun x w => (x - mean_log_mah) * (x - mean_log_mah) * w) x_e w_e)
  let var_l := sum (List.zipWith (fun x w => (x - mean_log_mah) * (x - mean_log_mah) * w) x_l w_l)
  let var_log_mah := var_e + var_l
  (mean_log_mah, sqrt var_log_mah)

/-- mc_bimod_cens.py:316-351: as `PopGrad.predict_mah_moments_singlebin` -/
noncomputable def predict_mah_moments_singlebin_tab (kind : Kind) (params : NT α) (tarr : List α)
    (lgm_obs t_obs : α) (ran_key : Key) (lgt0 : α) : RandM (List (α × α)) := do
  let res ← mc_diffmah_halo_sample_tab utab tab E kind params tarr lgm_obs t_obs ran_key lgt0 NH_PER_M0BIN
  return (List.range tarr.length).map fun it =>
    moments_with sum (res.map fun r => r.1.getD it (lit 0)) (res.map fun r => r.2.1.getD it (lit 0))
      (res.map fun r => r.2.2)

/-- bimod_cens_fithelp.py:15-18: as `PopGrad.mse` -/
noncomputable def pop_mse_with (x y : List α) : Except PyErr α :=
  if x.length = y.length then
    let d := List.zipWith (fun a b => b - a) x y
    .ok (sum (d.map fun a => a * a) / lit (d.length : ℝ))
  else .error .typeError

/-- bimod_cens_fithelp.py:21-40: as `PopGrad.loss_mah_moments_singlebin` -/
noncomputable def loss_mah_moments_singlebin_tab (kind : Kind) (params : NT α) (bin : PopLoss.Bin)
    (ran_key : Key) (lgt0 : ℝ) : RandM α := do
  let preds ← predict_mah_moments_singlebin_tab sum utab tab E kind params (bin.tarr.map lit) (lit bin.lgm_obs)
    (lit bin.t_obs) ran_key (lit lgt0)
  let loss ← RandM.lift (pop_mse_with sum (preds.map fun p => p.1) (bin.target_mean_log_mah.map lit))
  let loss' ← RandM.lift (pop_mse_with sum (preds.map fun p => p.2) (bin.target_std_log_mah.map lit))
  return loss + loss'

/-- bimod_cens_fithelp.py:43-96: as `PopGrad.loss_mah_moments_multibin` -/
noncomputable def loss_mah_moments_multibin_tab (kind : Kind) (params : NT α) (bins : List PopLoss.Bin)
    (ran_key : Key) (lgt0 : ℝ) : RandM α := do
  let losses ← RandM.all (List.zipWith
    (fun bin k => loss_mah_moments_singlebin_tab sum utab tab E kind params bin k lgt0) bins (ran_key.split bins.length))
  return sum losses / lit (losses.length : ℝ)

/-- bimod_cens_fithelp.py:99-105: as `PopGrad.loss_mah_moments_multibin_u_params` -/
noncomputable def loss_mah_moments_multibin_u_params_tab (u_params : NT α) (bins : List PopLoss.Bin)
    (ran_key : Key) (lgt0 : ℝ) : RandM α := do
  let params ← RandM.lift (params_of_u_params u_params)
  loss_mah_moments_multibin_tab sum utab tab E .cens params bins ran_key lgt0

/-- bimod_censat_fithelp.py:16-61: as `PopGrad.loss_mah_moments_multibin_censat` -/
noncomputable def loss_mah_moments_multibin_censat_tab (varied : NT α)
    (bins_cens bins_sats : List PopLoss.Bin) (ran_key : Key) (lgt0 : ℝ) : RandM α := do
  let params ← RandM.lift ((DEFAULT_DIFFMAHPOP_PARAMS.mapv lit).replace varied)
  let loss_cens ← loss_mah_moments_multibin_tab sum utab tab E .cens params bins_cens (Key.child ran_key 2 0) lgt0
  let loss_sats ← loss_mah_moments_multibin_tab sum utab tab E .sats params bins_sats (Key.child ran_key 2 1) lgt0
  return loss_cens + loss_sats

/-- bimod_censat_fithelp.py:69-73: as `PopGrad.loss_mah_moments_multibin_censat_u_params` -/
noncomputable def loss_mah_moments_multibin_censat_u_params_tab (u_params : NT α)
    (bins_cens bins_sats : List PopLoss.Bin) (ran_key : Key) (lgt0 : ℝ) : RandM α := do
  let params ← RandM.lift (params_of_u_params u_params)
  loss_mah_moments_multibin_censat_tab sum utab tab E params bins_cens bins_sats ran_key lgt0

/-- With the tables and the sums of `Model/PopGrad.lean` these are the functions there. -/
theorem predict_mah_moments_singlebin_tab_eq (kind : Kind) (params : NT α) (tarr : List α) (lgm_obs t_obs : α)
    (ran_key : Key) (lgt0 : α) :
    predict_mah_moments_singlebin_tab jsum (UTP_TABLE.map lit) (fun a b => PopGrad.linspace a b NPTS_CDF_TABLE) E kind params
      tarr lgm_obs t_obs ran_key lgt0 =
    PopGrad.predict_mah_moments_singlebin E kind params tarr lgm_obs t_obs ran_key lgt0 := rfl

theorem loss_mah_moments_multibin_u_params_tab_eq (u_params : NT α) (bins : List PopLoss.Bin) (ran_key : Key) (lgt0 : ℝ) :
    loss_mah_moments_multibin_u_params_tab jsum (UTP_TABLE.map lit) (fun a b => PopGrad.linspace a b NPTS_CDF_TABLE) E u_params
      bins ran_key lgt0 =
    PopGrad.loss_mah_moments_multibin_u_params E u_params bins ran_key lgt0 := rfl

theorem loss_mah_moments_multibin_censat_u_params_tab_eq (u_params : NT α) (bins_cens bins_sats : List PopLoss.Bin)
    (ran_key : Key) (lgt0 : ℝ) :
    loss_mah_moments_multibin_censat_u_params_tab jsum (UTP_TABLE.map lit) (fun a b => PopGrad.linspace a b NPTS_CDF_TABLE) E
      u_params bins_cens bins_sats ran_key lgt0 =
    PopGrad.loss_mah_moments_multibin_censat_u_params E u_params bins_cens bins_sats ran_key lgt0 := rfl

end Generic

end Diffmah

import Verif.Model.MC

/-!
# Model of the population losses in `/repo/diffmah/diffmahpop_kernels`

Modelled files: bimod_cens_fithelp.py, bimod_sats_fithelp.py, bimod_censat_fithelp.py. The first two
are copies of each other (centrals and satellites) and are modelled once, with a `Kind`. Line numbers
are those of bimod_cens_fithelp.py; the copy has bimod_sats_fithelp.py:15-17, 21-39, 47-69 and 73-95. The gradients (`value_and_grad`) are in PopGrad.lean.
-/

namespace Diffmah

namespace PopLoss

open Pop TPeak PopParams MC

/-- bimod_cens_fithelp.py:15-18. Arrays of different shape raise (the broadcasting of arrays of
length one is not modelled). -/
noncomputable def mse (x y : List ℝ) : Except PyErr ℝ :=
  if x.length = y.length then
    let d := List.zipWith (fun a b => b - a) x y
    .ok ((d.map fun a => a * a).sum / d.length)
  else .error .typeError

/-- What the loss needs to know about one bin: one entry of each mapped array. -/
structure Bin where
  tarr : List ℝ
  lgm_obs : ℝ
  t_obs : ℝ
  target_mean_log_mah : List ℝ
  target_std_log_mah : List ℝ

variable (ext : Ext) (rng : Rng)

/-- bimod_cens_fithelp.py:21-40; the third moment (`frac_peaked`) and its target are not used -/
noncomputable def loss_mah_moments_singlebin (kind : Kind) (params : NT ℝ) (bin : Bin) (ran_key : Key)
    (lgt0 : ℝ) : RandM ℝ := do
  let preds ← predict_mah_moments_singlebin ext rng kind params bin.tarr bin.lgm_obs bin.t_obs ran_key lgt0
  let loss ← RandM.lift (mse (preds.map fun p => p.1) bin.target_mean_log_mah)
  let loss' ← RandM.lift (mse (preds.map fun p => p.2.1) bin.target_std_log_mah)
  return loss + loss'

/-- bimod_cens_fithelp.py:43-70: one key per bin. The mapped arrays (which JAX requires to have the
same size) are modelled by the list of bins. -/
noncomputable def loss_mah_moments_multibin_kern (kind : Kind) (params : NT ℝ) (bins : List Bin)
    (ran_key : Key) (lgt0 : ℝ) : RandM (List ℝ) :=
  RandM.all (List.zipWith (fun bin k => loss_mah_moments_singlebin ext rng kind params bin k lgt0) bins
    (ran_key.split bins.length))

/-- bimod_cens_fithelp.py:73-96 -/
noncomputable def loss_mah_moments_multibin (kind : Kind) (params : NT ℝ) (bins : List Bin)
    (ran_key : Key) (lgt0 : ℝ) : RandM ℝ := do
  let losses ← loss_mah_moments_multibin_kern ext rng kind params bins ran_key lgt0
  return losses.sum / losses.length

/-- bimod_cens_fithelp.py:99-105 -/
noncomputable def loss_mah_moments_multibin_u_params (u_params : NT ℝ) (bins : List Bin)
    (ran_key : Key) (lgt0 : ℝ) : RandM ℝ := do
  let default ← RandM.lift DEFAULT_DIFFMAHPOP_U_PARAMS
  let u_params ← RandM.lift (default.replace u_params)
  let params ← RandM.lift (get_diffmahpop_params_from_u_params u_params)
  loss_mah_moments_multibin ext rng .cens params bins ran_key lgt0

/-- bimod_censat_fithelp.py:16-61 -/
noncomputable def loss_mah_moments_multibin_censat (varied : NT ℝ) (bins_cens bins_sats : List Bin)
    (ran_key : Key) (lgt0 : ℝ) : RandM ℝ := do
  let params ← RandM.lift (DEFAULT_DIFFMAHPOP_PARAMS.replace varied)
  let ran_key_cens := Key.child ran_key 2 0
  let ran_key_sats := Key.child ran_key 2 1
  let loss_cens ← loss_mah_moments_multibin ext rng .cens params bins_cens ran_key_cens lgt0
  let loss_sats ← loss_mah_moments_multibin ext rng .sats params bins_sats ran_key_sats lgt0
  return loss_cens + loss_sats

/-- bimod_censat_fithelp.py:69-73 -/
noncomputable def loss_mah_moments_multibin_censat_u_params (u_params : NT ℝ)
    (bins_cens bins_sats : List Bin) (ran_key : Key) (lgt0 : ℝ) : RandM ℝ := do
  let default ← RandM.lift DEFAULT_DIFFMAHPOP_U_PARAMS
  let u_params ← RandM.lift (default.replace u_params)
  let params ← RandM.lift (get_diffmahpop_params_from_u_params u_params)
  loss_mah_moments_multibin_censat ext rng params bins_cens bins_sats ran_key lgt0

end PopLoss

end Diffmah

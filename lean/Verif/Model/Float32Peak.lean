import Verif.Model.Float32Cov

/-!
# Drawing peak times in single precision

The code of `Model/PopGrad.lean`, in which the tables made by `jnp.linspace` are parameters: how it rounds is not documented, and
the source of JAX was not at hand. What is shown about single precision holds for all tables close to the exact ones.
-/

namespace Diffmah

open JOps JMinMax JFlow Pop TPeak PopParams MC PopGrad

section Generic
variable {α : Type} [Add α] [Sub α] [Mul α] [Div α] [JOps α] [JMinMax α] [JFlow α]

/-- One way to compute `jnp.linspace(start, stop, num)` (utp_pdf_kernels.py:49): `start (1 - step) + stop step`, with `stop`
itself at the end. It serves as an example of a table. -/
noncomputable def linspaceJax (num : ℕ) (start stop : α) : List α :=
  ((List.range (num - 1)).map fun (i : ℕ) =>
    let step := lit (i : ℝ) / lit ((num : ℝ) - 1)
    start * (lit 1 - step) + stop * step) ++ [stop]

variable (utab : List α) (tab : α → α → List α) (E : Env α)

/-- tp_pdf_cens_flex.py:53-56 and 69-75: as `PopGrad.mc_tpeak_singlecen`, with `utab` for `UTP_TABLE` (line 50) -/
noncomputable def mc_tpeak_singlecen_tab (params : NT α) (lgm_obs t_obs : α) (ran_key : Key) (t_0 : α) : RandM α := do
  let fp_table ← RandM.lift (frac_peaked_vs_lgm params utab lgm_obs t_obs)
  let uran ← RandM.draw ran_key (E.uniform ran_key)
  let utp := interp E.interp_eps (lit uran) fp_table utab
  return jmax utp (lit UTP_MIN) * t_0

/-- tp_pdf_sats.py:65-72 and utp_pdf_kernels.py:44-53, 66-78: as `PopGrad.mc_tpeak_singlesat`, with the table `tab` between
`x_min` and `x_max` -/
noncomputable def mc_tpeak_singlesat_tab (params : NT α) (ran_key : Key) (lgm_obs t_obs : α) : RandM α := do
  let loc ← RandM.lift (get_utp_loc params lgm_obs t_obs)
  let scale ← RandM.lift (get_utp_scale params lgm_obs t_obs)
  let x_min := jmax (loc - lit 4 * scale) (lit (X_MIN + UTP_EPS))
  let x_max := jmin (loc + lit 4 * scale) (lit (X_MAX - UTP_EPS))
  let x_cdf_table := tab x_min x_max
  let a := (lit X_MIN - loc) / scale
  let b := (lit X_MAX - loc) / scale
  let cdf_table := x_cdf_table.map fun x => E.truncnorm_cdf x a b loc scale
  let u_ran ← RandM.draw ran_key (E.uniform ran_key)
  return interp E.interp_eps (lit u_ran) cdf_table x_cdf_table * t_obs

/-- mc_bimod_cens.py:82-84, mc_bimod_sats.py:81-84: as `PopGrad.draw_t_peak` -/
noncomputable def draw_t_peak_tab (kind : Kind) (params : NT α) (lgm_obs t_obs : α) (ran_key : Key)
    (lgt0 : α) : RandM α := do
  let c ← RandM.lift (get_component_model_params params)
  let tpc_key := Key.child ran_key 2 0
  match kind with
  | .cens => mc_tpeak_singlecen_tab utab E c.tp_cens lgm_obs t_obs tpc_key (pow10 lgt0)
  | .sats => mc_tpeak_singlesat_tab tab E c.tp_sats tpc_key lgm_obs t_obs

/-- mc_bimod_cens.py:36-48, mc_bimod_sats.py:36-48: as `PopGrad.mean_diffmah_params` -/
noncomputable def mean_diffmah_params_tab (kind : Kind) (params : NT α) (lgm_obs t_obs : α)
    (ran_key : Key) (lgt0 : α) : RandM (MahParams α × MahParams α × α) := do
  let t_peak ← draw_t_peak_tab utab tab E kind params lgm_obs t_obs ran_key lgt0
  let early ← RandM.lift (mean_diffmah_params_early_t_peak kind params lgm_obs t_obs t_peak)
  let t_peak ← draw_t_peak_tab utab tab E kind params lgm_obs t_obs ran_key lgt0
  let late ← RandM.lift (mean_diffmah_params_late_t_peak kind params lgm_obs t_obs t_peak)
  let frac_early ← RandM.lift (frac_early_cens_kern params lgm_obs t_obs)
  return (early, late, frac_early)

/-- mc_bimod_cens.py:184-220, mc_bimod_sats.py:185-220 without a given `t_peak`: as `PopGrad.mc_diffmah_params_single` -/
noncomputable def mc_diffmah_params_single_tab (kind : Kind) (params : NT α) (lgm_obs t_obs : α)
    (ran_key : Key) (lgt0 : α) : RandM (MahParams α × MahParams α × α) := do
  let res ← mean_diffmah_params_tab utab tab E kind params lgm_obs t_obs ran_key lgt0
  let cov ← RandM.lift (PopGrad.get_diffmahpop_cov params lgm_obs)
  let early ← PopGrad.scatter E (Key.child ran_key 2 0) res.1 cov
  let late ← PopGrad.scatter E (Key.child ran_key 2 1) res.2.1 cov
  return (early, late, res.2.2)

/-- With the tables of `Model/PopGrad.lean` these are the functions there. -/
theorem mc_diffmah_params_single_tab_eq (kind : Kind) (params : NT α) (lgm_obs t_obs : α) (ran_key : Key) (lgt0 : α) :
    mc_diffmah_params_single_tab (UTP_TABLE.map lit) (fun a b => PopGrad.linspace a b NPTS_CDF_TABLE) E kind params lgm_obs t_obs ran_key lgt0 =
      PopGrad.mc_diffmah_params_single E kind params lgm_obs t_obs ran_key lgt0 := rfl

end Generic

end Diffmah

import Verif.Model.PopParams

/-!
# Model of `mc_bimod_cens.py`, `mc_bimod_sats.py` and `param_utils.py` in `/repo/diffmah/diffmahpop_kernels`

The two `mc_bimod_*` files are copies of each other: they differ in the t_peak generator
(`mc_tpeak_singlecen` with `t_0 = 10**lgt0`, or `mc_tpeak_singlesat`) and in the logm0 parameters
and kernels (centrals or `_sats`). They are modelled once, with a `Kind` argument. Line numbers are
those of mc_bimod_cens.py; mc_bimod_sats.py is the same up to two lines (in it the `vmap` definitions
of lines 240-244 come after `_mc_diffmah_halo_sample`, at lines 251-255). Its functions are at
mc_bimod_sats.py:36-48, 51-63, 66-181 (the four mean kernels), 184-220, 223-233, 241-248, 258-284, 287-313
and 316-351.
-/

namespace Diffmah

open JOps

namespace MC

open Pop TPeak PopParams

/-- Centrals (mc_bimod_cens.py) or satellites (mc_bimod_sats.py). -/
inductive Kind where
  | cens
  | sats
deriving DecidableEq

section Generic
variable {α : Type} [Add α] [Sub α] [Mul α] [Div α] [JOps α] [JMinMax α]

/-- mc_bimod_cens.py:86, 115 and mc_bimod_sats.py:86, 115: which parameters and kernel give logm0. -/
noncomputable def pred_logm0_early (kind : Kind) (c : ComponentParams α) (lgm_obs t_obs t_peak : α) :=
  match kind with
  | .cens => pred_logm0_kern_early c.logm0 lgm_obs t_obs t_peak
  | .sats => pred_logm0_kern_early_sats c.logm0_sats lgm_obs t_obs t_peak

/-- mc_bimod_cens.py:145, 174 and mc_bimod_sats.py:145, 174 -/
noncomputable def pred_logm0_late (kind : Kind) (c : ComponentParams α) (lgm_obs t_obs t_peak : α) :=
  match kind with
  | .cens => pred_logm0_kern_late c.logm0 lgm_obs t_obs t_peak
  | .sats => pred_logm0_kern_late_sats c.logm0_sats lgm_obs t_obs t_peak

/-- mc_bimod_cens.py:96-122 (`_mean_diffmah_params_early_t_peak`; the keys of line 113 are not
used) and lines 86-93 of `_mean_diffmah_params_early` -/
noncomputable def mean_diffmah_params_early_t_peak (kind : Kind) (params : NT α)
    (lgm_obs t_obs t_peak : α) : Except PyErr (MahParams α) := do
  let c ← get_component_model_params params
  let logm0 ← pred_logm0_early kind c lgm_obs t_obs t_peak
  let logtc ← pred_logtc_kern "_early" c.logtc lgm_obs t_obs t_peak
  let early_index ← pred_early_index_early c.early_index lgm_obs t_obs t_peak
  let late_index ← pred_late_index_early c.late_index lgm_obs
  return ⟨logm0, logtc, early_index, late_index, t_peak⟩

/-- mc_bimod_cens.py:155-181 and lines 145-152 of `_mean_diffmah_params_late` -/
noncomputable def mean_diffmah_params_late_t_peak (kind : Kind) (params : NT α)
    (lgm_obs t_obs t_peak : α) : Except PyErr (MahParams α) := do
  let c ← get_component_model_params params
  let logm0 ← pred_logm0_late kind c lgm_obs t_obs t_peak
  let logtc ← pred_logtc_kern "_late" c.logtc lgm_obs t_obs t_peak
  let early_index ← pred_early_index_late c.early_index lgm_obs t_obs t_peak
  let late_index ← pred_late_index_late c.late_index lgm_obs
  return ⟨logm0, logtc, early_index, late_index, t_peak⟩

/-- mc_bimod_cens.py:51-63 -/
noncomputable def mean_diffmah_params_t_peak (kind : Kind) (params : NT α) (lgm_obs t_obs t_peak : α) :
    Except PyErr (MahParams α × MahParams α × α) := do
  let early ← mean_diffmah_params_early_t_peak kind params lgm_obs t_obs t_peak
  let late ← mean_diffmah_params_late_t_peak kind params lgm_obs t_obs t_peak
  let frac_early ← frac_early_cens_kern params lgm_obs t_obs
  return (early, late, frac_early)

end Generic

variable (ext : Ext) (rng : Rng)

/-- mc_bimod_cens.py:82-84 / mc_bimod_sats.py:81-84: `tpc_key` is the first of two children. -/
noncomputable def draw_t_peak (kind : Kind) (params : NT ℝ) (lgm_obs t_obs : ℝ) (ran_key : Key)
    (lgt0 : ℝ) : RandM ℝ := do
  let c ← RandM.lift (get_component_model_params params)
  let tpc_key := Key.child ran_key 2 0
  match kind with
  | .cens => mc_tpeak_singlecen ext rng c.tp_cens lgm_obs t_obs tpc_key ((10 : ℝ) ^ lgt0)
  | .sats => mc_tpeak_singlesat ext rng c.tp_sats tpc_key lgm_obs t_obs

/-- mc_bimod_cens.py:66-93 -/
noncomputable def mean_diffmah_params_early (kind : Kind) (params : NT ℝ) (lgm_obs t_obs : ℝ)
    (ran_key : Key) (lgt0 : ℝ) : RandM (MahParams ℝ) := do
  let t_peak ← draw_t_peak ext rng kind params lgm_obs t_obs ran_key lgt0
  RandM.lift (mean_diffmah_params_early_t_peak kind params lgm_obs t_obs t_peak)

/-- mc_bimod_cens.py:125-152 -/
noncomputable def mean_diffmah_params_late (kind : Kind) (params : NT ℝ) (lgm_obs t_obs : ℝ)
    (ran_key : Key) (lgt0 : ℝ) : RandM (MahParams ℝ) := do
  let t_peak ← draw_t_peak ext rng kind params lgm_obs t_obs ran_key lgt0
  RandM.lift (mean_diffmah_params_late_t_peak kind params lgm_obs t_obs t_peak)

/-- mc_bimod_cens.py:36-48 -/
noncomputable def mean_diffmah_params (kind : Kind) (params : NT ℝ) (lgm_obs t_obs : ℝ)
    (ran_key : Key) (lgt0 : ℝ) : RandM (MahParams ℝ × MahParams ℝ × ℝ) := do
  let early ← mean_diffmah_params_early ext rng kind params lgm_obs t_obs ran_key lgt0
  let late ← mean_diffmah_params_late ext rng kind params lgm_obs t_obs ran_key lgt0
  let frac_early ← RandM.lift (frac_early_cens_kern params lgm_obs t_obs)
  return (early, late, frac_early)

/-- `jnp.array(u_params)[:-1]`: the first four unbounded parameters (mc_bimod_cens.py:204, 211) -/
def first4 (u : MahUParams ℝ) : List ℝ := [u.u_logm0, u.u_logtc, u.u_early_index, u.u_late_index]

/-- `DiffmahUParams(*x, u_t_peak)` (mc_bimod_cens.py:206-208, 213-215) -/
def mk_u_params (x : List ℝ) (u_t_peak : ℝ) : Except PyErr (MahUParams ℝ) :=
  match x with
  | [a, b, c, d] => .ok ⟨a, b, c, d, u_t_peak⟩
  | _ => .error .typeError

/-- mc_bimod_cens.py:202-208 (early) and 210-215 (late): scatter around the mean, keeping t_peak. -/
noncomputable def scatter (key : Key) (mean : MahParams ℝ) (cov : Matrix (Fin 4) (Fin 4) ℝ) :
    RandM (MahParams ℝ) := do
  let mean_u := get_unbounded_mah_params mean
  let ran ← RandM.draw key (rng.mvn key (first4 mean_u) cov)
  let ran_u ← RandM.lift (mk_u_params ran mean_u.u_t_peak)
  return get_bounded_mah_params ran_u

/-- mc_bimod_cens.py:188-195: the mean parameters around which a halo is scattered -/
noncomputable def mean_res (kind : Kind) (params : NT ℝ) (lgm_obs t_obs : ℝ)
    (ran_key : Key) (lgt0 : ℝ) (t_peak : Option ℝ) : RandM (MahParams ℝ × MahParams ℝ × ℝ) :=
  match t_peak with
  | none => mean_diffmah_params ext rng kind params lgm_obs t_obs ran_key lgt0
  | some t_peak => RandM.lift (mean_diffmah_params_t_peak kind params lgm_obs t_obs t_peak)

/-- mc_bimod_cens.py:184-220: `mc_diffmah_params_singlecen` / `mc_diffmah_params_singlesat` -/
noncomputable def mc_diffmah_params_single (kind : Kind) (params : NT ℝ) (lgm_obs t_obs : ℝ)
    (ran_key : Key) (lgt0 : ℝ) (t_peak : Option ℝ) : RandM (MahParams ℝ × MahParams ℝ × ℝ) := do
  let res ← mean_res ext rng kind params lgm_obs t_obs ran_key lgt0 t_peak
  let cov ← RandM.lift (get_diffmahpop_cov params lgm_obs)
  let early_key := Key.child ran_key 2 0
  let late_key := Key.child ran_key 2 1
  let early ← scatter rng early_key res.1 cov
  let late ← scatter rng late_key res.2.1 cov
  return (early, late, res.2.2)

/-- The seven outputs of `_mc_diffmah_singlecen` -/
structure SingleHistories where
  params_early : MahParams ℝ
  dmhdt_early : List ℝ
  log_mah_early : List ℝ
  params_late : MahParams ℝ
  dmhdt_late : List ℝ
  log_mah_late : List ℝ
  frac_early : ℝ

/-- mc_bimod_cens.py:223-233 -/
noncomputable def mc_diffmah_single (kind : Kind) (params : NT ℝ) (tarr : List ℝ) (lgm_obs t_obs : ℝ)
    (ran_key : Key) (lgt0 : ℝ) : RandM SingleHistories := do
  let res ← mc_diffmah_params_single ext rng kind params lgm_obs t_obs ran_key lgt0 none
  let e := mah_singlehalo res.1 tarr lgt0
  let l := mah_singlehalo res.2.1 tarr lgt0
  return ⟨res.1, e.1, e.2, res.2.1, l.1, l.2, res.2.2⟩

/-- Stack scalar parameter tuples into a tuple of arrays (the output of a `vmap`). -/
def stack (rows : List (MahParams ℝ)) : MahPopArrays where
  logm0 := rows.map MahParams.logm0
  logtc := rows.map MahParams.logtc
  early_index := rows.map MahParams.early_index
  late_index := rows.map MahParams.late_index
  t_peak := rows.map MahParams.t_peak

/-- `jnp.where(mask, x, y)` on arrays of the same shape -/
def whereArr {β : Type} (mask : List Bool) (x y : List β) : List β :=
  List.zipWith (fun (m : Bool) (p : β × β) => if m then p.1 else p.2) mask (x.zip y)

/-- `[jnp.where(mask, x, y) for x, y in zip(early, late)]` and `_make`
(mc_bimod_cens.py:271-272, 304-306; param_utils.py:28-33) -/
def mc_select_diffmah_params (p1 p0 : MahPopArrays) (mc_is_1 : List Bool) : MahPopArrays where
  logm0 := whereArr mc_is_1 p1.logm0 p0.logm0
  logtc := whereArr mc_is_1 p1.logtc p0.logtc
  early_index := whereArr mc_is_1 p1.early_index p0.early_index
  late_index := whereArr mc_is_1 p1.late_index p0.late_index
  t_peak := whereArr mc_is_1 p1.t_peak p0.t_peak

/-- `HaloPop` of mc_bimod_cens.py:274-284 -/
structure HaloPop where
  mah_params : MahPopArrays
  mah_params_early : MahPopArrays
  mah_params_late : MahPopArrays
  frac_early_cens : List ℝ
  mc_early : List Bool

open Classical in
/-- `uran < frac_early_cens` -/
noncomputable def below (uran frac : List ℝ) : List Bool :=
  List.zipWith (fun u f => decide (u < f)) uran frac

/-- mc_bimod_cens.py:258-284 with the `vmap`s of lines 240-244: `mc_diffmah_cenpop` /
`mc_diffmah_satpop`. All mapped arrays must have the same size. -/
noncomputable def mc_diffmah_pop (kind : Kind) (params : NT ℝ) (lgm_obs t_obs : List ℝ) (ran_key : Key)
    (lgt0 : ℝ) (t_peak : Option (List ℝ)) : RandM HaloPop := do
  let early_late_key := Key.child ran_key 2 0
  let ran_key := Key.child ran_key 2 1
  let n := lgm_obs.length
  let ran_keys := ran_key.split n
  if t_obs.length = n ∧ (∀ tp ∈ t_peak, tp.length = n) then
    let rows ← RandM.all ((List.range n).map fun i =>
      mc_diffmah_params_single ext rng kind params (lgm_obs.getD i 0) (t_obs.getD i 0)
        (ran_keys.getD i ran_key) lgt0 (t_peak.map fun tp => tp.getD i 0))
    let early := stack (rows.map fun r => r.1)
    let late := stack (rows.map fun r => r.2.1)
    let frac := rows.map fun r => r.2.2
    let uran ← RandM.draw early_late_key (rng.uniforms early_late_key frac.length)
    let mc_early := below uran frac
    return ⟨mc_select_diffmah_params early late mc_early, early, late, frac, mc_early⟩
  else .error .valueError

/-- `HaloPop` of mc_bimod_cens.py:311-313 -/
structure HaloHist where
  mah_params : MahPopArrays
  dmhdt : List (List ℝ)
  log_mah : List (List ℝ)

/-- mc_bimod_cens.py:287-313: `mc_cenpop` / `mc_satpop` -/
noncomputable def mc_pop (kind : Kind) (params : NT ℝ) (tarr lgm_obs t_obs : List ℝ) (ran_key : Key)
    (lgt0 : ℝ) : RandM HaloHist := do
  let n_mc := lgm_obs.length
  let ran_keys := ran_key.split (n_mc + 1)
  let dmah_keys := ran_keys.dropLast
  let uran_key := ran_keys.getD n_mc ran_key
  if t_obs.length = n_mc then
    let res ← RandM.all ((List.range n_mc).map fun i =>
      mc_diffmah_single ext rng kind params tarr (lgm_obs.getD i 0) (t_obs.getD i 0)
        (dmah_keys.getD i ran_key) lgt0)
    let p_e := stack (res.map (·.params_early))
    let p_l := stack (res.map (·.params_late))
    let frac := res.map (·.frac_early)
    let uran ← RandM.draw uran_key (rng.uniforms uran_key n_mc)
    let msk := below uran frac
    return {
      mah_params := mc_select_diffmah_params p_e p_l msk
      dmhdt := whereArr msk (res.map (·.dmhdt_early)) (res.map (·.dmhdt_late))
      log_mah := whereArr msk (res.map (·.log_mah_early)) (res.map (·.log_mah_late)) }
  else .error .valueError

/-! ## Moments -/

/-- mc_bimod_cens.py:247-255: `n_mc` haloes with the same observed mass and time -/
noncomputable def mc_diffmah_halo_sample (kind : Kind) (params : NT ℝ) (tarr : List ℝ)
    (lgm_obs t_obs : ℝ) (ran_key : Key) (lgt0 : ℝ) (n_mc : ℕ) : RandM (List SingleHistories) :=
  RandM.all ((ran_key.split n_mc).map fun k =>
    mc_diffmah_single ext rng kind params tarr (lgm_obs + 0) (t_obs + 0) k lgt0)

/-- Column `it` of a table of rows -/
def col (it : ℕ) (rows : List (List ℝ)) : List ℝ := rows.map fun r => r.getD it 0

/-- mc_bimod_cens.py:323-349 for one time: `x_e`, `x_l` are the columns of `log_mah_early` and
`log_mah_late`, `frac_early` the early fractions. -/
noncomputable def moments (x_e x_l frac_early : List ℝ) : ℝ × ℝ × ℝ :=
  let n_early := x_e.length
  let n_late := x_l.length
  let frac_late := frac_early.map fun f => 1.0 - f
  let weights_early := 1 / (n_early : ℝ)
  let weights_late := 1 / (n_late : ℝ)
  let w_e := frac_early.map fun f => f * weights_late
  let w_l := frac_late.map fun f => f * weights_early
  let mu_e := (List.zipWith (· * ·) x_e w_e).sum
  let mu_l := (List.zipWith (· * ·) x_l w_l).sum
  let mean_log_mah := mu_e + mu_l
  let var_e := (List.zipWith (fun x w => (x - mean_log_mah) ^ 2 * w) x_e w_e).sum
  let var_l := (List.zipWith (fun x w => (x - mean_log_mah) ^ 2 * w) x_l w_l).sum
  let var_log_mah := var_e + var_l
  (mean_log_mah, Real.sqrt var_log_mah, 0.5)

/-- mc_bimod_cens.py:33 -/
def NH_PER_M0BIN : ℕ := 200

/-- mc_bimod_cens.py:316-351; mc_bimod_sats.py:316-351 -/
noncomputable def predict_mah_moments_singlebin (kind : Kind) (params : NT ℝ) (tarr : List ℝ)
    (lgm_obs t_obs : ℝ) (ran_key : Key) (lgt0 : ℝ) : RandM (List (ℝ × ℝ × ℝ)) := do
  let res ← mc_diffmah_halo_sample ext rng kind params tarr lgm_obs t_obs ran_key lgt0 NH_PER_M0BIN
  let frac := res.map (·.frac_early)
  return (List.range tarr.length).map fun it =>
    moments (col it (res.map (·.log_mah_early))) (col it (res.map (·.log_mah_late))) frac

end MC

end Diffmah

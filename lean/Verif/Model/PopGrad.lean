import Verif.Model.PopLoss
import Verif.Model.CompLoss
import Mathlib.LinearAlgebra.Matrix.PosDef

/-!
# Gradients of the population losses (bimod_{cens,sats,censat}_fithelp.py)

`jax.value_and_grad` runs the loss on numbers that carry a tangent. Here the code of the loss is
written once more, generically in the number system, so that it can be run on dual numbers; that the
generic code on `ℝ` is the model of PopLoss.lean is a theorem (Lemmas/PopGrad.lean). Line numbers
without file name are those of mc_bimod_cens.py. `_mah_kern`'s rates are not computed: the loss does
not use them.

A third number system, `Reg`, runs the same code on values and records whether every operation so far
was at a point where it is differentiable: no tie in a comparison, maximum, minimum or table lookup, no
division by zero, no logarithm or square root of a number that is not positive.
-/

namespace Diffmah

open JOps JMinMax

/-- Selections of `jax.numpy` and the square root. -/
class JFlow (α : Type) where
  /-- `jnp.where(a < b, x, y)` -/
  whereLt : α → α → α → α → α
  /-- `jnp.where(jnp.abs(a) <= b, x, y)` -/
  whereAbsLe : α → α → α → α → α
  /-- `jnp.where(a == 0, x, y)` -/
  whereZero : α → α → α → α
  /-- `k(jnp.searchsorted(xp, x, side="right"))`, where `k` reads tables at the index -/
  gather : α → List α → (ℕ → α) → α
  /-- `jnp.sqrt` -/
  sqrt : α → α

open JFlow

open Classical in
/-- Number of table entries that are at most `x`: `searchsorted(xp, x, side="right")` in a sorted table -/
noncomputable def countLe (x : ℝ) (xp : List ℝ) : ℕ := (xp.filter fun a => decide (a ≤ x)).length

noncomputable instance : JFlow ℝ where
  whereLt a b x y := jwhere (a < b) x y
  whereAbsLe a b x y := jwhere (|a| ≤ b) x y
  whereZero a x y := jwhere (a = 0) x y
  gather x xp k := k (countLe x xp)
  sqrt := Real.sqrt

/-- Selections look at values only; the tangent of the square root is `d / (2 sqrt(v))`. -/
noncomputable instance : JFlow Dual where
  whereLt a b x y := jwhere (a.v < b.v) x y
  whereAbsLe a b x y := jwhere (|a.v| ≤ b.v) x y
  whereZero a x y := jwhere (a.v = 0) x y
  gather x xp k := k (countLe x.v (xp.map Dual.v))
  sqrt a := ⟨Real.sqrt a.v, a.d / (2 * Real.sqrt a.v)⟩

/-! ## Recording singular operations -/

/-- A value, and whether all operations that led to it were at differentiable points. -/
structure Reg where
  v : ℝ
  ok : Prop

namespace Reg

noncomputable instance : Add Reg := ⟨fun a b => ⟨a.v + b.v, a.ok ∧ b.ok⟩⟩
noncomputable instance : Sub Reg := ⟨fun a b => ⟨a.v - b.v, a.ok ∧ b.ok⟩⟩
noncomputable instance : Mul Reg := ⟨fun a b => ⟨a.v * b.v, a.ok ∧ b.ok⟩⟩
noncomputable instance : Div Reg := ⟨fun a b => ⟨a.v / b.v, a.ok ∧ b.ok ∧ b.v ≠ 0⟩⟩

noncomputable instance : JOps Reg where
  lit r := ⟨r, True⟩
  sigm a := ⟨Real.sigmoid a.v, a.ok⟩
  ln a := ⟨Real.log a.v, a.ok ∧ 0 < a.v⟩
  log10 a := ⟨Real.logb 10 a.v, a.ok ∧ 0 < a.v⟩
  pow10 a := ⟨(10 : ℝ) ^ a.v, a.ok⟩
  lt a b := a.v < b.v

noncomputable instance : JMinMax Reg where
  jmax a b := ⟨max a.v b.v, a.ok ∧ b.ok ∧ a.v ≠ b.v⟩
  jmin a b := ⟨min a.v b.v, a.ok ∧ b.ok ∧ a.v ≠ b.v⟩

/-- Both branches of a selection count, as they do in reverse mode. -/
noncomputable instance : JFlow Reg where
  whereLt a b x y := ⟨jwhere (a.v < b.v) x.v y.v, a.ok ∧ b.ok ∧ x.ok ∧ y.ok ∧ a.v ≠ b.v⟩
  whereAbsLe a b x y := ⟨jwhere (|a.v| ≤ b.v) x.v y.v, a.ok ∧ b.ok ∧ x.ok ∧ y.ok ∧ |a.v| ≠ b.v⟩
  whereZero a x y := ⟨jwhere (a.v = 0) x.v y.v, a.ok ∧ x.ok ∧ y.ok ∧ a.v ≠ 0⟩
  gather x xp k :=
    let r := k (countLe x.v (xp.map Reg.v))
    ⟨r.v, r.ok ∧ x.ok ∧ ∀ a ∈ xp, a.ok ∧ a.v ≠ x.v⟩
  sqrt a := ⟨Real.sqrt a.v, a.ok ∧ 0 < a.v⟩

end Reg

/-- Arrays of numbers mapped entry by entry: `tree_map` over a named tuple. -/
def NT.mapv {α β : Type} (f : α → β) (p : NT α) : NT β := p.map fun kv => (kv.1, f kv.2)

/-! ## External functions, in any number system -/

/-- `jran.uniform`, `jran.multivariate_normal`, the tolerance of `jnp.interp` and `truncnorm.cdf`. -/
structure Env (α : Type) where
  uniform : Key → ℝ
  mvn : Key → List α → (Fin 4 → Fin 4 → α) → List α
  interp_eps : ℝ
  truncnorm_cdf : α → α → α → α → α → α

/-- The functions used by the other models. -/
def Env.real (ext : TPeak.Ext) (rng : Rng) : Env ℝ where
  uniform := rng.uniform
  mvn k m c := rng.mvn k m (Matrix.of c)
  interp_eps := ext.interp_eps
  truncnorm_cdf := ext.truncnorm_cdf

open Classical in
/-- The regular points of the external functions: a positive definite covariance; a positive scale and
a point strictly between the truncation points. -/
noncomputable def Env.reg (E : Env ℝ) : Env Reg where
  uniform := E.uniform
  mvn k m c := (E.mvn k (m.map Reg.v) fun i j => (c i j).v).map fun y =>
    ⟨y, (∀ a ∈ m, a.ok) ∧ (∀ i j, (c i j).ok) ∧ (Matrix.of fun i j => (c i j).v).PosDef⟩
  interp_eps := E.interp_eps
  truncnorm_cdf x a b loc scale :=
    ⟨E.truncnorm_cdf x.v a.v b.v loc.v scale.v,
      x.ok ∧ a.ok ∧ b.ok ∧ loc.ok ∧ scale.ok ∧ 0 < scale.v ∧
        loc.v + a.v * scale.v < x.v ∧ x.v < loc.v + b.v * scale.v⟩

namespace PopGrad

open Pop TPeak PopParams MC

section Generic
variable {α : Type} [Add α] [Sub α] [Mul α] [Div α] [JOps α] [JMinMax α] [JFlow α]

/-! ## Peak times -/

/-- `jnp.linspace(start, stop, num)`: as `TPeak.linspace` -/
noncomputable def linspace (start stop : α) (num : ℕ) : List α :=
  (List.range num).map fun (i : ℕ) => start + lit (i : ℝ) * ((stop - start) / lit ((num : ℝ) - 1))

/-- `jnp.interp`: as `TPeak.interp`. JAX divides by `where(dx0, 1, dx)`. -/
noncomputable def interp (eps : ℝ) (x : α) (xp fp : List α) : α :=
  let n := xp.length
  let f := gather x xp fun c =>
    let i := min (max c 1) (n - 1)
    let df := fp.getD i (lit 0) - fp.getD (i - 1) (lit 0)
    let dx := xp.getD i (lit 0) - xp.getD (i - 1) (lit 0)
    let delta := x - xp.getD (i - 1) (lit 0)
    whereAbsLe dx (lit eps) (fp.getD (i - 1) (lit 0))
      (fp.getD (i - 1) (lit 0) + delta / whereAbsLe dx (lit eps) (lit 1) dx * df)
  let f := whereLt x (xp.getD 0 (lit 0)) (fp.getD 0 (lit 0)) f
  whereLt (xp.getD (n - 1) (lit 0)) x (fp.getD (n - 1) (lit 0)) f

variable (E : Env α)

/-- tp_pdf_cens_flex.py:53-56 and 69-75: as `TPeak.mc_tpeak_singlecen` -/
noncomputable def mc_tpeak_singlecen (params : NT α) (lgm_obs t_obs : α) (ran_key : Key) (t_0 : α) :
    RandM α := do
  let fp_table ← RandM.lift (frac_peaked_vs_lgm params (UTP_TABLE.map lit) lgm_obs t_obs)
  let uran ← RandM.draw ran_key (E.uniform ran_key)
  let utp := interp E.interp_eps (lit uran) fp_table (UTP_TABLE.map lit)
  return jmax utp (lit UTP_MIN) * t_0

/-- tp_pdf_sats.py:65-72 and utp_pdf_kernels.py:44-53, 66-78: as `TPeak.mc_tpeak_singlesat` -/
noncomputable def mc_tpeak_singlesat (params : NT α) (ran_key : Key) (lgm_obs t_obs : α) : RandM α := do
  let loc ← RandM.lift (get_utp_loc params lgm_obs t_obs)
  let scale ← RandM.lift (get_utp_scale params lgm_obs t_obs)
  let x_min := jmax (loc - lit 4 * scale) (lit (X_MIN + UTP_EPS))
  let x_max := jmin (loc + lit 4 * scale) (lit (X_MAX - UTP_EPS))
  let x_cdf_table := linspace x_min x_max NPTS_CDF_TABLE
  let a := (lit X_MIN - loc) / scale
  let b := (lit X_MAX - loc) / scale
  let cdf_table := x_cdf_table.map fun x => E.truncnorm_cdf x a b loc scale
  let u_ran ← RandM.draw ran_key (E.uniform ran_key)
  return interp E.interp_eps (lit u_ran) cdf_table x_cdf_table * t_obs

/-- 82-84: as `MC.draw_t_peak` -/
noncomputable def draw_t_peak (kind : Kind) (params : NT α) (lgm_obs t_obs : α) (ran_key : Key)
    (lgt0 : α) : RandM α := do
  let c ← RandM.lift (get_component_model_params params)
  let tpc_key := Key.child ran_key 2 0
  match kind with
  | .cens => mc_tpeak_singlecen E c.tp_cens lgm_obs t_obs tpc_key (pow10 lgt0)
  | .sats => mc_tpeak_singlesat E c.tp_sats tpc_key lgm_obs t_obs

/-! ## Scatter -/

/-- utils.py:111-138, entry `(i, j)` on or below the diagonal: as `Utils.get_cholesky_from_params` -/
noncomputable def chol_entry (params : List α) (i j : ℕ) : α :=
  params.getD (Utils.chol_indx (Utils.chol_ndim params.length) i j) (lit 0)

/-- covariance_kernels.py:77: `jnp.where(M == 0, M.T, M)` for the lower triangular `M`. Above the
diagonal `M` is zero and the transposed entry is taken; below it an entry that happens to be zero is
replaced by the zero above the diagonal; the diagonal is one. -/
noncomputable def corr_entry (x : List α) (i j : Fin 4) : α :=
  if i < j then chol_entry x j i
  else if j < i then whereZero (chol_entry x i j) (lit 0) (chol_entry x i j)
  else chol_entry x i i

/-- covariance_kernels.py:71-79: as `Pop.get_diffmahpop_cov`; the product with the diagonal matrices
is taken entry by entry -/
noncomputable def get_diffmahpop_cov (params : NT α) (lgm : α) :
    Except PyErr (Fin 4 → Fin 4 → α) := do
  let (diags, off_diags) ← get_cov_params params lgm
  let x := List.replicate diags.length (lit 1) ++ off_diags
  if Utils.chol_ndim x.length = 4 then
    return fun i j => diags.getD i (lit 0) * corr_entry x i j * diags.getD j (lit 0)
  else throw .typeError

/-- 202-208 and 210-215: as `MC.scatter` -/
noncomputable def scatter (key : Key) (mean : MahParams α) (cov : Fin 4 → Fin 4 → α) :
    RandM (MahParams α) := do
  let mean_u := get_unbounded_mah_params mean
  let ran ← RandM.draw key
    (E.mvn key [mean_u.u_logm0, mean_u.u_logtc, mean_u.u_early_index, mean_u.u_late_index] cov)
  match ran with
  | [a, b, c, d] => return get_bounded_mah_params ⟨a, b, c, d, mean_u.u_t_peak⟩
  | _ => RandM.lift (.error .typeError)

/-- 36-48: as `MC.mean_diffmah_params` -/
noncomputable def mean_diffmah_params (kind : Kind) (params : NT α) (lgm_obs t_obs : α)
    (ran_key : Key) (lgt0 : α) : RandM (MahParams α × MahParams α × α) := do
  let t_peak ← draw_t_peak E kind params lgm_obs t_obs ran_key lgt0
  let early ← RandM.lift (mean_diffmah_params_early_t_peak kind params lgm_obs t_obs t_peak)
  let t_peak ← draw_t_peak E kind params lgm_obs t_obs ran_key lgt0
  let late ← RandM.lift (mean_diffmah_params_late_t_peak kind params lgm_obs t_obs t_peak)
  let frac_early ← RandM.lift (frac_early_cens_kern params lgm_obs t_obs)
  return (early, late, frac_early)

/-- 184-220 without a given `t_peak`: as `MC.mc_diffmah_params_single` -/
noncomputable def mc_diffmah_params_single (kind : Kind) (params : NT α) (lgm_obs t_obs : α)
    (ran_key : Key) (lgt0 : α) : RandM (MahParams α × MahParams α × α) := do
  let res ← mean_diffmah_params E kind params lgm_obs t_obs ran_key lgt0
  let cov ← RandM.lift (get_diffmahpop_cov params lgm_obs)
  let early ← scatter E (Key.child ran_key 2 0) res.1 cov
  let late ← scatter E (Key.child ran_key 2 1) res.2.1 cov
  return (early, late, res.2.2)

/-! ## Histories and moments -/

/-- diffmah_kernels.py:175-181: as `log_mah_kern` -/
noncomputable def log_mah (p : MahParams α) (t logt0 : α) : α :=
  whereLt t p.t_peak (log_mah_noq_kern p t logt0) (log_mah_noq_kern p p.t_peak logt0)

/-- 223-233: the early and late histories and the early fraction of `MC.mc_diffmah_single` -/
noncomputable def mc_diffmah_single (kind : Kind) (params : NT α) (tarr : List α) (lgm_obs t_obs : α)
    (ran_key : Key) (lgt0 : α) : RandM (List α × List α × α) := do
  let res ← mc_diffmah_params_single E kind params lgm_obs t_obs ran_key lgt0
  return (tarr.map fun t => log_mah res.1 t lgt0, tarr.map fun t => log_mah res.2.1 t lgt0, res.2.2)

/-- 247-255: as `MC.mc_diffmah_halo_sample` -/
noncomputable def mc_diffmah_halo_sample (kind : Kind) (params : NT α) (tarr : List α)
    (lgm_obs t_obs : α) (ran_key : Key) (lgt0 : α) (n_mc : ℕ) : RandM (List (List α × List α × α)) :=
  RandM.all ((ran_key.split n_mc).map fun k =>
    mc_diffmah_single E kind params tarr (lgm_obs + lit 0) (t_obs + lit 0) k lgt0)

/-- `jnp.sum` -/
noncomputable def jsum (l : List α) : α := l.foldl (· + ·) (lit 0)

/-- 323-349 for one time, mean and standard deviation: as `MC.moments` -/
noncomputable def moments (x_e x_l frac_early : List α) : α × α :=
  let n_early := x_e.length
  let n_late := x_l.length
  let frac_late := frac_early.map fun f => lit 1.0 - f
  let weights_early : α := lit (1 / (n_early : ℝ))
  let weights_late : α := lit (1 / (n_late : ℝ))
  let w_e := frac_early.map fun f => f * weights_late
  let w_l := frac_late.map fun f => f * weights_early
  let mu_e := jsum (List.zipWith (· * ·) x_e w_e)
  let mu_l := jsum (List.zipWith (· * ·) x_l w_l)
  let mean_log_mah := mu_e + mu_l
  let var_e := jsum (List.zipWith (fun x w => (x - mean_log_mah) * (x - mean_log_mah) * w) x_e w_e)
  let var_l := jsum (List.zipWith (fun x w => (x - mean_log_mah) * (x - mean_log_mah) * w) x_l w_l)
  let var_log_mah := var_e + var_l
  (mean_log_mah, sqrt var_log_mah)

/-- 316-351: as `MC.predict_mah_moments_singlebin` -/
noncomputable def predict_mah_moments_singlebin (kind : Kind) (params : NT α) (tarr : List α)
    (lgm_obs t_obs : α) (ran_key : Key) (lgt0 : α) : RandM (List (α × α)) := do
  let res ← mc_diffmah_halo_sample E kind params tarr lgm_obs t_obs ran_key lgt0 NH_PER_M0BIN
  return (List.range tarr.length).map fun it =>
    moments (res.map fun r => r.1.getD it (lit 0)) (res.map fun r => r.2.1.getD it (lit 0))
      (res.map fun r => r.2.2)

/-! ## Losses -/

/-- bimod_cens_fithelp.py:15-18: as `PopLoss.mse` -/
noncomputable def mse (x y : List α) : Except PyErr α :=
  if x.length = y.length then
    let d := List.zipWith (fun a b => b - a) x y
    .ok (jsum (d.map fun a => a * a) / lit (d.length : ℝ))
  else .error .typeError

/-- bimod_cens_fithelp.py:21-40: as `PopLoss.loss_mah_moments_singlebin` -/
noncomputable def loss_mah_moments_singlebin (kind : Kind) (params : NT α) (bin : PopLoss.Bin)
    (ran_key : Key) (lgt0 : ℝ) : RandM α := do
  let preds ← predict_mah_moments_singlebin E kind params (bin.tarr.map lit) (lit bin.lgm_obs)
    (lit bin.t_obs) ran_key (lit lgt0)
  let loss ← RandM.lift (mse (preds.map fun p => p.1) (bin.target_mean_log_mah.map lit))
  let loss' ← RandM.lift (mse (preds.map fun p => p.2) (bin.target_std_log_mah.map lit))
  return loss + loss'

/-- bimod_cens_fithelp.py:43-96: as `PopLoss.loss_mah_moments_multibin` -/
noncomputable def loss_mah_moments_multibin (kind : Kind) (params : NT α) (bins : List PopLoss.Bin)
    (ran_key : Key) (lgt0 : ℝ) : RandM α := do
  let losses ← RandM.all (List.zipWith
    (fun bin k => loss_mah_moments_singlebin E kind params bin k lgt0) bins (ran_key.split bins.length))
  return jsum losses / lit (losses.length : ℝ)

/-- bimod_censat_params.py:193-235: as `PopParams.get_diffmahpop_params_from_u_params` -/
noncomputable def get_diffmahpop_params_from_u_params (u : NT α) : Except PyErr (NT α) := do
  let comps ← get_component_model_u_params u
  let bounded ← bound_components comps
  replace_all (DEFAULT_DIFFMAHPOP_PARAMS.mapv lit) bounded.toList

/-- bimod_cens_fithelp.py:101-104 and bimod_censat_fithelp.py:71-72: the parameters used for the given
unbounded ones -/
noncomputable def params_of_u_params (u_params : NT α) : Except PyErr (NT α) := do
  let default ← DEFAULT_DIFFMAHPOP_U_PARAMS
  let u_params ← (default.mapv lit).replace u_params
  get_diffmahpop_params_from_u_params u_params

/-- bimod_cens_fithelp.py:99-105: as `PopLoss.loss_mah_moments_multibin_u_params` -/
noncomputable def loss_mah_moments_multibin_u_params (u_params : NT α) (bins : List PopLoss.Bin)
    (ran_key : Key) (lgt0 : ℝ) : RandM α := do
  let params ← RandM.lift (params_of_u_params u_params)
  loss_mah_moments_multibin E .cens params bins ran_key lgt0

/-- bimod_censat_fithelp.py:16-61: as `PopLoss.loss_mah_moments_multibin_censat` -/
noncomputable def loss_mah_moments_multibin_censat (varied : NT α)
    (bins_cens bins_sats : List PopLoss.Bin) (ran_key : Key) (lgt0 : ℝ) : RandM α := do
  let params ← RandM.lift ((DEFAULT_DIFFMAHPOP_PARAMS.mapv lit).replace varied)
  let loss_cens ← loss_mah_moments_multibin E .cens params bins_cens (Key.child ran_key 2 0) lgt0
  let loss_sats ← loss_mah_moments_multibin E .sats params bins_sats (Key.child ran_key 2 1) lgt0
  return loss_cens + loss_sats

/-- bimod_censat_fithelp.py:69-73: as `PopLoss.loss_mah_moments_multibin_censat_u_params` -/
noncomputable def loss_mah_moments_multibin_censat_u_params (u_params : NT α)
    (bins_cens bins_sats : List PopLoss.Bin) (ran_key : Key) (lgt0 : ℝ) : RandM α := do
  let params ← RandM.lift (params_of_u_params u_params)
  loss_mah_moments_multibin_censat E params bins_cens bins_sats ran_key lgt0

end Generic

/-! ## `value_and_grad` -/

/-- The parameters, of which number `i` is the variable. -/
def seed (p : NT ℝ) (i : ℕ) : NT Dual :=
  p.mapIdx fun j kv => (kv.1, if j = i then Dual.var kv.2 else Dual.const kv.2)

/-- `jax.value_and_grad(f)` with respect to a named tuple: the value, and a named tuple with the same
fields. `f` is given on reals and, by the same code, on dual numbers. -/
noncomputable def value_and_grad (f : NT ℝ → RandM ℝ) (fD : NT Dual → RandM Dual) (p : NT ℝ) :
    Except PyErr (ℝ × NT ℝ) := do
  let v ← f p
  let g ← (List.range p.length).mapM fun i => do
    let t ← fD (seed p i)
    return t.1.d
  return (v.1, p.fields.zip g)

variable (ext : Ext) (rng : Rng) (ED : Env Dual)

/-- bimod_cens_fithelp.py:108-110 -/
noncomputable def loss_and_grads_cens (u_params : NT ℝ) (bins : List PopLoss.Bin) (ran_key : Key)
    (lgt0 : ℝ) : Except PyErr (ℝ × NT ℝ) :=
  value_and_grad (fun u => PopLoss.loss_mah_moments_multibin_u_params ext rng u bins ran_key lgt0)
    (fun u => loss_mah_moments_multibin_u_params ED u bins ran_key lgt0) u_params

/-- bimod_sats_fithelp.py:98 -/
noncomputable def loss_and_grads_sats (params : NT ℝ) (bins : List PopLoss.Bin) (ran_key : Key)
    (lgt0 : ℝ) : Except PyErr (ℝ × NT ℝ) :=
  value_and_grad (fun p => PopLoss.loss_mah_moments_multibin ext rng .sats p bins ran_key lgt0)
    (fun p => loss_mah_moments_multibin ED .sats p bins ran_key lgt0) params

/-- bimod_censat_fithelp.py:64-66 -/
noncomputable def loss_and_grads_censat (varied : NT ℝ) (bins_cens bins_sats : List PopLoss.Bin)
    (ran_key : Key) (lgt0 : ℝ) : Except PyErr (ℝ × NT ℝ) :=
  value_and_grad
    (fun p => PopLoss.loss_mah_moments_multibin_censat ext rng p bins_cens bins_sats ran_key lgt0)
    (fun p => loss_mah_moments_multibin_censat ED p bins_cens bins_sats ran_key lgt0) varied

/-- bimod_censat_fithelp.py:76-78 -/
noncomputable def loss_and_grads_censat_u_params (u_params : NT ℝ)
    (bins_cens bins_sats : List PopLoss.Bin) (ran_key : Key) (lgt0 : ℝ) : Except PyErr (ℝ × NT ℝ) :=
  value_and_grad
    (fun u => PopLoss.loss_mah_moments_multibin_censat_u_params ext rng u bins_cens bins_sats ran_key lgt0)
    (fun u => loss_mah_moments_multibin_censat_u_params ED u bins_cens bins_sats ran_key lgt0) u_params

end PopGrad

end Diffmah

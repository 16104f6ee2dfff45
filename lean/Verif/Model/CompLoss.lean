import Verif.Model.TPeak
import Verif.Model.Optim

/-!
# Model of the losses and fitters of the component models of `/repo/diffmah/diffmahpop_kernels`

Modelled: the losses of early_index_{alpha,beta,pop}.py, logtc_{early,late}.py,
bimod_logm0_kernels/logm0_{c0,c1}_{early,late}.py and their copies in bimod_logm0_sats,
t_peak_kernels/{utp_pdf_kernels,tp_pdf_cens,tp_pdf_cens_flex}.py, and the fitters
`t_peak_fitter`, `t_peak_cens_fitter`, `fit_global_c0_model` and `fit_global_c1_model`.

The arrays of `loss_data` are broadcast against each other by the code; they are modelled by the list
of their entries (so a scalar among them is an entry that is the same everywhere).
-/

namespace Diffmah

open JOps

namespace CompLoss

open Pop TPeak

section Generic
variable {α : Type} [Add α] [Sub α] [Mul α] [Div α] [JOps α] [JMinMax α]

/-- `jnp.mean` of a non-empty array -/
noncomputable def jmean (l : List α) : α := l.foldl (· + ·) (lit 0) / lit (l.length : ℝ)

/-- `_mse(x, y)`: early_index_alpha.py:98-101, logtc_early.py:63-66, logm0_c0_early.py:56-59,
logm0_c1_early.py:67-70, utp_pdf_kernels.py:38-41, ftpt0_cens.py:44-47, and their copies
(early_index_beta.py:98-101, early_index_pop.py:98-101, logtc_late.py:63-66, logm0_c0_late.py:56-59,
logm0_c1_late.py:67-70, bimod_logm0_sats/logm0_c0_late.py:59-62 and the other files of bimod_logm0_sats);
tp_pdf_cens_flex.py:111-114 (which writes `d**2`). Arrays of equal length. -/
noncomputable def mse (x y : List α) : α :=
  jmean ((List.zipWith (fun a b => b - a) x y).map fun d => d * d)

/-- One entry of the arrays of `loss_data` (early_index_alpha.py:108, logtc_early.py:73) -/
structure Entry (α : Type) where
  lgm_obs : α
  t_obs : α
  t_peak : α
  target : α

/-- early_index_alpha.py:104-110 (`c = EARLY_INDEX_ALPHA`, `sfx = "_alpha"`), early_index_beta.py:104-110
(`EARLY_INDEX_BETA`, `"_beta"`), early_index_pop.py:104-110 (`EARLY_INDEX_POP`, `""`) -/
noncomputable def early_index_loss (c : Component) (sfx : String) (u_params : List α)
    (loss_data : List (Entry α)) : Except PyErr α := do
  let u_params ← NT.make c.upnames u_params
  let params ← c.get_bounded u_params
  let pred ← loss_data.mapM fun x => pred_early_index_kern sfx params x.lgm_obs x.t_obs x.t_peak
  return mse pred (loss_data.map Entry.target)

/-- logtc_early.py:69-75 (`c = LOGTC_EARLY`, `sfx = "_early"`), logtc_late.py:69-75 (`LOGTC_LATE`,
`"_late"`) -/
noncomputable def logtc_loss (c : Component) (sfx : String) (u_params : List α)
    (loss_data : List (Entry α)) : Except PyErr α := do
  let u_params ← NT.make c.upnames u_params
  let params ← c.get_bounded u_params
  let pred ← loss_data.mapM fun x => pred_logtc_kern sfx params x.lgm_obs x.t_obs x.t_peak
  return mse pred (loss_data.map Entry.target)

/-- What a function receives as `params`: a named tuple, or a bare array. -/
inductive PArg (α : Type) where
  | tuple (p : NT α)
  | array (v : List α)

/-- The attributes that the kernels can read: those of a named tuple; an array has none of them. -/
def PArg.attrs : PArg α → NT α
  | .tuple p => p
  | .array _ => []

/-- One entry of the arrays of one `loss_data` (logm0_c0_early.py:64) -/
structure TEntry (α : Type) where
  t_obs : α
  t_peak : α
  target : α

/-- `_loss_kern_scalar` of logm0_c0_early.py:62-66 and of its copies (logm0_c0_late.py:62-66,
bimod_logm0_sats/logm0_c0_early.py:65-69, bimod_logm0_sats/logm0_c0_late.py:65-69); of
logm0_c1_early.py:73-77 and its copies (logm0_c1_late.py:73-77, both directories) with
`pred = pred_c1_kern sfx` -/
noncomputable def loss_kern_scalar (pred : NT α → α → α → Except PyErr α) (params : PArg α)
    (loss_data : List (TEntry α)) : Except PyErr α := do
  let p ← loss_data.mapM fun x => pred params.attrs x.t_obs x.t_peak
  return mse (loss_data.map TEntry.target) p

/-- `global_loss_kern`: logm0_c0_early.py:69-74, logm0_c1_early.py:80-85, and their copies
(logm0_c0_late.py:69-74, logm0_c1_late.py:80-85, bimod_logm0_sats/logm0_c0_late.py:72-77) -/
noncomputable def global_loss_kern (pred : NT α → α → α → Except PyErr α) (params : PArg α)
    (global_loss_data : List (List (TEntry α))) : Except PyErr α :=
  global_loss_data.foldlM (fun loss loss_data => do
    let l ← loss_kern_scalar pred params loss_data
    return loss + l) (lit 0.0)

end Generic

/-! ## Gradients -/

/-- The parameter vector with a unit tangent in direction `i` (as in `jax.value_and_grad`) -/
def seed (u : List ℝ) (i : ℕ) : List Dual :=
  u.mapIdx fun j x => if j = i then Dual.var x else Dual.const x

/-- The data are constants for the differentiation -/
def Entry.const (x : Entry ℝ) : Entry Dual :=
  ⟨Dual.const x.lgm_obs, Dual.const x.t_obs, Dual.const x.t_peak, Dual.const x.target⟩

/-- Component `i` of the second output of `loss_and_grads_kern`, early_index_alpha.py:113 and its copies -/
noncomputable def early_index_grad (c : Component) (sfx : String) (u_params : List ℝ)
    (loss_data : List (Entry ℝ)) (i : ℕ) : Except PyErr ℝ :=
  (early_index_loss c sfx (seed u_params i) (loss_data.map Entry.const)).map Dual.d

/-- Component `i` of the second output of `loss_and_grads_kern`, logtc_early.py:78 and its copy -/
noncomputable def logtc_grad (c : Component) (sfx : String) (u_params : List ℝ)
    (loss_data : List (Entry ℝ)) (i : ℕ) : Except PyErr ℝ :=
  (logtc_loss c sfx (seed u_params i) (loss_data.map Entry.const)).map Dual.d

/-! ## Losses of the peak-time models -/

variable (ext : Ext)

/-- utp_pdf_kernels.py:88-94 -/
noncomputable def utp_loss (u_params : List ℝ) (x_target pdf_target : List ℝ) : Except PyErr ℝ := do
  let u_params ← NT.make UTP.upnames u_params
  let params ← UTP.get_bounded u_params
  let loc ← params.getattr "utp_loc"
  let scale ← params.getattr "utp_scale"
  let pdf_pred := tp_pdf_kern ext x_target loc scale
  if pdf_pred.length = pdf_target.length then return mse pdf_pred pdf_target else throw .typeError

/-- tp_pdf_cens.py:132-138 -/
noncomputable def tp_cens_loss (u_params : List ℝ) (t_peak_target pdf_target : List ℝ) (t_0 : ℝ) :
    Except PyErr ℝ := do
  let u_params ← NT.make UTP.upnames u_params
  let params ← UTP.get_bounded u_params
  let loc ← params.getattr "utp_loc"
  let scale ← params.getattr "utp_scale"
  let pdf_pred := t_peak_cens_pdf_kern ext loc scale t_peak_target t_0
  if pdf_pred.length = pdf_target.length then return mse pdf_pred pdf_target else throw .typeError

/-- One bin of `loss_multimass` (tp_pdf_cens_flex.py:136): rows of `utp_targets` and `y_targets`, and
entries of `lgm_obs_arr` and `t_obs_arr` -/
structure MassBin where
  utp_target : List ℝ
  y_target : List ℝ
  lgm_obs : ℝ
  t_obs : ℝ

/-- tp_pdf_cens_flex.py:117-126 -/
noncomputable def loss_kern_single_mass (params : NT ℝ) (bin : MassBin) : Except PyErr (List ℝ) := do
  let y_pred ← frac_peaked_vs_lgm params bin.utp_target bin.lgm_obs bin.t_obs
  if y_pred.length = bin.y_target.length then
    return List.zipWith (fun a b => |b - a|) y_pred bin.y_target
  else throw .typeError

/-- tp_pdf_cens_flex.py:129-140: the mean over all entries of the array of losses, whose rows have the
same length -/
noncomputable def loss_multimass (params : NT ℝ) (bins : List MassBin) : Except PyErr ℝ := do
  let losses ← bins.mapM (loss_kern_single_mass params)
  return jmean losses.flatten

/-- tp_pdf_cens_flex.py:78-80 and 146-151; constants of lines 14-16 -/
noncomputable def flex_loss (utp_x0 : ℝ) (utp_target y_target : List ℝ) : Except PyErr ℝ :=
  let y_pred := utp_target.map fun utp => Utils.sigmoid utp utp_x0 5.0 0.0 1.0
  if y_pred.length = y_target.length then .ok (mse y_pred y_target) else .error .typeError

/-! ## Fitters -/

open Fit

/-- `DEFAULT_UTP_U_PARAMS`, utp_pdf_kernels.py:135 -/
noncomputable def DEFAULT_UTP_U_PARAMS : Except PyErr (NT XR) :=
  UTP.get_unbounded (UTP.pdict.map fun kv => (kv.1, XR.fin kv.2))

/-- What `t_peak_fitter` returns -/
structure TPeakFit where
  p_best : NT XR
  loss_best : XR
  fit_terminates : Bool
  code_used : ℤ

/-- `t_peak_cens_fitter`, tp_pdf_cens.py:104-115. `lg` is `loss_and_grads_kern` for the given
`loss_data`; `lbfgs`, `adam` and `f4` as in `bfgs_adam_fallback`. -/
noncomputable def t_peak_cens_fitter {S : Type} (lbfgs : (PVec → XR × PVec) → PVec → LbfgsResult)
    (adam : ℝ → AdamOpt S) (f4 : XR → XR) (lg : PVec → XR × PVec) (u_p_init : NT XR)
    (nstep n_warmup : ℕ) : Except PyErr TPeakFit := do
  let r ← bfgs_adam_fallback lbfgs adam f4 lg u_p_init.values nstep n_warmup
  let u_p_best ← NT.make UTP.upnames r.p_best
  let p_best ← UTP.get_bounded u_p_best
  return ⟨p_best, r.loss_best, r.fit_terminates, r.code_used⟩

/-- `t_peak_fitter`, utp_pdf_kernels.py:138-145; the defaults `nstep=200, n_warmup=1` are those of
bfgs_wrapper.py:47 -/
noncomputable def t_peak_fitter {S : Type} (lbfgs : (PVec → XR × PVec) → PVec → LbfgsResult)
    (adam : ℝ → AdamOpt S) (f4 : XR → XR) (lg : PVec → XR × PVec) : Except PyErr TPeakFit := do
  let u_p_init ← DEFAULT_UTP_U_PARAMS
  let r ← bfgs_adam_fallback lbfgs adam f4 lg u_p_init.values
  let u_p_best ← NT.make UTP.upnames r.p_best
  let p_best ← UTP.get_bounded u_p_best
  return ⟨p_best, r.loss_best, r.fit_terminates, r.code_used⟩

/-- `global_loss_and_grads_kern`, logm0_c0_early.py:77, logm0_c1_early.py:88 and their copies:
`value_and_grad` runs the loss once; only its value is modelled -/
noncomputable def global_loss_and_grads_kern (pred : NT ℝ → ℝ → ℝ → Except PyErr ℝ)
    (global_loss_data : List (List (TEntry ℝ))) (params : PArg ℝ) : Except PyErr ℝ :=
  global_loss_kern pred params global_loss_data

/-- `scipy.optimize.minimize(fun, x0, ...)`, called at bfgs_wrapper.py:40-42: external. What is assumed
of it: it calls `fun` with the starting point as an array, and does not catch what `fun` raises. -/
structure Minimizer where
  minimize : (PArg ℝ → Except PyErr ℝ) → List ℝ → Except PyErr (List ℝ × ℝ × Bool)
  calls_start : ∀ f x0 e, f (.array x0) = .error e → minimize f x0 = .error e

/-- `fit_global_c0_model`, logm0_c0_early.py:80-83, `fit_global_c1_model`, logm0_c1_early.py:91-94, and
their copies (logm0_c0_late.py:80-83, logm0_c1_late.py:91-94, bimod_logm0_sats/logm0_c0_late.py:83-86), with `bfgs_adam_fallback` of bfgs_wrapper.py:47-91. `adam` stands for what happens after
`minimize` has returned without success. -/
noncomputable def fit_global_model (m : Minimizer)
    (adam : (PArg ℝ → Except PyErr ℝ) → NT ℝ → Except PyErr (List ℝ × ℝ × Bool))
    (pred : NT ℝ → ℝ → ℝ → Except PyErr ℝ) (global_loss_data : List (List (TEntry ℝ))) (p_init : NT ℝ) :
    Except PyErr (List ℝ × ℝ × Bool × ℤ) := do
  let f := global_loss_and_grads_kern pred global_loss_data
  let r ← m.minimize f p_init.values
  if r.2.2 = true ∧ 0 < r.2.1 then return (r.1, r.2.1, r.2.2, 0)
  else
    let a ← adam f p_init
    return (a.1, a.2.1, a.2.2, 1)

end CompLoss

end Diffmah

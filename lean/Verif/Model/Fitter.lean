import Verif.Model.Kernels
import Verif.Model.Optim

/-!
# Model of `/repo/diffmah/fitting_helpers/diffmah_fitter_helpers.py` (numerical part)

Simulated histories are lists over `XR`, since masses can be zero, infinite or NaN. `f4` is rounding
to single precision: JAX functions receive `f4` arrays (x64 is not enabled anywhere in the code) and
`p_init` is an `f4` array. Warnings are not modelled (a warning has no effect on the outputs).
-/

namespace Diffmah.Fit

open JOps Diffmah.Utils

/-- diffmah_fitter_helpers.py:17-21 -/
noncomputable def DLOGM_CUT : ℝ := 2.5
noncomputable def T_FIT_MIN : ℝ := 1.0
def NPTS_FIT_MIN : ℕ := 3
noncomputable def NOFIT_FILL : ℝ := -99.0
noncomputable def EPSILON : ℝ := 1e-7

/-- `VariedDiffmahUParams`, diffmah_fitter_helpers.py:30-36 -/
@[ext] structure VariedU (α : Type) where
  u_logm0 : α
  u_logtc : α
  u_early_index : α
  u_late_index : α

/-- `DiffmahFitLossData`, diffmah_fitter_helpers.py:300-301 -/
structure LossData (α : Type) where
  t_target : List α
  log_mah_target : List α
  u_t_peak : α
  logt0 : α

/-- `DiffmahFitResult`, diffmah_fitter_helpers.py:153-161 -/
structure FitResult where
  p_best : MahParams XR
  loss_best : XR
  skip_fit : Bool
  fit_terminates : Bool
  code_used : ℤ
  loss_data : LossData XR

/-- `a == b` with IEEE conventions (diffmah_fitter_helpers.py:221) -/
def xeq (a b : XR) : Prop := a = b ∧ a ≠ XR.nan

open Classical in
/-- `jnp.argmax` of a boolean array: the first true entry, 0 if there is none
(diffmah_fitter_helpers.py:221). -/
noncomputable def argmaxBool {α : Type} (c : α → Prop) (l : List α) : ℕ :=
  let i := l.findIdx fun x => decide (c x)
  if i < l.length then i else 0

/-- `compute_indx_t_peak_singlehalo`, diffmah_fitter_helpers.py:218-222; IndexError if empty -/
noncomputable def compute_indx_t_peak_singlehalo (log_mah_table : List XR) : Except PyErr ℕ :=
  match log_mah_table.getLast? with
  | none => .error .indexError
  | some logm0 => .ok (argmaxBool (fun x => xeq x logm0) log_mah_table)

/-- `compute_indx_t_peak_halopop`, diffmah_fitter_helpers.py:225: vmap over haloes -/
noncomputable def compute_indx_t_peak_halopop (tables : List (List XR)) : Except PyErr (List ℕ) :=
  tables.mapM compute_indx_t_peak_singlehalo

/-- `mah_sim.max()`, diffmah_fitter_helpers.py:165: ValueError if empty, NaN if any entry is NaN -/
noncomputable def npmax : List XR → Except PyErr XR
  | [] => .error .valueError
  | a :: l => .ok (l.foldl XR.max a)

/-- `_check_for_logmah_vs_mah_mistake`, diffmah_fitter_helpers.py:164-169; the value says whether a
warning is issued. -/
noncomputable def check_for_logmah_vs_mah_mistake (mah_sim : List XR) : Except PyErr Prop := do
  let m ← npmax mah_sim
  return XR.lt m (XR.fin 1e4)

/-- The loop of `np.maximum.accumulate` with running maximum `acc`. -/
noncomputable def accumulateFrom (acc : XR) : List XR → List XR
  | [] => []
  | x :: l => XR.max acc x :: accumulateFrom (XR.max acc x) l

/-- `np.maximum.accumulate`, diffmah_fitter_helpers.py:236 -/
noncomputable def accumulate : List XR → List XR
  | [] => []
  | x :: l => x :: accumulateFrom x l

open Classical in
/-- `_get_target_data`, diffmah_fitter_helpers.py:228-237. Both arrays are assumed to have the same
length (asserted by `diffmah_fitter`). -/
noncomputable def get_target_data (t_sim log_mah_sim : List XR) (lgm_min dlogm_cut t_fit_min : XR) :
    Except PyErr (List XR × List XR) :=
  match log_mah_sim.getLast? with
  | none => .error .indexError
  | some logm0_sim =>
    let sel := (t_sim.zip log_mah_sim).filter fun q =>
      decide (XR.lt (logm0_sim - dlogm_cut) q.2 ∧ XR.lt lgm_min q.2 ∧ XR.le t_fit_min q.1)
    .ok (sel.map fun q => log10 q.1, accumulate (sel.map Prod.snd))

/-- `_get_clipped_log_mah`, diffmah_fitter_helpers.py:240-244 -/
noncomputable def get_clipped_log_mah (mah : List XR) (lgm_min : XR) : List XR :=
  mah.map fun m =>
    log10 (jwhere (XR.le m (pow10 lgm_min)) (lit EPSILON + pow10 lgm_min) m)

open Classical in
/-- `_compute_non_trivial_npts_in_log_mah_target`, diffmah_fitter_helpers.py:325-333 -/
noncomputable def compute_non_trivial_npts (log_mah_target : List XR) : ℕ :=
  let logmp0 := log_mah_target.getLast?.getD XR.ninf
  log_mah_target.countP fun x => decide (XR.lt x logmp0)

/-- `get_loss_data`, diffmah_fitter_helpers.py:247-297 -/
noncomputable def get_loss_data (f4 : XR → XR) (t_sim mah_sim : List XR) (lgm_min dlogm_cut : XR)
    (t_fit_min : XR) (npts_min : ℕ) (tpeak_fixed : Option XR) :
    Except PyErr (PVec × LossData XR × Bool) := do
  let _ ← check_for_logmah_vs_mah_mistake mah_sim
  let log_mah_sim := get_clipped_log_mah mah_sim lgm_min
  let (logt_target, log_mah_target) ←
    get_target_data t_sim log_mah_sim lgm_min dlogm_cut t_fit_min
  let t_target := logt_target.map pow10
  let npts := compute_non_trivial_npts log_mah_target
  if npts < npts_min then
    return (List.replicate 4 (XR.fin NOFIT_FILL),
      ⟨t_target, log_mah_target, XR.fin NOFIT_FILL, XR.fin NOFIT_FILL⟩, true)
  else
    let t_last ← match t_sim.getLast? with
      | none => Except.error PyErr.indexError
      | some t => Except.ok t
    let logt0 := log10 t_last
    let logm0_last ← match log_mah_sim.getLast? with
      | none => Except.error PyErr.indexError
      | some m => Except.ok m
    let t_peak ← match tpeak_fixed with
      | some t => Except.ok t
      | none => do
        let indx ← compute_indx_t_peak_singlehalo (log_mah_sim.map f4)
        match t_sim[indx]? with
        | none => Except.error PyErr.indexError
        | some t => Except.ok t
    let d := (DEFAULT_MAH_PARAMS.map XR.fin).map f4
    let p_init : MahParams XR := ⟨f4 logm0_last, d.logtc, d.early_index, d.late_index, f4 t_peak⟩
    let u := get_unbounded_mah_params p_init
    return ([u.u_logm0, u.u_logtc, u.u_early_index, u.u_late_index],
      ⟨t_target, log_mah_target, u.u_t_peak, logt0⟩, false)

section Loss

variable {α : Type} [Add α] [Sub α] [Mul α] [Div α] [JOps α]

/-- `jnp.mean` of a 1-d array -/
def jmean (l : List α) : α := l.foldl (· + ·) (lit 0) / lit (l.length : ℝ)

/-- `_mse`, diffmah_fitter_helpers.py:304-308 (1-d arrays of equal length) -/
def mse (pred target : List α) : α :=
  jmean (List.zipWith (fun p t => (p - t) * (p - t)) pred target)

/-- `log_mah_loss_uparams`, diffmah_fitter_helpers.py:311-319 -/
noncomputable def log_mah_loss_uparams (u : VariedU α) (ld : LossData α) : α :=
  let u_params : MahUParams α :=
    ⟨u.u_logm0, u.u_logtc, u.u_early_index, u.u_late_index, ld.u_t_peak⟩
  let log_mah_pred := ld.t_target.map fun t => log_mah_kern_u_params u_params t ld.logt0
  mse log_mah_pred ld.log_mah_target

end Loss

/-- Loss data held fixed while differentiating. -/
def LossData.const (ld : LossData ℝ) : LossData Dual :=
  ⟨ld.t_target.map Dual.const, ld.log_mah_target.map Dual.const, Dual.const ld.u_t_peak,
    Dual.const ld.logt0⟩

/-- `loss_and_grads_kern = value_and_grad(log_mah_loss_uparams)`, diffmah_fitter_helpers.py:322:
the loss, and its tangent for each seeded unbounded parameter. -/
noncomputable def loss_and_grads_kern (u : VariedU ℝ) (ld : LossData ℝ) : ℝ × VariedU ℝ :=
  let c := Dual.const
  let v := Dual.var
  let g := fun (w : VariedU Dual) => (log_mah_loss_uparams w ld.const).d
  (log_mah_loss_uparams u ld,
    ⟨g ⟨v u.u_logm0, c u.u_logtc, c u.u_early_index, c u.u_late_index⟩,
     g ⟨c u.u_logm0, v u.u_logtc, c u.u_early_index, c u.u_late_index⟩,
     g ⟨c u.u_logm0, c u.u_logtc, v u.u_early_index, c u.u_late_index⟩,
     g ⟨c u.u_logm0, c u.u_logtc, c u.u_early_index, v u.u_late_index⟩⟩)

/-- The function handed to the optimisers (diffmah_fitter_helpers.py:140-142), over `XR`: the loss is
`log_mah_loss_uparams`; the gradient's special values are a parameter `grad`. A parameter vector of
length other than 4 raises in the code; here its loss is NaN (never reached when the optimisers
preserve the shape). -/
noncomputable def fit_lg (grad : LossData XR → PVec → PVec) (ld : LossData XR) (p : PVec) :
    XR × PVec :=
  (match p with
    | [a, b, c, d] => log_mah_loss_uparams ⟨a, b, c, d⟩ ld
    | _ => XR.nan, grad ld p)

/-- `DEFAULT_MAH_U_PARAMS._make((*u_p_best, u_t_peak))`, diffmah_fitter_helpers.py:145 -/
def makeU (u_p_best : PVec) (u_t_peak : XR) : Except PyErr (MahUParams XR) :=
  match u_p_best with
  | [a, b, c, d] => .ok ⟨a, b, c, d, u_t_peak⟩
  | _ => .error .typeError

/-- `diffmah_fitter`, diffmah_fitter_helpers.py:39-150 -/
noncomputable def diffmah_fitter {S : Type}
    (lbfgs : (PVec → XR × PVec) → PVec → LbfgsResult) (adam : ℝ → AdamOpt S) (f4 : XR → XR)
    (grad : LossData XR → PVec → PVec)
    (t_sim mah_sim : List XR) (lgm_min : XR := XR.ninf) (dlogm_cut : XR := XR.fin DLOGM_CUT)
    (t_fit_min : XR := XR.fin T_FIT_MIN) (nstep : ℕ := 200) (n_warmup : ℕ := 1)
    (tpeak_fixed : Option XR := none) (force_skip_fit : Bool := false) :
    Except PyErr FitResult := do
  if mah_sim.length ≠ t_sim.length then throw .assertionError
  let _ ← check_for_logmah_vs_mah_mistake mah_sim
  let (u_p_init, loss_data, skip_fit) ←
    get_loss_data f4 t_sim mah_sim lgm_min dlogm_cut t_fit_min NPTS_FIT_MIN tpeak_fixed
  let skip_fit := skip_fit || force_skip_fit
  if skip_fit then
    let f := XR.fin NOFIT_FILL
    return ⟨⟨f, f, f, f, f⟩, f, skip_fit, false, -1, loss_data⟩
  else
    let res ← bfgs_adam_fallback lbfgs adam f4 (fit_lg grad loss_data) u_p_init nstep n_warmup
    let u_p_best ← makeU res.p_best loss_data.u_t_peak
    let p_best := get_bounded_mah_params u_p_best
    return ⟨p_best, res.loss_best, skip_fit, res.fit_terminates, res.code_used, loss_data⟩

end Diffmah.Fit

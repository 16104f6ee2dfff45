import Verif.Model.Utils

/-!
# Model of `/repo/diffmah/fitting_helpers/fit_utils.py` and `bfgs_wrapper.py`

The optimisers' wrappers, as state machines around external optimisers.

External and abstract here (theorems quantify over them):
* `AdamOpt`: the triple returned by `jax_opt.adam(step_size)`;
* `lbfgs`: `scipy.optimize.minimize(..., method="L-BFGS-B")`;
* `lg`: `loss_and_grad_func` with `loss_data` already supplied, a pure (jitted) function;
* `f4`: rounding to single precision, applied where the code stores into an `f4` array.
-/

namespace Diffmah.Fit

open JOps Diffmah.Utils

/-- A parameter vector (`ndarray` of shape `(n_params,)`). -/
abbrev PVec := List XR

/-- `np.all(np.isfinite(p))`, fit_utils.py:91,164,166 -/
def AllFin (p : PVec) : Prop := ∀ x ∈ p, XR.IsFin x

/-- `opt_init, opt_update, get_params = jax_opt.adam(step_size)`, fit_utils.py:153 -/
structure AdamOpt (S : Type) where
  init : PVec → S
  update : ℕ → PVec → S → S
  get : S → PVec

open Classical in
/-- One step of `np.nanargmin`: scan with the current best `(index, value)`; NaNs are skipped and
the first of equal minima wins. -/
noncomputable def nanargminAux : List XR → ℕ → Option (ℕ × XR) → Option (ℕ × XR)
  | [], _, best => best
  | x :: l, i, best =>
    nanargminAux l (i + 1)
      (if x = XR.nan then best
       else match best with
        | none => some (i, x)
        | some (j, y) => if XR.lt x y then some (i, x) else some (j, y))

/-- `np.nanargmin(l)` (fit_utils.py:170,191): ValueError for an empty or all-NaN array. -/
noncomputable def nanargmin (l : List XR) : Except PyErr ℕ :=
  match nanargminAux l 0 none with
  | none => .error .valueError
  | some (i, _) => .ok i

/-- The first four outputs of `_jax_adam_wrapper`, fit_utils.py:137-150 -/
structure AdamResult where
  params : PVec
  loss : XR
  loss_arr : List XR
  params_arr : List PVec

open Classical in
/-- The loop and the tail of `_jax_adam_wrapper`, fit_utils.py:158-195. `fuel` is the number of
iterations left, `losses` is `loss_collector`, `rows` the rows of `params_arr` written so far; the
rows not yet written are zero (fit_utils.py:156). -/
noncomputable def adam_loop {S : Type} (opt : AdamOpt S) (lg : PVec → XR × PVec) (f4 : XR → XR)
    (tol : XR) (n_params : ℕ) : (fuel istep : ℕ) → S → List XR → List PVec →
    Except PyErr AdamResult
  | 0, _, _, losses, rows => do
    let indx_best ← nanargmin losses
    return ⟨rows.getD indx_best [], losses.getD indx_best XR.nan, losses, rows⟩
  | fuel + 1, istep, st, losses, rows => do
    let p := opt.get st
    let (loss, grads) := lg p
    let losses' := losses ++ [loss]
    if ¬ AllFin p ∨ ¬ XR.IsFin loss ∨ ¬ AllFin grads then
      if istep > 0 then
        let indx_best ← nanargmin (losses'.take istep)
        return ⟨rows.getD indx_best [], losses'.getD indx_best XR.nan, losses'.take istep,
          rows.take istep⟩
      else
        return ⟨p, XR.fin 999.99, losses'.take istep, rows.take istep⟩
    else
      let rows' := rows ++ [p.map f4]
      let st' := opt.update istep grads st
      if XR.lt loss tol then
        return ⟨p, loss, losses', rows' ++ List.replicate fuel (List.replicate n_params (XR.fin 0))⟩
      else adam_loop opt lg f4 tol n_params fuel (istep + 1) st' losses' rows'

/-- `_jax_adam_wrapper`, fit_utils.py:108-195, with the optimiser `opt = adam(step_size)` -/
noncomputable def jax_adam_core {S : Type} (opt : AdamOpt S) (lg : PVec → XR × PVec)
    (f4 : XR → XR) (params_init : PVec) (n_step : ℕ) (tol : XR) : Except PyErr AdamResult :=
  adam_loop opt lg f4 tol params_init.length n_step 0 (opt.init params_init) [] []

/-- One warmup round, fit_utils.py:79-89. The state is `(p_init, loss_init, fit_results)`, with
`none` for a `fit_results` that is still unbound. -/
noncomputable def warmup_step {S : Type} (opt : AdamOpt S) (lg : PVec → XR × PVec) (f4 : XR → XR)
    (warmup_n_step : ℕ) (tol : XR) (s : PVec × XR × Option AdamResult) :
    Except PyErr (PVec × XR × Option AdamResult) := do
  let r ← jax_adam_core opt lg f4 s.1 warmup_n_step tol
  return (r.params, r.loss, some r)

/-- `for i in range(n_warmup)`, fit_utils.py:77-89 -/
noncomputable def warmup_loop {S : Type} (opt : AdamOpt S) (lg : PVec → XR × PVec) (f4 : XR → XR)
    (warmup_n_step : ℕ) (tol : XR) :
    ℕ → (PVec × XR × Option AdamResult) → Except PyErr (PVec × XR × Option AdamResult)
  | 0, s => .ok s
  | n + 1, s => do
    let s' ← warmup_step opt lg f4 warmup_n_step tol s
    warmup_loop opt lg f4 warmup_n_step tol n s'

open Classical in
/-- `jax_adam_wrapper`, fit_utils.py:8-105. `adam` is `jax_opt.adam`; defaults are those of the
signature. The result is `(fit_results, fit_terminates)`. -/
noncomputable def jax_adam_wrapper {S : Type} (adam : ℝ → AdamOpt S) (lg : PVec → XR × PVec)
    (f4 : XR → XR) (params_init : PVec) (n_step : ℕ) (n_warmup : ℕ := 0) (step_size : ℝ := 0.01)
    (warmup_n_step : ℕ := 50) (warmup_step_size : Option ℝ := none) (tol : XR := XR.fin 0.0) :
    Except PyErr (AdamResult × ℕ) := do
  let warmup_step_size := warmup_step_size.getD (5 * step_size)
  let (p_init, loss_init, res) ←
    warmup_loop (adam warmup_step_size) lg f4 warmup_n_step tol n_warmup (params_init, XR.pinf, none)
  let p0 := if AllFin p_init then p_init else params_init
  let res ← if XR.lt tol loss_init then
      (jax_adam_core (adam step_size) lg f4 p0 n_step tol).map some
    else .ok res
  match res with
  | none => .error .unboundLocalError
  | some r => return (r, if r.loss_arr.length < n_step then 0 else 1)

/-- `_res = [result.x, result.fun, result.success]`, bfgs_wrapper.py:15-44 -/
structure LbfgsResult where
  x : PVec
  func : XR
  success : Bool

/-- `[p_best, loss_best, fit_terminates, code_used]`, bfgs_wrapper.py:69-72 -/
structure FallbackResult where
  p_best : PVec
  loss_best : XR
  fit_terminates : Bool
  code_used : ℤ

open Classical in
/-- `bfgs_adam_fallback`, bfgs_wrapper.py:47-91. `lbfgs` is `scipy.optimize.minimize` with
method `L-BFGS-B`, given the loss, its gradient and the initial point. -/
noncomputable def bfgs_adam_fallback {S : Type} (lbfgs : (PVec → XR × PVec) → PVec → LbfgsResult)
    (adam : ℝ → AdamOpt S) (f4 : XR → XR) (lg : PVec → XR × PVec) (u_p_init : PVec)
    (nstep : ℕ := 200) (n_warmup : ℕ := 1) : Except PyErr FallbackResult := do
  let r := lbfgs lg u_p_init
  if r.success = true ∧ XR.IsFin r.func ∧ XR.lt (XR.fin 0) r.func then
    return ⟨r.x, r.func, r.success, 0⟩
  else
    let (res, term) ← jax_adam_wrapper adam lg f4 u_p_init nstep n_warmup
    return ⟨res.params, res.loss, decide (term ≠ 0), 1⟩

end Diffmah.Fit

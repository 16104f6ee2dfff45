import Verif.Model.Float32
import Verif.Model.Fitter

/-!
# The loss of a fit and its gradient, operation by operation

`loss_and_grads_kern` of `Model/Fitter.lean` fixes the values of the gradient, not the roundings on the way to
it. Here the loss and the backward pass of JAX's `value_and_grad` are written out for every number system. The
order in which JAX adds up an array is left open.
-/

namespace Diffmah

open JOps
open Fit (VariedU LossData)

section FitReverse

variable {α : Type} [Add α] [Sub α] [Mul α] [Div α] [JOps α]

/-- `a` is the sum of the array `l`, in some order and with some bracketing, zeros thrown in as padding.
XLA promises no more about `jnp.sum`. -/
inductive SumOf : List α → α → Prop
  | nil : SumOf [] (lit 0)
  | one (x : α) : SumOf [x] x
  | add {l m k : List α} {a b : α} : SumOf l a → SumOf m b → (l ++ m).Perm k → SumOf k (a + b)

/-- `_mse`, diffmah_fitter_helpers.py:304-308, for a given way of adding up -/
def mse_with (sum : List α → α) (pred target : List α) : α :=
  let sq := List.zipWith (fun p t => (p - t) * (p - t)) pred target
  sum sq / lit (sq.length : ℝ)

/-- `log_mah_loss_uparams`, diffmah_fitter_helpers.py:311-319, for a given way of adding up -/
noncomputable def log_mah_loss_with (sum : List α → α) (u : VariedU α) (ld : LossData α) : α :=
  let u_params : MahUParams α :=
    ⟨u.u_logm0, u.u_logtc, u.u_early_index, u.u_late_index, ld.u_t_peak⟩
  mse_with sum (ld.t_target.map fun t => log_mah_kern_u_params u_params t ld.logt0) ld.log_mah_target

/-- Backward pass of `_log_mah_noq_kern`, diffmah_kernels.py:127-152, over an array of times: from the
derivatives `gs` by the log masses at the times `ts` to the derivatives by the four parameters. -/
noncomputable def noq_bwd (sum : List α → α) (p : MahParams α) (logt0 : α) (ts gs : List α) : VariedU α :=
  let s := ts.map fun t => sigm (lit MAH_K * (log10 t - p.logtc))
  let height_diff := p.late_index - p.early_index
  let g_index := List.zipWith (fun t g => g * (log10 t - logt0)) ts gs
  let g_height := List.zipWith (fun g s => g * s) g_index s
  let g_arg := List.zipWith (fun g s => g * height_diff * (lit 1 - s) * s * lit MAH_K) g_index s
  ⟨sum gs, lit 0 - sum g_arg, sum g_index - sum g_height, sum g_height⟩

/-- Backward pass of `_get_bounded_diffmah_param`, diffmah_kernels.py:230-235 -/
noncomputable def bounded_bwd (u : α) (bound : ℝ × ℝ) (g : α) : α :=
  let lo : α := lit bound.1
  let hi : α := lit bound.2
  let s := sigm (lit BOUNDING_K * (u - lit 0.5 * (lo + hi)))
  g * (hi - lo) * (lit 1 - s) * s * lit BOUNDING_K

/-- The gradient of `value_and_grad(log_mah_loss_uparams)`, diffmah_fitter_helpers.py:304-322, by the backward
pass: through the mean of the squares, the `jnp.where` of diffmah_kernels.py:175-181, the histories before and
at the peak, and the bounding functions of diffmah_kernels.py:230-268. -/
noncomputable def loss_grad_rev (sum : List α → α) (u : VariedU α) (ld : LossData α) : VariedU α :=
  let p := get_bounded_mah_params
    ⟨u.u_logm0, u.u_logtc, u.u_early_index, u.u_late_index, ld.u_t_peak⟩
  let pred := ld.t_target.map fun t => log_mah_kern p t ld.logt0
  let diff := List.zipWith (fun a b => a - b) pred ld.log_mah_target
  let g : α := lit 1 / lit (diff.length : ℝ)
  let g_pred := diff.map fun d => g * d + g * d
  let g_before := List.zipWith (fun t g => jwhere (lt t p.t_peak) g (lit 0)) ld.t_target g_pred
  let g_after := List.zipWith (fun t g => jwhere (lt t p.t_peak) (lit 0) g) ld.t_target g_pred
  let a := noq_bwd sum p ld.logt0 ld.t_target g_before
  let b := noq_bwd sum p ld.logt0 [p.t_peak] [sum g_after]
  let g_logm0 := a.u_logm0 + b.u_logm0
  let g_logtc := a.u_logtc + b.u_logtc
  let g_early := a.u_early_index + b.u_early_index
  let g_late := a.u_late_index + b.u_late_index
  -- `_get_early_late`, diffmah_kernels.py:244-249
  let s := sigm (lit BOUNDING_K * (u.u_early_index - lit 0.0))
  let g_u_early := g_early * (lit MAH_PBOUNDS.early_index.2 - p.late_index) * (lit 1 - s) * s * lit BOUNDING_K
  let g_late' := g_late + (g_early - g_early * s)
  ⟨bounded_bwd u.u_logm0 MAH_PBOUNDS.logm0 g_logm0, bounded_bwd u.u_logtc MAH_PBOUNDS.logtc g_logtc, g_u_early,
    bounded_bwd u.u_late_index MAH_PBOUNDS.late_index g_late'⟩

end FitReverse

end Diffmah

import Verif.Model.CompLoss
import Verif.Model.Normal

/-!
# Gradients of the component losses

`jax.value_and_grad` of the losses of bimod_logm0_kernels/logm0_{c0,c1}_{early,late}.py and their copies in
bimod_logm0_sats, of t_peak_kernels/{utp_pdf_kernels,tp_pdf_cens,tp_pdf_cens_flex}.py. Each loss is written
over a number system; over `ℝ` it is the loss of `CompLoss`, over `Dual` its derivative rules.
-/

namespace Diffmah

open JOps ProbabilityTheory

/-- `jnp.abs` (tp_pdf_cens_flex.py:120) -/
class JAbs (α : Type) where
  jabs : α → α

noncomputable instance : JAbs ℝ := ⟨fun x => |x|⟩

/-- JAX differentiates `abs` with `sign`, which is zero at zero. -/
noncomputable instance : JAbs Dual := ⟨fun a => ⟨|a.v|, a.d * (SignType.sign a.v : ℝ)⟩⟩

/-- The standard normal density on dual numbers -/
noncomputable def gaussianPDFDual (a : Dual) : Dual :=
  ⟨gaussianPDFReal 0 1 a.v, a.d * (-a.v * gaussianPDFReal 0 1 a.v)⟩

open Classical in
/-- `truncnorm.pdf` on dual numbers (utp_pdf_kernels.py:84) -/
noncomputable def truncnorm_pdfDual (x a b loc scale : Dual) : Dual :=
  let y := (x - loc) / scale
  if y.v < a.v ∨ b.v < y.v then Dual.const 0
  else gaussianPDFDual y / (scale * (ndtrDual b - ndtrDual a))

namespace CompLoss

open Pop TPeak

section Generic
variable {α : Type} [Add α] [Sub α] [Mul α] [Div α] [JOps α]

/-- utp_pdf_kernels.py:66-71 and 81-85 for an array `x`, with density `pdf` -/
noncomputable def tp_pdf_kern_of (pdf : α → α → α → α → α → α) (x : List α) (loc scale : α) : List α :=
  let a := (lit X_MIN - loc) / scale
  let b := (lit X_MAX - loc) / scale
  x.map fun x => pdf x a b loc scale

/-- utp_pdf_kernels.py:88-94 -/
noncomputable def utp_loss_of (pdf : α → α → α → α → α → α) (u_params x_target pdf_target : List α) :
    Except PyErr α := do
  let u_params ← NT.make UTP.upnames u_params
  let params ← UTP.get_bounded u_params
  let loc ← params.getattr "utp_loc"
  let scale ← params.getattr "utp_scale"
  let pdf_pred := tp_pdf_kern_of pdf x_target loc scale
  if pdf_pred.length = pdf_target.length then return mse pdf_pred pdf_target else throw .typeError

/-- tp_pdf_cens.py:118-122 and 132-138 -/
noncomputable def tp_cens_loss_of (pdf : α → α → α → α → α → α) (u_params t_peak_target pdf_target : List α)
    (t_0 : α) : Except PyErr α := do
  let u_params ← NT.make UTP.upnames u_params
  let params ← UTP.get_bounded u_params
  let loc ← params.getattr "utp_loc"
  let scale ← params.getattr "utp_scale"
  let pdf_pred := (tp_pdf_kern_of pdf (t_peak_target.map (· / t_0)) loc scale).map (· / t_0)
  if pdf_pred.length = pdf_target.length then return mse pdf_pred pdf_target else throw .typeError

/-- tp_pdf_cens_flex.py:78-80 and 146-151; constants of lines 14-16 -/
noncomputable def flex_loss_of (utp_x0 : α) (utp_target y_target : List α) : Except PyErr α :=
  let y_pred := utp_target.map fun utp => Utils.sigmoid utp utp_x0 (lit 5.0) (lit 0.0) (lit 1.0)
  if y_pred.length = y_target.length then .ok (mse y_pred y_target) else .error .typeError

/-- `MassBin` over a number system -/
structure MassBinOf (α : Type) where
  utp_target : List α
  y_target : List α
  lgm_obs : α
  t_obs : α

/-- tp_pdf_cens_flex.py:117-126 -/
noncomputable def loss_kern_single_mass_of [JAbs α] (params : NT α) (bin : MassBinOf α) :
    Except PyErr (List α) := do
  let y_pred ← frac_peaked_vs_lgm params bin.utp_target bin.lgm_obs bin.t_obs
  if y_pred.length = bin.y_target.length then
    return List.zipWith (fun a b => JAbs.jabs (b - a)) y_pred bin.y_target
  else throw .typeError

/-- tp_pdf_cens_flex.py:129-140 -/
noncomputable def loss_multimass_of [JAbs α] (params : NT α) (bins : List (MassBinOf α)) :
    Except PyErr α := do
  let losses ← bins.mapM (loss_kern_single_mass_of params)
  return jmean losses.flatten

end Generic

/-- A named tuple with a unit tangent at its field number `i` -/
def seedNT (p : NT ℝ) (i : ℕ) : NT Dual := p.fields.zip (seed p.values i)

/-- The named tuple with value `y` in its field number `i` -/
def setNT (p : NT ℝ) (i : ℕ) (y : ℝ) : NT ℝ := p.fields.zip (p.values.set i y)

/-- The data are constants for the differentiation -/
def TEntry.const (x : TEntry ℝ) : TEntry Dual :=
  ⟨Dual.const x.t_obs, Dual.const x.t_peak, Dual.const x.target⟩

/-- The data are constants for the differentiation -/
def MassBin.const (b : MassBin) : MassBinOf Dual :=
  ⟨b.utp_target.map Dual.const, b.y_target.map Dual.const, Dual.const b.lgm_obs, Dual.const b.t_obs⟩

/-- Component `i` of the second output of `loss_and_grads_kern`, utp_pdf_kernels.py:97 -/
noncomputable def utp_grad (u_params x_target pdf_target : List ℝ) (i : ℕ) : Except PyErr ℝ :=
  (utp_loss_of truncnorm_pdfDual (seed u_params i) (x_target.map Dual.const) (pdf_target.map Dual.const)).map
    Dual.d

/-- Component `i` of the second output of `loss_and_grads_kern`, tp_pdf_cens.py:141 -/
noncomputable def tp_cens_grad (u_params t_peak_target pdf_target : List ℝ) (t_0 : ℝ) (i : ℕ) :
    Except PyErr ℝ :=
  (tp_cens_loss_of truncnorm_pdfDual (seed u_params i) (t_peak_target.map Dual.const)
    (pdf_target.map Dual.const) (Dual.const t_0)).map Dual.d

/-- The second output of `loss_and_grad`, tp_pdf_cens_flex.py:154, for `params = (utp_x0,)` -/
noncomputable def flex_grad (utp_x0 : ℝ) (utp_target y_target : List ℝ) : Except PyErr ℝ :=
  (flex_loss_of (Dual.var utp_x0) (utp_target.map Dual.const) (y_target.map Dual.const)).map Dual.d

/-- Field `i` of the second output of `loss_and_grad_multimass`, tp_pdf_cens_flex.py:143 -/
noncomputable def multimass_grad (params : NT ℝ) (bins : List MassBin) (i : ℕ) : Except PyErr ℝ :=
  (loss_multimass_of (seedNT params i) (bins.map MassBin.const)).map Dual.d

/-- Field `i` of the second output of `global_loss_and_grads_kern` for a named tuple, logm0_c0_early.py:77,
logm0_c1_early.py:88 and their copies -/
noncomputable def logm0_grad (pred : NT Dual → Dual → Dual → Except PyErr Dual) (params : NT ℝ)
    (sets : List (List (TEntry ℝ))) (i : ℕ) : Except PyErr ℝ :=
  (global_loss_kern pred (.tuple (seedNT params i)) (sets.map fun d => d.map TEntry.const)).map Dual.d

end CompLoss

end Diffmah

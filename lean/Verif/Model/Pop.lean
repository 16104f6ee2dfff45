import Verif.Model.NamedTuple

/-!
# Model of the component kernels of `/repo/diffmah/diffmahpop_kernels`

Modelled files: covariance_kernels.py, early_index_{alpha,beta,pop,bimod}.py,
late_index_{alpha,beta,bimod}.py, logtc_{early,late,bimod}.py, frac_early_cens.py, ftpt0_cens.py,
bimod_logm0_kernels/*.py and bimod_logm0_sats/*.py.

The pairs of files `*_early.py`/`*_late.py`, `*_alpha.py`/`*_beta.py` and their `_sats` copies are
identical up to the suffix of the parameter names (and the default values); each pair is modelled
by one definition that takes the suffix `sfx`. Kernels are generic in the number system; arguments
are scalars (array arguments broadcast elementwise).
-/

namespace Diffmah

open JOps

/-- `jnp.maximum` and `jnp.minimum`, from which `jnp.clip` is built (e.g. logtc_early.py:46). -/
class JMinMax (α : Type) where
  jmax : α → α → α
  jmin : α → α → α

noncomputable instance : JMinMax ℝ := ⟨max, min⟩

/-- `np.minimum`: NaN if either argument is NaN. -/
noncomputable def XR.min : XR → XR → XR
  | .fin a, .fin b => .fin (Min.min a b)
  | .nan, _ => .nan
  | _, .nan => .nan
  | .ninf, _ => .ninf
  | _, .ninf => .ninf
  | .pinf, y => y
  | x, .pinf => x

noncomputable instance : JMinMax XR := ⟨XR.max, XR.min⟩

open Classical in
/-- JAX differentiates `maximum` and `minimum` branchwise and splits ties evenly. -/
noncomputable instance : JMinMax Dual where
  jmax a b := if a.v < b.v then b else if b.v < a.v then a else ⟨a.v, (a.d + b.d) / 2⟩
  jmin a b := if a.v < b.v then a else if b.v < a.v then b else ⟨a.v, (a.d + b.d) / 2⟩

open JMinMax

namespace Pop

variable {α : Type} [Add α] [Sub α] [Mul α] [Div α] [JOps α] [JMinMax α]

/-- `jnp.clip(x, lo, hi)` -/
noncomputable def clip (x : α) (lo hi : ℝ) : α := jmin (jmax x (lit lo)) (lit hi)

/-! ## Bounding transformations

Every component module contains the same transformation code, with its own names:
logtc_early.py:81-117, covariance_kernels.py:124-156, frac_early_cens.py:62-94,
ftpt0_cens.py:50-88, early_index_alpha.py:116-158, late_index_alpha.py:47-89,
bimod_logm0_kernels/logm0_c0_early.py:86-122, bimod_logm0_kernels/logm0_c1_early.py:97-133,
t_peak_kernels/tp_pdf_cens_flex.py:157-195, t_peak_kernels/tp_pdf_sats.py:121-159,
t_peak_kernels/utp_pdf_kernels.py:100-132, t_peak_kernels/tp_pdf_cens.py:144-182, and the
late/beta/pop/_sats copies: logtc_late.py:81-117, early_index_beta.py:116-158, early_index_pop.py:116-158,
late_index_beta.py:47-89, bimod_logm0_kernels/logm0_c0_late.py:86-122,
bimod_logm0_kernels/logm0_c1_late.py:97-133, bimod_logm0_sats/logm0_c0_early.py:89-125,
bimod_logm0_sats/logm0_c0_late.py:89-125, bimod_logm0_sats/logm0_c1_early.py:97-133,
bimod_logm0_sats/logm0_c1_late.py:97-133. -/

/-- `K_BOUNDING`, e.g. logtc_early.py:35 -/
noncomputable def K_BOUNDING : ℝ := 0.1

/-- e.g. logtc_early.py:81-85 -/
noncomputable def get_bounded_param (u_param : α) (bound : ℝ × ℝ) : α :=
  let lo : α := lit bound.1
  let hi : α := lit bound.2
  let mid := lit 0.5 * (lo + hi)
  Utils.sigmoid u_param mid (lit K_BOUNDING) lo hi

/-- e.g. logtc_early.py:88-92 -/
noncomputable def get_unbounded_param (param : α) (bound : ℝ × ℝ) : α :=
  let lo : α := lit bound.1
  let hi : α := lit bound.2
  let mid := lit 0.5 * (lo + hi)
  Utils.inverse_sigmoid param mid (lit K_BOUNDING) lo hi

/-- `vmap(f, in_axes=(0, 0))`: the mapped axes must have the same size -/
def vmap2 {β γ δ : Type} (f : β → γ → δ) (xs : List β) (ys : List γ) : Except PyErr (List δ) :=
  if xs.length = ys.length then .ok (List.zipWith f xs ys) else .error .valueError

/-- A component module: its default parameters and its bounds, in field order. -/
structure Component where
  pdict : NT ℝ
  bounds : NT (ℝ × ℝ)

/-- `Params._fields`, e.g. logtc_early.py:31 -/
def Component.fields (c : Component) : List String := c.pdict.fields

/-- `["u_" + key for key in Params._fields]`, e.g. logtc_early.py:120 -/
def Component.upnames (c : Component) : List String := c.fields.map ("u_" ++ ·)

/-- e.g. logtc_early.py:100-107 -/
noncomputable def Component.get_bounded (c : Component) (u_params : NT α) : Except PyErr (NT α) := do
  let u ← u_params.getattrs c.upnames
  let params ← vmap2 get_bounded_param u c.bounds.values
  NT.make c.fields params

/-- e.g. logtc_early.py:110-117 -/
noncomputable def Component.get_unbounded (c : Component) (params : NT α) : Except PyErr (NT α) := do
  let p ← params.getattrs c.fields
  let u_params ← vmap2 get_unbounded_param p c.bounds.values
  NT.make c.upnames u_params

/-- Append a suffix to every name of a table. -/
def withSuffix {β : Type} (sfx : String) (d : NT β) : NT β := d.map fun kv => (kv.1 ++ sfx, kv.2)

/-! ## covariance_kernels.py -/

/-- covariance_kernels.py:17 -/
noncomputable def COV_LGM_K : ℝ := 2.0

/-- covariance_kernels.py:41-43 -/
noncomputable def STD_BOUNDS : ℝ × ℝ := (0.01, 100.0)
noncomputable def RHO_BOUNDS : ℝ × ℝ := (-0.3, 0.3)
noncomputable def COV_X0_BOUNDS : ℝ × ℝ := (11.5, 14.0)

/-- covariance_kernels.py:20-39 and 44-68 -/
noncomputable def COV : Component where
  pdict := [
    ("std_u_logm0_ylo", 0.011), ("std_u_logtc_ylo", 0.072), ("std_u_early_ylo", 0.362),
    ("std_u_late_ylo", 0.186), ("std_u_logm0_yhi", 0.047), ("std_u_logtc_yhi", 2.002),
    ("std_u_early_yhi", 0.081), ("std_u_late_yhi", 22.433), ("rho_logtc_logm0", -0.227),
    ("rho_early_logm0", 0.290), ("rho_early_logtc", 0.210), ("rho_late_logm0", 0.290),
    ("rho_late_logtc", -0.121), ("rho_late_early", -0.290), ("cov_lgm_x0_logm0", 13.716),
    ("cov_lgm_x0_logtc", 12.988), ("cov_lgm_x0_early", 11.51), ("cov_lgm_x0_late", 13.900)]
  bounds := [
    ("std_u_logm0_ylo", STD_BOUNDS), ("std_u_logtc_ylo", STD_BOUNDS),
    ("std_u_early_ylo", STD_BOUNDS), ("std_u_late_ylo", STD_BOUNDS),
    ("std_u_logm0_yhi", STD_BOUNDS), ("std_u_logtc_yhi", STD_BOUNDS),
    ("std_u_early_yhi", STD_BOUNDS), ("std_u_late_yhi", STD_BOUNDS),
    ("rho_logtc_logm0", RHO_BOUNDS), ("rho_early_logm0", RHO_BOUNDS),
    ("rho_early_logtc", RHO_BOUNDS), ("rho_late_logm0", RHO_BOUNDS),
    ("rho_late_logtc", RHO_BOUNDS), ("rho_late_early", RHO_BOUNDS),
    ("cov_lgm_x0_logm0", COV_X0_BOUNDS), ("cov_lgm_x0_logtc", COV_X0_BOUNDS),
    ("cov_lgm_x0_early", COV_X0_BOUNDS), ("cov_lgm_x0_late", COV_X0_BOUNDS)]

/-- `"rho_" == key[:4]` (covariance_kernels.py:118) -/
def is_rho (key : String) : Bool := key.toList.take 4 == ['r', 'h', 'o', '_']

/-- covariance_kernels.py:85-121: the standard deviations and the off-diagonal correlations. -/
noncomputable def get_cov_params (params : NT α) (lgm_obs : α) : Except PyErr (List α × List α) := do
  let x0_logm0 ← params.getattr "cov_lgm_x0_logm0"
  let logm0_ylo ← params.getattr "std_u_logm0_ylo"
  let logm0_yhi ← params.getattr "std_u_logm0_yhi"
  let std_u_logm0 := Utils.sigmoid lgm_obs x0_logm0 (lit COV_LGM_K) logm0_ylo logm0_yhi
  let x0_logtc ← params.getattr "cov_lgm_x0_logtc"
  let logtc_ylo ← params.getattr "std_u_logtc_ylo"
  let logtc_yhi ← params.getattr "std_u_logtc_yhi"
  let std_u_logtc := Utils.sigmoid lgm_obs x0_logtc (lit COV_LGM_K) logtc_ylo logtc_yhi
  let x0_early ← params.getattr "cov_lgm_x0_early"
  let early_ylo ← params.getattr "std_u_early_ylo"
  let early_yhi ← params.getattr "std_u_early_yhi"
  let std_u_early := Utils.sigmoid lgm_obs x0_early (lit COV_LGM_K) early_ylo early_yhi
  let x0_late ← params.getattr "cov_lgm_x0_late"
  let late_ylo ← params.getattr "std_u_late_ylo"
  let late_yhi ← params.getattr "std_u_late_yhi"
  let std_u_late := Utils.sigmoid lgm_obs x0_late (lit COV_LGM_K) late_ylo late_yhi
  let diags := [std_u_logm0, std_u_logtc, std_u_early, std_u_late]
  let off_diags ← params.getattrs (params.fields.filter is_rho)
  return (diags, off_diags)

/-- covariance_kernels.py:71-79. The shapes must agree in `covariance_from_correlation`
(`TypeError` otherwise): the matrix has dimension `ndim` of `get_cholesky_from_params`. -/
noncomputable def get_diffmahpop_cov (params : NT ℝ) (lgm : ℝ) :
    Except PyErr (Matrix (Fin 4) (Fin 4) ℝ) := do
  let (diags, off_diags) ← get_cov_params params lgm
  let x := List.replicate diags.length 1 ++ off_diags
  if Utils.chol_ndim x.length = 4 then
    let M := Utils.get_cholesky_from_params x
    let corr : Matrix (Fin 4) (Fin 4) ℝ := fun i j => jwhere (M i j = 0) (M j i) (M i j)
    return Utils.covariance_from_correlation corr (fun i => diags.getD i 0)
  else throw .typeError

/-! ## ftpt0_cens.py -/

/-- ftpt0_cens.py:17-31 -/
noncomputable def FTPT0_BOUNDS : ℝ × ℝ := (0.01, 0.99)
noncomputable def FTPT0 : Component where
  pdict := [("ftpt0_c0_c0", 0.081), ("ftpt0_c0_c1", 0.041), ("ftpt0_c1", 0.044)]
  bounds := [("ftpt0_c0_c0", FTPT0_BOUNDS), ("ftpt0_c0_c1", (0.01, 0.1)), ("ftpt0_c1", (0.01, 0.25))]

/-- ftpt0_cens.py:34-41 -/
noncomputable def ftpt0_kernel (params : NT α) (lgm_obs t_obs : α) : Except PyErr α := do
  let c0_c0 ← params.getattr "ftpt0_c0_c0"
  let c0_c1 ← params.getattr "ftpt0_c0_c1"
  let c0 := c0_c0 + c0_c1 * (t_obs - lit 10.0)
  let c0 := clip c0 FTPT0_BOUNDS.1 FTPT0_BOUNDS.2
  let c1 ← params.getattr "ftpt0_c1"
  let ftpt0 := c0 + c1 * (lgm_obs - lit 12.0)
  return clip ftpt0 FTPT0_BOUNDS.1 FTPT0_BOUNDS.2

/-! ## frac_early_cens.py -/

/-- frac_early_cens.py:12-13 -/
noncomputable def FEC_LGM_K : ℝ := 4.0
noncomputable def FEC_T_K : ℝ := 1.0

/-- frac_early_cens.py:25 -/
noncomputable def F_BOUNDS : ℝ × ℝ := (1.0 / 4.0, 3.0 / 4.0)

/-- frac_early_cens.py:16-36 -/
noncomputable def FEC : Component where
  pdict := [
    ("fec_t_obs_x0", 5.485), ("fec_lgm_x0", 12.510), ("fec_lgm_ylo_early", 0.546),
    ("fec_lgm_ylo_late", 0.421), ("fec_lgm_yhi_early", 0.415), ("fec_lgm_yhi_late", 0.298)]
  bounds := [
    ("fec_t_obs_x0", (5.0, 13.0)), ("fec_lgm_x0", (11.0, 14.0)), ("fec_lgm_ylo_early", F_BOUNDS),
    ("fec_lgm_ylo_late", F_BOUNDS), ("fec_lgm_yhi_early", F_BOUNDS), ("fec_lgm_yhi_late", F_BOUNDS)]

/-- frac_early_cens.py:39-59 -/
noncomputable def frac_early_cens_kern (params : NT α) (lgm_obs t_obs : α) : Except PyErr α := do
  let t_obs_x0 ← params.getattr "fec_t_obs_x0"
  let ylo_early ← params.getattr "fec_lgm_ylo_early"
  let ylo_late ← params.getattr "fec_lgm_ylo_late"
  let fec_lgm_ylo := Utils.sigmoid t_obs t_obs_x0 (lit FEC_T_K) ylo_early ylo_late
  let yhi_early ← params.getattr "fec_lgm_yhi_early"
  let yhi_late ← params.getattr "fec_lgm_yhi_late"
  let fec_lgm_yhi := Utils.sigmoid t_obs t_obs_x0 (lit FEC_T_K) yhi_early yhi_late
  let lgm_x0 ← params.getattr "fec_lgm_x0"
  return Utils.sigmoid lgm_obs lgm_x0 (lit FEC_LGM_K) fec_lgm_ylo fec_lgm_yhi

/-! ## early_index_{alpha,beta,pop}.py -/

/-- `EPS` of early_index_alpha.py:13, late_index_alpha.py:13, logtc_early.py:13 -/
noncomputable def EPS : ℝ := 1e-3

/-- early_index_alpha.py:28-36 -/
noncomputable def EARLY_INDEX_BOUNDS_PDICT (sfx : String) : NT (ℝ × ℝ) := withSuffix sfx [
  ("early_index_ylo_x0", (1.0, 7.0)), ("early_index_ylo_ylo", (1.0, 3.5)),
  ("early_index_ylo_yhi", (0.5, 3.0)), ("early_index_yhi_ylo", (2.0, 4.0)),
  ("early_index_yhi_yhi", (1.5, 4.0)), ("early_index_yhi_x0", (4.0, 13.0)),
  ("early_index_lgm_x0", (12.0, 14.0))]

/-- early_index_alpha.py:19-39 -/
noncomputable def EARLY_INDEX_ALPHA : Component where
  pdict := withSuffix "_alpha" [
    ("early_index_ylo_x0", 4.319), ("early_index_ylo_ylo", 3.49), ("early_index_ylo_yhi", 2.985),
    ("early_index_yhi_ylo", 3.950), ("early_index_yhi_yhi", 3.665), ("early_index_yhi_x0", 10.405),
    ("early_index_lgm_x0", 12.918)]
  bounds := EARLY_INDEX_BOUNDS_PDICT "_alpha"

/-- early_index_beta.py:19-39 -/
noncomputable def EARLY_INDEX_BETA : Component where
  pdict := withSuffix "_beta" [
    ("early_index_ylo_x0", 1.456), ("early_index_ylo_ylo", 1.037), ("early_index_ylo_yhi", 0.879),
    ("early_index_yhi_ylo", 2.760), ("early_index_yhi_yhi", 2.195), ("early_index_yhi_x0", 8.144),
    ("early_index_lgm_x0", 12.641)]
  bounds := EARLY_INDEX_BOUNDS_PDICT "_beta"

/-- early_index_pop.py:19-39 -/
noncomputable def EARLY_INDEX_POP : Component where
  pdict := [
    ("early_index_ylo_x0", 6.072), ("early_index_ylo_ylo", 3.018), ("early_index_ylo_yhi", 1.517),
    ("early_index_yhi_ylo", 3.204), ("early_index_yhi_yhi", 2.774), ("early_index_yhi_x0", 10.274),
    ("early_index_lgm_x0", 13.504)]
  bounds := EARLY_INDEX_BOUNDS_PDICT ""

/-- early_index_alpha.py:70-81, `EARLY_INDEX_YLO_K` of line 17; early_index_beta.py:70-81 and
early_index_pop.py:70-81 are the same -/
noncomputable def get_early_index_ylo (x0 ylo yhi t_peak : α) : α :=
  Utils.sigmoid t_peak x0 (lit 1.0) ylo yhi

/-- early_index_alpha.py:84-95, `EARLY_INDEX_YHI_K` of line 16; early_index_beta.py:84-95 and
early_index_pop.py:84-95 are the same -/
noncomputable def get_early_index_yhi (x0 ylo yhi t_obs : α) : α :=
  Utils.sigmoid t_obs x0 (lit 0.5) ylo yhi

/-- early_index_alpha.py:44-67 (`sfx = "_alpha"`), early_index_beta.py:44-67 (`"_beta"`),
early_index_pop.py:44-67 (`""`) -/
noncomputable def pred_early_index_kern (sfx : String) (params : NT α) (lgm_obs t_obs t_peak : α) :
    Except PyErr α := do
  let ylo_x0 ← params.getattr ("early_index_ylo_x0" ++ sfx)
  let ylo_ylo ← params.getattr ("early_index_ylo_ylo" ++ sfx)
  let ylo_yhi ← params.getattr ("early_index_ylo_yhi" ++ sfx)
  let early_index_ylo := get_early_index_ylo ylo_x0 ylo_ylo ylo_yhi t_peak
  let yhi_x0 ← params.getattr ("early_index_yhi_x0" ++ sfx)
  let yhi_ylo ← params.getattr ("early_index_yhi_ylo" ++ sfx)
  let yhi_yhi ← params.getattr ("early_index_yhi_yhi" ++ sfx)
  let early_index_yhi := get_early_index_yhi yhi_x0 yhi_ylo yhi_yhi t_obs
  let lgm_x0 ← params.getattr ("early_index_lgm_x0" ++ sfx)
  let early_index := Utils.sigmoid lgm_obs lgm_x0 (lit 1.0) early_index_ylo early_index_yhi
  return clip early_index (MAH_PBOUNDS.early_index.1 + EPS) (MAH_PBOUNDS.early_index.2 - EPS)

/-! ## late_index_{alpha,beta}.py -/

/-- late_index_alpha.py:21-25 -/
noncomputable def LATE_INDEX_BOUNDS_PDICT (sfx : String) : NT (ℝ × ℝ) := withSuffix sfx [
  ("late_index_x0", (11.5, 14.0)), ("late_index_ylo", (0.01, 0.2)), ("late_index_yhi", (0.01, 0.2))]

/-- late_index_alpha.py:16-29 -/
noncomputable def LATE_INDEX_ALPHA : Component where
  pdict := withSuffix "_alpha" [
    ("late_index_x0", 11.567), ("late_index_ylo", 0.190), ("late_index_yhi", 0.190)]
  bounds := LATE_INDEX_BOUNDS_PDICT "_alpha"

/-- late_index_beta.py:16-29 -/
noncomputable def LATE_INDEX_BETA : Component where
  pdict := withSuffix "_beta" [
    ("late_index_x0", 11.567), ("late_index_ylo", 0.190), ("late_index_yhi", 0.190)]
  bounds := LATE_INDEX_BOUNDS_PDICT "_beta"

/-- late_index_alpha.py:33-44 (`sfx = "_alpha"`), late_index_beta.py:33-44 (`"_beta"`) -/
noncomputable def pred_late_index_kern (sfx : String) (params : NT α) (lgm_obs : α) :
    Except PyErr α := do
  let x0 ← params.getattr ("late_index_x0" ++ sfx)
  let ylo ← params.getattr ("late_index_ylo" ++ sfx)
  let yhi ← params.getattr ("late_index_yhi" ++ sfx)
  let late_index := Utils.sigmoid lgm_obs x0 (lit 1.0) ylo yhi
  return clip late_index (MAH_PBOUNDS.late_index.1 + EPS) (MAH_PBOUNDS.late_index.2 - EPS)

/-! ## logtc_{early,late}.py -/

/-- logtc_early.py:23-30 -/
noncomputable def LOGTC_BOUNDS_PDICT (sfx : String) : NT (ℝ × ℝ) := withSuffix sfx [
  ("logtc_lgm_c0_tp_ytp_tobs_c0", (0.2, 0.9)), ("logtc_lgm_c0_tp_ytp_tobs_c1", (0.0, 0.05)),
  ("logtc_lgm_c0_tp_ylo", (0.02, 0.15)), ("logtc_lgm_c0_tp_yhi", (-0.25, 0.0)),
  ("logtc_lgm_c1", (0.02, 0.15)), ("logtc_c0_ss_x0", (11.0, 13.0))]

/-- logtc_early.py:15-33 -/
noncomputable def LOGTC_EARLY : Component where
  pdict := withSuffix "_early" [
    ("logtc_lgm_c0_tp_ytp_tobs_c0", 0.447), ("logtc_lgm_c0_tp_ytp_tobs_c1", 0.002),
    ("logtc_lgm_c0_tp_ylo", 0.069), ("logtc_lgm_c0_tp_yhi", -0.201), ("logtc_lgm_c1", 0.130),
    ("logtc_c0_ss_x0", 12.221)]
  bounds := LOGTC_BOUNDS_PDICT "_early"

/-- logtc_late.py:15-33 -/
noncomputable def LOGTC_LATE : Component where
  pdict := withSuffix "_late" [
    ("logtc_lgm_c0_tp_ytp_tobs_c0", 0.898), ("logtc_lgm_c0_tp_ytp_tobs_c1", 0.005),
    ("logtc_lgm_c0_tp_ylo", 0.118), ("logtc_lgm_c0_tp_yhi", -0.006), ("logtc_lgm_c1", 0.146),
    ("logtc_c0_ss_x0", 11.091)]
  bounds := LOGTC_BOUNDS_PDICT "_late"

/-- logtc_early.py:50-60, constants of lines 37-38; logtc_late.py:50-60 -/
noncomputable def logtc_get_c0 (sfx : String) (params : NT α) (t_peak t_obs : α) : Except PyErr α := do
  let ytp_c0 ← params.getattr ("logtc_lgm_c0_tp_ytp_tobs_c0" ++ sfx)
  let ytp_c1 ← params.getattr ("logtc_lgm_c0_tp_ytp_tobs_c1" ++ sfx)
  let ytp := ytp_c0 + ytp_c1 * t_obs
  let ylo ← params.getattr ("logtc_lgm_c0_tp_ylo" ++ sfx)
  let yhi ← params.getattr ("logtc_lgm_c0_tp_yhi" ++ sfx)
  let x0 ← params.getattr ("logtc_c0_ss_x0" ++ sfx)
  return Utils.sig_slope t_peak (lit 10.0) ytp x0 (lit 0.5) ylo yhi

/-- logtc_early.py:41-47 (`sfx = "_early"`), logtc_late.py:41-47 (`"_late"`); `TAUC_LGMP` of
line 36 -/
noncomputable def pred_logtc_kern (sfx : String) (params : NT α) (lgm_obs t_obs t_peak : α) :
    Except PyErr α := do
  let lgm_c0 ← logtc_get_c0 sfx params t_peak t_obs
  let lgm_c1 ← params.getattr ("logtc_lgm_c1" ++ sfx)
  let logtc := lgm_c0 + lgm_c1 * (lgm_obs - lit 12.0)
  return clip logtc (MAH_PBOUNDS.logtc.1 + EPS) (MAH_PBOUNDS.logtc.2 - EPS)

/-! ## bimod_logm0_kernels and bimod_logm0_sats -/

/-- logm0_c0_early.py:26-32 -/
noncomputable def LGM0POP_C0_BOUNDS_DICT (sfx : String) : NT (ℝ × ℝ) := withSuffix sfx [
  ("lgm0pop_c0_ytp", (0.01, 0.4)), ("lgm0pop_c0_ylo", (-0.15, -0.05)),
  ("lgm0pop_c0_clip_c0", (0.5, 0.9)), ("lgm0pop_c0_clip_c1", (-0.1, -0.01)),
  ("lgm0pop_c0_t_obs_x0", (1.5, 6.0))]

/-- logm0_c1_early.py:25-32 -/
noncomputable def LGM0POP_C1_BOUNDS_DICT (sfx : String) : NT (ℝ × ℝ) := withSuffix sfx [
  ("lgm0pop_c1_ytp", (0.001, 0.1)), ("lgm0pop_c1_ylo", (-0.05, -0.001)),
  ("lgm0pop_c1_clip_x0", (4.0, 11.0)), ("lgm0pop_c1_clip_ylo", (0.02, 0.15)),
  ("lgm0pop_c1_clip_yhi", (0.001, 0.05)), ("lgm0pop_c1_t_obs_x0", (3.0, 10.0))]

/-- A `logm0_c0_*.py` module (lines 13-33) with the given suffix and defaults. -/
noncomputable def lgm0pop_c0 (sfx : String) (ytp ylo clip_c0 clip_c1 t_obs_x0 : ℝ) : Component where
  pdict := withSuffix sfx [
    ("lgm0pop_c0_ytp", ytp), ("lgm0pop_c0_ylo", ylo), ("lgm0pop_c0_clip_c0", clip_c0),
    ("lgm0pop_c0_clip_c1", clip_c1), ("lgm0pop_c0_t_obs_x0", t_obs_x0)]
  bounds := LGM0POP_C0_BOUNDS_DICT sfx

/-- A `logm0_c1_*.py` module (lines 13-33) with the given suffix and defaults. -/
noncomputable def lgm0pop_c1 (sfx : String) (ytp ylo clip_x0 clip_ylo clip_yhi t_obs_x0 : ℝ) :
    Component where
  pdict := withSuffix sfx [
    ("lgm0pop_c1_ytp", ytp), ("lgm0pop_c1_ylo", ylo), ("lgm0pop_c1_clip_x0", clip_x0),
    ("lgm0pop_c1_clip_ylo", clip_ylo), ("lgm0pop_c1_clip_yhi", clip_yhi),
    ("lgm0pop_c1_t_obs_x0", t_obs_x0)]
  bounds := LGM0POP_C1_BOUNDS_DICT sfx

/-- bimod_logm0_kernels/logm0_c0_early.py:13-33 -/
noncomputable def LGM0_C0_EARLY := lgm0pop_c0 "_early" 0.020 (-0.130) 0.897 (-0.090) 1.51
/-- bimod_logm0_kernels/logm0_c1_early.py:13-33 -/
noncomputable def LGM0_C1_EARLY := lgm0pop_c1 "_early" 0.002 (-0.043) 7.185 0.140 0.002 3.01
/-- bimod_logm0_kernels/logm0_c0_late.py:13-33 -/
noncomputable def LGM0_C0_LATE := lgm0pop_c0 "_late" 0.020 (-0.140) 0.89 (-0.090) 2.533
/-- bimod_logm0_kernels/logm0_c1_late.py:13-33 -/
noncomputable def LGM0_C1_LATE := lgm0pop_c1 "_late" 0.027 (-0.048) 8.443 0.145 0.002 6.377
/-- bimod_logm0_sats/logm0_c0_early.py:13-33 -/
noncomputable def LGM0_C0_EARLY_SATS := lgm0pop_c0 "_early_sats" 0.018 (-0.107) 0.734 (-0.085) 1.55
/-- bimod_logm0_sats/logm0_c1_early.py:13-33 -/
noncomputable def LGM0_C1_EARLY_SATS :=
  lgm0pop_c1 "_early_sats" 0.002 (-0.020) 10.539 0.116 0.048 3.031
/-- bimod_logm0_sats/logm0_c0_late.py:13-33 -/
noncomputable def LGM0_C0_LATE_SATS := lgm0pop_c0 "_late_sats" 0.011 (-0.080) 0.521 (-0.043) 1.581
/-- bimod_logm0_sats/logm0_c1_late.py:13-33 -/
noncomputable def LGM0_C1_LATE_SATS :=
  lgm0pop_c1 "_late_sats" 0.005 (-0.014) 10.587 0.074 0.037 3.781

/-- bimod_logm0_kernels/logm0_c0_early.py:40-53 (constants 35-36) and its copies
bimod_logm0_kernels/logm0_c0_late.py:40-53, bimod_logm0_sats/logm0_c0_early.py:40-56 and
bimod_logm0_sats/logm0_c0_late.py:40-56 -/
noncomputable def pred_c0_kern (sfx : String) (params : NT α) (t_obs t_peak : α) : Except PyErr α := do
  let ytp ← params.getattr ("lgm0pop_c0_ytp" ++ sfx)
  let x0 ← params.getattr ("lgm0pop_c0_t_obs_x0" ++ sfx)
  let ylo ← params.getattr ("lgm0pop_c0_ylo" ++ sfx)
  let pred_c0 := Utils.sig_slope t_obs (lit 15) ytp x0 (lit 0.25) ylo (lit 0.0)
  let clip_c0 ← params.getattr ("lgm0pop_c0_clip_c0" ++ sfx)
  let clip_c1 ← params.getattr ("lgm0pop_c0_clip_c1" ++ sfx)
  let clip := clip_c0 + clip_c1 * t_peak
  return jmax pred_c0 clip

/-- bimod_logm0_kernels/logm0_c1_early.py:44-64 (constants 38-40) and its copies
bimod_logm0_kernels/logm0_c1_late.py:44-64, bimod_logm0_sats/logm0_c1_early.py:44-64 and
bimod_logm0_sats/logm0_c1_late.py:44-64 -/
noncomputable def pred_c1_kern (sfx : String) (params : NT α) (t_obs t_peak : α) : Except PyErr α := do
  let ytp ← params.getattr ("lgm0pop_c1_ytp" ++ sfx)
  let x0 ← params.getattr ("lgm0pop_c1_t_obs_x0" ++ sfx)
  let ylo ← params.getattr ("lgm0pop_c1_ylo" ++ sfx)
  let pred_c1 := Utils.sig_slope t_obs (lit 10.0) ytp x0 (lit 0.25) ylo (lit 0.0)
  let clip_x0 ← params.getattr ("lgm0pop_c1_clip_x0" ++ sfx)
  let clip_ylo ← params.getattr ("lgm0pop_c1_clip_ylo" ++ sfx)
  let clip_yhi ← params.getattr ("lgm0pop_c1_clip_yhi" ++ sfx)
  let clip := Utils.sigmoid t_peak clip_x0 (lit 1.0) clip_ylo clip_yhi
  return jmax pred_c1 clip

/-- logm0_pop_early.py:28-33 (`TP_LGMP` of line 25) and logm0_pop_late.py:28-33, in
bimod_logm0_kernels and in bimod_logm0_sats -/
noncomputable def pred_logm0_kern (sfx : String) (params : NT α) (lgm_obs t_obs t_peak : α) :
    Except PyErr α := do
  let c0 ← pred_c0_kern sfx params t_obs t_peak
  let c1 ← pred_c1_kern sfx params t_obs t_peak
  let delta_lgm := c0 + c1 * (lgm_obs - lit 12.0)
  return lgm_obs + delta_lgm

/-! ## Two-population (bimod) wrappers -/

/-- The steps shared by the bimod wrappers: read the component's unbounded values by name, rebuild
the component's namedtuple, bound it (e.g. logtc_bimod.py:28-32). -/
noncomputable def sub_bounded (c : Component) (u_params : NT α) : Except PyErr (NT α) := do
  let vals ← u_params.getattrs c.upnames
  let cu ← NT.make c.upnames vals
  c.get_bounded cu

/-- The same for unbounding (e.g. logtc_bimod.py:49-51). -/
noncomputable def sub_unbounded (c : Component) (params : NT α) : Except PyErr (NT α) := do
  let vals ← params.getattrs c.fields
  let cp ← NT.make c.fields vals
  c.get_unbounded cp

/-- logtc_bimod.py:10-23: merged dictionaries -/
noncomputable def LOGTC_BIMOD : Component where
  pdict := (NT.update [] LOGTC_EARLY.pdict).update LOGTC_LATE.pdict
  bounds := (NT.update [] LOGTC_EARLY.bounds).update LOGTC_LATE.bounds

/-- logtc_bimod.py:26-41 -/
noncomputable def logtc_bimod_get_bounded (u_params : NT α) : Except PyErr (NT α) := do
  let early_params ← sub_bounded LOGTC_EARLY u_params
  let late_params ← sub_bounded LOGTC_LATE u_params
  NT.make LOGTC_BIMOD.fields (early_params.values ++ late_params.values)

/-- logtc_bimod.py:44-58 -/
noncomputable def logtc_bimod_get_unbounded (params : NT α) : Except PyErr (NT α) := do
  let early_u_params ← sub_unbounded LOGTC_EARLY params
  let late_u_params ← sub_unbounded LOGTC_LATE params
  NT.make LOGTC_BIMOD.upnames (early_u_params.values ++ late_u_params.values)

/-- early_index_bimod.py:10-23 -/
noncomputable def EARLY_INDEX_BIMOD : Component where
  pdict := (NT.update [] EARLY_INDEX_ALPHA.pdict).update EARLY_INDEX_BETA.pdict
  bounds := (NT.update [] EARLY_INDEX_ALPHA.bounds).update EARLY_INDEX_BETA.bounds

/-- early_index_bimod.py:36-53 -/
noncomputable def early_index_bimod_get_bounded (u_params : NT α) : Except PyErr (NT α) := do
  let early_params ← sub_bounded EARLY_INDEX_ALPHA u_params
  let late_params ← sub_bounded EARLY_INDEX_BETA u_params
  NT.make EARLY_INDEX_BIMOD.fields (early_params.values ++ late_params.values)

/-- early_index_bimod.py:56-70 -/
noncomputable def early_index_bimod_get_unbounded (params : NT α) : Except PyErr (NT α) := do
  let early_u_params ← sub_unbounded EARLY_INDEX_ALPHA params
  let late_u_params ← sub_unbounded EARLY_INDEX_BETA params
  NT.make EARLY_INDEX_BIMOD.upnames (early_u_params.values ++ late_u_params.values)

/-- early_index_bimod.py:26-33 -/
noncomputable def pred_early_index_early (params : NT α) (lgm_obs t_obs t_peak : α) :=
  pred_early_index_kern "_alpha" params lgm_obs t_obs t_peak
noncomputable def pred_early_index_late (params : NT α) (lgm_obs t_obs t_peak : α) :=
  pred_early_index_kern "_beta" params lgm_obs t_obs t_peak

/-- late_index_bimod.py:10-23 -/
noncomputable def LATE_INDEX_BIMOD : Component where
  pdict := (NT.update [] LATE_INDEX_ALPHA.pdict).update LATE_INDEX_BETA.pdict
  bounds := (NT.update [] LATE_INDEX_ALPHA.bounds).update LATE_INDEX_BETA.bounds

/-- late_index_bimod.py:26-33 -/
noncomputable def pred_late_index_early (params : NT α) (lgm_obs : α) :=
  pred_late_index_kern "_alpha" params lgm_obs
noncomputable def pred_late_index_late (params : NT α) (lgm_obs : α) :=
  pred_late_index_kern "_beta" params lgm_obs

/-- late_index_bimod.py:36-53. The variable `late_params` of lines 42-43 (alpha) is overwritten on
lines 49-50 (beta), and line 52 uses it twice. -/
noncomputable def late_index_bimod_get_bounded (u_params : NT α) : Except PyErr (NT α) := do
  let _late_params ← sub_bounded LATE_INDEX_ALPHA u_params
  let late_params ← sub_bounded LATE_INDEX_BETA u_params
  NT.make LATE_INDEX_BIMOD.fields (late_params.values ++ late_params.values)

/-- late_index_bimod.py:56-70. `late_pnames` of line 58 is overwritten on line 59; lines 61-63 put
the beta values in an alpha namedtuple; line 69 uses the result of line 67 twice. -/
noncomputable def late_index_bimod_get_unbounded (params : NT α) : Except PyErr (NT α) := do
  let vals ← params.getattrs LATE_INDEX_BETA.fields
  let alpha ← NT.make LATE_INDEX_ALPHA.fields vals
  let _late_u_params ← LATE_INDEX_ALPHA.get_unbounded alpha
  let late_u_params ← sub_unbounded LATE_INDEX_BETA params
  NT.make LATE_INDEX_BIMOD.upnames (late_u_params.values ++ late_u_params.values)

/-- bimod_logm0_kernels/logm0_pop_early.py:10-23 (with `c0`, `c1` the early components);
logm0_pop_late.py and the two files of bimod_logm0_sats are copies -/
noncomputable def M0POP (c0 c1 : Component) : Component where
  pdict := (NT.update [] c0.pdict).update c1.pdict
  bounds := (NT.update [] c0.bounds).update c1.bounds

/-- bimod_logm0_kernels/logm0_pop_early.py:36-47 (`get_bounded_m0pop_params`); the same in
logm0_pop_late.py:36-47 and in bimod_logm0_sats -/
noncomputable def m0pop_get_bounded (c0 c1 : Component) (u_params : NT α) : Except PyErr (NT α) := do
  let c0_params ← sub_bounded c0 u_params
  let c1_params ← sub_bounded c1 u_params
  NT.make (M0POP c0 c1).fields (c0_params.values ++ c1_params.values)

/-- bimod_logm0_kernels/logm0_pop_early.py:50-64 (`get_unbounded_m0pop_params`); the same in
logm0_pop_late.py:50-64 and in bimod_logm0_sats -/
noncomputable def m0pop_get_unbounded (c0 c1 : Component) (params : NT α) : Except PyErr (NT α) := do
  let c0_u_params ← sub_unbounded c0 params
  let c1_u_params ← sub_unbounded c1 params
  NT.make (M0POP c0 c1).upnames (c0_u_params.values ++ c1_u_params.values)

/-- bimod_logm0_kernels/logm0_pop_bimod.py:17-30, through logm0_pop_early.py:10-23 and
logm0_pop_late.py:10-23 -/
noncomputable def LOGM0_BIMOD : Component where
  pdict :=
    (NT.update [] ((NT.update [] LGM0_C0_EARLY.pdict).update LGM0_C1_EARLY.pdict)).update
      ((NT.update [] LGM0_C0_LATE.pdict).update LGM0_C1_LATE.pdict)
  bounds :=
    (NT.update [] ((NT.update [] LGM0_C0_EARLY.bounds).update LGM0_C1_EARLY.bounds)).update
      ((NT.update [] LGM0_C0_LATE.bounds).update LGM0_C1_LATE.bounds)

/-- bimod_logm0_kernels/logm0_pop_bimod.py:33-54 -/
noncomputable def logm0_bimod_get_bounded (u_params : NT α) : Except PyErr (NT α) := do
  let c0_early ← sub_bounded LGM0_C0_EARLY u_params
  let c1_early ← sub_bounded LGM0_C1_EARLY u_params
  let c0_late ← sub_bounded LGM0_C0_LATE u_params
  let c1_late ← sub_bounded LGM0_C1_LATE u_params
  NT.make LOGM0_BIMOD.fields (c0_early.values ++ c1_early.values ++ c0_late.values ++ c1_late.values)

/-- bimod_logm0_kernels/logm0_pop_bimod.py:57-84 -/
noncomputable def logm0_bimod_get_unbounded (params : NT α) : Except PyErr (NT α) := do
  let c0_early ← sub_unbounded LGM0_C0_EARLY params
  let c1_early ← sub_unbounded LGM0_C1_EARLY params
  let c0_late ← sub_unbounded LGM0_C0_LATE params
  let c1_late ← sub_unbounded LGM0_C1_LATE params
  NT.make LOGM0_BIMOD.upnames (c0_early.values ++ c1_early.values ++ c0_late.values ++ c1_late.values)

/-- bimod_logm0_sats/logm0_pop_bimod_sats.py:17-30 -/
noncomputable def LOGM0_BIMOD_SATS : Component where
  pdict :=
    (NT.update [] ((NT.update [] LGM0_C0_EARLY_SATS.pdict).update LGM0_C1_EARLY_SATS.pdict)).update
      ((NT.update [] LGM0_C0_LATE_SATS.pdict).update LGM0_C1_LATE_SATS.pdict)
  bounds :=
    (NT.update [] ((NT.update [] LGM0_C0_EARLY_SATS.bounds).update LGM0_C1_EARLY_SATS.bounds)).update
      ((NT.update [] LGM0_C0_LATE_SATS.bounds).update LGM0_C1_LATE_SATS.bounds)

/-- bimod_logm0_sats/logm0_pop_bimod_sats.py:33-54 -/
noncomputable def logm0_bimod_sats_get_bounded (u_params : NT α) : Except PyErr (NT α) := do
  let c0_early ← sub_bounded LGM0_C0_EARLY_SATS u_params
  let c1_early ← sub_bounded LGM0_C1_EARLY_SATS u_params
  let c0_late ← sub_bounded LGM0_C0_LATE_SATS u_params
  let c1_late ← sub_bounded LGM0_C1_LATE_SATS u_params
  NT.make LOGM0_BIMOD_SATS.fields
    (c0_early.values ++ c1_early.values ++ c0_late.values ++ c1_late.values)

/-- bimod_logm0_sats/logm0_pop_bimod_sats.py:57-84 -/
noncomputable def logm0_bimod_sats_get_unbounded (params : NT α) : Except PyErr (NT α) := do
  let c0_early ← sub_unbounded LGM0_C0_EARLY_SATS params
  let c1_early ← sub_unbounded LGM0_C1_EARLY_SATS params
  let c0_late ← sub_unbounded LGM0_C0_LATE_SATS params
  let c1_late ← sub_unbounded LGM0_C1_LATE_SATS params
  NT.make LOGM0_BIMOD_SATS.upnames
    (c0_early.values ++ c1_early.values ++ c0_late.values ++ c1_late.values)

/-- bimod_logm0_kernels/logm0_pop_bimod.py:87-94 -/
noncomputable def pred_logm0_kern_early (params : NT α) (lgm_obs t_obs t_peak : α) :=
  pred_logm0_kern "_early" params lgm_obs t_obs t_peak
noncomputable def pred_logm0_kern_late (params : NT α) (lgm_obs t_obs t_peak : α) :=
  pred_logm0_kern "_late" params lgm_obs t_obs t_peak

/-- bimod_logm0_sats/logm0_pop_bimod_sats.py:87-94 -/
noncomputable def pred_logm0_kern_early_sats (params : NT α) (lgm_obs t_obs t_peak : α) :=
  pred_logm0_kern "_early_sats" params lgm_obs t_obs t_peak
noncomputable def pred_logm0_kern_late_sats (params : NT α) (lgm_obs t_obs t_peak : α) :=
  pred_logm0_kern "_late_sats" params lgm_obs t_obs t_peak

end Pop

end Diffmah

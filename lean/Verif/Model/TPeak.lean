import Verif.Model.Pop
import Verif.Model.Random

/-!
# Model of `/repo/diffmah/diffmahpop_kernels/t_peak_kernels`

Modelled files: utp_pdf_kernels.py, tp_pdf_sats.py, tp_pdf_cens_flex.py, tp_pdf_cens.py.
`jax.scipy.stats.truncnorm` is external: its `cdf` and `pdf` are parameters.
-/

namespace Diffmah

open JOps

namespace TPeak

open Pop

/-! ## JAX table functions -/

/-- `jnp.linspace(start, stop, num)` for `num >= 2` (utp_pdf_kernels.py:49, tp_pdf_cens_flex.py:50) -/
noncomputable def linspace (start stop : ℝ) (num : ℕ) : List ℝ :=
  (List.range num).map fun (i : ℕ) => start + (i : ℝ) * ((stop - start) / ((num : ℝ) - 1))

open Classical in
/-- `jnp.interp(x, xp, fp)` for tables of equal length `>= 2` (utp_pdf_kernels.py:52,
tp_pdf_cens_flex.py:73): locate `x` with `searchsorted(xp, x, side="right")`, clip the index to
`[1, n-1]`, interpolate linearly unless the interval is at most `eps` wide, and hold the end values
constant outside. `eps` is `np.spacing(np.finfo(xp.dtype).eps)`. -/
noncomputable def interp (eps x : ℝ) (xp fp : List ℝ) : ℝ :=
  let n := xp.length
  let c := (xp.filter fun a => decide (a ≤ x)).length
  let i := min (max c 1) (n - 1)
  let df := fp.getD i 0 - fp.getD (i - 1) 0
  let dx := xp.getD i 0 - xp.getD (i - 1) 0
  let delta := x - xp.getD (i - 1) 0
  let f := if |dx| ≤ eps then fp.getD (i - 1) 0 else fp.getD (i - 1) 0 + delta / dx * df
  let f := if x < xp.getD 0 0 then fp.getD 0 0 else f
  if x > xp.getD (n - 1) 0 then fp.getD (n - 1) 0 else f

/-- External numerics: the tolerance of `jnp.interp` and the truncated normal distribution
(arguments `x, a, b, loc, scale`). -/
structure Ext where
  interp_eps : ℝ
  truncnorm_cdf : ℝ → ℝ → ℝ → ℝ → ℝ → ℝ
  truncnorm_pdf : ℝ → ℝ → ℝ → ℝ → ℝ → ℝ

/-- What the documentation of these functions promises: a non-negative tolerance, and a truncated
normal distribution function that is non-decreasing and goes from 0 at the lower truncation point
`loc + a scale` to 1 at the upper one `loc + b scale`. -/
structure Ext.Lawful (e : Ext) : Prop where
  eps_nonneg : 0 ≤ e.interp_eps
  cdf_mono : ∀ a b loc scale, 0 < scale → ∀ x y, x ≤ y →
    e.truncnorm_cdf x a b loc scale ≤ e.truncnorm_cdf y a b loc scale
  cdf_lower : ∀ a b loc scale, 0 < scale → a < b → e.truncnorm_cdf (loc + a * scale) a b loc scale = 0
  cdf_upper : ∀ a b loc scale, 0 < scale → a < b → e.truncnorm_cdf (loc + b * scale) a b loc scale = 1

/-! ## tp_pdf_cens_flex.py -/

/-- tp_pdf_cens_flex.py:24-43 -/
noncomputable def TPCENS : Component where
  pdict := [
    ("cen_tp_lgm_x0_x0", 11.010), ("cen_tp_t_obs_x0_x0", 3.798), ("cen_tp_x0_ylo_early", 0.99),
    ("cen_tp_x0_yhi_early", 1.750), ("cen_tp_x0_ylo_late", 0.690), ("cen_tp_x0_yhi_late", 1.351)]
  bounds := [
    ("cen_tp_lgm_x0_x0", (11.0, 14.0)), ("cen_tp_t_obs_x0_x0", (3.0, 10.0)),
    ("cen_tp_x0_ylo_early", (0.5, 1.0)), ("cen_tp_x0_yhi_early", (1.0, 1.8)),
    ("cen_tp_x0_ylo_late", (0.5, 1.0)), ("cen_tp_x0_yhi_late", (1.0, 1.8))]

/-- tp_pdf_cens_flex.py:22 -/
noncomputable def UTP_MIN : ℝ := 0.05

/-- tp_pdf_cens_flex.py:50 -/
noncomputable def UTP_TABLE : List ℝ := linspace 0.0 1.0 200

section Generic
variable {α : Type} [Add α] [Sub α] [Mul α] [Div α] [JOps α]

/-- tp_pdf_cens_flex.py:83-102, constants of lines 17-18 -/
noncomputable def get_utp_x0_from_lgm (params : NT α) (lgm t_obs : α) : Except PyErr α := do
  let lgm_x0 ← params.getattr "cen_tp_lgm_x0_x0"
  let ylo_early ← params.getattr "cen_tp_x0_ylo_early"
  let yhi_early ← params.getattr "cen_tp_x0_yhi_early"
  let utp_x0_early := Utils.sigmoid lgm lgm_x0 (lit 1.0) ylo_early yhi_early
  let ylo_late ← params.getattr "cen_tp_x0_ylo_late"
  let yhi_late ← params.getattr "cen_tp_x0_yhi_late"
  let utp_x0_late := Utils.sigmoid lgm lgm_x0 (lit 1.0) ylo_late yhi_late
  let t_obs_x0 ← params.getattr "cen_tp_t_obs_x0_x0"
  return Utils.sigmoid t_obs t_obs_x0 (lit 2.0) utp_x0_early utp_x0_late

/-- tp_pdf_cens_flex.py:105-108 for an array `utp`; `K`, `YLO`, `YHI` of lines 14-16 -/
noncomputable def frac_peaked_vs_lgm (params : NT α) (utp : List α) (lgm t_obs : α) :
    Except PyErr (List α) := do
  let utp_x0 ← get_utp_x0_from_lgm params lgm t_obs
  return utp.map fun x => Utils.sigmoid x utp_x0 (lit 5.0) (lit 0.0) (lit 1.0)

end Generic

variable (ext : Ext) (rng : Rng)

/-- tp_pdf_cens_flex.py:69-75 -/
noncomputable def mc_utp_singlecen (params : NT ℝ) (lgm_obs t_obs : ℝ) (ran_key : Key) : RandM ℝ := do
  let fp_table ← RandM.lift (frac_peaked_vs_lgm params UTP_TABLE lgm_obs t_obs)
  let uran ← RandM.draw ran_key (rng.uniform ran_key)
  let utp := interp ext.interp_eps uran fp_table UTP_TABLE
  return max utp UTP_MIN

/-- tp_pdf_cens_flex.py:53-56 -/
noncomputable def mc_tpeak_singlecen (params : NT ℝ) (lgm_obs t_obs : ℝ) (ran_key : Key) (t_0 : ℝ) :
    RandM ℝ := do
  let utp ← mc_utp_singlecen ext rng params lgm_obs t_obs ran_key
  return utp * t_0

/-- tp_pdf_cens_flex.py:59-66 -/
noncomputable def mc_t_peak_cenpop (params : NT ℝ) (lgm_obs t_obs : List ℝ) (ran_key : Key) (t_0 : ℝ) :
    RandM (List ℝ) := do
  let ran_keys := ran_key.split lgm_obs.length
  if t_obs.length = lgm_obs.length then
    RandM.all ((List.range lgm_obs.length).map fun i =>
      mc_tpeak_singlecen ext rng params (lgm_obs.getD i 0) (t_obs.getD i 0)
        (ran_keys.getD i ran_key) t_0)
  else .error .valueError

/-! ## utp_pdf_kernels.py -/

/-- utp_pdf_kernels.py:16-18 -/
noncomputable def X_MIN : ℝ := 0.1
noncomputable def X_MAX : ℝ := 1.0
noncomputable def UTP_EPS : ℝ := 1e-4
def NPTS_CDF_TABLE : ℕ := 50

/-- utp_pdf_kernels.py:21-35 -/
noncomputable def UTP : Component where
  pdict := [("utp_loc", 0.5), ("utp_scale", 0.5)]
  bounds := [("utp_loc", (X_MIN + UTP_EPS, X_MAX - UTP_EPS)), ("utp_scale", (0.0 + UTP_EPS, 1.0))]

/-- utp_pdf_kernels.py:66-78 for an array `x` -/
noncomputable def tp_cdf_kern (x : List ℝ) (loc scale : ℝ) : List ℝ :=
  let a := (X_MIN - loc) / scale
  let b := (X_MAX - loc) / scale
  x.map fun x => ext.truncnorm_cdf x a b loc scale

/-- utp_pdf_kernels.py:66-71 and 81-85 for an array `x` -/
noncomputable def tp_pdf_kern (x : List ℝ) (loc scale : ℝ) : List ℝ :=
  let a := (X_MIN - loc) / scale
  let b := (X_MAX - loc) / scale
  x.map fun x => ext.truncnorm_pdf x a b loc scale

/-- utp_pdf_kernels.py:44-53 -/
noncomputable def mc_tp_pdf_singlesat (ran_key : Key) (loc scale : ℝ) : RandM ℝ := do
  let x_min := max (loc - 4 * scale) (X_MIN + UTP_EPS)
  let x_max := min (loc + 4 * scale) (X_MAX - UTP_EPS)
  let x_cdf_table := linspace x_min x_max NPTS_CDF_TABLE
  let cdf_table := tp_cdf_kern ext x_cdf_table loc scale
  let u_ran ← RandM.draw ran_key (rng.uniform ran_key)
  return interp ext.interp_eps u_ran cdf_table x_cdf_table

/-- utp_pdf_kernels.py:56-63: one key per satellite -/
noncomputable def mc_tp_pdf_satpop (ran_key : Key) (loc scale : List ℝ) : RandM (List ℝ) := do
  let ran_keys := ran_key.split loc.length
  if scale.length = loc.length then
    RandM.all ((List.range loc.length).map fun i =>
      mc_tp_pdf_singlesat ext rng (ran_keys.getD i ran_key) (loc.getD i 0) (scale.getD i 0))
  else .error .valueError

/-! ## tp_pdf_sats.py -/

/-- tp_pdf_sats.py:22-43 -/
noncomputable def TPSATS : Component where
  pdict := [
    ("utp_loc_lgm_ylo_t0", 8.779), ("utp_loc_lgm_ylo_early", 0.797), ("utp_loc_lgm_ylo_late", 0.160),
    ("utp_loc_lgm_x0", 12.967), ("utp_scale_lgm_ylo_t0", 6.623), ("utp_scale_lgm_ylo_early", 0.105),
    ("utp_scale_lgm_ylo_late", 0.334)]
  bounds := [
    ("utp_loc_lgm_ylo_t0", (5.0, 10.0)), ("utp_loc_lgm_ylo_early", (0.4, 0.8)),
    ("utp_loc_lgm_ylo_late", (0.15, 0.25)), ("utp_loc_lgm_x0", (11.0, 13.0)),
    ("utp_scale_lgm_ylo_t0", (6.0, 11.0)), ("utp_scale_lgm_ylo_early", (0.1, 0.5)),
    ("utp_scale_lgm_ylo_late", (0.1, 0.6))]

section Generic
variable {α : Type} [Add α] [Sub α] [Mul α] [Div α] [JOps α]

/-- tp_pdf_sats.py:84-93, `UTP_LOC_TOBS_K` of line 15 -/
noncomputable def get_utp_loc_lgm_ylo (params : NT α) (t_obs : α) : Except PyErr α := do
  let t0 ← params.getattr "utp_loc_lgm_ylo_t0"
  let early ← params.getattr "utp_loc_lgm_ylo_early"
  let late ← params.getattr "utp_loc_lgm_ylo_late"
  return Utils.sigmoid t_obs t0 (lit 0.4) early late

/-- tp_pdf_sats.py:75-81, constants of lines 13-14 -/
noncomputable def get_utp_loc (params : NT α) (lgm_obs t_obs : α) : Except PyErr α := do
  let ylo ← get_utp_loc_lgm_ylo params t_obs
  let x0 ← params.getattr "utp_loc_lgm_x0"
  return Utils.sigmoid lgm_obs x0 (lit 1.5) ylo (lit 0.95)

/-- tp_pdf_sats.py:109-118, `UTP_SCALE_TOBS_K` of line 18 -/
noncomputable def get_utp_scale_lgm_ylo (params : NT α) (t_obs : α) : Except PyErr α := do
  let t0 ← params.getattr "utp_scale_lgm_ylo_t0"
  let early ← params.getattr "utp_scale_lgm_ylo_early"
  let late ← params.getattr "utp_scale_lgm_ylo_late"
  return Utils.sigmoid t_obs t0 (lit 1.0) early late

/-- tp_pdf_sats.py:96-106, constants of lines 16-17 and 19 -/
noncomputable def get_utp_scale (params : NT α) (lgm_obs t_obs : α) : Except PyErr α := do
  let ylo ← get_utp_scale_lgm_ylo params t_obs
  return Utils.sigmoid lgm_obs (lit 12.0) (lit 1.0) ylo (lit 0.16)

end Generic

/-- tp_pdf_sats.py:65-72 -/
noncomputable def mc_tpeak_singlesat (params : NT ℝ) (ran_key : Key) (lgm_obs t_obs : ℝ) : RandM ℝ := do
  let utp_loc ← RandM.lift (get_utp_loc params lgm_obs t_obs)
  let utp_scale ← RandM.lift (get_utp_scale params lgm_obs t_obs)
  let utp ← mc_tp_pdf_singlesat ext rng ran_key utp_loc utp_scale
  return utp * t_obs

/-- tp_pdf_sats.py:49-55: `_get_utp_loc` and `_get_utp_scale` act on arrays entry by entry, which
must have the same size. -/
noncomputable def mc_utp_pdf (params : NT ℝ) (ran_key : Key) (lgmparr tobsarr : List ℝ) :
    RandM (List ℝ) := do
  if tobsarr.length = lgmparr.length then
    let utp_loc ← RandM.lift ((lgmparr.zip tobsarr).mapM fun q => get_utp_loc params q.1 q.2)
    let utp_scale ← RandM.lift ((lgmparr.zip tobsarr).mapM fun q => get_utp_scale params q.1 q.2)
    mc_tp_pdf_satpop ext rng ran_key utp_loc utp_scale
  else .error .typeError

/-- tp_pdf_sats.py:58-62 -/
noncomputable def mc_tpeak_sats (params : NT ℝ) (ran_key : Key) (lgmparr tobsarr : List ℝ) :
    RandM (List ℝ) := do
  let utp ← mc_utp_pdf ext rng params ran_key lgmparr tobsarr
  return List.zipWith (· * ·) utp tobsarr

/-! ## tp_pdf_cens.py -/

/-- tp_pdf_cens.py:16-37 -/
noncomputable def TPCENS_OLD : Component where
  pdict := [
    ("tpck_scale_boost_early", 0.314), ("tpck_scale_mh_lo", 0.469), ("tpck_scale_mh_hi", 0.292)]
  bounds := [
    ("tpck_scale_boost_early", (0.01, 0.9)), ("tpck_scale_mh_lo", (0.1, 0.9)),
    ("tpck_scale_mh_hi", (0.1, 0.9))]

/-- tp_pdf_cens.py:42-46 and 49-54; constants of lines 14 and 28 -/
noncomputable def get_truncnorm_scale_boost (params : NT ℝ) (t_obs t_0 : ℝ) : Except PyErr ℝ := do
  let early ← params.getattr "tpck_scale_boost_early"
  return Utils.sigmoid t_obs (t_0 / 2.0) 1.0 early 0.0
noncomputable def get_truncnorm_scale (params : NT ℝ) (lgm : ℝ) : Except PyErr ℝ := do
  let lo ← params.getattr "tpck_scale_mh_lo"
  let hi ← params.getattr "tpck_scale_mh_hi"
  return Utils.sigmoid lgm 12.5 2.0 lo hi

/-- tp_pdf_cens.py:29 -/
noncomputable def DEFAULT_TRUNCNORM_LOC : ℝ := 0.95

/-- tp_pdf_cens.py:118-122 -/
noncomputable def t_peak_cens_pdf_kern (loc scale : ℝ) (t_peak : List ℝ) (t_0 : ℝ) : List ℝ :=
  (tp_pdf_kern ext (t_peak.map (· / t_0)) loc scale).map (· / t_0)

/-- tp_pdf_cens.py:125-129 -/
noncomputable def t_peak_cens_cdf_kern (loc scale : ℝ) (t_peak : List ℝ) (t_0 : ℝ) : List ℝ :=
  (tp_cdf_kern ext (t_peak.map (· / t_0)) loc scale).map (· / t_0)

/-- tp_pdf_cens.py:94-101 -/
noncomputable def t_peak_cen_cdf_singlehalo_kern (params : NT ℝ) (lgm_obs t_obs : ℝ) (t_peak : List ℝ)
    (t_0 : ℝ) : Except PyErr (List ℝ) := do
  let scale_t0 ← get_truncnorm_scale params lgm_obs
  let boost ← get_truncnorm_scale_boost params t_obs t_0
  return t_peak_cens_cdf_kern ext DEFAULT_TRUNCNORM_LOC (scale_t0 + boost) t_peak t_0

/-- tp_pdf_cens.py:84-91 -/
noncomputable def t_peak_cen_pdf_singlehalo_kern (params : NT ℝ) (lgm_obs t_obs : ℝ) (t_peak : List ℝ)
    (t_0 : ℝ) : Except PyErr (List ℝ) := do
  let scale_t0 ← get_truncnorm_scale params lgm_obs
  let boost ← get_truncnorm_scale_boost params t_obs t_0
  return t_peak_cens_pdf_kern ext DEFAULT_TRUNCNORM_LOC (scale_t0 + boost) t_peak t_0

/-- tp_pdf_cens.py:66-81 -/
noncomputable def old_mc_tpeak_singlecen (params : NT ℝ) (ran_key : Key) (lgm_obs t_obs t_0 : ℝ) :
    RandM ℝ := do
  let scale_t0 ← RandM.lift (get_truncnorm_scale params lgm_obs)
  let boost ← RandM.lift (get_truncnorm_scale_boost params t_obs t_0)
  let scale := scale_t0 + boost
  let loc := 0.0 * scale + DEFAULT_TRUNCNORM_LOC
  let utp ← mc_tp_pdf_singlesat ext rng ran_key loc scale
  return utp * t_0

/-- tp_pdf_cens.py:57-63, with `_get_singlepdf_params` (lines 75-81) entry by entry -/
noncomputable def old_mc_tpeak_cens (params : NT ℝ) (ran_key : Key) (lgmparr tobsarr : List ℝ)
    (t_0 : ℝ) : RandM (List ℝ) := do
  if tobsarr.length = lgmparr.length then
    let utp_scale ← RandM.lift ((lgmparr.zip tobsarr).mapM fun q => do
      let scale_t0 ← get_truncnorm_scale params q.1
      let boost ← get_truncnorm_scale_boost params q.2 t_0
      return scale_t0 + boost)
    let utp_loc := utp_scale.map fun scale => 0.0 * scale + DEFAULT_TRUNCNORM_LOC
    let utp ← mc_tp_pdf_satpop ext rng ran_key utp_loc utp_scale
    return utp.map fun x => x * t_0
  else .error .typeError

end TPeak

end Diffmah

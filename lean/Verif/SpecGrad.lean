import Verif.Model.PopGrad
import Verif.Spec
import Verif.Lemmas.Dual

/-!
# Specification of gradients of the population losses

What a gradient is, what is assumed of JAX's derivative rules for the external functions, and where the
losses are not differentiable.
-/

namespace Diffmah

open JOps JMinMax JFlow

/-- What is assumed of JAX's rules for the external functions: on dual numbers they have the same values,
and tangents that are derivatives wherever the covariance matrix is positive definite and the argument
of the distribution function lies strictly between the truncation points. -/
structure Env.Differentiates (E : Env ℝ) (ED : Env Dual) : Prop where
  uniform : ∀ k, ED.uniform k = E.uniform k
  eps : ED.interp_eps = E.interp_eps
  mvn_value : ∀ k a b c d s, (ED.mvn k [a, b, c, d] s).map Dual.v =
    E.mvn k [a.v, b.v, c.v, d.v] fun i j => (s i j).v
  mvn_length : ∀ k a b c d s, (E.mvn k [a, b, c, d] s).length = 4
  mvn_deriv : ∀ (k : Key) (a b c d : ℝ → ℝ) (A B C D : Dual) (s : Fin 4 → Fin 4 → ℝ → ℝ)
    (S : Fin 4 → Fin 4 → Dual) (x : ℝ), IsAD a x A → IsAD b x B → IsAD c x C → IsAD d x D →
    (∀ i j, IsAD (s i j) x (S i j)) → (Matrix.of fun i j => s i j x).PosDef → ∀ n < 4,
    HasDerivAt (fun y => (E.mvn k [a y, b y, c y, d y] fun i j => s i j y).getD n 0)
      ((ED.mvn k [A, B, C, D] S).getD n (Dual.const 0)).d x
  cdf_value : ∀ x a b l s, (ED.truncnorm_cdf x a b l s).v = E.truncnorm_cdf x.v a.v b.v l.v s.v
  cdf_deriv : ∀ (t a b l s : ℝ → ℝ) (T A B L S : Dual) (x : ℝ), IsAD t x T → IsAD a x A → IsAD b x B →
    IsAD l x L → IsAD s x S → 0 < s x → l x + a x * s x < t x → t x < l x + b x * s x →
    HasDerivAt (fun y => E.truncnorm_cdf (t y) (a y) (b y) (l y) (s y)) (ED.truncnorm_cdf T A B L S).d x

namespace PopGrad

open Pop TPeak PopParams MC

/-- The named tuple with entry number `i` set to `y`. -/
def setAt (p : NT ℝ) (i : ℕ) (y : ℝ) : NT ℝ := p.mapIdx fun j kv => (kv.1, if j = i then y else kv.2)

/-- `g` is the gradient of `f` at `p`: it has the fields of `p`, and entry `i` is the partial derivative
of `f` with respect to entry `i` of `p`, all other entries fixed. -/
def IsGradient (f : NT ℝ → RandM ℝ) (p g : NT ℝ) : Prop :=
  g.fields = p.fields ∧ ∀ i < p.length, ∃ h : ℝ → ℝ, (∀ y, (f (setAt p i y)).val? = some (h y)) ∧
    HasDerivAt h (g.values.getD i 0) (p.values.getD i 0)

/-- The correlations, and their places in the covariance matrix of the unbounded parameters
`(logm0, logtc, early, late)`. -/
def RHO_AT : List (Fin 4 × Fin 4 × String) := [(1, 0, "rho_logtc_logm0"), (2, 0, "rho_early_logm0"),
  (2, 1, "rho_early_logtc"), (3, 0, "rho_late_logm0"), (3, 1, "rho_late_logtc"), (3, 2, "rho_late_early")]

/-! ## Ties

The losses clip, take maxima and look values up in tables. A tie is an argument at the edge of such a
choice. -/

section Raw
variable {α : Type} [Add α] [Sub α] [Mul α] [Div α] [JOps α] [JMinMax α]

/-- early_index_alpha.py:44-66: the early index before it is clipped -/
noncomputable def early_index_raw (sfx : String) (params : NT α) (lgm_obs t_obs t_peak : α) :
    Except PyErr α := do
  let ylo_x0 ← params.getattr ("early_index_ylo_x0" ++ sfx)
  let ylo_ylo ← params.getattr ("early_index_ylo_ylo" ++ sfx)
  let ylo_yhi ← params.getattr ("early_index_ylo_yhi" ++ sfx)
  let early_index_ylo := get_early_index_ylo ylo_x0 ylo_ylo ylo_yhi t_peak
  let yhi_x0 ← params.getattr ("early_index_yhi_x0" ++ sfx)
  let yhi_ylo ← params.getattr ("early_index_yhi_ylo" ++ sfx)
  let yhi_yhi ← params.getattr ("early_index_yhi_yhi" ++ sfx)
  let early_index_yhi := get_early_index_yhi yhi_x0 yhi_ylo yhi_yhi t_obs
  let lgm_x0 ← params.getattr ("early_index_lgm_x0" ++ sfx)
  return Utils.sigmoid lgm_obs lgm_x0 (lit 1.0) early_index_ylo early_index_yhi

/-- late_index_alpha.py:33-43: the late index before it is clipped -/
noncomputable def late_index_raw (sfx : String) (params : NT α) (lgm_obs : α) : Except PyErr α := do
  let x0 ← params.getattr ("late_index_x0" ++ sfx)
  let ylo ← params.getattr ("late_index_ylo" ++ sfx)
  let yhi ← params.getattr ("late_index_yhi" ++ sfx)
  return Utils.sigmoid lgm_obs x0 (lit 1.0) ylo yhi

/-- logtc_early.py:41-46: the transition time before it is clipped -/
noncomputable def logtc_raw (sfx : String) (params : NT α) (lgm_obs t_obs t_peak : α) : Except PyErr α := do
  let lgm_c0 ← logtc_get_c0 sfx params t_peak t_obs
  let lgm_c1 ← params.getattr ("logtc_lgm_c1" ++ sfx)
  return lgm_c0 + lgm_c1 * (lgm_obs - lit 12.0)

/-- logm0_c0_early.py:40-52: the two numbers of which the larger is taken -/
noncomputable def c0_raw (sfx : String) (params : NT α) (t_obs t_peak : α) : Except PyErr (α × α) := do
  let ytp ← params.getattr ("lgm0pop_c0_ytp" ++ sfx)
  let x0 ← params.getattr ("lgm0pop_c0_t_obs_x0" ++ sfx)
  let ylo ← params.getattr ("lgm0pop_c0_ylo" ++ sfx)
  let pred_c0 := Utils.sig_slope t_obs (lit 15) ytp x0 (lit 0.25) ylo (lit 0.0)
  let clip_c0 ← params.getattr ("lgm0pop_c0_clip_c0" ++ sfx)
  let clip_c1 ← params.getattr ("lgm0pop_c0_clip_c1" ++ sfx)
  return (pred_c0, clip_c0 + clip_c1 * t_peak)

/-- logm0_c1_early.py:44-63: the two numbers of which the larger is taken -/
noncomputable def c1_raw (sfx : String) (params : NT α) (t_obs t_peak : α) : Except PyErr (α × α) := do
  let ytp ← params.getattr ("lgm0pop_c1_ytp" ++ sfx)
  let x0 ← params.getattr ("lgm0pop_c1_t_obs_x0" ++ sfx)
  let ylo ← params.getattr ("lgm0pop_c1_ylo" ++ sfx)
  let pred_c1 := Utils.sig_slope t_obs (lit 10.0) ytp x0 (lit 0.25) ylo (lit 0.0)
  let clip_x0 ← params.getattr ("lgm0pop_c1_clip_x0" ++ sfx)
  let clip_ylo ← params.getattr ("lgm0pop_c1_clip_ylo" ++ sfx)
  let clip_yhi ← params.getattr ("lgm0pop_c1_clip_yhi" ++ sfx)
  return (pred_c1, Utils.sigmoid t_peak clip_x0 (lit 1.0) clip_ylo clip_yhi)

end Raw

/-- `jnp.interp` at `x` meets no tie: `x` is no table entry, and the width of the interval it falls in is
not exactly the tolerance. -/
def InterpNoTies (eps x : ℝ) (xp : List ℝ) : Prop :=
  0 ≤ eps ∧ xp ≠ [] ∧ (∀ a ∈ xp, a ≠ x) ∧
    |xp.getD (min (max (countLe x xp) 1) (xp.length - 1)) 0 -
      xp.getD (min (max (countLe x xp) 1) (xp.length - 1) - 1) 0| ≠ eps

/-- The mean parameters at peak time `tp` meet no tie: no index or transition time is exactly at the
edge where it is clipped, and no coefficient of logm0 is exactly equal to its lower limit. -/
structure MeanNoTies (kind : Kind) (c : ComponentParams ℝ) (lgm t_obs tp : ℝ) : Prop where
  early_index : ∀ s ∈ ["_alpha", "_beta"], ∀ r,
    early_index_raw s c.early_index lgm t_obs tp = .ok r → r ≠ 0.101 ∧ r ≠ 9.999
  late_index : ∀ s ∈ ["_alpha", "_beta"], ∀ r,
    late_index_raw s c.late_index lgm = .ok r → r ≠ 0.101 ∧ r ≠ 4.999
  logtc : ∀ s ∈ ["_early", "_late"], ∀ r,
    logtc_raw s c.logtc lgm t_obs tp = .ok r → r ≠ -0.999 ∧ r ≠ 0.999
  logm0_cens : kind = .cens → ∀ s ∈ ["_early", "_late"], ∀ r,
    c0_raw s c.logm0 t_obs tp = .ok r ∨ c1_raw s c.logm0 t_obs tp = .ok r → r.1 ≠ r.2
  logm0_sats : kind = .sats → ∀ s ∈ ["_early_sats", "_late_sats"], ∀ r,
    c0_raw s c.logm0_sats t_obs tp = .ok r ∨ c1_raw s c.logm0_sats t_obs tp = .ok r → r.1 ≠ r.2

/-- The draw of the peak time meets no tie. For a central: the interpolation and the maximum with
`UTP_MIN`. For a satellite: the two limits of the table, the interpolation, and the distribution function
of a positive scale strictly inside the truncation. -/
structure DrawNoTies (ext : Ext) (rng : Rng) (kind : Kind) (c : ComponentParams ℝ) (lgm t_obs : ℝ) (key : Key) :
    Prop where
  cens : kind = .cens → ∀ tab, frac_peaked_vs_lgm c.tp_cens UTP_TABLE lgm t_obs = .ok tab →
    InterpNoTies ext.interp_eps (rng.uniform key) tab ∧
      TPeak.interp ext.interp_eps (rng.uniform key) tab UTP_TABLE ≠ UTP_MIN
  sats : kind = .sats → ∀ loc scale, get_utp_loc c.tp_sats lgm t_obs = .ok loc →
    get_utp_scale c.tp_sats lgm t_obs = .ok scale →
    0 < scale ∧ X_MIN + UTP_EPS < loc ∧ loc < X_MAX - UTP_EPS ∧
      loc - 4 * scale ≠ X_MIN + UTP_EPS ∧ loc + 4 * scale ≠ X_MAX - UTP_EPS ∧
      InterpNoTies ext.interp_eps (rng.uniform key)
        (tp_cdf_kern ext (TPeak.linspace (max (loc - 4 * scale) (X_MIN + UTP_EPS))
          (min (loc + 4 * scale) (X_MAX - UTP_EPS)) NPTS_CDF_TABLE) loc scale)

/-- One halo meets no tie: its peak time can be drawn without one, at that peak time the mean parameters
meet none and are valid, no covariance entry is zero and the matrix is positive definite, and no time is
exactly the peak time (as it is after the round trip through the unbounded parameters). -/
structure HaloNoTies (ext : Ext) (rng : Rng) (kind : Kind) (p : NT ℝ) (tarr : List ℝ) (lgm t_obs : ℝ)
    (key : Key) (lgt0 : ℝ) : Prop where
  draw : ∀ c, get_component_model_params p = .ok c → DrawNoTies ext rng kind c lgm t_obs (Key.child key 2 0)
  mean : ∀ c tp ks, get_component_model_params p = .ok c →
    MC.draw_t_peak ext rng kind p lgm t_obs key lgt0 = .ok (tp, ks) → MeanNoTies kind c lgm t_obs tp
  valid : ∀ tp ks e, MC.draw_t_peak ext rng kind p lgm t_obs key lgt0 = .ok (tp, ks) →
    mean_diffmah_params_early_t_peak kind p lgm t_obs tp = .ok e ∨
    mean_diffmah_params_late_t_peak kind p lgm t_obs tp = .ok e → Spec.Valid e
  cov : ∀ C, Pop.get_diffmahpop_cov p lgm = .ok C → C.PosDef ∧ ∀ i j, C i j ≠ 0
  times : ∀ e l f ks, MC.mc_diffmah_params_single ext rng kind p lgm t_obs key lgt0 none = .ok ((e, l, f), ks) →
    0 < e.t_peak ∧ 0 < l.t_peak ∧ ∀ t ∈ tarr, t ≠ e.t_peak ∧ t ≠ l.t_peak

/-- One bin meets no tie: there is a time, times are positive, no halo meets a tie, and the predicted
standard deviations are positive. -/
structure BinNoTies (ext : Ext) (rng : Rng) (kind : Kind) (p : NT ℝ) (bin : PopLoss.Bin) (key : Key)
    (lgt0 : ℝ) : Prop where
  nonempty : bin.tarr ≠ []
  times : ∀ t ∈ bin.tarr, 0 < t
  halos : ∀ k ∈ key.split NH_PER_M0BIN, HaloNoTies ext rng kind p bin.tarr bin.lgm_obs bin.t_obs k lgt0
  std : ∀ ms, (MC.predict_mah_moments_singlebin ext rng kind p bin.tarr bin.lgm_obs bin.t_obs key lgt0).val? = some ms →
    ∀ m ∈ ms, 0 < m.2.1

/-- The loss meets no tie: there is a bin, and no bin meets a tie. -/
structure LossNoTies (ext : Ext) (rng : Rng) (kind : Kind) (p : NT ℝ) (bins : List PopLoss.Bin) (key : Key)
    (lgt0 : ℝ) : Prop where
  nonempty : bins ≠ []
  bins : ∀ b ∈ bins.zip (key.split bins.length), BinNoTies ext rng kind p b.1 b.2 lgt0

end PopGrad

end Diffmah

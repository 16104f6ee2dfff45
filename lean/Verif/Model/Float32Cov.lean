import Verif.Model.Float32Mean
import Verif.Model.Normal

/-!
# Selections and square roots in single precision

With these the generic code of `Model/PopGrad.lean` and `Model/Normal.lean` runs on binary32 numbers: the covariance matrix of
the population model, its Cholesky factor and the normal numbers scaled with it.

Simplifications: the products with the diagonal matrices in `covariance_from_correlation` (utils.py:220) are taken entry by
entry, the vanishing terms of the sums being exact; in the Cholesky factorisation the products are subtracted one after the
other, in the order of `Model/Normal.lean`, where LAPACK may group them.
-/

namespace Diffmah

namespace XR

/-- `jnp.abs` -/
noncomputable def abs : XR → XR
  | .fin x => .fin |x|
  | .nan => .nan
  | _ => .pinf

end XR

/-- The order in which `jnp.searchsorted` compares: NaN comes after all numbers. -/
def XR.sortLt (a b : XR) : Prop := XR.lt a b ∨ (b = .nan ∧ a ≠ .nan)

open Classical in
/-- One level of the binary search of `jnp.searchsorted` (`method="scan"`, `side="right"`), in the table `xp`: the upper half
is left if the query sorts before its first entry. -/
noncomputable def searchStep (x : F32) (xp : List F32) (s : ℕ × ℕ) : ℕ × ℕ :=
  let mid := (s.1 + s.2) / 2
  if XR.sortLt x.v (xp.getD mid ⟨.nan⟩).v then (s.1, mid) else (mid, s.2)

/-- `jnp.searchsorted(xp, x, side="right")`: `ceil(log2(len(xp) + 1))` levels. The table need not be sorted, as that of a
distribution function computed in single precision may not be. (This is our reading of JAX, whose source was not at hand.) -/
noncomputable def searchsorted (x : F32) (xp : List F32) : ℕ :=
  ((searchStep x xp)^[Nat.clog 2 (xp.length + 1)] (0, xp.length)).2

open Classical in
/-- `jnp.where` with a comparison (covariance_kernels.py:77, diffmah_kernels.py:180), the table lookup of `jnp.interp`
(tp_pdf_cens_flex.py:73, utp_pdf_kernels.py:52) and `jnp.sqrt`, which IEEE 754 requires to be correctly rounded. -/
noncomputable instance : JFlow F32 where
  whereLt a b x y := jwhere (XR.lt a.v b.v) x y
  whereAbsLe a b x y := jwhere (XR.le (XR.abs a.v) b.v) x y
  whereZero a x y := jwhere (a.v = .fin 0) x y
  gather x xp k := k (searchsorted x xp)
  sqrt a := ⟨match a.v with
    | .fin x => if x < 0 then .nan else F32.rd (.fin (Real.sqrt x))
    | .pinf => .pinf
    | _ => .nan⟩

open PopGrad MC in
/-- mc_bimod_cens.py:184-220 and mc_bimod_sats.py:185-220 with a given `t_peak`, in every number system: as
`MC.mc_diffmah_params_single` with `some t_peak` -/
noncomputable def mc_diffmah_params_single_t_peak {α : Type} [Add α] [Sub α] [Mul α] [Div α] [JOps α] [JMinMax α] [JFlow α]
    (E : Env α) (kind : Kind) (params : NT α) (lgm_obs t_obs : α) (ran_key : Key) (t_peak : α) :
    RandM (MahParams α × MahParams α × α) := do
  let res ← RandM.lift (mean_diffmah_params_t_peak kind params lgm_obs t_obs t_peak)
  let cov ← RandM.lift (PopGrad.get_diffmahpop_cov params lgm_obs)
  let early ← PopGrad.scatter E (Key.child ran_key 2 0) res.1 cov
  let late ← PopGrad.scatter E (Key.child ran_key 2 1) res.2.1 cov
  return (early, late, res.2.2)

end Diffmah

import Verif.Model.PopGrad
import Mathlib.Probability.Distributions.Gaussian.Multivariate
import Mathlib.Probability.CDF

/-!
# The normal distributions behind `Rng.mvn` and `Ext`

The other models leave `jran.multivariate_normal` and `jax.scipy.stats.truncnorm` open. Here they are what
JAX documents them to be, in exact arithmetic: the first one scales and shifts independent standard normal
numbers with the Cholesky factor of the covariance, the second one is the distribution function of a
truncated normal. The code calls them at mc_bimod_cens.py:203, 210 and utp_pdf_kernels.py:77, 84.

Simplifications: the standard normal numbers of a key are given (`z`), not computed from its bits; JAX
differentiates `cholesky` with a closed formula, here the factorisation itself runs on dual numbers; the
branches by which JAX avoids cancellation in the logarithm of the truncated distribution are not modelled,
they have the same exact value.
-/

namespace Diffmah

open JOps JFlow ProbabilityTheory

section Generic
variable {α : Type} [Add α] [Sub α] [Mul α] [Div α] [JOps α] [JFlow α]

/-- `jax.lax.linalg.cholesky` symmetrises its input: `(A + A.T) / 2` -/
noncomputable def symmetrize (A : Fin 4 → Fin 4 → α) : Fin 4 → Fin 4 → α :=
  fun i j => (A i j + A j i) / lit 2

/-- The Cholesky factor of a symmetric matrix, read from its lower triangle (mc_bimod_cens.py:203, 210
through `jran.multivariate_normal`): each diagonal entry is the root of what the earlier entries of its row
leave of the diagonal, each entry below it the corresponding quotient; zero above the diagonal. -/
noncomputable def cholesky (A : Fin 4 → Fin 4 → α) : Fin 4 → Fin 4 → α :=
  let l00 := sqrt (A 0 0)
  let l10 := A 1 0 / l00
  let l20 := A 2 0 / l00
  let l30 := A 3 0 / l00
  let l11 := sqrt (A 1 1 - l10 * l10)
  let l21 := (A 2 1 - l20 * l10) / l11
  let l31 := (A 3 1 - l30 * l10) / l11
  let l22 := sqrt (A 2 2 - l20 * l20 - l21 * l21)
  let l32 := (A 3 2 - l30 * l20 - l31 * l21) / l22
  let l33 := sqrt (A 3 3 - l30 * l30 - l31 * l31 - l32 * l32)
  fun i j =>
    match i, j with
    | 0, 0 => l00
    | 1, 0 => l10
    | 1, 1 => l11
    | 2, 0 => l20
    | 2, 1 => l21
    | 2, 2 => l22
    | 3, 0 => l30
    | 3, 1 => l31
    | 3, 2 => l32
    | 3, 3 => l33
    | _, _ => lit 0

/-- `jran.multivariate_normal(key, mean, cov)`, the normal numbers of the key being `z`:
`mean + cholesky(cov) @ z`. Only means of four numbers are used (mc_bimod_cens.py:203, 210). -/
noncomputable def multivariate_normal (z : Fin 4 → ℝ) (mean : List α) (cov : Fin 4 → Fin 4 → α) : List α :=
  match mean with
  | [a, b, c, d] =>
    let L := cholesky (symmetrize cov)
    let row (i : Fin 4) := L i 0 * lit (z 0) + L i 1 * lit (z 1) + L i 2 * lit (z 2) + L i 3 * lit (z 3)
    [a + row 0, b + row 1, c + row 2, d + row 3]
  | m => m

end Generic

/-- The distribution function of the standard normal distribution. -/
noncomputable def ndtr (x : ℝ) : ℝ := cdf (gaussianReal 0 1) x

open Classical in
/-- `truncnorm.cdf(x, a, b, loc, scale)` (utp_pdf_kernels.py:77): with `y = (x - loc) / scale`, one from
`b` on, zero up to `a`, and in between the normal probability of `[a, y]` relative to that of `[a, b]`. -/
noncomputable def truncnorm_cdf (x a b loc scale : ℝ) : ℝ :=
  let y := (x - loc) / scale
  if b ≤ y then 1 else if y ≤ a then 0 else (ndtr y - ndtr a) / (ndtr b - ndtr a)

open Classical in
/-- `truncnorm.pdf(x, a, b, loc, scale)` (utp_pdf_kernels.py:84): the normal density at `y`, divided by the
scale and the normal probability of `[a, b]`; zero outside `[a, b]`. -/
noncomputable def truncnorm_pdf (x a b loc scale : ℝ) : ℝ :=
  let y := (x - loc) / scale
  if y < a ∨ b < y then 0 else gaussianPDFReal 0 1 y / (scale * (ndtr b - ndtr a))

/-- The external numerics, with tolerance `eps` in `jnp.interp`. -/
noncomputable def Ext.normal (eps : ℝ) : TPeak.Ext where
  interp_eps := eps
  truncnorm_cdf := truncnorm_cdf
  truncnorm_pdf := truncnorm_pdf

/-- The generator whose keys have uniform numbers `u`, `us` and standard normal numbers `z`. -/
noncomputable def Rng.normal (u : Key → ℝ) (us : Key → ℕ → List ℝ) (z : Key → Fin 4 → ℝ) : Rng where
  uniform := u
  uniforms := us
  mvn k m C := multivariate_normal (z k) m C

/-- The standard normal distribution function on dual numbers: its derivative is the density. -/
noncomputable def ndtrDual (a : Dual) : Dual := ⟨ndtr a.v, a.d * gaussianPDFReal 0 1 a.v⟩

open Classical in
/-- `truncnorm.cdf` on dual numbers -/
noncomputable def truncnorm_cdfDual (x a b loc scale : Dual) : Dual :=
  let y := (x - loc) / scale
  if b.v ≤ y.v then Dual.const 1 else if y.v ≤ a.v then Dual.const 0
  else (ndtrDual y - ndtrDual a) / (ndtrDual b - ndtrDual a)

/-- The external functions on dual numbers. -/
noncomputable def Env.normalDual (eps : ℝ) (u : Key → ℝ) (z : Key → Fin 4 → ℝ) : Env Dual where
  uniform := u
  mvn k m C := multivariate_normal (z k) m C
  interp_eps := eps
  truncnorm_cdf := truncnorm_cdfDual

end Diffmah

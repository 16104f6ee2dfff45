import Verif.Model.Kernels
import Mathlib.Data.List.Sort
import Mathlib.Data.Matrix.Mul
import Mathlib.Algebra.Order.Floor.Semiring
import Mathlib.Analysis.SpecialFunctions.Sqrt

/-!
# Model of `/repo/diffmah/utils.py`

Arrays of reals are `List ℝ`. Exceptions are values of `PyErr`.
-/

namespace Diffmah

open JOps

/-- Python exceptions raised by the modelled code. -/
inductive PyErr where
  | indexError
  | valueError
  | assertionError
  | typeError
  | keyError
  | attributeError
  | unboundLocalError
  | fileNotFound
  | calledProcess
  | osError
deriving DecidableEq, Repr

namespace Utils

section Generic
variable {α : Type} [Add α] [Sub α] [Mul α] [Div α] [JOps α]

/-- utils.py:28-49 -/
def sigmoid (x x0 k ylo yhi : α) : α := ylo + (yhi - ylo) * sigm (k * (x - x0))

/-- utils.py:52-74 -/
def inverse_sigmoid (y x0 k ylo yhi : α) : α :=
  let lnarg := (yhi - ylo) / (y - ylo) - lit 1
  x0 - ln lnarg / k

/-- utils.py:77-80 -/
def sig_slope (x xtp ytp x0 slope_k lo hi : α) : α :=
  let slope := sigmoid x x0 slope_k lo hi
  ytp + slope * (x - xtp)

end Generic

/-! ### get_1d_arrays -/

/-- `np.zeros(npts) + arr` with NumPy broadcasting of a size-1 array (utils.py:22,24). Only called
with `arr.length ∈ {1, npts}`; other sizes raise before. Dtypes are not modelled. -/
def broadcast1d (npts : ℕ) (arr : List ℝ) : List ℝ :=
  match arr with
  | [a] => List.replicate npts (0 + a)
  | _ => List.zipWith (· + ·) (List.replicate npts 0) arr

/-- utils.py:9-25. Every argument has already been through `atleast_1d` (a scalar is a list of
length one). `max` of no arguments raises `ValueError`. -/
def get_1d_arrays (args : List (List ℝ)) : Except PyErr (List (List ℝ)) :=
  let sizes := args.map List.length
  match sizes.max? with
  | none => .error .valueError
  | some npts =>
    if sizes.all (fun s => s == 1 || s == npts) then
      .ok (args.map (broadcast1d npts))
    else .error .assertionError

/-! ### get_dt_array -/

/-- Loop body of utils.py:101-104; the state is the array `dt` and the variable `tlo`. -/
noncomputable def dt_step (t : List ℝ) (s : List ℝ × ℝ) (i : ℕ) : List ℝ × ℝ :=
  let thi := (t.getD (i + 1) 0 + t.getD i 0) / 2
  (s.1.set i (thi - s.2), thi)

/-- utils.py:83-107. With fewer than two times `t[0]` or `t[1]` raises `IndexError` (line 100). -/
noncomputable def get_dt_array (t : List ℝ) : Except PyErr (List ℝ) :=
  let n := t.length
  if n < 2 then .error .indexError
  else
    let dt := List.replicate n (0 : ℝ)
    let tlo := t.getD 0 0 - (t.getD 1 0 - t.getD 0 0) / 2
    let s := (List.range (n - 1)).foldl (dt_step t) (dt, tlo)
    let thi := t.getD (n - 1) 0 + s.1.getD (n - 2) 0 / 2
    .ok (s.1.set (n - 1) (thi - s.2))

/-! ### get_cholesky_from_params -/

/-- utils.py:130 -/
noncomputable def chol_ndim (nparams : ℕ) : ℕ :=
  ⌊(Real.sqrt (8 * (nparams : ℝ) + 1) - 1) / 2⌋₊

/-- utils.py:132: `jnp.tril(jnp.ones((ndim, ndim)))` -/
def chol_unity (i j : ℕ) : ℕ := if j ≤ i then 1 else 0

/-- utils.py:133: `abs(unity * (eye - 1))` -/
def chol_lunity (i j : ℕ) : ℕ := Int.natAbs ((chol_unity i j : ℤ) * ((if i = j then 1 else 0) - 1))

/-- `jnp.cumsum(lunity)` of the flattened matrix, at flat position `m` (utils.py:134). -/
def chol_cumsum (n m : ℕ) : ℕ :=
  ((List.range (m + 1)).map fun q => chol_lunity (q / n) (q % n)).sum

/-- utils.py:134 -/
def chol_X (n i j : ℕ) : ℕ := (chol_cumsum n (i * n + j) * chol_lunity i j + n) * chol_lunity i j

/-- utils.py:131,135,136. Natural subtraction is exact because the factor `lunity` is zero whenever
`X` is. -/
def chol_indx (n i j : ℕ) : ℕ :=
  (if i = j then i else 0) + (chol_X n i j - 1) * chol_lunity i j

/-- utils.py:111-138, entry `(i, j)`. -/
noncomputable def get_cholesky_from_params (params : List ℝ) (i j : ℕ) : ℝ :=
  let n := chol_ndim params.length
  params.getD (chol_indx n i j) 0 * (chol_unity i j : ℝ)

/-! ### trimmed means -/

/-- Sorting used by `jnp.percentile`. -/
noncomputable def npsort (x : List ℝ) : List ℝ :=
  open Classical in x.mergeSort (fun a b => decide (a ≤ b))

/-- `jnp.percentile(x, 100 q)` with the default linear interpolation: fractional rank
`q (n - 1)`, weights split between the neighbouring order statistics (used at utils.py:158-159).
The array is non-empty. -/
noncomputable def quantile (x : List ℝ) (q : ℝ) : ℝ :=
  let s := npsort x
  let r := q * ((x.length : ℝ) - 1)
  let lo := min ⌊r⌋₊ (x.length - 1)
  let hi := min ⌈r⌉₊ (x.length - 1)
  let w := r - ⌊r⌋₊
  s.getD lo 0 * (1 - w) + s.getD hi 0 * w

/-- `jnp.sum` -/
noncomputable def xsum (l : List XR) : XR := l.foldl (· + ·) (XR.fin 0)

/-- utils.py:160-161: the 0/1 weights of the points strictly inside the percentiles. -/
noncomputable def trim_mask_weights (x : List ℝ) (xlo xhi : ℝ) : List ℝ :=
  x.map fun a => jwhere (xlo < a ∧ a < xhi) 1.0 0.0

/-- utils.py:162: normalised weights; `0/0 = nan` if nothing survives. -/
noncomputable def trim_weights (x : List ℝ) (xlo xhi : ℝ) : List XR :=
  let w := trim_mask_weights x xlo xhi
  w.map fun a => XR.fin a / XR.fin w.sum

/-- utils.py:141-164 -/
noncomputable def trimmed_mean (x : List ℝ) (p_trim : ℝ) : XR :=
  let xlo := quantile x p_trim
  let xhi := quantile x (1 - p_trim)
  let weights := trim_weights x xlo xhi
  xsum (List.zipWith (fun a w => XR.fin a * w) x weights)

/-- utils.py:167-200 -/
noncomputable def trimmed_mean_and_variance (x : List ℝ) (p_trim : ℝ) : XR × XR :=
  let xlo := quantile x p_trim
  let xhi := quantile x (1 - p_trim)
  let weights := trim_weights x xlo xhi
  let mu := xsum (List.zipWith (fun a w => XR.fin a * w) x weights)
  let num_nonzero : ℕ := open Classical in (weights.filter fun w => decide (XR.lt (XR.fin 0) w)).length
  let var_integrand := List.zipWith (fun a w => w * ((XR.fin a - mu) * (XR.fin a - mu))) x weights
  let numerator := xsum var_integrand
  let denominator := (XR.fin num_nonzero - XR.fin 1) / XR.fin num_nonzero
  (mu, numerator / denominator)

/-! ### covariance and correlation -/

/-- utils.py:203-222 -/
def covariance_from_correlation {n : ℕ} (corr : Matrix (Fin n) (Fin n) ℝ) (evals : Fin n → ℝ) :
    Matrix (Fin n) (Fin n) ℝ :=
  Matrix.diagonal evals * corr * Matrix.diagonal evals

/-- `jnp.sqrt`: NaN for negative arguments. -/
noncomputable def xsqrt (r : ℝ) : XR := if r < 0 then XR.nan else XR.fin (Real.sqrt r)

/-- utils.py:225-243 -/
noncomputable def correlation_from_covariance {n : ℕ} (cov : Matrix (Fin n) (Fin n) ℝ)
    (i j : Fin n) : XR :=
  let v := fun a => xsqrt (cov a a)
  let corr := XR.fin (cov i j) / (v i * v j)
  jwhere (cov i j = 0) (XR.fin 0.0) corr

end Utils

end Diffmah

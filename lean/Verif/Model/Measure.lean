import Verif.Model.Fitter

/-!
# Model of `/repo/diffmah/fitting_helpers/measure_mahs.py`

Tables of shape `(n_halos, n_times)` are lists of rows; `n_t` is the number of columns. The SciPy
functions `trimmed_mean` and `trimmed_std` and `np.interp` are modelled from their documentation and
source; they are not part of the repository.
-/

namespace Diffmah.Measure

open JOps Diffmah.Utils Diffmah.Fit

/-- `np.abs` -/
def xabs : XR → XR
  | .fin a => .fin |a|
  | .nan => .nan
  | _ => .pinf

/-- `np.sqrt` -/
noncomputable def sqrt : XR → XR
  | .fin a => xsqrt a
  | .pinf => .pinf
  | _ => .nan

/-- `np.std` of a one-dimensional array -/
noncomputable def npstd (l : List XR) : XR :=
  sqrt (jmean (l.map fun a => (a - jmean l) * (a - jmean l)))

/-! ## get_clean_sample_mask -/

/-- The entries kept by `scipy.stats.mstats.trimr` with inclusive relative limits `(lim, lim)`,
`0 <= lim < 1/2`: sorted, without the `int(lim * n)` smallest and largest. -/
noncomputable def trimr (x : List ℝ) (lim : ℝ) : List ℝ :=
  let k := ⌊lim * (x.length : ℝ)⌋₊
  ((npsort x).take (x.length - k)).drop k

/-- `scipy.stats.mstats.trimmed_mean(x, limits=(lim, lim))`, measure_mahs.py:32 -/
noncomputable def trimmed_mean (x : List ℝ) (lim : ℝ) : XR := jmean ((trimr x lim).map XR.fin)

/-- `scipy.stats.mstats.trimmed_std(x, limits=(lim, lim))`, measure_mahs.py:33 -/
noncomputable def trimmed_std (x : List ℝ) (lim : ℝ) : XR := npstd ((trimr x lim).map XR.fin)

/-- measure_mahs.py:28 -/
noncomputable def log_mah_scaled (n_t : ℕ) (log_mah_fit : List (List ℝ)) (logmp_sample : ℝ) :
    List (List ℝ) :=
  log_mah_fit.map fun row => row.map fun x => x - row.getD (n_t - 1) 0 + logmp_sample

/-- measure_mahs.py:31 -/
def column (it : ℕ) (rows : List (List ℝ)) : List ℝ := rows.map fun row => row.getD it 0

open Classical in
/-- Body of the loop, measure_mahs.py:31-35 -/
noncomputable def clean_step (scaled : List (List ℝ)) (lim z_cut : ℝ) (clean_mask : List Bool)
    (it : ℕ) : List Bool :=
  let log_mah_at_t := column it scaled
  let mu_t := trimmed_mean log_mah_at_t lim
  let std_t := trimmed_std log_mah_at_t lim
  let z_score_at_t := log_mah_at_t.map fun x => (XR.fin x - mu_t) / std_t
  List.zipWith (fun m z => m && decide (XR.lt (xabs z) (XR.fin z_cut))) clean_mask z_score_at_t

/-- `get_clean_sample_mask`, measure_mahs.py:7-36, for a table of finite numbers with `n_t` columns
and a non-negative `it_min`; `[:, -1]` raises IndexError if there are no columns. -/
noncomputable def get_clean_sample_mask (n_t : ℕ) (log_mah_fit : List (List ℝ)) (logmp_sample : ℝ)
    (it_min : ℕ) (lim : ℝ := 0.01) (z_cut : ℝ := 3) : Except PyErr (List Bool) :=
  if n_t = 0 then .error .indexError
  else
    let scaled := log_mah_scaled n_t log_mah_fit logmp_sample
    let clean_mask := List.replicate log_mah_fit.length true
    .ok ((List.range' it_min (n_t - 1 - it_min)).foldl (clean_step scaled lim z_cut) clean_mask)

/-! ## measure_target_data -/

open Classical in
/-- `np.interp(x, xp, fp)` for one `x`, increasing `xp` and `len(xp) = len(fp) >= 1`
(measure_mahs.py:81-86): constant outside the range, the tabulated value at a node, linear in
between with NumPy's two fallbacks for non-finite values. -/
noncomputable def interp1 (xp : List ℝ) (fp : List XR) (x : ℝ) : XR :=
  let c := (xp.filter fun a => decide (a ≤ x)).length
  if c = 0 then fp.getD 0 .nan
  else
    let j := c - 1
    if j = xp.length - 1 then fp.getD j .nan
    else if xp.getD j 0 = x then fp.getD j .nan
    else
      let slope := (fp.getD (j + 1) .nan - fp.getD j .nan) / XR.fin (xp.getD (j + 1) 0 - xp.getD j 0)
      let r := slope * XR.fin (x - xp.getD j 0) + fp.getD j .nan
      if r = .nan then
        let r' := slope * XR.fin (x - xp.getD (j + 1) 0) + fp.getD (j + 1) .nan
        if r' = .nan ∧ xeq (fp.getD j .nan) (fp.getD (j + 1) .nan) then fp.getD j .nan else r'
      else r

/-- `np.interp(x, xp, fp)`: ValueError if the tables are empty or of different lengths -/
noncomputable def interp (x : List ℝ) (xp : List ℝ) (fp : List XR) : Except PyErr (List XR) :=
  if xp.length = fp.length ∧ xp ≠ [] then .ok (x.map (interp1 xp fp)) else .error .valueError

/-- The five arrays returned by `measure_target_data` -/
structure Targets where
  mean_mah : List XR
  mean_log_mah : List XR
  var_log_mah : List XR
  mean_dmhdt : List XR
  var_dmhdt : List XR

/-- Column `it` of a table -/
def xcolumn (it : ℕ) (rows : List (List XR)) : List XR := rows.map fun row => row.getD it .nan

/-- measure_mahs.py:67-70: every row of `x` times `10**logmp_sample` over the last mass of the same
halo -/
noncomputable def scale_rows (n_t : ℕ) (mah x : List (List XR)) (logmp_sample : ℝ) : List (List XR) :=
  let mp_sample := XR.fin ((10 : ℝ) ^ logmp_sample)
  List.zipWith (fun row m => row.map fun a => mp_sample * a / m.getD (n_t - 1) .nan) x mah

/-- `measure_target_data`, measure_mahs.py:39-90; `mah` and `dmhdt` both have `n_t` columns and the
same number of rows (broadcasting is not modelled). `[:, -1]` raises IndexError without columns. -/
noncomputable def measure_target_data (n_t : ℕ) (mah dmhdt : List (List XR)) (lgt lgt_target : List ℝ)
    (logmp_sample : ℝ) : Except PyErr Targets :=
  if n_t = 0 then .error .indexError
  else
    let scaled_mah := scale_rows n_t mah mah logmp_sample
    let scaled_dmhdt := scale_rows n_t mah dmhdt logmp_sample
    let mean_mah_table := (List.range n_t).map fun it => jmean (xcolumn it scaled_mah)
    let mean_log_mah_table := (List.range n_t).map fun it => jmean ((xcolumn it scaled_mah).map log10)
    let std_log_mah_table := (List.range n_t).map fun it => npstd ((xcolumn it scaled_mah).map log10)
    let mean_dmhdt_table := (List.range n_t).map fun it => jmean (xcolumn it scaled_dmhdt)
    let std_dmhdt_table := (List.range n_t).map fun it => npstd (xcolumn it scaled_dmhdt)
    do
      let lg_mean_mah ← interp lgt_target lgt (mean_mah_table.map log10)
      let lg_mean_log_mah ← interp lgt_target lgt (mean_log_mah_table.map log10)
      let lg_mean_dmhdt ← interp lgt_target lgt (mean_dmhdt_table.map log10)
      let lg_std_dmhdt ← interp lgt_target lgt (std_dmhdt_table.map log10)
      let std_log_mah ← interp lgt_target lgt std_log_mah_table
      return {
        mean_mah := lg_mean_mah.map pow10
        mean_log_mah := lg_mean_log_mah.map pow10
        var_log_mah := std_log_mah.map fun s => s * s
        mean_dmhdt := lg_mean_dmhdt.map pow10
        var_dmhdt := (lg_std_dmhdt.map pow10).map fun s => s * s }

end Diffmah.Measure

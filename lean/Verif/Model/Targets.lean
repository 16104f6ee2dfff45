import Verif.Model.Scripts
import Verif.Model.NamedTuple
import Verif.Model.TPeak

/-!
# Population target data

Model of `/repo/diffmah/diffmahpop_kernels/load_diffmahpop_fitdata.py` and of
`/repo/scripts/diffmahpop_tabulation/smdpl_diffmahpop_utils.py`.

Tables of histories are lists of rows of real numbers. Tables read from disk are arguments; an astropy
`Table` is the list of its rows.
-/

namespace Diffmah.Targets

open Diffmah.Text Diffmah.IO Diffmah.Scripts

/-! ## Arrays -/

/-- Elementwise operation on two one-dimensional arrays with numpy broadcasting -/
def bcast {α β γ : Type} (f : α → β → γ) (a : List α) (b : List β) : Except PyErr (List γ) :=
  if a.length = b.length then .ok (List.zipWith f a b)
  else match a, b with
    | [x], b => .ok (b.map fun y => f x y)
    | a, [y] => .ok (a.map fun x => f x y)
    | _, _ => .error .valueError

/-- `x[msk]` for a boolean array `msk`: IndexError unless the lengths agree -/
def maskRows {α : Type} (msk : List Bool) (x : List α) : Except PyErr (List α) :=
  if msk.length = x.length then .ok (((msk.zip x).filter fun p => p.1).map Prod.snd)
  else .error .indexError

/-- `x.reshape((-1, k))` of a flat array: ValueError unless `k` divides the length -/
def reshapeRows {α : Type} (k : ℕ) (x : List α) : Except PyErr (List (List α)) :=
  if x.length % k = 0 then .ok (cut (List.replicate (x.length / k) k) x) else .error .valueError

/-- `table[:, -1]`: IndexError if there are rows and they are empty. (For a table without rows the
number of columns is taken to be positive.) -/
def lastColumn {α : Type} (table : List (List α)) : Except PyErr (List α) :=
  table.mapM fun row => match row.getLast? with
    | some x => .ok x
    | none => .error .indexError

/-- A call of a Python function with three parameters -/
def call3 {A R : Type} (f : A → A → A → Except PyErr R) : List A → Except PyErr R
  | [a, b, c] => f a b c
  | _ => .error .typeError

/-! ## Rescaling and selecting -/

/-- `rescale_target_log_mahs`, load_diffmahpop_fitdata.py:47-50 and smdpl_diffmahpop_utils.py:211-214;
`lgm_obs` is an array (a scalar is an array of length one). -/
def rescale_target_log_mahs (log_mah_table : List (List ℝ)) (lgm_obs : List ℝ) :
    Except PyErr (List (List ℝ)) := do
  let last ← lastColumn log_mah_table
  let delta_lgm_obs_table ← bcast (fun x y => x - y) last lgm_obs
  bcast (fun row d => row.map fun x => x - d) log_mah_table delta_lgm_obs_table

open Classical in
/-- `get_target_mah_params`, smdpl_diffmahpop_utils.py:200-208; `mah_params` is the columns of the named
tuple. -/
noncomputable def get_target_mah_params {A U : Type} (log_mah_table : List (List ℝ)) (lgm_obs : ℝ)
    (mah_params : List (List A)) (t_peak : List A) (upid : List U) (lgm_obs_bin_width : ℝ := 0.15) :
    Except PyErr (List (List A) × List A × List U) := do
  let last ← lastColumn log_mah_table
  let msk_sample := last.map fun x => decide (|x - lgm_obs| < lgm_obs_bin_width)
  let mah_params_sample ← mah_params.mapM (maskRows msk_sample)
  let t_peak_sample ← maskRows msk_sample t_peak
  let upid_sample ← maskRows msk_sample upid
  return (mah_params_sample, t_peak_sample, upid_sample)

/-! ## Reading the fits -/

/-- `DEFAULT_MAH_PARAMS._fields`, diffmah_kernels.py:13-17 -/
def MAH_FIELDS : List String := ["logm0", "logtc", "early_index", "late_index", "t_peak"]

/-- `NUM_DIFFMAH_PARAMS = len(DEFAULT_MAH_PARAMS) + 1`, smdpl_diffmahpop_utils.py:45 -/
def NUM_DIFFMAH_PARAMS : ℕ := MAH_FIELDS.length + 1

/-- `diffmah_data[key]` for a column of floating-point numbers (the columns used are of this kind) -/
def floatColumn (data : H5) (key : String) : Except PyErr (List XR) :=
  match data.lookup key.toList with
  | some (.floats x) => .ok x
  | some (.ints _) => .error .typeError
  | none => .error .keyError

open Classical in
/-- `load_diffmah_subvolume`, smdpl_diffmahpop_utils.py:164-190, from the content of the file of fits
(read by `_load_flat_hdf5`, lines 156-161; load_diffmahpop_fitdata.py:53-58 is a copy of it)
and the host history of every halo. (`nan != -1` is True.) -/
noncomputable def load_diffmah_subvolume {U : Type} (diffmah_data : H5) (upid_history : List U) :
    Except PyErr (NT (List XR) × List XR × List U) := do
  let loss ← floatColumn diffmah_data "loss"
  let msk := loss.map fun x => decide (x ≠ XR.fin (-1))
  let cols ← MAH_FIELDS.mapM fun key => do maskRows msk (← floatColumn diffmah_data key)
  let mah_params ← NT.make MAH_FIELDS cols
  let t_peak ← maskRows msk (← floatColumn diffmah_data "t_peak")
  let upidh ← maskRows msk upid_history
  return (mah_params, t_peak, upidh)

/-! ## Tabulating the targets -/

/-- An argument of a call -/
inductive Arg where
  | params : NT (List XR) → Arg
  | arr : List XR → Arg
  | num : XR → Arg

/-- `np.linspace(T_TABLE_MIN, t_obs, n_times)`, smdpl_diffmahpop_utils.py:35,75-77. (NumPy divides by
`n_times - 1`, and does not divide if that is zero.) -/
noncomputable def get_t_table_for_t_obs (t_obs : XR) (n_times : ℕ) : List XR :=
  (List.range n_times).map fun i : ℕ =>
    XR.fin 0.5 + XR.fin i * ((t_obs - XR.fin 0.5) / XR.fin (max ((n_times : ℝ) - 1) 1))

/-- The fields of a file name `lgm_<..>_t_<..>_...` used as numbers: `float(bn.split("_")[1])` and
`float(bn.split("_")[3])`, smdpl_diffmahpop_utils.py:284-288 -/
noncomputable def binOfName (bn : Str) : Except PyErr (XR × XR) := do
  let field (i : ℕ) : Except PyErr XR := match (splitOn '_' bn)[i]? with
    | some w => pyFloat w
    | none => .error .indexError
  return (← field 1, ← field 3)

/-- One row of the table of targets: the bin, what is computed from the histories, and the times -/
structure Target (D : Type) where
  lgm_obs : XR
  t_obs : XR
  data : D
  t_table : List XR

/-- One pass of the loop, smdpl_diffmahpop_utils.py:292-311 (satellites: 323-342); `none` if there are
too few haloes. `halopop` is `mah_halopop`, a function of three parameters; `finish` is what is computed
from its result (lines 304-308). -/
noncomputable def tabulateOne {R D : Type} (halopop : Arg → Arg → Arg → Except PyErr R)
    (finish : R → XR → List XR → List XR → Except PyErr D) (lgt0 : XR) (nh_min n_t_target : ℕ)
    (x : (XR × XR) × List XR) : Except PyErr (Option (Target D)) := do
  let diffmah_data ← reshapeRows NUM_DIFFMAH_PARAMS x.2
  let nh := diffmah_data.length
  let t_table := get_t_table_for_t_obs x.1.2 n_t_target
  if nh > nh_min then
    let t_peak := diffmah_data.map fun row => row.getD 4 XR.nan
    let mah_params ← NT.make MAH_FIELDS ((List.range (NUM_DIFFMAH_PARAMS - 1)).map fun i =>
      diffmah_data.map fun row => row.getD i XR.nan)
    let res ← call3 halopop [.params mah_params, .arr t_table, .arr t_peak, .num lgt0]
    let data ← finish res x.1.1 t_peak t_table
    return some ⟨x.1.1, x.1.2, data, t_table⟩
  else return none

/-- `tabulate_target_means_vars`, smdpl_diffmahpop_utils.py:272-348. `files` are the base names and
contents of the directory in the order `glob` returns them. The dictionaries of columns returned are
given as lists of rows. -/
noncomputable def tabulate_target_means_vars {R D : Type}
    (halopop : Arg → Arg → Arg → Except PyErr R)
    (finish : R → XR → List XR → List XR → Except PyErr D) (lgt0 : XR) (files : List (Str × List XR))
    (nh_min : ℕ := 100) (n_t_target : ℕ := 25) :
    Except PyErr (List (Target D) × List (Target D)) := do
  let cens := files.filter fun f => "cens.npy".toList.isSuffixOf f.1
  let sats := files.filter fun f => "sats.npy".toList.isSuffixOf f.1
  let cens_bins ← cens.mapM fun f => binOfName f.1
  let sats_bins ← sats.mapM fun f => binOfName f.1
  let cen_targets ← (cens_bins.zip (cens.map Prod.snd)).mapM
    (tabulateOne halopop finish lgt0 nh_min n_t_target)
  let sat_targets ← (sats_bins.zip (sats.map Prod.snd)).mapM
    (tabulateOne halopop finish lgt0 nh_min n_t_target)
  return (cen_targets.filterMap id, sat_targets.filterMap id)

/-- `write_mean_variance_to_disk`, smdpl_diffmahpop_utils.py:351-363: the disk afterwards, and how the call ends.
The six columns of a file are given as a list of rows; that the disk can be written is assumed. -/
noncomputable def write_mean_variance_to_disk {R D : Type}
    (halopop : Arg → Arg → Arg → Except PyErr R)
    (finish : R → XR → List XR → List XR → Except PyErr D) (lgt0 : XR) (files : List (Str × List XR))
    (fnout_cens fnout_sats : Str) (disk : Str → Option (List (Target D))) :
    (Str → Option (List (Target D))) × Except PyErr Unit :=
  match tabulate_target_means_vars halopop finish lgt0 files with
  | .error e => (disk, .error e)
  | .ok (cen_targets, sat_targets) =>
    let disk := fun fn => if fn = fnout_cens then some cen_targets else disk fn
    let disk := fun fn => if fn = fnout_sats then some sat_targets else disk fn
    (disk, .ok ())

/-- `get_log_mah_tables_for_t_obs`, smdpl_diffmahpop_utils.py:193-197 -/
noncomputable def get_log_mah_tables_for_t_obs {R : Type} (halopop : Arg → Arg → Arg → Except PyErr R)
    (mah_params : NT (List XR)) (t_peak : List XR) (t_obs lgt0 : XR) : Except PyErr (List XR × R) := do
  let t_table := get_t_table_for_t_obs t_obs 2
  let log_mah_table ← call3 halopop [.params mah_params, .arr t_table, .arr t_peak, .num lgt0]
  return (t_table, log_mah_table)

/-- The loop over the times of `generate_diffmahpop_targets_for_subvol`,
smdpl_diffmahpop_utils.py:141-153: the tuples yielded, and how it ends. `hosts t_obs` is
`upidh[:, indx_t]`; `targets` is what is yielded for one time (lines 147-153). -/
noncomputable def generateLoop {R U Y : Type} (halopop : Arg → Arg → Arg → Except PyErr R)
    (hosts : XR → Except PyErr (List U)) (targets : R → XR → List U → List Y × Except PyErr Unit)
    (mah_params : NT (List XR)) (t_peak : List XR) (lgt0 : XR) :
    List XR → List Y × Except PyErr Unit
  | [] => ([], .ok ())
  | t_obs :: rest => match hosts t_obs with
    | .error e => ([], .error e)
    | .ok upid => match get_log_mah_tables_for_t_obs halopop mah_params t_peak t_obs lgt0 with
      | .error e => ([], .error e)
      | .ok (_, tab) => match targets tab t_obs upid with
        | (ys, .error e) => (ys, .error e)
        | (ys, .ok ()) =>
          let r := generateLoop halopop hosts targets mah_params t_peak lgt0 rest
          (ys ++ r.1, r.2)

/-- `generate_diffmahpop_targets_for_subvol`, smdpl_diffmahpop_utils.py:122-153 -/
noncomputable def generate_diffmahpop_targets_for_subvol {R U Y : Type}
    (halopop : Arg → Arg → Arg → Except PyErr R) (diffmah_data : H5) (upid_history : List U)
    (hosts : List U → XR → Except PyErr (List U))
    (targets : R → XR → List U → List Y × Except PyErr Unit) (t_obs_arr : List XR) (lgt0 : XR) :
    List Y × Except PyErr Unit :=
  match load_diffmah_subvolume diffmah_data upid_history with
  | .error e => ([], .error e)
  | .ok (mah_params, t_peak, upidh) =>
    generateLoop halopop (hosts upidh) targets mah_params t_peak lgt0 t_obs_arr

/-! ## Names of sample files -/

open Classical in
/-- `f"{x:.2f}"` (the sign of a negative number that rounds to zero is kept, as in Python) -/
noncomputable def fmt2f (x : ℝ) : Str :=
  let q := (roundHalfEven (100 * |x|)).toNat
  (if x < 0 then ['-'] else []) ++ natStr (q / 100) ++ '.' :: zpad 2 (q % 100)

/-- `PAT_CENS.format(lgm_obs, t_obs)`, load_diffmahpop_fitdata.py:19; `PAT_SATS` line 20 -/
noncomputable def sampleName (lgm_obs t_obs : ℝ) (censat : Str) : Str :=
  "lgm_".toList ++ fmt2f lgm_obs ++ "_t_".toList ++ fmt2f t_obs ++ "_mah_params.".toList ++ censat ++
    ".npy".toList

/-- `_get_subvol_bnpat`, smdpl_diffmahpop_utils.py:60-62 -/
noncomputable def subvolName (subvol : Str) (lgm_obs t_obs : ℝ) (censat : Str) : Str :=
  "subvol_".toList ++ subvol ++ "_lgm_".toList ++ fmt2f lgm_obs ++ "_t_".toList ++ fmt2f t_obs ++
    "_mah_params.".toList ++ censat ++ ".txt".toList

/-- `get_t_obs_table`, smdpl_diffmahpop_utils.py:70-72 -/
noncomputable def get_t_obs_table (t0 : ℝ) (n_times : ℕ) : List ℝ :=
  (List.range n_times).map fun i : ℕ => 2.0 + (i : ℝ) * ((t0 - 2.0) / ((n_times : ℝ) - 1))

/-- `lgmarr_table_from_t_obs_kern`, smdpl_diffmahpop_utils.py:48-57 -/
noncomputable def lgmarr_table_from_t_obs_kern (t : ℝ) (n_m : ℕ) : List ℝ :=
  let lgm_thresh := 15 + 0.075 * (t - 15.0)
  (List.range n_m).map fun i : ℕ => 11 + (i : ℝ) * ((lgm_thresh - 11) / ((n_m : ℝ) - 1))

/-! ## Loading the targets -/

/-- `TASSO_DRN`, load_diffmahpop_fitdata.py:16 -/
def TASSO_DRN : Str :=
  "/Users/aphearin/work/DATA/diffmahpop_data/NM_12_NT_9_ISTART_0_IEND_576".toList

/-- A row of the table of means and variances -/
structure MuVar where
  lgm_obs : ℝ
  t_obs : ℝ
  mean_log_mah : List ℝ
  t_table : List ℝ

/-- A row after loading: with the rescaled mean, the number of samples, the samples of the five
parameters, and the histories of the samples -/
structure TargetRow where
  base : MuVar
  mean_log_mah_rescaled : List ℝ
  n_samples : ℕ
  samples : List (List ℝ)
  log_mah_samples : List (List ℝ)
  log_mah_rescaled_samples : List (List ℝ)

/-- `_load_diffmahpop_mu_var_targets`, load_diffmahpop_fitdata.py:61-70, for one of the two tables -/
def rescaledMeans (rows : List MuVar) : Except PyErr (List (MuVar × List ℝ)) := do
  let r ← rescale_target_log_mahs (rows.map (·.mean_log_mah)) (rows.map (·.lgm_obs))
  return rows.zip r

/-- The loops of `_add_n_sample_column`, load_diffmahpop_fitdata.py:81-93: the numbers of samples in the
files of the directory TASSO_DRN. `npy` gives the content of each file. -/
noncomputable def countSamples (npy : Str → Option (List (List ℝ))) (censat : Str) (r : MuVar) :
    Except PyErr ℕ :=
  match npy (pathJoin TASSO_DRN (sampleName r.lgm_obs r.t_obs censat)) with
  | some all => .ok all.length
  | none => .error .fileNotFound

/-- load_diffmahpop_fitdata.py:136-150 (152-166 for satellites): the samples of one row; `choice n k`
is what `np.random.choice(np.arange(n), k, replace=False)` returns. -/
noncomputable def drawSamples (npy : Str → Option (List (List ℝ))) (choice : ℕ → ℕ → List ℕ)
    (drn censat : Str) (n_sample_min : ℕ) (r : MuVar) : Except PyErr (List (List ℝ)) :=
  match npy (pathJoin drn (sampleName r.lgm_obs r.t_obs censat)) with
  | none => .error .fileNotFound
  | some all =>
    if all.length < n_sample_min then .error .assertionError
    else .ok ((List.range 5).map fun j => (choice all.length n_sample_min).map fun i =>
      (all.getD i []).getD j 0)

/-- load_diffmahpop_fitdata.py:168-191 (193-208 for satellites): the histories of the samples of one
row. The named tuple is made from the four columns of `mah_keys`. -/
noncomputable def sampleHistories {R : Type}
    (halopop : Arg → Arg → Arg → Except PyErr R) (histories : R → List (List ℝ)) (r : MuVar)
    (samples : List (List ℝ)) : Except PyErr (List (List ℝ) × List (List ℝ)) := do
  let mah_params ← NT.make MAH_FIELDS ((samples.take 4).map fun c => c.map XR.fin)
  let res ← call3 halopop [.params mah_params, .arr (r.t_table.map XR.fin),
    .arr ((samples.getD 4 []).map XR.fin), .num (XR.fin (Real.logb 10 13.79))]
  let log_mah := histories res
  let rescaled ← rescale_target_log_mahs log_mah [r.lgm_obs]
  return (log_mah, rescaled)

/-- The cuts and limits of `load_diffmahpop_targets`, load_diffmahpop_fitdata.py:23-30 -/
structure Cuts where
  t_obs_min_cen : ℝ := 2.5
  t_obs_min_sat : ℝ := 2.5
  lgm_obs_max_cen : ℝ := 14.5
  lgm_obs_max_sat : ℝ := 13.5
  n_sample_min : ℕ := 200

open Classical in
/-- The mask of one table, load_diffmahpop_fitdata.py:108-119 -/
noncomputable def cutRows (t_min lgm_max : ℝ) (n_min : ℕ) (rows : List ((MuVar × List ℝ) × ℕ)) :
    List ((MuVar × List ℝ) × ℕ) :=
  rows.filter fun r => decide (r.1.1.t_obs > t_min ∧ r.1.1.lgm_obs < lgm_max ∧ n_min ≤ r.2)

/-- `load_diffmahpop_targets`, load_diffmahpop_fitdata.py:23-44, with `_add_n_sample_column` (73-95) and
`_attach_samples` (98-210), in the order of the code. -/
noncomputable def load_diffmahpop_targets {R : Type}
    (halopop : Arg → Arg → Arg → Except PyErr R) (histories : R → List (List ℝ))
    (cenfile satfile : List MuVar) (npy : Str → Option (List (List ℝ))) (choice : ℕ → ℕ → List ℕ)
    (drn : Str := TASSO_DRN) (cuts : Cuts := {}) :
    Except PyErr (List TargetRow × List TargetRow) := do
  let cens := "cens".toList
  let sats := "sats".toList
  let cendata ← rescaledMeans cenfile
  let satdata ← rescaledMeans satfile
  let n_cens ← cendata.mapM fun r => countSamples npy cens r.1
  let n_sats ← satdata.mapM fun r => countSamples npy sats r.1
  let cendata := cutRows cuts.t_obs_min_cen cuts.lgm_obs_max_cen cuts.n_sample_min (cendata.zip n_cens)
  let satdata := cutRows cuts.t_obs_min_sat cuts.lgm_obs_max_sat cuts.n_sample_min (satdata.zip n_sats)
  let censamples ← cendata.mapM fun r => drawSamples npy choice drn cens cuts.n_sample_min r.1.1
  let satsamples ← satdata.mapM fun r => drawSamples npy choice drn sats cuts.n_sample_min r.1.1
  let cenhist ← (cendata.zip censamples).mapM fun r => sampleHistories halopop histories r.1.1.1 r.2
  let sathist ← (satdata.zip satsamples).mapM fun r => sampleHistories halopop histories r.1.1.1 r.2
  let row := fun (r : ((((MuVar × List ℝ) × ℕ) × List (List ℝ)) × (List (List ℝ) × List (List ℝ)))) =>
    TargetRow.mk r.1.1.1.1 r.1.1.1.2 r.1.1.2 r.1.2 r.2.1 r.2.2
  return (((cendata.zip censamples).zip cenhist).map row, ((satdata.zip satsamples).zip sathist).map row)

end Diffmah.Targets

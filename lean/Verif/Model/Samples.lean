import Verif.Model.Targets
import Mathlib.Data.List.Dedup

/-!
# Samples of haloes per bin of mass and time

Model of `smdpl_diffmahpop_subvolume_loop`, `collate_subvolume_samples` and
`write_mean_variance_to_disk` of `/repo/scripts/diffmahpop_tabulation/smdpl_diffmahpop_utils.py`, on the
file system of `Verif.Model.Scripts`. `R` is the type of the numbers in the files.
-/

namespace Diffmah.Samples

open Diffmah.Text Diffmah.IO Diffmah.Scripts Diffmah.Targets

/-- What a path names: a text file of numbers, a numpy file with a table, a directory, a file whose
writing is not finished, or any other file -/
inductive SFile (R : Type) where
  | txt : List R → SFile R
  | npy : List (List R) → SFile R
  | dir : SFile R
  | torn : SFile R
  | other : Str → SFile R

variable {R : Type}

/-- `_get_output_drn`, smdpl_diffmahpop_utils.py:65-67 -/
def get_output_drn (drn : Str) (n_lgm n_t : ℕ) (istart iend : ℤ) : Str :=
  pathJoin drn ("NM_".toList ++ natStr n_lgm ++ "_NT_".toList ++ natStr n_t ++ "_ISTART_".toList ++
    intStr istart ++ "_IEND_".toList ++ intStr iend)

/-- The paths that match a pattern, each once -/
def matching (pattern : Str) (fs : FS (SFile R)) : List Str :=
  (fs.map Prod.fst).dedup.filter (globMatch pattern)

/-- `glob(pattern)`: the paths that match, in an order that is not specified (`order`) -/
def globFiles (order : Str → List Str → List Str) (pattern : Str) (fs : FS (SFile R)) : List Str :=
  order pattern (matching pattern fs)

/-- `np.loadtxt(fn).reshape((-1, NUM_DIFFMAH_PARAMS))`, smdpl_diffmahpop_utils.py:234,253 -/
def readSample (fn : Str) : Prog (FS (SFile R)) (List (List R)) :=
  Prog.bind Prog.get fun fs => match fs.lookup fn with
    | none => Prog.ofExcept (.error .fileNotFound)
    | some (.txt x) => Prog.ofExcept (reshapeRows NUM_DIFFMAH_PARAMS x)
    | some .dir => Prog.ofExcept (.error .osError)
    | some _ => Prog.ofExcept (.error .valueError)

/-- `s.replace(".txt", "")` -/
def removeTxt : Str → Str
  | '.' :: 't' :: 'x' :: 't' :: s => removeTxt s
  | c :: s => c :: removeTxt s
  | [] => []

/-- smdpl_diffmahpop_utils.py:240-242 (259-261): the name of the collated file, from the base name of
the first sample; `np.save` adds the extension -/
def collatedName (bn : Str) : Str :=
  removeTxt (joinWith '_' ((splitOn '_' bn).drop 2)) ++ ".npy".toList

/-- `np.save(fnout, data)`: the file is emptied, then written -/
def npSave (fnout : Str) (rows : List (List R)) : Prog (FS (SFile R)) Unit :=
  Prog.bind (Prog.act fun fs => Dict.set fs fnout .torn) fun _ =>
  Prog.act fun fs => Dict.set fs fnout (.npy rows)

/-- One bin, smdpl_diffmahpop_utils.py:227-243 (centrals) and 246-262 (satellites) -/
noncomputable def collateBin (order : Str → List Str → List Str) (drn drnout : Str)
    (b : ℝ × ℝ × Str) : Prog (FS (SFile R)) Unit :=
  Prog.bind Prog.get fun fs =>
  let fnlist := globFiles order (pathJoin drn (subvolName ['*'] b.1 b.2.1 b.2.2)) fs
  Prog.bind (Prog.each readSample fnlist) fun collector =>
  match fnlist with
  | [] => Prog.pure ()
  | fn :: _ => npSave (pathJoin drnout (collatedName (basename fn))) collector.flatten

/-- The bins in the order of the loops, smdpl_diffmahpop_utils.py:218,223-227,246 -/
noncomputable def gridBins (t0 : ℝ) (n_m n_t : ℕ) : List (ℝ × ℝ × Str) :=
  (get_t_obs_table t0 n_t).flatMap fun t_obs =>
    (lgmarr_table_from_t_obs_kern t_obs n_m).flatMap fun lgm_obs =>
      [(lgm_obs, t_obs, "cens".toList), (lgm_obs, t_obs, "sats".toList)]

/-- `os.makedirs(drnout)`, smdpl_diffmahpop_utils.py:221 (FileExistsError is an OSError). The parents
that are also made are left out. -/
def makedirs (drnout : Str) : Prog (FS (SFile R)) Unit :=
  Prog.bind Prog.get fun fs => match fs.lookup drnout with
    | some _ => Prog.ofExcept (.error .osError)
    | none => Prog.act fun fs => Dict.set fs drnout .dir

/-- `rm` of the given paths; a directory is not removed and makes the exit status non-zero -/
def rmFiles : List Str → Prog (FS (SFile R)) Bool
  | [] => Prog.pure true
  | w :: ws => Prog.bind Prog.get fun fs => match fs.lookup w with
      | some .dir => Prog.bind (rmFiles ws) fun _ => Prog.pure false
      | some _ => Prog.bind (Prog.act fun fs => FS.remove fs w) fun _ => rmFiles ws
      | none => Prog.bind (rmFiles ws) fun _ => Prog.pure false

/-- One pass of the last loop, smdpl_diffmahpop_utils.py:264-269. (A directory name with characters
special to the shell is outside the model.) -/
def removeSamples (order : Str → List Str → List Str) (drn : Str) (subvol : ℕ) :
    Prog (FS (SFile R)) Unit :=
  let fname_pat := pathJoin drn ("subvol_".toList ++ natStr subvol ++ ['*'])
  Prog.bind Prog.get fun fs =>
  if 0 < (globFiles order fname_pat fs).length then
    Prog.bind (rmFiles (matching fname_pat fs)) fun ok =>
    if ok then Prog.pure () else Prog.ofExcept (.error .calledProcess)
  else Prog.pure ()

/-- `collate_subvolume_samples`, smdpl_diffmahpop_utils.py:217-269 -/
noncomputable def collate_subvolume_samples (order : Str → List Str → List Str) (drn : Str) (t0 : ℝ)
    (n_m n_t : ℕ) (istart iend : ℤ) : Prog (FS (SFile R)) Unit :=
  let drnout := get_output_drn drn n_m n_t istart iend
  Prog.bind (makedirs drnout) fun _ =>
  Prog.bind (Prog.each (collateBin order drn drnout) (gridBins t0 n_m n_t)) fun _ =>
  Prog.bind (Prog.each (removeSamples order drn) (List.range 10)) fun _ =>
  Prog.pure ()

/-! ## Writing the samples -/

/-- What `generate_diffmahpop_targets_for_subvol` yields, smdpl_diffmahpop_utils.py:153 -/
structure SampleBin (R : Type) where
  lgm_obs : ℝ
  t_obs : ℝ
  mah_params : List (List R)
  t_peak : List R
  upid : List ℤ

/-- `N_HALOS_PER_SUBVOL = N_HALOS_MAX // N_SUBVOL_SMDPL`, smdpl_diffmahpop_utils.py:30,40-41 -/
def N_HALOS_PER_SUBVOL : ℕ := 20000 / 576

/-- `np.array([*cols]).T`: the rows of a table given by its columns; ValueError if they are ragged -/
def transpose [Inhabited R] (cols : List (List R)) : Except PyErr (List (List R)) :=
  match cols with
  | [] => .ok []
  | c :: rest => if ∀ d ∈ rest, d.length = c.length then
      .ok ((List.range c.length).map fun i => cols.map fun d => d.getD i default)
    else .error .valueError

/-- smdpl_diffmahpop_utils.py:106-110 (113-117): the table of the haloes of one kind. `fmt4` is what
writing a number with the format `%.4f` and reading it gives. -/
def sampleTable [Inhabited R] (fmt4 : R → R) (msk : List Bool) (x : SampleBin R) :
    Except PyErr (List R) := do
  let p ← x.mah_params.mapM fun c => do return (← maskRows msk c).take N_HALOS_PER_SUBVOL
  let tp := (← maskRows msk x.t_peak).take N_HALOS_PER_SUBVOL
  let rows ← transpose (p ++ [tp])
  return rows.flatten.map fmt4

/-- `np.savetxt(fnout, data, ...)`: the file is emptied, then written -/
def saveTxt (fnout : Str) (x : List R) : Prog (FS (SFile R)) Unit :=
  Prog.bind (Prog.act fun fs => Dict.set fs fnout .torn) fun _ =>
  Prog.act fun fs => Dict.set fs fnout (.txt x)

/-- One pass of the inner loop, smdpl_diffmahpop_utils.py:93-117 -/
noncomputable def writeSamples [Inhabited R] (fmt4 : R → R) (outdrn : Str) (subvol : ℤ)
    (x : SampleBin R) : Prog (FS (SFile R)) Unit :=
  let fnout_cens := pathJoin outdrn (subvolName (intStr subvol) x.lgm_obs x.t_obs "cens".toList)
  let fnout_sats := pathJoin outdrn (subvolName (intStr subvol) x.lgm_obs x.t_obs "sats".toList)
  let msk_cens := x.upid.map fun u => decide (u = -1)
  let n_halos := x.t_peak.length
  let n_cens := msk_cens.count true
  let msk_sats := msk_cens.map not
  Prog.bind (if 0 < n_cens then
      Prog.bind (Prog.ofExcept (sampleTable fmt4 msk_cens x)) fun d => saveTxt fnout_cens d
    else Prog.pure ()) fun _ =>
  if n_cens < n_halos then
    Prog.bind (Prog.ofExcept (sampleTable fmt4 msk_sats x)) fun d => saveTxt fnout_sats d
  else Prog.pure ()

/-- `T0_SMDPL`, smdpl_diffmahpop_utils.py:33 -/
noncomputable def T0_SMDPL : ℝ := 13.7976158

/-- The loop over the subvolumes, smdpl_diffmahpop_utils.py:89-117. `generate subvol` is what the
generator yields for a subvolume, and how it ends. -/
noncomputable def writeSubvolumes [Inhabited R] (fmt4 : R → R)
    (generate : ℤ → List (SampleBin R) × Except PyErr Unit) (outdrn : Str) (istart iend : ℤ) :
    Prog (FS (SFile R)) Unit :=
  Prog.bind (Prog.each (fun subvol =>
      Prog.bind (Prog.each (writeSamples fmt4 outdrn subvol) (generate subvol).1) fun _ =>
      Prog.ofExcept (generate subvol).2) (pyRange istart iend)) fun _ => Prog.pure ()

/-- `smdpl_diffmahpop_subvolume_loop`, smdpl_diffmahpop_utils.py:80-119 -/
noncomputable def smdpl_diffmahpop_subvolume_loop [Inhabited R] (order : Str → List Str → List Str)
    (fmt4 : R → R) (generate : ℤ → List (SampleBin R) × Except PyErr Unit) (outdrn : Str)
    (istart iend : ℤ) (n_m n_t : ℕ) : Prog (FS (SFile R)) Unit :=
  Prog.bind (writeSubvolumes fmt4 generate outdrn istart iend) fun _ =>
  collate_subvolume_samples order outdrn T0_SMDPL n_m n_t istart iend

end Diffmah.Samples

import Verif.Model.Pipeline
import Verif.Model.Loaders
import Verif.Model.Measure

/-!
# The scripts that fit one catalogue

Model of `/repo/scripts/fitting_scripts/tng_diffmah_fitter_script.py`,
`bolshoi_planck_fitting_script.py` and `galacticus_diffmah_fitter_script.py`, and of the part of
`hacc_discovery_sims_diffmah_fitter_script.py` in which it differs from the Last Journey script. The
fitter is an arbitrary function. Printing and timing are left out.

BPL and Galacticus write the rank files into `args.outdir` and the result into
`os.path.abspath(args.outdir)`; these are separate arguments here. Paths are texts, so a relative
`args.outdir` and its absolute form are different directories of the model.
-/

namespace Diffmah.Catalogue

open Diffmah.Utils Diffmah.Text Diffmah.IO Diffmah.Fit Diffmah.Scripts Diffmah.Loaders

/-! ## What the three scripts share -/

/-- The file rank `rank` writes, tng_diffmah_fitter_script.py:15,71-72,93-94;
bolshoi_planck_fitting_script.py:17,79-80,112-113; galacticus_diffmah_fitter_script.py:14,80-81,117-118 -/
def tmpName (argdir : Str) (rank : ℕ) : Str :=
  format0 (natStr rank) (pathJoin argdir "tmp_mah_fits_rank_{0}.dat".toList)

/-- The pattern of the files to remove, tng_diffmah_fitter_script.py:109-111;
bolshoi_planck_fitting_script.py:127-129; galacticus_diffmah_fitter_script.py:132-134 -/
def tmpPattern (argdir outdir : Str) : Str :=
  let bn := basename (tmpName argdir 0)
  pathJoin outdir (joinWith '_' ((splitOn '_' bn).dropLast) ++ "_*.dat".toList)

/-- Rank 0 after the last barrier: read the named files, concatenate, write, clean up -/
noncomputable def collateFiles (fit_data_fnames : List Str) (outfn fnpat : Str) :
    Prog (FS OutFile) Unit :=
  Prog.bind (Prog.each readRankFile fit_data_fnames) fun collector =>
  Prog.bind (Prog.ofExcept (concatenate collector)) fun chunk_fit_results =>
  Prog.bind (writeCollated outfn chunk_fit_results) fun _ =>
  systemRm fnpat

/-- tng_diffmah_fitter_script.py:88-113; bolshoi_planck_fitting_script.py:107-131;
galacticus_diffmah_fitter_script.py:112-136 -/
noncomputable def collateCatalogue (argdir outdir outbn : Str) (nranks : ℕ) : Prog (FS OutFile) Unit :=
  collateFiles ((List.range nranks).map (tmpName argdir)) (pathJoin outdir outbn)
    (tmpPattern argdir outdir)

/-- `table[indx]` with an array of row numbers: IndexError if one is out of range -/
def takeRows {α : Type} (table : List α) (indx : List ℕ) : Except PyErr (List α) :=
  indx.mapM fun i => match table[i]? with
    | none => .error .indexError
    | some x => .ok x

/-- The haloes of one rank, tng_diffmah_fitter_script.py:55-61; bolshoi_planck_fitting_script.py:67-77 -/
def rankShare {α : Type} (table : List α) (nhalos_tot nranks rank : ℕ) : Except PyErr (List α) := do
  let splits ← array_split (List.range nhalos_tot) nranks
  match splits[rank]? with
  | none => .error .indexError
  | some indx => takeRows table indx

/-- A run of `nranks` processes that comes to its end: they make their changes to the file system in
any order up to the barrier, and then rank 0 collates -/
def Run (acts : ℕ → List (FS OutFile → FS OutFile)) (collator : Prog (FS OutFile) Unit) (nranks : ℕ)
    (fs t : FS OutFile) : Prop :=
  ∃ todo u tr, Sched ((List.range nranks).map acts) fs todo u ∧ (∀ l ∈ todo, l = []) ∧
    collator u = (tr, t, .ok ())

/-- The file system at some moment of a run: before the barrier, or while rank 0 collates -/
def Moment (acts : ℕ → List (FS OutFile → FS OutFile)) (collator : Prog (FS OutFile) Unit)
    (nranks : ℕ) (fs t : FS OutFile) : Prop :=
  ∃ todo u, Sched ((List.range nranks).map acts) fs todo u ∧
    (t = u ∨ (∀ l ∈ todo, l = []) ∧ t ∈ (collator u).1)

/-! ## TNG -/

/-- What rank `r` does before the last barrier, tng_diffmah_fitter_script.py:55-82, for the table
`mahs`. The options `-test`, `-nchunks`, `-nstep` and `-outbase` are read and not used. -/
noncomputable def tngActs {H : Type} (fit : H → FitResult) (mahs : List H) (outdir : Str)
    (nranks r : ℕ) : Except PyErr (List (FS OutFile → FS OutFile)) := do
  let mahs_for_rank ← rankShare mahs mahs.length nranks r
  return rankActs (tmpName outdir r) (mahs_for_rank.map fit)

/-- `outbn`, tng_diffmah_fitter_script.py:103 -/
def tngOut : Str := "diffmah_tng_fits.hdf5".toList

/-- A run in which no rank raises before the barrier: `acts r` is what rank `r` does -/
def TngActs {H : Type} (fit : H → FitResult) (mahs : List H) (outdir : Str) (nranks : ℕ)
    (acts : ℕ → List (FS OutFile → FS OutFile)) : Prop :=
  ∀ r < nranks, tngActs fit mahs outdir nranks r = .ok (acts r)

/-! ## Bolshoi-Planck -/

/-- `BN_OUT`, bolshoi_planck_fitting_script.py:18 -/
def bplOut : Str := "diffmah_fits.hdf5".toList

/-- `BN_TARGET_OUT`, bolshoi_planck_fitting_script.py:19 -/
def bplTargetOut : Str := "bpl_mpeak_histories.hdf5".toList

/-- The file with the target histories, bolshoi_planck_fitting_script.py:61-64. (The table of
histories is stored row by row; its shape is left out.) -/
def bplTargets (halo_ids : List ℤ) (mahs : List (List XR)) (bpl_t_table : List XR) : H5 :=
  [("halo_id".toList, .ints halo_ids), ("mpeak_history".toList, .floats mahs.flatten),
    ("bpl_t_table".toList, .floats bpl_t_table)]

/-- The file one rank writes, bolshoi_planck_fitting_script.py:84-101 -/
noncomputable def rankFileId (fits : List (ℤ × FitResult)) : Str :=
  HEADER_HALO_ID ++ (fits.map fun r => get_outline r.2 (some r.1)).flatten

/-- The changes to that file: opened, written line by line, closed -/
noncomputable def rankActsId (fname : Str) (fits : List (ℤ × FitResult)) :
    List (FS OutFile → FS OutFile) :=
  (fun fs => Dict.set fs fname .torn) :: fits.map (fun _ fs => Dict.set fs fname .torn) ++
    [fun fs => Dict.set fs fname (.text (rankFileId fits))]

/-- What rank `r` does before the barrier, bolshoi_planck_fitting_script.py:52-101, for the ids,
histories and times that `load_bpl_mah_data` returned. Rank 0 writes the targets first. There is no
barrier before the fits. The option `-dt_fit_min` is read and not used. -/
noncomputable def bplActs (fit : List XR → FitResult) (halo_ids : List ℤ) (raw : List (List XR))
    (bpl_t_table : List XR) (test : Bool) (argdir outdir : Str) (nranks r : ℕ) :
    Except PyErr (List (FS OutFile → FS OutFile)) := do
  let mahs := raw.map accumulate
  let target := pathJoin outdir bplTargetOut
  let first : List (FS OutFile → FS OutFile) := if r = 0 then
      [fun fs => Dict.set fs target .torn,
        fun fs => Dict.set fs target (.h5 (bplTargets halo_ids mahs bpl_t_table))]
    else []
  let nhalos_tot := if test then nranks * 5 else halo_ids.length
  let halo_ids_for_rank ← rankShare halo_ids nhalos_tot nranks r
  let mahs_for_rank ← rankShare mahs nhalos_tot nranks r
  return first ++ rankActsId (tmpName argdir r) (halo_ids_for_rank.zip (mahs_for_rank.map fit))

/-- A run in which no rank raises before the barrier -/
def BplActs (fit : List XR → FitResult) (halo_ids : List ℤ) (raw : List (List XR))
    (bpl_t_table : List XR) (test : Bool) (argdir outdir : Str) (nranks : ℕ)
    (acts : ℕ → List (FS OutFile → FS OutFile)) : Prop :=
  ∀ r < nranks, bplActs fit halo_ids raw bpl_t_table test argdir outdir nranks r = .ok (acts r)

/-! ## Galacticus -/

/-- One halo: times and masses -/
abbrev GalHalo := List XR × List XR

/-- The haloes of one rank, galacticus_diffmah_fitter_script.py:59-72 -/
def galShare (mass time : List (List XR)) (nranks r : ℕ) : Except PyErr (List GalHalo) := do
  let (istart, iend) ← galacticusRange mass.length nranks r
  let res := extract_galacticus_mah_tables mass time ([] : List Unit) ([] : List Unit) istart
    (some (iend : ℤ))
  return res.2.1.zip res.1

/-- `np.array([t[-1] for t in times_for_rank]).max()`, galacticus_diffmah_fitter_script.py:76 -/
noncomputable def galTmax (times_for_rank : List (List XR)) : Except PyErr XR := do
  let lasts ← times_for_rank.mapM fun t => match t.getLast? with
    | none => (.error .indexError : Except PyErr XR)
    | some x => .ok x
  npmax lasts

/-- `comm.allreduce(t_max_for_rank, op=MPI.MAX)`, galacticus_diffmah_fitter_script.py:77: each rank
gets the largest of the values of all ranks -/
noncomputable def galT0 (mass time : List (List XR)) (nranks : ℕ) : Except PyErr XR := do
  let ts ← (List.range nranks).mapM fun r => do
    let share ← galShare mass time nranks r
    galTmax (share.map Prod.fst)
  npmax ts

open Classical in
/-- The data of one halo given to the fitter, galacticus_diffmah_fitter_script.py:89-103: times,
masses, `force_skip_fit` -/
noncomputable def galHalo (dt_fit_min T0 : XR) (h : GalHalo) :
    Except PyErr (List XR × List XR × Bool) := do
  let t_sim := h.1
  let mah_sim := accumulate h.2
  match t_sim.head?, t_sim.getLast? with
  | some t_first, some t_last =>
    let dt := t_last - t_first
    let force_skip_fit : Bool := decide (XR.lt dt dt_fit_min)
    if XR.lt t_last T0 then
      match mah_sim.getLast? with
      | none => .error .indexError
      | some m => return (t_sim ++ [T0], mah_sim ++ [m], force_skip_fit)
    else return (t_sim, mah_sim, force_skip_fit)
  | _, _ => .error .indexError

/-- What rank `r` does before the last barrier, galacticus_diffmah_fitter_script.py:59-106 -/
noncomputable def galActs (fit : List XR → List XR → Bool → FitResult) (mass time : List (List XR))
    (dt_fit_min : XR) (test : Bool) (argdir : Str) (nranks r : ℕ) :
    Except PyErr (List (FS OutFile → FS OutFile)) := do
  let share ← galShare mass time nranks r
  let T0 ← galT0 mass time nranks
  let share := if test then share.take 50 else share
  let data ← share.mapM (galHalo dt_fit_min T0)
  return rankActs (tmpName argdir r) (data.map fun d => fit d.1 d.2.1 d.2.2)

/-- A run in which no rank raises before the barrier -/
def GalActs (fit : List XR → List XR → Bool → FitResult) (mass time : List (List XR))
    (dt_fit_min : XR) (test : Bool) (argdir : Str) (nranks : ℕ)
    (acts : ℕ → List (FS OutFile → FS OutFile)) : Prop :=
  ∀ r < nranks, galActs fit mass time dt_fit_min test argdir nranks r = .ok (acts r)

/-! ## The option `-test` -/

/-- `parser.add_argument("-test", type=bool, default=False)`,
tng_diffmah_fitter_script.py:31; bolshoi_planck_fitting_script.py:34;
galacticus_diffmah_fitter_script.py:38: the text given on the command line is passed to `bool`, which
is False for the empty text only -/
def argBool : Option Str → Bool
  | none => false
  | some s => s ≠ []

/-! ## Discovery simulations -/

/-- The names the package `diffmah.fitting_helpers` has after `import diffmah`:
diffmah/fitting_helpers/__init__.py:6-8 and the submodules loaded by it and by diffmah/__init__.py:8-9
(names beginning with two underscores, set by Python, are left out) -/
def fittingHelpersNames : List Str :=
  ["diffmah_fitter".toList, "diffmah_fitter_helpers".toList, "bfgs_wrapper".toList,
    "fit_utils".toList]

/-- `module.name`: AttributeError if the module has no such name -/
def getattr (names : List Str) (name : Str) : Except PyErr Unit :=
  if name ∈ names then .ok () else .error .attributeError

/-- One rank in one pass of the loop, hacc_discovery_sims_diffmah_fitter_script.py:108-117, where `cfh`
is the package `diffmah.fitting_helpers` (line 12): open the file, write `cfh.HEADER`, then the lines.
If the header cannot be had the file is closed empty. -/
noncomputable def discoveryRank (rank_outname : Str) (fits : List FitResult) : Prog (FS OutFile) Unit :=
  Prog.bind (Prog.act fun fs => Dict.set fs rank_outname .torn) fun _ =>
  match getattr fittingHelpersNames "HEADER".toList with
  | .error e => Prog.bind (Prog.act fun fs => Dict.set fs rank_outname (.text [])) fun _ =>
      Prog.ofExcept (.error e)
  | .ok () => match getattr fittingHelpersNames "get_outline".toList with
    | .error e => Prog.bind (Prog.act fun fs => Dict.set fs rank_outname (.text HEADER)) fun _ =>
        Prog.ofExcept (.error e)
    | .ok () => Prog.act fun fs => Dict.set fs rank_outname (.text (rankFile fits))

end Diffmah.Catalogue

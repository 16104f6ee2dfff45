import Verif.Model.IO

/-!
# Scripts on a file system

Model of the parts of `/repo/scripts/fitting_scripts` that name, write, collate and delete files:
`hacc_lastjourney_diffmah_fitter_script.py`, `hacc_discovery_sims_diffmah_fitter_script.py`,
`bolshoi_planck_fitting_script.py` and `unchunk_last_journey_script.py`.

A file system is a finite map from paths to contents; a path is the text used to name the file (no
links, one name per file). A program records every state it goes through, so that a statement about
all these states is a statement about every point at which the process may be killed. Printing, timing
and `os.makedirs` are left out.
-/

namespace Diffmah.Scripts

open Diffmah.Text Diffmah.IO

/-! ## Programs on a file system -/

/-- Paths and contents -/
abbrev FS (F : Type) := Dict F

/-- Remove a path -/
def FS.remove {F : Type} (fs : FS F) (p : Str) : FS F := fs.filter fun kv => decide (kv.1 ≠ p)

/-- A program: from a state, the states it goes through, the last one, and its result or exception -/
def Prog (S A : Type) := S → List S × S × Except PyErr A

/-- A program that changes nothing -/
def Prog.pure {S A : Type} (a : A) : Prog S A := fun s => ([], s, .ok a)

/-- One program after the other; an exception ends the run -/
def Prog.bind {S A B : Type} (p : Prog S A) (q : A → Prog S B) : Prog S B := fun s =>
  match p s with
  | (tr, s', .ok a) => match q a s' with
    | (tr', s'', r) => (tr ++ tr', s'', r)
  | (tr, s', .error e) => (tr, s', .error e)

instance {S : Type} : Monad (Prog S) where
  pure := Prog.pure
  bind := Prog.bind

/-- The present state -/
def Prog.get {S : Type} : Prog S S := fun s => ([], s, .ok s)

/-- A computation that does not touch the files -/
def Prog.ofExcept {S A : Type} (r : Except PyErr A) : Prog S A := fun s => ([], s, r)

/-- Change the state -/
def Prog.act {S : Type} (f : S → S) : Prog S Unit := fun s => ([f s], f s, .ok ())

/-- `for x in l: results.append(f(x))` -/
def Prog.each {S A B : Type} (f : A → Prog S B) : List A → Prog S (List B)
  | [] => Prog.pure []
  | a :: l => Prog.bind (f a) fun b => Prog.bind (Prog.each f l) fun bs => Prog.pure (b :: bs)

/-! ## Names -/

/-- `os.path.join(drn, bname)` -/
def pathJoin (drn bname : Str) : Str :=
  if bname.head? = some '/' then bname
  else if drn = [] then bname
  else if drn.getLast? = some '/' then drn ++ bname
  else drn ++ '/' :: bname

/-- `os.path.basename(fn)`: what follows the last slash -/
def basename (fn : Str) : Str := (fn.reverse.takeWhile fun c => decide (c ≠ '/')).reverse

/-- `f"{k:0{width}d}"` for a non-negative number -/
def zpad (width k : ℕ) : Str := List.replicate (width - (natStr k).length) '0' ++ natStr k

/-- `s.format(arg)`: every `{0}` is replaced (a text with other braces is outside the model) -/
def format0 (arg : Str) : Str → Str
  | '{' :: '0' :: '}' :: s => arg ++ format0 arg s
  | c :: s => c :: format0 arg s
  | [] => []

/-- `BNPAT_DIFFMAH_FITS.format(s, c)`, unchunk_last_journey_script.py:22,67 -/
def bnameIn (s c : Str) : Str := "subvol_".toList ++ s ++ "_chunk_".toList ++ c ++ ".hdf5".toList

/-- `BNPAT_DIFFMAH_OUT.format(s)`, unchunk_last_journey_script.py:23,80 -/
def bnameOut (s : Str) : Str := "subvol_".toList ++ s ++ "_diffmah_fits.hdf5".toList

/-- unchunk_last_journey_script.py:25 -/
def NCHUNKS : ℕ := 20

/-- The path of one chunk, unchunk_last_journey_script.py:53,61-69 -/
def chunkPath (indir : Str) (isubvol : ℤ) (chunknum : ℕ) : Str :=
  pathJoin indir (bnameIn (intStr isubvol) (zpad (natStr NCHUNKS).length chunknum))

/-- The path of one output file, unchunk_last_journey_script.py:80-81 -/
def outPath (outdir : Str) (isubvol : ℤ) : Str := pathJoin outdir (bnameOut (intStr isubvol))

/-! ## Collating the chunks -/

/-- A file: a complete HDF5 file, or one whose writing was begun and not finished -/
inductive File (R : Type) where
  | whole : Node R → File R
  | torn : File R

/-- `load_flat_hdf5(fname_in)`, unchunk_last_journey_script.py:71. (The script imports the function of
that name from diffsky; it is taken to be the one of io_utils.py.) -/
def readChunk {R : Type} (fname : Str) : Prog (FS (File R)) (Dict (List R)) :=
  Prog.bind Prog.get fun fs => match fs.lookup fname with
    | none => Prog.ofExcept (.error .fileNotFound)
    | some .torn => Prog.ofExcept (.error .osError)
    | some (.whole hdf) => Prog.ofExcept (load_flat_hdf5 hdf)

/-- `x[key]` for a dictionary -/
def dictGet {A : Type} (key : Str) (x : Dict A) : Except PyErr A :=
  match x.lookup key with
  | some v => .ok v
  | none => .error .keyError

/-- unchunk_last_journey_script.py:75-79: the columns of the first chunk, each the concatenation over
all chunks. (That rows of one column have the same shape in all chunks is taken for granted.) -/
def concatColumns {R : Type} (collector : List (Dict (List R))) : Except PyErr (Dict (List R)) :=
  match collector with
  | [] => .error .indexError
  | first :: _ => (first.map Prod.fst).mapM fun key => do
      let seq ← collector.mapM (dictGet key)
      return (key, seq.flatten)

/-- unchunk_last_journey_script.py:82-84: opening the file for writing empties it; while it is open
its content on disk is not defined -/
def writeFile {R : Type} (fname : Str) (cols : Dict (List R)) : Prog (FS (File R)) Unit :=
  Prog.bind (Prog.act fun fs => Dict.set fs fname .torn) fun _ =>
  Prog.bind (Prog.each (fun _ => Prog.act fun fs => Dict.set fs fname .torn) cols) fun _ =>
  Prog.act fun fs => Dict.set fs fname (.whole (.group (cols.map fun c => (c.1, .dset c.2))))

/-- One pass of the loop, unchunk_last_journey_script.py:57-84; the result is the list of the names to
delete later. -/
def collateSubvol {R : Type} (indir outdir : Str) (isubvol : ℤ) : Prog (FS (File R)) (List Str) :=
  let fnames := (List.range NCHUNKS).map (chunkPath indir isubvol)
  Prog.bind (Prog.each readChunk fnames) fun collector =>
  Prog.bind (Prog.ofExcept (concatColumns collector)) fun data_out =>
  Prog.bind (writeFile (outPath outdir isubvol) data_out) fun _ =>
  Prog.pure fnames

/-- `rm` with the given words: files that exist are removed one by one, the others make the exit
status non-zero -/
def rmWords {F : Type} : List Str → Prog (FS F) Bool
  | [] => Prog.pure true
  | w :: ws => Prog.bind Prog.get fun fs =>
      if (fs.lookup w).isSome then
        Prog.bind (Prog.act fun fs => FS.remove fs w) fun _ => rmWords ws
      else Prog.bind (rmWords ws) fun _ => Prog.pure false

/-- `subprocess.check_output(f"rm {fname}", shell=True)`, unchunk_last_journey_script.py:101-102: the
shell cuts the text at white space (a text with quotes or other characters special to the shell is
outside the model); a non-zero exit status raises CalledProcessError. -/
def checkRm {F : Type} (fname : Str) : Prog (FS F) Unit :=
  Prog.bind (rmWords (split fname)) fun ok =>
  if ok then Prog.pure () else Prog.ofExcept (.error .calledProcess)

/-- `range(istart, iend)` -/
def pyRange (istart iend : ℤ) : List ℤ :=
  (List.range (iend - istart).toNat).map fun i : ℕ => istart + (i : ℤ)

/-- unchunk_last_journey_script.py:47-102 -/
def unchunk {R : Type} (istart iend : ℤ) (indir outdir : Str) : Prog (FS (File R)) Unit :=
  Prog.bind (Prog.each (collateSubvol indir outdir) (pyRange istart iend)) fun toDelete =>
  Prog.bind (Prog.each checkRm toDelete.flatten) fun _ =>
  Prog.pure ()

/-! ## The files of the fitting scripts -/

/-- hacc_lastjourney_diffmah_fitter_script.py:102-104 (discovery: 104-106); `TMP_OUTPAT` line 14 -/
def rankBasepat (nchunks : ℕ) (isubvol : ℤ) (chunknum : ℕ) : Str :=
  let outbase_chunk := "subvol_".toList ++ intStr isubvol ++ "_chunk_".toList ++
    zpad (natStr nchunks).length chunknum
  joinWith '_' [outbase_chunk, "tmp_mah_fits_rank_{0}.dat".toList]

/-- The file rank `rank` writes, hacc_lastjourney_diffmah_fitter_script.py:105,127-128 -/
def rankOutname (outdir : Str) (nchunks : ℕ) (isubvol : ℤ) (chunknum rank : ℕ) : Str :=
  format0 (natStr rank) (pathJoin outdir (rankBasepat nchunks isubvol chunknum))

/-- The base name of the collated file, hacc_lastjourney_diffmah_fitter_script.py:136-137 -/
def collatedBasename (outdir : Str) (nchunks : ℕ) (isubvol : ℤ) (chunknum : ℕ) : Str :=
  joinWith '_' ((splitOn '_' (basename (rankOutname outdir nchunks isubvol chunknum 0))).take 4) ++
    ".hdf5".toList

/-- hacc_lastjourney_diffmah_fitter_script.py:138 -/
def collatedPath (outdir : Str) (nchunks : ℕ) (isubvol : ℤ) (chunknum : ℕ) : Str :=
  pathJoin outdir (collatedBasename outdir nchunks isubvol chunknum)

/-- The pattern of the files to remove, hacc_lastjourney_diffmah_fitter_script.py:143-145 -/
def cleanupPattern (outdir : Str) (nchunks : ℕ) (isubvol : ℤ) (chunknum : ℕ) : Str :=
  let bn := basename (rankOutname outdir nchunks isubvol chunknum 0)
  pathJoin outdir (joinWith '_' ((splitOn '_' bn).dropLast) ++ "_*.dat".toList)

/-- Whether the shell expands a pattern to a path: `*` stands for any text without a slash. (Other
special characters of patterns are outside the model; a `*` at the beginning of a name would not match
a leading dot.) -/
def globMatch : Str → Str → Bool
  | [], [] => true
  | [], _ :: _ => false
  | c :: p, [] => decide (c = '*') && globMatch p []
  | c :: p, d :: s =>
    if c = '*' then globMatch p (d :: s) || (decide (d ≠ '/') && globMatch (c :: p) s)
    else decide (c = d) && globMatch p s
termination_by p s => p.length + s.length

/-- A file of a fitting script: a text file, a collated file, or one whose writing is not finished -/
inductive OutFile where
  | text : Str → OutFile
  | h5 : H5 → OutFile
  | torn : OutFile

/-- `assert os.path.isfile(fit_fn)` and `np.genfromtxt(fit_fn, dtype="str")`,
hacc_lastjourney_diffmah_fitter_script.py:131-132. (Reading something else than a text file is taken
to fail.) -/
def readRankFile (fname : Str) : Prog (FS OutFile) StrArr :=
  Prog.bind Prog.get fun fs => match fs.lookup fname with
    | none => Prog.ofExcept (.error .assertionError)
    | some (.text s) => Prog.ofExcept (genfromtxt s)
    | some _ => Prog.ofExcept (.error .valueError)

/-- `cfh.write_collated_data(outfn, ...)`, hacc_lastjourney_diffmah_fitter_script.py:140 and
diffmah_fitter_helpers.py:172-215: the columns are converted first, then the file is opened and written -/
noncomputable def writeCollated (outfn : Str) (data : StrArr) : Prog (FS OutFile) Unit :=
  Prog.bind (Prog.ofExcept (write_collated_data data)) fun r => match r with
    | none => Prog.pure ()
    | some h => Prog.bind (Prog.act fun fs => Dict.set fs outfn .torn) fun _ =>
        Prog.act fun fs => Dict.set fs outfn (.h5 h)

/-- `os.system("rm " + pattern)`, hacc_lastjourney_diffmah_fitter_script.py:146-147: the files that
match are removed one by one; the exit status is ignored -/
def systemRm {F : Type} (pattern : Str) : Prog (FS F) Unit :=
  Prog.bind Prog.get fun fs =>
  Prog.bind (rmWords ((fs.map Prod.fst).filter (globMatch pattern))) fun _ =>
  Prog.pure ()

/-- What rank 0 does after the barrier, hacc_lastjourney_diffmah_fitter_script.py:127-147 -/
noncomputable def collateRanks (outdir : Str) (nchunks : ℕ) (isubvol : ℤ) (chunknum nranks : ℕ) :
    Prog (FS OutFile) Unit :=
  Prog.bind (Prog.each readRankFile
      ((List.range nranks).map (rankOutname outdir nchunks isubvol chunknum))) fun collector =>
  Prog.bind (Prog.ofExcept (concatenate collector)) fun chunk_fit_results =>
  Prog.bind (writeCollated (collatedPath outdir nchunks isubvol chunknum) chunk_fit_results) fun _ =>
  systemRm (cleanupPattern outdir nchunks isubvol chunknum)

/-- The changes one rank makes to the file system, hacc_lastjourney_diffmah_fitter_script.py:108-115:
opening its file empties it, and until it is closed its content on disk is not defined -/
noncomputable def rankActs (fname : Str) (fits : List Fit.FitResult) : List (FS OutFile → FS OutFile) :=
  (fun fs => Dict.set fs fname .torn) :: fits.map (fun _ fs => Dict.set fs fname .torn) ++
    [fun fs => Dict.set fs fname (.text (rankFile fits))]

/-- The processes run side by side between two barriers (`comm.Barrier()`,
hacc_lastjourney_diffmah_fitter_script.py:107,117): `todo` is what each has still to do, and at each
step any one of those that are not finished does its next action. -/
inductive Sched {S : Type} : List (List (S → S)) → S → List (List (S → S)) → S → Prop
  | done (todo : List (List (S → S))) (s : S) : Sched todo s todo s
  | step {todo todo' : List (List (S → S))} {s s' : S} (i : ℕ) (a : S → S) (rest : List (S → S)) :
      todo[i]? = some (a :: rest) → Sched (todo.set i rest) (a s) todo' s' → Sched todo s todo' s'

/-! ## Command lines -/

/-- argparse with `type=bool`: `bool(text)` is True for every text but the empty one -/
def argBool (s : Str) : Bool := decide (s ≠ [])

/-- `BNPAT.format(i)`, hacc_lastjourney_diffmah_fitter_script.py:20,67 -/
def bnameForest (i : Str) : Str := "m000p.coreforest.".toList ++ i ++ ".hdf5".toList

/-- `int(s.split(".")[2])`, hacc_lastjourney_diffmah_fitter_script.py:69 -/
def subvolOfName (s : Str) : Except PyErr ℤ :=
  match (splitOn '.' s)[2]? with
  | some w => pyInt w
  | none => .error .indexError

/-- The arguments that choose what is fitted; `none` if the option is not given -/
structure Selection where
  test : Option Str := none
  istart : Option ℤ := none
  iend : Option ℤ := none
  nchunks : Option ℕ := none
  num_subvols_tot : Option ℕ := none

/-- hacc_lastjourney_diffmah_fitter_script.py:72-77 (discovery: 80-85), from the base names of the
files available and the default of `-iend`. The result is the subvolumes and the chunks of each. -/
def selectSubvols (bnames : List Str) (iendDefault : ℤ) (a : Selection) :
    Except PyErr (List ℤ × List ℕ) := do
  let avail ← bnames.mapM subvolOfName
  let avail := avail.mergeSort fun x y => decide (x ≤ y)
  if (a.test.map argBool).getD false then
    match avail with
    | [] => .error .indexError
    | s :: _ => return ([s], [0, 1, 2])
  else
    return (pySlice avail (a.istart.getD 0) (some (a.iend.getD iendDefault)),
      List.range (a.nchunks.getD 20))

/-- What the Last Journey script fits, hacc_lastjourney_diffmah_fitter_script.py:22-23,35-77: the files
are not listed but numbered from 0; by default 256 files and `-iend` −1. -/
def lastJourneySelection (a : Selection) : Except PyErr (List ℤ × List ℕ) :=
  selectSubvols ((List.range (a.num_subvols_tot.getD 256)).map fun i => bnameForest (natStr i)) (-1) a

/-- What the Discovery script fits, hacc_discovery_sims_diffmah_fitter_script.py:22-23,37-85: the files
present (in any order); `-iend` is 96 by default. -/
def discoverySelection (bnames : List Str) (a : Selection) : Except PyErr (List ℤ × List ℕ) :=
  selectSubvols bnames 96 a

/-- The subvolumes of the Bolshoi-Planck script, bolshoi_planck_fitting_script.py:31-32,47-52 -/
def bplSubvolumes (istart iend : Option ℤ) : List ℤ := pyRange (istart.getD 0) (iend.getD 0 + 1)

end Diffmah.Scripts

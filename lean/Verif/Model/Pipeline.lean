import Verif.Model.Scripts

/-!
# The whole Last Journey run

Model of the loops of `/repo/scripts/fitting_scripts/hacc_lastjourney_diffmah_fitter_script.py` over
subvolumes and chunks, and of what `unchunk_last_journey_script.py` sees of the files it wrote.
-/

namespace Diffmah.Scripts

open Diffmah.Text Diffmah.IO

/-- What happens in one pass of the inner loop up to the end of the fits,
hacc_lastjourney_diffmah_fitter_script.py:93-117: `cat` is the table of the chunk, which
`load_mahs_per_rank` splits over the ranks (load_hacc_mahs.py:31-47,134-150); `t` is the file system
at some moment after the second barrier and before all ranks have reached the third, `todo` what they
have still to do. -/
def Fitting {H : Type} (fit : H → Fit.FitResult) (cat : List H) (outdir : Str) (nchunks : ℕ)
    (isubvol : ℤ) (chunknum nranks : ℕ) (fs : FS OutFile)
    (todo : List (List (FS OutFile → FS OutFile))) (t : FS OutFile) : Prop :=
  ∃ shares, array_split cat nranks = .ok shares ∧
    Sched ((List.range nranks).map fun r =>
      rankActs (rankOutname outdir nchunks isubvol chunknum r) ((shares.getD r []).map fit)) fs todo t

/-- One pass of the inner loop that comes to an end without exception,
hacc_lastjourney_diffmah_fitter_script.py:93-148 -/
def ChunkRun {H : Type} (fit : H → Fit.FitResult) (cat : List H) (outdir : Str) (nchunks : ℕ)
    (isubvol : ℤ) (chunknum nranks : ℕ) (fs t : FS OutFile) : Prop :=
  ∃ todo u tr, Fitting fit cat outdir nchunks isubvol chunknum nranks fs todo u ∧
    (∀ l ∈ todo, l = []) ∧
    collateRanks outdir nchunks isubvol chunknum nranks u = (tr, t, .ok ())

/-- The passes of the two loops, hacc_lastjourney_diffmah_fitter_script.py:85-148, for a list of pairs
of a subvolume and a chunk -/
inductive FitLoop {H : Type} (fit : H → Fit.FitResult) (cat : ℤ → ℕ → List H) (outdir : Str)
    (nchunks nranks : ℕ) : List (ℤ × ℕ) → FS OutFile → FS OutFile → Prop
  | nil (fs : FS OutFile) : FitLoop fit cat outdir nchunks nranks [] fs fs
  | cons {s : ℤ} {c : ℕ} {rest : List (ℤ × ℕ)} {fs t u : FS OutFile} :
      ChunkRun fit (cat s c) outdir nchunks s c nranks fs t →
      FitLoop fit cat outdir nchunks nranks rest t u →
      FitLoop fit cat outdir nchunks nranks ((s, c) :: rest) fs u

/-- The moments of the run during the pass for `(s, c)`: while the ranks fit, or while rank 0 collates -/
def ChunkMoment {H : Type} (fit : H → Fit.FitResult) (cat : List H) (outdir : Str) (nchunks : ℕ)
    (isubvol : ℤ) (chunknum nranks : ℕ) (fs t : FS OutFile) : Prop :=
  ∃ todo u, Fitting fit cat outdir nchunks isubvol chunknum nranks fs todo u ∧
    (t = u ∨ (∀ l ∈ todo, l = []) ∧ t ∈ (collateRanks outdir nchunks isubvol chunknum nranks u).1)

/-- The pairs of the two loops, hacc_lastjourney_diffmah_fitter_script.py:76-77,85,92 -/
def loopPairs (subvolumes : List ℤ) (nchunks : ℕ) : List (ℤ × ℕ) :=
  subvolumes.flatMap fun s => (List.range nchunks).map fun c => (s, c)

/-- A cell of a column of the collated file: a float or an integer -/
abbrev Cell := XR ⊕ ℤ

/-- The rows of a column -/
def cells : Col → List Cell
  | .floats l => l.map .inl
  | .ints l => l.map .inr

/-- The file as the collation script opens it with h5py: a text file is not an HDF5 file -/
def OutFile.asHdf : OutFile → File Cell
  | .text _ => .torn
  | .torn => .torn
  | .h5 h => .whole (.group (h.map fun c => (c.1, .dset (cells c.2))))

/-- The same file system, with the files as h5py sees them -/
def asHdf (fs : FS OutFile) : FS (File Cell) := fs.map fun kv => (kv.1, kv.2.asHdf)

end Diffmah.Scripts

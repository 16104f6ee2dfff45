import Verif.Model.Text
import Verif.Model.IO

/-!
# Data loaders

Model of `/repo/diffmah/data_loaders/load_hacc_mahs.py`, `load_bpl_um_data.py`, `load_tng_mahs.py`,
`load_diffmah_pub_data.py` and `load_galacticus_eps_mahs.py`. What the readers of the simulation
formats (haccytrees, umachine_pyio, np.load, h5py) return is an argument: tables of numbers, one row
per halo. Numbers are reals with NaN and the infinities (no rounding).
-/

namespace Diffmah.Loaders

open Diffmah.Text Diffmah.Fit

/-! ## Scattering an array over MPI ranks -/

/-- One event of `_scatter_nd`: the root keeps its own block, sends a block to a rank, or a rank
receives a block. -/
inductive Ev where
  | keep : Ev
  | send : ℕ → Ev
  | recv : ℕ → Ev
deriving DecidableEq

/-- The state of all ranks inside `_scatter_nd`: the loop index of the root, the messages on their
way to each rank, and what each rank has in `ans` (`none` before it is assigned). -/
structure Scatter (α : Type) where
  next : ℕ
  inbox : ℕ → List (List α)
  ans : ℕ → Option (List α)

/-- The state before the loop, load_hacc_mahs.py:37-40 -/
def Scatter.init (α : Type) : Scatter α := ⟨0, fun _ => [], fun _ => none⟩

/-- The steps of `_scatter_nd`, load_hacc_mahs.py:37-47, after the root has computed `splits`. The
root goes through the ranks in order, keeping or sending; any other rank takes the first message the
root sent to it as soon as there is one. Steps of different ranks interleave arbitrarily. Sends are
buffered here; a blocking send is a send immediately followed by the receive. -/
inductive Step {α : Type} (splits : List (List α)) (root : ℕ) :
    Scatter α → Ev → Scatter α → Prop where
  | keep (s : Scatter α) (b : List α) : s.next = root → splits[s.next]? = some b →
      Step splits root s .keep
        { s with next := s.next + 1, ans := Function.update s.ans root (some b) }
  | send (s : Scatter α) (b : List α) : s.next ≠ root → splits[s.next]? = some b →
      Step splits root s (.send s.next)
        { s with next := s.next + 1, inbox := Function.update s.inbox s.next (s.inbox s.next ++ [b]) }
  | recv (s : Scatter α) (r : ℕ) (b : List α) (rest : List (List α)) : r < splits.length →
      r ≠ root → s.ans r = none → s.inbox r = b :: rest →
      Step splits root s (.recv r)
        { s with inbox := Function.update s.inbox r rest, ans := Function.update s.ans r (some b) }

/-- A run of `_scatter_nd` up to some moment, with the list of events so far -/
inductive Exec {α : Type} (splits : List (List α)) (root : ℕ) : List Ev → Scatter α → Prop where
  | init : Exec splits root [] (Scatter.init α)
  | step {evs s e s'} : Exec splits root evs s → Step splits root s e s' →
      Exec splits root (evs ++ [e]) s'

/-- All ranks have returned from `_scatter_nd`: the root has finished its loop, the others have
received. -/
def Scatter.Done {α : Type} (s : Scatter α) (size : ℕ) : Prop :=
  s.next = size ∧ ∀ r < size, (s.ans r).isSome

/-- `load_mahs_per_rank`, load_hacc_mahs.py:134-150: what rank `r` returns once the scatter is done
(`bcast` gives every rank the root's time table) -/
def load_mahs_per_rank {α T : Type} (tarr : T) (s : Scatter α) (r : ℕ) : Option (T × List α) :=
  (s.ans r).map fun b => (tarr, b)

/-! ## Mass histories -/

/-- `load_mahs`, load_hacc_mahs.py:111-120: the table of masses read from the file (Msun/h; the reading, by
`_load_forest` of lines 50-69 through haccytrees, is not modelled), made cumulative and divided by
`sim.cosmo.h` -/
noncomputable def load_mahs (raw : List (List XR)) (h : XR) : List (List XR) :=
  raw.map fun row => (accumulate row).map (· / h)

/-- `np.clip(x, a_min=1.0, a_max=np.inf)`, load_bpl_um_data.py:71-73 -/
noncomputable def clip1 (x : XR) : XR := XR.max x (.fin 1.0)

/-- `load_bpl_mah_data`, load_bpl_um_data.py:65-89: halo ids, histories, times, minimum log-mass and
`lgt0`. `t_table` is `age_at_z` of the redshifts in the file; an empty one raises IndexError. -/
noncomputable def load_bpl_mah_data (halo_id : List ℤ) (raw : List (List XR)) (t_table : List XR) :
    Except PyErr (List ℤ × List (List XR) × List XR × XR × XR) :=
  match t_table.getLast? with
  | none => .error .indexError
  | some t0 => .ok (halo_id, raw.map fun row => (accumulate row).map clip1, t_table, .fin 10.0,
      XR.log10 t0)

open Classical in
/-- `x == 0`; false for NaN -/
noncomputable def isZero (x : XR) : Bool := decide (x = .fin 0)

/-- The conversion of `load_tng_data`, load_tng_mahs.py:15-17 -/
noncomputable def tngMah (log_mah : List XR) : List XR :=
  ((accumulate log_mah).map fun x => if isZero x then .fin 0.0 else XR.pow10 x).map
    fun x => x * (.fin 1 / .fin 0.6774)

open Classical in
/-- `load_tng_data`, load_tng_mahs.py:10-19. The maximum of an empty table raises ValueError, the
assertion fails if the maximum is not above 1e5. -/
noncomputable def load_tng_data (tng_t : List XR) (mpeakh : List (List XR)) :
    Except PyErr (List XR × List (List XR)) :=
  let mahs := mpeakh.map tngMah
  match npmax mahs.flatten with
  | .error e => .error e
  | .ok m => if XR.lt (.fin 1e5) m then .ok (tng_t, mahs) else .error .assertionError

/-- `load_tng_data` of the published data, load_diffmah_pub_data.py:11-18,
and its copy scripts/fitting_scripts/load_mah_data.py:11-18 -/
noncomputable def pub_load_tng_data (mpeak : List XR) (mpeakh : List (List XR)) (tng_t : List XR) :
    List ℕ × List (List XR) × List XR × XR :=
  (List.range mpeak.length, mpeakh.map accumulate, tng_t, .fin 10.0)

/-- `np.where(_mah == 0, 0, np.log10(_mah))`, load_diffmah_pub_data.py:30,46,
and its copy scripts/fitting_scripts/load_mah_data.py:30,46 -/
noncomputable def logOrZero (x : XR) : XR := if isZero x then .fin 0 else XR.log10 x

/-- `load_bolshoi_data`, load_diffmah_pub_data.py:21-34,
and its copy scripts/fitting_scripts/load_mah_data.py:21-34 -/
noncomputable def load_bolshoi_data (halo_id : List ℤ) (raw : List (List XR)) (bpl_t : List XR) :
    List ℤ × List (List XR) × List XR × XR :=
  (halo_id, raw.map fun row => (accumulate row).map logOrZero, bpl_t, .fin 10.0)

/-- `load_mdpl2_data`, load_diffmah_pub_data.py:37-50,
and its copy scripts/fitting_scripts/load_mah_data.py:37-50 -/
noncomputable def load_mdpl2_data (halo_id : List ℤ) (raw : List (List XR)) (mdpl2_t : List XR) :
    List ℤ × List (List XR) × List XR × XR :=
  (halo_id, raw.map fun row => (accumulate row).map logOrZero, mdpl2_t, .fin 11.25)

/-! ## Galacticus -/

/-- `extract_galacticus_mah_tables`, load_galacticus_eps_mahs.py:16-29, on the four datasets of the
file (`mass.length` is `get_nhalos_tot`, lines 9-13) -/
def extract_galacticus_mah_tables {A B C D : Type} (mass : List A) (time : List B) (iso : List C)
    (last : List D) (istart : ℤ := 0) (iend : Option ℤ := none) :
    List A × List B × List C × List D :=
  let iend : ℤ := match iend with
    | none => mass.length
    | some j => j
  (IO.pySlice mass istart (some iend), IO.pySlice time istart (some iend),
    IO.pySlice iso istart (some iend), IO.pySlice last istart (some iend))

/-- The range of haloes of one rank, galacticus_diffmah_fitter_script.py:59-63: `array_split` of the
halo numbers, then `indx_for_rank[0]` and `indx_for_rank[-1] + 1`; IndexError if the rank's share is
empty -/
def galacticusRange (nhalos_tot nranks rank : ℕ) : Except PyErr (ℕ × ℕ) := do
  let splits ← array_split (List.range nhalos_tot) nranks
  match splits[rank]? with
  | none => .error .indexError
  | some indx => match indx.head?, indx.getLast? with
    | some i, some j => .ok (i, j + 1)
    | _, _ => .error .indexError

end Diffmah.Loaders

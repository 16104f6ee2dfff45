import Verif.Model.Fitter
import Mathlib.Data.Int.Log

/-!
# Text input and output of the fitter

Model of the ASCII part of `/repo/diffmah/fitting_helpers/diffmah_fitter_helpers.py` at the level of
characters. Strings are lists of characters. Numbers printed with `{:.5e}` are rounded to six
significant digits (half to even), as in the code; reading a decimal is exact (rounding of the
decimal to the nearest double is not modelled).
-/

namespace Diffmah.Text

open Diffmah.Utils Diffmah.Fit

abbrev Str := List Char

/-! ## Python string primitives -/

/-- `str.strip()`, used at diffmah_fitter_helpers.py:24,356 -/
def strip (s : Str) : Str :=
  ((s.dropWhile Char.isWhitespace).reverse.dropWhile Char.isWhitespace).reverse

/-- The loop of `str.split()`; `cur` is the word read so far. -/
def splitFrom (cur : Str) : Str → List Str
  | [] => if cur = [] then [] else [cur]
  | c :: s =>
    if c.isWhitespace then
      if cur = [] then splitFrom [] s else cur :: splitFrom [] s
    else splitFrom (cur ++ [c]) s

/-- `str.split()`, used at diffmah_fitter_helpers.py:24,356: the maximal runs of characters that are
not white space -/
def split (s : Str) : List Str := splitFrom [] s

/-- `" ".join(words)`, diffmah_fitter_helpers.py:350 -/
def joinSpace : List Str → Str
  | [] => []
  | [w] => w
  | w :: w' :: ws => w ++ ' ' :: joinSpace (w' :: ws)

/-- `str(n)` of a non-negative integer -/
def natStr (n : ℕ) : Str := Nat.toDigits 10 n

/-- `str(n)` of an integer, diffmah_fitter_helpers.py:346,348 -/
def intStr (n : ℤ) : Str := if n < 0 then '-' :: natStr n.natAbs else natStr n.natAbs

/-- A run of decimal digits as a number -/
def digitsVal (s : Str) : ℕ := Nat.ofDigitChars 10 s 0

/-- The unsigned part of `int(s)`: one or more digits (underscores are not modelled) -/
def pyNat (s : Str) : Except PyErr ℕ :=
  if s ≠ [] ∧ s.all Char.isDigit = true then .ok (digitsVal s) else .error .valueError

/-- `int(s)` of a string without surrounding white space, diffmah_fitter_helpers.py:357; ValueError
if it is not a decimal integer -/
def pyInt : Str → Except PyErr ℤ
  | '-' :: s => (pyNat s).map fun n : ℕ => -(n : ℤ)
  | '+' :: s => (pyNat s).map fun n : ℕ => (n : ℤ)
  | s => (pyNat s).map fun n : ℕ => (n : ℤ)

/-- The exponent part of `float(s)`: nothing, or `e`/`E` followed by an integer -/
def pyExp : Str → Except PyErr ℤ
  | [] => .ok 0
  | c :: s => if c = 'e' ∨ c = 'E' then pyInt s else .error .valueError

/-- The unsigned part of `float(s)`: `digits[.digits][e[sign]digits]` with at least one digit before
or after the point, `nan` or `inf` (other spellings of these, and underscores, are not modelled) -/
noncomputable def pyUFloat (s : Str) : Except PyErr XR :=
  if s = ['n', 'a', 'n'] then .ok XR.nan
  else if s = ['i', 'n', 'f'] then .ok XR.pinf
  else
    let ip := s.takeWhile Char.isDigit
    let rest := s.dropWhile Char.isDigit
    let fp := match rest with
      | '.' :: r => r.takeWhile Char.isDigit
      | _ => []
    let ep := match rest with
      | '.' :: r => r.dropWhile Char.isDigit
      | _ => rest
    if ip ++ fp = [] then .error .valueError
    else (pyExp ep).map fun e =>
      XR.fin ((digitsVal (ip ++ fp) : ℝ) * (10 : ℝ) ^ (e - (fp.length : ℤ)))

/-- `float(s)`, diffmah_fitter_helpers.py:357 -/
noncomputable def pyFloat : Str → Except PyErr XR
  | '-' :: s => (pyUFloat s).map XR.neg
  | '+' :: s => pyUFloat s
  | s => pyUFloat s

/-! ## `"{:.5e}".format(x)` -/

open Classical in
/-- Round to the nearest integer, ties to even -/
noncomputable def roundHalfEven (x : ℝ) : ℤ :=
  if x - ⌊x⌋ < 1 / 2 then ⌊x⌋
  else if 1 / 2 < x - ⌊x⌋ then ⌊x⌋ + 1
  else if Even ⌊x⌋ then ⌊x⌋ else ⌊x⌋ + 1

/-- Six-digit mantissa and exponent of a positive number -/
noncomputable def sciParts (x : ℝ) : ℕ × ℤ :=
  let e := Int.log 10 x
  let n := (roundHalfEven (x * (10 : ℝ) ^ (5 - e))).toNat
  if n = 10 ^ 6 then (10 ^ 5, e + 1) else (n, e)

/-- The exponent field: a sign and at least two digits -/
def expStr (e : ℤ) : Str :=
  (if e < 0 then '-' else '+') ::
    (if (natStr e.natAbs).length < 2 then '0' :: natStr e.natAbs else natStr e.natAbs)

/-- `d.ddddde+XX` from a six-digit mantissa and an exponent -/
def sciStr (n : ℕ) (e : ℤ) : Str :=
  (natStr n).take 1 ++ '.' :: (natStr n).drop 1 ++ 'e' :: expStr e

open Classical in
/-- `"{:.5e}".format(float(x))`, diffmah_fitter_helpers.py:339 (the sign of zero is not modelled) -/
noncomputable def fmt5e : XR → Str
  | XR.nan => ['n', 'a', 'n']
  | XR.pinf => ['i', 'n', 'f']
  | XR.ninf => ['-', 'i', 'n', 'f']
  | XR.fin x =>
    if x = 0 then ['0', '.', '0', '0', '0', '0', '0', 'e', '+', '0', '0']
    else if x < 0 then '-' :: sciStr (sciParts (-x)).1 (sciParts (-x)).2
    else sciStr (sciParts x).1 (sciParts x).2

/-! ## Result lines -/

/-- `HEADER`, diffmah_fitter_helpers.py:23 -/
def HEADER : Str := "# logm0 logtc early_index late_index t_peak loss n_points_per_fit fit_algo\n".toList

/-- `FIT_COLNAMES`, diffmah_fitter_helpers.py:24 -/
def FIT_COLNAMES : List Str := split (strip (HEADER.drop 1))

/-- `HEADER_HALO_ID`, diffmah_fitter_helpers.py:27 -/
def HEADER_HALO_ID : Str := "# halo_id".toList ++ HEADER.drop 1

/-- `DiffmahFitData`, diffmah_fitter_helpers.py:25 -/
structure FitData where
  logm0 : XR
  logtc : XR
  early_index : XR
  late_index : XR
  t_peak : XR
  loss : XR
  n_points_per_fit : ℤ
  fit_algo : ℤ

/-- The fields of one result line, diffmah_fitter_helpers.py:338-348 -/
noncomputable def outFields (r : FitResult) (halo_id : Option ℤ) : List Str :=
  let floats := [r.p_best.logm0, r.p_best.logtc, r.p_best.early_index, r.p_best.late_index,
    r.p_best.t_peak, r.loss_best]
  let out_list := floats.map fmt5e
  let npts_mah := compute_non_trivial_npts r.loss_data.log_mah_target
  let out_list := out_list ++ [natStr npts_mah, intStr r.code_used]
  match halo_id with
  | none => out_list
  | some h => intStr h :: out_list

/-- `get_outline`, diffmah_fitter_helpers.py:336-351 -/
noncomputable def get_outline (r : FitResult) (halo_id : Option ℤ := none) : Str :=
  joinSpace (outFields r halo_id) ++ ['\n']

/-- `_parse_outline`, diffmah_fitter_helpers.py:354-359. `zip` drops fields after the eighth; the
namedtuple constructor raises TypeError if there are fewer than eight. Conversions run left to right. -/
noncomputable def parse_outline (outline : Str) : Except PyErr FitData :=
  let conv (l : List Str) : Except PyErr (List XR) := l.mapM pyFloat
  let convI (l : List Str) : Except PyErr (List ℤ) := l.mapM pyInt
  let outdata := split (strip outline)
  do
    let fs ← conv (outdata.take 6)
    let is ← convI ((outdata.drop 6).take 2)
    match fs, is with
    | [a, b, c, d, e, f], [i, j] => return ⟨a, b, c, d, e, f, i, j⟩
    | _, _ => .error .typeError

/-! ## The collated file -/

/-- A table of strings as NumPy sees it: one- or two-dimensional -/
inductive StrArr where
  | d1 : List Str → StrArr
  | d2 : (ncol : ℕ) → List (List Str) → StrArr

/-- One column of the output file -/
inductive Col where
  | floats : List XR → Col
  | ints : List ℤ → Col

/-- A flat HDF5 file: named columns in the order they were written -/
abbrev H5 := List (Str × Col)

/-- Column `j` of a two-dimensional array of strings (all rows have more than `j` fields) -/
def strCol (rows : List (List Str)) (j : ℕ) : List Str := rows.map fun r => r.getD j []

/-- `fit_data_strings[:, j].astype(float)` -/
noncomputable def floatCol (rows : List (List Str)) (j : ℕ) : Except PyErr (List XR) :=
  (strCol rows j).mapM pyFloat

/-- `fit_data_strings[:, j].astype(int)` -/
def intCol (rows : List (List Str)) (j : ℕ) : Except PyErr (List ℤ) := (strCol rows j).mapM pyInt

/-- `write_collated_data`, diffmah_fitter_helpers.py:172-215. The result is the file written, `none`
if no file is written. `shape[1]` of a one-dimensional array raises IndexError. -/
noncomputable def write_collated_data : StrArr → Except PyErr (Option H5)
  | .d1 _ => .error .indexError
  | .d2 ncol rows =>
    if ncol = 8 then do
      let logm0 ← floatCol rows 0
      let logtc ← floatCol rows 1
      let early_index ← floatCol rows 2
      let late_index ← floatCol rows 3
      let t_peak ← floatCol rows 4
      let loss ← floatCol rows 5
      let n_points_per_fit ← intCol rows 6
      let fit_algo ← intCol rows 7
      return some [("logm0".toList, .floats logm0), ("logtc".toList, .floats logtc),
        ("early_index".toList, .floats early_index), ("late_index".toList, .floats late_index),
        ("t_peak".toList, .floats t_peak), ("loss".toList, .floats loss),
        ("n_points_per_fit".toList, .ints n_points_per_fit), ("fit_algo".toList, .ints fit_algo)]
    else if ncol = 9 then do
      let halo_id ← intCol rows 0
      let logm0 ← floatCol rows 1
      let logtc ← floatCol rows 2
      let early_index ← floatCol rows 3
      let late_index ← floatCol rows 4
      let t_peak ← floatCol rows 5
      let loss ← floatCol rows 6
      let n_points_per_fit ← intCol rows 7
      let fit_algo ← intCol rows 8
      return some [("halo_id".toList, .ints halo_id),
        ("logm0".toList, .floats logm0), ("logtc".toList, .floats logtc),
        ("early_index".toList, .floats early_index), ("late_index".toList, .floats late_index),
        ("t_peak".toList, .floats t_peak), ("loss".toList, .floats loss),
        ("n_points_per_fit".toList, .ints n_points_per_fit), ("fit_algo".toList, .ints fit_algo)]
    else return none

/-! ## Reading the per-rank files -/

/-- The loop of splitting a text into lines; `cur` is the current line -/
def linesFrom (cur : Str) : Str → List Str
  | [] => if cur = [] then [] else [cur]
  | c :: s => if c = '\n' then cur :: linesFrom [] s else linesFrom (cur ++ [c]) s

/-- The lines of a text file -/
def lines (s : Str) : List Str := linesFrom [] s

/-- The rows `np.genfromtxt` sees: comments after `#` removed, split at white space, empty lines
skipped -/
def textRows (s : Str) : List (List Str) :=
  ((lines s).map fun l => split (l.takeWhile fun c => decide (c ≠ '#'))).filter (· ≠ [])

/-- `np.genfromtxt(fn, dtype="str")`, tng_diffmah_fitter_script.py:98: an empty file gives an array
of shape `(0,)`, a single row one of shape `(ncol,)`, otherwise `(nrow, ncol)`; rows of different
lengths raise ValueError. (A file with a single column would also be one-dimensional; result lines
have eight or nine.) -/
def genfromtxt (s : Str) : Except PyErr StrArr :=
  match textRows s with
  | [] => .ok (.d1 [])
  | [r] => .ok (.d1 r)
  | r :: rows => if rows.all (fun r' => r'.length == r.length) then .ok (.d2 r.length (r :: rows))
      else .error .valueError

/-- `np.concatenate` of two arrays along the first axis: ValueError unless the numbers of dimensions
and of columns agree -/
def concat2 : StrArr → StrArr → Except PyErr StrArr
  | .d1 a, .d1 b => .ok (.d1 (a ++ b))
  | .d2 n a, .d2 m b => if n = m then .ok (.d2 n (a ++ b)) else .error .valueError
  | _, _ => .error .valueError

/-- `np.concatenate(collector)`, tng_diffmah_fitter_script.py:100; ValueError for an empty list -/
def concatenate : List StrArr → Except PyErr StrArr
  | [] => .error .valueError
  | a :: l => l.foldlM concat2 a

/-! ## Parallel fitting -/

/-- The sizes of the sections of `np.array_split` -/
def sectionSizes (n k : ℕ) : List ℕ :=
  List.replicate (n % k) (n / k + 1) ++ List.replicate (k - n % k) (n / k)

/-- Cut a list into consecutive pieces of the given sizes -/
def cut {α : Type} : List ℕ → List α → List (List α)
  | [], _ => []
  | n :: ns, l => l.take n :: cut ns (l.drop n)

/-- `np.array_split(l, k)`, tng_diffmah_fitter_script.py:58; ValueError for no sections -/
def array_split {α : Type} (l : List α) (k : ℕ) : Except PyErr (List (List α)) :=
  if k = 0 then .error .valueError else .ok (cut (sectionSizes l.length k) l)

/-- The file one rank writes, tng_diffmah_fitter_script.py:75-82 -/
noncomputable def rankFile (fits : List FitResult) : Str :=
  HEADER ++ (fits.map fun r => get_outline r).flatten

/-- What rank 0 does with the files of all ranks, tng_diffmah_fitter_script.py:94-106 -/
noncomputable def collate (files : List Str) : Except PyErr (Option H5) := do
  let collector ← files.mapM genfromtxt
  let chunk_fit_results ← concatenate collector
  write_collated_data chunk_fit_results

/-- tng_diffmah_fitter_script.py:57-106 (the other fitting scripts repeat this per chunk): split the
haloes over the ranks, fit, write one file per rank, collate. `fit` is `diffmah_fitter` on one halo,
assumed not to raise. -/
noncomputable def parallel_fit {H : Type} (fit : H → FitResult) (haloes : List H) (nranks : ℕ) :
    Except PyErr (Option H5) := do
  let shares ← array_split haloes nranks
  collate (shares.map fun hs => rankFile (hs.map fit))

end Diffmah.Text

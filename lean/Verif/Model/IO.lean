import Verif.Model.Text

/-!
# Flat HDF5 files and named tuples on disk

Model of `/repo/diffmah/data_loaders/io_utils.py`. An HDF5 file is a tree of groups and datasets;
a dataset is the list of its rows. Opening a file and storing single values are done by h5py, which
is trusted to return what was stored. Names are lists of characters.
-/

namespace Diffmah.IO

open Diffmah.Text

/-! ## Python primitives -/

/-- The loop of `s.split(sep)`; `cur` is the piece read so far. -/
def splitOnFrom (sep : Char) (cur : Str) : Str → List Str
  | [] => [cur]
  | c :: s => if c = sep then cur :: splitOnFrom sep [] s else splitOnFrom sep (cur ++ [c]) s

/-- `s.split(sep)` for a one-character separator, io_utils.py:61 -/
def splitOn (sep : Char) (s : Str) : List Str := splitOnFrom sep [] s

/-- `sep.join(words)` for a one-character separator -/
def joinWith (sep : Char) : List Str → Str
  | [] => []
  | [w] => w
  | w :: w' :: ws => w ++ sep :: joinWith sep (w' :: ws)

/-- One bound of a Python slice over a sequence of length `n`: negative bounds count from the end,
bounds outside the sequence are moved to its ends. -/
def sliceBound (n : ℕ) (k : ℤ) : ℕ := if k < 0 then (k + n).toNat else min k.toNat n

/-- `l[i:j]` (`l[i:]` if `j` is `none`), io_utils.py:64,66 -/
def pySlice {α : Type} (l : List α) (i : ℤ) (j : Option ℤ) : List α :=
  let stop := match j with
    | none => l.length
    | some j => sliceBound l.length j
  (l.take stop).drop (sliceBound l.length i)

/-- A dictionary with string keys: pairs in insertion order -/
abbrev Dict (α : Type) := List (Str × α)

/-- `d[k] = v`: an existing key keeps its position, a new one is appended -/
def Dict.set {α : Type} (d : Dict α) (k : Str) (v : α) : Dict α :=
  if (d.map Prod.fst).contains k then d.map fun kv => if kv.1 = k then (k, v) else kv
  else d ++ [(k, v)]

/-! ## HDF5 files -/

/-- A dataset (its rows) or a group (its members in the order h5py lists them) -/
inductive Node (R : Type) where
  | dset : List R → Node R
  | group : List (Str × Node R) → Node R

/-- `node[path]` for a path already cut at its slashes: empty components are ignored, a missing name
raises KeyError (indexing a dataset by a name is an error of another kind, ValueError) -/
def Node.get {R : Type} : Node R → List Str → Except PyErr (Node R)
  | n, [] => .ok n
  | n, c :: path =>
    if c = [] then n.get path
    else match n with
      | .dset _ => .error .valueError
      | .group ms => match ms.lookup c with
        | some m => m.get path
        | none => .error .keyError

/-- `hdf[key]`, io_utils.py:53,64,66 -/
def Node.item {R : Type} (n : Node R) (key : Str) : Except PyErr (Node R) := n.get (splitOn '/' key)

/-- `list(node.keys())`, io_utils.py:48,53; a dataset has no keys -/
def Node.keys {R : Type} : Node R → Except PyErr (List Str)
  | .dset _ => .error .attributeError
  | .group ms => .ok (ms.map Prod.fst)

/-- `node[i:j]`, io_utils.py:63-66; a group cannot be sliced. (h5py reads slices as Python does and
returns an empty array if the end is before the start.) -/
def Node.slice {R : Type} (n : Node R) (i : ℤ) (j : Option ℤ) : Except PyErr (List R) :=
  match n with
  | .dset rows => .ok (pySlice rows i j)
  | .group _ => .error .typeError

/-- io_utils.py:46-55 -/
def keysIn {R : Type} (hdf : Node R) (keys : Option (List Str)) (dataset : Option Str) :
    Except PyErr (List Str) :=
  match dataset with
  | none => match keys with
    | none => hdf.keys
    | some ks => .ok ks
  | some ds => match keys with
    | none => do
      let g ← hdf.item ds
      let ks ← g.keys
      return ks.map fun key => ds ++ '/' :: key
    | some ks => .ok (ks.map fun key => ds ++ '/' :: key)

/-- io_utils.py:58-61 -/
def keyOut (dataset : Option Str) (key_in : Str) : Except PyErr Str :=
  match dataset with
  | none => .ok key_in
  | some _ => match (splitOn '/' key_in)[1]? with
    | some k => .ok k
    | none => .error .indexError

/-- One pass of the loop, io_utils.py:57-66 -/
def loadKey {R : Type} (hdf : Node R) (istart : ℤ) (iend : Option ℤ) (dataset : Option Str)
    (data : Dict (List R)) (key_in : Str) : Except PyErr (Dict (List R)) := do
  let key_out ← keyOut dataset key_in
  let n ← hdf.item key_in
  let rows ← n.slice istart iend
  return data.set key_out rows

/-- `load_flat_hdf5`, io_utils.py:17-68, on the content `hdf` of the file -/
def load_flat_hdf5 {R : Type} (hdf : Node R) (istart : ℤ := 0) (iend : Option ℤ := none)
    (keys : Option (List Str) := none) (dataset : Option Str := none) :
    Except PyErr (Dict (List R)) := do
  let keys_in ← keysIn hdf keys dataset
  keys_in.foldlM (loadKey hdf istart iend dataset) []

/-! ## Named tuples on disk -/

/-- Python's reserved words (`keyword.kwlist`) -/
def KEYWORDS : List Str := ["False", "None", "True", "and", "as", "assert", "async", "await", "break",
  "class", "continue", "def", "del", "elif", "else", "except", "finally", "for", "from", "global",
  "if", "import", "in", "is", "lambda", "nonlocal", "not", "or", "pass", "raise", "return", "try",
  "while", "with", "yield"].map String.toList

/-- `s.isidentifier()`. For characters outside ASCII the Unicode tables are the parameter `uni`. -/
def isIdentifier (uni : Char → Bool) : Str → Bool
  | [] => false
  | c :: s => (c.isAlpha || c == '_' || (decide (128 ≤ c.toNat) && uni c)) &&
      s.all fun c => c.isAlphanum || c == '_' || (decide (128 ≤ c.toNat) && uni c)

/-- The checks of `namedtuple("Params", pnames)`, io_utils.py:86; ValueError if one fails -/
def namedtupleCheck (uni : Char → Bool) (pnames : List Str) : Except PyErr Unit :=
  if (pnames.all fun f => isIdentifier uni f && !(KEYWORDS.contains f) && !(f.head? == some '_')) &&
      decide pnames.Nodup
  then .ok () else .error .valueError

/-- What the file holds: the values under their names, and the attribute `_fields` if it was written -/
structure NTFile (V : Type) where
  dsets : Dict V
  fields : Option (List Str)

/-- `np.array(names, dtype="S")`, io_utils.py:76: every name is encoded as ASCII (UnicodeEncodeError,
a ValueError, if it cannot be) and padded with NUL to the longest -/
def npBytes (names : List Str) : Except PyErr (List Str) :=
  if names.all fun s => s.all fun c => decide (c.toNat < 128) then
    let w := (names.map List.length).foldl max 1
    .ok (names.map fun s => s ++ List.replicate (w - s.length) '\x00')
  else .error .valueError

/-- Reading an entry of an array of dtype "S" drops the trailing NULs; `f.decode()`, io_utils.py:83 -/
def npDecode (s : Str) : Str := (s.reverse.dropWhile (· == '\x00')).reverse

/-- `hdf[pname] = pval`, io_utils.py:75: ValueError if the name is in use -/
def createDset {V : Type} (d : Dict V) (kv : Str × V) : Except PyErr (Dict V) :=
  if (d.map Prod.fst).contains kv.1 then .error .valueError else .ok (d ++ [kv])

/-- `write_namedtuple_to_hdf5`, io_utils.py:71-76, for the named tuple with the given (name, value)
pairs. The second component says whether an exception is raised; the first is the file left behind
(if writing a value fails, `dsets` is not specified further and left empty). -/
def write_namedtuple_to_hdf5 {V : Type} (nt : List (Str × V)) : NTFile V × Except PyErr Unit :=
  match nt.foldlM createDset [] with
  | .error e => (⟨[], none⟩, .error e)
  | .ok d => match npBytes (nt.map Prod.fst) with
    | .error e => (⟨d, none⟩, .error e)
    | .ok b => (⟨d, some b⟩, .ok ())

/-- `hdf[pname][()]`, io_utils.py:85 -/
def readDset {V : Type} (d : Dict V) (pname : Str) : Except PyErr V :=
  match d.lookup pname with
  | some v => .ok v
  | none => .error .keyError

/-- `load_namedtuple_from_hdf5`, io_utils.py:79-88 -/
def load_namedtuple_from_hdf5 {V : Type} (uni : Char → Bool) (f : NTFile V) :
    Except PyErr (List (Str × V)) :=
  match f.fields with
  | none => .error .keyError
  | some fields => do
    let pnames := fields.map npDecode
    let values ← pnames.mapM (readDset f.dsets)
    namedtupleCheck uni pnames
    return pnames.zip values

end Diffmah.IO

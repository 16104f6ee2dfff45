import Verif.Model.Utils

/-!
# Model of the named tuples and ordered dictionaries used by `/repo/diffmah/diffmahpop_kernels`

Parameter sets are Python `namedtuple`s; the code reads them by attribute name
(`params.x`, `getattr(params, name)`), builds them positionally (`T(*values)`) and overlays them by
name (`_replace(**other._asdict())`). A named tuple, or an `OrderedDict` with string keys, is the
list of its (name, value) pairs in order.
-/

namespace Diffmah

/-- A named tuple or ordered dictionary: (name, value) pairs in order. -/
abbrev NT (α : Type) := List (String × α)

namespace NT

variable {α β : Type}

/-- `nt._fields`, `list(d.keys())` -/
def fields (p : NT α) : List String := p.map Prod.fst

/-- `tuple(nt)`, `list(d.values())` -/
def values (p : NT α) : List α := p.map Prod.snd

/-- `nt.name`, `getattr(nt, name)` -/
def getattr (p : NT α) (name : String) : Except PyErr α :=
  match p.lookup name with
  | some v => .ok v
  | none => .error .attributeError

/-- `[getattr(nt, name) for name in names]` -/
def getattrs (p : NT α) (names : List String) : Except PyErr (List α) := names.mapM p.getattr

/-- `T(*values)` for a namedtuple class `T` with the given fields -/
def make (fields : List String) (vals : List α) : Except PyErr (NT α) :=
  if vals.length = fields.length then .ok (fields.zip vals) else .error .typeError

/-- `nt._replace(**other._asdict())`: `ValueError` on unexpected names -/
def replace (p other : NT α) : Except PyErr (NT α) :=
  if other.fields.all (fun k => p.fields.contains k) then
    .ok (p.map fun kv => (kv.1, (other.lookup kv.1).getD kv.2))
  else .error .valueError

/-- `d[k] = v`: an existing key keeps its position, a new one is appended -/
def setitem (d : NT α) (k : String) (v : α) : NT α :=
  if d.fields.contains k then d.map fun kv => if kv.1 = k then (k, v) else kv else d ++ [(k, v)]

/-- `d.update(e)` -/
def update (d e : NT α) : NT α := e.foldl (fun d kv => setitem d kv.1 kv.2) d

end NT

end Diffmah

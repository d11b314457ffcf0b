import Verif.Model.Description
/-!
# Columns: reading and writing cells

Model of `Column` in `/repo/src/csvw/metadata.py` 758–860.
-/

namespace Csvw

/-- A `Column` (759–781). `titles` is `None` or a `NaturalLanguage`. Simplifications: `name`, and `virtual`, are converted
with `utils.converter`, which lets lists pass; here they are a string or `None`, and a truth value. -/
structure Column where
  props : Descr := {}
  name : Option Str := none
  titles : Option NatLang := none
  virtual : Bool := false
  suppressOutput : Bool := false
  /-- `_number`, set by the schema (951). -/
  number : Nat := 0
  deriving DecidableEq, Repr

/-- `titles.getfirst()` where a missing or empty value is `none`. (An empty list of titles raises `IndexError` in the code,
as soon as the header is needed; here it counts as missing.) -/
def NatLang.first (n : Option NatLang) : Option Str :=
  match n with
  | none => none
  | some n => match Dict.get none n with
    | some (s :: _) => some s
    | _ => none

/-- `x or None` for strings. -/
def nonEmpty (s : Option Str) : Option Str := s.filter (· ≠ [])

/-- `str(n)` for a natural number. -/
def natText (n : Nat) : Str := (toString n).toList

/-- `_col.{}`. -/
def colNumber (n : Nat) : Str := "_col.".toList ++ natText n

/-- `header`, i.e. `str(column)` (783–786, 796–798): the name, else the first title, else the number. -/
def Column.header (c : Column) : Str :=
  ((nonEmpty c.name).or (nonEmpty (NatLang.first c.titles))).getD (colNumber c.number)

/-- A column with its ancestors (schema, table, table group). -/
structure CCol where
  col : Column
  parents : List Descr := []
  deriving DecidableEq, Repr

namespace CCol

def chain (c : CCol) : List Descr := c.col.props :: c.parents

/-- `bool(self.inherit('required'))` (801). -/
def required (c : CCol) : Bool :=
  match inherit .required c.chain with
  | .json j => j.truthy
  | _ => true

/-- `self.inherit_null()` (802). -/
def null (c : CCol) : List Str := inheritNull c.chain

/-- `self.inherit('default')` (803), which is never `None`. -/
def default (c : CCol) : Str := c.col.props.default

/-- `self.inherit('separator')` (804, 839): `none` if falsy; a list of strings, which the converter lets pass, is `error`. -/
def separator (c : CCol) : Res (Option Str) :=
  match inherit .separator c.chain with
  | .json (.str s) => .ok (nonEmpty (some s))
  | .json j => if j.truthy then .error .typeError else .ok none
  | _ => .error .typeError

/-- `self.inherit('datatype')` (805, 841): `none` if falsy. -/
def datatype (c : CCol) : Option Datatype :=
  match inherit .datatype c.chain with
  | .dtype d => some d
  | _ => none

/-- A cell before the datatype is applied (807–825): `None`, a string, or a list. -/
inductive Raw where
  | none
  | one (s : Str)
  | many (l : List (Option Str))
  deriving DecidableEq, Repr

/-- `v or default`. -/
def orDefault (c : CCol) (v : Str) : Str := if v = [] then c.default else v

/-- `None if vv in null else vv`. -/
def unNull (c : CCol) (v : Str) : Option Str := if v ∈ c.null then Option.none else some v

/-- Splitting and null values (816–825), for a cell where the default value was already used. -/
def prepare (c : CCol) (v : Str) : Res Raw :=
  match c.separator with
  | .ok Option.none => .ok (if v ∈ c.null then .none else .one v)
  | .ok (some sep) =>
    if v = [] then .ok (.many [])
    else if v ∈ c.null then .ok .none
    else .ok (.many ((Py.split sep v).map fun vv => c.unNull (c.orDefault vv)))
  | .error e =>
    if v = [] then .ok (.many [])
    else if v ∈ c.null then .ok .none
    else .error e

/-- `datatype.read(v)` for a string or `None`. -/
def readItem (ext : Ext) (d : Datatype) : Option Str → Res Val
  | Option.none => .ok .none
  | some s => d.read ext s

/-- `[datatype.read(vv) for vv in v]`. -/
def readItems (ext : Ext) (d : Datatype) : List (Option Str) → Res (List Val)
  | [] => .ok []
  | v :: r => match readItem ext d v with
    | .error e => .error e
    | .ok w => match readItems ext d r with
      | .error e => .error e
      | .ok ws => .ok (w :: ws)

/-- A string or `None` as value. -/
def rawVal : Option Str → Val
  | Option.none => .none
  | some s => .str s

/-- Applying the datatype (827–836), in strict mode. -/
def applyDt (ext : Ext) (dt : Option Datatype) (r : Raw) : Res CVal :=
  match dt, r with
  | Option.none, .none => .ok (.one .none)
  | Option.none, .one s => .ok (.one (.str s))
  | Option.none, .many l => .ok (.many (l.map rawVal))
  | some d, .many l => (readItems ext d l).map .many
  | some d, .one s => (readItem ext d (some s)).map .one
  | some d, .none => (readItem ext d Option.none).map .one

/-- `read(v)` in strict mode (800–836). -/
def read (ext : Ext) (c : CCol) (v : Str) : Res CVal :=
  let v := c.orDefault v
  if c.required && decide (v ∈ c.null) then .error .valueError
  else match c.prepare v with
    | .error e => .error e
    | .ok r => applyDt ext c.datatype r

/-- `read(v, strict=False)` (800–836): the result and whether a warning is issued (besides `readWarns`). A list with an item which is no value of
the datatype is returned as list of strings. -/
def readLax (ext : Ext) (c : CCol) (v : Str) : Res CVal × Bool :=
  let v := c.orDefault v
  if c.required && decide (v ∈ c.null) then (.error .valueError, true)
  else match c.prepare v with
    | .error e => (.error e, false)
    | .ok (.many l) => match applyDt ext c.datatype (.many l) with
      | .error .valueError => (.ok (.many (l.map rawVal)), true)
      | r => (r, false)
    | .ok r => (applyDt ext c.datatype r, false)

/-- Do `datatype.read(vv) for vv in v` issue warnings? They end with the first exception. -/
def itemsWarn (ext : Ext) (d : Datatype) : List (Option Str) → Bool
  | [] => false
  | Option.none :: r => itemsWarn ext d r
  | some s :: r => d.parseWarns ext s || match d.read ext s with
    | .ok _ => itemsWarn ext d r
    | .error _ => false

/-- Does reading the value as one of the datatype (827–836) issue a warning? -/
def readWarns (ext : Ext) (c : CCol) (v : Str) : Bool :=
  let v := c.orDefault v
  if c.required && decide (v ∈ c.null) then false
  else match c.datatype, c.prepare v with
    | some d, .ok (.one s) => d.parseWarns ext s
    | some d, .ok (.many l) => itemsWarn ext d l
    | _, _ => false

/-- `fmt(v)` (843–848). -/
def fmt (ext : Ext) (c : CCol) (v : Val) : Res Val :=
  if v = .none then
    match c.null with
    | [] => .error .indexError
    | s :: _ => .ok (.str s)
  else match c.datatype with
    | some d => (d.formatted ext v).map .str
    | Option.none => .ok v

/-- The formatted items as strings: `sep.join` raises `TypeError` for other objects (851). -/
def fmtAll (ext : Ext) (c : CCol) : List Val → Res (List Str)
  | [] => .ok []
  | v :: r => match fmt ext c v with
    | .error e => .error e
    | .ok (.str s) => match fmtAll ext c r with
      | .error e => .error e
      | .ok ss => .ok (s :: ss)
    | .ok _ => match fmtAll ext c r with
      | .error e => .error e
      | .ok _ => .error .typeError

/-- The items of `v or []` (851) for a scalar: nothing for falsy values, the characters of a string, the integers of a byte
string; objects which are not iterable raise `TypeError`. (JSON values are not modelled here: `TypeError`.) -/
def items (ext : Ext) (v : Val) : Res (List Val) :=
  if !v.truthy ext then .ok []
  else match v with
    | .str s => .ok (s.map fun ch => .str [ch])
    | .bytes b => .ok (b.map fun n => .int n.toNat)
    | _ => .error .typeError

/-- The items of `v or []`. -/
def itemsOf (ext : Ext) : CVal → Res (List Val)
  | .many l => .ok l
  | .one w => items ext w

/-- `write(v)` (838–852). A list written to a column without separator is not modelled (`TypeError`). -/
def write (ext : Ext) (c : CCol) (v : CVal) : Res Val :=
  match c.separator with
  | .error _ => .error .attributeError
  | .ok (some sep) =>
    match itemsOf ext v with
    | .error e => .error e
    | .ok l => (fmtAll ext c l).map fun ss => .str (Py.join sep ss)
  | .ok Option.none => match v with
    | .one w => fmt ext c w
    | .many _ => .error .typeError

end CCol
end Csvw

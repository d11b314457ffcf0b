import Verif.Model.Datatypes
import Verif.Model.Dialect
/-!
# Derived datatypes

Model of the class `Datatype` in `/repo/src/csvw/metadata.py` 509–677.
-/

namespace Csvw

/-- The attributes of a `Datatype` (520–536). `minimum` … are the parsed values. `atProps` and `common` are
`at_props` and `common_props` (440–441). -/
structure Datatype where
  base : Base
  format : J := .null
  length : Option Int := none
  minLength : Option Int := none
  maxLength : Option Int := none
  minimum : Option Val := none
  maximum : Option Val := none
  minInclusive : Option Val := none
  maxInclusive : Option Val := none
  minExclusive : Option Val := none
  maxExclusive : Option Val := none
  atProps : List (Str × J) := []
  common : List (Str × J) := []
  deriving DecidableEq, Repr

/-- The arguments of `Datatype(...)`: like the attributes, with the bounds not yet parsed (`null`: not given). The
lengths are given as after the `int()` converter (502–507). -/
structure DatatypeSpec where
  base : J := .str "string".toList
  format : J := .null
  length : Option Int := none
  minLength : Option Int := none
  maxLength : Option Int := none
  minimum : J := .null
  maximum : J := .null
  minInclusive : J := .null
  maxInclusive : J := .null
  minExclusive : J := .null
  maxExclusive : J := .null
  atProps : List (Str × J) := []
  common : List (Str × J) := []
  deriving DecidableEq, Repr

namespace Datatype
open Datatypes

/-- Converter and validator of `base` (520–525), then the lookup `DATATYPES[self.base]` (633–634), which raises `KeyError`
for `None`. A list is not a valid base (the validator raises). -/
def convBase (j : J) : Res Base :=
  match j with
  | .null => .error .keyError
  | .arr _ => .error .valueError
  | .str s => match Base.ofName s with
    | some b => .ok b
    | none => .ok .string
  | _ => .ok .string

/-- `parse(v)` (643–646) for a JSON value `v` other than `None`. Strings, and integers for numeric types, are
modelled; other values are external (`other`). -/
def parseJ (ext : Ext) (other : Base → Derived → J → Res Val) (b : Base) (d : Derived) (v : J) : Res Val :=
  match v with
  | .str s => toPython ext b d s
  | .int i => match b.kind, numFmtOf d with
    | .decimal, .ok ⟨none, _, _⟩ => (Dec.fix (decide (i < 0)) i.natAbs 0).map .dec
    | .integer, .ok ⟨none, _, _⟩ => match Dec.fix (decide (i < 0)) i.natAbs 0 with
      | .error e => .error e
      | .ok x => match x.asInteger with
        | .error e => .error e
        | .ok none => .error .valueError
        | .ok (some n) => match b.range with
          | none => .ok (.int n)
          | some (lo, hi) => if (∀ l ∈ lo, l ≤ n) ∧ (∀ h ∈ hi, n ≤ h) then .ok (.int n) else .error .valueError
    | _, _ => other b d v
  | v => other b d v

/-- A bound, if given, is parsed (558–562). -/
def parseBound (ext : Ext) (other : Base → Derived → J → Res Val) (b : Base) (d : Derived) (v : J) :
    Res (Option Val) :=
  match v with
  | .null => .ok none
  | v => (parseJ ext other b d v).map some

/-- `bool(self.minimum)` etc. -/
def truthy (ext : Ext) : Option Val → Bool
  | none => false
  | some v => v.truthy ext

/-- `a and b and cmp(b, a)` (602–609). -/
def both (ext : Ext) (a b : Option Val) (cmp : Val → Val → Res Bool) : Res Bool :=
  match a, b with
  | some x, some y => if x.truthy ext && y.truthy ext then cmp y x else .ok false
  | _, _ => .ok false

/-- Lazy `or` of results. -/
def orRes (a : Res Bool) (b : Res Bool) : Res Bool := match a with
  | .ok false => b
  | r => r

/-- The length checks (564–574). -/
def lengthsBad (d : Datatype) : Bool :=
  (match d.length, d.minLength with | some l, some m => decide (l < m) | _, _ => false) ||
  (match d.length, d.maxLength with | some l, some m => decide (l > m) | _, _ => false) ||
  (match d.minLength, d.maxLength with | some l, some m => decide (l > m) | _, _ => false)

/-- Bounds on a type which is not ordered, lengths on a type without length, inclusive and exclusive bound on the same
side (579–600); `0`, `''` etc. count as not given. -/
def kindBad (ext : Ext) (d : Datatype) : Bool :=
  (!d.base.isOrdered && (truthy ext d.minimum || truthy ext d.maximum || truthy ext d.minExclusive ||
    truthy ext d.maxExclusive || truthy ext d.minInclusive || truthy ext d.maxInclusive)) ||
  (!d.base.hasLength && (decide (d.length.getD 0 ≠ 0) || decide (d.minLength.getD 0 ≠ 0) ||
    decide (d.maxLength.getD 0 ≠ 0))) ||
  (truthy ext d.minInclusive && truthy ext d.minExclusive) || (truthy ext d.maxInclusive && truthy ext d.maxExclusive)

/-- Empty intervals (602–609). -/
def intervalBad (ext : Ext) (d : Datatype) : Res Bool :=
  orRes (both ext d.minInclusive d.maxExclusive (Val.le ext)) <|
  orRes (both ext d.minInclusive d.maxInclusive (Val.lt ext)) <|
  orRes (both ext d.minExclusive d.maxExclusive (Val.le ext)) <|
  both ext d.minExclusive d.maxInclusive (Val.le ext)

/-- `at_props['id']`, if it is a string (611). -/
def idOf (atProps : List (Str × J)) : Option Str :=
  match Dict.get "id".toList atProps with
  | some (.str s) => some s
  | _ => none

/-- `NAMESPACES['xsd'] + dt for dt in DATATYPES` (611–613). -/
def builtinId (s : Str) : Bool := Base.all.any fun b => s = "http://www.w3.org/2001/XMLSchema#".toList ++ b.name.toList

/-- A character allowed in number patterns (617). -/
def patternChar (c : Char) : Bool := "#0.,;%‰E-+".toList.contains c

/-- `set(v).issubset(set('#0.,;%‰E-+'))` (617), negated, for the elements of a list or the keys of an object. -/
def patternItem : Str → Bool
  | [c] => patternChar c
  | _ => false

/-- `not set(pattern).issubset(set('#0.,;%‰E-+'))` (617): values which are no collections, or have elements which cannot be hashed, raise
`TypeError`. -/
def patternSet : J → Res Bool
  | .str p => .ok !(p.all patternChar)
  | .arr l => if l.any (fun j => match j with | .arr _ | .obj _ => true | _ => false) then .error .typeError
    else .ok !(l.all fun j => match j with | .str s => patternItem s | _ => false)
  | .obj m => .ok !(m.all fun e => patternItem e.1)
  | _ => .error .typeError

/-- The pattern in the description of a number type: does it have characters not allowed in number patterns (615–617; datatypes.py 524–529)? -/
def badPattern (b : Base) (fmt : J) : Res Bool :=
  match b.kind with
  | .decimal | .integer =>
    if fmt.truthy then match fmt with
      | .obj m => match Dict.get "pattern".toList m with
        | some v => patternSet v
        | none => .ok false
      | j => patternSet j
    else .ok false
  | _ => .ok false

/-- The checks of `__attrs_post_init__` (564–619) after the bounds were parsed. -/
def finish (ext : Ext) (dt : Datatype) : Res Datatype :=
  if lengthsBad dt then .error .valueError
  else if kindBad ext dt then .error .valueError
  else match intervalBad ext dt with
    | .error e => .error e
    | .ok true => .error .valueError
    | .ok false =>
      if (idOf dt.atProps).any builtinId then .error .valueError
      else match badPattern dt.base dt.format with
        | .error e => .error e
        | .ok bad => .ok (if bad then { dt with format := .null } else dt)

/-- `Datatype(...)` with `__attrs_post_init__` (557–619). -/
def construct (ext : Ext) (other : Base → Derived → J → Res Val) (s : DatatypeSpec) : Res Datatype := do
  let b ← convBase s.base
  let d ← derived ext b s.format
  let minimum ← parseBound ext other b d s.minimum
  let maximum ← parseBound ext other b d s.maximum
  let minInclusive ← parseBound ext other b d s.minInclusive
  let maxInclusive ← parseBound ext other b d s.maxInclusive
  let minExclusive ← parseBound ext other b d s.minExclusive
  let maxExclusive ← parseBound ext other b d s.maxExclusive
  finish ext ⟨b, s.format, s.length, s.minLength, s.maxLength, minimum, maximum, minInclusive, maxInclusive,
    minExclusive, maxExclusive, s.atProps, s.common⟩

/-- `derived_description` (636–638). -/
def descr (ext : Ext) (dt : Datatype) : Res Derived := derived ext dt.base dt.format

/-- `parse(v)` (643–646) for a string. -/
def parse (ext : Ext) (dt : Datatype) (s : Str) : Res Val :=
  match dt.descr ext with
  | .error e => .error e
  | .ok d => toPython ext dt.base d s

/-- Does `parse(v)` issue a warning, for a string? The derived description is computed anew (643–646); decimal numbers (also for the types
of integers) may be special values. -/
def parseWarns (ext : Ext) (dt : Datatype) (s : Str) : Bool :=
  derivedWarns ext dt.base dt.format ||
  match dt.base.kind, dt.descr ext with
  | .decimal, .ok d | .integer, .ok d => match numFmtOf d with
    | .ok f => decWarns f s
    | .error _ => false
  | _, _ => false

/-- `formatted(v)` (640–641). -/
def formatted (ext : Ext) (dt : Datatype) (v : Val) : Res Str :=
  match dt.descr ext with
  | .error e => .error e
  | .ok d => toText ext dt.base d v

/-- The length tests of `validate` (651–659): `l_ = len(v or '')`, skipped if `v` has no length. -/
def lengthOk (ext : Ext) (dt : Datatype) (v : Val) : Bool :=
  match (if v.truthy ext then v.len? else some 0) with
  | none => true
  | some l =>
    (match dt.length with | some m => decide ((l : Int) = m) | none => true) &&
    (match dt.minLength with | some m => decide (m ≤ (l : Int)) | none => true) &&
    (match dt.maxLength with | some m => decide ((l : Int) ≤ m) | none => true)

/-- One bound check of `validate`: `if bound is not None and bad(v, bound): raise ValueError`. -/
def check (bound : Option Val) (bad : Val → Res Bool) : Res Unit :=
  match bound with
  | none => .ok ()
  | some b => match bad b with
    | .error e => .error e
    | .ok true => .error .valueError
    | .ok false => .ok ()

/-- The bound checks of `validate` (662–673). -/
def boundsOk (ext : Ext) (dt : Datatype) (v : Val) : Res Unit := do
  check dt.minimum (fun b => v.lt ext b)
  check dt.minInclusive (fun b => v.lt ext b)
  check dt.minExclusive (fun b => v.le ext b)
  check dt.maximum (fun b => b.lt ext v)
  check dt.maxInclusive (fun b => b.lt ext v)
  check dt.maxExclusive (fun b => b.le ext v)

/-- `validate(v)` (648–674). -/
def validate (ext : Ext) (dt : Datatype) (v : Val) : Res Val :=
  if v = .none then .ok v
  else if lengthOk ext dt v then
    if dt.base.minmax then (boundsOk ext dt v).map fun _ => v else .ok v
  else .error .valueError

/-- `read(v)` (676–677) for a string. -/
def read (ext : Ext) (dt : Datatype) (s : Str) : Res Val :=
  match dt.parse ext s with
  | .error e => .error e
  | .ok v => dt.validate ext v

end Datatype
end Csvw

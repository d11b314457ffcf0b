import Verif.Model.Csvw
import Verif.Model.Metadata2
/-!
# JSON-LD: simplification, grouping of triples

Model of `/repo/src/csvw/jsonld.py` 20–189.
-/

namespace Csvw.JsonLd

/-! ## `to_json` -/

/-- The results for a value: `to_json(v)` (114–131); what happens from line 121 on if `obj` is `v`; what happens from line 123 on if
`obj` is `v`. -/
structure Results where
  whole : Res J
  from121 : Res J
  from123 : Res J
  deriving Inhabited

/-- The key in the result (125). -/
def renamed (k : Str) : Str := if k = "rdf:type".toList then "@type".toList else k

/-- The dict comprehension (124–126), from the results for the values. -/
def collectMap : List (Str × Results) → Res (List (Str × J))
  | [] => .ok []
  | (k, r) :: t => match r.whole with
    | .error e => .error e
    | .ok v => (collectMap t).map ((renamed k, v) :: ·)

/-- The list comprehension (130). -/
def collectList : List Results → Res (List J)
  | [] => .ok []
  | r :: t => match r.whole with
    | .error e => .error e
    | .ok v => (collectList t).map (v :: ·)

/-- An object from line 123 on (124–126): if both `@type` and `rdf:type` are keys, the later one wins. -/
def mapFrom123 (t : List (Str × Results)) : Res J := (collectMap t).map fun m => .obj (Dict.ofPairs m)

/-- An object from line 121 on: `{'@id': v}` is replaced by `v`. -/
def mapFrom121 (t : List (Str × Results)) : Res J :=
  match t with
  | [(k, r)] => if k = "@id".toList then r.from123 else mapFrom123 t
  | _ => mapFrom123 t

/-- `to_json` of an object: `obj['@value']` (119–120). -/
def mapWhole (t : List (Str × Results)) : Res J :=
  match Dict.get "@value".toList t with
  | some r => r.from121
  | none => mapFrom121 t

/-- A list from line 123 on (127–130). -/
def listFrom123 (flatten : Bool) (t : List Results) : Res J :=
  match t with
  | [r] => if flatten then r.whole else (collectList t).map .arr
  | _ => (collectList t).map .arr

mutual
/-- All results for a value. -/
def results (flatten : Bool) : J → Results
  | .obj m =>
    let t := resultsMap flatten m
    ⟨mapWhole t, mapFrom121 t, mapFrom123 t⟩
  | .arr l =>
    let r := listFrom123 flatten (resultsList flatten l)
    -- `'@id' in ['@id']` is true, `['@id']['@id']` raises `TypeError`
    ⟨r, if l = [.str "@id".toList] then .error .typeError else r, r⟩
  | .str s => ⟨.ok (.str s), .ok (.str s), .ok (.str s)⟩
  -- `len(obj)` raises `TypeError` for other objects
  | j => ⟨.ok j, .error .typeError, .ok j⟩
def resultsMap (flatten : Bool) : List (Str × J) → List (Str × Results)
  | [] => []
  | (k, v) :: r => (k, results flatten v) :: resultsMap flatten r
def resultsList (flatten : Bool) : List J → List Results
  | [] => []
  | v :: r => results flatten v :: resultsList flatten r
end

/-- `to_json(obj, flatten_list=flatten)` (114–131). -/
def toJson (flatten : Bool) (j : J) : Res J := (results flatten j).whole

/-! ## Triples -/

/-- `Triple` (54–61). `about`: `None` or a URL (or local path) as string; `value`: an object or a list of objects. -/
structure Triple where
  about : Option Str := none
  property : Str
  value : CVal
  deriving DecidableEq, Repr

/-- A value in the object of a row: an object, or a list whose items may be lists. -/
inductive PropVal where
  | one (v : Val)
  | many (l : List CVal)
  deriving DecidableEq, Repr

def PropVal.of : CVal → PropVal
  | .one v => .one v
  | .many l => .many (l.map .one)

/-- `isinstance(t.value, list)`. -/
def isList : CVal → Bool
  | .many _ => true
  | .one _ => false

/-- The items of a list. -/
def items : CVal → List Val
  | .many l => l
  | .one _ => []

/-- The loop over `merged` for a triple with a list (140–146): the list is added to the first list with the same property (whatever the
subject is). -/
def extend (t : Triple) : List Triple → List Triple
  | [] => [t]
  | u :: r =>
    if u.property = t.property && isList u.value then { u with value := .many (items u.value ++ items t.value) } :: r
    else u :: extend t r

/-- `merged` (138–148). -/
def merge : List Triple → List Triple → List Triple
  | acc, [] => acc
  | acc, t :: r => merge (if isList t.value then extend t acc else acc ++ [t]) r

/-- The items of the list for a property: a single object is made a list (160–161). -/
def PropVal.asList : PropVal → List CVal
  | .one v => [.one v]
  | .many l => l

/-- Adding a value to `grouped[prop]` (159–164). -/
def addValue (p : Str) (v : CVal) (g : List (Str × PropVal)) : List (Str × PropVal) :=
  match Dict.get p g with
  | some w => Dict.set p (.many (w.asList ++ [v])) g
  | none => Dict.set p (.of v) g

/-- Is the triple about the row (155, 158)? An empty subject counts as none. -/
def top (t : Triple) : Bool := t.about = none || t.about = some []

/-- One step of the first pass (154–164) for a triple about the row. -/
def addTop (g : List (Str × PropVal)) (t : Triple) : List (Str × PropVal) :=
  if t.about = none && t.property = "@id".toList then Dict.set "@id".toList (.of t.value) g
  else addValue t.property t.value g

/-- `grouped` after the first pass (150–164). -/
def grouped (ts : List Triple) : List (Str × PropVal) := ((merge [] ts).filter top).foldl addTop []

/-- `triples` after the first pass (165–166). -/
def others (ts : List Triple) : List Triple := (merge [] ts).filter fun t => !top t

/-! ## `frame` -/

/-- `m.get('@id')` if it is truthy (99, 106). -/
def idOf (m : List (Str × J)) : Option J :=
  match Dict.get "@id".toList m with
  | some j => if j.truthy then some j else none
  | none => none

/-- `[vs] if not isinstance(vs, list) else vs` (103). -/
def valueList : J → List J
  | .arr l => l
  | v => [v]

/-- The `@id` of a reference (105–107). -/
def refOf : J → Option J
  | .obj m => idOf m
  | _ => none

/-- The references in an item (103–107). -/
def refsIn (item : List (Str × J)) : List J := (item.flatMap fun p => valueList p.2).filterMap refOf

/-- `items` (97–101). -/
def itemsOf (data : List (List (Str × J))) : List (J × List (Str × J)) :=
  Dict.ofPairs (data.filterMap fun item => (idOf item).map fun i => (i, item))

/-- Is the item with this `@id` referenced exactly once (108–109)? -/
def inlined (data : List (List (Str × J))) (i : J) : Bool :=
  decide ((data.flatMap refsIn).count i = 1) && Dict.has i (itemsOf data)

/-- `d.update(e)`. -/
def updateDict (d e : List (Str × J)) : List (Str × J) := e.foldl (fun d p => Dict.set p.1 p.2 d) d

/-- A value or an item of a list of values after the loop (108–110): `ref.update(items.pop(ref['@id']))`. -/
def inlineRef (data : List (List (Str × J))) (sub : List (Str × J) → List (Str × J)) (v : J) : J :=
  match v with
  | .obj m => match idOf m with
    | some i => if inlined data i then
        match Dict.get i (itemsOf data) with
        | some item => .obj (updateDict m (sub item))
        | none => v
      else v
    | none => v
  | v => v

/-- A value of an item after the loop. -/
def inlineValue (data : List (List (Str × J))) (sub : List (Str × J) → List (Str × J)) : J → J
  | .arr l => .arr (l.map (inlineRef data sub))
  | v => inlineRef data sub v

/-- An item after the loop (108–110). The code changes the objects in place: an item which is referenced exactly once is copied into the
reference, in which references of that item are replaced too, before or after. (An item which is reached from an item that is kept is
reached by a chain of items which are all referenced exactly once, so the number of items bounds the depth.) -/
def inline (data : List (List (Str × J))) : Nat → List (Str × J) → List (Str × J)
  | 0, item => item
  | n + 1, item => item.map fun p => (p.1, inlineValue data (inline data n) p.2)

/-- `frame(data)` (91–110): the items which are not referenced exactly once. -/
def frame (data : List (List (Str × J))) : List (List (Str × J)) :=
  ((itemsOf data).filter fun p => !inlined data p.1).map fun p => inline data (itemsOf data).length p.2

/-! ## `group_triples` -/

/-- The object of an RDF triple. -/
inductive Node where
  | uri (s : Str)
  | lit (v : PropVal)
  deriving DecidableEq, Repr

/-- `as_rdflib_triple` (63–67). (Of the objects which may be values, only strings can look like a URL.) -/
def nodeOf (v : PropVal) : Node :=
  match v with
  | .one (.str s) => if isUrl s then .uri s else .lit v
  | v => .lit v

/-- JSON, or Python objects of cells in it. -/
inductive Out where
  | json (j : J)
  | prop (v : PropVal)
  | list (l : List Out)
  | obj (m : List (Str × Out))

/-- External functions. -/
structure JExt where
  /-- `json.loads(g.serialize(format='json-ld'))` for the graph with these triples (170–177). -/
  graph : List (Str × Str × Node) → Res (List (List (Str × J)))
  /-- `table.expand(tmpl, row, _row=…, _name=…, qname=…)` (metadata.py 1139–1177) for a table with this URL: the template (`none`: `INVALID`). -/
  expand : Str → Option Str → RowDict → Nat → Option Str → Bool → Res Str
  /-- `str(table.url.resolve(table.base))`. -/
  resolve : Str → Str
  /-- `float(d)` of a `Decimal`. -/
  decFloat : Dec → Str
  /-- `math.isnan`, `math.isinf`, `< 0`. -/
  isNan : Str → Bool
  isInf : Str → Bool
  isNeg : Str → Bool

/-- The triples which are added to the graph (170–176). `g`: `grouped`. (The `@id` of a row is the expanded `aboutUrl`, a string.) -/
def graphTriples (g : List (Str × PropVal)) (ts : List Triple) : List (Str × Str × Node) :=
  ts.map (fun t => (t.about.getD [], t.property, nodeOf (.of t.value))) ++
  match Dict.get "@id".toList g with
  | some (.one (.str i)) => (g.filter fun p => p.1 ≠ "@id".toList).map fun p => (i, p.1, nodeOf p.2)
  | _ => []

/-- The `to_json` of several objects (179). The result for an object which is not a mere reference is an object. -/
def simplifyAll : List (List (Str × J)) → Res (List (List (Str × J)))
  | [] => .ok []
  | m :: r => match toJson true (.obj m) with
    | .error e => .error e
    | .ok (.obj m') => (simplifyAll r).map (m' :: ·)
    -- `o[1].get` raises `AttributeError` (182)
    | .ok _ => (simplifyAll r).bind fun _ => .error .attributeError

/-- Is it the object of the row (182)? -/
def isRow (g : List (Str × PropVal)) (m : List (Str × J)) : Bool :=
  match Dict.get "@id".toList g, Dict.get "@id".toList m with
  | some (.one (.str i)), some (.str j) => decide (i = j)
  | none, none => true
  | none, some .null => true
  | _, _ => false

/-- `grouped` or a simplified object as output. -/
def outGroup (g : List (Str × PropVal)) : List (Str × Out) := g.map fun p => (p.1, .prop p.2)
def outJson (m : List (Str × J)) : List (Str × Out) := m.map fun p => (p.1, .json p.2)

/-- The end of `group_triples` (180–189): the object of the row first; a single object is merged with the one of the row. -/
def finish (g : List (Str × PropVal)) (res : List (List (Str × J))) : List (List (Str × Out)) :=
  match (res.filter (isRow g) ++ res.filter fun m => !isRow g m) with
  | [m] => if g ≠ [] ∧ Dict.has "@id".toList g = false then [(outJson m).foldl (fun d p => Dict.set p.1 p.2 d) (outGroup g)] else [outJson m]
  | res => res.map outJson

/-- `group_triples(triples)` (134–189). -/
def groupTriples (jx : JExt) (ts : List Triple) : Res (List (List (Str × Out))) :=
  if others ts = [] then .ok [outGroup (grouped ts)]
  else match jx.graph (graphTriples (grouped ts) (others ts)) with
    | .error e => .error e
    | .ok data => (simplifyAll (frame data)).map (finish (grouped ts))

/-! ## `format_value` -/

/-- `col.datatype`: the datatype of the column itself, not the inherited one. -/
def ownDatatype (col : Option CCol) : Option Datatype :=
  match col with
  | some c => match c.col.props.datatype with
    | .dtype d => some d
    | _ => none
  | none => none

/-- `value.isoformat()` for the base of the datatype (25–29); ISO texts have one `T`. -/
def isoFor (b : Option Base) (d : DateTime) : Str :=
  let res := Datatypes.isoformat d
  if b = some .time then (res.dropWhile (· ≠ 'T')).drop 1
  else if b = some .date then
    res.takeWhile (· ≠ 'T') ++ ((res.dropWhile (· ≠ 'T')).drop 1).dropWhile fun c => c.isDigit || c = '.' || c = ':'
  else res

/-- Fractions and UTC (30–33). -/
def stampText (res : Str) : Str :=
  let (stamp, _, ms) := Py.partition '.' res
  if ms ≠ [] then stamp ++ '.' :: Py.rstripP (· = '0') ms else Py.replace "+00:00".toList "Z".toList stamp

/-- `float` values (45–47). -/
def floatValue (jx : JExt) (t : Str) : Val :=
  if jx.isNan t then .str "NaN".toList
  else if jx.isInf t then .str (if jx.isNeg t then "-INF".toList else "INF".toList)
  else .flt t

/-- `col.datatype.formatted(value)` (36, 38, 44). -/
def formattedBy (ext : Ext) (col : Option CCol) (v : Val) : Res CVal :=
  match ownDatatype col with
  | some d => (d.formatted ext v).map fun s => .one (.str s)
  | none => .error .attributeError

/-- `format_value(value, col)` (20–48). Lists are not changed. -/
def formatValue (ext : Ext) (jx : JExt) (col : Option CCol) (v : CVal) : Res CVal :=
  match v with
  | .one (.dt d) => match col, ownDatatype col with
    | none, _ => .ok (.one (.str (stampText (isoFor none d))))
    | some _, some dt => .ok (.one (.str (stampText (isoFor (some dt.base) d))))
    | some _, none => .error .attributeError
  | .one (.dur t) => formattedBy ext col (.dur t)
  | .one (.dec d) => .ok (.one (floatValue jx (jx.decFloat d)))
  | .one (.uri t) => .ok (.one (.str (ext.uriStr t)))
  | .one (.bytes b) => formattedBy ext col (.bytes b)
  | .one (.flt t) => .ok (.one (floatValue jx t))
  | v => .ok v

end Csvw.JsonLd

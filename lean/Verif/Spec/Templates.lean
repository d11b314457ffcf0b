import Verif.Spec.ToJson
/-!
# Specification vocabulary: URI templates in JSON output
-/

namespace Csvw.Spec.ToJson
open Csvw.ToJson JsonLd

/-- What a description or else its ancestors say about a property: the value of the first which sets it. -/
def Says (p : Prp) (ds : List Descr) (w : PVal) : Prop :=
  (∃ pre d post, ds = pre ++ d :: post ∧ (∀ d' ∈ pre, d'.get p = .json .null) ∧ d.get p = w ∧ w ≠ .json .null) ∨
  ((∀ d ∈ ds, d.get p = .json .null) ∧ w = .json .null)

/-- What results from a template for a row: nothing, if there is none. (`q`: URLs are to be abbreviated.) -/
inductive Expands (e : Env) (t : Table) (row : RowDict) (n : Nat) (name : Option Str) (q : Bool) : PVal → Option Str → Prop where
  | none : Expands e t row n name q (.json .null) none
  | some {u s} : e.jx.expand t.url (some u) row n name q = .ok s → Expands e t row n name q (.tmpl u) (some s)
  | invalid {s} : e.jx.expand t.url none row n name q = .ok s → Expands e t row n name q .invalid (some s)

/-- The descriptions which determine the templates for a cell: those of the column and its ancestors, or (for data without a column)
of the table and the table group. -/
def descriptions (t : Table) : Option CCol → List Descr
  | some c => c.col.props :: t.parents
  | none => t.props :: (t.group.map Prod.fst).toList

/-- The `aboutUrl` of the column itself. -/
def ownAbout : Option CCol → PVal
  | some c => c.col.props.aboutUrl
  | none => .json .null

/-- A text, or else the value. -/
def orValue (s : Option Str) (val : CVal) : CVal :=
  match s with
  | some s => .one (.str s)
  | none => val

/-- The triple for a cell with name `name` and value `val`: its property is given by `propertyUrl` or else the name; its value by `valueUrl`
or else by the cell; its subject by the `aboutUrl` of the column itself, if that gives a URL. -/
structure TripleFor (e : Env) (t : Table) (row : RowDict) (n : Nat) (col : Option CCol) (name : Str) (val : CVal) (u : Triple) : Prop where
  property : ∃ w s, Says .propertyUrl (descriptions t col) w ∧ Expands e t row n (col.map fun c => c.col.header) true w s ∧
    u.property = s.getD name
  value : ∃ w s, Says .valueUrl (descriptions t col) w ∧
    Expands e t row n (col.map fun c => c.col.header) (decide (u.property = "rdf:type".toList)) w s ∧
    formatValue e.ext e.jx col (orValue s val) = .ok u.value
  about : ∃ s, Expands e t row n (col.map fun c => c.col.header) false (ownAbout col) s ∧
    u.about = if s = some [] then none else s

/-- The triple which gives the subject of the row, if the schema or its ancestors have an `aboutUrl`. -/
def RowSubject (e : Env) (t : Table) (row : RowDict) (n : Nat) (us : List Triple) : Prop :=
  ∃ w s, Says .aboutUrl t.parents w ∧ Expands e t row n none false w s ∧
    us = (s.toList.map fun s => { about := none, property := "@id".toList, value := .one (.str s) })

/-- The name of the `i`th cell of a row: that of the column, or `_col.i` if there is metadata without columns. -/
def cellName (t : Table) (noMetadata : Bool) (i : Nat) (k : Str) : Str :=
  if t.schema.columns = [] ∧ noMetadata = false then "_col.".toList ++ (toString i).toList else k

/-- Not shown: in addition to `Omitted`, cells of virtual columns. -/
def Hidden (t : Table) (k : Str) (v : CVal) : Prop :=
  Omitted t k v ∨ ∃ c, columnOf t k = some c ∧ c.col.virtual = true

/-- The triples for a row: its subject; one for each cell which is shown; one for each virtual column. -/
def TriplesFor (e : Env) (t : Table) (noMetadata : Bool) (row : RowDict) (n : Nat) (us : List Triple) : Prop :=
  ∃ a b c, us = a ++ b ++ c ∧ RowSubject e t row n a ∧
    (∀ shown : (Str × CVal) × Nat → Bool, (∀ k v i, shown ((k, v), i) = true ↔ ¬ Hidden t k v) →
      All2 (fun p u => TripleFor e t row n (columnOf t p.1.1) (cellName t noMetadata p.2 p.1.1) p.1.2 u) ((row.zipIdx 1).filter shown) b) ∧
    All2 (fun col u => TripleFor e t row n (some col) col.col.header (.one .none) u) (t.ccols.filter fun c => c.col.virtual) c

/-- The triple is about the row: it has no subject of its own. -/
def AboutRow (u : Triple) : Prop := u.about = none ∨ u.about = some []

instance (u : Triple) : Decidable (AboutRow u) := inferInstanceAs (Decidable (_ ∨ _))

/-- The object of a triple in RDF: texts which begin with `http://` or `https://` are URLs. -/
def rdfObject (v : Val) : Node :=
  match v with
  | .str s => if "http://".toList <+: s ∨ "https://".toList <+: s then .uri s else .lit (.one v)
  | v => .lit (.one v)

/-- The triples of the graph: those with a subject of their own, and (if the row has a subject) those about the row. -/
def rdfTriples (id : Option Str) (us : List (Triple × Val)) : List (Str × Str × Node) :=
  ((us.filter fun u => ¬ AboutRow u.1).map fun u => (u.1.about.getD [], u.1.property, rdfObject u.2)) ++
  match id with
  | some i => (us.filter fun u => AboutRow u.1).map fun u => (i, u.1.property, rdfObject u.2)
  | none => []

/-- An object as output. -/
def asOut (m : List (Str × J)) : List (Str × Out) := m.map fun p => (p.1, .json p.2)

/-- The object has this `@id`. -/
def hasId (i : Str) (m : List (Str × J)) : Bool := Dict.get "@id".toList m = some (.str i)

/-- The output, given the simplified objects of the graph. If the row has a subject, its object is first. If it has none and there is just one
object, this is merged with the properties of the row. -/
structure Arranged (id : Option Str) (own : List (Str × Val)) (objects : List (List (Str × J))) (os : List (List (Str × Out))) : Prop where
  subject : ∀ i, id = some i → os = (objects.filter (hasId i) ++ objects.filter fun m => !hasId i m).map asOut
  merged : id = none → own ≠ [] → ∀ m, objects = [m] → ∃ o, os = [o] ∧ ∀ k, Dict.get k o =
    match Dict.get k m.reverse with
    | some j => some (.json j)
    | none => (Dict.get k own).map fun v => .prop (.one v)
  others : id = none → (own = [] ∨ objects.length ≠ 1) → os.Perm (objects.map asOut)

end Csvw.Spec.ToJson

import Verif.Py.Dict
import Verif.Py.Json
import Verif.Model.Files
/-!
# Links to schemas and dialects

Specification for the properties on links: documents in which a link has been replaced by the object it points to.
-/

namespace Csvw.Spec

/-- The value of the property `k` of an object is not a string, i.e. not a link. -/
def NoLink (k : String) (m : List (Str × J)) : Prop := ∀ s, Dict.get k.toList m ≠ some (.str s)

/-- `t'` is the table description `t`, where the schema is written out if `t` links to it. `pointsTo s o`: the link `s` points to a
document with the object `o`. -/
def SchemaInlined (pointsTo : Str → List (Str × J) → Prop) (t t' : J) : Prop :=
  (t' = t ∧ ∀ m, t = .obj m → NoLink "tableSchema" m) ∨
  ∃ m s o, t = .obj m ∧ Dict.get "tableSchema".toList m = some (.str s) ∧ pointsTo s o ∧
    t' = .obj (Dict.set "tableSchema".toList (.obj o) m)

/-- The document at the URL `u` is the object `o`. -/
def WebDocument (fx : FExt) (u : Str) (o : List (Str × J)) : Prop :=
  isUrl u = true ∧ ∃ text, fx.fetch u = .ok text ∧ fx.loads text = .ok (.obj o)

/-- The base URL given by a metadata document which was read from `loc`: its `@base`, or else the location. -/
def DocumentBase (loc : Str) (m : List (Str × J)) (b : Str) : Prop :=
  Dict.get "@base".toList m = some (.str b) ∨ (Dict.get "@base".toList m = none ∧ b = loc)

/-- The `@base` in the local context definition of a document: there is none if `@context` is missing or a string, or if the object in the
`@context` array has no (or an empty) `@base`. -/
def ContextBase (m : List (Str × J)) (c : Str) : Prop :=
  (c = [] ∧ (Dict.get "@context".toList m = none ∨ ∃ s, Dict.get "@context".toList m = some (.str s))) ∨
  ∃ s ctx, Dict.get "@context".toList m = some (.arr [.str s, .obj ctx]) ∧
    (Dict.get "@base".toList ctx = some (.str c) ∨ (Dict.get "@base".toList ctx = none ∧ c = []))

/-- The base URL of a document: what `@base` in the context is relative to the base of the document. -/
def FullBase (fx : FExt) (loc : Str) (m : List (Str × J)) (b : Str) : Prop :=
  ∃ b0 c, DocumentBase loc m b0 ∧ ContextBase m c ∧ b0 ≠ [] ∧ b = if c = [] then b0 else fx.urljoin b0 c

/-- A document without links: neither the group nor its tables link to a schema or to a dialect. -/
def WithoutLinks (m : List (Str × J)) : Prop :=
  NoLink "tableSchema" m ∧ NoLink "dialect" m ∧
  ∀ l, Dict.get "tables".toList m = some (.arr l) → ∀ t, .obj t ∈ l → NoLink "tableSchema" t ∧ NoLink "dialect" t

end Csvw.Spec

import Verif.Model.Open
import Verif.Spec.Dsv
/-!
# Specification: opening a dataset
-/

namespace Csvw.Spec
open Csvw

/-- The namespace of CSVW. -/
def namespaceUrl : Str := "http://www.w3.org/ns/csvw".toList

/-- The metadata mentions the namespace in its `@context`: in the text, as an item of the array, or as a key of the object. -/
inductive DeclaresCsvw (m : List (Str × J)) : Prop where
  | text (before after : Str) (h : Dict.get "@context".toList m = some (.str (before ++ namespaceUrl ++ after)))
  | item (l : List J) (h : Dict.get "@context".toList m = some (.arr l)) (hl : J.str namespaceUrl ∈ l)
  | key (o : List (Str × J)) (h : Dict.get "@context".toList m = some (.obj o)) (v : J) (ho : (namespaceUrl, v) ∈ o)

/-- The location of the metadata: `md_url`, if given, or else `url`. -/
def metadataLocation (url : Str) : Option Str → Str
  | some (c :: s) => c :: s
  | _ => url

/-- Where the metadata comes from, and whether the server said that the data have no header: from `md_url`, if given, or from `url`
itself if this is JSON; otherwise it is located (C56). -/
inductive Source (w : Locate.World) (url : Str) (mdUrl : Option Str) : J → Bool → Prop where
  | json (md : J) : w.getJson (metadataLocation url mdUrl) = .ok md → Source w url mdUrl md false
  | located (f : Locate.Found) : w.getJson (metadataLocation url mdUrl) = .error .valueError →
      Locate.locateMetadata w url = .ok f → Source w url mdUrl f.md f.noHeader

/-- The objects of an array. -/
def objectsOf (l : List J) : List (List (Str × J)) := l.filterMap fun | .obj m => some m | _ => none

/-- A name which may be used in URI templates: it neither begins with `_` nor contains whitespace. -/
def UsableName (n : Str) : Prop := (∀ s, n ≠ '_' :: s) ∧ ∀ c ∈ n, Py.isSpace c = false

/-- The column, without its name if this is not usable. -/
structure NameChecked (c c' : Column) : Prop where
  rest : { c' with name := c.name } = c
  name : (c'.name = c.name ∧ ∀ n, c.name = some n → UsableName n) ∨ (c'.name = none ∧ ∃ n, c.name = some n ∧ ¬ UsableName n)

/-- The table, with checked names. -/
structure NamesChecked (t t' : TableD) : Prop where
  columns : All2 NameChecked t.like.schema.columns t'.like.schema.columns
  rest : { t' with like := { t'.like with schema := { t'.like.schema with columns := t.like.schema.columns } } } = t

/-- The metadata of a document at a URL: the URL is the base, unless there is one. -/
def basedAt (o : OpenExt) (url : Str) (m : List (Str × J)) : List (Str × J) :=
  if isUrl url ∧ Dict.get "@base".toList m = none then m ++ [("@base".toList, .str (o.baseUrl url))] else m

end Csvw.Spec

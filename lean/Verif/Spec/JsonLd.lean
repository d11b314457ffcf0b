import Verif.Py.Json
import Verif.Py.Dict
import Verif.Spec.Dsv
/-!
# Specification vocabulary: JSON-LD documents and their simplification
-/

namespace Csvw.Spec.JsonLd

def keyValue : Str := "@value".toList
def keyId : Str := "@id".toList
def keyType : Str := "@type".toList
def keyRdfType : Str := "rdf:type".toList

/-- A JSON-LD document: the `@value` of a value object is a string, an object with no other property than `@id` has a string as `@id`, and
no object has both properties `@type` and `rdf:type`. -/
inductive Doc : J → Prop where
  | null : Doc .null
  | bool (b : Bool) : Doc (.bool b)
  | int (i : Int) : Doc (.int i)
  | flt (r : Str) : Doc (.flt r)
  | str (s : Str) : Doc (.str s)
  | arr {l : List J} (h : ∀ j ∈ l, Doc j) : Doc (.arr l)
  | value {m : List (Str × J)} {s : Str} (h : Dict.get keyValue m = some (.str s)) : Doc (.obj m)
  | ref (s : Str) : Doc (.obj [(keyId, .str s)])
  | obj {m : List (Str × J)} (hn : (Dict.keys m).Nodup) (hv : keyValue ∉ Dict.keys m) (hi : Dict.keys m ≠ [keyId])
      (ht : keyType ∈ Dict.keys m → keyRdfType ∉ Dict.keys m) (h : ∀ p ∈ m, Doc p.2) : Doc (.obj m)

/-- The simplified document: value objects and references are strings, `rdf:type` is `@type`; if `flatten`, lists with one item are replaced
by the item. Everything else stays: all other properties, in the same order, and all items of lists. -/
inductive Simplified (flatten : Bool) : J → J → Prop where
  | null : Simplified flatten .null .null
  | bool (b : Bool) : Simplified flatten (.bool b) (.bool b)
  | int (i : Int) : Simplified flatten (.int i) (.int i)
  | flt (r : Str) : Simplified flatten (.flt r) (.flt r)
  | str (s : Str) : Simplified flatten (.str s) (.str s)
  | value {m : List (Str × J)} {s : Str} (h : Dict.get keyValue m = some (.str s)) : Simplified flatten (.obj m) (.str s)
  | ref (s : Str) : Simplified flatten (.obj [(keyId, .str s)]) (.str s)
  | obj {m m' : List (Str × J)} (hv : keyValue ∉ Dict.keys m) (hi : Dict.keys m ≠ [keyId])
      (hk : Dict.keys m' = (Dict.keys m).map fun k => if k = keyRdfType then keyType else k) (hl : m'.length = m.length)
      (h : ∀ i (h : i < m.length) (h' : i < m'.length), Simplified flatten m[i].2 m'[i].2) : Simplified flatten (.obj m) (.obj m')
  | arr {l l' : List J} (hf : ¬ (flatten = true ∧ l.length = 1)) (hl : l'.length = l.length)
      (h : ∀ i (h : i < l.length) (h' : i < l'.length), Simplified flatten l[i] l'[i]) : Simplified flatten (.arr l) (.arr l')
  | single {v j : J} (hf : flatten = true) (h : Simplified flatten v j) : Simplified flatten (.arr [v]) j

/-- There is nothing to simplify. -/
inductive Simple (flatten : Bool) : J → Prop where
  | null : Simple flatten .null
  | bool (b : Bool) : Simple flatten (.bool b)
  | int (i : Int) : Simple flatten (.int i)
  | flt (r : Str) : Simple flatten (.flt r)
  | str (s : Str) : Simple flatten (.str s)
  | arr {l : List J} (hf : ¬ (flatten = true ∧ l.length = 1)) (h : ∀ j ∈ l, Simple flatten j) : Simple flatten (.arr l)
  | obj {m : List (Str × J)} (hn : (Dict.keys m).Nodup) (hv : keyValue ∉ Dict.keys m) (hi : Dict.keys m ≠ [keyId])
      (ht : keyRdfType ∉ Dict.keys m) (h : ∀ p ∈ m, Simple flatten p.2) : Simple flatten (.obj m)

end Csvw.Spec.JsonLd

import Verif.Py.Dict
import Verif.Py.Json
import Verif.Model.Datatypes
/-!
# Specification vocabulary: JSON-LD graphs with nested objects
-/

namespace Csvw.Spec.Frame

abbrev Obj := List (Str × J)

/-- The `@id` of an object, if it is not empty. -/
def id? (m : Obj) : Option J := (Dict.get "@id".toList m).filter J.truthy

/-- The `@id` of a value, if it is an object with one. -/
def target : J → Option J
  | .obj m => id? m
  | _ => none

/-- The `@id`s of the objects among the values, or in the lists which are values, of an object. -/
def references (m : Obj) : List J :=
  m.flatMap fun p => match p.2 with
    | .arr l => l.filterMap target
    | v => (target v).toList

/-- The object for `i` is referenced exactly once. -/
def Once (data : List Obj) (i : J) : Prop := (data.flatMap references).count i = 1

/-- `r` has the properties of `o` and those of `m` which `o` doesn't have. -/
def Merged (m o r : Obj) : Prop := ∀ k, Dict.get k r = (Dict.get k o).or (Dict.get k m)

mutual
/-- `o` is `m` where each reference to an object of the data which is referenced exactly once is merged with this object (in which references are
handled in the same way). -/
inductive Framed (data : List Obj) : Obj → Obj → Prop where
  | nil : Framed data [] []
  | cons {k : Str} {v w : J} {m o : Obj} : FramedValue data v w → Framed data m o → Framed data ((k, v) :: m) ((k, w) :: o)
/-- The same for a value of a property. -/
inductive FramedValue (data : List Obj) : J → J → Prop where
  | list {l l' : List J} : FramedList data l l' → FramedValue data (.arr l) (.arr l')
  | one {v w : J} : (∀ l, v ≠ .arr l) → FramedItem data v w → FramedValue data v w
inductive FramedList (data : List Obj) : List J → List J → Prop where
  | nil : FramedList data [] []
  | cons {v w : J} {l l' : List J} : FramedItem data v w → FramedList data l l' → FramedList data (v :: l) (w :: l')
/-- The same for a single value. -/
inductive FramedItem (data : List Obj) : J → J → Prop where
  | same {v : J} : (∀ i m, target v = some i → m ∈ data → id? m = some i → ¬ Once data i) → FramedItem data v v
  | merged {r m o s : Obj} {i : J} : id? r = some i → m ∈ data → id? m = some i → Once data i → Framed data m o → Merged r o s →
      FramedItem data (.obj r) (.obj s)
end

/-- `o` is `r`, or a value of `r`, or an object in a list which is a value of `r`, or … -/
inductive Within (o : Obj) : Obj → Prop where
  | here : Within o o
  | value {k : Str} {s r : Obj} : (k, .obj s) ∈ r → Within o s → Within o r
  | item {k : Str} {l : List J} {s r : Obj} : (k, .arr l) ∈ r → .obj s ∈ l → Within o s → Within o r

end Csvw.Spec.Frame

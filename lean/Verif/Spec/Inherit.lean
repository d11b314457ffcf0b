import Verif.Model.Description
/-!
# Specification of inherited properties

What a description says about an inherited property, in terms of the JSON object it is made from.
-/

namespace Csvw.Spec

/-- The names of the inherited properties in metadata documents. -/
def propName : Prp → Str
  | .aboutUrl => "aboutUrl".toList
  | .datatype => "datatype".toList
  | .default => "default".toList
  | .lang => "lang".toList
  | .null => "null".toList
  | .ordered => "ordered".toList
  | .propertyUrl => "propertyUrl".toList
  | .required => "required".toList
  | .separator => "separator".toList
  | .textDirection => "textDirection".toList
  | .valueUrl => "valueUrl".toList

/-- The description does not set the property: it is absent or `null`. -/
def Unset (p : Prp) (m : List (Str × J)) : Prop :=
  ∀ v, Dict.get (propName p) m = some v → v = .null

/-- The description sets the property to the JSON value `v`, which means `w`. -/
inductive Means (ext : Ext) (x : MExt) (other : Base → Derived → J → Res Val) : Prp → J → PVal → Prop where
  | aboutUrl (s) : Means ext x other .aboutUrl (.str s) (.tmpl s)
  | propertyUrl (s) : Means ext x other .propertyUrl (.str s) (.tmpl s)
  | valueUrl (s) : Means ext x other .valueUrl (.str s) (.tmpl s)
  | ordered (b) : Means ext x other .ordered (.bool b) (.json (.bool b))
  | required (b) : Means ext x other .required (.bool b) (.json (.bool b))
  | separator (s) : Means ext x other .separator (.str s) (.json (.str s))
  | textDirection (s) : s ∈ ["ltr".toList, "rtl".toList, "auto".toList, "inherit".toList] →
      Means ext x other .textDirection (.str s) (.json (.str s))
  | datatype (s d) : s ≠ [] → Datatype.fromvalue ext x other (.str s) = .ok d → Means ext x other .datatype (.str s) (.dtype d)
  | datatypeObj (m d) : m ≠ [] → Datatype.fromvalue ext x other (.obj m) = .ok d → Means ext x other .datatype (.obj m) (.dtype d)

/-- The null markers which a description gives: a string or an array of strings; `null` stands for no markers. -/
inductive NullMarkers : J → List Str → Prop where
  | no : NullMarkers .null []
  | one (s) : NullMarkers (.str s) [s]
  | many (l) : NullMarkers (.arr (l.map J.str)) l

end Csvw.Spec

import Verif.Model.Common
import Verif.Model.Datatype
/-!
# Inherited properties

Model of `Datatype.fromvalue`, `Description` and its inheritance in `/repo/src/csvw/metadata.py` 538–555, 680–750.
-/

namespace Csvw

/-- The inherited properties (708–734). -/
inductive Prp where
  | aboutUrl | datatype | default | lang | null | ordered | propertyUrl | required | separator | textDirection | valueUrl
  deriving DecidableEq, Repr

/-- Values of these attributes: JSON values (`json .null` is `None`), URI templates, the object `INVALID`, datatypes. -/
inductive PVal where
  | json (j : J)
  | tmpl (uri : Str)
  | invalid
  | dtype (d : Datatype)
  deriving DecidableEq, Repr

/-- The converted inherited properties of one description object (708–734). -/
structure Descr where
  aboutUrl : PVal := .json .null
  datatype : PVal := .json .null
  default : Str := []
  lang : J := .str "und".toList
  null : List Str := [[]]
  ordered : J := .null
  propertyUrl : PVal := .json .null
  required : J := .null
  separator : J := .null
  textDirection : J := .null
  valueUrl : PVal := .json .null
  /-- `common_props` and `at_props` (440–441). -/
  common : List (Str × J) := []
  atProps : List (Str × J) := []
  deriving DecidableEq, Repr

/-- `getattr(self, attr)`. -/
def Descr.get (d : Descr) : Prp → PVal
  | .aboutUrl => d.aboutUrl
  | .datatype => d.datatype
  | .default => .json (.str d.default)
  | .lang => .json d.lang
  | .null => .json (.arr (d.null.map .str))
  | .ordered => .json d.ordered
  | .propertyUrl => d.propertyUrl
  | .required => .json d.required
  | .separator => .json d.separator
  | .textDirection => .json d.textDirection
  | .valueUrl => d.valueUrl

/-- `uri_template_property` (265–276). -/
def convTmpl : J → PVal
  | .null => .json .null
  | .str s => .tmpl s
  | _ => .invalid

/-- `converter_null` (680–685). -/
def convNull : J → List Str
  | .null => []
  | .arr l => if l.all J.isStr then strsOf l else [[]]
  | .str s => [s]
  | _ => [[]]

/-- `converter_lang` (688–692). (`tags.check` of a value which is no string raises; such values are not modelled and treated
like unknown tags.) -/
def convLang (x : MExt) : J → J
  | .str s => if x.tagOk s then .str s else .str "und".toList
  | _ => .str "und".toList

/-- The converter of `default` (712–715): `utils.converter(str, "", allow_list=False)`. -/
def convDefault : J → Str
  | .str s => s
  | _ => []

/-- The admissible values of `textDirection` (728–733). -/
def isTextDirection : J → Bool
  | .str s => ["ltr", "rtl", "auto", "inherit"].any fun t => s = t.toList
  | _ => false

/-- `optional_int` (502–507). -/
def optInt (x : MExt) : J → Res (Option Int)
  | .null => .ok none
  | .int i => .ok (some i)
  | j => (x.intOf j).map some

/-- The attributes of `Datatype` with their kinds, which `partition_properties` knows (520–536 and 440–441). -/
def datatypeFields : List Str :=
  ["common_props", "at_props", "base", "format", "length", "minLength", "maxLength", "minimum", "maximum", "minInclusive",
   "maxInclusive", "minExclusive", "maxExclusive"].map String.toList

/-- `d.get(k)` for the keyword arguments of a constructor: `None` if absent. -/
def argOf (k : String) (m : List (Str × J)) : J := (Dict.get k.toList m).getD .null

/-- `Datatype.fromvalue` (538–555) for a JSON value. A string is the base type; in an object, `base` is `string` if absent. -/
def Datatype.fromvalue (ext : Ext) (x : MExt) (other : Base → Derived → J → Res Val) : J → Res Datatype
  | .str s => construct ext other { base := .str s }
  | .obj m => do
    match ← partitionProperties x datatypeFields "Datatype".toList true (.obj (Dict.setdefault "base".toList (.str "string".toList) m)) with
    | none => .error .typeError
    | some p =>
      let length ← optInt x (argOf "length" p.own)
      let minLength ← optInt x (argOf "minLength" p.own)
      let maxLength ← optInt x (argOf "maxLength" p.own)
      construct ext other
        { base := argOf "base" p.own, format := argOf "format" p.own, length, minLength, maxLength,
          minimum := argOf "minimum" p.own, maximum := argOf "maximum" p.own,
          minInclusive := argOf "minInclusive" p.own, maxInclusive := argOf "maxInclusive" p.own,
          minExclusive := argOf "minExclusive" p.own, maxExclusive := argOf "maxExclusive" p.own,
          atProps := p.atProps, common := p.common }
  | _ => .error .valueError

/-- The converter of `datatype` (709–711): falsy values are kept. -/
def convDatatype (ext : Ext) (x : MExt) (other : Base → Derived → J → Res Val) (j : J) : Res PVal :=
  if j.truthy then (Datatype.fromvalue ext x other j).map .dtype else .ok (.json j)

/-- The inherited properties from the keyword arguments of `Description(...)`: absent arguments have the default values
(708–734). -/
def Descr.construct (ext : Ext) (x : MExt) (other : Base → Derived → J → Res Val) (m : List (Str × J)) : Res Descr := do
  let datatype ← convDatatype ext x other (argOf "datatype" m)
  return {
    aboutUrl := convTmpl (argOf "aboutUrl" m)
    datatype
    default := ((Dict.get "default".toList m).map convDefault).getD []
    lang := ((Dict.get "lang".toList m).map (convLang x)).getD (.str "und".toList)
    null := ((Dict.get "null".toList m).map convNull).getD [[]]
    ordered := (converter J.isBool (.bool false) true (argOf "ordered" m)).1
    propertyUrl := convTmpl (argOf "propertyUrl" m)
    required := argOf "required" m
    separator := (converter J.isStr .null true (argOf "separator" m)).1
    textDirection := (converter isTextDirection .null true (argOf "textDirection" m)).1
    valueUrl := convTmpl (argOf "valueUrl" m) }

/-- `self.inherit(attr)` (736–741). The list is the description itself and its ancestors: for a column the schema, the table
and the table group, as far as they exist. (All of these are `Description`s.) -/
def inherit (p : Prp) : List Descr → PVal
  | [] => .json .null
  | [d] => d.get p
  | d :: ds => if d.get p = .json .null then inherit p ds else d.get p

/-- `self.inherit_null()` (743–747). -/
def inheritNull : List Descr → List Str
  | [] => [[]]
  | [d] => d.null
  | d :: ds => if d.null = [[]] then inheritNull ds else d.null

end Csvw

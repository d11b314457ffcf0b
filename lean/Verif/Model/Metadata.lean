import Verif.Model.TableGroup
/-!
# Descriptions from and to JSON

Model of `fromvalue` and `asdict` of the classes `Datatype`, `Column`, `ForeignKey`, `Schema`, `Table` and `TableGroup` in
`/repo/src/csvw/metadata.py` 434–500, 538–555, 621–630, 752–781, 863–970, 988–1079, 1180–1220, 1463–1500, and of `utils.attr_asdict`
(`/repo/src/csvw/utils.py` 48–58). Values which are fetched from other places (a schema or dialect given by URL) are not modelled:
`notImplemented`.
-/

namespace Csvw

/-! ## `asdict` in general -/

/-- Insert an item before the first one with a larger key. -/
def insertItem (e : Str × J) : List (Str × J) → List (Str × J)
  | [] => [e]
  | f :: r => if TableGroup.strLe e.1 f.1 then e :: f :: r else f :: insertItem e r

/-- `sorted(d.items())` (481, 484): the keys are distinct, so that values are never compared. -/
def sortItems : List (Str × J) → List (Str × J)
  | [] => []
  | e :: r => insertItem e (sortItems r)

/-- `v not in ([], {})` (499). -/
def keptValue (v : J) : Bool := decide (v ≠ .arr []) && decide (v ≠ .obj [])

/-- `attr_asdict(obj, omit_defaults)` (utils.py 48–58) for attributes given with values and defaults. -/
def attrItems (od : Bool) (l : List (String × J × J)) : List (Str × J) :=
  (l.filter fun e => !(od && decide (e.2.1 = e.2.2))).map fun e => (e.1.toList, e.2.1)

/-- `DescriptionBase.asdict` (473–500); `own` are the items for the other attributes. -/
def asdictOf (atProps common own : List (Str × J)) : List (Str × J) :=
  ((sortItems atProps).map (fun e => ('@' :: e.1, e.2)) ++ (sortItems common ++ own)).filter
    fun e => decide (e.1 = "null".toList) || keptValue e.2

/-! ## Datatypes -/

/-- An `int` or `None`. -/
def J.ofOptInt : Option Int → J
  | none => .null
  | some i => .int i

/-- A bound in `Datatype.asdict` (499, 623–627): it is formatted if present. -/
def boundItem (ext : Ext) (dt : Datatype) (n : String) : Option Val → Res (List (Str × J))
  | none => .ok []
  | some v => if v = .json (.arr []) || v = .json (.obj []) then .ok []
    else (dt.formatted ext v).map fun s => [(n.toList, .str s)]

/-- `Datatype.asdict` (621–630) with `omit_defaults=True`, the only case which occurs for the datatypes of columns etc. (utils.py 56). -/
def Datatype.asdict (ext : Ext) (dt : Datatype) : Res J := do
  let b1 ← boundItem ext dt "minimum" dt.minimum
  let b2 ← boundItem ext dt "maximum" dt.maximum
  let b3 ← boundItem ext dt "minInclusive" dt.minInclusive
  let b4 ← boundItem ext dt "maxInclusive" dt.maxInclusive
  let b5 ← boundItem ext dt "minExclusive" dt.minExclusive
  let b6 ← boundItem ext dt "maxExclusive" dt.maxExclusive
  let own := attrItems true
    [("base", .str dt.base.name.toList, .null), ("format", dt.format, .null), ("length", .ofOptInt dt.length, .null),
     ("minLength", .ofOptInt dt.minLength, .null), ("maxLength", .ofOptInt dt.maxLength, .null)]
  match asdictOf dt.atProps dt.common (own ++ (b1 ++ (b2 ++ (b3 ++ (b4 ++ (b5 ++ b6)))))) with
  | [(k, v)] => if k = "base".toList then return v else return .obj [(k, v)]
  | m => return .obj m

/-! ## Inherited properties -/

/-- `asdict()` of a URI template; `INVALID` cannot be written as JSON. -/
def tmplJson : PVal → Res J
  | .json j => .ok j
  | .tmpl s => .ok (.str s)
  | _ => .error .typeError

/-- The value of `datatype` in `asdict`. -/
def dtypeJson (ext : Ext) : PVal → Res J
  | .json j => .ok j
  | .dtype d => d.asdict ext
  | _ => .error .typeError

/-- The items for the inherited properties (708–734). -/
def Descr.items (ext : Ext) (od : Bool) (d : Descr) : Res (List (Str × J)) := do
  let aboutUrl ← tmplJson d.aboutUrl
  let datatype ← dtypeJson ext d.datatype
  let propertyUrl ← tmplJson d.propertyUrl
  let valueUrl ← tmplJson d.valueUrl
  return attrItems od
    [("aboutUrl", aboutUrl, .null), ("datatype", datatype, .null), ("default", .str d.default, .str []),
     ("lang", d.lang, .str "und".toList), ("null", .arr (d.null.map .str), .arr [.str []]), ("ordered", d.ordered, .null),
     ("propertyUrl", propertyUrl, .null), ("required", d.required, .null), ("separator", d.separator, .null),
     ("textDirection", d.textDirection, .null), ("valueUrl", valueUrl, .null)]

/-- The names of the attributes of `Description` (440–441, 706–734). -/
def descriptionFields : List Str :=
  ["common_props", "at_props", "_parent", "aboutUrl", "datatype", "default", "lang", "null", "ordered", "propertyUrl", "required",
   "separator", "textDirection", "valueUrl"].map String.toList

/-- Attributes which are not arguments of the constructor under their own name: they lead to a `TypeError`. -/
def privateFields : List Str := ["_parent", "_number", "_fname"].map String.toList

/-- `cls(**cls.partition_properties(d))` (469–470), where `f` converts the arguments. (The test for private names comes first.) -/
def fromParts {α : Type} (x : MExt) (fields : List Str) (typeName : String) (f : Parts → Res α) (d : J) : Res α :=
  match partitionProperties x fields typeName.toList true d with
  | .error e => .error e
  | .ok none => .error .typeError
  | .ok (some p) => if p.own.any fun q => privateFields.contains q.1 then .error .typeError else f p

/-- The part of the constructors which all descriptions share. -/
def Descr.ofParts (ext : Ext) (x : MExt) (other : Base → Derived → J → Res Val) (p : Parts) : Res Descr :=
  (Descr.construct ext x other p.own).map fun d => { d with common := p.common, atProps := p.atProps }

/-! ## Columns -/

/-- `utils.converter(str, None, allow_none=True)` for `name` (768–771). Simplification: a list passes the converter; such columns are
not modelled. -/
def convName : J → Res (Option Str)
  | .str s => .ok (some s)
  | .arr _ => .error .notImplemented
  | _ => .ok none

/-- `utils.converter(bool, False)` (772–774, 779). Simplification as for `name`. -/
def convFlag : J → Res Bool
  | .bool b => .ok b
  | .arr _ => .error .notImplemented
  | _ => .ok false

/-- `converter_titles` (750–755). -/
def convTitles (x : MExt) : J → Option NatLang
  | .null => none
  | j => match NatLang.construct x j with
    | .ok n => some n
    | .error _ => none

/-- The names of the attributes of `Column` (759–781). -/
def columnFields : List Str := descriptionFields ++ ["name", "suppressOutput", "titles", "virtual", "_number"].map String.toList

/-- `Column(**…)` (759–781). -/
def Column.ofParts (ext : Ext) (x : MExt) (other : Base → Derived → J → Res Val) (p : Parts) : Res Column := do
  let props ← Descr.ofParts ext x other p
  let name ← convName (argOf "name" p.own)
  let suppressOutput ← convFlag (argOf "suppressOutput" p.own)
  let virtual ← convFlag (argOf "virtual" p.own)
  return { props, name, titles := convTitles x (argOf "titles" p.own), virtual, suppressOutput }

/-- `Column.fromvalue` (469–470). -/
def Column.fromvalue (ext : Ext) (x : MExt) (other : Base → Derived → J → Res Val) (d : J) : Res Column :=
  fromParts x columnFields "Column" (Column.ofParts ext x other) d

/-- `titles.asdict()`. -/
def titlesJson : Option NatLang → J
  | none => .null
  | some n => n.asdict

/-- `Column.asdict` (492–500). -/
def Column.asdict (ext : Ext) (od : Bool) (c : Column) : Res J := do
  let items ← c.props.items ext od
  return .obj (asdictOf c.props.atProps c.props.common (items ++ attrItems od
    [("name", .ofOptStr c.name, .null), ("suppressOutput", .bool c.suppressOutput, .bool false),
     ("titles", titlesJson c.titles, .null), ("virtual", .bool c.virtual, .bool false)]))

/-! ## Foreign keys -/

/-- `column_reference()` (855–860). Simplification: only lists of strings, see `ForeignKey`. -/
def convColref : J → Res (List Str)
  | .str s => .ok [s]
  | .arr l => if l.all J.isStr then .ok (strsOf l) else .error .notImplemented
  | _ => .error .notImplemented

/-- `link_property()` (313–318). -/
def convLink : J → Res (Option Str)
  | .null => .ok none
  | .str s => .ok (some s)
  | _ => .error .valueError

/-- `ForeignKey.fromdict` (881–890) with `Reference(**…)` (863–871) for an object. (`TypeError`s for a bad `reference` become
`ValueError`; unexpected properties: `ValueError`.) -/
def ForeignKey.fromdict (d : List (Str × J)) : Res ForeignKey :=
  match Dict.get "reference".toList d with
  | none => .error .keyError
  | some (.obj r) =>
    if r.any fun e => !["resource".toList, "schemaReference".toList, "columnReference".toList].contains e.1 then .error .valueError
    else do
      let resource ← convLink (argOf "resource" r)
      let schemaReference ← convLink (argOf "schemaReference" r)
      let refColumns ← convColref (argOf "columnReference" r)
      if resource.isSome && schemaReference.isSome then .error .valueError
      else if d.any fun e => !["columnReference".toList, "reference".toList].contains e.1 then .error .valueError
      else do
        let columnReference ← convColref (argOf "columnReference" d)
        return { columnReference, resource, schemaReference, refColumns }
  | some _ => .error .valueError

/-- `ForeignKey.asdict` (892–895). -/
def ForeignKey.asdict (od : Bool) (k : ForeignKey) : J :=
  .obj (attrItems od [("columnReference", .arr (k.columnReference.map .str), .null)] ++
    [("reference".toList, .obj (attrItems od
      [("resource", .ofOptStr k.resource, .null), ("schemaReference", .ofOptStr k.schemaReference, .null),
       ("columnReference", .arr (k.refColumns.map .str), .null)]))])

/-- The items of a list which are objects, converted (898–905, and the list comprehension 921–923). -/
def mapObjs {α : Type} (f : List (Str × J) → Res α) : List J → Res (List α)
  | [] => .ok []
  | .obj m :: r => match f m with
    | .error e => .error e
    | .ok a => (mapObjs f r).map (a :: ·)
  | _ :: r => mapObjs f r

/-- `foreignKeys` (924–926, 898–905): `null` is an empty list; of a list, the objects are converted; an object is taken for the list of
its keys, which are no specifications and skipped; other values are not iterable. -/
def convForeignKeys : J → Res (List ForeignKey)
  | .null | .obj _ => .ok []
  | .arr l => mapObjs ForeignKey.fromdict l
  | _ => .error .typeError

/-! ## Schemas -/

/-- The names of the attributes of `Schema` (909–931). -/
def schemaFields : List Str := descriptionFields ++ ["columns", "foreignKeys", "primaryKey", "rowTitles"].map String.toList

/-- `columns` (919–923): the objects of a list. Simplification: lists with lists as items, which the converter lets pass, are not
modelled. -/
def convColumns (ext : Ext) (x : MExt) (other : Base → Derived → J → Res Val) : J → Res (List Column)
  | .arr l => if l.any J.isList then .error .notImplemented else mapObjs (fun m => Column.fromvalue ext x other (.obj m)) l
  | _ => .ok []

/-- `primaryKey` (927). -/
def convKey : J → Res (Option (List Str))
  | .null => .ok none
  | j => (convColref j).map some

/-- `rowTitles` (928–931); the default is the empty list. -/
def convRowTitles : Option J → List J
  | none => []
  | some (.arr l) => l
  | some j => [j]

/-- `Schema(**…)` (909–956). -/
def Schema.ofParts (ext : Ext) (x : MExt) (other : Base → Derived → J → Res Val) (p : Parts) : Res Schema := do
  let props ← Descr.ofParts ext x other p
  let columns ← convColumns ext x other (argOf "columns" p.own)
  let foreignKeys ← convForeignKeys (argOf "foreignKeys" p.own)
  let primaryKey ← convKey (argOf "primaryKey" p.own)
  let s ← Schema.construct props columns foreignKeys primaryKey
  return { s with rowTitles := convRowTitles (Dict.get "rowTitles".toList p.own) }

/-- `Schema.fromvalue` (958–970); for a link (a string) see `Model/Links`. -/
def Schema.fromvalue (ext : Ext) (x : MExt) (other : Base → Derived → J → Res Val) : J → Res Schema
  | .str _ => .error .notImplemented
  | .obj m => fromParts x schemaFields "Schema" (Schema.ofParts ext x other) (.obj m)
  | _ => fromParts x schemaFields "Schema" (Schema.ofParts ext x other) (.obj [])

/-- `None` or a list of strings. -/
def J.ofOptStrs : Option (List Str) → J
  | none => .null
  | some l => .arr (l.map .str)

/-- A function to JSON for all items of a list. -/
def mapRes {α β : Type} (f : α → Res β) : List α → Res (List β)
  | [] => .ok []
  | a :: r => match f a with
    | .error e => .error e
    | .ok b => (mapRes f r).map (b :: ·)

/-- `Schema.asdict` (492–500). -/
def Schema.asdict (ext : Ext) (od : Bool) (s : Schema) : Res J := do
  let items ← s.props.items ext od
  let columns ← mapRes (Column.asdict ext od) s.columns
  return .obj (asdictOf s.props.atProps s.props.common (items ++ attrItems od
    [("columns", .arr columns, .arr []), ("foreignKeys", .arr (s.foreignKeys.map (ForeignKey.asdict od)), .arr []),
     ("primaryKey", .ofOptStrs s.primaryKey, .null), ("rowTitles", .arr s.rowTitles, .arr [])]))

end Csvw

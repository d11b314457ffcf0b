import Verif.Model.Names
import Verif.Model.Files
/-!
# Metadata as Markdown

Model of `qname2url` and `metadata2markdown` in `/repo/src/csvw/utils.py` 108–232, and of the command `csvw2markdown` in
`/repo/src/csvw/__main__.py` 148–161.
-/

namespace Csvw.Markdown

/-- External functions. -/
structure MdExt where
  /-- `str(v)` for floats, lists and dicts. -/
  reprJ : J → Str
  /-- `'{}'.format(v)` for the parsed bounds of a datatype. -/
  strVal : Val → Str
  /-- The characters which match `[\w\s]`. -/
  isWord : Char → Bool
  /-- `json.dumps` of a dict. -/
  dumps : List (Str × J) → Str
  /-- `'{}'.format(INVALID)` -/
  invalid : Str
  /-- Python's Unicode database. -/
  unicode : Names.Unicode

/-- The prefixes in `qname2url` (109–117). -/
def prefixes : List (Str × Str) :=
  [("csvw", "http://www.w3.org/ns/csvw#"), ("rdf", "http://www.w3.org/1999/02/22-rdf-syntax-ns#"),
   ("rdfs", "http://www.w3.org/2000/01/rdf-schema#"), ("xsd", "http://www.w3.org/2001/XMLSchema#"),
   ("dc", "http://purl.org/dc/terms/"), ("dcat", "http://www.w3.org/ns/dcat#"), ("prov", "http://www.w3.org/ns/prov#")].map
  fun p => (p.1.toList, p.2.toList)

/-- `qname2url` (108–119): the first prefix which fits; `str.replace` replaces all occurrences. -/
def qname2url (q : Str) : Option Str :=
  match prefixes.find? fun p => (p.1 ++ [':']).isPrefixOf q with
  | some p => some (Py.replace (p.1 ++ [':']) p.2 q)
  | none => none

/-- `str(v)`, also as used by `'{}'.format(v)`. -/
def pyStr (m : MdExt) : J → Str
  | .str s => s
  | .null => "None".toList
  | .bool b => if b then "True".toList else "False".toList
  | .int i => (toString i).toList
  | j => m.reprJ j

/-- `html.escape(s)`. -/
def escapeChar : Char → Str
  | '&' => "&amp;".toList
  | '<' => "&lt;".toList
  | '>' => "&gt;".toList
  | '"' => "&quot;".toList
  | '\'' => "&#x27;".toList
  | c => [c]

/-- `html.escape(s)`. -/
def escape (s : Str) : Str := s.flatMap escapeChar

/-- `qname2link` (130–136). -/
def qname2link (html : Bool) (q : Str) : Str :=
  match qname2url q with
  | some url =>
    if html then "<a href=\"".toList ++ url ++ "\">".toList ++ q ++ "</a>".toList
    else ['['] ++ q ++ "](".toList ++ url ++ [')']
  | none => q

mutual
/-- `htmlify` (138–151). -/
def htmlify (m : MdExt) : J → Str
  | .arr l => "<ol>".toList ++ htmlifyItems m l ++ "</ol>".toList
  | .obj o => "<dl>".toList ++
      (o.flatMap fun p => "<dt>".toList ++ qname2link true p.1 ++ "</dt><dd>".toList ++ escape (pyStr m p.2) ++ "</dd>".toList) ++ "</dl>".toList
  | j => pyStr m j
/-- The items of a list (143–144). -/
def htmlifyItems (m : MdExt) : List J → Str
  | [] => []
  | j :: r => "<li>".toList ++ htmlify m j ++ "</li>".toList ++ htmlifyItems m r
end

/-- `'\n'.join`. -/
def joinLines (l : List Str) : Str := Py.join ['\n'] l

/-- The key for descriptions. -/
def descKey : Str := "dc:description".toList

/-- The key for images. -/
def imageKey : Str := "https://schema.org/image".toList

/-- The line for an image (159–165): a string becomes a dict with the key `contentUrl` (which is not the key which is looked up). -/
def imageLine (m : MdExt) (img : J) : Res Str :=
  let line (o : List (Str × J)) : Str :=
    let caption := (Dict.get "https://schema.org/caption".toList o).getD .null
    "![".toList ++ (if caption.truthy then pyStr m caption else []) ++ "](".toList ++
      pyStr m ((Dict.get "https://schema.org/contentUrl".toList o).getD .null) ++ ")\n".toList
  match img with
  | .str s => .ok (line [("contentUrl".toList, .str s)])
  | .obj o => .ok (line o)
  | _ => .error .attributeError

/-- A line of the table of properties (168–169). -/
def propLine (m : MdExt) (p : Str × J) : Str := qname2link false p.1 ++ " | ".toList ++ htmlify m p.2

/-- The line for the description (156–158): only strings can be added. -/
def descLines : Option J → Res (List Str)
  | none => .ok []
  | some (.str s) => .ok [s ++ ['\n']]
  | some _ => .error .typeError

/-- The line for an image, if there is one (159–165). -/
def imageLines (m : MdExt) : Option J → Res (List Str)
  | none => .ok []
  | some j => (imageLine m j).map fun l => [l]

/-- `properties` (153–170). -/
def properties (m : MdExt) (props : List (Str × J)) : Res Str := do
  let props := props.filter fun p => p.2.truthy
  let desc ← descLines (Dict.get descKey props)
  let props := Dict.erase descKey props
  let img ← imageLines m (Dict.get imageKey props)
  let props := Dict.erase imageKey props
  let table : List Str := if props.isEmpty then [] else "property | value\n --- | ---".toList :: props.map (propLine m)
  return joinLines (desc ++ img ++ table) ++ ['\n']

/-- `re.fullmatch(r'[\w\s]+(\|[\w\s]+)*', s)` (176): the parts between bars are not empty and have such characters only (the bar is none
of them). -/
def isChoices (m : MdExt) (s : Str) : Bool := (Py.split ['|'] s).all fun w => !w.isEmpty && w.all m.isWord

/-- What is added for the format (175–180): `re.fullmatch` raises `TypeError` if it is no string. -/
def formatText (m : MdExt) (d : Datatype) : Res Str :=
  if !d.format.truthy then .ok []
  else match d.format with
    | .str s =>
      if isChoices m s then
        .ok ("<br>Valid choices:<br>".toList ++ (Py.split ['|'] s).flatMap fun w => " `".toList ++ w ++ ['`'])
      else if d.base = .string then .ok ("<br>Regex: `".toList ++ s ++ ['`'])
      else .ok []
    | _ => .error .typeError

/-- What is added for a bound (181–184): nothing for values which count as false. -/
def boundText (ext : Ext) (m : MdExt) (label : String) : Option Val → Str
  | some v => if v.truthy ext then label.toList ++ m.strVal v else []
  | none => []

/-- The datatype of a column itself. -/
def ownDatatype (c : Column) : Option Datatype :=
  match c.props.datatype with
  | .dtype d => some d
  | _ => none

/-- The text for the datatype (173–184). -/
def datatypeText (ext : Ext) (m : MdExt) : Option Datatype → Res Str
  | none => .ok "`string`".toList
  | some d => (formatText m d).map fun f =>
    ['`'] ++ d.base.name.toList ++ ['`'] ++ f ++ boundText ext m "<br>&ge; " d.minimum ++ boundText ext m "<br>&le; " d.maximum

/-- The second cell of a row (173–186). -/
def typeCell (ext : Ext) (m : MdExt) (c : Column) : Res Str := do
  let dt ← datatypeText ext m (ownDatatype c)
  return if c.props.separator.truthy then "list of ".toList ++ dt ++ " (separated by `".toList ++ pyStr m c.props.separator ++ "`)".toList else dt

/-- `(desc + '<br>') if desc else desc`, and more text (189–196). -/
def addText (desc text : Str) : Str := (if desc = [] then desc else desc ++ "<br>".toList) ++ text

/-- `slug(s)` with the defaults (90). -/
def anchor (m : MdExt) (s : Str) : Res Str := Names.slug m.unicode s true true

/-- The description of a column (187): `.replace` is only defined for strings. -/
def columnDesc : Option J → Res Str
  | none => .ok []
  | some (.str s) => .ok (Py.replace ['\n'] [' '] s)
  | some _ => .error .attributeError

/-- What is added for a foreign key (193–196), with the column and table referenced. -/
def refText (m : MdExt) : Option (Str × Str) → Str → Res Str
  | none, desc => .ok desc
  | some (col, table), desc => (anchor m table).map fun a =>
    addText desc ("References [".toList ++ table ++ "::".toList ++ col ++ "](#table-".toList ++ a ++ [')'])

/-- The third cell of a row (187–196). `fks` are the referenced column and table for each column. -/
def descCell (m : MdExt) (c : Column) (fks : List (Str × Str × Str)) (pk : Option (List Str)) : Res Str := do
  let desc ← columnDesc (Dict.get descKey c.props.common)
  refText m (c.name.bind fun n => Dict.get n fks)
    (if c.name.any fun n => (pk.getD []).contains n then addText desc "Primary key".toList else desc)

/-- `'{}'.format(c.name)` -/
def nameText (c : Column) : Str := c.name.getD "None".toList

/-- The first cell of a row (199–200). -/
def nameCell (m : MdExt) (c : Column) : Str :=
  match c.props.propertyUrl with
  | .tmpl u => ['['] ++ nameText c ++ "](".toList ++ u ++ [')']
  | .invalid => ['['] ++ nameText c ++ "](".toList ++ m.invalid ++ [')']
  | _ => ['`'] ++ nameText c ++ ['`']

/-- `colrow` (172–203). -/
def colrow (ext : Ext) (m : MdExt) (fks : List (Str × Str × Str)) (pk : Option (List Str)) (c : Column) : Res Str := do
  let dt ← typeCell ext m c
  let desc ← descCell m c fks pk
  return nameCell m c ++ " | ".toList ++ dt ++ " | ".toList ++ desc

/-- The items of `fks` (212–214), for foreign keys of one column. -/
def fkItems : List ForeignKey → Res (List (Str × Str × Str))
  | [] => .ok []
  | fk :: r => match fk.columnReference with
    | [c] => match fk.refColumns with
      | [] => .error .indexError
      | rc :: _ => match fk.resource with
        | none => .error .attributeError
        | some t => (fkItems r).map ((c, rc, t) :: ·)
    | _ => fkItems r

/-- `pathlib.Path.exists`. -/
def exists' (d : Disk) (p : PPath) : Bool := d.isDir p || (d.files p).isSome

/-- The line for the dialect (221–223), if it has other values than the defaults; `None` has no method `asdict`. -/
def dialectLines (m : MdExt) : Option Dialect → Res (List Str)
  | none => .error .attributeError
  | some d => .ok (if d.asdictMeta.isEmpty then [] else ["\n**CSV dialect**: `".toList ++ m.dumps d.asdictMeta ++ "`\n".toList])

/-- The lines for a table (211–230). -/
def tableLines (ext : Ext) (m : MdExt) (d : Disk) (linkFiles : Bool) (fname : Option PPath) (g : GroupD) (t : TableD) : Res (List Str) := do
  let url := t.like.url.getD []
  let fks ← fkItems t.like.schema.foreignKeys
  let a ← anchor m url
  let linked := linkFiles && fname.any fun p => exists' d (p.parent.join url)
  let header := "## <a name=\"table-".toList ++ a ++ "\"></a>Table ".toList ++
    (if linked then ['['] ++ url ++ "](".toList ++ url ++ ")\n".toList else url)
  let props ← properties m t.like.props.common
  let dialect ← dialectLines m (t.like.dialect.or g.like.dialect)
  let rows ← mapRes (colrow ext m (Dict.ofPairs fks) t.like.schema.primaryKey) t.like.schema.columns
  return [['\n'] ++ header ++ ['\n'], props] ++ dialect ++
      ["\n### Columns\n".toList, "Name/Property | Datatype | Description".toList, " --- | --- | --- ".toList] ++ rows

/-- The title of a dataset. -/
def titleKey : Str := "dc:title".toList

/-- The lines before the tables (205–209). -/
def groupLines (m : MdExt) (linkFiles : Bool) (fname : Option PPath) (g : GroupD) : Res (List Str) := do
  let title := ["# ".toList ++ ((Dict.get titleKey g.like.props.common).map (pyStr m)).getD "Dataset".toList ++ ['\n']]
  let note : List Str := match fname with
    | some p => if linkFiles then ["> [!NOTE]\n> Described by [".toList ++ p.name ++ "](".toList ++ p.name ++ ").\n".toList] else []
    | none => []
  let props ← properties m (Dict.erase titleKey g.like.props.common)
  return title ++ note ++ [props]

/-- `metadata2markdown(tg, link_files)` (122–231). -/
def metadata2markdown (ext : Ext) (m : MdExt) (d : Disk) (linkFiles : Bool) (g : FGroup) : Res Str := do
  let head ← groupLines m linkFiles g.fname g.desc
  let tables ← mapRes (tableLines ext m d linkFiles g.fname g.desc) g.desc.tables
  return joinLines (head ++ tables.flatten)

/-- `csvw2markdown` (`__main__.py` 148–161) for a local metadata file: what is printed. -/
def csvw2markdown (ext : Ext) (x : MExt) (other : Base → Derived → J → Res Val) (lk : EncLookup) (fx : FExt) (m : MdExt) (d : Disk)
    (p : PPath) : Res Str :=
  match FGroup.fromFile ext x other lk fx d p with
  | .error e => .error e
  | .ok g => metadata2markdown ext m d true g

end Csvw.Markdown

import Verif.Model.Markdown
import Verif.Spec.Names
import Verif.Spec.Dsv
/-!
# What the Markdown documentation of a dataset has to contain (C82)
-/

namespace Csvw.Spec
open Csvw.Markdown

/-- `[text](target)` -/
def mdLink (text target : Str) : Str := ['['] ++ text ++ "](".toList ++ target ++ [')']

/-- `` `text` `` -/
def mdCode (text : Str) : Str := ['`'] ++ text ++ ['`']

/-- The name of the anchor for a table: the letters and digits of its URL, in lower case. -/
def mdAnchor (m : MdExt) (url : Str) : Str := (unmarked m.unicode true url).filter letterOrDigit

/-- The text has no control characters (for which no anchor can be made). -/
def AnchorOk (m : MdExt) (url : Str) : Prop := (unmarked m.unicode true url).any control = false

/-- The text is a list of words, separated by bars. -/
def Choices (m : MdExt) (s : Str) (ws : List Str) : Prop :=
  s = Py.join ['|'] ws ∧ ws ≠ [] ∧ ∀ w ∈ ws, w ≠ [] ∧ ∀ c ∈ w, m.isWord c = true ∧ c ≠ '|'

/-- What is said about the format of a datatype. -/
inductive FormatText (m : MdExt) (d : Datatype) : Str → Prop where
  | none : d.format.truthy = false → FormatText m d []
  | choices {s : Str} {ws : List Str} : d.format = .str s → Choices m s ws →
      FormatText m d ("<br>Valid choices:<br>".toList ++ ws.flatMap fun w => [' '] ++ mdCode w)
  | regex {s : Str} : d.format = .str s → s ≠ [] → (∀ ws, ¬ Choices m s ws) → d.base = .string → FormatText m d ("<br>Regex: ".toList ++ mdCode s)
  | other {s : Str} : d.format = .str s → s ≠ [] → (∀ ws, ¬ Choices m s ws) → d.base ≠ .string → FormatText m d []

/-- What is said about a bound: a value which counts as false in Python (0) is not mentioned. -/
def BoundText (ext : Ext) (m : MdExt) (label : String) (b : Option Val) (text : Str) : Prop :=
  (∃ v, b = some v ∧ v.truthy ext = true ∧ text = label.toList ++ m.strVal v) ∨ ((∀ v, b = some v → v.truthy ext = false) ∧ text = [])

/-- The cell for the datatype of a column (only what is given for the column itself). -/
def TypeCell (ext : Ext) (m : MdExt) (c : Column) (cell : Str) : Prop :=
  ∃ dt, (((∀ d, c.props.datatype ≠ .dtype d) ∧ dt = mdCode "string".toList) ∨
      ∃ d f lo hi, c.props.datatype = .dtype d ∧ FormatText m d f ∧ BoundText ext m "<br>&ge; " d.minimum lo ∧
        BoundText ext m "<br>&le; " d.maximum hi ∧ dt = mdCode d.base.name.toList ++ f ++ lo ++ hi) ∧
    ((c.props.separator.truthy = false ∧ cell = dt) ∨
      (c.props.separator.truthy = true ∧ cell = "list of ".toList ++ dt ++ " (separated by ".toList ++ mdCode (pyStr m c.props.separator) ++ [')']))

/-- The cell for the name of a column. -/
def NameCell (m : MdExt) (c : Column) (cell : Str) : Prop :=
  let name := c.name.getD "None".toList
  (∃ u, c.props.propertyUrl = .tmpl u ∧ cell = mdLink name u) ∨ (c.props.propertyUrl = .invalid ∧ cell = mdLink name m.invalid) ∨
    ((∃ j, c.props.propertyUrl = .json j ∨ ∃ d, c.props.propertyUrl = .dtype d) ∧ cell = mdCode name)

/-- The foreign key which counts for a column: the last one which consists of this column. -/
def ColumnKey (fks : List ForeignKey) (n : Str) (fk : ForeignKey) : Prop :=
  ∃ before after, fks = before ++ fk :: after ∧ fk.columnReference = [n] ∧ ∀ fk' ∈ after, fk'.columnReference ≠ [n]

/-- The reference in the description of a column: a link to the section for the table referenced. -/
def RefText (m : MdExt) (fks : List ForeignKey) (c : Column) (text : Str) : Prop :=
  (∃ n fk rc rcs r, c.name = some n ∧ ColumnKey fks n fk ∧ fk.refColumns = rc :: rcs ∧ fk.resource = some r ∧
      text = "References ".toList ++ mdLink (r ++ "::".toList ++ rc) ("#table-".toList ++ mdAnchor m r)) ∨
    ((∀ n, c.name = some n → ∀ fk ∈ fks, fk.columnReference ≠ [n]) ∧ text = [])

/-- The description of a column itself, in one line. -/
def DescText (c : Column) (text : Str) : Prop :=
  (∃ s, Dict.get "dc:description".toList c.props.common = some (.str s) ∧ text = s.map fun ch => if ch = '\n' then ' ' else ch) ∨
    (Dict.get "dc:description".toList c.props.common = none ∧ text = [])

/-- The cell for the description: the description, whether the column belongs to the primary key, and what it references, as far as there is
something to say, separated by `<br>`. -/
def DescCell (m : MdExt) (s : Schema) (c : Column) (cell : Str) : Prop :=
  ∃ desc key ref, DescText c desc ∧ RefText m s.foreignKeys c ref ∧
    (((∃ n ∈ s.primaryKey.getD [], c.name = some n) ∧ key = "Primary key".toList) ∨
      ((∀ n ∈ s.primaryKey.getD [], c.name ≠ some n) ∧ key = [])) ∧
    cell = Py.join "<br>".toList ([desc, key, ref].filter fun t => !t.isEmpty)

/-- The line for a column. -/
def ColumnLine (ext : Ext) (m : MdExt) (s : Schema) (c : Column) (line : Str) : Prop :=
  ∃ name type desc, NameCell m c name ∧ TypeCell ext m c type ∧ DescCell m s c desc ∧ line = Py.join " | ".toList [name, type, desc]

/-- The text for the common properties: the description, the image, and a table with all others which are not empty. -/
def PropertiesText (m : MdExt) (common : List (Str × J)) (text : Str) : Prop :=
  let shown := common.filter fun p => p.2.truthy
  let rest := shown.filter fun p => decide (p.1 ≠ "dc:description".toList) && decide (p.1 ≠ "https://schema.org/image".toList)
  ∃ desc img table : List Str, text = Py.join ['\n'] (desc ++ img ++ table) ++ ['\n'] ∧
    ((∃ s, Dict.get "dc:description".toList shown = some (.str s) ∧ desc = [s ++ ['\n']]) ∨
      (Dict.get "dc:description".toList shown = none ∧ desc = [])) ∧
    ((∃ j l, Dict.get "https://schema.org/image".toList shown = some j ∧ imageLine m j = .ok l ∧ img = [l]) ∨
      (Dict.get "https://schema.org/image".toList shown = none ∧ img = [])) ∧
    ((rest = [] ∧ table = []) ∨
      (rest ≠ [] ∧ table = "property | value\n --- | ---".toList :: rest.map fun p => qname2link false p.1 ++ " | ".toList ++ htmlify m p.2))

/-- The lines about a table of a dataset: `linked` tells whether the name of the data file is a link to it. -/
def TableSection (ext : Ext) (m : MdExt) (linked : Str → Prop) (g : GroupD) (t : TableD) (lines : List Str) : Prop :=
  ∃ url name props dl dialect rows, t.like.url.getD [] = url ∧
    ((linked url ∧ name = mdLink url url ++ ['\n']) ∨ (¬ linked url ∧ name = url)) ∧
    PropertiesText m t.like.props.common props ∧
    (t.like.dialect = some dl ∨ (t.like.dialect = none ∧ g.like.dialect = some dl)) ∧
    ((dl.asdictMeta = [] ∧ dialect = []) ∨
      (dl.asdictMeta ≠ [] ∧ dialect = ["\n**CSV dialect**: ".toList ++ mdCode (m.dumps dl.asdictMeta) ++ ['\n']])) ∧
    All2 (ColumnLine ext m t.like.schema) t.like.schema.columns rows ∧
    lines = ["\n## <a name=\"table-".toList ++ mdAnchor m url ++ "\"></a>Table ".toList ++ name ++ ['\n'], props] ++ dialect ++
      ["\n### Columns\n".toList, "Name/Property | Datatype | Description".toList, " --- | --- | --- ".toList] ++ rows

/-- The lines before the first table. -/
def GroupSection (m : MdExt) (linkFiles : Bool) (fname : Option PPath) (g : GroupD) (lines : List Str) : Prop :=
  ∃ title note props, ((∃ j, Dict.get "dc:title".toList g.like.props.common = some j ∧ title = pyStr m j) ∨
      (Dict.get "dc:title".toList g.like.props.common = none ∧ title = "Dataset".toList)) ∧
    ((∃ p, fname = some p ∧ linkFiles = true ∧ note = ["> [!NOTE]\n> Described by ".toList ++ mdLink p.name p.name ++ ".\n".toList]) ∨
      ((fname = none ∨ linkFiles = false) ∧ note = [])) ∧
    PropertiesText m (g.like.props.common.filter fun p => decide (p.1 ≠ "dc:title".toList)) props ∧
    lines = ["# ".toList ++ title ++ ['\n']] ++ note ++ [props]

/-! ## When documentation can be made at all -/

/-- A description is a text, and an image an object or a text. -/
def PropertiesOk (common : List (Str × J)) : Prop :=
  (∀ j, Dict.get "dc:description".toList (common.filter fun p => p.2.truthy) = some j → ∃ s, j = .str s) ∧
    ∀ j, Dict.get "https://schema.org/image".toList (common.filter fun p => p.2.truthy) = some j → (∃ s, j = .str s) ∨ ∃ o, j = .obj o

/-- The format of a column is a text, and so is its description, and there is an anchor for the table which the column references. -/
def ColumnOk (m : MdExt) (fks : List ForeignKey) (c : Column) : Prop :=
  (∀ d, c.props.datatype = .dtype d → d.format.truthy = true → ∃ s, d.format = .str s) ∧
  (∀ j, Dict.get "dc:description".toList c.props.common = some j → ∃ s, j = .str s) ∧
  ∀ n fk r, c.name = some n → ColumnKey fks n fk → fk.resource = some r → AnchorOk m r

/-- Documentation for the table can be made. -/
def TableOk (m : MdExt) (g : GroupD) (t : TableD) : Prop :=
  (t.like.dialect ≠ none ∨ g.like.dialect ≠ none) ∧ AnchorOk m (t.like.url.getD []) ∧ PropertiesOk t.like.props.common ∧
  (∀ fk ∈ t.like.schema.foreignKeys, fk.columnReference.length = 1 → fk.refColumns ≠ [] ∧ fk.resource ≠ none) ∧
  ∀ c ∈ t.like.schema.columns, ColumnOk m t.like.schema.foreignKeys c

end Csvw.Spec

namespace Csvw.Spec
open Csvw.Markdown

/-! ## Qualified names -/

/-- The prefixes which are known, and the namespaces they stand for. -/
def mdNamespaces : List (String × String) :=
  [("csvw", "http://www.w3.org/ns/csvw#"), ("rdf", "http://www.w3.org/1999/02/22-rdf-syntax-ns#"),
   ("rdfs", "http://www.w3.org/2000/01/rdf-schema#"), ("xsd", "http://www.w3.org/2001/XMLSchema#"),
   ("dc", "http://purl.org/dc/terms/"), ("dcat", "http://www.w3.org/ns/dcat#"), ("prov", "http://www.w3.org/ns/prov#")]

/-- `q` is the name `local` in the namespace with the URL `uri`, abbreviated to the prefix `pre`. -/
def QName (q pre uri name : Str) : Prop :=
  (∃ p ∈ mdNamespaces, p.1.toList = pre ∧ p.2.toList = uri) ∧ q = pre ++ [':'] ++ name

/-! ## Cells of a row -/

/-- The text fits in a cell of a table: it has neither bars nor newlines. -/
def CellText (s : Str) : Prop := '|' ∉ s ∧ '\n' ∉ s

/-- What is written in the row of a column fits in cells. The format may have bars if it is a list of choices, and the description may have
newlines. -/
structure RowTexts (ext : Ext) (m : MdExt) (s : Schema) (c : Column) : Prop where
  name : CellText (c.name.getD "None".toList)
  url : ∀ u, c.props.propertyUrl = .tmpl u → CellText u
  invalid : CellText m.invalid
  separator : c.props.separator.truthy = true → CellText (pyStr m c.props.separator)
  format : ∀ d f, c.props.datatype = .dtype d → d.format = .str f → '\n' ∉ f ∧ ('|' ∈ f → ∃ ws, Choices m f ws)
  minimum : ∀ d v, c.props.datatype = .dtype d → d.minimum = some v → CellText (m.strVal v)
  maximum : ∀ d v, c.props.datatype = .dtype d → d.maximum = some v → CellText (m.strVal v)
  desc : ∀ t, Dict.get "dc:description".toList c.props.common = some (.str t) → '|' ∉ t
  keys : ∀ fk ∈ s.foreignKeys, (∀ t ∈ fk.refColumns, CellText t) ∧ ∀ r, fk.resource = some r → CellText r

/-! ## Values of properties -/

/-- A name, with a link in HTML if it is a qualified name. -/
def HtmlName (k text : Str) : Prop :=
  (∃ u, qname2url k = some u ∧ text = "<a href=\"".toList ++ u ++ "\">".toList ++ k ++ "</a>".toList) ∨ (qname2url k = none ∧ text = k)

mutual
/-- A value as HTML: lists are numbered lists, objects lists of definitions. -/
inductive HtmlText (m : MdExt) : J → Str → Prop where
  | plain {j : J} : (∀ l, j ≠ .arr l) → (∀ o, j ≠ .obj o) → HtmlText m j (pyStr m j)
  | list {l : List J} {ts : List Str} : HtmlItems m l ts →
      HtmlText m (.arr l) ("<ol>".toList ++ (ts.flatMap fun t => "<li>".toList ++ t ++ "</li>".toList) ++ "</ol>".toList)
  | object {o : List (Str × J)} {ts : List Str} :
      All2 (fun p t => ∃ n, HtmlName p.1 n ∧ t = "<dt>".toList ++ n ++ "</dt><dd>".toList ++ escape (pyStr m p.2) ++ "</dd>".toList) o ts →
      HtmlText m (.obj o) ("<dl>".toList ++ ts.flatten ++ "</dl>".toList)
/-- The items of a list. -/
inductive HtmlItems (m : MdExt) : List J → List Str → Prop where
  | nil : HtmlItems m [] []
  | cons {j : J} {t : Str} {l : List J} {ts : List Str} : HtmlText m j t → HtmlItems m l ts → HtmlItems m (j :: l) (t :: ts)
end

end Csvw.Spec

import Verif.Props.C82d
/-!
# C82: an example; defects of the documentation
-/

namespace Csvw.Props
open Csvw Spec Markdown

/-- External functions for examples: only ASCII. -/
def mdExample : MdExt where
  reprJ := fun _ => "…".toList
  strVal := fun v => match v with
    | .int i => (toString i).toList
    | _ => "…".toList
  isWord := fun c => c.isAlphanum || c == '_' || c == ' ' || c == '\n'
  dumps := fun _ => "{…}".toList
  invalid := "INVALID".toList
  unicode := ⟨id, fun _ => false, id⟩

/-- A column with a datatype. -/
def mdColumn (name : String) (d : Datatype) : Column := { name := some name.toList, props := { datatype := .dtype d } }

/-- A dataset with two tables, the first of which references the second. -/
def mdGroup : GroupD :=
  { like := { dialect := some { commentPrefix := none }, props := { common := [("dc:title".toList, .str "Data".toList), ("dc:license".toList, .str "CC".toList)] } }
    tables := [
      { like := {
          url := some "a.csv".toList
          schema := {
            columns := [mdColumn "id" { base := .integer, minimum := some (.int 1) },
              { name := some "b".toList, props := { common := [("dc:description".toList, .str "x\ny".toList)], separator := .str ";".toList } },
              mdColumn "c" { base := .string, format := .str "yes|no".toList }]
            foreignKeys := [{ columnReference := ["b".toList], resource := some "b.csv".toList, refColumns := ["id".toList] }]
            primaryKey := some ["id".toList] } } },
      { like := { url := some "b.csv".toList, schema := { columns := [{ name := some "id".toList }] } } }] }

/-- What is printed for this dataset. -/
def mdText : String :=
"# Data

property | value
 --- | ---
[dc:license](http://purl.org/dc/terms/license) | CC


## <a name=\"table-acsv\"></a>Table a.csv




### Columns

Name/Property | Datatype | Description
 --- | --- | --- 
`id` | `integer`<br>&ge; 1 | Primary key
`b` | list of `string` (separated by `;`) | x y<br>References [b.csv::id](#table-bcsv)
`c` | `string`<br>Valid choices:<br> `yes` `no` | 

## <a name=\"table-bcsv\"></a>Table b.csv




### Columns

Name/Property | Datatype | Description
 --- | --- | --- 
`id` | `string` | "

/-- External functions for examples. -/
def extExample : Ext where
  re := fun _ => none
  pyStr := fun _ => []
  isWord := fun _ => false
  uriParse := .ok
  uriStr := id
  floatParse := fun _ => none
  floatStr := id
  floatLt := fun _ _ => false
  floatTrue := fun _ => true
  floatDec := fun _ => .fin false 0 0
  durFormat := fun _ _ => .ok true
  durParse := .ok
  durStr := id
  durLe := fun _ _ => .ok true
  durTrue := fun _ => true
  jsonLoads := fun _ => .ok .null
  jsonDumps := fun _ => []
  jsonSchema := fun _ => false
  jsonBad := fun _ => false
  jsonValid := fun _ _ => true
  isoUncommon := fun _ => none
  tzOf := fun _ => .ok none
  duParse := fun _ => .error .valueError
  today := (2024, 1, 1)
  babelDateTime := fun _ _ => []
  babelDateOther := fun _ _ => []
  babelTime := fun _ _ => []
  babelDecimal := fun _ _ => []

/-- The documentation of the example. -/
theorem C82_example : metadata2markdown extExample mdExample ⟨fun _ => false, fun _ => none⟩ false ⟨mdGroup, none⟩ = .ok mdText.toList := by
  decide +kernel


/-- The example meets the conditions under which documentation can be made, and those for its rows. -/
theorem C82_example_ok : (∀ t ∈ mdGroup.tables, TableOk mdExample mdGroup t) ∧
    ∀ t ∈ mdGroup.tables, ∀ c ∈ t.like.schema.columns, ∃ line, ColumnLine extExample mdExample t.like.schema c line := by
  constructor
  · exact (C82_succeeds.1 ⟨_, C82_example⟩).2
  · intro t ht c hc
    obtain ⟨head, sections, -, h2, -⟩ := C82_sections C82_example
    obtain ⟨lines, -, url', name, props, dl, dialect, rows, -, -, -, -, -, hrows, -⟩ := md_all2_left h2 ht
    obtain ⟨line, -, h⟩ := md_all2_left hrows hc
    exact ⟨line, h⟩

/-! ## Defects -/

section
variable {ext : Ext} {m : MdExt} {d : Disk} {linkFiles : Bool}

/-- **C82 (violated)** No documentation can be made if neither a table nor the dataset has a dialect. -/
theorem C82_violated_dialect {g : FGroup} {t : TableD} (ht : t ∈ g.desc.tables) (h1 : t.like.dialect = none) (h2 : g.desc.like.dialect = none)
    (text : Str) : metadata2markdown ext m d linkFiles g ≠ .ok text := by
  intro h
  rcases ((C82_succeeds.1 ⟨_, h⟩).2 t ht).1 with h | h
  · exact h h1
  · exact h h2

/-- A dataset for which this is the case. -/
example : metadata2markdown extExample mdExample ⟨fun _ => false, fun _ => none⟩ false
    ⟨{ tables := [{ like := { url := some "a.csv".toList } }] }, none⟩ = .error .attributeError := by decide +kernel

/-- **C82 (violated)** No documentation can be made if the format of a datatype is an object. -/
theorem C82_violated_format {g : FGroup} {t : TableD} (ht : t ∈ g.desc.tables) {c : Column} (hc : c ∈ t.like.schema.columns) {dt : Datatype}
    (hd : c.props.datatype = .dtype dt) {o : List (Str × J)} (ho : o ≠ []) (hf : dt.format = .obj o) (text : Str) :
    metadata2markdown ext m d linkFiles g ≠ .ok text := by
  intro h
  obtain ⟨s, hs⟩ := (((C82_succeeds.1 ⟨_, h⟩).2 t ht).2.2.2.2 c hc).1 dt hd (by rw [hf]; simpa [J.truthy] using ho)
  rw [hf] at hs
  cases hs

/-- **C82 (violated)** A bound which is 0 is not mentioned, and no bound which is given with a name other than `minimum` and `maximum`: the
row is the same as that without bounds. -/
theorem C82_violated_zero (b : Base) (v : Option Val) (fks : List (Str × Str × Str)) (pk : Option (List Str)) (n : String) :
    colrow ext m fks pk (mdColumn n { base := b, minimum := some (.int 0), maximum := some (.int 0), minInclusive := v, maxInclusive := v,
                                      minExclusive := v, maxExclusive := v }) =
      colrow ext m fks pk (mdColumn n { base := b }) := by
  rfl

/-- **C82 (violated)** What a column inherits is not documented: a column without datatype is said to be of type `string`, whatever the
datatype of its schema, its table or the dataset is. -/
theorem C82_violated_inherited {c : Column} (hc : c.props.datatype = .json .null)
    (h : c.props.separator.truthy = false) (cell : Str) : TypeCell ext m c cell ↔ cell = "`string`".toList := by
  constructor
  · rintro ⟨dt, h1, h2⟩
    rcases h1 with ⟨-, rfl⟩ | ⟨d, f, lo, hi, hd, -⟩
    · rcases h2 with ⟨-, rfl⟩ | ⟨h2, -⟩
      · rfl
      · rw [h] at h2; cases h2
    · rw [hc] at hd; cases hd
  · rintro rfl
    exact ⟨_, .inl ⟨(by intro d hd; rw [hc] at hd; cases hd), rfl⟩, .inl ⟨h, rfl⟩⟩

/-- **C82** The line for an image with an address is a Markdown image with this address and the caption, if there is one. -/
theorem C82_image {o : List (Str × J)} {u : Str} (hu : Dict.get "https://schema.org/contentUrl".toList o = some (.str u)) :
    (∀ c, Dict.get "https://schema.org/caption".toList o = some (.str c) →
      imageLine m (.obj o) = .ok ("![".toList ++ c ++ "](".toList ++ u ++ ")\n".toList)) ∧
    (Dict.get "https://schema.org/caption".toList o = none → imageLine m (.obj o) = .ok ("![](".toList ++ u ++ ")\n".toList)) := by
  refine ⟨fun c hc => ?_, fun hc => ?_⟩ <;> unfold imageLine <;> simp only [hu, hc]
  · cases c <;> rfl
  · rfl

/-- **C82 (violated)** An image which is given by its URL is not shown: the link leads to `None`. -/
theorem C82_violated_image (s : Str) : imageLine m (.str s) = .ok "![](None)\n".toList := by
  rfl

/-- **C82 (violated)** A regular expression with a bar makes four cells. -/
theorem C82_violated_regex :
    ∃ line, colrow ext mdExample [] none (mdColumn "x" { base := .string, format := .str "a+|b".toList }) = .ok line ∧ line.count '|' = 3 :=
  ⟨"`x` | `string`<br>Regex: `a+|b` | ".toList, rfl, by decide⟩

/-- **C82 (violated)** A newline in the value of a property splits its row. -/
theorem C82_violated_newline : properties mdExample [("dc:title".toList, .str "a\nb | c".toList)] =
    .ok "property | value\n --- | ---\n[dc:title](http://purl.org/dc/terms/title) | a\nb | c\n".toList := by
  decide +kernel

/-- **C82 (violated)** Different tables may have the same anchor. -/
theorem C82_violated_anchor : "a-b.csv".toList ≠ "ab.csv".toList ∧ mdAnchor mdExample "a-b.csv".toList = mdAnchor mdExample "ab.csv".toList ∧
    AnchorOk mdExample "a-b.csv".toList ∧ AnchorOk mdExample "ab.csv".toList := by
  unfold AnchorOk
  decide

end
end Csvw.Props

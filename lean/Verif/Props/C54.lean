import Verif.Lemmas.Metadata6
import Verif.Props.C18_C19
/-!
# C54: a description written as JSON and read again is the same description
-/

namespace Csvw.Props
open Spec Datatypes

/-- **C55.** Validation of common properties is idempotent: its result is accepted, unchanged. -/
theorem C55_idempotent (x : MExt) (j j' : J) (h : validCommon x j = .ok j') : validCommon x j' = .ok j' :=
  validCommon_idem x j j' h

section
variable {ext : Ext} {x : MExt} {other : Base → Derived → J → Res Val} {lk : EncLookup}

/-- **C54** A datatype description read from JSON is written by `asdict()` such that reading it again gives the same datatype. -/
theorem C54_datatype {d : J} (hd : DistinctKeys d) {dt : Datatype} (h : Datatype.fromvalue ext x other d = .ok dt) (hw : DtWritable ext dt) :
    ∃ j dt', dt.asdict ext = .ok j ∧ Datatype.fromvalue ext x other j = .ok dt' ∧ SameDatatype dt dt' := by
  obtain ⟨s, hB, hg⟩ := fromvalue_built hd h
  obtain ⟨j, h1, -, h3⟩ := datatype_roundtrip (x := x) hB hg hw
  exact ⟨j, _, h1, h3, _, _, rfl, sameItems_canon hg.atNodup, sameItems_canon hg.commonNodup⟩

/-- **C54** The same for columns, whether or not defaults are omitted. -/
theorem C54_column {d : J} (hd : DistinctKeys d) {c : Column} (h : Column.fromvalue ext x other d = .ok c) (hw : DescrWritable ext c.props)
    (omitDefaults : Bool) :
    ∃ j c', c.asdict ext omitDefaults = .ok j ∧ Column.fromvalue ext x other j = .ok c' ∧ SameColumn c c' := by
  obtain ⟨m, c', h1, h2, h3⟩ := column_roundtrip hd h hw omitDefaults c.number
  exact ⟨.obj m, c', h1, h2, h3⟩

/-- **C54** The same for schemas: all columns with their positions, the foreign keys, the primary key and the row titles. -/
theorem C54_schema {d : J} (hd : DistinctKeys d) {s : Schema} (h : Schema.fromvalue ext x other d = .ok s) (hw : DescrWritable ext s.props)
    (hwc : ∀ c ∈ s.columns, DescrWritable ext c.props) (omitDefaults : Bool) :
    ∃ j s', s.asdict ext omitDefaults = .ok j ∧ Schema.fromvalue ext x other j = .ok s' ∧ SameSchema s s' := by
  obtain ⟨m, s', h1, h2, h3⟩ := schema_roundtrip hd h hw hwc omitDefaults
  exact ⟨.obj m, s', h1, h2, h3⟩

/-- **C54** The same for tables. -/
theorem C54_table (hlk : lk "utf-8".toList = .ok ()) {d : J} (hd : DistinctKeys d) {t : TableD} (h : TableD.fromvalue ext x other lk d = .ok t)
    (hw : LikeWritable ext t.like) (omitDefaults : Bool) :
    ∃ j t', t.asdict ext omitDefaults = .ok j ∧ TableD.fromvalue ext x other lk j = .ok t' ∧ SameTable t t' := by
  obtain ⟨m, t', h1, h2, h3⟩ := table_roundtrip hlk hd h hw omitDefaults
  exact ⟨.obj m, t', h1, h2, h3⟩

/-- **C54** The same for table groups. -/
theorem C54_group (hlk : lk "utf-8".toList = .ok ()) {d : J} (hd : DistinctKeys d) {g : GroupD} (h : GroupD.fromvalue ext x other lk d = .ok g)
    (hw : LikeWritable ext g.like) (hwt : ∀ t ∈ g.tables, LikeWritable ext t.like) (omitDefaults : Bool) :
    ∃ j g', g.asdict ext omitDefaults = .ok j ∧ GroupD.fromvalue ext x other lk j = .ok g' ∧ SameGroup g g' := by
  obtain ⟨m, g', h1, h2, h3⟩ := group_roundtrip hlk hd h hw hwt omitDefaults
  exact ⟨.obj m, g', h1, h2, h3⟩

/-- **C54** Every table of the group is read and written with the same dialect as before, unless it has the default dialect and the group
has a dialect. -/
theorem C54_dialects {g g' : GroupD} (h : SameGroup g g') :
    All2 (fun t t' => t.dialect = some { commentPrefix := none } ∧ g.like.dialect ≠ none ∨ t'.getDialect = t.getDialect) g.group.tables g'.group.tables := by
  unfold GroupD.group
  simp only
  have hg := h.like.dialect
  have ht := h.tables
  generalize g.tables = l at ht
  generalize g'.tables = l' at ht
  induction ht with
  | nil => exact .nil
  | @cons a b _ _ hab _ ih =>
    refine .cons ?_ ih
    have hd := hab.like.dialect
    unfold Table.getDialect GroupD.table
    simp only [Option.bind_some]
    rcases hd with hd | ⟨hd1, hd2⟩
    · right
      rw [hd]
      rcases hg with hg | ⟨hg1, hg2⟩
      · rw [hg]
      · rw [hg1, hg2]
        cases a.like.dialect <;> rfl
    · by_cases hn : g.like.dialect = none
      · right
        rw [hd1, hd2]
        rcases hg with hg | ⟨hg1, hg2⟩
        · rw [hg, hn]; rfl
        · rw [hg2]; rfl
      · exact .inl ⟨hd1, hn⟩

/-- A table group with a dialect and a table whose dialect says that it is comma-separated. -/
def groupExample : J := .obj
  [("@context".toList, .arr [.str "http://www.w3.org/ns/csvw".toList, .obj [("@base".toList, .str "http://x".toList)]]),
   ("dialect".toList, .obj [("delimiter".toList, .str ";".toList)]),
   ("tables".toList, .arr [.obj [("url".toList, .str "t.csv".toList), ("dialect".toList, .obj [("delimiter".toList, .str ",".toList)]),
      ("tableSchema".toList, .obj [("columns".toList, .arr [.obj [("name".toList, .str "ID".toList)]])])]])]

/-- The group, its JSON and the group read from it. -/
def groupRead : GroupD :=
  { like := { props := { atProps := [("context".toList, .arr [.str "http://www.w3.org/ns/csvw".toList, .obj [("@base".toList, .str "http://x".toList)]])] },
              dialect := some { commentPrefix := none, delimiter := ";".toList } },
    tables := [{ like := { url := some "t.csv".toList, dialect := some { commentPrefix := none },
                           schema := { columns := [{ name := some "ID".toList, number := 1 }] } } }] }
def groupWritten : J := .obj
  [("@context".toList, .arr [.str "http://www.w3.org/ns/csvw".toList, .obj [("@base".toList, .str "http://x".toList)]]),
   ("dialect".toList, .obj [("delimiter".toList, .str ";".toList)]),
   ("tables".toList, .arr [.obj [("tableSchema".toList, .obj [("columns".toList, .arr [.obj [("name".toList, .str "ID".toList)]])]),
      ("url".toList, .str "t.csv".toList)]])]
def groupReread : GroupD :=
  { groupRead with tables := [{ like := { url := some "t.csv".toList, schema := { columns := [{ name := some "ID".toList, number := 1 }] } } }] }

/-- **C54 is violated** for dialects in that case: the table's own dialect is lost, so that its rows are split at semicolons instead of
commas after writing and reading the description. -/
theorem C54_violated_dialect : ∃ g j g',
    GroupD.fromvalue ext x other (fun _ => .ok ()) groupExample = .ok g ∧ g.asdict ext true = .ok j ∧
      GroupD.fromvalue ext x other (fun _ => .ok ()) j = .ok g' ∧ g.group.tables.map (fun t => t.getDialect.delimiter) = [",".toList] ∧
      g'.group.tables.map (fun t => t.getDialect.delimiter) = [";".toList] :=
  ⟨groupRead, groupWritten, groupReread, rfl, rfl, rfl, rfl, rfl⟩

/-- **C54** The condition on bounds holds for every integer of at most 28 digits within the range of an integer datatype without
format. -/
theorem C54_integer_bound {name : String} (hn : name ∈ Spec.intNames) {s : DatatypeSpec} {dt : Datatype} (hb : s.base = .str name.toList)
    (hf : s.format = .null) (h : Datatype.construct ext other s = .ok dt) {n : Int} (hlt : n.natAbs < 10 ^ 28) (hr : Spec.InRange name n) :
    BoundSurvives ext dt (some (.int n)) := by
  have hB := Datatype.built_of_construct h
  obtain ⟨b, h1, h2, h3, -⟩ := base_of_intName hn
  have hbase : dt.base = b := by
    have := hB.base; rw [hb, h1] at this; simpa using this.symm
  intro v hv
  cases hv
  refine ⟨by simp, by simp, Spec.intText n, ?_, ?_⟩
  · rw [int_formatted hB hf (hbase ▸ h2), if_neg]
    have := (Dec.ndigits_le (k := 28) (n := n.natAbs) (by decide)).2 hlt
    omega
  · obtain ⟨d, -, ⟨_, -, hfm⟩, -⟩ := hB.descr
    have hfm : dt.format = .null := by rw [hfm]; split <;> simp [hf]
    have hk : dt.base.kind = .integer := hbase ▸ h2
    unfold Datatype.parse Datatype.descr
    simp only [hfm, derived, hk, numDerived, J.truthy, Bool.false_eq_true, if_false, toPython, numFmtOf]
    rw [intText_eq, hbase, intToPython_small b _ _ Dec.isDigit_digits (Dec.digits_ne_nil _) (by simpa using hlt)]
    simp only [Dec.numeral_digits, signed_natAbs]
    have h3 := h3 n
    cases hrg : b.range with
    | none => rfl
    | some p =>
      obtain ⟨lo, hi⟩ := p
      rw [hrg] at h3
      simp only at h3 ⊢
      rw [if_pos (h3.1 hr)]
      rfl

/-! ## The hypotheses can be met -/

mutual
/-- A decision procedure for `DistinctKeys`, for the examples. -/
def distinctB : J → Bool
  | .arr l => distinctBs l
  | .obj m => decide (m.map Prod.fst).Nodup && distinctBm m
  | _ => true
def distinctBs : List J → Bool
  | [] => true
  | j :: r => distinctB j && distinctBs r
def distinctBm : List (Str × J) → Bool
  | [] => true
  | (_, j) :: r => distinctB j && distinctBm r
end

mutual
theorem distinct_of_bool : {j : J} → distinctB j = true → DistinctKeys j
  | .null, _ => .null
  | .bool b, _ => .bool b
  | .int i, _ => .int i
  | .flt f, _ => .flt f
  | .str s, _ => .str s
  | .arr l, h => .arr (distinct_of_bools (by simpa [distinctB] using h))
  | .obj m, h => by
    simp only [distinctB, Bool.and_eq_true, decide_eq_true_eq] at h
    exact .obj h.1 (distinct_of_boolm h.2)
theorem distinct_of_bools : {l : List J} → distinctBs l = true → ∀ j ∈ l, DistinctKeys j
  | [], _ => by simp
  | a :: r, h => by
    simp only [distinctBs, Bool.and_eq_true] at h
    intro j hj
    rcases List.mem_cons.1 hj with hj | hj
    · rw [hj]; exact distinct_of_bool h.1
    · exact distinct_of_bools h.2 j hj
theorem distinct_of_boolm : {m : List (Str × J)} → distinctBm m = true → ∀ k v, (k, v) ∈ m → DistinctKeys v
  | [], _ => by simp
  | (a, b) :: r, h => by
    simp only [distinctBm, Bool.and_eq_true] at h
    intro k v hm
    rcases List.mem_cons.1 hm with hm | hm
    · cases hm; exact distinct_of_bool h.1
    · exact distinct_of_boolm h.2 k v hm
end

/-- A schema as JSON. -/
def schemaExample : J := .obj
  [("columns".toList, .arr
     [.obj [("name".toList, .str "ID".toList), ("required".toList, .bool true), ("titles".toList, .obj [("en".toList, .str "Identifier".toList)]),
        ("datatype".toList, .obj [("base".toList, .str "integer".toList), ("minimum".toList, .str "3".toList), ("@id".toList, .str "x".toList)])],
      .obj [("name".toList, .str "Tags".toList), ("separator".toList, .str ";".toList), ("datatype".toList, .str "string".toList)],
      .obj [("name".toList, .str "V".toList), ("virtual".toList, .bool true), ("valueUrl".toList, .str "http://x/{ID}".toList)]]),
   ("primaryKey".toList, .str "ID".toList), ("@id".toList, .str "y".toList),
   ("foreignKeys".toList, .arr [.obj [("columnReference".toList, .str "Tags".toList),
      ("reference".toList, .obj [("resource".toList, .str "t.csv".toList), ("columnReference".toList, .arr [.str "ID".toList])])]])]

theorem distinct_schemaExample : DistinctKeys schemaExample := distinct_of_bool (by decide +kernel)

theorem noBound {dt : Datatype} : BoundSurvives ext dt none := fun v h => by cases h

/-- Whether there is an invalid template, and the datatype, of a description. -/
def invalidUrl : PVal → Bool | .invalid => true | _ => false
def datatypeOf : PVal → Option Datatype | .dtype dt => some dt | _ => none

theorem writable_of {d : Descr} (o : Option Datatype) (h1 : invalidUrl d.aboutUrl = false) (h2 : invalidUrl d.propertyUrl = false)
    (h3 : invalidUrl d.valueUrl = false) (h4 : datatypeOf d.datatype = o) (h5 : ∀ dt, o = some dt → DtWritable ext dt) : DescrWritable ext d := by
  refine ⟨?_, ?_, ?_, ?_⟩
  · intro h; rw [h] at h1; cases h1
  · intro h; rw [h] at h2; cases h2
  · intro h; rw [h] at h3; cases h3
  · intro dt h; rw [h] at h4; exact h5 dt h4.symm

example : ∃ s, Schema.fromvalue ext x other schemaExample = .ok s ∧ s.columns.length = 3 ∧ s.primaryKey = some ["ID".toList] ∧
    DescrWritable ext s.props ∧ ∀ c ∈ s.columns, DescrWritable ext c.props := by
  refine ⟨_, rfl, rfl, rfl, writable_of none rfl rfl rfl rfl (fun dt h => by cases h), ?_⟩
  intro c hc
  rcases List.mem_cons.1 hc with rfl | hc
  · refine writable_of (some { base := .integer, minimum := some (.int 3), atProps := [("id".toList, .str "x".toList)] }) rfl rfl rfl rfl fun dt h => ?_
    cases h
    refine ⟨fun v hv => ?_, noBound, noBound, noBound, noBound, noBound, by simp [EmptyValue]⟩
    cases hv
    exact ⟨by simp, by simp, "3".toList, rfl, rfl⟩
  rcases List.mem_cons.1 hc with rfl | hc
  · refine writable_of (some { base := .string }) rfl rfl rfl rfl fun dt h => ?_
    cases h
    exact ⟨noBound, noBound, noBound, noBound, noBound, noBound, by simp [EmptyValue]⟩
  rcases List.mem_cons.1 hc with rfl | hc
  · exact writable_of none rfl rfl rfl rfl (fun dt h => by cases h)
  · cases hc

theorem plainWritable {d : Descr} (h1 : d.aboutUrl = .json .null) (h2 : d.propertyUrl = .json .null) (h3 : d.valueUrl = .json .null)
    (h4 : d.datatype = .json .null) : DescrWritable ext d :=
  writable_of none (by rw [h1]; rfl) (by rw [h2]; rfl) (by rw [h3]; rfl) (by rw [h4]; rfl) (fun _ h => by cases h)

/-- The hypotheses of the theorems for groups and tables are met by the example. -/
example : DistinctKeys groupExample ∧ GroupD.fromvalue ext x other (fun _ => .ok ()) groupExample = .ok groupRead ∧
    LikeWritable ext groupRead.like ∧ ∀ t ∈ groupRead.tables, LikeWritable ext t.like := by
  refine ⟨distinct_of_bool (by decide +kernel), rfl, ?_, ?_⟩
  · refine ⟨plainWritable rfl rfl rfl rfl, plainWritable rfl rfl rfl rfl, (by intro c hc; cases hc), ?_⟩
    intro d hd; cases hd; exact .inr ⟨_, rfl⟩
  · intro t ht
    rcases List.mem_cons.1 ht with rfl | ht
    · refine ⟨plainWritable rfl rfl rfl rfl, plainWritable rfl rfl rfl rfl, ?_, ?_⟩
      · intro c hc
        rcases List.mem_cons.1 hc with rfl | hc
        · exact plainWritable rfl rfl rfl rfl
        · cases hc
      · intro d hd; cases hd; exact .inr ⟨_, rfl⟩
    · cases ht

end
end Csvw.Props

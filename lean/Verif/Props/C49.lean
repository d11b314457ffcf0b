import Verif.Lemmas.Frictionless5
import Verif.Spec.Frictionless
import Verif.Props.C26_C27
/-!
# C49: tables of frictionless data packages
-/

namespace Csvw.Props
open Csvw.Frictionless Csvw.Spec Csvw.Spec.Frictionless Datatypes

section
variable {ext : Ext} {x : MExt} {other : Base → Derived → J → Res Val} {lk : EncLookup} {dumps : J → Str} {pkg : J} {g : GroupD}

/-- **C49** (tables) The table group for a data package has one table for each resource which is a CSV file with a schema, in the same order.
The table has the path of the resource as URL, a column for each field of the schema, in the same order, and the primary key, null values,
foreign keys and dialect which the resource describes. -/
theorem C49_tables (hlk : lk "utf-8".toList = .ok ()) (h : toTablegroup ext x other lk dumps pkg = .ok g) :
    ∃ m, pkg = .obj m ∧ All2 (fun rsc t => ResourceTable ext other lk (resources m) rsc t) (tabular (resources m)) g.tables := by
  obtain ⟨m, hm, h1, -⟩ := group_facts hlk h
  exact ⟨m, hm, All2_imp (fun rsc t h => h.2.1) h1⟩

/-- Exactly the CSV files with a schema. -/
theorem C49_tabular (rs : List J) (rsc : List (Str × J)) : rsc ∈ tabular rs ↔ .obj rsc ∈ rs ∧ Tabular rsc := by
  unfold tabular
  rw [List.mem_filterMap]
  constructor
  · rintro ⟨j, hj, h⟩
    cases j <;> simp only [reduceCtorEq] at h
    split at h
    · cases h; exact ⟨hj, by assumption⟩
    · cases h
  · rintro ⟨h1, h2⟩
    exact ⟨_, h1, by simp [h2]⟩

/-- The description of the package which the group keeps (183–202). -/
def packageTerms : List (String × String) :=
  [("id", "dc:identifier"), ("licenses", "dc:license"), ("title", "dc:title"), ("homepage", "dcat:accessURL"),
   ("description", "dc:description"), ("sources", "dc:source"), ("contributors", "dc:contributor"), ("profile", "dc:conformsTo"),
   ("keywords", "dc:subject"), ("created", "dc:created")]

theorem has_isSome (k : Str) (m : List (Str × J)) : Dict.has k m = (Dict.get k m).isSome := by
  rw [Bool.eq_iff_iff, Dict.has_iff_mem_keys, Dict.get_isSome_iff_mem_keys]

theorem copyMeta_get {m : List (Str × J)} : ∀ {ps : List (String × String)} {md : List (Str × J)} {k : Str},
    k ∉ ps.map (·.2.toList) → Dict.get k (ps.foldl (copyMeta m) md) = Dict.get k md
  | [], _, _, _ => rfl
  | p :: ps, md, k, h => by
    simp only [List.map_cons, List.mem_cons, not_or] at h
    rw [List.foldl_cons, copyMeta_get h.2]
    unfold copyMeta
    split
    · exact Dict.get_set_ne (Ne.symm h.1) _ _
    · rfl

theorem copyMeta_has {m : List (Str × J)} {p : String × String} {v : J} (hv : Dict.get p.1.toList m = some v) :
    ∀ {ps : List (String × String)} {md : List (Str × J)}, (ps.map (·.2.toList)).Nodup → p ∈ ps →
      Dict.get p.2.toList (ps.foldl (copyMeta m) md) = some v
  | q :: ps, md, hn, hp => by
    rw [List.map_cons, List.nodup_cons] at hn
    rw [List.foldl_cons]
    rcases List.mem_cons.1 hp with rfl | hp
    · rw [copyMeta_get hn.1]
      unfold copyMeta
      rw [hv]
      exact Dict.get_set_self _ _ _
    · exact copyMeta_has hv hn.2 hp

theorem terms_eq : packageTerms = packageProps := rfl

theorem nameMeta_get {m md : List (Str × J)} {k : Str} (h1 : k = "dc:identifier".toList → prop "id" m ≠ none)
    (h2 : k = "dc:title".toList → prop "title" m ≠ none) : Dict.get k (nameMeta m md) = Dict.get k md := by
  have hhas : ∀ k : Str, Dict.has k m = (Dict.get k m).isSome := fun k => has_isSome k m
  unfold nameMeta
  split
  · rfl
  · rw [hhas, hhas]
    split
    · next h =>
      refine Dict.get_set_ne (fun hk => h1 hk.symm ?_) _ _
      simp only [Bool.not_eq_true', Option.isSome_eq_false_iff, Option.isNone_iff_eq_none] at h
      exact h
    · split
      · next h =>
        refine Dict.get_set_ne (fun hk => h2 hk.symm ?_) _ _
        simp only [Bool.not_eq_true', Option.isSome_eq_false_iff, Option.isNone_iff_eq_none] at h
        exact h
      · rfl

/-- **C49** (package) What the package says about itself becomes a common property of the table group, normalised as all common
properties. A package without `id` is identified by its name; one with an `id` but without title has its name as title. -/
theorem C49_package (hlk : lk "utf-8".toList = .ok ()) (h : toTablegroup ext x other lk dumps pkg = .ok g) :
    ∃ m, pkg = .obj m ∧
      (∀ p ∈ packageTerms, ∀ v, prop p.1 m = some v → ∃ v', Dict.get p.2.toList g.like.props.common = some v' ∧ validCommon x v = .ok v') ∧
      (∀ n, prop "name" m = some n → prop "id" m = none →
        ∃ v', Dict.get "dc:identifier".toList g.like.props.common = some v' ∧ validCommon x n = .ok v') ∧
      (∀ n, prop "name" m = some n → prop "id" m ≠ none → prop "title" m = none →
        ∃ v', Dict.get "dc:title".toList g.like.props.common = some v' ∧ validCommon x n = .ok v') := by
  obtain ⟨m, hm, -, -, hc⟩ := group_facts hlk h
  have hhas : ∀ k : Str, Dict.has k m = (Dict.get k m).isSome := fun k => has_isSome k m
  refine ⟨m, hm, ?_, ?_, ?_⟩
  · intro p hp v hv
    have hcp : CommonProperty p.2.toList := by
      have : ∀ p ∈ packageTerms, CommonProperty p.2.toList := by decide +kernel
      exact this p hp
    refine hc _ _ ?_ hcp
    have hids : ∀ q ∈ packageTerms, (q.2.toList = "dc:identifier".toList → q.1 = "id") ∧ (q.2.toList = "dc:title".toList → q.1 = "title") := by
      decide +kernel
    unfold packageMeta
    rw [nameMeta_get, copyMeta_has hv (by decide +kernel) (terms_eq ▸ hp)]
    · intro he; rw [← (hids p hp).1 he, hv]; simp
    · intro he; rw [← (hids p hp).2 he, hv]; simp
  · intro n hn hi
    refine hc _ _ ?_ (by decide +kernel)
    unfold packageMeta nameMeta
    rw [show Dict.get "name".toList m = some n from hn, hhas, show Dict.get "id".toList m = none from hi]
    exact Dict.get_set_self _ _ _
  · intro n hn hi ht
    refine hc _ _ ?_ (by decide +kernel)
    unfold packageMeta nameMeta
    rw [show Dict.get "name".toList m = some n from hn, hhas, hhas, show Dict.get "title".toList m = none from ht]
    cases hi' : Dict.get "id".toList m with
    | none => exact absurd hi' hi
    | some v => exact Dict.get_set_self _ _ _

/-- **C49 does not hold for the constraint `required`**: it is made a property of the datatype, which has none of
this name, so it is ignored; no column of any table of the group
is required, i.e. the null value is read as `None`. -/
theorem C49_required_violated (hlk : lk "utf-8".toList = .ok ()) (h : toTablegroup ext x other lk dumps pkg = .ok g) :
    ∀ t ∈ g.group.tables, ∀ c ∈ t.ccols, c.required = false := by
  obtain ⟨m, hm, h1, ⟨hg, -, -⟩, -⟩ := group_facts hlk h
  intro t ht c hc
  obtain ⟨td, htd, rfl⟩ := List.mem_map.1 ht
  obtain ⟨col, hcol, rfl⟩ := List.mem_map.1 hc
  obtain ⟨rsc, -, -, hrt, h2, h3, h4⟩ := All2_mem_right h1 td htd
  obtain ⟨sch, fs, hs, hf, -⟩ := hrt.columns
  obtain ⟨_, -, f, -, -, hb⟩ := All2_mem_right (h4 sch fs hs hf) col hcol
  have e1 : col.props.get .required = .json .null := by simp only [Descr.get]; rw [hb.required]
  have e2 : td.like.schema.props.get .required = .json .null := by simp only [Descr.get]; rw [h3.required]
  have e3 : td.like.props.get .required = .json .null := by simp only [Descr.get]; rw [h2.required]
  have e4 : g.like.props.get .required = .json .null := by simp only [Descr.get]; rw [hg.required]
  have : inherit .required [col.props, td.like.schema.props, td.like.props, g.like.props] = .json .null := by
    simp only [inherit, e1, e2, e3, e4, if_true]
  unfold CCol.required
  rw [show (CCol.mk col (g.table td).parents).chain = [col.props, td.like.schema.props, td.like.props, g.like.props] from rfl, this]
  rfl

/-- The datatype of a column for a field. -/
theorem field_read {f : List (Str × J)} {c : Column} (hf : FieldColumn ext other f c) {ps : List Descr} {cell : Str} {v : Val} (hv : v ≠ .none)
    (hr : CCol.read ext ⟨c, ps⟩ cell = .ok (.one v)) :
    ∃ s dt y, Datatype.construct ext other s = .ok dt ∧ Constrained f s ∧ dt.read ext y = .ok v := by
  obtain ⟨s, dt, h1, h2, h3⟩ := hf.datatype
  have hd : CCol.datatype ⟨c, ps⟩ = some dt := by
    unfold CCol.datatype
    have : inherit .datatype (CCol.mk c ps).chain = .dtype dt := by
      unfold CCol.chain
      cases ps with
      | nil => exact h1
      | cons p ps =>
        have e : c.props.get .datatype = .dtype dt := h1
        simp only [inherit, e, reduceCtorEq, if_false]
    rw [this]
  unfold CCol.read at hr
  simp only at hr
  split at hr
  · cases hr
  split at hr
  · cases hr
  · next r hp =>
    rw [hd] at hr
    cases r with
    | none =>
      simp only [CCol.applyDt, CCol.readItem, Except.map, Except.ok.injEq, CVal.one.injEq] at hr
      exact absurd hr.symm hv
    | one y =>
      simp only [CCol.applyDt, CCol.readItem] at hr
      obtain ⟨w, hw, he⟩ := Except.map_eq_ok.1 hr
      cases he
      exact ⟨s, dt, y, h2, h3, hw⟩
    | many l =>
      simp only [CCol.applyDt] at hr
      obtain ⟨w, hw, he⟩ := Except.map_eq_ok.1 hr
      cases he

/-- **C49** (lengths) A cell of the column for a string field is only accepted if its value meets the constraints `minLength` and `maxLength`. -/
theorem C49_lengths {f : List (Str × J)} {c : Column} (hf : FieldColumn ext other f c)
    (hb : baseOf (prop "type" f) (prop "format" f) = "string") {ps : List Descr} {cell v : Str}
    (hr : CCol.read ext ⟨c, ps⟩ cell = .ok (.one (.str v))) :
    (∀ n, constraint "minLength" f = some (.int n) → n ≤ v.length) ∧ (∀ n, constraint "maxLength" f = some (.int n) → v.length ≤ n) := by
  obtain ⟨s, dt, y, h1, h2, h3⟩ := field_read hf (by simp) hr
  obtain ⟨-, n, hn, hl⟩ := ((C26_length_iff (t := "string") (by decide) (by rw [h2.base, hb]) h1 y).1 _).1 h3
  cases hn
  refine ⟨fun n hn => hl.2.1 n ?_, fun n hn => hl.2.2 n ?_⟩
  · rw [h2.minLength n hn]; rfl
  · rw [h2.maxLength n hn]; rfl

/-- **C49** (bounds) A cell of the column for an integer field is only accepted if its value meets the constraints `minimum` and `maximum`. -/
theorem C49_bounds {f : List (Str × J)} {c : Column} (hf : FieldColumn ext other f c)
    (hb : prop "type" f = some (.str "integer".toList)) (hd : prop "decimalChar" f = none) (hg : prop "groupChar" f = none)
    (hp : constraint "pattern" f = none) {ps : List Descr} {cell : Str} {n : Int}
    (hr : CCol.read ext ⟨c, ps⟩ cell = .ok (.one (.int n))) :
    (∀ m : Int, m.natAbs < 10 ^ 28 → constraint "minimum" f = some (.int m) → m ≤ n) ∧
    (∀ m : Int, m.natAbs < 10 ^ 28 → constraint "maximum" f = some (.int m) → n ≤ m) := by
  obtain ⟨s, dt, y, h1, h2, h3⟩ := field_read hf (by simp) hr
  have hbase : baseOf (prop "type" f) (prop "format" f) = "integer" := by
    rw [hb]
    unfold baseOf
    rw [if_neg (fun h => by revert h; simp), if_neg (fun h => by revert h; simp)]
    decide +kernel
  have hB := Datatype.built_of_construct h1
  have hdb : dt.base = .integer := base_of hB (by rw [h2.base, hbase]; rfl)
  have hfmt : s.format = .null := h2.noFormat (fun h => absurd (hbase.symm.trans h) (by decide)) hd hg hp
  obtain ⟨d, hder, -, hmin, hmax, -⟩ := hB.descr
  rw [hdb, hfmt] at hder
  cases (show Datatypes.derived ext .integer .null = .ok .empty from rfl).symm.trans hder
  obtain ⟨-, hw⟩ := (C26_read_iff h1 (by rw [hdb]; rfl) y _).1 h3
  constructor
  · intro m hm hc
    rw [h2.minimum, hc, hdb] at hmin
    have := (parseBound_int (ext := ext) (other := other) (some m) (by intro a ha; cases ha; exact hm)).symm.trans hmin
    have := hw.minimum (.int m) (by rw [← Except.ok.inj this]; rfl)
    simpa [Val.lt] using this
  · intro m hm hc
    rw [h2.maximum, hc, hdb] at hmax
    have := (parseBound_int (ext := ext) (other := other) (some m) (by intro a ha; cases ha; exact hm)).symm.trans hmax
    have := hw.maximum (.int m) (by rw [← Except.ok.inj this]; rfl)
    simpa [Val.lt] using this

/-- A package with two resources, one of them a CSV file with a schema: a required string of 2 to 4 characters and an integer
between 1 and 9. -/
def packageExample : J := .obj
  [("name".toList, .str "pkg".toList), ("title".toList, .str "T".toList),
   ("resources".toList, .arr
     [.obj [("name".toList, .str "doc".toList), ("path".toList, .str "a.pdf".toList)],
      .obj [("name".toList, .str "rsc".toList), ("path".toList, .str "a.csv".toList), ("scheme".toList, .str "file".toList),
        ("format".toList, .str "csv".toList), ("dialect".toList, .obj [("delimiter".toList, .str ";".toList)]),
        ("schema".toList, .obj
          [("fields".toList, .arr
            [.obj [("name".toList, .str "id".toList), ("type".toList, .str "string".toList),
               ("constraints".toList, .obj [("required".toList, .bool true), ("minLength".toList, .int 2), ("maxLength".toList, .int 4)])],
             .obj [("name".toList, .str "n".toList), ("type".toList, .str "integer".toList), ("title".toList, .str "N".toList),
               ("constraints".toList, .obj [("minimum".toList, .int 1), ("maximum".toList, .int 9)])]]),
           ("primaryKey".toList, .str "id".toList),
           ("foreignKeys".toList, .arr [.obj [("fields".toList, .str "n".toList),
             ("reference".toList, .obj [("resource".toList, .str []), ("fields".toList, .str "id".toList)])]])])]])]

/-- The columns of the example. -/
def idColumn : Column :=
  { props := { datatype := .dtype { base := .string, minLength := some 2, maxLength := some 4} },
    name := some "id".toList, number := 1 }

def nColumn : Column :=
  { props := { datatype := .dtype { base := .integer, minimum := some (.int 1), maximum := some (.int 9) } },
    name := some "n".toList, titles := some [(none, ["N".toList])], number := 2 }

/-- The table of the example. -/
def keyExample : ForeignKey :=
  { columnReference := ["n".toList], resource := some "a.csv".toList, schemaReference := none, refColumns := ["id".toList] }

def schemaOfExample : Schema := { columns := [idColumn, nColumn], primaryKey := some ["id".toList], foreignKeys := [keyExample] }

def tableExample : TableD :=
  { like := { url := some "a.csv".toList, dialect := some { delimiter := ";".toList, commentPrefix := none }, schema := schemaOfExample } }

/-- The example is converted; `required` is lost: an empty cell of the first column is read as `None`; the other constraints are checked. -/
example (ext : Ext) (x : MExt) (other : Base → Derived → J → Res Val) :
    (toTablegroup ext x other (fun _ => .ok ()) (fun _ => []) packageExample).map (fun g => g.tables) = .ok [tableExample] ∧
    CCol.read ext ⟨idColumn, []⟩ [] = .ok (.one .none) ∧
    CCol.read ext ⟨idColumn, []⟩ "ab".toList = .ok (.one (.str "ab".toList)) ∧
    CCol.read ext ⟨idColumn, []⟩ "abcde".toList = .error .valueError ∧
    CCol.read ext ⟨nColumn, []⟩ "9".toList = .ok (.one (.int 9)) ∧ CCol.read ext ⟨nColumn, []⟩ "0".toList = .error .valueError := by
  refine ⟨rfl, rfl, rfl, rfl, rfl, rfl⟩

end
end Csvw.Props

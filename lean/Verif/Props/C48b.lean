import Verif.Props.C48
import Verif.Props.C49
/-!
# C48: the columns of the tables of the database; C49: the format of JSON fields
-/

namespace Csvw.Props
open Csvw.Db Csvw.Spec

/-- **C48** The three columns of an association table have different names, also for a table which refers to itself. -/
theorem C48_association_columns (atable apk btable bpk : Str) :
    ((associationTable atable apk btable bpk).toSpec.columns.map ColSpec.name).Nodup := by
  have hc : ∀ t k suffix : Str, t ++ '_' :: k ++ suffix ≠ "context".toList := by
    intro t k suffix h
    have : '_' ∈ "context".toList := by rw [← h]; simp
    revert this; decide
  have hc' : ∀ t k : Str, t ++ '_' :: k ≠ "context".toList := fun t k h => hc t k [] (by simpa using h)
  have h12 : ∀ a : Str, a ++ "_1".toList ≠ a ++ "_2".toList := by
    intro a h
    have := List.append_cancel_left h
    revert this; decide
  unfold associationTable AssocSpec.toSpec
  simp only [List.map_cons, List.map_nil, List.nodup_cons, List.mem_cons, List.not_mem_nil, or_false, not_or, List.nodup_nil, and_true,
    not_false_eq_true]
  by_cases h : atable ++ '_' :: apk = btable ++ '_' :: bpk
  · rw [if_pos h, if_pos h]
    refine ⟨⟨?_, hc _ _ _⟩, hc _ _ _⟩
    rw [h]
    exact h12 _
  · rw [if_neg h, if_neg h]
    exact ⟨⟨h, hc' _ _⟩, hc' _ _⟩

/-- A table which refers to itself. -/
example : (associationTable "t".toList "id".toList "t".toList "id".toList).toSpec.columns.map ColSpec.name =
    ["t_id_1".toList, "t_id_2".toList, "context".toList] := by decide

/-- The column of the database for a column of the schema. -/
structure SameColumn (c : CCol) (s : ColSpec) : Prop where
  name : s.name = c.col.header
  required : s.required = c.required
  base : s.base = match c.datatype with | some d => d.base | none => .string
  separator : c.separator = .ok s.separator
  datatype : s.csvw = c.datatype

theorem addColumns_same_columns {spec spec' : TableSpec} {cs : List CCol} (h : addColumns spec cs = .ok spec') :
    ∃ l, spec'.columns = spec.columns ++ l ∧ spec'.manyToMany = spec.manyToMany ∧
      All2 SameColumn (cs.filter fun c => !Dict.has c.col.header spec.manyToMany) l := by
  induction cs generalizing spec with
  | nil => unfold addColumns at h; cases h; exact ⟨[], by simp, rfl, .nil⟩
  | cons c r ih =>
    unfold addColumns at h
    split at h
    · rename_i hh
      obtain ⟨l, h1, h2, h3⟩ := ih h
      refine ⟨l, h1, h2, ?_⟩
      rw [List.filter_cons_of_neg (by simp [hh])]
      exact h3
    · rename_i hh
      cases hs : colSpec c with
      | error e => rw [hs] at h; cases h
      | ok c0 =>
        rw [hs] at h
        obtain ⟨l, h1, h2, h3⟩ := ih h
        refine ⟨c0 :: l, by rw [h1]; simp, h2, ?_⟩
        rw [List.filter_cons_of_pos (by simpa using hh)]
        refine .cons ?_ h3
        unfold colSpec at hs
        split at hs
        · cases hs
        · rename_i sep hsep
          cases hs
          exact ⟨rfl, rfl, rfl, hsep, rfl⟩

theorem addForeignKeys_columns {t : Table} {drop : Bool} {fks : List ForeignKey} {s s' : TableSpec} (h : addForeignKeys t drop s fks = .ok s') :
    s'.columns = s.columns ∧ s'.name = s.name ∧ s'.primaryKey = s.primaryKey := by
  induction fks generalizing s with
  | nil => unfold addForeignKeys at h; cases h; exact ⟨rfl, rfl, rfl⟩
  | cons fk r ih =>
    unfold addForeignKeys at h
    cases hf : addForeignKey t drop s fk with
    | error e => rw [hf] at h; cases h
    | ok s2 =>
      rw [hf] at h
      have h0 : s2.columns = s.columns ∧ s2.name = s.name ∧ s2.primaryKey = s.primaryKey := by
        unfold addForeignKey at hf
        split at hf
        · cases hf; exact ⟨rfl, rfl, rfl⟩
        · simp only at hf
          split at hf
          · split at hf
            · split at hf <;> cases hf
              exact ⟨rfl, rfl, rfl⟩
            · cases hf
          · split at hf
            · cases hf
            · split at hf <;> cases hf <;> exact ⟨rfl, rfl, rfl⟩
      obtain ⟨h1, h2, h3⟩ := ih h
      exact ⟨h1.trans h0.1, h2.trans h0.2.1, h3.trans h0.2.2⟩

theorem addColumns_same_name {spec spec' : TableSpec} {cs : List CCol} (h : addColumns spec cs = .ok spec') :
    spec'.name = spec.name ∧ spec'.primaryKey = spec.primaryKey := by
  induction cs generalizing spec with
  | nil => unfold addColumns at h; cases h; exact ⟨rfl, rfl⟩
  | cons c r ih =>
    unfold addColumns at h
    split at h
    · exact ih h
    · cases hs : colSpec c with
      | error e => rw [hs] at h; cases h
      | ok c0 =>
        rw [hs] at h
        have := ih (spec := _) h
        exact this

/-- **C48** The table of the database has the name and the primary key of the table and, in the same order, one column for each column of the
schema which is no list-valued foreign key; with its name, its datatype and its separator, and required if the column is. -/
theorem C48_columns {t : Table} {drop : Bool} {spec : TableSpec} (h : fromTable t drop = .ok spec) :
    spec.name = t.url ∧ spec.primaryKey = t.schema.primaryKey ∧
    All2 SameColumn (t.ccols.filter fun c => !Dict.has c.col.header spec.manyToMany) spec.columns := by
  unfold fromTable at h
  split at h
  · cases h
  · rename_i s1 h1
    obtain ⟨l, h2, h3, h4⟩ := addColumns_same_columns h
    obtain ⟨h5, h6, h7⟩ := addForeignKeys_columns h1
    obtain ⟨h8, h9⟩ := addColumns_same_name h
    rw [h5] at h2
    rw [h3, h2]
    exact ⟨h8.trans h6, h9.trans h7, by simpa using h4⟩

/-- **C48** A value of a list-valued foreign key which is no list: nothing is inserted for false values; other values cannot be inserted, unless they are
strings (then each character is taken for an item) or JSON arrays. -/
theorem C48_no_list {ext : Ext} {v : Val} (h1 : ∀ s, v ≠ .str s) (h2 : ∀ l, v ≠ .json (.arr l)) :
    refItems ext (.one v) = if v.truthy ext then .error .typeError else .ok [] := by
  unfold refItems
  split
  · rename_i h; cases h
  · rename_i l h; cases h; exact absurd rfl (h2 l)
  · rename_i s h; cases h; exact absurd rfl (h1 s)
  · rename_i h; cases h; rfl

end Csvw.Props

namespace Csvw.Props
open Csvw.Frictionless Csvw.Spec Csvw.Spec.Frictionless

/-- The `dc:format` of the datatype for a type of fields, and the format of the field. -/
def dcFormat (type format : Option J) : Option J :=
  if type = some (.str "object".toList) ∨ type = some (.str "array".toList) then some (.str "application/json".toList)
  else if type = some (.str "geojson".toList) then some (.str "application/geo+json".toList)
  else if type = some (.str "string".toList) ∧ (format.getD .null).truthy = true ∧ format ≠ some (.str "binary".toList) ∧
    format ≠ some (.str "uri".toList) then format
  else none

theorem dcFormat_other {ty fm : Option J} (h : ∀ n ∈ ["object", "array", "geojson", "string"], ty ≠ some (.str n.toList)) : dcFormat ty fm = none := by
  unfold dcFormat
  rw [if_neg (by rintro (h' | h') <;> exact h _ (by simp) h'), if_neg (h _ (by simp)), if_neg (fun h' => h _ (by simp) h'.1)]

theorem booleanType_format {spec dt : List (Str × J)} (h : booleanType spec = .ok dt) : Dict.get "dc:format".toList dt = none := by
  unfold booleanType at h
  split at h
  · obtain ⟨a, -, h⟩ := Datatype.bind_ok h
    obtain ⟨b, -, h⟩ := Datatype.bind_ok h
    cases h; rfl
  · cases h; rfl

theorem numberType_format {b : String} {spec dt : List (Str × J)} (h : numberType b spec = .ok dt) : Dict.get "dc:format".toList dt = none := by
  unfold numberType at h
  split at h
  · cases h
  · split at h <;> cases h <;> rfl

theorem fieldType_format {f dt : List (Str × J)} (h : fieldType f = .ok dt) :
    Dict.get "dc:format".toList dt = dcFormat (prop "type" f) (prop "format" f) := by
  have other : ∀ {t : Str}, prop "type" f = some (.str t) → (∀ n ∈ ["object", "array", "geojson", "string"], t ≠ n.toList) →
      dcFormat (prop "type" f) (prop "format" f) = none := by
    intro t ht hn
    apply dcFormat_other
    intro n hm h'
    rw [ht] at h'
    exact hn n hm (by simpa using h')
  unfold fieldType at h
  split at h
  · next ht =>
    cases h
    rw [dcFormat_other (by intro n _; rw [show prop "type" f = none from ht]; simp)]
    rfl
  · next t ht =>
    have ht : prop "type" f = some (.str t) := ht
    by_cases n1 : t = "string".toList
    · rw [if_pos n1] at h
      subst n1
      rw [ht]
      unfold dcFormat
      rw [if_neg (by decide), if_neg (by decide)]
      split at h
      · next hf => cases h; rw [if_neg (fun h' => h'.2.2.1 (arg_prop.1 hf))]; rfl
      · next hf =>
        split at h
        · next hf' => cases h; rw [if_neg (fun h' => h'.2.2.2 (arg_prop.1 hf'))]; rfl
        · next hf' =>
          cases h
          rw [arg_prop] at hf hf'
          have ha : argOf "format" f = (prop "format" f).getD .null := by
            unfold argOf prop; cases Dict.get "format".toList f <;> rfl
          unfold stringType
          by_cases hc : (argOf "format" f).truthy = true
          · rw [if_pos hc, if_pos ⟨rfl, by rw [← ha]; exact hc, hf, hf'⟩]
            show some (argOf "format" f) = _
            rw [ha]
            cases hp : prop "format" f with
            | none => rw [ha, hp] at hc; cases hc
            | some j => rfl
          · rw [if_neg hc, if_neg (fun h' => hc (by rw [ha]; exact h'.2.1))]
            rfl
    rw [if_neg n1] at h
    by_cases n2 : t = "year".toList
    · rw [if_pos n2] at h
      subst n2; cases h; rw [other ht (by decide)]; rfl
    rw [if_neg n2] at h
    by_cases n3 : t = "yearmonth".toList
    · rw [if_pos n3] at h
      subst n3; cases h; rw [other ht (by decide)]; rfl
    rw [if_neg n3] at h
    by_cases n4 : t = "boolean".toList
    · rw [if_pos n4] at h
      subst n4; rw [other ht (by decide)]; exact booleanType_format h
    rw [if_neg n4] at h
    by_cases n5 : t = "number".toList
    · rw [if_pos n5] at h
      subst n5; rw [other ht (by decide)]; exact numberType_format h
    rw [if_neg n5] at h
    by_cases n6 : t = "integer".toList
    · rw [if_pos n6] at h
      subst n6; rw [other ht (by decide)]; exact numberType_format h
    rw [if_neg n6] at h
    by_cases n7 : t = "date".toList
    · rw [if_pos n7] at h
      subst n7; cases h; rw [other ht (by decide)]; rfl
    rw [if_neg n7] at h
    by_cases n8 : t = "time".toList
    · rw [if_pos n8] at h
      subst n8; cases h; rw [other ht (by decide)]; rfl
    rw [if_neg n8] at h
    by_cases n9 : t = "datetime".toList
    · rw [if_pos n9] at h
      subst n9; cases h; rw [other ht (by decide)]; rfl
    rw [if_neg n9] at h
    by_cases n10 : t = "duration".toList
    · rw [if_pos n10] at h
      subst n10; cases h; rw [other ht (by decide)]; rfl
    rw [if_neg n10] at h
    by_cases n11 : t = "object".toList ∨ t = "array".toList
    · rw [if_pos (by simpa only [Bool.or_eq_true, decide_eq_true_eq] using n11)] at h
      cases h
      unfold dcFormat
      rw [ht, if_pos (by rcases n11 with e | e <;> subst e <;> simp)]
      rfl
    rw [if_neg (by simpa only [Bool.or_eq_true, decide_eq_true_eq] using n11)] at h
    rw [not_or] at n11
    by_cases n12 : t = "geojson".toList
    · rw [if_pos n12] at h
      subst n12; cases h
      unfold dcFormat
      rw [ht, if_neg (by decide), if_pos rfl]
      rfl
    rw [if_neg n12] at h
    cases h
    rw [other ht]
    · rfl
    · intro n hn
      simp only [List.mem_cons, List.not_mem_nil, or_false] at hn
      rcases hn with rfl | rfl | rfl | rfl
      · exact n11.1
      · exact n11.2
      · exact n12
      · exact n1
  · cases h
  · cases h
  · next j h1 h2 h3 hj =>
    cases h
    rw [dcFormat_other]
    · rfl
    · intro n _ hm
      rw [show prop "type" f = some j from hj] at hm
      cases hm
      exact h1 _ rfl

/-- **C49** (format) The datatype of the column for a field has as `dc:format` the media type of JSON and GeoJSON fields, and the format of string
fields (except for the formats which are datatypes of their own). -/
theorem C49_format {f : List (Str × J)} {r : J} (h : convertColumn (.obj f) = .ok r) :
    ∃ m d, r = .obj m ∧ prop "datatype" m = some (.obj d) ∧ prop "dc:format" d = dcFormat (prop "type" f) (prop "format" f) := by
  unfold convertColumn at h
  obtain ⟨spec, hs, h⟩ := Datatype.bind_ok h
  cases hs
  obtain ⟨name, hname, h⟩ := Datatype.bind_ok h
  obtain ⟨dt0, hdt0, h⟩ := Datatype.bind_ok h
  obtain ⟨cs, hcs, h⟩ := Datatype.bind_ok h
  cases h
  refine ⟨_, _, rfl, rfl, ?_⟩
  show Dict.get "dc:format".toList _ = _
  rw [constraints_get (by decide), if_neg (by decide)]
  exact fieldType_format hdt0

/-- The columns for a string, a JSON and a GeoJSON field. -/
example : (convertColumn (.obj [("name".toList, .str "g".toList), ("type".toList, .str "geojson".toList)])) =
    .ok (.obj [("name".toList, .str "g".toList),
      ("datatype".toList, .obj [("base".toList, .str "json".toList), ("dc:format".toList, .str "application/geo+json".toList)])]) := rfl

end Csvw.Props

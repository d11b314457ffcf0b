import Verif.Lemmas.NormGroup
import Verif.Props.C54
import Verif.Spec.Reread
/-!
# C74: descriptions which were written and read again describe the data in the same way
-/

namespace Csvw.Props
open Csvw Spec Table

theorem norm_of_sameValue {v v' : J} (h : SameValue v v') (hn : ¬ EmptyValue v) : v' = v := by
  rcases h with h | ⟨h, _⟩
  · exact h
  · exact absurd h hn

theorem Descr.norm_eq {a b : Descr} (h : SameDescr a b) (hn : NoEmptyProps a) : b.norm = a.norm := by
  have h1 := norm_of_sameValue h.required hn.required
  have h2 := norm_of_sameValue h.separator hn.separator
  have h3 : b.datatype.norm = a.datatype.norm := by
    have h4 := h.datatype
    have h5 := hn.datatype
    cases ha : a.datatype with
    | json j =>
      rw [ha] at h4
      generalize hb : b.datatype = w at h4
      cases h4 with
      | json h4 => rw [norm_of_sameValue h4 (h5 j ha)]
    | tmpl s =>
      rw [ha] at h4
      generalize hb : b.datatype = w at h4
      cases h4 with
      | tmpl => rfl
    | invalid =>
      rw [ha] at h4
      generalize hb : b.datatype = w at h4
      cases h4
    | dtype d =>
      rw [ha] at h4
      generalize hb : b.datatype = w at h4
      cases h4 with
      | dtype h4 =>
        obtain ⟨p, q, hd, -, -⟩ := h4
        rw [hd]; rfl
  unfold Descr.norm
  rw [h1, h2, h3, h.aboutUrl, h.default, h.lang, h.null, h.propertyUrl, h.valueUrl]

theorem Column.norm_eq {a b : Column} (h : SameColumn a b) (hn : NoEmptyProps a.props) : b.norm = a.norm := by
  have ht : normTitles b.titles = normTitles a.titles := by
    rcases h.titles with h | ⟨h1, h2 | h2⟩
    · rw [h]
    · rw [h1, h2]; rfl
    · rw [h1, h2]; rfl
  unfold Column.norm
  rw [Descr.norm_eq h.props hn, ht, h.name, h.virtual, h.number]

theorem columns_norm_eq {l l' : List Column} (h : All2 SameColumn l l') : (∀ c ∈ l, NoEmptyProps c.props) →
    l'.map Column.norm = l.map Column.norm := by
  induction h with
  | nil => intro _; rfl
  | cons hab _ ih =>
    intro hn
    rw [List.map_cons, List.map_cons, Column.norm_eq hab (hn _ List.mem_cons_self), ih fun c hc => hn c (List.mem_cons_of_mem _ hc)]

theorem tables_norm_eq {g g' : GroupD} (hp : g'.like.props.norm = g.like.props.norm) {l l' : List TableD} (h : All2 SameTable l l') :
    (∀ t ∈ l, NoEmptyLike t.like) →
    (All2 (fun t t' : TableD => (g'.table t').getDialect = (g.table t).getDialect) l l') →
    All2 (fun t t' => (g'.table t').norm = (g.table t).norm) l l' := by
  induction h with
  | nil => intro _ _; exact .nil
  | @cons a b as bs hab _ ih =>
    intro hn hd
    cases hd with
    | cons hd1 hd2 =>
    refine .cons ?_ (ih (fun t ht => hn t (List.mem_cons_of_mem _ ht)) hd2)
    have hna := hn a List.mem_cons_self
    have h1 := Descr.norm_eq hab.like.props hna.props
    have h2 := Descr.norm_eq hab.like.schema.props hna.schema
    have h3 := columns_norm_eq hab.like.schema.columns hna.columns
    have h4 : normKey b.like.schema.primaryKey = normKey a.like.schema.primaryKey := by
      rcases hab.like.schema.primaryKey with h | ⟨h, h'⟩
      · rw [h]
      · rw [h, h']; rfl
    unfold Table.norm
    rw [hd1]
    simp only [GroupD.table, h1, h2, h3, h4, hab.like.schema.foreignKeys, hab.like.url, Option.map_some, hp]

theorem all2_map {α β γ δ : Type} {R : γ → δ → Prop} (f : α → γ) (g : β → δ) {l : List α} {l' : List β} :
    All2 R (l.map f) (l'.map g) → All2 (fun a b => R (f a) (g b)) l l' := by
  intro h
  induction l generalizing l' with
  | nil =>
    cases l' with
    | nil => exact .nil
    | cons b bs => cases h
  | cons a as ih =>
    cases l' with
    | nil => cases h
    | cons b bs =>
      cases h with
      | cons h1 h2 => exact .cons h1 (ih h2)

theorem all2_to_map {α β γ δ : Type} {R : γ → δ → Prop} (f : α → γ) (g : β → δ) {l : List α} {l' : List β}
    (h : All2 (fun a b => R (f a) (g b)) l l') : All2 R (l.map f) (l'.map g) := by
  induction h with
  | nil => exact .nil
  | cons h1 _ ih => exact .cons h1 ih

theorem group_norm_eq {g g' : GroupD} (h : SameGroup g g') (hg : NoEmptyLike g.like) (ht : ∀ t ∈ g.tables, NoEmptyLike t.like)
    (hd : ∀ t ∈ g.tables, t.like.dialect = some { commentPrefix := none } → g.like.dialect = none) :
    All2 (fun t t' => t'.norm = t.norm) g.group.tables g'.group.tables := by
  have h1 := Descr.norm_eq h.like.props hg.props
  have h2 := C54_dialects h
  have h3 : All2 (fun t t' : TableD => (g'.table t').getDialect = (g.table t).getDialect) g.tables g'.tables := by
    have h4 := all2_map g.table g'.table h2
    have : ∀ {l l' : List TableD}, All2 (fun (a b : TableD) => (g.table a).dialect = some { commentPrefix := none } ∧ g.like.dialect ≠ none ∨
        (g'.table b).getDialect = (g.table a).getDialect) l l' → (∀ t ∈ l, t ∈ g.tables) →
        All2 (fun t t' : TableD => (g'.table t').getDialect = (g.table t).getDialect) l l' := by
      intro l l' h
      induction h with
      | nil => intro _; exact .nil
      | cons h1 _ ih =>
        intro hm
        refine .cons ?_ (ih fun t ht => hm t (List.mem_cons_of_mem _ ht))
        rcases h1 with ⟨h1, h2⟩ | h1
        · exact absurd (hd _ (hm _ List.mem_cons_self) h1) h2
        · exact h1
    exact this h4 fun _ h => h
  exact all2_to_map g.table g'.table (tables_norm_eq h1 h.tables ht h3)

theorem sameData_of_norm {t t' : Table} (h : t'.norm = t.norm) : SameData t t' where
  url := show t'.norm.url = t.norm.url by rw [h]
  read := by
    intro ext x strict log text
    rw [← iterdicts_norm, h, iterdicts_norm]
  key := by
    intro ext x eq log text
    rw [← checkPrimaryKey_norm, h, checkPrimaryKey_norm]
  write := by
    intro ext x ver strict items
    rw [← write_norm, h, write_norm]

theorem all2_imp {α β : Type} {R S : α → β → Prop} (h : ∀ a b, R a b → S a b) {l : List α} {l' : List β} (hl : All2 R l l') : All2 S l l' := by
  induction hl with
  | nil => exact .nil
  | cons h1 _ ih => exact .cons (h _ _ h1) ih

theorem groups_eq {g g' : TableGroup} (h : All2 (fun t t' : Table => t'.norm = t.norm) g.tables g'.tables) : g'.norm = g.norm := by
  unfold TableGroup.norm
  congr 1
  generalize g.tables = l at h
  generalize g'.tables = l' at h
  induction h with
  | nil => rfl
  | cons h1 _ ih => rw [List.map_cons, List.map_cons, h1, ih]

section
variable {ext : Ext} {x : MExt} {other : Base → Derived → J → Res Val} {lk : EncLookup}

/-- **C74** If the description `g` of a data set, read from JSON, is written as JSON and read again, then the new description `g'`
describes the data in the same way: it has tables with the same URLs in the same order, and for any data and any program arguments
reading, checking the primary key and writing has the same results; schema validation, the check of referential integrity and `is_valid`
have the same results. -/
theorem C74_reread (hlk : lk "utf-8".toList = .ok ()) {d : J} (hd : DistinctKeys d) {g : GroupD} (h : GroupD.fromvalue ext x other lk d = .ok g)
    (hw : LikeWritable ext g.like) (hwt : ∀ t ∈ g.tables, LikeWritable ext t.like) (hne : NoEmptyLike g.like)
    (hnt : ∀ t ∈ g.tables, NoEmptyLike t.like)
    (hdl : ∀ t ∈ g.tables, t.like.dialect = some { commentPrefix := none } → g.like.dialect = none) (omitDefaults : Bool) :
    ∃ j g', g.asdict ext omitDefaults = .ok j ∧ GroupD.fromvalue ext x other lk j = .ok g' ∧
      All2 SameData g.group.tables g'.group.tables ∧
      (∀ strict, g'.group.validateSchema strict = g.group.validateSchema strict) ∧
      (∀ ext x eq data log strict, g'.group.checkReferentialIntegrity eq (Dataset.reader ext x data) log strict =
        g.group.checkReferentialIntegrity eq (Dataset.reader ext x data) log strict) ∧
      ∀ ext x eq data w, ((⟨.inr g'.group, w⟩ : Dataset).isValid ext x eq data).map Prod.fst =
        ((⟨.inr g.group, w⟩ : Dataset).isValid ext x eq data).map Prod.fst := by
  obtain ⟨j, g', h1, h2, h3⟩ := C54_group hlk hd h hw hwt omitDefaults
  have h4 := group_norm_eq h3 hne hnt hdl
  have h5 := groups_eq h4
  refine ⟨j, g', h1, h2, all2_imp (fun _ _ => sameData_of_norm) h4, ?_, ?_, ?_⟩
  · intro strict
    rw [← TableGroup.validateSchema_norm, h5, TableGroup.validateSchema_norm]
  · intro ext x eq data log strict
    rw [← TableGroup.checkReferentialIntegrity_norm (Dataset.reader_norm ext x data), h5,
      TableGroup.checkReferentialIntegrity_norm (Dataset.reader_norm ext x data)]
  · intro ext x eq data w
    rw [← Dataset.isValid_norm, h5, Dataset.isValid_norm]

end

/-! ## Examples -/

/-- A table group with a common property, a dialect, a column with titles and a datatype, and a list-valued column. -/
def rereadExample : J := .obj
  [("@context".toList, .str "http://www.w3.org/ns/csvw".toList), ("dc:title".toList, .str "T".toList),
   ("dialect".toList, .obj [("delimiter".toList, .str ";".toList)]),
   ("tables".toList, .arr [.obj [("url".toList, .str "t.csv".toList), ("tableSchema".toList, .obj [("columns".toList, .arr
      [.obj [("name".toList, .str "ID".toList), ("titles".toList, .str "Id".toList), ("datatype".toList, .str "integer".toList)],
       .obj [("name".toList, .str "L".toList), ("separator".toList, .str ",".toList)]]), ("primaryKey".toList, .str "ID".toList)])]])]

/-- What is read from it. -/
def rereadGroup : GroupD :=
  { like := { props := { atProps := [("context".toList, .str "http://www.w3.org/ns/csvw".toList)], common := [("dc:title".toList, .str "T".toList)] }
              dialect := some { commentPrefix := none, delimiter := ";".toList } },
    tables := [{ like := { url := some "t.csv".toList
                           schema := { columns := [{ name := some "ID".toList, titles := some [(none, ["Id".toList])],
                                                     props := { datatype := .dtype { base := .integer } }, number := 1 },
                                                   { name := some "L".toList, props := { separator := .str ",".toList }, number := 2 }],
                                       primaryKey := some ["ID".toList] } } }] }

theorem noEmptyPlain {p : Descr} (h1 : p.required = .null) (h2 : p.separator = .null ∨ ∃ s, p.separator = .str s)
    (h3 : p.datatype = .json .null ∨ ∃ d, p.datatype = .dtype d) : NoEmptyProps p := by
  constructor
  · rw [h1]; rintro (h | h) <;> cases h
  · rcases h2 with h2 | ⟨s, h2⟩ <;> rw [h2] <;> rintro (h | h) <;> cases h
  · intro j hj
    rcases h3 with h3 | ⟨s, h3⟩ <;> rw [h3] at hj <;> cases hj
    rintro (h | h) <;> cases h

section
variable {ext : Ext} {x : MExt} {other : Base → Derived → J → Res Val}

/-- The hypotheses of `C74_reread` are met by the example. -/
theorem C74_example : DistinctKeys rereadExample ∧ GroupD.fromvalue ext x other (fun _ => .ok ()) rereadExample = .ok rereadGroup ∧
    LikeWritable ext rereadGroup.like ∧ (∀ t ∈ rereadGroup.tables, LikeWritable ext t.like) ∧ NoEmptyLike rereadGroup.like ∧
    (∀ t ∈ rereadGroup.tables, NoEmptyLike t.like) ∧
    ∀ t ∈ rereadGroup.tables, t.like.dialect = some { commentPrefix := none } → rereadGroup.like.dialect = none := by
  have hcols : ∀ c ∈ [({ name := some "ID".toList, titles := some [(none, ["Id".toList])], props := { datatype := .dtype { base := .integer } }, number := 1 } : Column),
      { name := some "L".toList, props := { separator := .str ",".toList }, number := 2 }], DescrWritable ext c.props ∧ NoEmptyProps c.props := by
    intro c hc
    rcases List.mem_cons.1 hc with rfl | hc
    · exact ⟨⟨by simp, by simp, by simp, by
        intro dt h
        cases h
        exact ⟨(by rintro v ⟨⟩), (by rintro v ⟨⟩), (by rintro v ⟨⟩), (by rintro v ⟨⟩), (by rintro v ⟨⟩), (by rintro v ⟨⟩),
          (by rintro (h | h) <;> cases h)⟩⟩, noEmptyPlain rfl (.inl rfl) (.inr ⟨_, rfl⟩)⟩
    · rcases List.mem_cons.1 hc with rfl | hc
      · exact ⟨plainWritable rfl rfl rfl rfl, noEmptyPlain rfl (.inr ⟨_, rfl⟩) (.inl rfl)⟩
      · cases hc
  refine ⟨distinct_of_bool (by decide +kernel), rfl, ?_, ?_, ?_, ?_, ?_⟩
  · refine ⟨plainWritable rfl rfl rfl rfl, plainWritable rfl rfl rfl rfl, (by intro c hc; cases hc), ?_⟩
    intro d hd; cases hd; exact .inr ⟨_, rfl⟩
  · intro t ht
    rcases List.mem_cons.1 ht with rfl | ht
    · exact ⟨plainWritable rfl rfl rfl rfl, plainWritable rfl rfl rfl rfl, fun c hc => (hcols c hc).1, fun d hd => by cases hd⟩
    · cases ht
  · exact ⟨noEmptyPlain rfl (.inl rfl) (.inl rfl), noEmptyPlain rfl (.inl rfl) (.inl rfl), fun c hc => by cases hc⟩
  · intro t ht
    rcases List.mem_cons.1 ht with rfl | ht
    · exact ⟨noEmptyPlain rfl (.inl rfl) (.inl rfl), noEmptyPlain rfl (.inl rfl) (.inl rfl), fun c hc => (hcols c hc).2⟩
    · cases ht
  · intro t ht
    rcases List.mem_cons.1 ht with rfl | ht
    · intro h; cases h
    · cases ht

/-- A column with an empty array as value of `required`, in a table whose columns are required. -/
def emptyRequired : J := .obj [("tables".toList, .arr [.obj [("url".toList, .str "t.csv".toList), ("required".toList, .bool true),
    ("tableSchema".toList, .obj [("columns".toList, .arr [.obj [("name".toList, .str "a".toList), ("required".toList, .arr [])]])])]])]

/-- Are the columns required? -/
def requiredOf (g : GroupD) : List (List Bool) := g.group.tables.map fun t => t.ccols.map CCol.required

/-- **C74 is violated** for such values: a column with `required: []` does not inherit the value `true` of its table, so that cells may be
empty; after writing and reading the description they must not. -/
theorem C74_violated_empty : ∃ g j g',
    GroupD.fromvalue ext x other (fun _ => .ok ()) emptyRequired = .ok g ∧ g.asdict ext true = .ok j ∧
      GroupD.fromvalue ext x other (fun _ => .ok ()) j = .ok g' ∧ requiredOf g = [[false]] ∧ requiredOf g' = [[true]] :=
  ⟨{ tables := [{ like := { url := some "t.csv".toList, props := { required := .bool true }, schema := { columns := [{ name := some "a".toList, number := 1, props := { required := .arr [] } }] } } }] },
   .obj [("tables".toList, .arr [.obj [("required".toList, .bool true),
    ("tableSchema".toList, .obj [("columns".toList, .arr [.obj [("name".toList, .str "a".toList)]])]), ("url".toList, .str "t.csv".toList)]])],
   { tables := [{ like := { url := some "t.csv".toList, props := { required := .bool true }, schema := { columns := [{ name := some "a".toList, number := 1 }] } } }] },
   rfl, rfl, rfl, rfl, rfl⟩

end
end Csvw.Props

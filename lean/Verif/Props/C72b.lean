import Verif.Props.C72
import Verif.Props.C45
import Std.Data.String.ToInt
/-!
# C72: examples
-/

namespace Csvw.Props
open Csvw.Datatypes Csvw.Py Csvw.Spec Csvw.Db

/-! ## Examples -/

/-- There is such an engine. -/
theorem C72_engine (sx : SqlExt) (cmp : SqlCmp) (tr : Translator) (tables : List TableSpec)
    (hn : (tables.map fun t => foldName (tr t.name none)).Nodup) :
    ∃ sx', Enforces sx' cmp tr tables ∧ ReadsIntegers sx' := by
  classical
  let sx1 : SqlExt := { sx with
    affinity := fun ty v => if h : ∃ i : Int, ty = .integer ∧ v = .text (toString i).toList then .int h.choose else sx.affinity ty v }
  refine ⟨{ sx1 with
    refuse := fun db name rows row => decide (∃ t ∈ tables, tr t.name none = name ∧ ¬ ConstraintsMet sx1 cmp tr tables db t rows row) },
    ?_, ?_⟩
  · intro db t ht rows row
    simp only [decide_eq_true_eq]
    constructor
    · rintro ⟨t', ht', he, h⟩
      have : t' = t := by
        clear h
        induction tables with
        | nil => simp at ht
        | cons a r ih =>
          rw [List.map_cons, List.nodup_cons] at hn
          rcases List.mem_cons.1 ht with h1 | h1 <;> rcases List.mem_cons.1 ht' with h2 | h2
          · rw [h1, h2]
          · exact absurd (List.mem_map.2 ⟨t', h2, by rw [← h1]; exact congrArg foldName he⟩) hn.1
          · exact absurd (List.mem_map.2 ⟨t, h1, by rw [← h2]; exact congrArg foldName he.symm⟩) hn.1
          · exact ih hn.2 h1 h2
      rw [← this]
      exact h
    · exact fun h => ⟨t, ht, rfl, h⟩
  · intro i
    have h : ∃ j : Int, DbType.integer = .integer ∧ Sql.text (toString i).toList = .text (toString j).toList := ⟨i, rfl, rfl⟩
    show (if h : ∃ j : Int, DbType.integer = .integer ∧ Sql.text (toString i).toList = .text (toString j).toList then Sql.int h.choose
      else sx.affinity .integer (.text (toString i).toList)) = _
    rw [dif_pos h]
    have := h.choose_spec.2
    rw [Sql.text.injEq, ← String.ext_iff] at this
    exact congrArg Sql.int (Int.repr_injective this).symm

/-- Languages with an identifier and a name of at most 20 characters. -/
def languages : TableSpec :=
  { name := ['l']
    columns := [{ name := ['I'], required := true }, { name := ['N'], csvw := some { base := .string, maxLength := some 20 } }]
    primaryKey := some [['I']] }

/-- Forms, which have a number from 1, reference a language, have tags, and reference other languages by a list. -/
def forms : TableSpec :=
  { name := ['f']
    columns := [{ name := ['#'], base := .integer, csvw := some { base := .integer, minimum := some (.int 1) } },
      { name := ['L'] }, { name := ['T'], separator := some [';'] }]
    primaryKey := some [['#']]
    foreignKeys := [([['L']], ['l'], [['I']])]
    manyToMany := [(['S'], associationTable ['f'] ['#'] ['l'] ['I'])] }

/-- The association table. -/
def formsLanguages : TableSpec := (associationTable ['f'] ['#'] ['l'] ['I']).toSpec

/-- The rows of the table of forms. -/
def formRows : List RowDict :=
  [[(['#'], .one (.int 1)), (['L'], .one (.str ['d'])), (['T'], .many [.str ['u'], .str ['v']]), (['S'], .many [.str ['d'], .str ['x']])],
    [(['#'], .one (.int 2)), (['L'], .one .none), (['T'], .one .none), (['S'], .many [])]]

/-- Data. -/
def formData : List (Str × List RowDict) :=
  [(['l'], [[(['I'], .one (.str ['d'])), (['N'], .one (.str ['G']))],
      [(['I'], .one (.str ['x'])), (['N'], .one .none)]]),
   (['f'], formRows)]

theorem formData_languages : tableData formData languages =
    some [[(['I'], .one (.str ['d'])), (['N'], .one (.str ['G']))], [(['I'], .one (.str ['x'])), (['N'], .one .none)]] := by decide

theorem formData_forms : tableData formData forms =
    some [[(['#'], .one (.int 1)), (['L'], .one (.str ['d'])), (['T'], .many [.str ['u'], .str ['v']])],
      [(['#'], .one (.int 2)), (['L'], .one .none), (['T'], .one .none)]] := by decide

theorem formData_links : tableData formData formsLanguages = none := by decide

/-- The example satisfies the hypotheses: with a list-valued column and a list-valued foreign key. -/
theorem C72_example (ext : Ext) : Loadable ext nameTranslator [languages, forms, formsLanguages] formData where
  names := by decide
  plain := by
    have hp : ∀ t ∈ [languages, forms, formsLanguages], (('`' ∉ t.name ∧ '\x00' ∉ t.name) ∧ ¬ "sqlite_".toList <+: foldName t.name) ∧
        (∀ c ∈ t.columns, '`' ∉ nameTranslator t.name (some c.name) ∧ '\x00' ∉ nameTranslator t.name (some c.name)) ∧
        ∀ fk ∈ t.foreignKeys, fk.1 ≠ [] ∧ fk.1.length = fk.2.2.length ∧ ('`' ∉ fk.2.1 ∧ '\x00' ∉ fk.2.1) ∧
          ∀ k ∈ fk.2.2, '`' ∉ nameTranslator fk.2.1 (some k) ∧ '\x00' ∉ nameTranslator fk.2.1 (some k) := by decide +kernel
    exact fun t ht => ⟨(hp t ht).1, (hp t ht).2.1, (hp t ht).2.2⟩
  columns := by
    intro t ht
    simp only [List.mem_cons, List.not_mem_nil, or_false] at ht
    rcases ht with rfl | rfl | rfl
    · refine ⟨by decide, by decide, ?_⟩
      intro c hc
      simp only [languages, List.mem_cons, List.not_mem_nil, or_false] at hc
      rcases hc with rfl | rfl <;> intro d hd <;> cases hd
      exact .inr ⟨rfl, rfl, .inr ⟨.inl (.inl rfl), rfl, rfl⟩⟩
    · refine ⟨by decide, by decide, ?_⟩
      intro c hc
      simp only [forms, List.mem_cons, List.not_mem_nil, or_false] at hc
      rcases hc with rfl | rfl | rfl <;> intro d hd <;> cases hd
      exact .inr ⟨rfl, rfl, .inl ⟨rfl, fun b hb => ⟨1, (by cases hb; rfl)⟩, fun b hb => (by cases hb), rfl, rfl, rfl⟩⟩
    · refine ⟨by decide, by decide, ?_⟩
      intro c hc
      simp only [formsLanguages, AssocSpec.toSpec, List.mem_cons, List.not_mem_nil, or_false] at hc
      rcases hc with rfl | rfl | rfl <;> intro d hd <;> cases hd
  keys := by
    intro t ht k hk
    simp only [List.mem_cons, List.not_mem_nil, or_false] at ht
    rcases ht with rfl | rfl | rfl
    · simp only [languages, Option.getD_some, List.mem_singleton] at hk
      exact ⟨_, List.mem_cons_self .., hk.symm, rfl, .inl (.inl rfl)⟩
    · simp only [forms, Option.getD_some, List.mem_singleton] at hk
      exact ⟨_, List.mem_cons_self .., hk.symm, rfl, .inr (.inl rfl)⟩
    · simp [formsLanguages, AssocSpec.toSpec] at hk
  foreign := by decide
  apart := by decide
  rows := by
    intro t ht rows hr
    simp only [List.mem_cons, List.not_mem_nil, or_false] at ht
    rcases ht with rfl | rfl | rfl
    · rw [formData_languages] at hr
      cases hr
      refine ⟨by decide, ?_, by decide, ?_⟩
      · intro row hrow c hc v hv
        simp only [languages, List.mem_cons, List.not_mem_nil, or_false] at hrow hc
        rcases hrow with rfl | rfl <;> rcases hc with rfl | rfl
        · obtain rfl : CVal.one (.str ['d']) = v := Option.some.inj hv
          exact .inr (.inl ⟨rfl, _, rfl, ⟨.inl rfl, by decide⟩, fun d hd => by cases hd⟩)
        · obtain rfl : CVal.one (.str ['G']) = v := Option.some.inj hv
          exact .inr (.inl ⟨rfl, _, rfl, ⟨.inl rfl, by decide⟩, fun d hd => by cases hd; rfl⟩)
        · obtain rfl : CVal.one (.str ['x']) = v := Option.some.inj hv
          exact .inr (.inl ⟨rfl, _, rfl, ⟨.inl rfl, by decide⟩, fun d hd => by cases hd⟩)
        · obtain rfl : CVal.one .none = v := Option.some.inj hv
          exact .inl ⟨rfl, rfl⟩
      · intro pk hpk _
        cases hpk
        refine ⟨?_, by decide⟩
        intro row hrow k hk
        simp only [List.mem_cons, List.not_mem_nil, or_false] at hrow hk
        subst hk
        rcases hrow with rfl | rfl
        · exact ⟨.str ['d'], by simp, rfl⟩
        · exact ⟨.str ['x'], by simp, rfl⟩
    · rw [formData_forms] at hr
      cases hr
      refine ⟨by decide, ?_, by decide, ?_⟩
      · intro row hrow c hc v hv
        simp only [forms, List.mem_cons, List.not_mem_nil, or_false] at hrow hc
        rcases hrow with rfl | rfl <;> rcases hc with rfl | rfl | rfl
        · obtain rfl : CVal.one (.int 1) = v := Option.some.inj hv
          exact .inr (.inl ⟨rfl, _, rfl, ⟨rfl, by decide⟩, fun d hd => by cases hd; rfl⟩)
        · obtain rfl : CVal.one (.str ['d']) = v := Option.some.inj hv
          exact .inr (.inl ⟨rfl, _, rfl, ⟨.inl rfl, by decide⟩, fun d hd => by cases hd⟩)
        · obtain rfl : CVal.many [.str ['u'], .str ['v']] = v := Option.some.inj hv
          refine .inr (.inr ⟨by decide, _, rfl, ?_⟩)
          intro w hw
          simp only [List.mem_cons, List.not_mem_nil, or_false] at hw
          rcases hw with rfl | rfl <;> exact .inr ⟨_, rfl⟩
        · obtain rfl : CVal.one (.int 2) = v := Option.some.inj hv
          exact .inr (.inl ⟨rfl, _, rfl, ⟨rfl, by decide⟩, fun d hd => by cases hd; rfl⟩)
        · obtain rfl : CVal.one .none = v := Option.some.inj hv
          exact .inl ⟨rfl, rfl⟩
        · obtain rfl : CVal.one .none = v := Option.some.inj hv
          exact .inl ⟨rfl, rfl⟩
      · intro pk hpk _
        cases hpk
        refine ⟨?_, by decide⟩
        intro row hrow k hk
        simp only [List.mem_cons, List.not_mem_nil, or_false] at hrow hk
        subst hk
        rcases hrow with rfl | rfl
        · exact ⟨.int 1, by simp, rfl⟩
        · exact ⟨.int 2, by simp, rfl⟩
    · rw [formData_links] at hr
      cases hr
  references := by
    intro before t after ht fk hfk
    match before, ht with
    | [], ht =>
      simp only [List.nil_append, List.cons.injEq] at ht
      rw [← ht.1] at hfk
      simp [languages] at hfk
    | [b], ht =>
      simp only [List.cons_append, List.nil_append, List.cons.injEq] at ht
      obtain ⟨rfl, rfl, -⟩ := ht
      simp only [forms, List.mem_singleton] at hfk
      subst hfk
      refine ⟨languages, by simp, rfl, ⟨_, rfl, List.Perm.refl _⟩, rfl, by simp, ?_⟩
      intro rows hr
      refine ⟨by decide, ?_⟩
      intro earlier row later he
      rw [formData_forms] at hr
      cases hr
      have hrow : row ∈ earlier ++ row :: later := by simp
      rw [← he] at hrow
      simp only [List.mem_cons, List.not_mem_nil, or_false] at hrow
      rcases hrow with rfl | rfl
      · right
        exact ⟨[(['I'], .one (.str ['d'])), (['N'], .one (.str ['G']))], by rw [if_neg (by decide), formData_languages]; decide, by decide⟩
      · left
        exact ⟨['L'], by simp, .inr rfl⟩
    | [b, b'], ht =>
      simp only [List.cons_append, List.nil_append, List.cons.injEq] at ht
      obtain ⟨rfl, rfl, rfl, -⟩ := ht
      simp only [formsLanguages, AssocSpec.toSpec, associationTable, List.mem_cons, List.not_mem_nil, or_false] at hfk
      rcases hfk with rfl | rfl
      · refine ⟨forms, by simp, rfl, ⟨_, rfl, List.Perm.refl _⟩, rfl, by simp, ?_⟩
        intro rows hr
        rw [formData_links] at hr
        cases hr
      · refine ⟨languages, by simp, rfl, ⟨_, rfl, List.Perm.refl _⟩, rfl, by simp, ?_⟩
        intro rows hr
        rw [formData_links] at hr
        cases hr
    | [b, b', b''], ht => simp at ht
    | b :: b' :: b'' :: b3 :: r, ht =>
      have := congrArg List.length ht
      simp at this
  links := by
    intro t ht k a ha
    simp only [List.mem_cons, List.not_mem_nil, or_false] at ht
    rcases ht with rfl | rfl | rfl
    · cases ha
    · obtain ⟨rfl, rfl⟩ : ['S'] = k ∧ associationTable ['f'] ['#'] ['l'] ['I'] = a := by
        simp only [forms, Dict.get] at ha
        split at ha
        · rename_i h
          exact ⟨h, Option.some.inj ha⟩
        · cases ha
      refine ⟨by simp [formsLanguages], by decide, by decide, by decide, languages, by simp, by decide, by decide, ?_⟩
      intro rows hr row hrow
      have : Dict.get forms.name formData = some formRows := rfl
      rw [this] at hr
      cases hr
      simp only [formRows, List.mem_cons, List.not_mem_nil, or_false] at hrow
      rcases hrow with rfl | rfl
      · refine ⟨⟨.int 1, by decide, rfl⟩, ?_⟩
        intro v hv
        obtain rfl : v = .many [.str ['d'], .str ['x']] := by simpa using hv
        refine .inr ⟨_, rfl, ?_⟩
        rw [formData_languages]
        decide
      · refine ⟨⟨.int 2, by decide, rfl⟩, ?_⟩
        intro v hv
        obtain rfl : v = .many [] := by simpa using hv
        exact .inr ⟨_, rfl, by simp⟩
    · cases ha

/-- The data is loaded by such an engine. -/
theorem C72_example_loaded (ext : Ext) (sx : SqlExt) (cmp : SqlCmp) (skip : Bool)
    (hE : Enforces sx cmp nameTranslator [languages, forms, formsLanguages]) (hI : ReadsIntegers sx) :
    ∃ db, write ext sx nameTranslator skip [languages, forms, formsLanguages] formData = .ok db :=
  C72_load (C72_example ext) hE hI

/-! ## Valid data which cannot be loaded -/

/-- A table with one column. -/
def singleColumn (c : ColSpec) : TableSpec := { name := ['t'], columns := [c] }

/-- One row with one value. -/
def singleCell (k : Str) (v : CVal) : List (Str × List RowDict) := [(['t'], [[(k, v)]])]

theorem refused_of_violation {ext : Ext} {sx : SqlExt} {cmp : SqlCmp} {c : ColSpec} {v : CVal} {q : Sql} (hc : c.name = ['a'])
    (hE : Enforces sx cmp nameTranslator [singleColumn c]) (hs : stored ext sx c v = .ok q)
    (hviol : ∀ db, ¬ ConstraintsMet sx cmp nameTranslator [singleColumn c] db (singleColumn c) [] [(['a'], affinity sx c.dbType q)]) {skip : Bool} :
    ∃ e, write ext sx nameTranslator skip [singleColumn c] (singleCell ['a'] v) = .error e := by
  have ho : oddTable nameTranslator (singleColumn c) = false := by simp [oddTable, oddName, singleColumn, nameTranslator, hc]
  unfold write createAll create
  simp only [ho, List.any_nil, Bool.false_eq_true, if_false]
  split
  · exact ⟨_, rfl⟩
  · rename_i db' hdb
    have hb := hE [{ name := ['t'], columns := [(['a'], c.dbType)] }] (singleColumn c) (List.mem_singleton.2 rfl) [] [(['a'], affinity sx c.dbType q)]
    have hr : sx.refuse [{ name := ['t'], columns := [(['a'], c.dbType)] }] ['t'] [] [(['a'], affinity sx c.dbType q)] = true := hb.2 (hviol _)
    simp only [createAll, writeTables, singleColumn, singleCell, Dict.get, writeTable, rowLoop, rowStep, pkOf, itemLoop, itemStep,
      List.reverse_cons, List.reverse_nil, List.nil_append, List.find?_cons, hc, decide_true, hs, if_true]
    simp only [Db.insert, insertIn, insertRows, insertRow, newRow, nameTranslator, List.map_cons, List.map_nil, List.head?_cons,
      Option.map_some, Option.getD_some, hc, List.zip_cons_cons, Dict.get, if_true, List.zip_nil_right, List.cons_ne_nil]
    split at hdb
    · cases hdb
    · rename_i hok
      split at hok
      · cases hok
      · cases hok
        simp only [createAll, singleColumn, nameTranslator, hc, List.map_cons, List.map_nil, List.nil_append, Except.ok.injEq,
          List.cons_ne_nil, if_false] at hdb
        subst hdb
        simp only [insertIn, insertRows, insertRow, if_true, List.cons_ne_nil, newRow, List.map_cons, List.map_nil, List.zip_cons_cons,
          Dict.get, Option.getD_some, hr, List.zip_nil_right, if_false]
        refine ⟨.dbError, ?_⟩
        rw [if_neg (by simp [Dict.has])]
        rfl

theorem refused_of_check {ext : Ext} {sx : SqlExt} {cmp : SqlCmp} {c : ColSpec} {v : CVal} {q : Sql} (hc : c.name = ['a'])
    (hE : Enforces sx cmp nameTranslator [singleColumn c]) (hs : stored ext sx c v = .ok q)
    (hq : affinity sx c.dbType q ≠ .null) {cond : ColSpec.Cond} (hm : cond ∈ c.check)
    (hno : ¬ cmp.Holds c.dbType (affinity sx c.dbType q) cond) {skip : Bool} :
    ∃ e, write ext sx nameTranslator skip [singleColumn c] (singleCell ['a'] v) = .error e := by
  refine refused_of_violation hc hE hs fun db h => ?_
  refine hno (h.2.1 c (List.mem_singleton.2 rfl) _ ?_ hq cond hm)
  simp [sqlCell, nameTranslator, hc, Dict.get]

/-- A required column of decimal numbers. -/
def decimalColumn : ColSpec := { name := ['a'], base := .decimal, csvw := some { base := .decimal }, required := true }

/-- `NaN` is a valid decimal number, but SQLite stores it as `NULL`, so that it cannot be loaded into a required column. -/
theorem C72_violated_nan (ext : Ext) (sx : SqlExt) (cmp : SqlCmp) (skip : Bool) (hE : Enforces sx cmp nameTranslator [singleColumn decimalColumn]) :
    (∀ d, decimalColumn.csvw = some d → d.validate ext (.dec (.nan false false 0)) = .ok (.dec (.nan false false 0))) ∧
    ∃ e, write ext sx nameTranslator skip [singleColumn decimalColumn] (singleCell ['a'] (.one (.dec (.nan false false 0)))) = .error e := by
  refine ⟨fun d hd => by cases hd; rfl, ?_⟩
  refine refused_of_violation (q := .null) rfl hE rfl fun db h => ?_
  refine h.1 decimalColumn (List.mem_singleton.2 rfl) rfl ?_
  simp [sqlCell, nameTranslator, decimalColumn, singleColumn, Dict.get, affinity]

/-- An integer of datatype `int`, at least 5. -/
def intColumn : ColSpec := { name := ['a'], base := .int, csvw := some { base := .int, minimum := some (.int 5) } }

/-- The column for `int` (and for the other integer types except for `integer`) has the type `TEXT`, so that numbers are compared as texts:
10 is valid if the minimum is 5, but cannot be loaded. -/
theorem C72_violated_int (ext : Ext) (sx : SqlExt) (cmp : SqlCmp) (skip : Bool) (hE : Enforces sx cmp nameTranslator [singleColumn intColumn]) :
    (∀ d, intColumn.csvw = some d → d.validate ext (.int 10) = .ok (.int 10)) ∧
    ∃ e, write ext sx nameTranslator skip [singleColumn intColumn] (singleCell ['a'] (.one (.int 10))) = .error e := by
  refine ⟨fun d hd => by cases hd; rfl, ?_⟩
  refine refused_of_check (q := .text ['1', '0']) (cond := .ge none (.int 5)) rfl hE rfl (by simp [affinity, intColumn, ColSpec.dbType])
    (by decide) ?_
  show ¬ StrLE (toString (5 : Int)).toList ['1', '0']
  rw [← strLe_iff]
  decide

/-- Bytes in Base64, at most three. -/
def base64Column : ColSpec := { name := ['a'], base := .base64Binary, csvw := some { base := .base64Binary, maxLength := some 3 } }

/-- The length of a value of type `base64Binary` is the number of bytes, but the constraint is for the length of the text. -/
theorem C72_violated_base64 (ext : Ext) (sx : SqlExt) (cmp : SqlCmp) (skip : Bool)
    (hE : Enforces sx cmp nameTranslator [singleColumn base64Column]) :
    (∀ d, base64Column.csvw = some d → d.validate ext (.bytes [97, 98, 99]) = .ok (.bytes [97, 98, 99])) ∧
    ∃ e, write ext sx nameTranslator skip [singleColumn base64Column] (singleCell ['a'] (.one (.bytes [97, 98, 99]))) = .error e := by
  refine ⟨fun d hd => by cases hd; rfl, ?_⟩
  refine refused_of_check (q := .text ['Y', 'W', 'J', 'j']) (cond := .lenLe 3) rfl hE rfl
    (by simp [affinity, base64Column, ColSpec.dbType]) (by decide) ?_
  show ¬ (((['Y', 'W', 'J', 'j'] : Str).takeWhile (· ≠ '\x00')).length : Int) ≤ 3
  decide

/-- Lists of strings with one character. -/
def listColumn : ColSpec := { name := ['a'], separator := some [';'], csvw := some { base := .string, maxLength := some 1 } }

/-- In a list-valued column, lengths are limits for the items, but the constraint is for the text of the whole list. -/
theorem C72_violated_list (ext : Ext) (sx : SqlExt) (cmp : SqlCmp) (skip : Bool) (hE : Enforces sx cmp nameTranslator [singleColumn listColumn]) :
    (∀ d, listColumn.csvw = some d → ∀ v ∈ [Val.str ['x'], .str ['y']], d.validate ext v = .ok v) ∧
    ∃ e, write ext sx nameTranslator skip [singleColumn listColumn] (singleCell ['a'] (.many [.str ['x'], .str ['y']])) = .error e := by
  refine ⟨?_, ?_⟩
  · intro d hd v hv
    cases hd
    simp only [List.mem_cons, List.not_mem_nil, or_false] at hv
    rcases hv with rfl | rfl <;> rfl
  refine refused_of_check (q := .text ['x', ';', 'y']) (cond := .lenLe 1) rfl hE rfl
    (by simp [affinity, listColumn, ColSpec.dbType]) (by decide) ?_
  show ¬ (((['x', ';', 'y'] : Str).takeWhile (· ≠ '\x00')).length : Int) ≤ 1
  decide

/-- A column of datatype `dateTime` with a minimum. -/
def dateTimeColumn (d : DateTime) : ColSpec := { name := ['a'], base := .dateTime, csvw := some { base := .dateTime, minimum := some (.dt d) } }

/-- The bounds of `dateTime` values are put into the statement without quotes, so that the table cannot be created. -/
theorem C72_violated_datetime (ext : Ext) (sx : SqlExt) (skip : Bool) (d : DateTime) (items : List (Str × List RowDict)) :
    write ext sx nameTranslator skip [singleColumn (dateTimeColumn d)] items = .error .dbError := by
  rfl

/-- The function of SQLite for comparing values of a datatype. -/
def sqlFunction (b : Base) : Option Str :=
  if b = .date then some "date".toList else if b = .datetime then some "datetime".toList else none

/-- The bound is a number. -/
def Numeric (b : Val) : Prop := (∃ n, b = .int n) ∨ (∃ t, b = .flt t) ∨ ∃ s m e, b = .dec (.fin s m e)

theorem func_eq (c : ColSpec) : c.func = sqlFunction c.base := by
  unfold ColSpec.func sqlFunction
  cases hb : c.base <;> rfl

/-- **C72** A column with a minimum or maximum: its table can be created iff the bounds are numbers, or the datatype is `date` or `datetime`
(not `dateTime`). -/
theorem C72_bounds_create (ext : Ext) (sx : SqlExt) (skip : Bool) {c : ColSpec} {d : Datatype} (hp : PlainName c.name) (hc : c.csvw = some d)
    (hd : d.minimum ≠ none ∨ d.maximum ≠ none) :
    (∃ db, write ext sx nameTranslator skip [singleColumn c] [] = .ok db) ↔
      (∀ b, d.minimum = some b ∨ d.maximum = some b → Numeric b) ∨ c.base = .date ∨ c.base = .datetime := by
  have hcheck : c.check = (d.minimum.toList.map fun b => ColSpec.Cond.ge c.func b) ++ (d.maximum.toList.map fun b => ColSpec.Cond.le c.func b) := by
    unfold ColSpec.check
    simp only [hc, if_pos hd]
  have hnum : ∀ b, Numeric b ↔ (ColSpec.Cond.ge none b).malformed = false := by
    intro b
    cases b with
    | dec x => cases x <;> simp [Numeric, ColSpec.Cond.malformed]
    | _ => simp [Numeric, ColSpec.Cond.malformed]
  have hle : ∀ f b, (ColSpec.Cond.le f b).malformed = (ColSpec.Cond.ge f b).malformed := by
    intro f b
    cases f with
    | none => cases b <;> rfl
    | some f => rfl
  have hbad : badTable nameTranslator (singleColumn c) = c.check.any ColSpec.Cond.malformed := by
    unfold badTable singleColumn
    simp [Option.getD, nameTranslator, foldName]
  have hiff : c.check.any ColSpec.Cond.malformed = false ↔
      (∀ b, d.minimum = some b ∨ d.maximum = some b → Numeric b) ∨ c.base = .date ∨ c.base = .datetime := by
    rw [hcheck, func_eq]
    have hfn : sqlFunction c.base = none ∨ ∃ f, sqlFunction c.base = some f := by cases sqlFunction c.base <;> simp
    rcases hfn with hfn | ⟨f, hfn⟩
    · have hb : ¬ (c.base = .date ∨ c.base = .datetime) := by
        rintro (h | h) <;> (rw [h] at hfn; revert hfn; decide)
      rw [hfn]
      simp only [hb, or_false]
      constructor
      · intro h b hbd
        rw [hnum]
        rcases hbd with h1 | h1
        · cases hm : (ColSpec.Cond.ge none b).malformed with
          | false => rfl
          | true => rw [h1] at h; simp [hm] at h
        · cases hm : (ColSpec.Cond.ge none b).malformed with
          | false => rfl
          | true => rw [h1] at h; simp [hle, hm] at h
      · intro h
        rw [Bool.eq_false_iff]
        intro hany
        obtain ⟨cd, h1, h2⟩ := List.any_eq_true.1 hany
        rcases List.mem_append.1 h1 with h1 | h1
        · obtain ⟨b, hb1, rfl⟩ := List.mem_map.1 h1
          rw [(hnum b).1 (h b (.inl (by simpa using hb1)))] at h2
          cases h2
        · obtain ⟨b, hb1, rfl⟩ := List.mem_map.1 h1
          rw [hle, (hnum b).1 (h b (.inr (by simpa using hb1)))] at h2
          cases h2
    · have hb : c.base = .date ∨ c.base = .datetime := by
        unfold sqlFunction at hfn
        by_cases h1 : c.base = .date
        · exact .inl h1
        · rw [if_neg h1] at hfn
          by_cases h2 : c.base = .datetime
          · exact .inr h2
          · rw [if_neg h2] at hfn; cases hfn
      rw [hfn]
      simp only [hb, or_true, iff_true]
      rw [Bool.eq_false_iff]
      intro hany
      obtain ⟨cd, h1, h2⟩ := List.any_eq_true.1 hany
      rcases List.mem_append.1 h1 with h1 | h1 <;> (obtain ⟨b, hb1, rfl⟩ := List.mem_map.1 h1; cases h2)
  rw [← hiff, ← hbad]
  have hw : write ext sx nameTranslator skip [singleColumn c] [] =
      if badTable nameTranslator (singleColumn c) then .error .dbError
      else .ok [{ name := nameTranslator ['t'] none, columns := [(nameTranslator ['t'] (some c.name), c.dbType)] }] := by
    have ho : oddTable nameTranslator (singleColumn c) = false := by
      have hn : (PlainName ['t']) ∧ ¬ "sqlite_".toList <+: foldName ['t'] := ⟨⟨by decide, by decide⟩, by decide⟩
      refine plain_table ⟨hn, ?_, by simp [singleColumn]⟩ (by simp [singleColumn]) (by simp [singleColumn])
      intro c' hc'
      rw [List.mem_singleton.1 hc']
      show PlainName (if c.name = [] then ['t'] else c.name)
      split
      · exact ⟨by decide, by decide⟩
      · exact hp
    unfold write createAll create
    simp only [ho, List.any_nil, Bool.false_eq_true, if_false]
    cases badTable nameTranslator (singleColumn c) <;> rfl
  rw [hw]
  cases badTable nameTranslator (singleColumn c) <;> simp

/-- **C72** and a value is accepted iff the comparisons with the bounds are true, with the function for the datatype. -/
theorem C72_bounds_check (cmp : SqlCmp) (tr : Translator) {c : ColSpec} {d : Datatype} (hc : c.csvw = some d)
    (hd : d.minimum ≠ none ∨ d.maximum ≠ none) {row : Row} {v : Sql} (hv : sqlCell tr (singleColumn c) row c.name = some v) (hn : v ≠ .null) :
    ChecksMet cmp tr (singleColumn c) row ↔
      (∀ b, d.minimum = some b → cmp.AtLeast c.dbType (sqlFunction c.base) v b) ∧ ∀ b, d.maximum = some b → cmp.AtMost c.dbType (sqlFunction c.base) v b := by
  have hcheck : c.check = (d.minimum.toList.map fun b => ColSpec.Cond.ge (sqlFunction c.base) b) ++
      (d.maximum.toList.map fun b => ColSpec.Cond.le (sqlFunction c.base) b) := by
    unfold ColSpec.check
    simp only [hc, if_pos hd, func_eq]
  constructor
  · intro h
    have h' := h c (List.mem_singleton.2 rfl) v hv hn
    rw [hcheck] at h'
    exact ⟨fun b hb => h' _ (List.mem_append_left _ (List.mem_map.2 ⟨b, by simp [hb], rfl⟩)),
      fun b hb => h' _ (List.mem_append_right _ (List.mem_map.2 ⟨b, by simp [hb], rfl⟩))⟩
  · rintro ⟨h1, h2⟩ c' hc' v' hv' _ cond hcond
    rw [List.mem_singleton.1 hc'] at hv' hcond ⊢
    rw [hv] at hv'
    cases hv'
    rw [hcheck] at hcond
    rcases List.mem_append.1 hcond with hm | hm
    · obtain ⟨b, hb, rfl⟩ := List.mem_map.1 hm
      exact h1 b (by simpa using hb)
    · obtain ⟨b, hb, rfl⟩ := List.mem_map.1 hm
      exact h2 b (by simpa using hb)

/-- A column of datatype `time`. -/
def timeColumn : ColSpec := { name := ['a'], base := .time }

/-- Values of datatype `time` cannot be written, since a pattern is required for formatting. -/
theorem C72_violated_time (ext : Ext) (sx : SqlExt) (skip : Bool) (d : DateTime) :
    ∃ e, write ext sx nameTranslator skip [singleColumn timeColumn] (singleCell ['a'] (.one (.dt d))) = .error e := ⟨_, rfl⟩

/-- The names of columns which differ only by case are different names in CSVW, but not in SQL: the table cannot be created. -/
theorem C72_violated_case (ext : Ext) (sx : SqlExt) (tr : Translator) (skip : Bool) {t : TableSpec} {before after between : List ColSpec}
    {c c' : ColSpec} (ht : t.columns = before ++ c :: between ++ c' :: after)
    (h : foldName (tr t.name (some c.name)) = foldName (tr t.name (some c'.name)))
    (hp : PlainTable tr t) (hk : ∀ k ∈ t.primaryKey.getD [], ∃ c ∈ t.columns, c.name = k) (hf : ∀ fk ∈ t.foreignKeys, ∀ k ∈ fk.1, ∃ c ∈ t.columns, c.name = k)
    (tables : List TableSpec) (items : List (Str × List RowDict)) : write ext sx tr skip (t :: tables) items = .error .dbError := by
  have hb : badTable tr t = true := by
    have hn : ¬ (t.columns.map fun c => foldName (tr t.name (some c.name))).Nodup := by
      rw [ht, List.map_append, List.nodup_append]
      rintro ⟨-, -, hd⟩
      exact hd (foldName (tr t.name (some c.name))) (by simp) _ (List.mem_map.2 ⟨c', by simp, rfl⟩) h
    unfold badTable
    simp [hn]
  have ho : oddTable tr t = false := plain_table hp
    (fun k hk' => by obtain ⟨c, hc, rfl⟩ := hk k hk'; exact hp.columns c hc)
    (fun fk hfk k hk' => by obtain ⟨c, hc, rfl⟩ := hf fk hfk k hk'; exact hp.columns c hc)
  unfold write createAll create
  simp [hb, ho]

/-- The name of a table may start with "sqlite_" in CSVW, but such names are reserved in SQLite: the table cannot be created. -/
theorem C72_violated_reserved (ext : Ext) (sx : SqlExt) (tr : Translator) (skip : Bool) {t : TableSpec} (h : "sqlite_".toList <+: foldName (tr t.name none))
    (hp : PlainName (tr t.name none) ∧ ∀ c ∈ t.columns, PlainName (tr t.name (some c.name))) (hk : t.primaryKey = none) (hf : t.foreignKeys = [])
    (tables : List TableSpec) (items : List (Str × List RowDict)) : write ext sx tr skip (t :: tables) items = .error .dbError := by
  have hb : badTable tr t = true := by
    have h' := List.isPrefixOf_iff_prefix.2 h
    unfold badTable
    rw [h']
    simp
  have ho : oddTable tr t = false := by
    unfold oddTable
    rw [plain_name hp.1, plain_any hp.2, hk, hf]
    rfl
  unfold write createAll create
  simp [hb, ho]

/-- For example, the table `sqlite_a.csv`. -/
example : "sqlite_".toList <+: foldName (nameTranslator "SQLite_a.csv".toList none) ∧ PlainName (nameTranslator "SQLite_a.csv".toList none) := by
  unfold PlainName
  decide +kernel

/-- A table in which the referenced column is not the primary key. -/
def noKey : TableSpec := { name := ['l'], columns := [{ name := ['I'] }] }

/-- See `noKey`. -/
def refersNoKey : TableSpec := { name := ['f'], columns := [{ name := ['L'] }], foreignKeys := [([['L']], ['l'], [['I']])] }

/-- A foreign key may reference columns which are not declared as primary key; but then no row can be loaded, although the row referenced exists. -/
theorem C72_violated_key (ext : Ext) (sx : SqlExt) (cmp : SqlCmp) (skip : Bool) (hE : Enforces sx cmp nameTranslator [noKey, refersNoKey]) :
    ∃ e, write ext sx nameTranslator skip [noKey, refersNoKey]
      [(['l'], [[(['I'], .one (.str ['x']))]]), (['f'], [[(['L'], .one (.str ['x']))]])] = .error e := by
  have h1 : ∀ db rows row, sx.refuse db ['f'] rows row = true := by
    intro db rows row
    refine (hE db refersNoKey (by simp) rows row).2 fun h => ?_
    obtain ⟨p, hp, hpn, ⟨pk, hpk, -⟩, -⟩ := h.2.2.2 _ (List.mem_singleton.2 rfl)
    simp only [List.mem_cons, List.not_mem_nil, or_false] at hp
    rcases hp with rfl | rfl
    · cases hpk
    · cases hpk
  cases hw : write ext sx nameTranslator skip [noKey, refersNoKey]
      [(['l'], [[(['I'], .one (.str ['x']))]]), (['f'], [[(['L'], .one (.str ['x']))]])] with
  | error e => exact ⟨e, rfl⟩
  | ok db =>
    exfalso
    have hl : ∀ q, sx.refuse [{ name := ['l'], columns := [(['I'], .text)] }, { name := ['f'], columns := [(['L'], .text)] }] ['l'] [] q = true ∨
        sx.refuse [{ name := ['l'], columns := [(['I'], .text)] }, { name := ['f'], columns := [(['L'], .text)] }] ['l'] [] q = false := by
      intro q
      cases sx.refuse _ _ _ q <;> simp
    rcases hl [(['I'], .text ['x'])] with hl | hl
    · simp [write, createAll, create, badTable, oddTable, oddName, foldName, Char.toLower, noKey, refersNoKey, nameTranslator, ColSpec.check, ColSpec.dbType, writeTables, Dict.get,
        writeTable, rowLoop, rowStep, pkOf, itemLoop, itemStep, stored, asList, convert, Db.bind, Db.insert, insertIn, insertRows, insertRow,
        Dict.has, newRow, affinity, hl, Except.map] at hw
    · simp [write, createAll, create, badTable, oddTable, oddName, foldName, Char.toLower, noKey, refersNoKey, nameTranslator, ColSpec.check, ColSpec.dbType, writeTables, Dict.get,
        writeTable, rowLoop, rowStep, pkOf, itemLoop, itemStep, stored, asList, convert, Db.bind, Db.insert, insertIn, insertRows, insertRow,
        Dict.has, newRow, affinity, hl, h1, Except.map] at hw

/-- Forms with a number, which reference languages by a list. -/
def numbered : TableSpec :=
  { name := ['f']
    columns := [{ name := ['#'], base := .integer }]
    primaryKey := some [['#']]
    manyToMany := [(['S'], associationTable ['f'] ['#'] ['l'] ['I'])] }

/-- One row, the primary key of which is 0, and which references nothing. -/
def zeroData : List (Str × List RowDict) := [(['f'], [[(['#'], .one (.int 0)), (['S'], .many [])]])]

/-- A row with the primary key 0 is valid, but cannot be loaded if the table has a list-valued foreign key, since keys are required to be true in
the sense of Python. -/
theorem C72_violated_zero (ext : Ext) (sx : SqlExt) (skip : Bool) :
    (∀ rows, tableData zeroData numbered = some rows → RowsValid ext numbered rows) ∧
    write ext sx nameTranslator skip [languages, numbered, formsLanguages] zeroData = .error .assertionError := by
  refine ⟨?_, rfl⟩
  intro rows hr
  have h : tableData zeroData numbered = some [[(['#'], .one (.int 0))]] := by decide
  rw [h] at hr
  cases hr
  refine ⟨by decide, ?_, by decide, ?_⟩
  · intro row hrow c hc v hv
    simp only [numbered, List.mem_cons, List.not_mem_nil, or_false] at hrow hc
    subst hrow
    subst hc
    obtain rfl : CVal.one (.int 0) = v := Option.some.inj hv
    exact .inr (.inl ⟨rfl, _, rfl, ⟨rfl, by decide⟩, fun d hd => by cases hd⟩)
  · intro pk hpk _
    cases hpk
    refine ⟨?_, by decide⟩
    intro row hrow k hk
    simp only [List.mem_cons, List.not_mem_nil, or_false] at hrow hk
    subst hrow
    subst hk
    exact ⟨.int 0, by simp, rfl⟩

end Csvw.Props

import Verif.Props.C46
import Verif.Props.C47
/-!
# C58: reading what was written into the database
-/

namespace Csvw.Props
open Csvw.Spec Csvw.Py Csvw.Db Csvw.Datatypes

/-! ## Values -/

section
variable {ext : Ext} {sx : SqlExt} {c : ColSpec}

/-- **C58** Strings are read as they were written. -/
theorem C58_string (hb : c.base = .string) (hsep : c.separator = none) (s : Str) :
    ReadAs ext sx c (.one (.str s)) (.one (.str s)) := by
  refine ⟨.text s, ?_, ?_⟩
  · simp [stored, asList, convert, hb, Db.bind]
  · have hty : c.dbType = .text := by simp [ColSpec.dbType, hsep, hb]
    rw [hty]
    simp [affinity, loaded, hsep, unconvert, hb, ofSql]
    rfl

/-- **C58** Integers are read as they were written, if they have at most 64 bits; other integers are refused. -/
theorem C58_integer (hb : c.base = .integer) (hsep : c.separator = none) (i : Int) :
    ((-(2 ^ 63) ≤ i ∧ i < 2 ^ 63) → ReadAs ext sx c (.one (.int i)) (.one (.int i))) ∧
    (¬ (-(2 ^ 63) ≤ i ∧ i < 2 ^ 63) → stored ext sx c (.one (.int i)) = .error .overflowError) := by
  have hst : stored ext sx c (.one (.int i)) = Db.bind (.int i) := by
    simp [stored, asList, convert, hb]
  rw [hst]
  constructor
  · intro h
    refine ⟨.int i, ?_, ?_⟩
    · rw [hst]
      unfold Db.bind
      simp only
      rw [if_pos h]
    · have hty : c.dbType = .integer := by simp [ColSpec.dbType, hsep, hb]
      rw [hty]
      simp [affinity, loaded, hsep, unconvert, hb, ofSql]
      rfl
  · intro h
    unfold Db.bind
    simp only
    rw [if_neg h]

/-- **C58** Booleans are read as they were written. -/
theorem C58_boolean (hb : c.base = .boolean) (hsep : c.separator = none) (x : Bool) :
    ReadAs ext sx c (.one (.bool x)) (.one (.bool x)) := by
  refine ⟨.int (if x then 1 else 0), ?_, ?_⟩
  · cases x <;> simp [stored, asList, convert, hb, Db.bind]
  · have hty : c.dbType = .integer := by simp [ColSpec.dbType, hsep, hb]
    rw [hty]
    cases x <;> simp [affinity, loaded, hsep, unconvert, hb] <;> rfl

/-- **C58** Binary data (`hexBinary`) are read as they were written. -/
theorem C58_hexBinary (hb : c.base = .hexBinary) (hsep : c.separator = none) (b : List UInt8) :
    ReadAs ext sx c (.one (.bytes b)) (.one (.bytes b)) := by
  refine ⟨.blob b, ?_, ?_⟩
  · simp [stored, asList, convert, hb, Db.bind]
  · have hty : c.dbType = .blob := by simp [ColSpec.dbType, hsep, hb]
    rw [hty]
    simp [affinity, loaded, hsep, unconvert, hb, ofSql]
    rfl

/-- **C58** Decimal numbers are stored as floating point numbers: they are read as the decimal value of the nearest one. -/
theorem C58_decimal (hb : c.base = .decimal) (hsep : c.separator = none) {d : Dec} (hd : ∀ neg signal payload, d ≠ .nan neg signal payload) :
    ReadAs ext sx c (.one (.dec d)) (.one (.dec (sx.decOfFloat (sx.floatOfDec d)))) := by
  refine ⟨.real (sx.floatOfDec d), ?_, ?_⟩
  · cases d with
    | nan a b n => exact absurd rfl (hd a b n)
    | _ => simp [stored, asList, convert, hb, Db.bind]
  · have hty : c.dbType = .real := by simp [ColSpec.dbType, hsep, hb]
    rw [hty]
    simp [affinity, loaded, hsep, unconvert, hb]
    rfl

/-- **C58 does not hold** for `NaN`, which a column of decimal numbers may contain: it is stored as `NULL` and read as `None`; a signaling NaN cannot
be written. -/
theorem C58_violated_nan (hb : c.base = .decimal) (hsep : c.separator = none) (neg : Bool) (payload : Nat) :
    ReadAs ext sx c (.one (.dec (.nan neg false payload))) (.one .none) ∧
    stored ext sx c (.one (.dec (.nan neg true payload))) = .error .valueError := by
  refine ⟨⟨.null, ?_, ?_⟩, ?_⟩
  · simp [stored, asList, convert, hb, Db.bind]
  · have hty : c.dbType = .real := by simp [ColSpec.dbType, hsep, hb]
    rw [hty]
    simp [affinity, loaded, hsep]
  · simp [stored, asList, convert, hb]

/-- The types which are stored as text. -/
def textBase (b : Base) : Prop := b ≠ .string ∧ b ≠ .integer ∧ b ≠ .boolean ∧ b ≠ .decimal ∧ b ≠ .hexBinary

/-- **C58** Values of other types are stored as text (without format) and read as what this text stands for. -/
theorem C58_text (hb : textBase c.base) (hsep : c.separator = none) {v v' : Val} (hn : v ≠ .none ∧ ∀ j, v ≠ .json j) :
    ReadAs ext sx c (.one v) (.one v') ↔
      ∃ x, plainText ext c.base v = .ok x ∧ toPython ext c.base (noArgs c.base) x = .ok v' := by
  obtain ⟨h1, h2, h3, h4, h5⟩ := hb
  have hst : stored ext sx c (.one v) = (plainText ext c.base v).map .text := by
    have hc : convert ext sx c.base v = (plainText ext c.base v).map .str := by
      cases hcb : c.base <;> first
      | exact absurd hcb h1 | exact absurd hcb h2 | exact absurd hcb h3 | exact absurd hcb h4 | exact absurd hcb h5 | rfl
    have hal : asList (.one v) = none := by
      cases v <;> first | rfl | exact absurd rfl (hn.2 _)
    unfold stored
    rw [hal]
    simp only
    cases v <;> first
      | exact absurd rfl hn.1
      | exact absurd rfl (hn.2 _)
      | (simp only [hc]; cases plainText ext c.base _ <;> rfl)
  have hty : c.dbType = .text := by
    unfold ColSpec.dbType
    cases hcb : c.base <;> simp_all
  have hld : ∀ x, loaded ext sx c (affinity sx c.dbType (.text x)) = (toPython ext c.base (noArgs c.base) x).map .one := by
    intro x
    rw [hty]
    simp only [affinity]
    unfold loaded
    rw [hsep]
    simp only [reduceCtorEq, if_false]
    congr 1
    cases hcb : c.base <;> first
      | exact absurd hcb h1 | exact absurd hcb h2 | exact absurd hcb h3 | exact absurd hcb h4 | exact absurd hcb h5 | rfl
  unfold ReadAs
  rw [hst]
  constructor
  · rintro ⟨w, hw, hl⟩
    cases hp : plainText ext c.base v with
    | error e => rw [hp] at hw; cases hw
    | ok x =>
      rw [hp] at hw
      cases hw
      rw [hld] at hl
      refine ⟨x, rfl, ?_⟩
      cases ht : toPython ext c.base (noArgs c.base) x with
      | error e => rw [ht] at hl; cases hl
      | ok y => rw [ht] at hl; cases hl; rfl
  · rintro ⟨x, hx, ht⟩
    refine ⟨.text x, by rw [hx]; rfl, ?_⟩
    rw [hld, ht]
    rfl

/-- **C58** Columns of type `time` cannot be stored. -/
theorem C58_time (hb : c.base = .time) (hsep : c.separator = none) (d : DateTime) :
    stored ext sx c (.one (.dt d)) = .error .attributeError := by
  simp [stored, asList, convert, hb, plainText, Base.kind]
  rfl

/-- **C58** Types whose values are strings (`gYear` etc.) are read as they were written. -/
theorem C58_strings (hk : c.base.kind = .string ∨ c.base.kind = .any) (hsep : c.separator = none) (s : Str) :
    ReadAs ext sx c (.one (.str s)) (.one (.str s)) := by
  by_cases hb : c.base = .string
  · exact C58_string hb hsep s
  · rw [C58_text _ hsep ⟨by simp, by simp⟩]
    · refine ⟨s, ?_, ?_⟩
      · unfold plainText toText
        rcases hk with hk | hk <;> rw [hk]
      · unfold toPython noArgs
        rcases hk with hk | hk <;> rw [hk]
        simp [stringToPython]
        rfl
    · refine ⟨hb, ?_, ?_, ?_, ?_⟩ <;> intro h <;> rw [h] at hk <;> simp [Base.kind] at hk

end

/-! ## Tables -/

/-- What is read from the database for a row. -/
def ReadsRow (tr : Translator) (t : TableSpec) (row d : RowDict) : Prop :=
  Dict.keys d = t.columns.map (fun c => tr t.name (some c.name)) ∧
  ∀ c ∈ t.columns, Dict.get (tr t.name (some c.name)) d = some ((Dict.get c.name row).getD (.one .none))

section
variable {ext : Ext} {sx : SqlExt} {tr : Translator} {skip : Bool}

theorem find_translated {t : TableSpec} (hn : (Dict.keys (sqlColumns tr t)).Nodup) {c : ColSpec} (hc : c ∈ t.columns) :
    t.columns.reverse.find? (fun c' => tr t.name (some c'.name) = tr t.name (some c.name)) = some c := by
  cases hf : t.columns.reverse.find? (fun c' => tr t.name (some c'.name) = tr t.name (some c.name)) with
  | none =>
    rw [List.find?_eq_none] at hf
    exact absurd (by simp) (hf c (by simpa using hc))
  | some c' =>
    have h1 := List.find?_some hf
    have h2 : c' ∈ t.columns := by simpa using List.mem_of_find?_eq_some hf
    rw [columns_names_nodup hn c' h2 c hc (by simpa using h1)]

theorem loadRow_ok {t : TableSpec} (hn : (Dict.keys (sqlColumns tr t)).Nodup) {y : ColSpec → CVal} {cs : List ColSpec}
    (hcs : ∀ c ∈ cs, c ∈ t.columns) {r : Row} (hk : Dict.keys r = cs.map fun c => tr t.name (some c.name))
    (hl : ∀ c ∈ cs, ∃ x, Dict.get (tr t.name (some c.name)) r = some x ∧ loaded ext sx c x = .ok (y c)) (hnr : (Dict.keys r).Nodup) :
    loadRow ext sx tr t r = .ok (cs.map fun c => (tr t.name (some c.name), y c)) := by
  induction cs generalizing r with
  | nil =>
    cases r with
    | nil => rfl
    | cons p r => simp [Dict.keys] at hk
  | cons c cs ih =>
    cases r with
    | nil => simp [Dict.keys] at hk
    | cons p r =>
      obtain ⟨k, v⟩ := p
      simp only [Dict.keys, List.map_cons, List.cons.injEq] at hk
      obtain ⟨rfl, hk⟩ := hk
      simp only [Dict.keys, List.map_cons, List.nodup_cons] at hnr
      obtain ⟨x, hx, hlx⟩ := hl c (List.mem_cons_self ..)
      simp only [Dict.get, if_true, Option.some.injEq] at hx
      subst hx
      unfold loadRow
      rw [find_translated hn (hcs c (List.mem_cons_self ..))]
      simp only [hlx]
      rw [ih (fun c hc => hcs c (List.mem_cons_of_mem _ hc)) hk ?_ hnr.2]
      · rfl
      · intro c' hc'
        obtain ⟨x', hx', hlx'⟩ := hl c' (List.mem_cons_of_mem _ hc')
        refine ⟨x', ?_, hlx'⟩
        simp only [Dict.get] at hx'
        rwa [if_neg] at hx'
        intro he
        exact hnr.1 (by rw [he, hk]; exact List.mem_map_of_mem hc')

/-- Reading one row of the database which stores a row dict. -/
theorem loadRow_stored {t : TableSpec} (hn : (Dict.keys (sqlColumns tr t)).Nodup) (hm : ∀ c ∈ t.columns, c.name ∉ Dict.keys t.manyToMany)
    {row : RowDict} {r : Row} (hk : Dict.keys r = Dict.keys (sqlColumns tr t)) (hs : StoresRow ext sx tr t row r)
    (hrt : ∀ c ∈ t.columns, ∀ v, Dict.get c.name row = some v → ReadAs ext sx c v v) :
    loadRow ext sx tr t r = .ok (t.columns.map fun c => (tr t.name (some c.name), (Dict.get c.name row).getD (.one .none))) := by
  apply loadRow_ok hn (fun _ h => h)
  · rw [hk]
    unfold Dict.keys sqlColumns
    rw [List.map_map]
    rfl
  · intro c hc
    obtain ⟨h1, h2⟩ := hs c hc (hm c hc)
    cases hg : Dict.get c.name row with
    | some v =>
      obtain ⟨w, hw, hcell⟩ := h1 v hg
      obtain ⟨w', hw', hl⟩ := hrt c hc v hg
      rw [hw] at hw'
      cases hw'
      exact ⟨_, hcell, hl⟩
    | none =>
      refine ⟨_, h2 hg, ?_⟩
      unfold loaded
      cases c.separator <;> simp
  · rw [hk]
    exact hn

theorem get_map_columns {t : TableSpec} (hn : (Dict.keys (sqlColumns tr t)).Nodup) {y : ColSpec → CVal} {c : ColSpec} (hc : c ∈ t.columns) :
    Dict.get (tr t.name (some c.name)) (t.columns.map fun c => (tr t.name (some c.name), y c)) = some (y c) := by
  apply Dict.get_of_mem_nodup
  · unfold Dict.keys sqlColumns at hn
    rw [List.map_map] at hn
    unfold Dict.keys
    rw [List.map_map]
    exact hn
  · exact List.mem_map.2 ⟨c, hc, rfl⟩

theorem loadRows_ok {t : TableSpec} {db : Database} {R : RowDict → Row → Prop} {S : RowDict → RowDict → Prop} {rows : List RowDict}
    {rs : List Row} (h : All2 R rows rs) (hl : ∀ row ∈ rows, ∀ r, R row r → ∃ d, loadFull ext sx tr t db r = .ok d ∧ S row d) :
    ∃ ds, loadRows ext sx tr t db rs = .ok ds ∧ All2 S rows ds := by
  induction h with
  | nil => exact ⟨[], rfl, .nil⟩
  | cons h1 _ ih =>
    obtain ⟨d, hd, hS⟩ := hl _ (List.mem_cons_self ..) _ h1
    obtain ⟨ds, hds, hSS⟩ := ih fun row hrow => hl row (List.mem_cons_of_mem _ hrow)
    refine ⟨d :: ds, ?_, .cons hS hSS⟩
    unfold loadRows
    rw [hd]
    simp only [hds]

/-- The primary key, if it is a single column, is a column of the table, with values which are not lists. -/
def KeyOk (t : TableSpec) (rows : List RowDict) : Prop :=
  ∀ k, t.primaryKey = some [k] → (∃ c ∈ t.columns, c.name = k) ∧
    ∀ row ∈ rows, ∀ v, Dict.get k row = some v → Table.hashable v = true

/-- **C58** A table without list-valued foreign keys is read from the database as it was written, if the values are such that they are
read as they are written (see `C58_string` etc.): the same rows with the same values, in the same order (if the engine returns them in the
order in which they were inserted). -/
theorem C58_read {tables : List TableSpec} {items : List (Str × List RowDict)} {db : Database} {t : TableSpec} {rows : List RowDict}
    (h : Written ext sx tr skip tables items db t rows) (hsame : SameKeys rows) (hm : t.manyToMany = []) (hpk : KeyOk t rows)
    (hord : ∀ n l, sx.order n l = l)
    (hrt : ∀ row ∈ rows, ∀ c ∈ t.columns, ∀ v, Dict.get c.name row = some v → ReadAs ext sx c v v) :
    ∃ out, readTable ext sx tr t db = .ok out ∧ All2 (ReadsRow tr t) rows out := by
  obtain ⟨hn, u, h1, h2, h3⟩ := written_rows h hsame
  unfold readTable
  rw [show db.find? (fun u => foldName u.name = foldName (tr t.name none)) = some u from h1]
  simp only [hord]
  apply loadRows_ok h3
  rintro row hrow r ⟨hk, hs⟩
  have hld := loadRow_stored hn (by rw [hm]; simp [Dict.keys]) hk hs (hrt row hrow)
  refine ⟨t.columns.map fun c => (tr t.name (some c.name), (Dict.get c.name row).getD (.one .none)), ?_, ?_, ?_⟩
  · unfold loadFull
    rw [hld]
    simp only
    rw [hm]
    have hpk' : ∃ pk, loadKey tr t (t.columns.map fun c => (tr t.name (some c.name), (Dict.get c.name row).getD (.one .none))) = .ok pk ∧
        Table.hashable pk = true := by
      unfold loadKey
      split
      · rename_i k hpke
        obtain ⟨⟨c, hc, rfl⟩, hv⟩ := hpk k hpke
        rw [get_map_columns hn hc]
        refine ⟨_, rfl, ?_⟩
        cases hg : Dict.get c.name row with
        | none => rfl
        | some v => exact hv row hrow v hg
      · exact ⟨_, rfl, rfl⟩
    obtain ⟨pk, hpk1, hpk2⟩ := hpk'
    rw [hpk1]
    simp only [hpk2, Bool.not_true, Bool.false_eq_true, if_false, refsFor, List.map_nil]
    rfl
  · unfold Dict.keys
    rw [List.map_map]
    rfl
  · intro c hc
    exact get_map_columns hn hc

end

/-- The hypotheses of `C58_read` hold for the table `twoColumns` with two rows. -/
theorem C58_example (ext : Ext) (sx : SqlExt) (hr : ∀ db n rows r, sx.refuse db n rows r = false) (hord : ∀ n l, sx.order n l = l) :
    ∃ out, readTable ext sx nameTranslator twoColumns exampleDb = .ok out ∧ All2 (ReadsRow nameTranslator twoColumns) exampleRows out := by
  obtain ⟨h1, h2⟩ := C47_example ext sx hr
  refine C58_read h2 h1 rfl ?_ hord ?_
  · intro k hk
    simp [twoColumns] at hk
  · intro row hrow c hc v hv
    simp only [twoColumns, List.mem_cons, List.not_mem_nil, or_false] at hc
    simp only [exampleRows, List.mem_cons, List.not_mem_nil, or_false] at hrow
    rcases hc with rfl | rfl <;> rcases hrow with rfl | rfl <;> simp [Dict.get] at hv <;> subst hv
    · exact C58_string rfl rfl _
    · exact C58_string rfl rfl _
    · exact (C58_integer rfl rfl _).1 (by decide)
    · exact C46_none
end Csvw.Props

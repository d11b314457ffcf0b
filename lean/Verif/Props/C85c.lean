import Verif.Props.C85b
import Verif.Props.C72b
/-!
# C85: an example
-/

namespace Csvw.Props
open Csvw Csvw.Py Csvw.Spec Csvw.Db Csvw.Table Csvw.Datatypes

/-- A group of two tables. The table `a.csv` has a primary key `id`, a foreign key `b` and a list-valued one `bs`, which reference the
primary key of `b.csv`. -/
def linkedGroup : GroupD :=
  { tables := [
      { like := {
          url := some "a.csv".toList
          schema := {
            columns := [
              { name := some "id".toList, number := 1 },
              { name := some "b".toList, number := 2 },
              { name := some "bs".toList, number := 3, props := { separator := .str " ".toList } }]
            primaryKey := some ["id".toList]
            foreignKeys := [
              { columnReference := ["b".toList], resource := some "b.csv".toList, refColumns := ["id".toList] },
              { columnReference := ["bs".toList], resource := some "b.csv".toList, refColumns := ["id".toList] }] } } },
      { like := {
          url := some "b.csv".toList
          schema := { columns := [{ name := some "id".toList, number := 1 }], primaryKey := some ["id".toList] } } }] }

/-- It is described in `d/md.json`. -/
def linkedFile : FGroup := ⟨linkedGroup, some ⟨false, [['d'], "md.json".toList]⟩⟩

/-- The contents of the data files. -/
def linkedData (url : Str) : Str :=
  if url = "a.csv".toList then "bs,id,b\np q,x,p\nq,y,\n".toList else "id\np\nq\n".toList

/-- The files. -/
def linkedDisk : Disk :=
  ⟨fun p => decide (p = ⟨false, [['d']]⟩),
   fun p => if p = ⟨false, [['d'], "a.csv".toList]⟩ then some (.text (linkedData "a.csv".toList))
     else if p = ⟨false, [['d'], "b.csv".toList]⟩ then some (.text (linkedData "b.csv".toList)) else none⟩

/-- The data. -/
def linkedItems : List (Str × List RowDict) :=
  [("a.csv".toList, [[("bs".toList, .many [.str ['p'], .str ['q']]), ("id".toList, .one (.str ['x'])), ("b".toList, .one (.str ['p']))],
                     [("bs".toList, .many [.str ['q']]), ("id".toList, .one (.str ['y'])), ("b".toList, .one .none)]]),
   ("b.csv".toList, [[("id".toList, .one (.str ['p']))], [("id".toList, .one (.str ['q']))]])]

def linkedA : Table := linkedFile.desc.group.tables[0]
def linkedB : Table := linkedFile.desc.group.tables[1]

theorem linkedA_rows : DataRows linkedA (linkedData "a.csv".toList)
    [(1, ["bs".toList, "id".toList, "b".toList]), (2, ["p q".toList, ['x'], ['p']]), (3, [['q'], ['y'], []])] none :=
  ⟨_, rfl, by decide +kernel, by decide +kernel⟩

theorem linkedB_rows : DataRows linkedB (linkedData "b.csv".toList) [(1, ["id".toList]), (2, [['p']]), (3, [['q']])] none :=
  ⟨_, rfl, by decide +kernel, by decide +kernel⟩

section
variable (ext : Ext) (x : MExt) (fx : FExt)

theorem linkedA_iter (log : Bool) : linkedA.iterdicts ext x true log (linkedData "a.csv".toList) =
    { rows := [(2, [("bs".toList, .many [.str ['p'], .str ['q']]), ("id".toList, .one (.str ['x'])), ("b".toList, .one (.str ['p']))]),
               (3, [("bs".toList, .many [.str ['q']]), ("id".toList, .one (.str ['y'])), ("b".toList, .one .none)])] } := by
  rw [iterdicts_eq linkedA_rows]
  cases log <;> rfl

theorem linkedB_iter (log : Bool) : linkedB.iterdicts ext x true log (linkedData "b.csv".toList) =
    { rows := [(2, [("id".toList, .one (.str ['p']))]), (3, [("id".toList, .one (.str ['q']))])] } := by
  rw [iterdicts_eq linkedB_rows]
  cases log <;> rfl

theorem linked_read : linkedFile.read ext x fx linkedDisk = .ok linkedItems := by
  have hA : linkedA.readRows ext x fx linkedDisk linkedFile.fname =
      .ok [[("bs".toList, .many [.str ['p'], .str ['q']]), ("id".toList, .one (.str ['x'])), ("b".toList, .one (.str ['p']))],
           [("bs".toList, .many [.str ['q']]), ("id".toList, .one (.str ['y'])), ("b".toList, .one .none)]] := by
    have h := linkedA_iter ext x false
    show (match (linkedA.iterdicts ext x true false (linkedData "a.csv".toList)).err with
      | some e => Except.error e
      | none => Except.ok ((linkedA.iterdicts ext x true false (linkedData "a.csv".toList)).rows.map Prod.snd)) = _
    rw [h]
    rfl
  have hB : linkedB.readRows ext x fx linkedDisk linkedFile.fname =
      .ok [[("id".toList, .one (.str ['p']))], [("id".toList, .one (.str ['q']))]] := by
    have h := linkedB_iter ext x false
    show (match (linkedB.iterdicts ext x true false (linkedData "b.csv".toList)).err with
      | some e => Except.error e
      | none => Except.ok ((linkedB.iterdicts ext x true false (linkedData "b.csv".toList)).rows.map Prod.snd)) = _
    rw [h]
    rfl
  unfold FGroup.read
  rw [show linkedFile.desc.group.tabledict = [("a.csv".toList, linkedA), ("b.csv".toList, linkedB)] by decide +kernel]
  simp only [mapRes, hA, hB]
  rfl
end

theorem linked_named {n : Str} {t : Table} (h : TableNamed linkedFile.desc.group n t) : t = linkedA ∨ t = linkedB := by
  have h1 := (tableNamed_mem h).1
  have h2 : linkedFile.desc.group.tables = [linkedA, linkedB] := rfl
  rw [h2] at h1
  simpa using h1

theorem linked_b : TableNamed linkedFile.desc.group "b.csv".toList linkedB := ⟨[linkedA], [], rfl, rfl, by simp⟩

theorem linkedA_ccols {c : CCol} (h : c ∈ linkedA.ccols) : (c.col.header = "id".toList ∧ c.separator = .ok none ∨ c.col.header = "b".toList ∧ c.separator = .ok none ∨
    c.col.header = "bs".toList ∧ c.separator = .ok (some " ".toList)) ∧ c.datatype = none ∧ c.required = false := by
  simp only [Table.ccols, linkedA, linkedFile, linkedGroup, GroupD.group, List.map_cons, List.getElem_cons_zero, GroupD.table, List.map_nil, List.mem_cons, List.not_mem_nil, or_false] at h
  rcases h with rfl | rfl | rfl
  · exact ⟨.inl ⟨rfl, rfl⟩, rfl, rfl⟩
  · exact ⟨.inr (.inl ⟨rfl, rfl⟩), rfl, rfl⟩
  · exact ⟨.inr (.inr ⟨rfl, rfl⟩), rfl, rfl⟩

theorem linkedB_ccols {c : CCol} (h : c ∈ linkedB.ccols) : c.col.header = "id".toList ∧ c.separator = .ok none ∧ c.datatype = none ∧ c.required = false := by
  simp only [Table.ccols, linkedB, linkedFile, linkedGroup, GroupD.group, List.map_cons, List.getElem_cons_zero, List.getElem_cons_succ, GroupD.table, List.map_nil,
    List.mem_cons, List.not_mem_nil, or_false] at h
  subst h
  exact ⟨rfl, rfl, rfl, rfl⟩

theorem linkedA_key {k : Str} (h : k = "id".toList ∨ k = "b".toList) : ∃ c, KeyColumn linkedA k c ∧ columnBase c = .string := by
  have h1 : linkedA.ccols = linkedA.schema.columns.map fun c => ⟨c, linkedA.parents⟩ := rfl
  rcases h with rfl | rfl
  · exact ⟨⟨linkedA.schema.columns[0], linkedA.parents⟩, ⟨List.mem_map_of_mem (List.getElem_mem _), rfl, rfl, .inl (.inl rfl)⟩, rfl⟩
  · exact ⟨⟨linkedA.schema.columns[1], linkedA.parents⟩, ⟨List.mem_map_of_mem (List.getElem_mem _), rfl, rfl, .inl (.inl rfl)⟩, rfl⟩

theorem linkedB_key : ∃ c, KeyColumn linkedB "id".toList c ∧ columnBase c = .string :=
  ⟨⟨linkedB.schema.columns[0], linkedB.parents⟩, ⟨List.mem_map_of_mem (List.getElem_mem _), rfl, rfl, .inl (.inl rfl)⟩, rfl⟩

theorem linkedA_convertible : TableConvertible linkedFile.desc.group linkedA := by
  refine ⟨?_, ?_, ?_, ?_, ?_, ?_, ?_⟩
  · decide +kernel
  · decide +kernel
  · intro c hc
    obtain ⟨h1, h2, h3⟩ := linkedA_ccols hc
    have hb : columnBase c = .string := by unfold columnBase; rw [h2]
    exact ⟨fun _ => by rw [hb]; decide, fun _ _ => by rw [hb]; decide, fun d hd => by (rw [h2] at hd; cases hd), fun h => by (rw [h3] at h; cases h)⟩
  · obtain ⟨c, ⟨h1, _, h2, _⟩, _⟩ := linkedA_key (k := "id".toList) (.inl rfl)
    exact ⟨c, h1, h2⟩
  · intro k hk
    have : k = "id".toList := by simpa [linkedA, linkedFile, linkedGroup, GroupD.group, GroupD.table] using hk
    obtain ⟨c, h1, _⟩ := linkedA_key (.inl this)
    exact ⟨c, h1⟩
  · intro fk hfk hp
    have hfk' : fk ∈ linkedGroup.tables[0].like.schema.foreignKeys := hfk
    simp only [linkedGroup, List.getElem_cons_zero, List.mem_cons, List.not_mem_nil, or_false] at hfk'
    rcases hfk' with rfl | rfl
    · refine ⟨_, linkedB, _, rfl, linked_b, rfl, List.Perm.refl _, rfl, by simp, ?_, ?_⟩
      · intro p hp q hq hne
        have h1 : p = ("b".toList, "id".toList) := by simpa using hp
        have h2 : q = ("b".toList, "id".toList) := by simpa using hq
        exact absurd (by rw [h1, h2]) hne
      · intro q hq
        have : q = ("b".toList, "id".toList) := by simpa using hq
        subst this
        obtain ⟨c, h1, h2⟩ := linkedA_key (.inr rfl)
        obtain ⟨c', h3, h4⟩ := linkedB_key
        exact ⟨c, c', h1, h3, h2.trans h4.symm⟩
    · exact absurd ⟨linkedA.schema.columns[2], List.getElem_mem _, rfl, rfl⟩ hp.2.1
  · intro fk hfk hsr hl
    have hfk' : fk ∈ linkedGroup.tables[0].like.schema.foreignKeys := hfk
    have hk : ∀ pk, linkedA.schema.primaryKey = some [pk] →
        foldName (linkedA.url ++ '_' :: pk) = foldName ("b.csv".toList ++ '_' :: "id".toList) → linkedA.url ++ '_' :: pk = "b.csv".toList ++ '_' :: "id".toList := by
      intro pk hpk
      have : "id".toList = pk := (List.cons.inj (Option.some.inj hpk)).1
      subst this
      decide +kernel
    simp only [linkedGroup, List.getElem_cons_zero, List.mem_cons, List.not_mem_nil, or_false] at hfk'
    rcases hfk' with rfl | rfl
    · exact ⟨_, linkedB, _, rfl, linked_b, rfl, rfl, hk⟩
    · exact ⟨_, linkedB, _, rfl, linked_b, rfl, rfl, hk⟩

theorem linkedB_convertible : TableConvertible linkedFile.desc.group linkedB := by
  have hno : ∀ fk, fk ∉ linkedB.schema.foreignKeys := by
    intro fk h
    have h' : fk ∈ ([] : List ForeignKey) := h
    cases h'
  refine ⟨?_, ?_, ?_, ?_, ?_, fun fk h => absurd h (hno fk), fun fk h => absurd h (hno fk)⟩
  · decide +kernel
  · decide +kernel
  · intro c hc
    obtain ⟨_, _, h2, h3⟩ := linkedB_ccols hc
    have hb : columnBase c = .string := by unfold columnBase; rw [h2]
    exact ⟨fun _ => by rw [hb]; decide, fun _ _ => by rw [hb]; decide, fun d hd => by (rw [h2] at hd; cases hd), fun h => by (rw [h3] at h; cases h)⟩
  · obtain ⟨c, ⟨h1, _, h2, _⟩, _⟩ := linkedB_key
    exact ⟨c, h1, h2⟩
  · intro k hk
    have : k = "id".toList := by simpa [linkedB, linkedFile, linkedGroup, GroupD.group, GroupD.table] using hk
    subst this
    obtain ⟨c, h1, _⟩ := linkedB_key
    exact ⟨c, h1⟩

theorem linked_expressible : Expressible linkedFile.desc.group ∧ NoCycles linkedFile.desc.group true ∧ FreshNames linkedFile.desc.group ∧
    CoversNames linkedFile.desc.group ["a.csv".toList, "b.csv".toList, "a.csv_b.csv".toList] := by
  have hfk : ∀ t fk, t ∈ linkedFile.desc.group.tables → fk ∈ t.schema.foreignKeys → t.url = "a.csv".toList ∧ fk.resource = some "b.csv".toList ∧
      (∃ pk, t.schema.primaryKey = some [pk]) ∧ ∃ rc, fk.refColumns = [rc] := by
    intro t fk ht hm
    have ht' : t ∈ [linkedA, linkedB] := ht
    simp only [List.mem_cons, List.not_mem_nil, or_false] at ht'
    rcases ht' with rfl | rfl
    · have hm' : fk ∈ linkedGroup.tables[0].like.schema.foreignKeys := hm
      simp only [linkedGroup, List.getElem_cons_zero, List.mem_cons, List.not_mem_nil, or_false] at hm'
      rcases hm' with rfl | rfl
      · exact ⟨rfl, rfl, ⟨_, rfl⟩, _, rfl⟩
      · exact ⟨rfl, rfl, ⟨_, rfl⟩, _, rfl⟩
    · have h' : fk ∈ ([] : List ForeignKey) := hm
      cases h'
  refine ⟨⟨?_, ?_, ?_⟩, ?_, ?_, ?_, ?_⟩
  · intro t fk ht hm _
    exact ⟨_, _, (hfk t fk (tableNamed_mem ht).1 hm).2.1, linked_b⟩
  · intro t fk ht hm _ _
    exact (hfk t fk (tableNamed_mem ht).1 hm).2.2
  · intro t c ht hc
    rcases linked_named ht with rfl | rfl
    · obtain ⟨(h | h | h), _⟩ := linkedA_ccols hc <;> exact ⟨_, h.2⟩
    · exact ⟨_, (linkedB_ccols hc).2.1⟩
  · refine ⟨fun n => n.length + (if n = "a.csv".toList then 1 else 0), ?_⟩
    intro t fk r ht hm _ hr _
    obtain ⟨h1, h2, -⟩ := hfk t fk (tableNamed_mem ht).1 hm
    rw [hr] at h2
    cases h2
    rw [h1]
    decide
  · intro t fk r ht hm _ _ hr u hu
    obtain ⟨h1, h2, -⟩ := hfk t fk ht hm
    rw [hr] at h2
    cases h2
    unfold assocName
    rw [h1]
    have hu' : u ∈ [linkedA, linkedB] := hu
    simp only [List.mem_cons, List.not_mem_nil, or_false] at hu'
    rcases hu' with rfl | rfl <;> decide
  · intro u hu
    have hu' : u ∈ [linkedA, linkedB] := hu
    simp only [List.mem_cons, List.not_mem_nil, or_false] at hu'
    rcases hu' with rfl | rfl <;> decide
  · intro t fk r ht hm _ _ hr
    obtain ⟨h1, h2, -⟩ := hfk t fk ht hm
    rw [hr] at h2
    cases h2
    unfold assocName
    rw [h1]
    decide

/-- The tables in SQL. -/
def linkedSpecA : TableSpec :=
  { name := "a.csv".toList, columns := [{ name := "id".toList }, { name := "b".toList }], primaryKey := some ["id".toList]
    foreignKeys := [(["b".toList], "b.csv".toList, ["id".toList])]
    manyToMany := [("bs".toList, associationTable "a.csv".toList "id".toList "b.csv".toList "id".toList)] }

def linkedSpecB : TableSpec := { name := "b.csv".toList, columns := [{ name := "id".toList }], primaryKey := some ["id".toList] }

theorem linked_sqlTable {s : TableSpec} (h : IsSqlTable linkedFile.desc.group true s) :
    s ∈ [linkedSpecA, linkedSpecB, (associationTable "a.csv".toList "id".toList "b.csv".toList "id".toList).toSpec] := by
  have hT : ∀ {t : Table} {s : TableSpec}, TableNamed linkedFile.desc.group t.url t → fromTable t true = .ok s →
      s = linkedSpecA ∨ s = linkedSpecB := by
    intro t s ht hs
    rcases linked_named ht with rfl | rfl
    · left
      have : fromTable linkedA true = .ok linkedSpecA := by decide +kernel
      rw [this] at hs
      exact (Except.ok.inj hs).symm
    · right
      have : fromTable linkedB true = .ok linkedSpecB := by decide +kernel
      rw [this] at hs
      exact (Except.ok.inj hs).symm
  cases h with
  | table ht hs => rcases hT ht hs with rfl | rfl <;> simp
  | assoc ht hs ha =>
    rcases hT ht hs with rfl | rfl
    · simp only [linkedSpecA, List.mem_singleton, Prod.mk.injEq] at ha
      simp [ha.2]
    · simp [linkedSpecB] at ha

/-- Equality of values. -/
def exactEq : PyEq := fun a b => decide (a = b)

theorem exactEq_exact : ExactEq exactEq := by
  intro v w _
  simp [exactEq]

section
variable (ext : Ext) (x : MExt) (fx : FExt)

theorem linked_checked : GroupChecked ext x fx exactEq linkedDisk linkedData linkedFile linkedItems := by
  obtain ⟨h1, h2, h3, h4⟩ := linked_expressible
  refine ⟨⟨h1, h2, h3, ⟨_, h4, by decide⟩, ?_, ?_, ?_, ?_, ?_, ?_⟩, ?_, ?_⟩
  · have hall : ∀ s ∈ [linkedSpecA, linkedSpecB, (associationTable "a.csv".toList "id".toList "b.csv".toList "id".toList).toSpec],
        ∀ s' ∈ [linkedSpecA, linkedSpecB, (associationTable "a.csv".toList "id".toList "b.csv".toList "id".toList).toSpec],
        foldName s.name = foldName s'.name → s = s' := by decide +kernel
    exact fun s s' hs hs' => hall s (linked_sqlTable hs) s' (linked_sqlTable hs')
  · have hall : ∀ s ∈ [linkedSpecA, linkedSpecB, (associationTable "a.csv".toList "id".toList "b.csv".toList "id".toList).toSpec], PlainNames s := by
      unfold PlainNames PlainName
      decide +kernel
    exact fun s hs => hall s (linked_sqlTable hs)
  · intro t ht
    rcases linked_named ht with rfl | rfl
    · exact linkedA_convertible
    · exact linkedB_convertible
  · intro t ht fk hfk _ hl r u hr hu c hc k hcr hrc
    obtain ⟨c', hk', hb'⟩ := linkedB_key
    obtain ⟨_, hd, _⟩ : _ ∧ c.datatype = none ∧ True := by
      rcases linked_named ht with rfl | rfl
      · exact ⟨trivial, (linkedA_ccols hc).2.1, trivial⟩
      · exact ⟨trivial, (linkedB_ccols hc).2.2.1, trivial⟩
    have hb : columnBase c = .string := by unfold columnBase; rw [hd]
    rcases linked_named ht with rfl | rfl
    · have hfk' : fk ∈ linkedGroup.tables[0].like.schema.foreignKeys := hfk
      have : fk.resource = some "b.csv".toList ∧ fk.refColumns = ["id".toList] := by
        simp only [linkedGroup, List.getElem_cons_zero, List.mem_cons, List.not_mem_nil, or_false] at hfk'
        rcases hfk' with rfl | rfl <;> exact ⟨rfl, rfl⟩
      rw [this.1] at hr
      cases hr
      rw [this.2] at hrc
      cases hrc
      cases tableNamed_unique hu linked_b
      exact ⟨c', hk', hb.trans hb'.symm⟩
    · have h' : fk ∈ ([] : List ForeignKey) := hfk
      cases h'
  · intro t ht
    have htext : ∀ text, FileText fx linkedDisk linkedFile.fname t text ↔ text = linkedData t.url := by
      intro text
      rcases linked_named ht with rfl | rfl
      · constructor
        · rintro ⟨l, g1, g2⟩
          have hl : l = .file ⟨false, [['d'], "a.csv".toList]⟩ := (Except.ok.inj g1).symm.trans rfl
          subst hl
          exact (Except.ok.inj g2).symm
        · rintro rfl
          exact ⟨.file ⟨false, [['d'], "a.csv".toList]⟩, rfl, rfl⟩
      · constructor
        · rintro ⟨l, g1, g2⟩
          have hl : l = .file ⟨false, [['d'], "b.csv".toList]⟩ := (Except.ok.inj g1).symm.trans rfl
          subst hl
          exact (Except.ok.inj g2).symm
        · rintro rfl
          exact ⟨.file ⟨false, [['d'], "b.csv".toList]⟩, rfl, rfl⟩
    refine ⟨htext, ?_⟩
    rcases linked_named ht with rfl | rfl
    · exact ⟨[_], _, none, linkedA_rows, rfl, by decide +kernel, .inr (by decide +kernel)⟩
    · exact ⟨[_], _, none, linkedB_rows, rfl, by decide +kernel, .inr (by decide +kernel)⟩
  · intro t rows ht hg
    rcases linked_named ht with rfl | rfl
    · have hrows : rows = [[("bs".toList, .many [.str ['p'], .str ['q']]), ("id".toList, .one (.str ['x'])), ("b".toList, .one (.str ['p']))],
          [("bs".toList, .many [.str ['q']]), ("id".toList, .one (.str ['y'])), ("b".toList, .one .none)]] := (Option.some.inj hg).symm
      subst hrows
      refine ⟨?_, by decide +kernel, ?_, ?_⟩
      · intro row hrow q hq w hw
        simp only [List.mem_cons, List.not_mem_nil, or_false] at hrow
        rcases hrow with rfl | rfl <;> simp only [List.mem_cons, List.not_mem_nil, or_false] at hq <;>
          rcases hq with rfl | rfl | rfl <;> cases hw <;> simp [Safe]
      · intro pk hpk
        have : ["id".toList] = pk := Option.some.inj hpk
        subst this
        decide +kernel
      · intro fk _ _ _ pk hpk row hrow w hw
        have : "id".toList = pk := (List.cons.inj (Option.some.inj hpk)).1
        subst this
        simp only [List.mem_cons, List.not_mem_nil, or_false] at hrow
        rcases hrow with rfl | rfl
        · have : CVal.one (.str ['x']) = .one w := Option.some.inj hw
          cases this
          rfl
        · have : CVal.one (.str ['y']) = .one w := Option.some.inj hw
          cases this
          rfl
    · have hrows : rows = [[("id".toList, .one (.str ['p']))], [("id".toList, .one (.str ['q']))]] := (Option.some.inj hg).symm
      subst hrows
      refine ⟨?_, by decide +kernel, ?_, ?_⟩
      · intro row hrow q hq w hw
        simp only [List.mem_cons, List.not_mem_nil, or_false] at hrow
        rcases hrow with rfl | rfl <;> simp only [List.mem_cons, List.not_mem_nil, or_false] at hq <;>
          rcases hq with rfl <;> cases hw <;> simp [Safe]
      · intro pk hpk
        have : ["id".toList] = pk := Option.some.inj hpk
        subst this
        decide +kernel
      · intro fk hfk
        have h' : fk ∈ ([] : List ForeignKey) := hfk
        cases h'
  · intro t ht
    rcases linked_named ht with rfl | rfl
    · unfold checkPrimaryKey
      rw [show linkedA.schema.primaryKey = some ["id".toList] from rfl]
      simp only
      rw [show linkedA.url = "a.csv".toList from rfl, linkedA_iter]
      decide +kernel
    · unfold checkPrimaryKey
      rw [show linkedB.schema.primaryKey = some ["id".toList] from rfl]
      simp only
      rw [show linkedB.url = "b.csv".toList from rfl, linkedB_iter]
      decide +kernel
  · refine ⟨false, ?_⟩
    have h1 : linkedFile.desc.group.validateSchema false = .ok () := by decide +kernel
    have h2 : linkedFile.desc.group.foreignKeys = .ok [⟨linkedB, ["id".toList], linkedA, ["b".toList]⟩, ⟨linkedB, ["id".toList], linkedA, ["bs".toList]⟩] := by
      decide +kernel
    have h3 : (([⟨linkedB, ["id".toList], linkedA, ["b".toList]⟩, ⟨linkedB, ["id".toList], linkedA, ["bs".toList]⟩] : List FKey).mergeSort TableGroup.fkeyLe) =
        [⟨linkedB, ["id".toList], linkedA, ["b".toList]⟩, ⟨linkedB, ["id".toList], linkedA, ["bs".toList]⟩] :=
      List.mergeSort_of_pairwise (by decide +kernel)
    have hA : ∀ log, fileReader ext x linkedData linkedA log = _ := linkedA_iter ext x
    have hB : ∀ log, fileReader ext x linkedData linkedB log = _ := linkedB_iter ext x
    unfold TableGroup.checkReferentialIntegrity TableGroup.schemaOk
    rw [h1, h2]
    simp only [Bool.false_eq_true, if_false]
    rw [h3]
    simp only [TableGroup.groupBy, if_true, TableGroup.tableGroups, TableGroup.tableGroup, TableGroup.allSeen, TableGroup.keyGroups, TableGroup.children, hA, hB]
    rfl

/-- The hypotheses of `C85_checked` are met by the example, for a database engine which enforces the constraints. -/
theorem C85_example (sx : SqlExt) (cmp : SqlCmp) : ExactEq exactEq ∧ GroupChecked ext x fx exactEq linkedDisk linkedData linkedFile linkedItems ∧
    linkedFile.read ext x fx linkedDisk = .ok linkedItems ∧ (∀ t ∈ linkedFile.desc.group.tables, t.url ∉ writeParams) ∧
    ∃ sx', (∀ tables, schema linkedFile.desc.group true = .ok tables → Enforces sx' cmp nameTranslator tables) ∧ ReadsIntegers sx' := by
  refine ⟨exactEq_exact, linked_checked ext x fx, linked_read ext x fx, by decide +kernel, ?_⟩
  have hs : schema linkedFile.desc.group true =
      .ok [linkedSpecB, linkedSpecA, (associationTable "a.csv".toList "id".toList "b.csv".toList "id".toList).toSpec] := by decide +kernel
  obtain ⟨sx', h1, h2⟩ := C72_engine sx cmp nameTranslator
    [linkedSpecB, linkedSpecA, (associationTable "a.csv".toList "id".toList "b.csv".toList "id".toList).toSpec] (by decide +kernel)
  refine ⟨sx', ?_, h2⟩
  intro tables ht
  rw [hs] at ht
  cases ht
  exact h1
end
end Csvw.Props

namespace Csvw.Props
open Csvw Csvw.Py Csvw.Spec Csvw.Db Csvw.Table Csvw.Datatypes

/-! ## Deviations -/

/-- A group of one table with columns `a` and `b`. Values are required: this is said in the schema, not for each column. -/
def requiredFile : FGroup :=
  ⟨{ tables := [{ like := {
      url := some "t.csv".toList
      schema := { props := { required := .bool true }, columns := [{ name := some ['a'], number := 1 }, { name := some ['b'], number := 2 }] } } }] },
   some ⟨false, [['d'], "md.json".toList]⟩⟩

def requiredTable : Table := requiredFile.desc.group.tables[0]

/-- **C85 does not hold** if `required` is inherited: a row with a missing cell is read (the value is `None`) and the checks return `True`,
but the data cannot be written to a database. -/
theorem C85_violated_required (ext : Ext) (x : MExt) (fx : FExt) (eq : PyEq) (sx : SqlExt) (cmp : SqlCmp) (skip : Bool) (old : Option Database)
    (hE : ∀ tables, schema requiredFile.desc.group true = .ok tables → Enforces sx cmp nameTranslator tables) :
    requiredFile.read ext x fx (threeDisk "t.csv".toList "a,b\nx\n".toList) =
      .ok [("t.csv".toList, [[(['a'], .one (.str ['x'])), (['b'], .one .none)]])] ∧
    requiredTable.checkPrimaryKey ext x eq false "a,b\nx\n".toList = .ok true ∧
    requiredFile.desc.group.checkReferentialIntegrity eq (fileReader ext x fun _ => "a,b\nx\n".toList) false false = .ok true ∧
    ∃ db e, writeFromTg ext x fx sx nameTranslator skip true true (threeDisk "t.csv".toList "a,b\nx\n".toList) requiredFile old = (db, some e) := by
  have hrows : DataRows requiredTable "a,b\nx\n".toList [(1, [['a'], ['b']]), (2, [['x']])] none := ⟨_, rfl, by decide +kernel, by decide +kernel⟩
  have hit : requiredTable.iterdicts ext x true false "a,b\nx\n".toList = { rows := [(2, [(['a'], .one (.str ['x'])), (['b'], .one .none)])] } := by
    rw [iterdicts_eq hrows]
    rfl
  have hread : requiredFile.read ext x fx (threeDisk "t.csv".toList "a,b\nx\n".toList) =
      .ok [("t.csv".toList, [[(['a'], .one (.str ['x'])), (['b'], .one .none)]])] := by
    have hA : requiredTable.readRows ext x fx (threeDisk "t.csv".toList "a,b\nx\n".toList) requiredFile.fname =
        .ok [[(['a'], .one (.str ['x'])), (['b'], .one .none)]] := by
      show (match (requiredTable.iterdicts ext x true false "a,b\nx\n".toList).err with
        | some e => Except.error e
        | none => Except.ok ((requiredTable.iterdicts ext x true false "a,b\nx\n".toList).rows.map Prod.snd)) = _
      rw [hit]
      rfl
    unfold FGroup.read
    rw [show requiredFile.desc.group.tabledict = [("t.csv".toList, requiredTable)] by decide +kernel]
    simp only [mapRes, hA]
    rfl
  refine ⟨hread, rfl, ?_, ?_⟩
  · have h1 : requiredFile.desc.group.validateSchema false = .ok () := by decide +kernel
    have h2 : requiredFile.desc.group.foreignKeys = .ok [] := by decide +kernel
    unfold TableGroup.checkReferentialIntegrity TableGroup.schemaOk
    rw [h1, h2]
    simp [TableGroup.groupBy, TableGroup.tableGroups]
  · have hs : schema requiredFile.desc.group true =
        .ok [{ name := "t.csv".toList, columns := [{ name := ['a'], required := true }, { name := ['b'], required := true }] }] := by decide +kernel
    have hE := hE _ hs
    have hr : ∀ db rows v, sx.refuse db "t.csv".toList rows [(['a'], v), (['b'], .null)] = true := by
      intro db rows v
      refine (hE db _ (List.mem_singleton.2 rfl) rows _).2 fun h => ?_
      exact h.1 { name := ['b'], required := true } (by simp) rfl rfl
    unfold writeFromTg
    rw [hs, hread]
    simp only
    unfold callWrite
    rw [if_neg (by decide +kernel)]
    refine (C70_failed_iff (.inr rfl)).2 ⟨.dbError, ?_⟩
    have hr : ∀ db rows v, sx.refuse db ['t', '.', 'c', 's', 'v'] rows [(['a'], v), (['b'], .null)] = true := hr
    simp [Db.write, createAll, create, badTable, oddTable, oddName, foldName, Char.toLower, ColSpec.check, nameTranslator, ColSpec.dbType, Dict.keys, writeTables, writeTable,
      rowLoop, Db.rowStep, pkOf, itemLoop, itemStep, stored, asList, convert, Db.bind, Db.insert, insertIn, insertRows, insertRow, hr, newRow, Dict.get,
      affinity, Dict.has, writeRefs]
    rfl

end Csvw.Props

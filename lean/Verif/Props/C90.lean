import Verif.Lemmas.Rewarn4
import Verif.Props.C79
/-!
# C90: descriptions which are read without warnings are written so that they are read without warnings
-/

namespace Csvw.Props
open Csvw Spec

section
variable {ext : Ext} {x : MExt} {other : Base → Derived → J → Res Val} {lk : EncLookup}

/-- **C90** A description of a group of tables which is read without warning is written (with or without defaults) as one which can be read
and which is read without warning. (No bounds of datatypes are infinite; values of the description can be written, as in C54.) -/
theorem C90_group (hlk : lk "utf-8".toList = .ok ()) {m : List (Str × J)} (hj : DistinctKeys (.obj m)) {g : GroupD}
    (h : GroupD.fromvalue ext x other lk (.obj m) = .ok g) (hw : LikeWritable ext g.like) (hwt : ∀ t ∈ g.tables, LikeWritable ext t.like)
    (hfin : FiniteLike g.like) (hft : ∀ t ∈ g.tables, FiniteLike t.like) (hs : Warn.group ext x other lk m = false)
    {od : Bool} (hund : od = false → x.tagOk "und".toList = true) :
    ∃ m' g', g.asdict ext od = .ok (.obj m') ∧ GroupD.fromvalue ext x other lk (.obj m') = .ok g' ∧ SameGroup g g' ∧
      Warn.group ext x other lk m' = false := by
  obtain ⟨m', g', h1, h2, h3⟩ := group_roundtrip hlk hj h hw hwt od
  exact ⟨m', g', h1, h2, h3, group_written hlk hj h hw hwt hfin hft hs hund h1⟩

/-- **C90** … for a single table. -/
theorem C90_table (hlk : lk "utf-8".toList = .ok ()) {m : List (Str × J)} (hj : DistinctKeys (.obj m)) {t : TableD}
    (h : TableD.fromvalue ext x other lk (.obj m) = .ok t) (hw : LikeWritable ext t.like) (hfin : FiniteLike t.like)
    (hs : Warn.table ext x other lk m = false) {od : Bool} (hund : od = false → x.tagOk "und".toList = true) :
    ∃ m' t', t.asdict ext od = .ok (.obj m') ∧ TableD.fromvalue ext x other lk (.obj m') = .ok t' ∧ SameTable t t' ∧
      Warn.table ext x other lk m' = false := by
  obtain ⟨m', t', h1, h2, h3⟩ := table_roundtrip hlk hj h hw od
  obtain ⟨m'', e, h4⟩ := table_written hlk hj h hw hfin hs hund h1
  cases e
  exact ⟨m', t', h1, h2, h3, h4⟩

/-- **C90** … for a schema. -/
theorem C90_schema {m : List (Str × J)} (hj : DistinctKeys (.obj m)) {s : Schema} (h : Schema.fromvalue ext x other (.obj m) = .ok s)
    (hw : DescrWritable ext s.props) (hwc : ∀ c ∈ s.columns, DescrWritable ext c.props) (hfin : FiniteDescr s.props)
    (hfc : ∀ c ∈ s.columns, FiniteDescr c.props) (hs : Warn.schemaObj ext x other m = false) {od : Bool}
    (hund : od = false → x.tagOk "und".toList = true) :
    ∃ m' s', s.asdict ext od = .ok (.obj m') ∧ Schema.fromvalue ext x other (.obj m') = .ok s' ∧ SameSchema s s' ∧
      Warn.schemaObj ext x other m' = false := by
  obtain ⟨m', s', h1, h2, h3⟩ := schema_roundtrip hj h hw hwc od
  exact ⟨m', s', h1, h2, h3, schema_written hj h hw hwc hfin hfc hs hund h1⟩

/-- **C90** In terms of the descriptions: if all properties of a group of tables and of its parts are known and have values of the right kind, and the
names of columns are valid and different, then this is the case in the description which is written. -/
theorem C90_clean (hlk : lk "utf-8".toList = .ok ()) {m : List (Str × J)} (hj : DistinctKeys (.obj m)) {g : GroupD}
    (h : GroupD.fromvalue ext x other lk (.obj m) = .ok g) (hw : LikeWritable ext g.like) (hwt : ∀ t ∈ g.tables, LikeWritable ext t.like)
    (hfin : FiniteLike g.like) (hft : ∀ t ∈ g.tables, FiniteLike t.like) (hs : GroupClean ext lk (fun s => x.tagOk s = true) m)
    {od : Bool} (hund : od = false → x.tagOk "und".toList = true) {m' : List (Str × J)} (hm' : g.asdict ext od = .ok (.obj m'))
    (hj' : DistinctKeys (.obj m')) : GroupClean ext lk (fun s => x.tagOk s = true) m' := by
  obtain ⟨m0, g', h1, h2, -, h4⟩ := C90_group hlk hj h hw hwt hfin hft ((C79_group hlk hj h).2 hs) hund
  rw [hm'] at h1
  cases h1
  exact (C79_group hlk hj' h2).1 h4

/-! ## Examples -/

theorem finitePlain {D : Descr} (h : D.datatype = .json .null ∨ ∃ b, D.datatype = .dtype { base := b }) : FiniteDescr D := by
  intro dt hdt
  rcases h with h | ⟨b, h⟩ <;> rw [h] at hdt <;> cases hdt
  intro o ho d hd
  simp only [List.mem_cons, List.not_mem_nil, or_false, or_self] at ho
  subst ho
  cases hd

/-- The hypotheses of `C90_group` are met. -/
theorem C90_example : ∃ m, rereadExample = .obj m ∧ DistinctKeys (.obj m) ∧
    GroupD.fromvalue ext x other (fun _ => .ok ()) (.obj m) = .ok rereadGroup ∧ LikeWritable ext rereadGroup.like ∧
    (∀ t ∈ rereadGroup.tables, LikeWritable ext t.like) ∧ FiniteLike rereadGroup.like ∧ (∀ t ∈ rereadGroup.tables, FiniteLike t.like) ∧
    Warn.group ext x other (fun _ => .ok ()) m = false := by
  obtain ⟨h1, h2, h3, h4, -⟩ := C74_example (ext := ext) (x := x) (other := other)
  obtain ⟨m, e, -, -, h5, -⟩ := C79_example (ext := ext) (x := x) (other := other)
  refine ⟨m, e, e ▸ h1, e ▸ h2, h3, h4, ⟨finitePlain (.inl rfl), finitePlain (.inl rfl), (by intro c hc; cases hc)⟩, ?_, h5⟩
  intro t ht
  rcases List.mem_cons.1 ht with rfl | ht
  · refine ⟨finitePlain (.inl rfl), finitePlain (.inl rfl), ?_⟩
    intro c hc
    rcases List.mem_cons.1 hc with rfl | hc
    · exact finitePlain (.inr ⟨_, rfl⟩)
    · rcases List.mem_cons.1 hc with rfl | hc
      · exact finitePlain (.inl rfl)
      · cases hc
  · cases ht

/-- A datatype with the bound `Infinity`. -/
def infiniteBound : J := .obj [("base".toList, .str "decimal".toList), ("maximum".toList, .str "Infinity".toList)]

/-- **C90** does not hold for infinite bounds: `Infinity` is read without warning and written as `INF`, which is read with a warning. -/
theorem C90_violated_infinite : Warn.datatype ext x infiniteBound = false ∧
    ∃ dt m', Datatype.fromvalue ext x other infiniteBound = .ok dt ∧ dt.asdict ext = .ok (.obj m') ∧
      Dict.get "maximum".toList m' = some (.str "INF".toList) ∧ Warn.datatype ext x (.obj m') = true := by
  refine ⟨by rfl, { base := .decimal, maximum := some (.dec (.inf false)) },
    [("base".toList, .str "decimal".toList), ("maximum".toList, .str "INF".toList)], ?_, ?_, rfl, ?_⟩
  · rfl
  · rfl
  · rfl

end
end Csvw.Props

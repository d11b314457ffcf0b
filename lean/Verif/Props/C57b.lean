import Verif.Props.C57
/-!
# C57: special values in lists, formats which cannot be used
-/

namespace Csvw.Props
open Csvw Spec Table

section
variable {ext : Ext} {x : MExt} {eq : PyEq} {data : Str → Str} {d : Dataset}

/-- The text `s` is read as a value of the datatype of the column when the cell `v` is read: the cell itself or one of its parts, or the
default value in place of an empty text; no text which stands for no value. -/
def CellItem (c : CCol) (v s : Str) : Prop :=
  let cell (v : Str) : Str := if v = [] then c.default else v
  s ∉ c.null ∧ ((c.separator = .ok none ∧ s = cell v) ∨
    ∃ sep, c.separator = .ok (some sep) ∧ cell v ≠ [] ∧ cell v ∉ c.null ∧ ∃ part ∈ Py.split sep (cell v), s = cell part)

theorem items_quiet {dt : Datatype} : ∀ {l : List (Option Str)} {ws : List Val}, CCol.readItems ext dt l = .ok ws →
    CCol.itemsWarn ext dt l = false → ∀ s, some s ∈ l → dt.parseWarns ext s = false ∧ ∃ u, dt.read ext s = .ok u
  | [], _, _, _, s, hs => by simp at hs
  | none :: r, ws, h, hw, s, hs => by
    simp only [List.mem_cons, reduceCtorEq, false_or] at hs
    simp only [CCol.readItems, CCol.readItem] at h
    cases hr : CCol.readItems ext dt r with
    | error e => rw [hr] at h; simp [Except.map] at h
    | ok vs => exact items_quiet hr hw s hs
  | some a :: r, ws, h, hw, s, hs => by
    simp only [CCol.readItems, CCol.readItem] at h
    cases ha : dt.read ext a with
    | error e => rw [ha] at h; simp at h
    | ok u =>
      rw [ha] at h
      simp only [CCol.itemsWarn, ha, Bool.or_eq_false_iff] at hw
      cases hr : CCol.readItems ext dt r with
      | error e => rw [hr] at h; simp [Except.map] at h
      | ok vs =>
        rcases List.mem_cons.1 hs with he | hs
        · cases he; exact ⟨hw.1, u, ha⟩
        · exact items_quiet hr hw.2 s hs

theorem cell_quiet {c : CCol} {v : Str} {w : CVal} (hw : c.read ext v = .ok w) (hq : c.readWarns ext v = false) {dt : Datatype}
    (hd : c.datatype = some dt) {s : Str} (hs : CellItem c v s) : dt.parseWarns ext s = false ∧ ∃ u, dt.read ext s = .ok u := by
  obtain ⟨hn, hs⟩ := hs
  unfold CCol.read at hw
  unfold CCol.readWarns at hq
  simp only at hw hq hs
  rw [show (if v = [] then c.default else v) = c.orDefault v from rfl] at hs
  by_cases hreq : (c.required && decide (c.orDefault v ∈ c.null)) = true
  · rw [if_pos hreq] at hw; cases hw
  rw [if_neg hreq] at hw hq
  rcases hs with ⟨h1, rfl⟩ | ⟨sep, h1, h2, h3, part, hp, rfl⟩
  · have hp : c.prepare (c.orDefault v) = .ok (.one (c.orDefault v)) := by
      unfold CCol.prepare; rw [h1]; simp only [if_neg hn]
    rw [hp, hd] at hq
    rw [hp, hd] at hw
    refine ⟨hq, ?_⟩
    simp only [CCol.applyDt, CCol.readItem] at hw
    cases hu : dt.read ext (c.orDefault v) with
    | ok u => exact ⟨u, rfl⟩
    | error e => rw [hu] at hw; simp [Except.map] at hw
  · have hp' : c.prepare (c.orDefault v) = .ok (.many ((Py.split sep (c.orDefault v)).map fun vv => c.unNull (c.orDefault vv))) := by
      unfold CCol.prepare; rw [h1]; simp only [if_neg h2, if_neg h3]
    rw [hp', hd] at hq
    rw [hp', hd] at hw
    simp only [CCol.applyDt] at hw
    cases hm : CCol.readItems ext dt ((Py.split sep (c.orDefault v)).map fun vv => c.unNull (c.orDefault vv)) with
    | error e => rw [hm] at hw; simp [Except.map] at hw
    | ok ws =>
      refine items_quiet hm hq _ (List.mem_map.2 ⟨part, hp, ?_⟩)
      unfold CCol.unNull CCol.orDefault
      rw [if_neg hn]

/-- **C57** If `is_valid` returns `True`, then no cell or part of a cell which is read as decimal number is `INF`, `-INF` or `NaN`. -/
theorem C57_special_items {d' : Dataset} (h : d.isValid ext x eq data = .ok (true, d')) {t : Table} (ht : TableIn d t)
    {rows : List (Int × List Str)} {err : Option PyErr} (hr : DataRows t (data t.url) rows err) {r : Int × List Str} (hm : r ∈ bodyRows t rows)
    {j : Nat} {col : Column} {v : Str} (hj : j < headerLength t rows) (hc : t.schema.columns[j]? = some col) (hv : r.2[j]? = some v)
    {dt : Datatype} (hd : (CCol.mk col t.parents).datatype = some dt) (hk : dt.base.kind = .decimal) {s : Str}
    (hs : CellItem (CCol.mk col t.parents) v s) : s ≠ "INF".toList ∧ s ≠ "-INF".toList ∧ s ≠ "NaN".toList := by
  obtain ⟨⟨w, hw⟩, hww⟩ := (valid_cells h ht hr).2 r hm j col v hj hc hv
  obtain ⟨hq, u, hu⟩ := cell_quiet hw hww hd hs
  have hns : Datatypes.special s = none := by
    cases hsp : Datatypes.special s with
    | none => rfl
    | some q =>
      exfalso
      unfold Datatype.read Datatype.parse at hu
      unfold Datatype.parseWarns at hq
      cases hde : dt.descr ext with
      | error e => rw [hde] at hu; simp at hu
      | ok de =>
        rw [hde] at hu hq
        simp only [hk, Bool.or_eq_false_iff] at hu hq
        unfold Datatypes.toPython at hu
        simp only [hk] at hu
        cases hf : Datatypes.numFmtOf de with
        | error e => rw [hf] at hu; simp at hu
        | ok f =>
          rw [hf] at hu hq
          simp only at hu hq
          unfold Datatypes.decWarns at hq
          cases hdd : Datatypes.decToPython f s with
          | error e => rw [hdd] at hu; simp [Except.map] at hu
          | ok y => rw [hsp, hdd] at hq; simp at hq
  refine ⟨?_, ?_, ?_⟩ <;> (rintro rfl; revert hns; decide)

/-- **C57** … and the format of the datatype with which a cell or a part of a cell is read can be used: for texts it is a regular expression,
for booleans two texts with a bar in between, for dates a pattern for dates, for JSON no defective schema. -/
theorem C57_formats {d' : Dataset} (h : d.isValid ext x eq data = .ok (true, d')) {t : Table} (ht : TableIn d t)
    {rows : List (Int × List Str)} {err : Option PyErr} (hr : DataRows t (data t.url) rows err) {r : Int × List Str} (hm : r ∈ bodyRows t rows)
    {j : Nat} {col : Column} {v : Str} (hj : j < headerLength t rows) (hc : t.schema.columns[j]? = some col) (hv : r.2[j]? = some v)
    {dt : Datatype} (hd : (CCol.mk col t.parents).datatype = some dt) (hf : dt.format.truthy = true) {s : Str}
    (hs : CellItem (CCol.mk col t.parents) v s) :
    (dt.base.kind ∈ [.string, .uri, .nmtoken, .normalized] → ∀ p, dt.format = .str p → ∃ re, ext.re p = some re) ∧
    (dt.base.kind = .boolean → ∃ yes no, dt.format = .str (yes ++ ['|'] ++ no) ∧ '|' ∉ yes ∧ '|' ∉ no) ∧
    (dt.base.kind = .date → ∃ f, Datatypes.dtFormat dt.format false = .ok f) ∧
    (dt.base.kind = .json → ext.jsonBad dt.format = false) := by
  obtain ⟨⟨w, hw⟩, hww⟩ := (valid_cells h ht hr).2 r hm j col v hj hc hv
  obtain ⟨hq, u, hu⟩ := cell_quiet hw hww hd hs
  have hq' : Datatypes.derivedWarns ext dt.base dt.format = false := by
    unfold Datatype.parseWarns at hq
    exact (Bool.or_eq_false_iff.1 hq).1
  unfold Datatypes.derivedWarns at hq'
  refine ⟨?_, ?_, ?_, ?_⟩
  · intro hk p hp
    have : (ext.re p).isNone = false := by
      simp only [List.mem_cons, List.not_mem_nil, or_false] at hk
      rcases hk with hk | hk | hk | hk <;> (rw [hk, hp] at hq'; rw [hp] at hf; simp only [hf, Bool.true_and] at hq'; exact hq')
    cases hre : ext.re p with
    | none => rw [hre] at this; cases this
    | some re => exact ⟨re, rfl⟩
  · intro hk
    rw [hk] at hq'
    simp only [hf, Bool.true_and] at hq'
    cases hfm : dt.format with
    | str p =>
      rw [hfm] at hq'
      simp only [decide_eq_false_iff_not, ne_eq, Decidable.not_not] at hq'
      obtain ⟨yes, no, rfl⟩ := List.append_of_mem (List.count_pos_iff.1 (by rw [hq']; decide : 0 < p.count '|'))
      have hcount : yes.count '|' + no.count '|' = 0 := by
        simp only [List.count_append, List.count_cons_self] at hq'
        omega
      refine ⟨yes, no, by simp, List.count_eq_zero.1 (by omega), List.count_eq_zero.1 (by omega)⟩
    | _ => rw [hfm] at hq'; cases hq'
  · intro hk
    rw [hk] at hq'
    have ho : Datatypes.orFmt dt.format "yyyy-MM-dd" = dt.format := if_pos hf
    simp only [ho] at hq'
    cases hff : Datatypes.dtFormat dt.format false with
    | ok f => exact ⟨f, rfl⟩
    | error e =>
      exfalso
      rw [hff] at hq'
      have hde : dt.descr ext = .error e := by
        unfold Datatype.descr Datatypes.derived
        rw [hk]
        simp only [ho, hff]
        cases e <;> first | rfl | (simp at hq')
      unfold Datatype.read Datatype.parse at hu
      rw [hde] at hu
      simp at hu
  · intro hk
    rw [hk] at hq'
    simpa [hf] using hq'

end

/-- The second part of a cell. -/
example : CellItem (CCol.mk { props := { separator := .str ";".toList, datatype := .dtype { base := .decimal } } } []) "1;INF".toList "INF".toList :=
  ⟨by decide, .inr ⟨";".toList, rfl, by decide, by decide, "INF".toList, by decide +kernel, rfl⟩⟩

end Csvw.Props

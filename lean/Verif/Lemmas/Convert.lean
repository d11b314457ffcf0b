import Verif.Spec.Convert
import Verif.Props.C48b
import Verif.Props.C81
/-!
# From data files to a database: lemmas
-/

namespace Csvw.Db
open Csvw.Datatypes Csvw.Py Csvw.Spec Csvw.Props Csvw.Table

section
variable {ext : Ext} {x : MExt}

theorem toPython_value {b : Base} {d : Derived} {s : Str} {w : Val} (ht : b.kind ≠ .time) (hj : b.kind ≠ .json)
    (h : toPython ext b d s = .ok w) (hs : Safe w) : ValueOf b w := by
  have hB : ∀ k, b.kind = k → k = b.kind := fun k h => h.symm
  unfold toPython at h
  cases hk : b.kind <;> rw [hk] at h <;> simp only at h <;> first
    | exact absurd hk ht
    | exact absurd hk hj
    | skip
  case any => cases h; exact ⟨.inr (.inl hk), hs⟩
  case string =>
    obtain ⟨y, -, rfl⟩ := Except.map_eq_ok.1 h
    exact ⟨.inl hk, hs⟩
  case uri =>
    split at h
    · cases h
    · obtain ⟨y, -, rfl⟩ := Except.map_eq_ok.1 h
      exact hk
  case nmtoken =>
    split at h
    · cases h
    · split at h
      · cases h; exact ⟨.inr (.inr (.inr hk)), hs⟩
      · cases h
  case normalized => cases h; exact ⟨.inr (.inr (.inl hk)), hs⟩
  case base64 =>
    split at h
    · split at h
      · cases h; exact .inr hk
      · cases h
    · cases h
  case hex =>
    split at h
    · split at h
      · cases h; exact .inl hk
      · cases h
    · cases h
  case boolean =>
    split at h
    · obtain ⟨y, -, rfl⟩ := Except.map_eq_ok.1 h
      show b = .boolean
      cases b <;> first | rfl | (exfalso; revert hk; simp [Base.kind]; done)
    · cases h
  case dateTime =>
    split at h
    · obtain ⟨y, -, rfl⟩ := Except.map_eq_ok.1 h
      exact .inl hk
    · cases h
  case date =>
    split at h
    · obtain ⟨y, -, rfl⟩ := Except.map_eq_ok.1 h
      exact .inr hk
    · cases h
  case duration =>
    split at h
    · split at h
      · split at h
        · cases h
        · cases h
        · obtain ⟨y, -, rfl⟩ := Except.map_eq_ok.1 h
          exact hk
      · obtain ⟨y, -, rfl⟩ := Except.map_eq_ok.1 h
        exact hk
    · cases h
  case decimal =>
    split at h
    · cases h
    · obtain ⟨y, -, rfl⟩ := Except.map_eq_ok.1 h
      refine ⟨?_, hs⟩
      cases b <;> first | rfl | (exfalso; revert hk; simp [Base.kind]; done)
  case integer =>
    split at h
    · cases h
    · obtain ⟨y, -, rfl⟩ := Except.map_eq_ok.1 h
      exact ⟨hk, hs⟩
  case float =>
    split at h
    · cases h
    · split at h
      · cases h
      · cases h
      · split at h
        · cases h; exact hk
        · cases h

theorem toPython_item {b : Base} {d : Derived} {s : Str} {w : Val}
    (hb : b.kind ∈ [.any, .string, .normalized, .nmtoken, .boolean, .integer, .float])
    (h : toPython ext b d s = .ok w) : (∃ y, w = .str y) ∨ (b ≠ .string ∧ (toJson w).isSome = true) := by
  unfold toPython at h
  have hne : b.kind ≠ .string → b ≠ .string := by
    rintro h1 rfl
    exact h1 rfl
  cases hk : b.kind <;> rw [hk] at h hb hne <;> simp only at h <;> first
    | (exfalso; revert hb; decide)
    | skip
  case any => cases h; exact .inl ⟨_, rfl⟩
  case string =>
    obtain ⟨y, -, rfl⟩ := Except.map_eq_ok.1 h
    exact .inl ⟨_, rfl⟩
  case nmtoken =>
    split at h
    · cases h
    · split at h
      · cases h; exact .inl ⟨_, rfl⟩
      · cases h
  case normalized => cases h; exact .inl ⟨_, rfl⟩
  case boolean =>
    split at h
    · obtain ⟨y, -, rfl⟩ := Except.map_eq_ok.1 h
      exact .inr ⟨hne (by simp), rfl⟩
    · cases h
  case integer =>
    split at h
    · cases h
    · obtain ⟨y, -, rfl⟩ := Except.map_eq_ok.1 h
      exact .inr ⟨hne (by simp), rfl⟩
  case float =>
    split at h
    · cases h
    · split at h
      · cases h
      · cases h
      · split at h
        · cases h; exact .inr ⟨hne (by simp), rfl⟩
        · cases h

/-- A value read is valid. -/
theorem read_parts {dt : Datatype} {s : Str} {w : Val} (h : dt.read ext s = .ok w) :
    (∃ d, toPython ext dt.base d s = .ok w) ∧ dt.validate ext w = .ok w := by
  unfold Datatype.read at h
  cases hp : dt.parse ext s with
  | error e => rw [hp] at h; cases h
  | ok v =>
    rw [hp] at h
    simp only at h
    have hv : v = w := by
      unfold Datatype.validate at h
      split at h
      · exact Except.ok.inj h
      · split at h
        · split at h
          · obtain ⟨y, -, hy⟩ := Except.map_eq_ok.1 h
            exact hy
          · exact Except.ok.inj h
        · cases h
    subst hv
    refine ⟨?_, h⟩
    unfold Datatype.parse at hp
    split at hp
    · cases hp
    · exact ⟨_, hp⟩

theorem readItems_mem {dt : Datatype} {l : List (Option Str)} {ws : List Val} (h : CCol.readItems ext dt l = .ok ws) :
    ∀ w ∈ ws, w = .none ∨ ∃ s, dt.read ext s = .ok w := by
  induction l generalizing ws with
  | nil => cases h; simp
  | cons o r ih =>
    unfold CCol.readItems at h
    split at h
    · cases h
    · rename_i w hw
      split at h
      · cases h
      · rename_i ws' hws
        cases h
        intro v hv
        rcases List.mem_cons.1 hv with rfl | hv
        · cases o with
          | none => cases hw; exact .inl rfl
          | some s => exact .inr ⟨s, hw⟩
        · exact ih hws v hv

/-- A cell read without error is a valid value for SQL. -/
theorem read_valid {c : CCol} {cs : ColSpec} (hc : SameColumn c cs) (hf : ColumnConvertible c) {s : Str} {v : CVal} (h : c.read ext s = .ok v)
    (hs : ∀ w, v = .one w → Safe w) : CellValid ext cs v := by
  have hbase : cs.base = columnBase c := hc.base
  unfold CCol.read at h
  simp only at h
  split at h
  · cases h
  rename_i hreq
  have hnull : c.orDefault s ∈ c.null → cs.required = false := by
    intro hm
    rw [hc.required]
    cases hr : c.required with
    | false => rfl
    | true => exact absurd (by simp [hr, hm]) hreq
  generalize c.orDefault s = z at *
  cases hp : c.prepare z with
  | error e => rw [hp] at h; cases h
  | ok r =>
    rw [hp] at h
    simp only at h
    unfold CCol.prepare at hp
    rw [hc.separator] at hp
    cases hsep : cs.separator with
    | none =>
      rw [hsep] at hp
      simp only [Except.ok.injEq] at hp
      split at hp
      · rename_i hm
        subst hp
        have : v = .one .none := by
          cases hd : c.datatype with
          | none => rw [hd] at h; exact (Except.ok.inj h).symm
          | some d => rw [hd] at h; exact (Except.ok.inj h).symm
        exact .inl ⟨this, hnull hm⟩
      · subst hp
        obtain ⟨h1, h2⟩ := hf.plain (by rw [hc.separator, hsep])
        refine .inr (.inl ⟨hsep, ?_⟩)
        cases hd : c.datatype with
        | none =>
          rw [hd] at h
          obtain rfl : CVal.one (.str z) = v := Except.ok.inj h
          refine ⟨_, rfl, ⟨?_, hs _ rfl⟩, ?_⟩
          · rw [hc.base, hd]; exact .inl rfl
          · rw [hc.datatype, hd]; simp
        | some d =>
          rw [hd] at h
          obtain ⟨w, hw, rfl⟩ := Except.map_eq_ok.1 h
          obtain ⟨⟨de, hp⟩, hv⟩ := read_parts hw
          have hb : cs.base = d.base := by rw [hc.base, hd]
          rw [hbase.symm.trans hb] at h1 h2
          refine ⟨w, rfl, ?_, ?_⟩
          · rw [hb]
            exact toPython_value h1 h2 hp (hs w rfl)
          · rw [hc.datatype, hd]
            intro d' hd'
            cases hd'
            exact hv
    | some sep =>
      rw [hsep] at hp
      simp only at hp
      have hkind := hf.list sep (by rw [hc.separator, hsep])
      have hmany : ∀ l, CCol.applyDt ext c.datatype (.many l) = .ok v → CellValid ext cs v := by
        intro l hl
        refine .inr (.inr ⟨by rw [hsep]; simp, ?_⟩)
        cases hd : c.datatype with
        | none =>
          rw [hd] at hl
          obtain rfl : CVal.many (l.map CCol.rawVal) = v := Except.ok.inj hl
          refine ⟨_, rfl, ?_⟩
          intro w hw
          obtain ⟨o, -, rfl⟩ := List.mem_map.1 hw
          have hb : cs.base = .string := by rw [hc.base, hd]
          unfold ItemOf
          rw [if_pos hb]
          cases o with
          | none => exact .inl rfl
          | some s => exact .inr ⟨s, rfl⟩
        | some d =>
          rw [hd] at hl
          obtain ⟨ws, hws, rfl⟩ := Except.map_eq_ok.1 hl
          refine ⟨ws, rfl, ?_⟩
          intro w hw
          have hb : cs.base = d.base := by rw [hc.base, hd]
          rw [← hbase, hb] at hkind
          unfold ItemOf
          rcases readItems_mem hws w hw with rfl | ⟨s, hr⟩
          · split
            · exact .inl rfl
            · rfl
          · obtain ⟨⟨de, hp⟩, -⟩ := read_parts hr
            rcases toPython_item hkind hp with ⟨y, rfl⟩ | ⟨h1, h2⟩
            · split
              · exact .inr ⟨y, rfl⟩
              · rfl
            · rw [if_neg (by rw [hb]; exact h1)]
              exact h2
      split at hp
      · cases hp; exact hmany _ h
      · split at hp
        · rename_i hm
          cases hp
          have : v = .one .none := by
            cases hd : c.datatype with
            | none => rw [hd] at h; exact (Except.ok.inj h).symm
            | some d => rw [hd] at h; exact (Except.ok.inj h).symm
          exact .inl ⟨this, hnull hm⟩
        · cases hp; exact hmany _ h

end

end Csvw.Db

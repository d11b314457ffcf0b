import Verif.Props.C26b
/-!
# C26: lengths of all values; C27: empty intervals of decimals and of date-times
-/

namespace Csvw.Props
open Datatypes Spec DateFmt

section
variable {ext : Ext} {other : Base → Derived → J → Res Val} {s : DatatypeSpec} {dt : Datatype}

/-! ## C26: every datatype -/

/-- The length of a JSON document which is compared to the length constraints: characters of a string, items of an array, members of
an object; 0 for `false` and for the number 0; other numbers and `true` have none. -/
def jsonLength (ext : Ext) : J → Option Nat
  | .null => none
  | .bool b => if b then none else some 0
  | .int i => if i = 0 then some 0 else none
  | .flt r => if ext.floatTrue r then none else some 0
  | .str s => some s.length
  | .arr l => some l.length
  | .obj m => some m.length

/-- **C26** (JSON) For datatype `json`: `read(x)` returns the document `j` if and only if this is the value parsed from `x` and its length, if it
has one, meets the length constraints; `null` is returned as `None` without check. -/
theorem C26_json_iff (hb : s.base = .str "json".toList) (h : Datatype.construct ext other s = .ok dt) (x : Str) :
    (∀ j, j ≠ .null → (dt.read ext x = .ok (.json j) ↔
      dt.parse ext x = .ok (.json j) ∧ ∀ n, jsonLength ext j = some n → LengthsMet s n)) ∧
    (dt.read ext x = .ok .none ↔ dt.parse ext x = .ok .none) := by
  have hB := Datatype.built_of_construct h
  have hbase := base_of hB (b := .json) (by rw [hb]; decide +kernel)
  have hm : dt.base.minmax = false := by rw [hbase]; rfl
  have hval : ∀ j, j ≠ .null → (dt.validate ext (.json j) = .ok (.json j) ↔ ∀ n, jsonLength ext j = some n → LengthsMet s n) := by
    intro j hj
    cases hl : jsonLength ext j with
    | some n =>
      have : (if (Val.json j).truthy ext then (Val.json j).len? else some 0) = some n := by
        cases j <;> simp [jsonLength, Val.truthy, Val.len?] at hl ⊢ <;> simp_all
        all_goals first
          | (rename_i a _; cases a <;> simp_all)
          | (rename_i a; cases a <;> simp_all)
          | skip
      rw [validate_len hB hm (by simp) this]
      by_cases h2 : LengthsMet s n
      · simp [h2]
      · simp [h2]
    | none =>
      have h1 : dt.lengthOk ext (.json j) = true := by
        have : (if (Val.json j).truthy ext then (Val.json j).len? else some 0) = none := by
          cases j <;> simp [jsonLength, Val.truthy, Val.len?] at hl hj ⊢ <;> simp_all
        unfold Datatype.lengthOk
        rw [this]
      unfold Datatype.validate
      rw [if_neg (by simp), if_pos h1, hm]
      simp
  have same : ∀ v w, dt.validate ext v = .ok w → v = w := by
    intro v w hv
    unfold Datatype.validate at hv
    rw [hm] at hv
    repeat' split at hv
    all_goals simp_all
  refine ⟨fun j hj => ?_, ?_⟩
  · unfold Datatype.read
    cases hp : dt.parse ext x with
    | error e => simp
    | ok v =>
      simp only [Except.ok.injEq]
      constructor
      · intro hv
        have := same _ _ hv
        subst this
        exact ⟨rfl, (hval j hj).1 hv⟩
      · rintro ⟨rfl, hv⟩
        exact (hval j hj).2 hv
  · unfold Datatype.read
    cases hp : dt.parse ext x with
    | error e => simp
    | ok v =>
      simp only [Except.ok.injEq]
      constructor
      · intro hv; exact same _ _ hv
      · rintro rfl; simp [Datatype.validate]

/-- **C26** (`anyURI`) The length of every URI counts as 5. -/
theorem C26_uri_iff (hb : s.base = .str "anyURI".toList) (h : Datatype.construct ext other s = .ok dt) (x : Str) (u : Val) :
    dt.read ext x = .ok u ↔ dt.parse ext x = .ok u ∧ LengthsMet s 5 := by
  have hB := Datatype.built_of_construct h
  have hbase := base_of hB (b := .anyURI) (by rw [hb]; decide +kernel)
  have hm : dt.base.minmax = false := by rw [hbase]; rfl
  have hu : ∀ w, dt.parse ext x = .ok w → ∃ y, w = .uri y := by
    intro w hp
    unfold Datatype.parse at hp
    split at hp
    · simp at hp
    · unfold toPython at hp
      rw [hbase] at hp
      simp only [Base.kind] at hp
      repeat' split at hp
      all_goals first
        | (cases hp; done)
        | (unfold Except.map at hp; split at hp <;> cases hp; exact ⟨_, rfl⟩)
  unfold Datatype.read
  cases hp : dt.parse ext x with
  | error e => simp
  | ok v =>
    obtain ⟨y, rfl⟩ := hu v hp
    simp only [Except.ok.injEq, validate_len hB hm (v := .uri y) (n := 5) (by simp) rfl]
    by_cases h2 : LengthsMet s 5
    · simp [h2]
    · simp [h2]

/-- The datatypes without length and without checked bounds. -/
def uncheckedTypes : List String := ["boolean", "duration", "dayTimeDuration", "yearMonthDuration"]

/-- **C26** (booleans and durations) For these types nothing is checked: whatever is parsed is returned. -/
theorem C26_unchecked {t : String} (ht : t ∈ uncheckedTypes) (hb : s.base = .str t.toList) (h : Datatype.construct ext other s = .ok dt) (x : Str) :
    dt.read ext x = dt.parse ext x := by
  have hB := Datatype.built_of_construct h
  have hk : dt.base.kind = .boolean ∨ dt.base.kind = .duration := by
    simp only [uncheckedTypes, List.mem_cons, List.not_mem_nil, or_false] at ht
    rcases ht with rfl | rfl | rfl | rfl
    · rw [base_of hB (b := .boolean) (by rw [hb]; decide +kernel)]; exact .inl rfl
    · rw [base_of hB (b := .duration) (by rw [hb]; decide +kernel)]; exact .inr rfl
    · rw [base_of hB (b := .dayTimeDuration) (by rw [hb]; decide +kernel)]; exact .inr rfl
    · rw [base_of hB (b := .yearMonthDuration) (by rw [hb]; decide +kernel)]; exact .inr rfl
  unfold Datatype.read
  cases hp : dt.parse ext x with
  | error e => rfl
  | ok v =>
    refine hB.validate_ok (by rcases hk with h | h <;> simp [Base.hasLength, h]) (by rcases hk with h | h <;> simp [Base.minmax, h]) (.inr ?_)
    unfold Datatype.parse at hp
    split at hp
    · cases hp
    · unfold toPython at hp
      rcases hk with hk | hk <;> simp only [hk] at hp
      all_goals
        repeat' split at hp
        all_goals first
          | (cases hp; done)
          | (cases hp; rfl)
          | (unfold Except.map at hp; split at hp <;> cases hp; rfl)

/-- **C26** (`any`) Every string is accepted whose length meets the constraints (only constraints of 0 are possible). -/
theorem C26_any_iff (hb : s.base = .str "any".toList) (h : Datatype.construct ext other s = .ok dt) (x : Str) (v : Val) :
    dt.read ext x = .ok v ↔ dt.parse ext x = .ok v ∧ ∃ y, v = .str y ∧ LengthsMet s y.length := by
  have hB := Datatype.built_of_construct h
  have hbase := base_of hB (b := .any) (by rw [hb]; decide +kernel)
  have hm : dt.base.minmax = false := by rw [hbase]; rfl
  have hu : ∀ w, dt.parse ext x = .ok w → ∃ y, w = .str y := by
    intro w hp
    unfold Datatype.parse at hp
    split at hp
    · simp at hp
    · unfold toPython at hp
      rw [hbase] at hp
      simp only [Base.kind] at hp
      exact ⟨_, by simpa using hp.symm⟩
  unfold Datatype.read
  cases hp : dt.parse ext x with
  | error e => simp
  | ok w =>
    obtain ⟨y, rfl⟩ := hu w hp
    simp only [Except.ok.injEq, validate_str hB hm y]
    by_cases h2 : LengthsMet s y.length
    · simp only [h2, if_true, Except.ok.injEq]
      constructor
      · rintro rfl; exact ⟨rfl, y, rfl, h2⟩
      · exact fun h => h.1
    · simp only [h2, if_false]
      constructor
      · intro h; cases h
      · rintro ⟨rfl, z, hz, hl⟩; cases hz; exact absurd hl h2

/-! ## C27: empty intervals -/

theorem orRes_false {a b : Res Bool} : Datatype.orRes a b = .ok false ↔ a = .ok false ∧ b = .ok false := by
  cases a with
  | error e => simp [Datatype.orRes]
  | ok r => cases r <;> simp [Datatype.orRes]

theorem both_false {a b : Val} {cmp : Val → Val → Res Bool} (h : Datatype.both ext (some a) (some b) cmp = .ok false) :
    a.truthy ext = false ∨ b.truthy ext = false ∨ cmp b a = .ok false := by
  simp only [Datatype.both] at h
  cases ha : a.truthy ext <;> cases hb : b.truthy ext <;> simp [ha, hb] at h ⊢
  exact h

/-- A zero. -/
def IsZero (d : Dec) : Prop := ∃ n e, d = .fin n 0 e

/-- The conditions on the bounds of a decimal datatype: a bound of 0 counts as absent. -/
structure DecConsistent (dt : Datatype) : Prop where
  minBoth : ∀ a b, dt.minInclusive = some (.dec a) → dt.minExclusive = some (.dec b) → IsZero a ∨ IsZero b
  maxBoth : ∀ a b, dt.maxInclusive = some (.dec a) → dt.maxExclusive = some (.dec b) → IsZero a ∨ IsZero b
  ii : ∀ a b, dt.minInclusive = some (.dec a) → dt.maxInclusive = some (.dec b) → IsZero a ∨ IsZero b ∨ DecLe a b
  ie : ∀ a b, dt.minInclusive = some (.dec a) → dt.maxExclusive = some (.dec b) → IsZero a ∨ IsZero b ∨ DecLt a b
  ei : ∀ a b, dt.minExclusive = some (.dec a) → dt.maxInclusive = some (.dec b) → IsZero a ∨ IsZero b ∨ DecLt a b
  ee : ∀ a b, dt.minExclusive = some (.dec a) → dt.maxExclusive = some (.dec b) → IsZero a ∨ IsZero b ∨ DecLt a b

theorem dec_falsy {a : Dec} (h : Val.truthy ext (.dec a) = false) : IsZero a := by
  cases a with
  | fin n c e =>
    simp only [Val.truthy, Dec.truthy, decide_eq_false_iff_not, Decidable.not_not] at h
    exact ⟨n, e, by rw [h]⟩
  | inf => cases h
  | nan => cases h

theorem dec_le_false {a b : Dec} : Dec.le a b = .ok false ↔ DecLt b a := by
  rw [← dec_lt_true]
  unfold Dec.le
  cases Dec.lt b a with
  | error e => simp [Except.map]
  | ok r => cases r <;> simp [Except.map]

theorem built_pairs (hB : Datatype.Built ext other s dt) :
    (∀ a b, dt.minInclusive = some a → dt.minExclusive = some b → a.truthy ext = false ∨ b.truthy ext = false) ∧
    (∀ a b, dt.maxInclusive = some a → dt.maxExclusive = some b → a.truthy ext = false ∨ b.truthy ext = false) ∧
    (∀ a b, dt.minInclusive = some a → dt.maxInclusive = some b → a.truthy ext = false ∨ b.truthy ext = false ∨ b.lt ext a = .ok false) ∧
    (∀ a b, dt.minInclusive = some a → dt.maxExclusive = some b → a.truthy ext = false ∨ b.truthy ext = false ∨ b.le ext a = .ok false) ∧
    (∀ a b, dt.minExclusive = some a → dt.maxInclusive = some b → a.truthy ext = false ∨ b.truthy ext = false ∨ b.le ext a = .ok false) ∧
    (∀ a b, dt.minExclusive = some a → dt.maxExclusive = some b → a.truthy ext = false ∨ b.truthy ext = false ∨ b.le ext a = .ok false) := by
  have hi := hB.interval
  unfold Datatype.intervalBad at hi
  simp only [orRes_false] at hi
  obtain ⟨i1, i2, i3, i4⟩ := hi
  have hk := hB.kind
  simp only [Datatype.kindBad, Bool.or_eq_false_iff] at hk
  obtain ⟨⟨_, k1⟩, k2⟩ := hk
  refine ⟨?_, ?_, ?_, ?_, ?_, ?_⟩
  · intro a b ha hb; rw [ha, hb] at k1; exact Bool.and_eq_false_iff.1 k1
  · intro a b ha hb; rw [ha, hb] at k2; exact Bool.and_eq_false_iff.1 k2
  · intro a b ha hb; rw [ha, hb] at i2; exact both_false i2
  · intro a b ha hb; rw [ha, hb] at i1; exact both_false i1
  · intro a b ha hb; rw [ha, hb] at i4; exact both_false i4
  · intro a b ha hb; rw [ha, hb] at i3; exact both_false i3

/-- **C27** (decimals) A datatype with decimal bounds is constructed only if it does not have an inclusive and an exclusive bound on the same side,
and if its bounds leave room for a value — but a bound of 0 counts as absent. -/
theorem C27_decimal (h : Datatype.construct ext other s = .ok dt) : DecConsistent dt := by
  obtain ⟨h1, h2, h3, h4, h5, h6⟩ := built_pairs (Datatype.built_of_construct h)
  refine ⟨?_, ?_, ?_, ?_, ?_, ?_⟩
  · intro a b ha hb; exact (h1 _ _ ha hb).imp dec_falsy dec_falsy
  · intro a b ha hb; exact (h2 _ _ ha hb).imp dec_falsy dec_falsy
  · intro a b ha hb; exact (h3 _ _ ha hb).imp dec_falsy (Or.imp dec_falsy dec_lt_false.1)
  · intro a b ha hb; exact (h4 _ _ ha hb).imp dec_falsy (Or.imp dec_falsy dec_le_false.1)
  · intro a b ha hb; exact (h5 _ _ ha hb).imp dec_falsy (Or.imp dec_falsy dec_le_false.1)
  · intro a b ha hb; exact (h6 _ _ ha hb).imp dec_falsy (Or.imp dec_falsy dec_le_false.1)

/-- The conditions on the bounds of a date or time datatype. -/
structure DtConsistent (dt : Datatype) : Prop where
  minBoth : dt.minInclusive = none ∨ dt.minExclusive = none
  maxBoth : dt.maxInclusive = none ∨ dt.maxExclusive = none
  ii : ∀ a b, dt.minInclusive = some (.dt a) → dt.maxInclusive = some (.dt b) → SameKind a b ∧ moment a ≤ moment b
  ie : ∀ a b, dt.minInclusive = some (.dt a) → dt.maxExclusive = some (.dt b) → SameKind a b ∧ moment a < moment b
  ei : ∀ a b, dt.minExclusive = some (.dt a) → dt.maxInclusive = some (.dt b) → SameKind a b ∧ moment a < moment b
  ee : ∀ a b, dt.minExclusive = some (.dt a) → dt.maxExclusive = some (.dt b) → SameKind a b ∧ moment a < moment b

/-- **C27** (dates and times) A date or time datatype with bounds given as strings is constructed only if it does not have an inclusive and an
exclusive bound on the same side, and if its bounds leave room for a value. -/
theorem C27_datetime (hdu : ∀ v d, ext.duParse v = .ok d → ValidDateTime d) {t : String} (ht : t ∈ dateTypes) (hb : s.base = .str t.toList)
    (hsb : StrBounds s) (h : Datatype.construct ext other s = .ok dt) : DtConsistent dt := by
  have hB := Datatype.built_of_construct h
  have hk : dt.base.kind = .dateTime ∨ dt.base.kind = .date ∨ dt.base.kind = .time := by
    simp only [dateTypes, List.mem_cons, List.not_mem_nil, or_false] at ht
    rcases ht with rfl | rfl | rfl | rfl | rfl
    · rw [base_of hB (b := .dateTime) (by rw [hb]; decide +kernel)]; exact .inl rfl
    · rw [base_of hB (b := .datetime) (by rw [hb]; decide +kernel)]; exact .inl rfl
    · rw [base_of hB (b := .dateTimeStamp) (by rw [hb]; decide +kernel)]; exact .inl rfl
    · rw [base_of hB (b := .date) (by rw [hb]; decide +kernel)]; exact .inr (.inl rfl)
    · rw [base_of hB (b := .time) (by rw [hb]; decide +kernel)]; exact .inr (.inr rfl)
  obtain ⟨D, _, _, b1, b2, b3, b4, b5, b6⟩ := hB.descr
  have key : ∀ {j : J} (_ : j = .null ∨ ∃ x, j = .str x) {o : Option Val}, Datatype.parseBound ext other dt.base D j = .ok o →
      ∀ w ∈ o, ∃ a, w = .dt a ∧ ValidDateTime a := by
    intro j hj o ho w hw
    obtain ⟨x, hx⟩ := bound_read hj ho w hw
    exact toPython_dt hdu hk hx
  have b3 := key (hsb _ (by simp)) b3
  have b4 := key (hsb _ (by simp)) b4
  have b5 := key (hsb _ (by simp)) b5
  have b6 := key (hsb _ (by simp)) b6
  obtain ⟨h1, h2, h3, h4, h5, h6⟩ := built_pairs hB
  have valid : ∀ {o : Option Val} {a : DateTime}, (∀ w ∈ o, ∃ a, w = .dt a ∧ ValidDateTime a) → o = some (.dt a) → ValidDateTime a := by
    intro o a ho hoa
    obtain ⟨c, hc, hv⟩ := ho _ hoa
    cases hc; exact hv
  have none_of : ∀ {o p : Option Val}, (∀ w ∈ o, ∃ a, w = .dt a ∧ ValidDateTime a) → (∀ w ∈ p, ∃ a, w = .dt a ∧ ValidDateTime a) →
      (∀ a b, o = some a → p = some b → a.truthy ext = false ∨ b.truthy ext = false) → o = none ∨ p = none := by
    intro o p ho hp hop
    cases o with
    | none => exact .inl rfl
    | some a =>
      cases p with
      | none => exact .inr rfl
      | some b =>
        obtain ⟨x, rfl, _⟩ := ho a rfl
        obtain ⟨y, rfl, _⟩ := hp b rfl
        rcases hop _ _ rfl rfl with h | h <;> cases h
  have lt : ∀ {a b : DateTime}, ValidDateTime a → ValidDateTime b →
      (Val.truthy ext (.dt a) = false ∨ Val.truthy ext (.dt b) = false ∨ Val.lt ext (.dt b) (.dt a) = .ok false) → SameKind a b ∧ moment a ≤ moment b := by
    intro a b ha hb hab
    rcases hab with h | h | h
    · cases h
    · cases h
    · have := (dt_lt hb ha false).1 h
      simpa [eq_comm, Int.not_lt, SameKind] using this
  have le : ∀ {a b : DateTime}, ValidDateTime a → ValidDateTime b →
      (Val.truthy ext (.dt a) = false ∨ Val.truthy ext (.dt b) = false ∨ Val.le ext (.dt b) (.dt a) = .ok false) → SameKind a b ∧ moment a < moment b := by
    intro a b ha hb hab
    rcases hab with h | h | h
    · cases h
    · cases h
    · have h : (DateTime.lt a b).map (!·) = .ok false := h
      have h' : DateTime.lt a b = .ok true := by
        cases hr : DateTime.lt a b with
        | error e => rw [hr] at h; simp [Except.map] at h
        | ok r => rw [hr] at h; cases r <;> simp [Except.map] at h ⊢
      have := (dt_lt ha hb true).1 h'
      simpa [eq_comm] using this
  refine ⟨none_of b3 b5 h1, none_of b4 b6 h2, ?_, ?_, ?_, ?_⟩
  · intro a b ha hb; exact lt (valid b3 ha) (valid b4 hb) (h3 _ _ ha hb)
  · intro a b ha hb; exact le (valid b3 ha) (valid b6 hb) (h4 _ _ ha hb)
  · intro a b ha hb; exact le (valid b5 ha) (valid b4 hb) (h5 _ _ ha hb)
  · intro a b ha hb; exact le (valid b5 ha) (valid b6 hb) (h6 _ _ ha hb)

end

/-- The hypotheses can be met: an interval of decimals; and one of dates. -/
theorem C27_decimal_example (ext : Ext) (other : Base → Derived → J → Res Val) :
    Datatype.construct ext other { base := .str "decimal".toList, minInclusive := .str "1.5".toList, maxExclusive := .str "2".toList } =
      .ok { base := .decimal, minInclusive := some (.dec (.fin false 15 (-1))), maxExclusive := some (.dec (.fin false 2 0)) } ∧
    Datatype.construct ext other { base := .str "decimal".toList, minInclusive := .str "2.0".toList, maxExclusive := .str "2".toList } =
      .error .valueError := by
  have e0 : Datatype.parseBound ext other .decimal .empty (.str "1.5".toList) = .ok (some (.dec (.fin false 15 (-1)))) := rfl
  have e1 : Datatype.parseBound ext other .decimal .empty (.str "2.0".toList) = .ok (some (.dec (.fin false 20 (-1)))) := rfl
  have e2 : Datatype.parseBound ext other .decimal .empty (.str "2".toList) = .ok (some (.dec (.fin false 2 0))) := rfl
  have en : Datatype.parseBound ext other .decimal .empty .null = .ok none := rfl
  have hb : Datatype.convBase (.str "decimal".toList) = .ok .decimal := by decide +kernel
  have hd : derived ext .decimal .null = .ok .empty := rfl
  have l1 : Dec.le (.fin false 2 0) (.fin false 15 (-1)) = .ok false := by decide +kernel
  have l2 : Dec.le (.fin false 2 0) (.fin false 20 (-1)) = .ok true := by decide +kernel
  constructor
  · unfold Datatype.construct
    simp only [hb, hd, e0, e2, en, bind, Except.bind]
    simp [Datatype.finish, Datatype.lengthsBad, Datatype.kindBad, Datatype.intervalBad, Datatype.both, Datatype.orRes, Val.truthy, Dec.truthy,
      Val.le, l1, Datatype.truthy, Datatype.idOf, Dict.get, Base.isOrdered, Base.hasLength, Base.kind, Datatype.badPattern, J.truthy]
  · unfold Datatype.construct
    simp only [hb, hd, e1, e2, en, bind, Except.bind]
    simp [Datatype.finish, Datatype.intervalBad, Datatype.both, Datatype.orRes, Val.truthy, Dec.truthy, Val.le, l2]

theorem C27_datetime_example (ext : Ext) (other : Base → Derived → J → Res Val) :
    Datatype.construct ext other { base := .str "dateTime".toList, minInclusive := .str "2020-01-01T00:00:00".toList,
                                   maxExclusive := .str "2020-01-02T00:00:00".toList } =
      .ok { base := .dateTime, minInclusive := some (.dt ⟨2020, 1, 1, 0, 0, 0, 0, none⟩), maxExclusive := some (.dt ⟨2020, 1, 2, 0, 0, 0, 0, none⟩) } ∧
    Datatype.construct ext other { base := .str "dateTime".toList, minInclusive := .str "2020-01-02T00:00:00".toList,
                                   maxExclusive := .str "2020-01-02T00:00:00".toList } = .error .valueError :=
  ⟨rfl, rfl⟩

example (ext : Ext) (other : Base → Derived → J → Res Val) :
    Datatype.construct ext other { base := .str "json".toList, maxLength := some 3 } = .ok { base := .json, maxLength := some 3 } := rfl
example (ext : Ext) : jsonLength ext (.arr [.int 1, .null]) = some 2 ∧ jsonLength ext (.int 7) = none := ⟨rfl, rfl⟩

end Csvw.Props

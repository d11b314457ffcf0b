import Verif.Props.C27b
/-!
# C27: exactly which bounds are accepted, for decimals, integers, dates and times
-/

namespace Csvw.Props
open Datatypes Spec DateFmt

/-- The conditions on bounds, for values with a zero (which counts as absent) and an order. -/
structure Consistent {α : Type} (zero : α → Prop) (le lt : α → α → Prop) (s : DatatypeSpec) (mi xi me xe : Option α) : Prop where
  /-- Lengths have no meaning for these types. -/
  lengths : ∀ o ∈ [s.length, s.minLength, s.maxLength], ∀ l ∈ o, l = 0
  minBoth : ∀ a ∈ mi, ∀ b ∈ me, zero a ∨ zero b
  maxBoth : ∀ a ∈ xi, ∀ b ∈ xe, zero a ∨ zero b
  ii : ∀ a ∈ mi, ∀ b ∈ xi, zero a ∨ zero b ∨ le a b
  ie : ∀ a ∈ mi, ∀ b ∈ xe, zero a ∨ zero b ∨ lt a b
  ei : ∀ a ∈ me, ∀ b ∈ xi, zero a ∨ zero b ∨ lt a b
  ee : ∀ a ∈ me, ∀ b ∈ xe, zero a ∨ zero b ∨ lt a b

/-- The bound is absent, or a text which is parsed as this value by the datatype. -/
def BoundGiven (ext : Ext) {α : Type} (val : α → Val) (b : Base) (f : J) (j : J) (o : Option α) : Prop :=
  (j = .null ∧ o = none) ∨ ∃ t a, j = .str t ∧ o = some a ∧ ({ base := b, format := f } : Datatype).parse ext t = .ok (val a)

section
variable {ext : Ext} {other : Base → Derived → J → Res Val} {s : DatatypeSpec} {α : Type} {val : α → Val}

theorem convBase_name (b : Base) : Datatype.convBase (.str b.name.toList) = .ok b := by
  cases b <;> decide +kernel

theorem bound_parse {b : Base} {d : Derived} {j : J} {o : Option α} (hd : derived ext b s.format = .ok d) (h : BoundGiven ext val b s.format j o) :
    Datatype.parseBound ext other b d j = .ok (o.map val) := by
  rcases h with ⟨rfl, rfl⟩ | ⟨t, a, rfl, rfl, h⟩
  · rfl
  · unfold Datatype.parse Datatype.descr at h
    simp only [hd] at h
    simp only [Datatype.parseBound, Datatype.parseJ, h]
    rfl

theorem both_iff {zero : α → Prop} {R : α → α → Prop} {cmp : Val → Val → Res Bool} (hz : ∀ a, (val a).truthy ext = false ↔ zero a) (a b : Option α)
    (hc : ∀ x ∈ a, ∀ y ∈ b, cmp (val y) (val x) = .ok false ↔ R x y) :
    Datatype.both ext (a.map val) (b.map val) cmp = .ok false ↔ ∀ x ∈ a, ∀ y ∈ b, zero x ∨ zero y ∨ R x y := by
  cases a with
  | none => simp [Datatype.both]
  | some x =>
    cases b with
    | none => simp [Datatype.both]
    | some y =>
      simp only [Datatype.both, Option.map_some, Option.mem_some_iff, forall_eq']
      rw [← hz x, ← hz y, ← hc x rfl y rfl]
      cases h1 : (val x).truthy ext <;> cases h2 : (val y).truthy ext <;> simp

theorem truthy_pair {zero : α → Prop} (hz : ∀ a, (val a).truthy ext = false ↔ zero a) (a b : Option α) :
    (Datatype.truthy ext (a.map val) && Datatype.truthy ext (b.map val)) = false ↔ ∀ x ∈ a, ∀ y ∈ b, zero x ∨ zero y := by
  cases a with
  | none => simp [Datatype.truthy]
  | some x =>
    cases b with
    | none => simp [Datatype.truthy]
    | some y =>
      simp only [Datatype.truthy, Option.map_some, Option.mem_some_iff, forall_eq', Bool.and_eq_false_iff, hz]

theorem construct_iff {zero : α → Prop} {le lt : α → α → Prop} {b : Base} {d : Derived} {mn mx mi xi me xe : Option α}
    (hb : s.base = .str b.name.toList) (hd : derived ext b s.format = .ok d) (ho : b.isOrdered = true) (hl : b.hasLength = false)
    (hid : Dict.get "id".toList s.atProps = none) (hbad : ∃ r, Datatype.badPattern b s.format = .ok r)
    (hz : ∀ a, (val a).truthy ext = false ↔ zero a)
    (hle : ∀ x ∈ mi.toList ++ me.toList, ∀ y ∈ xi.toList ++ xe.toList, Val.lt ext (val y) (val x) = .ok false ↔ le x y)
    (hlt : ∀ x ∈ mi.toList ++ me.toList, ∀ y ∈ xi.toList ++ xe.toList, Val.le ext (val y) (val x) = .ok false ↔ lt x y)
    (h1 : BoundGiven ext val b s.format s.minimum mn) (h2 : BoundGiven ext val b s.format s.maximum mx)
    (h3 : BoundGiven ext val b s.format s.minInclusive mi) (h4 : BoundGiven ext val b s.format s.maxInclusive xi)
    (h5 : BoundGiven ext val b s.format s.minExclusive me) (h6 : BoundGiven ext val b s.format s.maxExclusive xe) :
    (∃ dt, Datatype.construct ext other s = .ok dt) ↔ Consistent zero le lt s mi xi me xe := by
  have hc : Datatype.construct ext other s = Datatype.finish ext ⟨b, s.format, s.length, s.minLength, s.maxLength, mn.map val, mx.map val, mi.map val,
      xi.map val, me.map val, xe.map val, s.atProps, s.common⟩ := by
    unfold Datatype.construct
    simp only [hb, convBase_name, hd, bind, Except.bind, bound_parse hd h1, bound_parse hd h2, bound_parse hd h3, bound_parse hd h4, bound_parse hd h5,
      bound_parse hd h6]
  rw [hc]
  have mem : ∀ {o p : Option α} {x : α}, (x ∈ o → x ∈ o.toList ++ p.toList) ∧ (x ∈ p → x ∈ o.toList ++ p.toList) := by
    intro o p x
    constructor
    · intro h; exact List.mem_append_left _ (by rw [h]; simp)
    · intro h; exact List.mem_append_right _ (by rw [h]; simp)
  have i1 := both_iff hz mi xe (R := lt) (cmp := Val.le ext) fun x hx y hy => hlt x (mem.1 hx) y (mem.2 hy)
  have i2 := both_iff hz mi xi (R := le) (cmp := Val.lt ext) fun x hx y hy => hle x (mem.1 hx) y (mem.1 hy)
  have i3 := both_iff hz me xe (R := lt) (cmp := Val.le ext) fun x hx y hy => hlt x (mem.2 hx) y (mem.2 hy)
  have i4 := both_iff hz me xi (R := lt) (cmp := Val.le ext) fun x hx y hy => hlt x (mem.2 hx) y (mem.1 hy)
  have hi : ∀ (x : Datatype), x.minInclusive = mi.map val → x.maxInclusive = xi.map val → x.minExclusive = me.map val → x.maxExclusive = xe.map val →
      (Datatype.intervalBad ext x = .ok false ↔ (∀ x ∈ mi, ∀ y ∈ xe, zero x ∨ zero y ∨ lt x y) ∧ (∀ x ∈ mi, ∀ y ∈ xi, zero x ∨ zero y ∨ le x y) ∧
        (∀ x ∈ me, ∀ y ∈ xe, zero x ∨ zero y ∨ lt x y) ∧ ∀ x ∈ me, ∀ y ∈ xi, zero x ∨ zero y ∨ lt x y) := by
    intro x e1 e2 e3 e4
    unfold Datatype.intervalBad
    rw [e1, e2, e3, e4, orRes_false, orRes_false, orRes_false, i1, i2, i3, i4]
  have hzl : ∀ o : Option Int, o.getD 0 = 0 ↔ ∀ l ∈ o, l = 0 := by
    intro o; cases o <;> simp
  have hkb : Datatype.kindBad ext ⟨b, s.format, s.length, s.minLength, s.maxLength, mn.map val, mx.map val, mi.map val,
      xi.map val, me.map val, xe.map val, s.atProps, s.common⟩ = false ↔
      (∀ o ∈ [s.length, s.minLength, s.maxLength], ∀ l ∈ o, l = 0) ∧ (∀ a ∈ mi, ∀ b ∈ me, zero a ∨ zero b) ∧ (∀ a ∈ xi, ∀ b ∈ xe, zero a ∨ zero b) := by
    unfold Datatype.kindBad
    simp only [ho, hl, Bool.not_true, Bool.false_and, Bool.false_or, Bool.not_false, Bool.true_and]
    simp only [Bool.or_eq_false_iff, truthy_pair hz, decide_eq_false_iff_not, Decidable.not_not, hzl, List.mem_cons, List.not_mem_nil, or_false,
      forall_eq_or_imp, forall_eq, and_assoc]
  have hid' : Datatype.idOf s.atProps = none := by
    unfold Datatype.idOf; rw [hid]
  obtain ⟨r, hbad⟩ := hbad
  have hi' := hi ⟨b, s.format, s.length, s.minLength, s.maxLength, mn.map val, mx.map val, mi.map val,
      xi.map val, me.map val, xe.map val, s.atProps, s.common⟩ rfl rfl rfl rfl
  constructor
  · rintro ⟨dt, h⟩
    unfold Datatype.finish at h
    split at h
    · cases h
    split at h
    · cases h
    next hk =>
    obtain ⟨k1, k2, k3⟩ := hkb.1 (by simpa using hk)
    split at h
    · cases h
    · cases h
    next hint =>
    obtain ⟨j1, j2, j3, j4⟩ := hi'.1 hint
    exact ⟨k1, k2, k3, j2, j1, j4, j3⟩
  · rintro ⟨c1, c2, c3, c4, c5, c6, c7⟩
    unfold Datatype.finish
    have hlen : Datatype.lengthsBad ⟨b, s.format, s.length, s.minLength, s.maxLength, mn.map val, mx.map val, mi.map val,
      xi.map val, me.map val, xe.map val, s.atProps, s.common⟩ = false := by
      have hz := c1
      simp only [List.mem_cons, List.not_mem_nil, or_false, forall_eq_or_imp, forall_eq] at hz
      exact lengthsBad_zero _ hz.1 hz.2.1 hz.2.2
    rw [hlen, hkb.2 ⟨c1, c2, c3⟩, hi'.2 ⟨c5, c4, c7, c6⟩]
    simp only [hid', hbad]
    exact ⟨_, rfl⟩

end

section
variable {ext : Ext} {other : Base → Derived → J → Res Val} {s : DatatypeSpec}

/-- Without format or with a number pattern. -/
def TextFormat (s : DatatypeSpec) : Prop := s.format = .null ∨ ∃ p, s.format = .str p

theorem badPattern_text (h : TextFormat s) (b : Base) : ∃ r, Datatype.badPattern b s.format = .ok r := by
  rcases h with h | ⟨p, h⟩ <;> rw [h] <;> unfold Datatype.badPattern
  · cases b.kind <;> exact ⟨_, rfl⟩
  · split
    all_goals first | exact ⟨_, rfl⟩ | skip
    all_goals split
    all_goals exact ⟨_, rfl⟩

theorem badPattern_other {b : Base} (h : b.kind ≠ .decimal ∧ b.kind ≠ .integer) : ∃ r, Datatype.badPattern b s.format = .ok r := by
  unfold Datatype.badPattern
  split
  · next e => exact absurd e h.1
  · next e => exact absurd e h.2
  · exact ⟨_, rfl⟩

/-- **C27** (exact, decimals) A `decimal` datatype with bounds which are parsed as `mi`, `xi`, `me` and `xe` is constructed if and only if these
are consistent: no two bounds on the same side, and room for a value. A bound of 0 counts as absent; `NaN` as bound is inconsistent with any other
bound on the other side. -/
theorem C27_decimal_iff {mn mx mi xi me xe : Option Dec} (hb : s.base = .str "decimal".toList) (hf : TextFormat s)
    (hid : Dict.get "id".toList s.atProps = none)
    (h1 : BoundGiven ext .dec .decimal s.format s.minimum mn) (h2 : BoundGiven ext .dec .decimal s.format s.maximum mx)
    (h3 : BoundGiven ext .dec .decimal s.format s.minInclusive mi) (h4 : BoundGiven ext .dec .decimal s.format s.maxInclusive xi)
    (h5 : BoundGiven ext .dec .decimal s.format s.minExclusive me) (h6 : BoundGiven ext .dec .decimal s.format s.maxExclusive xe) :
    (∃ dt, Datatype.construct ext other s = .ok dt) ↔ Consistent IsZero DecLe DecLt s mi xi me xe := by
  have hd : ∃ d, derived ext .decimal s.format = .ok d := by
    rcases hf with h | ⟨p, h⟩ <;> rw [h]
    · exact ⟨_, rfl⟩
    · exact ⟨_, rfl⟩
  obtain ⟨d, hd⟩ := hd
  refine construct_iff (b := .decimal) (val := .dec) hb hd rfl rfl hid (badPattern_text hf _) ?_ ?_ ?_ h1 h2 h3 h4 h5 h6
  · intro a
    constructor
    · exact dec_falsy
    · rintro ⟨n, e, rfl⟩; simp [Val.truthy, Dec.truthy]
  · intro x _ y _; exact dec_lt_false
  · intro x _ y _; exact dec_le_false

/-- **C27** (exact, integers of all types) … with bounds given as texts, and with any number pattern as format. -/
theorem C27_integers_iff {b : Base} (hbi : b.kind = .integer) {mn mx mi xi me xe : Option Int} (hb : s.base = .str b.name.toList) (hf : TextFormat s)
    (hid : Dict.get "id".toList s.atProps = none)
    (h1 : BoundGiven ext .int b s.format s.minimum mn) (h2 : BoundGiven ext .int b s.format s.maximum mx)
    (h3 : BoundGiven ext .int b s.format s.minInclusive mi) (h4 : BoundGiven ext .int b s.format s.maxInclusive xi)
    (h5 : BoundGiven ext .int b s.format s.minExclusive me) (h6 : BoundGiven ext .int b s.format s.maxExclusive xe) :
    (∃ dt, Datatype.construct ext other s = .ok dt) ↔ Consistent (· = 0) (· ≤ ·) (· < ·) s mi xi me xe := by
  have hd : ∃ d, derived ext b s.format = .ok d := by
    unfold derived
    rw [hbi]
    rcases hf with h | ⟨p, h⟩ <;> rw [h]
    · exact ⟨_, rfl⟩
    · exact ⟨_, rfl⟩
  obtain ⟨d, hd⟩ := hd
  refine construct_iff (b := b) (val := .int) hb hd (by unfold Base.isOrdered; rw [hbi]) (by unfold Base.hasLength; rw [hbi]) hid (badPattern_text hf _) ?_ ?_ ?_ h1 h2 h3 h4 h5 h6
  · intro a; simp [Val.truthy]
  · intro x _ y _; simp [Val.lt]
  · intro x _ y _; simp [Val.le, Val.lt, Except.map]

/-- **C27** (exact, dates and times) … constructed if and only if there are no two bounds on the same side, bounds are comparable (all with timezone
or all without) and leave room for a value. -/
theorem C27_datetime_iff (hdu : ∀ v d, ext.duParse v = .ok d → ValidDateTime d) {b : Base} (hbk : b ∈ [.datetime, .dateTime, .dateTimeStamp, .date, .time])
    {mn mx mi xi me xe : Option DateTime} (hb : s.base = .str b.name.toList) (hd : ∃ d, derived ext b s.format = .ok d)
    (hid : Dict.get "id".toList s.atProps = none)
    (h1 : BoundGiven ext .dt b s.format s.minimum mn) (h2 : BoundGiven ext .dt b s.format s.maximum mx)
    (h3 : BoundGiven ext .dt b s.format s.minInclusive mi) (h4 : BoundGiven ext .dt b s.format s.maxInclusive xi)
    (h5 : BoundGiven ext .dt b s.format s.minExclusive me) (h6 : BoundGiven ext .dt b s.format s.maxExclusive xe) :
    (∃ dt, Datatype.construct ext other s = .ok dt) ↔
      Consistent (fun _ => False) (fun a b => SameKind a b ∧ moment a ≤ moment b) (fun a b => SameKind a b ∧ moment a < moment b) s mi xi me xe := by
  obtain ⟨d, hd⟩ := hd
  have hk : b.kind = .dateTime ∨ b.kind = .date ∨ b.kind = .time := by
    simp only [List.mem_cons, List.not_mem_nil, or_false] at hbk
    rcases hbk with rfl | rfl | rfl | rfl | rfl <;> simp [Base.kind]
  have valid : ∀ {j : J} {o : Option DateTime}, BoundGiven ext .dt b s.format j o → ∀ a ∈ o.toList, ValidDateTime a := by
    rintro j o (⟨rfl, rfl⟩ | ⟨t, a, rfl, rfl, h⟩) a' ha
    · cases ha
    · simp only [Option.toList_some, List.mem_singleton] at ha
      subst ha
      unfold Datatype.parse Datatype.descr at h
      simp only [hd] at h
      obtain ⟨a'', e, hv⟩ := toPython_dt hdu hk h
      cases e; exact hv
  have vmin : ∀ a ∈ mi.toList ++ me.toList, ValidDateTime a := fun a ha => (List.mem_append.1 ha).elim (valid h3 a) (valid h5 a)
  have vmax : ∀ a ∈ xi.toList ++ xe.toList, ValidDateTime a := fun a ha => (List.mem_append.1 ha).elim (valid h4 a) (valid h6 a)
  refine construct_iff (b := b) (val := .dt) hb hd ?_ ?_ hid (badPattern_other ?_) ?_ ?_ ?_ h1 h2 h3 h4 h5 h6
  · unfold Base.isOrdered; rcases hk with h | h | h <;> rw [h]
  · unfold Base.hasLength; rcases hk with h | h | h <;> rw [h]
  · rcases hk with h | h | h <;> rw [h] <;> simp
  · intro a; simp [Val.truthy]
  · intro x hx y hy
    have := dt_lt (vmax y hy) (vmin x hx) false
    have e : Val.lt ext (.dt y) (.dt x) = DateTime.lt y x := rfl
    rw [e, this]
    simp [SameKind, eq_comm, Int.not_lt]
  · intro x hx y hy
    have := dt_lt (vmin x hx) (vmax y hy) true
    have e : Val.le ext (.dt y) (.dt x) = (DateTime.lt x y).map (!·) := rfl
    rw [e]
    have e2 : (DateTime.lt x y).map (!·) = .ok false ↔ DateTime.lt x y = .ok true := by
      cases hr : DateTime.lt x y with
      | error e => simp [Except.map]
      | ok r => cases r <;> simp [Except.map]
    rw [e2, this]
    simp [SameKind]

end

/-- The hypotheses can be met: bounds of a decimal and of a `short`. -/
example (ext : Ext) : BoundGiven ext .dec .decimal .null (.str "1.5".toList) (some (.fin false 15 (-1))) := .inr ⟨_, _, rfl, rfl, rfl⟩
example (ext : Ext) : BoundGiven ext .int .short .null (.str "-5".toList) (some (-5)) := .inr ⟨_, _, rfl, rfl, rfl⟩
example (ext : Ext) : BoundGiven ext .dt .dateTime .null (.str "2020-01-01T00:00:00".toList) (some ⟨2020, 1, 1, 0, 0, 0, 0, none⟩) := .inr ⟨_, _, rfl, rfl, rfl⟩

end Csvw.Props

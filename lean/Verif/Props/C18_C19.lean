import Verif.Lemmas.Datatype
import Verif.Lemmas.Decimal
import Verif.Spec.Numbers
/-!
# C18, C19: integers
-/

namespace Csvw.Props
open Datatypes

/-- A specification `Datatype(base=name)` without format and bounds. -/
def plainSpec (name : String) : DatatypeSpec := { base := .str name.toList }

theorem base_of_intName {name : String} (hn : name ∈ Spec.intNames) :
    ∃ b : Base, Datatype.convBase (.str name.toList) = .ok b ∧ b.kind = .integer ∧
      (∀ n : Int, Spec.InRange name n ↔ (match b.range with
        | none => True
        | some (lo, hi) => (∀ l ∈ lo, l ≤ n) ∧ (∀ h ∈ hi, n ≤ h))) ∧
      (name ∈ Spec.boundedNames ↔ ∃ lo hi, b.range = some (some lo, some hi) ∧ -(10 ^ 28) < lo ∧ hi < 10 ^ 28) := by
  simp only [Spec.intNames, List.mem_cons, List.not_mem_nil, or_false] at hn
  have key : ∀ (b : Base) (nm : String), Datatype.convBase (.str nm.toList) = .ok b → b.kind = .integer →
      (∀ n : Int, Spec.InRange nm n ↔ (match b.range with
        | none => True
        | some (lo, hi) => (∀ l ∈ lo, l ≤ n) ∧ (∀ h ∈ hi, n ≤ h))) →
      (nm ∈ Spec.boundedNames ↔ ∃ lo hi, b.range = some (some lo, some hi) ∧ -(10 ^ 28) < lo ∧ hi < 10 ^ 28) →
      ∃ b : Base, Datatype.convBase (.str nm.toList) = .ok b ∧ b.kind = .integer ∧
      (∀ n : Int, Spec.InRange nm n ↔ (match b.range with
        | none => True
        | some (lo, hi) => (∀ l ∈ lo, l ≤ n) ∧ (∀ h ∈ hi, n ≤ h))) ∧
      (nm ∈ Spec.boundedNames ↔ ∃ lo hi, b.range = some (some lo, some hi) ∧ -(10 ^ 28) < lo ∧ hi < 10 ^ 28) :=
    fun b nm h1 h2 h3 h4 => ⟨b, h1, h2, h3, h4⟩
  rcases hn with rfl | rfl | rfl | rfl | rfl | rfl | rfl | rfl | rfl | rfl | rfl | rfl | rfl
  · exact key .integer _ (by decide) rfl (by simp [Spec.InRange, Base.range]) (by simp [Spec.boundedNames, Base.range])
  · exact key .int _ (by decide) rfl (by simp [Spec.InRange, Base.range]) (by simp [Spec.boundedNames, Base.range])
  · exact key .byte _ (by decide) rfl (by simp [Spec.InRange, Base.range]; omega)
      ⟨fun _ => ⟨_, _, rfl, by decide, by decide⟩, fun _ => by decide⟩
  · exact key .short _ (by decide) rfl (by simp [Spec.InRange, Base.range]; omega)
      ⟨fun _ => ⟨_, _, rfl, by decide, by decide⟩, fun _ => by decide⟩
  · exact key .long _ (by decide) rfl (by simp [Spec.InRange, Base.range]; omega)
      ⟨fun _ => ⟨_, _, rfl, by decide, by decide⟩, fun _ => by decide⟩
  · exact key .unsignedByte _ (by decide) rfl (by simp [Spec.InRange, Base.range]; omega)
      ⟨fun _ => ⟨_, _, rfl, by decide, by decide⟩, fun _ => by decide⟩
  · exact key .unsignedShort _ (by decide) rfl (by simp [Spec.InRange, Base.range]; omega)
      ⟨fun _ => ⟨_, _, rfl, by decide, by decide⟩, fun _ => by decide⟩
  · exact key .unsignedInt _ (by decide) rfl (by simp [Spec.InRange, Base.range]; omega)
      ⟨fun _ => ⟨_, _, rfl, by decide, by decide⟩, fun _ => by decide⟩
  · exact key .unsignedLong _ (by decide) rfl (by simp [Spec.InRange, Base.range]; omega)
      ⟨fun _ => ⟨_, _, rfl, by decide, by decide⟩, fun _ => by decide⟩
  · exact key .nonNegativeInteger _ (by decide) rfl (by simp [Spec.InRange, Base.range]) (by simp [Spec.boundedNames, Base.range])
  · exact key .positiveInteger _ (by decide) rfl (by simp [Spec.InRange, Base.range]; omega) (by simp [Spec.boundedNames, Base.range])
  · exact key .nonPositiveInteger _ (by decide) rfl (by simp [Spec.InRange, Base.range]) (by simp [Spec.boundedNames, Base.range])
  · exact key .negativeInteger _ (by decide) rfl (by simp [Spec.InRange, Base.range]; omega) (by simp [Spec.boundedNames, Base.range])

theorem decToPython_plain {s : Str} (h : ∀ c ∈ s, Dec.plainChar c = true) :
    decToPython {} s = decConvert s 1 0 := by
  have hne : ∀ c ∈ s, ∀ d, Dec.plainChar d = false → c ≠ d := by
    intro c hc d hd hh
    subst hh
    rw [h c hc] at hd
    simp at hd
  have hnm : ∀ d, Dec.plainChar d = false → d ∉ s := fun d hd hm => hne d hm d hd rfl
  have e1 : 'e' ∉ s := hnm 'e' (by decide)
  have e2 : 'E' ∉ s := hnm 'E' (by decide)
  have e3 : '%' ∉ s := hnm '%' (by decide)
  have e4 : '‰' ∉ s := hnm '‰' (by decide)
  have e5 : Py.contains [',', ','] s = false := by
    cases hh : Py.contains [',', ','] s with
    | false => rfl
    | true =>
      obtain ⟨a, b, hab⟩ := (Py.contains_iff _ _).1 hh
      exact absurd (by rw [hab]; simp) (hnm ',' (by decide))
  have e6 : special s = none := by
    unfold special
    rw [if_neg, if_neg, if_neg]
    · rintro rfl; exact hnm 'N' (by decide) (by decide)
    · rintro rfl; exact hnm 'I' (by decide) (by decide)
    · rintro rfl; exact hnm 'I' (by decide) (by decide)
  simp [decToPython, e1, e2, orStr, e5, charFromPattern, e6, decFactor, e3, e4]

section
variable {ext : Ext} {other : Base → Derived → J → Res Val} {s : DatatypeSpec} {dt : Datatype}

/-- Specification without bounds. -/
structure NoBounds (s : DatatypeSpec) : Prop where
  minimum : s.minimum = .null
  maximum : s.maximum = .null
  minInclusive : s.minInclusive = .null
  maxInclusive : s.maxInclusive = .null
  minExclusive : s.minExclusive = .null
  maxExclusive : s.maxExclusive = .null

theorem boundsOk_of_noBounds (hB : Datatype.Built ext other s dt) (hn : NoBounds s) (v : Val) :
    Datatype.boundsOk ext dt v = .ok () := by
  obtain ⟨d, _, _, h1, h2, h3, h4, h5, h6⟩ := hB.descr
  rw [hn.minimum] at h1
  rw [hn.maximum] at h2
  rw [hn.minInclusive] at h3
  rw [hn.maxInclusive] at h4
  rw [hn.minExclusive] at h5
  rw [hn.maxExclusive] at h6
  simp only [Datatype.parseBound, Except.ok.injEq] at h1 h2 h3 h4 h5 h6
  simp [Datatype.boundsOk, ← h1, ← h2, ← h3, ← h4, ← h5, ← h6, Datatype.check, bind, Except.bind]

theorem int_validate (hB : Datatype.Built ext other s dt) (hn : NoBounds s) (hk : dt.base.kind = .integer) (n : Int) :
    dt.validate ext (.int n) = .ok (.int n) := by
  have hl : dt.base.hasLength = false := by simp [Base.hasLength, hk]
  have hm : dt.base.minmax = true := by simp [Base.minmax, hk]
  unfold Datatype.validate
  simp [hB.lengthOk_of_none hl (v := .int n) (.inr rfl), hm, boundsOk_of_noBounds hB hn, Except.map]

theorem int_read (hB : Datatype.Built ext other s dt) (hn : NoBounds s) (hf : s.format = .null)
    (hk : dt.base.kind = .integer) (x : Str) : dt.read ext x = (intToPython dt.base {} x).map .int := by
  obtain ⟨d, _, ⟨_, -, hfm⟩, _⟩ := hB.descr
  have hfm : dt.format = .null := by rw [hfm]; split <;> simp [hf]
  unfold Datatype.read Datatype.parse Datatype.descr
  simp only [hfm, derived, hk, toPython, numDerived, J.truthy, Bool.false_eq_true, if_false, numFmtOf]
  cases intToPython dt.base {} x with
  | error e => rfl
  | ok n => exact int_validate hB hn hk n

/-- The value of a signed digit string. -/
def signed (neg : Bool) (n : Nat) : Int := if neg then -(n : Int) else n

theorem fin_asInteger (neg : Bool) (m k : Nat) :
    (Dec.fin neg m (k : Int)).asInteger = .ok (some (signed neg (m * 10 ^ k))) := by
  simp [Dec.asInteger, signed]

theorem intToPython_digits (b : Base) (neg : Bool) (ds : Str) (hd : ∀ c ∈ ds, c.isDigit = true) (hne : ds ≠ []) :
    intToPython b {} (Dec.signStr neg ++ ds) =
      match Dec.fix neg (Dec.numeral ds) 0 with
      | .error e => .error e
      | .ok d => match d.asInteger with
        | .error e => .error e
        | .ok none => .error .valueError
        | .ok (some n) => match b.range with
          | none => .ok n
          | some (lo, hi) => if (∀ l ∈ lo, l ≤ n) ∧ (∀ h ∈ hi, n ≤ h) then .ok n else .error .valueError := by
  have hp : Dec.signStr neg ++ ds = Dec.plain neg ds none := by simp [Dec.plain]
  unfold intToPython
  rw [hp, decToPython_plain (Dec.plain_plain hd (by simp))]
  unfold decConvert
  rw [Dec.parse_plain hd (by simp) (by simpa using hne)]
  simp only [Dec.mulConst, Nat.mul_one, Option.getD_none, List.append_nil, List.length_nil]
  rfl

/-- Reading a digit string with value below 10^28 (any number of leading zeros). -/
theorem intToPython_small (b : Base) (neg : Bool) (ds : Str) (hd : ∀ c ∈ ds, c.isDigit = true) (hne : ds ≠ [])
    (hs : Dec.numeral ds < 10 ^ 28) :
    intToPython b {} (Dec.signStr neg ++ ds) = match b.range with
      | none => .ok (signed neg (Dec.numeral ds))
      | some (lo, hi) => if (∀ l ∈ lo, l ≤ signed neg (Dec.numeral ds)) ∧ (∀ h ∈ hi, signed neg (Dec.numeral ds) ≤ h)
        then .ok (signed neg (Dec.numeral ds)) else .error .valueError := by
  rw [intToPython_digits b neg ds hd hne, Dec.fix_exact hs (by decide) (by decide)]
  simp only
  rw [show (0 : Int) = ((0 : Nat) : Int) from rfl, fin_asInteger]
  simp

theorem intText_eq (n : Int) : Spec.intText n = Dec.signStr (decide (n < 0)) ++ Dec.digits n.natAbs := by
  unfold Spec.intText
  cases n with
  | ofNat m =>
    have : ¬ ((Int.ofNat m) < 0) := by simp
    simp only [this, decide_false, Dec.signStr]
    show (Nat.repr m).toList = _
    simp [Dec.digits]
  | negSucc m =>
    have : (Int.negSucc m) < 0 := Int.negSucc_lt_zero m
    simp only [this, decide_true, Dec.signStr]
    show ("-" ++ Nat.repr (m + 1)).toList = _
    simp [Dec.digits]

theorem signed_natAbs (n : Int) : signed (decide (n < 0)) n.natAbs = n := by
  unfold signed
  split <;> simp_all <;> omega

/-- **C18** For every integer datatype (without format), reading the decimal numeral of an integer `n` of less than
29 digits gives `n` if it is in the range of the datatype and a `ValueError` otherwise. -/
theorem C18_numeral {name : String} (hn : name ∈ Spec.intNames) (hb : s.base = .str name.toList)
    (hf : s.format = .null) (hs : NoBounds s) (h : Datatype.construct ext other s = .ok dt)
    (n : Int) (hlt : n.natAbs < 10 ^ 28) :
    (Spec.InRange name n → dt.read ext (Spec.intText n) = .ok (.int n)) ∧
    (¬ Spec.InRange name n → dt.read ext (Spec.intText n) = .error .valueError) := by
  have hB := Datatype.built_of_construct h
  obtain ⟨b, h1, h2, h3, _⟩ := base_of_intName hn
  have hbase : dt.base = b := by
    have := hB.base; rw [hb, h1] at this; simpa using this.symm
  rw [int_read hB hs hf (hbase ▸ h2), hbase, intText_eq,
    intToPython_small b _ _ Dec.isDigit_digits (Dec.digits_ne_nil _) (by simpa using hlt)]
  simp only [Dec.numeral_digits, signed_natAbs]
  have h3 := h3 n
  cases hr : b.range with
  | none => rw [hr] at h3; simp at h3; simp [h3, Except.map]
  | some p =>
    obtain ⟨lo, hi⟩ := p
    rw [hr] at h3
    simp only at h3 ⊢
    constructor
    · intro hin; rw [if_pos (h3.1 hin)]; rfl
    · intro hin; rw [if_neg (fun hh => hin (h3.2 hh))]; rfl

/-- **C18** An optional `+` and leading zeros are accepted: the value of a digit string is read. -/
theorem C18_leading_zeros {name : String} (hn : name ∈ Spec.intNames) (hb : s.base = .str name.toList)
    (hf : s.format = .null) (hs : NoBounds s) (h : Datatype.construct ext other s = .ok dt)
    (k : Nat) (n : Int) (hlt : n.natAbs < 10 ^ 28) (hin : Spec.InRange name n) :
    dt.read ext (Dec.signStr (decide (n < 0)) ++ (List.replicate k '0' ++ Dec.digits n.natAbs)) = .ok (.int n) := by
  have hB := Datatype.built_of_construct h
  obtain ⟨b, h1, h2, h3, _⟩ := base_of_intName hn
  have hbase : dt.base = b := by
    have := hB.base; rw [hb, h1] at this; simpa using this.symm
  have hd : ∀ c ∈ List.replicate k '0' ++ Dec.digits n.natAbs, c.isDigit = true := by
    intro c hc
    rcases List.mem_append.1 hc with hc | hc
    · rw [List.eq_of_mem_replicate hc]; decide
    · exact Dec.isDigit_digits c hc
  rw [int_read hB hs hf (hbase ▸ h2), hbase,
    intToPython_small b _ _ hd (by simp [Dec.digits_ne_nil]) (by rw [Dec.numeral_zeros_append]; simpa using hlt)]
  simp only [Dec.numeral_zeros_append, Dec.numeral_digits, signed_natAbs]
  have h3 := (h3 n).1 hin
  cases hr : b.range with
  | none => simp [Except.map]
  | some p =>
    obtain ⟨lo, hi⟩ := p
    rw [hr] at h3
    simp only at h3 ⊢
    rw [if_pos h3]; rfl

/-- **C18** For the datatypes with two bounds, without any restriction on the size of `n`: reading the numeral of `n`
succeeds iff `n` is in range, and then returns `n`. -/
theorem C18_bounded_exact {name : String} (hn : name ∈ Spec.boundedNames) (hb : s.base = .str name.toList)
    (hf : s.format = .null) (hs : NoBounds s) (h : Datatype.construct ext other s = .ok dt) (n : Int) (v : Val) :
    dt.read ext (Spec.intText n) = .ok v ↔ Spec.InRange name n ∧ v = .int n := by
  have hni : name ∈ Spec.intNames := by
    simp only [Spec.boundedNames, List.mem_cons, List.not_mem_nil, or_false] at hn
    rcases hn with rfl | rfl | rfl | rfl | rfl | rfl | rfl <;> decide
  rcases Nat.lt_or_ge n.natAbs (10 ^ 28) with hlt | hge
  · have := C18_numeral hni hb hf hs h n hlt
    by_cases hin : Spec.InRange name n
    · rw [this.1 hin]; simp [hin, eq_comm]
    · rw [this.2 hin]; simp [hin]
  · have hB := Datatype.built_of_construct h
    obtain ⟨b, h1, h2, h3, h4⟩ := base_of_intName hni
    have hbase : dt.base = b := by
      have := hB.base; rw [hb, h1] at this; simpa using this.symm
    obtain ⟨lo, hi, hr, hlo, hhi⟩ := h4.1 hn
    have hout : ¬ Spec.InRange name n := by
      rw [h3 n, hr]
      simp only [Option.mem_def, Option.some.injEq, forall_eq']
      omega
    simp only [hout, false_and, iff_false]
    rw [int_read hB hs hf (hbase ▸ h2), hbase, intText_eq,
      intToPython_digits b _ _ Dec.isDigit_digits (Dec.digits_ne_nil _)]
    simp only [Dec.numeral_digits]
    rcases Dec.fix_large (neg := decide (n < 0)) hge with he | ⟨m, k, he, hmk⟩
    · rw [he]; simp [Except.map]
    · rw [he]
      simp only [fin_asInteger, hr, Option.mem_def, Option.some.injEq, forall_eq']
      rw [if_neg]
      · simp [Except.map]
      · unfold signed
        have : ((10 ^ 28 : Nat) : Int) ≤ ((m * 10 ^ k : Nat) : Int) := by exact_mod_cast hmk
        split <;> omega

end

/-- **C18** Whatever the format and the string: a value returned by `read` is an `int` in the range of the datatype. -/
theorem C18_returned_in_range {ext : Ext} {other : Base → Derived → J → Res Val} {s : DatatypeSpec} {dt : Datatype}
    {name : String} (hn : name ∈ Spec.intNames) (hb : s.base = .str name.toList)
    (h : Datatype.construct ext other s = .ok dt) (x : Str) (v : Val) (hv : dt.read ext x = .ok v) :
    ∃ n, v = .int n ∧ Spec.InRange name n := by
  have hB := Datatype.built_of_construct h
  obtain ⟨b, h1, h2, h3, _⟩ := base_of_intName hn
  have hbase : dt.base = b := by
    have := hB.base; rw [hb, h1] at this; simpa using this.symm
  unfold Datatype.read at hv
  split at hv
  · simp at hv
  next w hw =>
  have hvw : v = w := by
    unfold Datatype.validate at hv
    split at hv
    · simpa using hv.symm
    · split at hv
      · split at hv
        · cases hbk : Datatype.boundsOk ext dt w with
          | error e => rw [hbk] at hv; simp [Except.map] at hv
          | ok u => rw [hbk] at hv; simp [Except.map] at hv; exact hv.symm
        · simpa using hv.symm
      · simp at hv
  subst hvw
  unfold Datatype.parse at hw
  split at hw
  · simp at hw
  next d hd =>
  simp only [toPython, hbase, h2] at hw
  split at hw
  · simp at hw
  next f hf =>
  cases hi : intToPython b f x with
  | error e => rw [hi] at hw; simp [Except.map] at hw
  | ok n =>
    rw [hi] at hw
    simp only [Except.map, Except.ok.injEq] at hw
    refine ⟨n, hw.symm, (h3 n).2 ?_⟩
    unfold intToPython at hi
    split at hi
    · simp at hi
    next dd hdd =>
    split at hi
    · simp at hi
    · simp at hi
    next m hm =>
    cases hr : b.range with
    | none => trivial
    | some p =>
      obtain ⟨lo, hh⟩ := p
      rw [hr] at hi
      simp only at hi ⊢
      split at hi
      · next hc => simp at hi; subst hi; exact hc
      · simp at hi

/-! ## Lexical forms -/

theorem mem_dropWhile {α : Type} (p : α → Bool) {l : List α} {a : α} (h : a ∈ l) :
    p a = true ∨ a ∈ l.dropWhile p := by
  induction l with
  | nil => simp at h
  | cons b l ih =>
    simp only [List.dropWhile]
    split
    · next hb =>
      rcases List.mem_cons.1 h with rfl | h
      · exact .inl hb
      · exact ih h
    · exact .inr h

theorem mem_strip {s : Str} {c : Char} (h : c ∈ s) : Py.isSpace c = true ∨ c ∈ Py.strip s := by
  rcases mem_dropWhile Py.isSpace h with h | h
  · exact .inl h
  · have h' : c ∈ (s.dropWhile Py.isSpace).reverse := by simpa using h
    rcases mem_dropWhile Py.isSpace h' with h | h
    · exact .inl h
    · exact .inr (by simpa [Py.strip, Py.rstrip, Py.rstripP, Py.lstrip, Py.lstripP] using h)

theorem mapOpt_mem {f : Char → Option Char} {s t : Str} (h : Dec.mapOpt f s = some t) :
    ∀ c ∈ s, ∃ d ∈ t, f c = some d := by
  induction s generalizing t with
  | nil => simp
  | cons c s ih =>
    simp only [Dec.mapOpt] at h
    split at h
    · simp at h
    next b hb =>
    split at h
    · simp at h
    next bs hbs =>
    simp only [Option.some.injEq] at h
    subst h
    intro x hx
    rcases List.mem_cons.1 hx with rfl | hx
    · exact ⟨b, by simp, hb⟩
    · obtain ⟨d, hd, hf⟩ := ih hbs x hx
      exact ⟨d, by simp [hd], hf⟩

theorem mem_partition {sep : Char} {s a b : Str} {f : Bool} (h : Py.partition sep s = (a, f, b)) :
    ∀ c ∈ s, c = sep ∨ c ∈ a ++ b := by
  induction s generalizing a b f with
  | nil => simp
  | cons x s ih =>
    simp only [Py.partition] at h
    split at h
    · next hx =>
      simp only [Prod.mk.injEq] at h
      obtain ⟨rfl, rfl, rfl⟩ := h
      intro c hc
      rcases List.mem_cons.1 hc with rfl | hc
      · exact .inl hx
      · exact .inr (by simpa using hc)
    · next hx =>
      obtain ⟨⟨a', f', b'⟩, hp⟩ : ∃ q, q = Py.partition sep s := ⟨_, rfl⟩
      rw [← hp] at h
      simp only [Prod.mk.injEq] at h
      obtain ⟨rfl, rfl, rfl⟩ := h
      intro c hc
      rcases List.mem_cons.1 hc with rfl | hc
      · exact .inr (by simp)
      · rcases ih hp.symm c hc with h | h
        · exact .inl h
        · exact .inr (by simp only [List.cons_append, List.mem_cons]; exact .inr h)

/-- The characters of a string accepted by `Decimal()` as a finite number. -/
theorem parse_fin_chars {s : Str} {neg : Bool} {c : Nat} {e : Int} (h : Dec.parse s = some (.fin neg c e)) :
    ∀ x ∈ s, Py.isSpace x = true ∨ x = '_' ∨ x = '.' ∨ x = '+' ∨ x = '-' ∨ (Dec.uniDigit x).isSome := by
  unfold Dec.parse at h
  split at h
  · simp at h
  next a ha =>
  have hplain : ∀ x ∈ a, Dec.plainChar x = true := by
    unfold Dec.ofAscii at h
    obtain ⟨⟨sg, r⟩, hs⟩ : ∃ q, q = Dec.takeSign a := ⟨_, rfl⟩
    have hsr : ∀ x ∈ a, x = '-' ∨ x = '+' ∨ x ∈ r := by
      unfold Dec.takeSign at hs
      split at hs
      · cases hs; intro x hx
        rcases List.mem_cons.1 hx with rfl | hx
        · exact .inl rfl
        · exact .inr (.inr hx)
      · cases hs; intro x hx
        rcases List.mem_cons.1 hx with rfl | hx
        · exact .inr (.inl rfl)
        · exact .inr (.inr hx)
      · cases hs; exact fun x hx => .inr (.inr hx)
    rw [← hs] at h
    simp only at h
    split at h
    · simp at h
    split at h
    · simp at h
    split at h
    · simp at h
    obtain ⟨⟨ip, ff, fp⟩, hp⟩ : ∃ q, q = Py.partition '.' r := ⟨_, rfl⟩
    rw [← hp] at h
    simp only at h
    split at h
    · next hall =>
      intro x hx
      rcases hsr x hx with rfl | rfl | hx
      · decide
      · decide
      · rcases mem_partition hp.symm x hx with rfl | hx
        · decide
        · have := List.all_eq_true.1 hall.1 x hx
          simp [Dec.plainChar, this]
    · simp at h
  intro x hx
  rcases mem_strip hx with h1 | h1
  · exact .inl h1
  · by_cases hu : x = '_'
    · exact .inr (.inl hu)
    · obtain ⟨d, hd, hf⟩ := mapOpt_mem ha x (by simp [h1, hu])
      have hpd := hplain d hd
      unfold Dec.asciiChar at hf
      split at hf
      · simp only [Option.some.injEq] at hf
        subst hf
        simp only [Dec.plainChar, Bool.or_eq_true, decide_eq_true_eq] at hpd
        rcases hpd with ((h | h) | h) | h
        · have hr := (Dec.isDigit_iff x).1 h
          refine .inr (.inr (.inr (.inr (.inr ?_))))
          simp [Dec.uniDigit, Dec.ndZeros, List.find?, hr.1, show x.toNat < 58 by omega]
        · exact .inr (.inr (.inl h))
        · exact .inr (.inr (.inr (.inr (.inl h))))
        · exact .inr (.inr (.inr (.inl h)))
      · split at hf
        · exact .inl (by assumption)
        · cases hu : Dec.uniDigit x with
          | none => rw [hu] at hf; simp at hf
          | some k => simp

/-- **C18** (part of "no other lexical form is accepted") With no format, a string accepted for an integer datatype consists of
decimal digits, signs, decimal points, underscores, percent or permille signs and whitespace only. -/
theorem C18_lexical_chars {ext : Ext} {other : Base → Derived → J → Res Val} {s : DatatypeSpec} {dt : Datatype}
    {name : String} (hn : name ∈ Spec.intNames) (hb : s.base = .str name.toList) (hf : s.format = .null)
    (hs : NoBounds s) (h : Datatype.construct ext other s = .ok dt) (x : Str) (v : Val) (hv : dt.read ext x = .ok v) :
    ∀ c ∈ x, Py.isSpace c = true ∨ c ∈ "_.+-%‰".toList ∨ (Dec.uniDigit c).isSome := by
  have hB := Datatype.built_of_construct h
  obtain ⟨b, h1, h2, h3, _⟩ := base_of_intName hn
  have hbase : dt.base = b := by
    have := hB.base; rw [hb, h1] at this; simpa using this.symm
  rw [int_read hB hs hf (hbase ▸ h2)] at hv
  cases hi : intToPython dt.base {} x with
  | error e => rw [hi] at hv; simp [Except.map] at hv
  | ok n =>
    have hd : ∃ neg c e, decToPython {} x = .ok (.fin neg c e) := by
      unfold intToPython at hi
      split at hi
      · simp at hi
      next d hd =>
      cases d with
      | fin neg c e => exact ⟨neg, c, e, hd⟩
      | inf neg => simp [Dec.asInteger] at hi
      | nan a b c => simp [Dec.asInteger] at hi
    obtain ⟨neg, c, e, hd⟩ := hd
    have hconv : ∀ (y : Str) (k : Int), decConvert y 1 k = .ok (.fin neg c e) →
        ∀ x ∈ y, Py.isSpace x = true ∨ x = '_' ∨ x = '.' ∨ x = '+' ∨ x = '-' ∨ (Dec.uniDigit x).isSome := by
      intro y k hy
      unfold decConvert at hy
      split at hy
      · simp at hy
      next d hdp =>
      cases d with
      | fin n' c' e' => exact parse_fin_chars hdp
      | inf n' => simp [Dec.mulConst] at hy
      | nan n' sg p => cases sg <;> simp [Dec.mulConst] at hy
    simp only [decToPython, charFromPattern, Option.getD_none] at hd
    split at hd
    · simp at hd
    split at hd
    · simp at hd
    simp only [List.contains_nil, Bool.false_eq_true, if_false, Option.getD_none] at hd
    split at hd
    · next d hsp =>
      unfold special at hsp
      simp only [Except.ok.injEq] at hd
      subst hd
      split at hsp
      · simp at hsp
      · split at hsp
        · simp at hsp
        · split at hsp <;> simp at hsp
    · have fin : ∀ c, (Py.isSpace c = true ∨ c = '_' ∨ c = '.' ∨ c = '+' ∨ c = '-' ∨ (Dec.uniDigit c).isSome) →
          Py.isSpace c = true ∨ c ∈ "_.+-%‰".toList ∨ (Dec.uniDigit c).isSome := by
        rintro c (h | rfl | rfl | rfl | rfl | h)
        · exact .inl h
        · exact .inr (.inl (by decide))
        · exact .inr (.inl (by decide))
        · exact .inr (.inl (by decide))
        · exact .inr (.inl (by decide))
        · exact .inr (.inr h)
      unfold decFactor at hd
      intro c hc
      split at hd
      · by_cases h' : c = '%'
        · subst h'; exact .inr (.inl (by decide))
        · exact fin c (hconv _ _ hd c (by simp [hc, h']))
      · split at hd
        · by_cases h' : c = '‰'
          · subst h'; exact .inr (.inl (by decide))
          · exact fin c (hconv _ _ hd c (by simp [hc, h']))
        · exact fin c (hconv _ _ hd c hc)

/-- **C18 does not hold**: other lexical forms than the numerals are accepted, e.g. `1.0`, `1_0`, `900%`, ` 7 ` for
`unsignedByte` (the documentation says the decimal point is forbidden). -/
theorem C18_lexical_violated (ext : Ext) :
    Datatype.read ext { base := .unsignedByte } "1.0".toList = .ok (.int 1) ∧
    Datatype.read ext { base := .unsignedByte } "1_0".toList = .ok (.int 10) ∧
    Datatype.read ext { base := .unsignedByte } "900%".toList = .ok (.int 9) ∧
    Datatype.read ext { base := .unsignedByte } " 7 ".toList = .ok (.int 7) := by
  refine ⟨rfl, rfl, rfl, rfl⟩

/-- **C18 does not hold** for large numbers and unbounded types: the numeral of 10^28+1 is read as 10^28. -/
theorem C18_large_violated (ext : Ext) :
    Datatype.read ext { base := .nonNegativeInteger } (Spec.intText (10 ^ 28 + 1)) = .ok (.int (10 ^ 28)) := by
  rw [show Spec.intText (10 ^ 28 + 1) = "10000000000000000000000000001".toList by decide +kernel]
  rfl

/-- Not even a `ValueError` is raised for `INF`: `OverflowError`. -/
theorem C18_inf_violated (ext : Ext) :
    Datatype.read ext { base := .integer } "INF".toList = .error .overflowError := rfl

/-! ## C19 -/

theorem ndigits_sig {m k : Nat} : m < 10 ^ 28 → Dec.ndigits (m * 10 ^ k) ≤ 28 + k := by
  intro h
  rw [Dec.ndigits_le (by omega), Nat.pow_add]
  exact Nat.mul_lt_mul_of_pos_right h (Nat.pow_pos (by decide))

/-- The coefficient of a rounded number has at most 28 digits. -/
theorem fix_coef_lt {neg : Bool} {c : Nat} {e : Int} {m : Nat} {k : Int} (h : Dec.fix neg c e = .ok (.fin neg m k)) :
    m < 10 ^ 28 := by
  unfold Dec.fix at h
  by_cases h0 : c = 0
  · simp [h0] at h
    obtain ⟨rfl, _⟩ := h
    decide
  · simp only [h0, if_false] at h
    split at h
    · simp at h
    split at h
    · split at h
      · next hp =>
        split at h
        · simp at h
        · simp only [Except.ok.injEq, Dec.fin.injEq] at h
          obtain ⟨_, rfl, _⟩ := h
          generalize hE : max ((Dec.ndigits c : Int) + e - Dec.prec) Dec.etiny = E at *
          rename_i hlt hlt2
          have hck : c < 10 ^ (28 + (E - e).toNat) := by
            have : Dec.ndigits c ≤ 28 + (E - e).toNat := by
              have : (Dec.ndigits c : Int) + e - 28 ≤ E := by rw [← hE]; exact Int.le_max_left _ _
              clear hp
              omega
            exact (Dec.ndigits_le (by omega)).1 this
          have hq : c / 10 ^ (E - e).toNat < 10 ^ 28 := by
            rw [Nat.div_lt_iff_lt_mul (Nat.pow_pos (by decide)), ← Nat.pow_add]; exact hck
          have hr : Dec.roundHE c (E - e).toNat ≤ 10 ^ 28 := by
            unfold Dec.roundHE; simp only; split <;> omega
          omega
      · next hp =>
        split at h
        · simp at h
        · simp only [Except.ok.injEq, Dec.fin.injEq] at h
          obtain ⟨_, rfl, _⟩ := h
          exact (Dec.ndigits_le (by decide)).1 (Nat.not_lt.1 hp)
    · next hlt =>
      simp only [Except.ok.injEq, Dec.fin.injEq] at h
      obtain ⟨_, rfl, _⟩ := h
      have : Dec.ndigits c ≤ 28 := by
        simp only [Dec.prec, Dec.etiny] at hlt; omega
      exact (Dec.ndigits_le (by decide)).1 this

/-- Rounding to 28 digits is exact for numbers with at most 28 significant digits. -/
theorem fix_sig {neg : Bool} {m k : Nat} (hm : m < 10 ^ 28) (hd : Dec.ndigits (m * 10 ^ k) ≤ 1000000) :
    ∃ m' k' : Nat, Dec.fix neg (m * 10 ^ k) 0 = .ok (.fin neg m' (k' : Int)) ∧ m' * 10 ^ k' = m * 10 ^ k := by
  obtain ⟨c, hc⟩ : ∃ c, c = m * 10 ^ k := ⟨_, rfl⟩
  rw [← hc] at hd ⊢
  by_cases hs : c < 10 ^ 28
  · exact ⟨c, 0, Dec.fix_exact hs (by decide) (by decide), by simp⟩
  have h28 : 28 < Dec.ndigits c := by
    rcases Nat.lt_or_ge 28 (Dec.ndigits c) with h | h
    · exact h
    · exact absurd ((Dec.ndigits_le (by decide)).1 h) hs
  have h0 : c ≠ 0 := by rintro h; rw [h] at hs; exact hs (by decide)
  have hj : Dec.ndigits c - 28 ≤ k := by
    have := ndigits_sig (m := m) (k := k) hm
    rw [← hc] at this; omega
  obtain ⟨j, hj'⟩ : ∃ j, j = Dec.ndigits c - 28 := ⟨_, rfl⟩
  have hcj : c = (m * 10 ^ (k - j)) * 10 ^ j := by
    rw [hc, Nat.mul_assoc, ← Nat.pow_add]; congr 2; omega
  unfold Dec.fix
  simp only [h0, if_false]
  rw [if_neg (by simp only [Dec.prec, Dec.etop, Dec.emax]; omega)]
  have hmax : max ((Dec.ndigits c : Int) + 0 - Dec.prec) Dec.etiny = (j : Int) := by
    simp only [Dec.etiny, Dec.prec]; omega
  rw [hmax, if_pos (by omega)]
  have hjn : ((j : Int) - 0).toNat = j := by omega
  rw [hjn, hcj, Dec.roundHE_exact]
  have hnd : ¬ (Dec.ndigits (m * 10 ^ (k - j)) > Dec.prec) := by
    have : m * 10 ^ (k - j) < 10 ^ 28 := by
      have h1 : c < 10 ^ (28 + j) := (Dec.ndigits_le (by omega)).1 (by omega)
      rw [hcj, Nat.pow_add] at h1
      exact Nat.lt_of_mul_lt_mul_right h1
    have := (Dec.ndigits_le (n := m * 10 ^ (k - j)) (k := 28) (by decide)).2 this
    simp only [Dec.prec]; omega
  simp only [hnd, if_false]
  rw [if_neg (by simp only [Dec.etop, Dec.emax, Dec.prec]; omega)]
  exact ⟨_, j, rfl, rfl⟩

theorem int_formatted {ext : Ext} {other : Base → Derived → J → Res Val} {s : DatatypeSpec} {dt : Datatype}
    (hB : Datatype.Built ext other s dt) (hf : s.format = .null)
    (hk : dt.base.kind = .integer) (n : Int) :
    dt.formatted ext (.int n) = if 4300 < Dec.ndigits n.natAbs then .error .valueError else .ok (Spec.intText n) := by
  obtain ⟨d, _, ⟨_, -, hfm⟩, _⟩ := hB.descr
  have hfm : dt.format = .null := by rw [hfm]; split <;> simp [hf]
  unfold Datatype.formatted Datatype.descr
  simp only [hfm, derived, hk, toText, numDerived, J.truthy, Bool.false_eq_true, if_false, numFmtOf]
  unfold decToString
  have hI : Spec.intText n = Dec.intStr false n := by rw [intText_eq]; simp [Dec.intStr]
  have hpl : ∀ c ∈ Spec.intText n, Dec.plainChar c = true := by
    rw [intText_eq]
    have : Dec.signStr (decide (n < 0)) ++ Dec.digits n.natAbs = Dec.plain (decide (n < 0)) (Dec.digits n.natAbs) none := by
      simp [Dec.plain]
    rw [this]
    exact Dec.plain_plain Dec.isDigit_digits (by simp)
  have hrs : reverseSpecial (numStr false (.int n)) = none := by
    simp only [numStr, ← hI]
    have hno : ∀ d, Dec.plainChar d = false → d ∉ Spec.intText n := by
      intro d hd hm; rw [hpl d hm] at hd; simp at hd
    unfold reverseSpecial
    rw [if_neg, if_neg, if_neg]
    · intro h; exact hno 'N' (by decide) (by rw [h]; decide)
    · intro h; exact hno 'I' (by decide) (by rw [h]; decide)
    · intro h; exact hno 'I' (by decide) (by rw [h]; decide)
  have hE : 'E' ∉ Spec.intText n := by
    intro h; have := hpl _ h; revert this; decide
  have htl : tooLong (.int n) = decide (4300 < Dec.ndigits n.natAbs) := rfl
  by_cases hl : 4300 < Dec.ndigits n.natAbs
  · rw [if_pos hl, if_pos (by rw [htl]; exact decide_eq_true hl)]
  · rw [if_neg hl, if_neg (by rw [htl]; simpa using hl), hrs]
    simp only [Option.getD_none, numNeg, numStr, Option.isSome_none, ← hI, decPlain, Dec.partition_none hE, substSeps]
    simp

/-- **C19** (exact) For every datatype `integer` without format and every `int` `n`: reading the formatted number gives
`n` back if and only if `n` has at most 28 significant digits (and not more than 4300 digits, Python's limit for
formatting). -/
theorem C19_roundtrip_iff {ext : Ext} {other : Base → Derived → J → Res Val} {s : DatatypeSpec} {dt : Datatype}
    (hb : s.base = .str "integer".toList) (hf : s.format = .null)
    (hs : NoBounds s) (h : Datatype.construct ext other s = .ok dt) (n : Int) :
    (∃ x, dt.formatted ext (.int n) = .ok x ∧ dt.read ext x = .ok (.int n)) ↔
      Spec.SigDigits 28 n ∧ n.natAbs < 10 ^ 4300 := by
  have hB := Datatype.built_of_construct h
  have hbase : dt.base = .integer := by
    have := hB.base
    rw [hb, show Datatype.convBase (.str "integer".toList) = .ok .integer by decide] at this
    simpa using this.symm
  have hk : dt.base.kind = .integer := by rw [hbase]; rfl
  have hlen : Dec.ndigits n.natAbs ≤ 4300 ↔ n.natAbs < 10 ^ 4300 := Dec.ndigits_le (by decide)
  have hread : dt.read ext (Spec.intText n) = (match Dec.fix (decide (n < 0)) n.natAbs 0 with
      | .error e => .error e
      | .ok d => match d.asInteger with
        | .error e => .error e
        | .ok none => .error .valueError
        | .ok (some n) => .ok n : Res Int).map .int := by
    rw [int_read hB hs hf hk, intText_eq, intToPython_digits _ _ _ Dec.isDigit_digits (Dec.digits_ne_nil _), hbase]
    simp only [Dec.numeral_digits]
    rfl
  rw [int_formatted hB hf hk]
  by_cases hlong : 4300 < Dec.ndigits n.natAbs
  · rw [if_pos hlong]
    have : ¬ (n.natAbs < 10 ^ 4300) := fun hh => by have := hlen.2 hh; omega
    simp [this]
  rw [if_neg hlong]
  have hshort : n.natAbs < 10 ^ 4300 := hlen.1 (by omega)
  simp only [Except.ok.injEq, exists_eq_left', hshort, and_true]
  rw [hread]
  constructor
  · intro hr
    cases hfx : Dec.fix (decide (n < 0)) n.natAbs 0 with
    | error e => rw [hfx] at hr; simp [Except.map] at hr
    | ok d =>
      rw [hfx] at hr
      obtain ⟨m, k, rfl⟩ := Dec.fix_ok_neg hfx
      have hm := fix_coef_lt hfx
      simp only at hr
      by_cases hk0 : 0 ≤ k
      · obtain ⟨j, rfl⟩ := Int.eq_ofNat_of_zero_le hk0
        rw [fin_asInteger] at hr
        simp only [Except.map, Except.ok.injEq, Val.int.injEq] at hr
        refine ⟨m, j, hm, ?_⟩
        rw [← hr]
        unfold signed; split <;> simp only [Int.natAbs_neg, Int.natAbs_natCast]
      · simp only [Dec.asInteger, hk0, if_false] at hr
        by_cases hmod : m % 10 ^ k.natAbs = 0
        · rw [if_pos hmod] at hr
          simp only [Except.map, Except.ok.injEq, Val.int.injEq] at hr
          refine ⟨m / 10 ^ k.natAbs, 0, Nat.lt_of_le_of_lt (Nat.div_le_self _ _) hm, ?_⟩
          rw [← hr, Nat.pow_zero, Nat.mul_one]
          split <;> simp only [Int.natAbs_neg, Int.natAbs_natCast]
        · rw [if_neg hmod] at hr; simp [Except.map] at hr
  · rintro ⟨m, e, hm, hme⟩
    obtain ⟨m', k', hfx, heq⟩ := fix_sig (neg := decide (n < 0)) (k := e) hm (by rw [← hme]; omega)
    rw [hme, hfx]
    simp only [fin_asInteger, heq, ← hme, signed_natAbs]
    rfl

/-- **C19** Round-trip of all integers below 10^28 in absolute value. -/
theorem C19_roundtrip_small {ext : Ext} {other : Base → Derived → J → Res Val} {s : DatatypeSpec} {dt : Datatype}
    (hb : s.base = .str "integer".toList) (hf : s.format = .null)
    (hs : NoBounds s) (h : Datatype.construct ext other s = .ok dt) (n : Int) (hn : n.natAbs < 10 ^ 28) :
    ∃ x, dt.formatted ext (.int n) = .ok x ∧ dt.read ext x = .ok (.int n) :=
  (C19_roundtrip_iff hb hf hs h n).2 ⟨⟨n.natAbs, 0, hn, by simp⟩,
    Nat.lt_of_lt_of_le hn (Nat.pow_le_pow_right (by decide) (by decide))⟩

/-- **C18** (exact) For every integer datatype and every integer `n` of up to 4300 digits: the numeral of `n` is read as `n` if
and only if `n` is in the range of the datatype and has at most 28 significant digits. -/
theorem C18_numeral_iff {ext : Ext} {other : Base → Derived → J → Res Val} {s : DatatypeSpec} {dt : Datatype}
    {name : String} (hn : name ∈ Spec.intNames) (hb : s.base = .str name.toList)
    (hf : s.format = .null) (hs : NoBounds s) (h : Datatype.construct ext other s = .ok dt) (n : Int)
    (hlt : n.natAbs < 10 ^ 4300) :
    dt.read ext (Spec.intText n) = .ok (.int n) ↔ Spec.InRange name n ∧ Spec.SigDigits 28 n := by
  have hB := Datatype.built_of_construct h
  obtain ⟨b, h1, h2, h3, _⟩ := base_of_intName hn
  have hbase : dt.base = b := by
    have := hB.base; rw [hb, h1] at this; simpa using this.symm
  have h0 : Datatype.construct ext other (plainSpec "integer") = .ok { base := .integer } := rfl
  have hB0 := Datatype.built_of_construct h0
  have hns : NoBounds (plainSpec "integer") := ⟨rfl, rfl, rfl, rfl, rfl, rfl⟩
  have hlen : Dec.ndigits n.natAbs ≤ 4300 := (Dec.ndigits_le (by decide)).2 hlt
  have h19 := C19_roundtrip_iff rfl rfl hns h0 n
  rw [int_formatted hB0 rfl rfl, if_neg (by omega)] at h19
  simp only [Except.ok.injEq, exists_eq_left', hlt, and_true] at h19
  rw [int_read hB0 hns rfl rfl] at h19
  rw [← h19, int_read hB hs hf (hbase ▸ h2), hbase, h3 n]
  unfold intToPython
  cases decToPython {} (Spec.intText n) with
  | error e => simp [Except.map]
  | ok d =>
    simp only
    cases d.asInteger with
    | error e => simp [Except.map]
    | ok o =>
      cases o with
      | none => simp [Except.map]
      | some m =>
        simp only [show Base.range .integer = none from rfl]
        cases b.range with
        | none => simp [Except.map]
        | some p =>
          obtain ⟨lo, hi⟩ := p
          simp only
          split
          · next hc =>
            simp only [Except.map, Except.ok.injEq, Val.int.injEq]
            constructor
            · rintro rfl; exact ⟨hc, rfl⟩
            · exact fun hh => hh.2
          · next hc =>
            simp only [Except.map, Except.ok.injEq, Val.int.injEq]
            constructor
            · intro hh; cases hh
            · rintro ⟨hh, rfl⟩; exact absurd hh hc

/-- **C19 does not hold** for larger numbers: 10^28+1 is formatted correctly, but read as 10^28. -/
theorem C19_violated (ext : Ext) :
    ∃ x, Datatype.formatted ext { base := .integer } (.int (10 ^ 28 + 1)) = .ok x ∧
      Datatype.read ext { base := .integer } x = .ok (.int (10 ^ 28)) := ⟨"10000000000000000000000000001".toList, rfl, rfl⟩

/-- The hypotheses are met: `Datatype(base=name)` is constructed for every integer datatype. -/
example (ext : Ext) (other : Base → Derived → J → Res Val) :
    ∃ dt, Datatype.construct ext other (plainSpec "unsignedByte") = .ok dt ∧ dt.base = .unsignedByte := ⟨_, rfl, rfl⟩
example (ext : Ext) (other : Base → Derived → J → Res Val) :
    ∃ dt, Datatype.construct ext other (plainSpec "integer") = .ok dt ∧ dt.base = .integer := ⟨_, rfl, rfl⟩
example : NoBounds (plainSpec "long") := ⟨rfl, rfl, rfl, rfl, rfl, rfl⟩
example : "unsignedByte" ∈ Spec.boundedNames := by decide
example : Spec.intText (-128) = "-128".toList := by decide

end Csvw.Props

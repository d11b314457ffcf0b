import Verif.Props.C18_C19
import Verif.Props.C22_C25
/-!
# C26, C27: constraints of datatypes
-/

namespace Csvw.Props
open Datatypes

section
variable {ext : Ext} {other : Base → Derived → J → Res Val} {s : DatatypeSpec} {dt : Datatype}

/-! ## C26 -/

/-- No comparison with a bound of the datatype fails: `not v < minimum`, … -/
structure WithinBounds (ext : Ext) (dt : Datatype) (v : Val) : Prop where
  minimum : ∀ m ∈ dt.minimum, v.lt ext m = .ok false
  minInclusive : ∀ m ∈ dt.minInclusive, v.lt ext m = .ok false
  minExclusive : ∀ m ∈ dt.minExclusive, v.le ext m = .ok false
  maximum : ∀ m ∈ dt.maximum, m.lt ext v = .ok false
  maxInclusive : ∀ m ∈ dt.maxInclusive, m.lt ext v = .ok false
  maxExclusive : ∀ m ∈ dt.maxExclusive, m.le ext v = .ok false

theorem check_ok {b : Option Val} {f : Val → Res Bool} : Datatype.check b f = .ok () ↔ ∀ m ∈ b, f m = .ok false := by
  unfold Datatype.check
  cases b with
  | none => simp
  | some m =>
    simp only [Option.mem_def, Option.some.injEq, forall_eq']
    cases h : f m with
    | error e => simp
    | ok x => cases x <;> simp

theorem check_err {b : Option Val} {f : Val → Res Bool} {e : PyErr} (h : Datatype.check b f = .error e) :
    ∃ m, b = some m ∧ (f m = .error e ∨ (f m = .ok true ∧ e = .valueError)) := by
  unfold Datatype.check at h
  cases b with
  | none => simp at h
  | some m =>
    refine ⟨m, rfl, ?_⟩
    simp only at h
    split at h
    · next e' he => left; rw [he]; simpa using h
    · next he => right; exact ⟨he, by simpa using h.symm⟩
    · simp at h

theorem seq_ok {a : Res Unit} {b : Res Unit} : (do a; b) = .ok () ↔ a = .ok () ∧ b = .ok () := by
  cases a with
  | error e => simp [bind, Except.bind]
  | ok u => simp [bind, Except.bind]

theorem boundsOk_iff (v : Val) : Datatype.boundsOk ext dt v = .ok () ↔ WithinBounds ext dt v := by
  unfold Datatype.boundsOk
  simp only [seq_ok, check_ok]
  constructor
  · rintro ⟨h1, h2, h3, h4, h5, h6⟩; exact ⟨h1, h2, h3, h4, h5, h6⟩
  · rintro ⟨h1, h2, h3, h4, h5, h6⟩; exact ⟨h1, h2, h3, h4, h5, h6⟩

/-- The kind of the base of a datatype with minimum and maximum has no length. -/
theorem noLen_of_minmax {b : Base} (h : b.minmax = true) : b.hasLength = false := by
  revert h; cases b <;> decide

/-- The values of a datatype with minimum and maximum have no length. -/
theorem parse_noLen (h : dt.base.minmax = true) {x : Str} {v : Val} (hp : dt.parse ext x = .ok v) : v.len? = none ∧ v ≠ .none := by
  unfold Datatype.parse at hp
  split at hp
  · simp at hp
  · next d hd =>
    clear hd
    unfold toPython at hp
    unfold Base.minmax at h
    have mapok : ∀ {α : Type} {r : Res α} {f : α → Val}, r.map f = .ok v → ∃ a, v = f a := by
      intro α r f h
      cases r with
      | error e => simp [Except.map] at h
      | ok a => exact ⟨a, by simpa [Except.map] using h.symm⟩
    cases hk : dt.base.kind <;> simp only [hk, Bool.false_eq_true] at h hp
    all_goals
      split at hp <;> first
        | (obtain ⟨a, rfl⟩ := mapok hp; exact ⟨rfl, by simp⟩)
        | simp at hp
        | skip
    repeat' split at hp
    all_goals first
      | (simp at hp; subst hp; exact ⟨rfl, by simp⟩)
      | simp at hp

/-- **C26** (ordered types) For every numeric, date or time datatype: `read(x)` returns `v` if and only if `v` is the value parsed
from `x` and no comparison with a bound fails. -/
theorem C26_read_iff (h : Datatype.construct ext other s = .ok dt) (hm : dt.base.minmax = true) (x : Str) (v : Val) :
    dt.read ext x = .ok v ↔ dt.parse ext x = .ok v ∧ WithinBounds ext dt v := by
  have hB := Datatype.built_of_construct h
  unfold Datatype.read
  cases hp : dt.parse ext x with
  | error e => simp
  | ok w =>
    obtain ⟨hl, hn⟩ := parse_noLen hm hp
    have hv : dt.validate ext w = (dt.boundsOk ext w).map fun _ => w := by
      unfold Datatype.validate
      rw [if_neg hn, hB.lengthOk_of_none (noLen_of_minmax hm) (.inr hl), if_pos rfl, hm, if_pos rfl]
    simp only [Except.ok.injEq, hv]
    constructor
    · intro hr
      cases hb : dt.boundsOk ext w with
      | error e => rw [hb] at hr; simp [Except.map] at hr
      | ok u =>
        rw [hb] at hr
        simp only [Except.map, Except.ok.injEq] at hr
        subst hr
        exact ⟨rfl, (boundsOk_iff _).1 hb⟩
    · rintro ⟨rfl, hw⟩
      rw [(boundsOk_iff _).2 hw]
      rfl

/-- The names of the integer datatypes. -/
def integerTypes : List String :=
  ["integer", "int", "unsignedInt", "unsignedShort", "unsignedLong", "unsignedByte", "short", "long", "byte",
   "nonNegativeInteger", "positiveInteger", "nonPositiveInteger", "negativeInteger"]

theorem integer_kind {t : String} (ht : t ∈ integerTypes) : ∃ b, Datatype.convBase (.str t.toList) = .ok b ∧ b.kind = .integer := by
  simp only [integerTypes, List.mem_cons, List.not_mem_nil, or_false] at ht
  rcases ht with rfl | rfl | rfl | rfl | rfl | rfl | rfl | rfl | rfl | rfl | rfl | rfl | rfl
  · exact ⟨.integer, by decide, rfl⟩
  · exact ⟨.int, by decide, rfl⟩
  · exact ⟨.unsignedInt, by decide, rfl⟩
  · exact ⟨.unsignedShort, by decide, rfl⟩
  · exact ⟨.unsignedLong, by decide, rfl⟩
  · exact ⟨.unsignedByte, by decide, rfl⟩
  · exact ⟨.short, by decide, rfl⟩
  · exact ⟨.long, by decide, rfl⟩
  · exact ⟨.byte, by decide, rfl⟩
  · exact ⟨.nonNegativeInteger, by decide, rfl⟩
  · exact ⟨.positiveInteger, by decide, rfl⟩
  · exact ⟨.nonPositiveInteger, by decide, rfl⟩
  · exact ⟨.negativeInteger, by decide, rfl⟩

/-- The bounds are given as strings (or not at all). -/
def StrBounds (s : DatatypeSpec) : Prop :=
  ∀ j ∈ [s.minimum, s.maximum, s.minInclusive, s.maxInclusive, s.minExclusive, s.maxExclusive], j = .null ∨ ∃ x, j = .str x

/-- The integer `n` lies within the bounds of the datatype. -/
structure IntWithin (dt : Datatype) (n : Int) : Prop where
  minimum : ∀ m, dt.minimum = some (.int m) → m ≤ n
  minInclusive : ∀ m, dt.minInclusive = some (.int m) → m ≤ n
  minExclusive : ∀ m, dt.minExclusive = some (.int m) → m < n
  maximum : ∀ m, dt.maximum = some (.int m) → n ≤ m
  maxInclusive : ∀ m, dt.maxInclusive = some (.int m) → n ≤ m
  maxExclusive : ∀ m, dt.maxExclusive = some (.int m) → n < m

theorem intParse_int (hk : dt.base.kind = .integer) {d : Derived} {x : Str} {v : Val}
    (h : toPython ext dt.base d x = .ok v) : ∃ n, v = .int n := by
  unfold toPython at h
  simp only [hk] at h
  split at h
  · simp at h
  · next f _ =>
    cases hi : intToPython dt.base f x with
    | error e => rw [hi] at h; simp [Except.map] at h
    | ok n => rw [hi] at h; exact ⟨n, by simpa [Except.map] using h.symm⟩

theorem bound_int (hk : dt.base.kind = .integer) {d : Derived} {j : J} (hj : j = .null ∨ ∃ x, j = .str x) {o : Option Val}
    (h : Datatype.parseBound ext other dt.base d j = .ok o) : ∀ v ∈ o, ∃ n, v = .int n := by
  rcases hj with rfl | ⟨x, rfl⟩
  · simp only [Datatype.parseBound, Except.ok.injEq] at h
    subst h
    simp
  · simp only [Datatype.parseBound, Datatype.parseJ] at h
    cases hp : toPython ext dt.base d x with
    | error e => rw [hp] at h; simp [Except.map] at h
    | ok v =>
      rw [hp] at h
      simp only [Except.map, Except.ok.injEq] at h
      subst h
      intro w hw
      simp only [Option.mem_def, Option.some.injEq] at hw
      subst hw
      exact intParse_int hk hp

theorem within_int_lt {o : Option Val} (ho : ∀ v ∈ o, ∃ n, v = .int n) (n : Int) :
    (∀ m ∈ o, Val.lt ext (.int n) m = .ok false) ↔ ∀ m, o = some (.int m) → m ≤ n := by
  cases o with
  | none => simp
  | some v =>
    obtain ⟨k, rfl⟩ := ho v rfl
    simp [Val.lt]

theorem within_int_le {o : Option Val} (ho : ∀ v ∈ o, ∃ n, v = .int n) (n : Int) :
    (∀ m ∈ o, Val.le ext (.int n) m = .ok false) ↔ ∀ m, o = some (.int m) → m < n := by
  cases o with
  | none => simp
  | some v =>
    obtain ⟨k, rfl⟩ := ho v rfl
    simp [Val.le, Val.lt, Except.map]

theorem within_int_gt {o : Option Val} (ho : ∀ v ∈ o, ∃ n, v = .int n) (n : Int) :
    (∀ m ∈ o, Val.lt ext m (.int n) = .ok false) ↔ ∀ m, o = some (.int m) → n ≤ m := by
  cases o with
  | none => simp
  | some v =>
    obtain ⟨k, rfl⟩ := ho v rfl
    simp [Val.lt]

theorem within_int_ge {o : Option Val} (ho : ∀ v ∈ o, ∃ n, v = .int n) (n : Int) :
    (∀ m ∈ o, Val.le ext m (.int n) = .ok false) ↔ ∀ m, o = some (.int m) → n < m := by
  cases o with
  | none => simp
  | some v =>
    obtain ⟨k, rfl⟩ := ho v rfl
    simp [Val.le, Val.lt, Except.map]

/-- **C26** (integers) For every integer datatype, whose bounds were given as strings: `read(x)` returns `n` if and only if `n` is
the number parsed from `x` and lies within all the bounds. -/
theorem C26_integer_iff {t : String} (ht : t ∈ integerTypes) (hb : s.base = .str t.toList) (hsb : StrBounds s)
    (h : Datatype.construct ext other s = .ok dt) (x : Str) (n : Int) :
    dt.read ext x = .ok (.int n) ↔ dt.parse ext x = .ok (.int n) ∧ IntWithin dt n := by
  have hB := Datatype.built_of_construct h
  obtain ⟨b, hcb, hbk⟩ := integer_kind ht
  have hbase := base_of hB (b := b) (by rw [hb]; exact hcb)
  have hk : dt.base.kind = .integer := by rw [hbase]; exact hbk
  rw [C26_read_iff h (by simp [Base.minmax, hk])]
  obtain ⟨d, _, _, h1, h2, h3, h4, h5, h6⟩ := hB.descr
  have h1 := bound_int hk (hsb _ (by simp)) h1
  have h2 := bound_int hk (hsb _ (by simp)) h2
  have h3 := bound_int hk (hsb _ (by simp)) h3
  have h4 := bound_int hk (hsb _ (by simp)) h4
  have h5 := bound_int hk (hsb _ (by simp)) h5
  have h6 := bound_int hk (hsb _ (by simp)) h6
  have : WithinBounds ext dt (.int n) ↔ IntWithin dt n := by
    constructor
    · rintro ⟨a1, a2, a3, a4, a5, a6⟩
      exact ⟨(within_int_lt h1 n).1 a1, (within_int_lt h3 n).1 a2, (within_int_le h5 n).1 a3, (within_int_gt h2 n).1 a4,
        (within_int_gt h4 n).1 a5, (within_int_ge h6 n).1 a6⟩
    · rintro ⟨a1, a2, a3, a4, a5, a6⟩
      exact ⟨(within_int_lt h1 n).2 a1, (within_int_lt h3 n).2 a2, (within_int_le h5 n).2 a3, (within_int_gt h2 n).2 a4,
        (within_int_gt h4 n).2 a5, (within_int_ge h6 n).2 a6⟩
  rw [this]

/-- The finite decimal number `q` lies within the finite bounds of the datatype. -/
structure DecWithin (dt : Datatype) (q : Rat) : Prop where
  minimum : ∀ n c e, dt.minimum = some (.dec (.fin n c e)) → Dec.value (.fin n c e) ≤ q
  minInclusive : ∀ n c e, dt.minInclusive = some (.dec (.fin n c e)) → Dec.value (.fin n c e) ≤ q
  minExclusive : ∀ n c e, dt.minExclusive = some (.dec (.fin n c e)) → Dec.value (.fin n c e) < q
  maximum : ∀ n c e, dt.maximum = some (.dec (.fin n c e)) → q ≤ Dec.value (.fin n c e)
  maxInclusive : ∀ n c e, dt.maxInclusive = some (.dec (.fin n c e)) → q ≤ Dec.value (.fin n c e)
  maxExclusive : ∀ n c e, dt.maxExclusive = some (.dec (.fin n c e)) → q < Dec.value (.fin n c e)

/-- All bounds of the datatype are finite decimals. -/
def FiniteBounds (dt : Datatype) : Prop :=
  ∀ o ∈ [dt.minimum, dt.maximum, dt.minInclusive, dt.maxInclusive, dt.minExclusive, dt.maxExclusive],
    ∀ v ∈ o, ∃ n c e, v = .dec (.fin n c e)

/-- **C26** (decimals) If `read(x)` returns a finite decimal, it is the number parsed from `x` and lies within all the finite
bounds; if all bounds are finite, the converse holds. -/
theorem C26_decimal_iff (hb : s.base = .str "decimal".toList) (h : Datatype.construct ext other s = .ok dt) (x : Str)
    (n : Bool) (c : Nat) (e : Int) :
    (dt.read ext x = .ok (.dec (.fin n c e)) →
      dt.parse ext x = .ok (.dec (.fin n c e)) ∧ DecWithin dt (Dec.value (.fin n c e))) ∧
    (FiniteBounds dt → dt.parse ext x = .ok (.dec (.fin n c e)) → DecWithin dt (Dec.value (.fin n c e)) →
      dt.read ext x = .ok (.dec (.fin n c e))) := by
  have hB := Datatype.built_of_construct h
  have hbase := base_of hB (b := .decimal) (by rw [hb]; decide)
  rw [C26_read_iff h (by rw [hbase]; decide)]
  constructor
  · rintro ⟨hp, a1, a2, a3, a4, a5, a6⟩
    refine ⟨hp, ⟨?_, ?_, ?_, ?_, ?_, ?_⟩⟩
    · intro n' c' e' hm; have := a1 _ hm; simpa [Val.lt, Dec.lt, Rat.not_lt] using this
    · intro n' c' e' hm; have := a2 _ hm; simpa [Val.lt, Dec.lt, Rat.not_lt] using this
    · intro n' c' e' hm; have := a3 _ hm; simpa [Val.le, Dec.le, Dec.lt, Except.map] using this
    · intro n' c' e' hm; have := a4 _ hm; simpa [Val.lt, Dec.lt, Rat.not_lt] using this
    · intro n' c' e' hm; have := a5 _ hm; simpa [Val.lt, Dec.lt, Rat.not_lt] using this
    · intro n' c' e' hm; have := a6 _ hm; simpa [Val.le, Dec.le, Dec.lt, Except.map] using this
  · rintro hf hp ⟨a1, a2, a3, a4, a5, a6⟩
    refine ⟨hp, ⟨?_, ?_, ?_, ?_, ?_, ?_⟩⟩
    · intro m hm; obtain ⟨n', c', e', rfl⟩ := hf _ (by simp) m hm; simpa [Val.lt, Dec.lt, Rat.not_lt] using a1 _ _ _ hm
    · intro m hm; obtain ⟨n', c', e', rfl⟩ := hf dt.minInclusive (by simp) m hm; simpa [Val.lt, Dec.lt, Rat.not_lt] using a2 _ _ _ hm
    · intro m hm; obtain ⟨n', c', e', rfl⟩ := hf dt.minExclusive (by simp) m hm; simpa [Val.le, Dec.le, Dec.lt, Except.map] using a3 _ _ _ hm
    · intro m hm; obtain ⟨n', c', e', rfl⟩ := hf dt.maximum (by simp) m hm; simpa [Val.lt, Dec.lt, Rat.not_lt] using a4 _ _ _ hm
    · intro m hm; obtain ⟨n', c', e', rfl⟩ := hf dt.maxInclusive (by simp) m hm; simpa [Val.lt, Dec.lt, Rat.not_lt] using a5 _ _ _ hm
    · intro m hm; obtain ⟨n', c', e', rfl⟩ := hf dt.maxExclusive (by simp) m hm; simpa [Val.le, Dec.le, Dec.lt, Except.map] using a6 _ _ _ hm

/-- The names of the datatypes whose values have a length which is the number of characters or bytes. -/
def lengthTypes : List String :=
  stringTypes ++ ["normalizedString", "NMTOKEN", "hexBinary", "base64Binary", "binary"]

/-- **C26** (lengths) For the string (other than `anyURI` and `json`) and binary datatypes: `read(x)` returns `v` if and only if `v`
is the value parsed from `x` and its length meets the length constraints; a parsed value of another length
raises `ValueError`. -/
theorem C26_length_iff {t : String} (ht : t ∈ lengthTypes) (hb : s.base = .str t.toList)
    (h : Datatype.construct ext other s = .ok dt) (x : Str) :
    (∀ v, dt.read ext x = .ok v ↔ dt.parse ext x = .ok v ∧ ∃ n, v.len? = some n ∧ LengthsMet s n) ∧
    (∀ v n, dt.parse ext x = .ok v → v.len? = some n → ¬ LengthsMet s n → dt.read ext x = .error .valueError) := by
  have hB := Datatype.built_of_construct h
  have hk : ∃ b, Datatype.convBase (.str t.toList) = .ok b ∧ b.minmax = false ∧
      (b.kind = .string ∨ b.kind = .normalized ∨ b.kind = .nmtoken ∨ b.kind = .hex ∨ b.kind = .base64) := by
    unfold lengthTypes at ht
    rcases List.mem_append.1 ht with ht | ht
    · obtain ⟨b, h1, h2⟩ := string_kind ht
      exact ⟨b, h1, by simp [Base.minmax, h2], .inl h2⟩
    · simp only [List.mem_cons, List.not_mem_nil, or_false] at ht
      rcases ht with rfl | rfl | rfl | rfl | rfl
      · exact ⟨.normalizedString, by decide, rfl, by decide⟩
      · exact ⟨.NMTOKEN, by decide, rfl, by decide⟩
      · exact ⟨.hexBinary, by decide, rfl, by decide⟩
      · exact ⟨.base64Binary, by decide, rfl, by decide⟩
      · exact ⟨.binary, by decide, rfl, by decide⟩
  obtain ⟨b, hcb, hm, hkk⟩ := hk
  have hbase := base_of hB (b := b) (by rw [hb]; exact hcb)
  have hval : ∀ w, dt.parse ext x = .ok w → ∃ n, w.len? = some n ∧
      dt.validate ext w = if LengthsMet s n then .ok w else .error .valueError := by
    intro w hp
    have hw : (∃ y, w = .str y) ∨ ∃ b, w = .bytes b := by
      unfold Datatype.parse at hp
      split at hp
      · simp at hp
      · next d _ =>
        unfold toPython at hp
        rw [hbase] at hp
        rcases hkk with hk | hk | hk | hk | hk <;> simp only [hk] at hp
        · cases hs : stringToPython ext d x with
          | error e => rw [hs] at hp; simp [Except.map] at hp
          | ok y => rw [hs] at hp; exact .inl ⟨y, by simpa [Except.map] using hp.symm⟩
        · exact .inl ⟨_, by simpa using hp.symm⟩
        · split at hp
          · simp at hp
          · split at hp
            · exact .inl ⟨_, by simpa using hp.symm⟩
            · simp at hp
        · split at hp
          · split at hp
            · exact .inr ⟨_, by simpa using hp.symm⟩
            · simp at hp
          · simp at hp
        · split at hp
          · split at hp
            · exact .inr ⟨_, by simpa using hp.symm⟩
            · simp at hp
          · simp at hp
    rcases hw with ⟨y, rfl⟩ | ⟨y, rfl⟩
    · exact ⟨_, rfl, validate_str hB (by rw [hbase]; exact hm) y⟩
    · exact ⟨_, rfl, validate_bytes hB (by rw [hbase]; exact hm) y⟩
  constructor
  · intro v
    unfold Datatype.read
    cases hp : dt.parse ext x with
    | error e => simp
    | ok w =>
      obtain ⟨n, hn, hv⟩ := hval w hp
      simp only [hv, Except.ok.injEq]
      constructor
      · intro hr
        split at hr
        · next hl =>
          simp only [Except.ok.injEq] at hr
          subst hr
          exact ⟨rfl, n, hn, hl⟩
        · simp at hr
      · rintro ⟨rfl, n', hn', hl⟩
        rw [hn] at hn'
        simp only [Option.some.injEq] at hn'
        subst hn'
        rw [if_pos hl]
  · intro v n hp hn hl
    obtain ⟨n', hn', hv⟩ := hval v hp
    rw [hn] at hn'
    simp only [Option.some.injEq] at hn'
    subst hn'
    unfold Datatype.read
    rw [hp]
    simp only [hv, if_neg hl]

/-- **C26 does not hold** for `anyURI`: the parsed URI is a tuple of five components, and the length constraints are applied to
the number five, not to the length of the URI. -/
theorem C26_uri_violated (hb : s.base = .str "anyURI".toList) (h : Datatype.construct ext other s = .ok dt) (x : Str) (v : Val) :
    dt.read ext x = .ok v ↔ dt.parse ext x = .ok v ∧ LengthsMet s 5 := by
  have hB := Datatype.built_of_construct h
  have hbase := base_of hB (b := .anyURI) (by rw [hb]; decide)
  unfold Datatype.read
  cases hp : dt.parse ext x with
  | error e => simp
  | ok w =>
    have hw : ∃ t, w = .uri t := by
      unfold Datatype.parse at hp
      split at hp
      · simp at hp
      · next d _ =>
        unfold toPython at hp
        rw [hbase] at hp
        simp only [Base.kind] at hp
        split at hp
        · simp at hp
        · next y _ =>
          cases hu : ext.uriParse y with
          | error e => rw [hu] at hp; simp [Except.map] at hp
          | ok t => rw [hu] at hp; exact ⟨t, by simpa [Except.map] using hp.symm⟩
    obtain ⟨t, rfl⟩ := hw
    have hv := validate_len (v := .uri t) (n := 5) hB (by rw [hbase]; rfl) (by simp) (by simp [Val.truthy, Val.len?])
    simp only [hv, Except.ok.injEq]
    by_cases hl : LengthsMet s 5
    · simp [hl]
    · simp [hl]

/-- **C26 does not hold** for durations: their bounds are never checked; what can be parsed is returned. -/
theorem C26_duration_violated {t : String} (ht : t ∈ ["duration", "dayTimeDuration", "yearMonthDuration"])
    (hb : s.base = .str t.toList) (h : Datatype.construct ext other s = .ok dt) (x : Str) :
    dt.read ext x = dt.parse ext x := by
  have hB := Datatype.built_of_construct h
  have hk : ∃ b, Datatype.convBase (.str t.toList) = .ok b ∧ b.kind = .duration := by
    simp only [List.mem_cons, List.not_mem_nil, or_false] at ht
    rcases ht with rfl | rfl | rfl
    · exact ⟨.duration, by decide, rfl⟩
    · exact ⟨.dayTimeDuration, by decide, rfl⟩
    · exact ⟨.yearMonthDuration, by decide, rfl⟩
  obtain ⟨b, hcb, hbk⟩ := hk
  have hbase := base_of hB (b := b) (by rw [hb]; exact hcb)
  have hk : dt.base.kind = .duration := by rw [hbase]; exact hbk
  unfold Datatype.read
  cases hp : dt.parse ext x with
  | error e => rfl
  | ok w =>
    have hw : ∃ t, w = .dur t := by
      unfold Datatype.parse at hp
      split at hp
      · simp at hp
      · next d _ =>
        unfold toPython at hp
        simp only [hk] at hp
        have : ∀ r : Res Str, r.map Val.dur = .ok w → ∃ t, w = .dur t := by
          intro r hr
          cases r with
          | error e => simp [Except.map] at hr
          | ok t => exact ⟨t, by simpa [Except.map] using hr.symm⟩
        split at hp
        · split at hp
          · split at hp
            · simp at hp
            · simp at hp
            · exact this _ hp
          · exact this _ hp
        · simp at hp
    obtain ⟨t, rfl⟩ := hw
    exact hB.validate_ok (by simp [Base.hasLength, hk]) (by simp [Base.minmax, hk]) (.inr rfl)

end

/-- A concrete violation: with `maximum` `P1D`, the duration `P2D` is accepted, although it is not `<=` the bound. -/
theorem C26_duration_example (ext : Ext) (other : Base → Derived → J → Res Val)
    (h1 : ext.durParse "P1D".toList = .ok "1".toList) (h2 : ext.durParse "P2D".toList = .ok "2".toList)
    (_hle : ext.durLe "2".toList "1".toList = .ok false) :
    ∃ dt, Datatype.construct ext other { base := .str "duration".toList, maximum := .str "P1D".toList } = .ok dt ∧
      dt.maximum = some (.dur "1".toList) ∧ dt.read ext "P2D".toList = .ok (.dur "2".toList) := by
  let dt : Datatype := { base := .duration, maximum := some (.dur "1".toList) }
  have hc : Datatype.construct ext other { base := .str "duration".toList, maximum := .str "P1D".toList } = .ok dt := by
    have e1 : Datatype.parseBound ext other .duration (.dur .null) (.str "P1D".toList) = .ok (some (.dur "1".toList)) := by
      show (((ext.durParse "P1D".toList).map Val.dur).map some) = _
      rw [h1]; rfl
    unfold Datatype.construct
    simp only [show Datatype.convBase (.str "duration".toList) = .ok .duration by decide]
    show (do
      let d ← derived ext .duration .null
      _) = _
    show (Datatype.parseBound ext other .duration (.dur .null) (.str "P1D".toList) >>= _) = _
    rw [e1]
    rfl
  refine ⟨dt, hc, rfl, ?_⟩
  rw [C26_duration_violated (t := "duration") (by simp) rfl hc]
  show ((ext.durParse "P2D".toList).map Val.dur) = _
  rw [h2]; rfl

example (ext : Ext) (other : Base → Derived → J → Res Val) :
    Datatype.construct ext other { base := .str "integer".toList, minimum := .str "3".toList, maxExclusive := .str "10".toList }
      = .ok { base := .integer, minimum := some (.int 3), maxExclusive := some (.int 10) } := by
  rfl
example : StrBounds { base := .str "integer".toList, minimum := .str "3".toList, maxExclusive := .str "10".toList } := by
  simp [StrBounds]
example (ext : Ext) (other : Base → Derived → J → Res Val) :
    ∃ dt, Datatype.construct ext other { base := .str "decimal".toList, minimum := .str "1.5".toList } = .ok dt ∧
      dt.minimum = some (.dec (.fin false 15 (-1))) := ⟨_, rfl, rfl⟩
example (ext : Ext) (other : Base → Derived → J → Res Val) :
    ∃ dt, Datatype.construct ext other { base := .str "anyURI".toList, maxLength := some 4 } = .ok dt := ⟨_, rfl⟩

/-! ## C27 -/

section
variable {ext : Ext} {other : Base → Derived → J → Res Val} {s : DatatypeSpec} {dt : Datatype}

/-- **C27** (lengths) Contradictory length constraints are rejected. -/
theorem C27_lengths (hbad : (∃ l m, s.length = some l ∧ s.minLength = some m ∧ l < m) ∨
      (∃ l m, s.length = some l ∧ s.maxLength = some m ∧ m < l) ∨
      (∃ l m, s.minLength = some l ∧ s.maxLength = some m ∧ m < l)) (dt : Datatype) :
    Datatype.construct ext other s ≠ .ok dt := by
  intro h
  have hB := Datatype.built_of_construct h
  have hl := hB.lengths
  unfold Datatype.lengthsBad at hl
  rw [hB.length, hB.minLength, hB.maxLength] at hl
  rcases hbad with ⟨l, m, h1, h2, h3⟩ | ⟨l, m, h1, h2, h3⟩ | ⟨l, m, h1, h2, h3⟩
  · simp [h1, h2, h3] at hl
  · simp [h1, h2, h3] at hl
  · simp [h1, h2, h3] at hl

/-- **C27** (lengths) If there are no bounds and the base and format are accepted, the error is `ValueError`. -/
theorem C27_lengths_valueError (hbad : (∃ l m, s.length = some l ∧ s.minLength = some m ∧ l < m) ∨
      (∃ l m, s.length = some l ∧ s.maxLength = some m ∧ m < l) ∨
      (∃ l m, s.minLength = some l ∧ s.maxLength = some m ∧ m < l)) (hn : NoBounds s) {b : Base} {d : Derived}
    (h1 : Datatype.convBase s.base = .ok b) (h2 : derived ext b s.format = .ok d) :
    Datatype.construct ext other s = .error .valueError := by
  unfold Datatype.construct
  simp only [h1, h2, hn.minimum, hn.maximum, hn.minInclusive, hn.maxInclusive, hn.minExclusive, hn.maxExclusive,
    Datatype.parseBound, bind, Except.bind]
  unfold Datatype.finish
  rw [if_pos]
  unfold Datatype.lengthsBad
  rcases hbad with ⟨l, m, h1, h2, h3⟩ | ⟨l, m, h1, h2, h3⟩ | ⟨l, m, h1, h2, h3⟩ <;> simp [h1, h2, h3]

/-- The datatypes which are neither strings nor binary data. -/
def noLengthTypes : List String :=
  ["any", "boolean", "datetime", "dateTime", "date", "dateTimeStamp", "time", "duration", "dayTimeDuration",
   "yearMonthDuration", "decimal", "float", "number", "double"] ++ integerTypes

theorem noLength_base {t : String} (ht : t ∈ noLengthTypes) : ∃ b, Datatype.convBase (.str t.toList) = .ok b ∧ b.hasLength = false := by
  unfold noLengthTypes at ht
  rcases List.mem_append.1 ht with ht | ht
  · simp only [List.mem_cons, List.not_mem_nil, or_false] at ht
    rcases ht with rfl | rfl | rfl | rfl | rfl | rfl | rfl | rfl | rfl | rfl | rfl | rfl | rfl | rfl
    · exact ⟨.any, by decide, rfl⟩
    · exact ⟨.boolean, by decide, rfl⟩
    · exact ⟨.datetime, by decide, rfl⟩
    · exact ⟨.dateTime, by decide, rfl⟩
    · exact ⟨.date, by decide, rfl⟩
    · exact ⟨.dateTimeStamp, by decide, rfl⟩
    · exact ⟨.time, by decide, rfl⟩
    · exact ⟨.duration, by decide, rfl⟩
    · exact ⟨.dayTimeDuration, by decide, rfl⟩
    · exact ⟨.yearMonthDuration, by decide, rfl⟩
    · exact ⟨.decimal, by decide, rfl⟩
    · exact ⟨.float, by decide, rfl⟩
    · exact ⟨.number, by decide, rfl⟩
    · exact ⟨.double, by decide, rfl⟩
  · obtain ⟨b, h1, h2⟩ := integer_kind ht
    exact ⟨b, h1, by simp [Base.hasLength, h2]⟩

/-- **C27** (length on other types) A length constraint other than 0 on a datatype which is not a string or binary type is
rejected. -/
theorem C27_length_type {t : String} (ht : t ∈ noLengthTypes) (hb : s.base = .str t.toList)
    (hbad : ∃ l, l ≠ 0 ∧ (s.length = some l ∨ s.minLength = some l ∨ s.maxLength = some l)) (dt : Datatype) :
    Datatype.construct ext other s ≠ .ok dt := by
  intro h
  have hB := Datatype.built_of_construct h
  obtain ⟨b, hcb, hbk⟩ := noLength_base ht
  have hbase := base_of hB (b := b) (by rw [hb]; exact hcb)
  obtain ⟨h1, h2, h3⟩ := hB.noLength (by rw [hbase]; exact hbk)
  rw [hB.length] at h1; rw [hB.minLength] at h2; rw [hB.maxLength] at h3
  obtain ⟨l, hl, h | h | h⟩ := hbad
  · exact hl (h1 l h)
  · exact hl (h2 l h)
  · exact hl (h3 l h)

/-- **C27 does not hold** for a length constraint of 0. -/
theorem C27_length_type_violated (ext : Ext) (other : Base → Derived → J → Res Val) :
    Datatype.construct ext other { base := .str "integer".toList, length := some 0 } =
      .ok { base := .integer, length := some 0 } := rfl

/-- The datatypes without an ordering. -/
def unorderedTypes : List String :=
  stringTypes ++ ["normalizedString", "NMTOKEN", "hexBinary", "base64Binary", "binary", "any", "boolean", "anyURI", "json"]

theorem unordered_base {t : String} (ht : t ∈ unorderedTypes) : ∃ b, Datatype.convBase (.str t.toList) = .ok b ∧ b.isOrdered = false := by
  unfold unorderedTypes at ht
  rcases List.mem_append.1 ht with ht | ht
  · obtain ⟨b, h1, h2⟩ := string_kind ht
    exact ⟨b, h1, by simp [Base.isOrdered, h2]⟩
  · simp only [List.mem_cons, List.not_mem_nil, or_false] at ht
    rcases ht with rfl | rfl | rfl | rfl | rfl | rfl | rfl | rfl | rfl
    · exact ⟨.normalizedString, by decide, rfl⟩
    · exact ⟨.NMTOKEN, by decide, rfl⟩
    · exact ⟨.hexBinary, by decide, rfl⟩
    · exact ⟨.base64Binary, by decide, rfl⟩
    · exact ⟨.binary, by decide, rfl⟩
    · exact ⟨.any, by decide, rfl⟩
    · exact ⟨.boolean, by decide, rfl⟩
    · exact ⟨.anyURI, by decide, rfl⟩
    · exact ⟨.json, by decide, rfl⟩

/-- **C27** (bounds on other types) If a datatype without ordering is constructed, then every bound which was given has been parsed to a
value which counts as false (empty, zero, `False`). -/
theorem C27_bound_type {t : String} (ht : t ∈ unorderedTypes) (hb : s.base = .str t.toList)
    (h : Datatype.construct ext other s = .ok dt) :
    ∀ o ∈ [dt.minimum, dt.maximum, dt.minInclusive, dt.maxInclusive, dt.minExclusive, dt.maxExclusive],
      ∀ v ∈ o, v.truthy ext = false := by
  have hB := Datatype.built_of_construct h
  obtain ⟨b, hcb, hbk⟩ := unordered_base ht
  have hbase := base_of hB (b := b) (by rw [hb]; exact hcb)
  have hk := hB.kind
  rw [← hbase] at hbk
  simp only [Datatype.kindBad, hbk, Bool.or_eq_false_iff, Bool.and_eq_false_iff, Bool.not_false, Bool.true_eq_false,
    false_or] at hk
  obtain ⟨⟨⟨⟨⟨⟨⟨⟨h1, h2⟩, h3⟩, h4⟩, h5⟩, h6⟩, _⟩, _⟩, _⟩ := hk
  have key : ∀ o, Datatype.truthy ext o = false → ∀ v ∈ o, v.truthy ext = false := by
    intro o ho v hv
    simp only [Option.mem_def] at hv
    subst hv
    exact ho
  intro o ho
  simp only [List.mem_cons, List.not_mem_nil, or_false] at ho
  rcases ho with rfl | rfl | rfl | rfl | rfl | rfl
  · exact key _ h1
  · exact key _ h2
  · exact key _ h5
  · exact key _ h6
  · exact key _ h3
  · exact key _ h4

/-- **C27** (bounds on other types) For the string types (without a format), a bound which is a non-empty string is rejected. -/
theorem C27_bound_string {t : String} (ht : t ∈ stringTypes) (hb : s.base = .str t.toList) (hf : s.format = .null)
    (hbad : ∃ j ∈ [s.minimum, s.maximum, s.minInclusive, s.maxInclusive, s.minExclusive, s.maxExclusive],
      ∃ x, j = .str x ∧ x ≠ []) (dt : Datatype) : Datatype.construct ext other s ≠ .ok dt := by
  intro h
  have hB := Datatype.built_of_construct h
  have hu := C27_bound_type (t := t) (by unfold unorderedTypes; exact List.mem_append_left _ ht) hb h
  obtain ⟨b, hcb, hbk⟩ := string_kind ht
  have hbase := base_of hB (b := b) (by rw [hb]; exact hcb)
  rw [← hbase] at hbk
  obtain ⟨d, hd, _, h1, h2, h3, h4, h5, h6⟩ := hB.descr
  have hd' : d = .empty := by
    have : derived ext dt.base s.format = .ok .empty := by
      simp [derived, hbk, stringDerived, hf, J.truthy]
    rw [this] at hd; simpa using hd.symm
  subst hd'
  have key : ∀ {j : J} {x : Str} {o : Option Val}, j = .str x → x ≠ [] → (∀ v ∈ o, v.truthy ext = false) →
      Datatype.parseBound ext other dt.base .empty j = .ok o → False := by
    intro j x o hj hx ho hp
    subst hj
    simp only [Datatype.parseBound, Datatype.parseJ, toPython, hbk, stringToPython, Except.map, Except.ok.injEq] at hp
    subst hp
    have := ho (.str x) rfl
    simp [Val.truthy, hx] at this
  obtain ⟨j, hj, x, hjx, hx⟩ := hbad
  simp only [List.mem_cons, List.not_mem_nil, or_false] at hj
  rcases hj with rfl | rfl | rfl | rfl | rfl | rfl
  · exact key hjx hx (hu _ (by simp)) h1
  · exact key hjx hx (hu _ (by simp)) h2
  · exact key hjx hx (hu dt.minInclusive (by simp)) h3
  · exact key hjx hx (hu dt.maxInclusive (by simp)) h4
  · exact key hjx hx (hu dt.minExclusive (by simp)) h5
  · exact key hjx hx (hu dt.maxExclusive (by simp)) h6

/-- **C27 does not hold** for a bound which counts as false: `Datatype(base='boolean', minimum='false')` is accepted. -/
theorem C27_bound_type_violated (ext : Ext) (other : Base → Derived → J → Res Val) :
    Datatype.construct ext other { base := .str "boolean".toList, minimum := .str "false".toList } =
      .ok { base := .boolean, minimum := some (.bool false) } := rfl

/-! ### Integers: exact condition -/

/-- A bound given as an integer. -/
def intBound : Option Int → J
  | none => .null
  | some i => .int i

/-- The conditions which the code checks for integer bounds. -/
structure IntConsistent (s : DatatypeSpec) (mi xi me xe : Option Int) : Prop where
  lengths : ∀ o ∈ [s.length, s.minLength, s.maxLength], ∀ l ∈ o, l = 0
  minBoth : ∀ a ∈ mi, ∀ b ∈ me, a = 0 ∨ b = 0
  maxBoth : ∀ a ∈ xi, ∀ b ∈ xe, a = 0 ∨ b = 0
  ii : ∀ a ∈ mi, ∀ b ∈ xi, a = 0 ∨ b = 0 ∨ a ≤ b
  ie : ∀ a ∈ mi, ∀ b ∈ xe, a = 0 ∨ b = 0 ∨ a < b
  ei : ∀ a ∈ me, ∀ b ∈ xi, a = 0 ∨ b = 0 ∨ a < b
  ee : ∀ a ∈ me, ∀ b ∈ xe, a = 0 ∨ b = 0 ∨ a < b

theorem parseBound_int (i : Option Int) (hi : ∀ a ∈ i, a.natAbs < 10 ^ 28) :
    Datatype.parseBound ext other .integer .empty (intBound i) = .ok (i.map .int) := by
  cases i with
  | none => rfl
  | some a =>
    have ha := hi a rfl
    have hfix := Dec.fix_exact (neg := decide (a < 0)) (c := a.natAbs) (e := 0) ha (by decide) (by decide)
    have hai : (Dec.fin (decide (a < 0)) a.natAbs 0).asInteger = .ok (some a) := by
      simp only [Dec.asInteger]
      rw [if_pos (by decide)]
      congr 2
      by_cases h : a < 0
      · simp [h]; omega
      · simp [h]; omega
    simp only [intBound, Datatype.parseBound, Datatype.parseJ, Base.kind, numFmtOf, hfix, hai]
    rfl

theorem both_int (a b : Option Int) (cmp : Val → Val → Res Bool) (p : Int → Int → Prop) [∀ a b, Decidable (p a b)]
    (hc : ∀ a b : Int, cmp (.int b) (.int a) = .ok (decide (p a b))) :
    Datatype.both ext (a.map .int) (b.map .int) cmp = .ok (decide (∃ x ∈ a, ∃ y ∈ b, x ≠ 0 ∧ y ≠ 0 ∧ p x y)) := by
  cases a with
  | none => simp [Datatype.both]
  | some x =>
    cases b with
    | none => simp [Datatype.both]
    | some y =>
      simp only [Datatype.both, Option.map, Val.truthy, hc]
      by_cases h1 : x = 0 <;> by_cases h2 : y = 0 <;> simp [h1, h2]

theorem orRes_ok (a b : Bool) : Datatype.orRes (.ok a) (.ok b) = .ok (a || b) := by cases a <;> rfl

/-- The datatype before the checks. -/
def intDt (s : DatatypeSpec) (mn mx mi xi me xe : Option Int) : Datatype :=
  ⟨.integer, .null, s.length, s.minLength, s.maxLength, mn.map .int, mx.map .int, mi.map .int, xi.map .int,
    me.map .int, xe.map .int, s.atProps, s.common⟩

theorem int_interval (s : DatatypeSpec) (mn mx mi xi me xe : Option Int) :
    ∃ b, Datatype.intervalBad ext (intDt s mn mx mi xi me xe) = .ok b ∧ (b = false ↔
      (∀ a ∈ mi, ∀ b ∈ xi, a = 0 ∨ b = 0 ∨ a ≤ b) ∧ (∀ a ∈ mi, ∀ b ∈ xe, a = 0 ∨ b = 0 ∨ a < b) ∧
      (∀ a ∈ me, ∀ b ∈ xi, a = 0 ∨ b = 0 ∨ a < b) ∧ (∀ a ∈ me, ∀ b ∈ xe, a = 0 ∨ b = 0 ∨ a < b)) := by
  have hle : ∀ a b : Int, Val.le ext (.int b) (.int a) = .ok (decide (b ≤ a)) := by
    intro a b; simp only [Val.le, Val.lt, Except.map, Except.ok.injEq]
    by_cases h : b ≤ a
    · simp [h]
    · simp [h]; omega
  have hlt : ∀ a b : Int, Val.lt ext (.int b) (.int a) = .ok (decide (b < a)) := fun a b => rfl
  refine ⟨decide (∃ x ∈ mi, ∃ y ∈ xe, x ≠ 0 ∧ y ≠ 0 ∧ y ≤ x) || (decide (∃ x ∈ mi, ∃ y ∈ xi, x ≠ 0 ∧ y ≠ 0 ∧ y < x) ||
      (decide (∃ x ∈ me, ∃ y ∈ xe, x ≠ 0 ∧ y ≠ 0 ∧ y ≤ x) || decide (∃ x ∈ me, ∃ y ∈ xi, x ≠ 0 ∧ y ≠ 0 ∧ y ≤ x))), ?_, ?_⟩
  · unfold Datatype.intervalBad
    simp only [intDt]
    rw [both_int mi xe (Val.le ext) (fun a b => b ≤ a) hle, both_int mi xi (Val.lt ext) (fun a b => b < a) hlt,
      both_int me xe (Val.le ext) (fun a b => b ≤ a) hle, both_int me xi (Val.le ext) (fun a b => b ≤ a) hle]
    simp only [orRes_ok]
  · simp only [Bool.or_eq_false_iff, decide_eq_false_iff_not]
    constructor
    · rintro ⟨i1, i2, i3, i4⟩
      refine ⟨?_, ?_, ?_, ?_⟩
      · intro a ha b hb; have : ¬ _ := fun h => i2 ⟨a, ha, b, hb, h⟩; omega
      · intro a ha b hb; have : ¬ _ := fun h => i1 ⟨a, ha, b, hb, h⟩; omega
      · intro a ha b hb; have : ¬ _ := fun h => i4 ⟨a, ha, b, hb, h⟩; omega
      · intro a ha b hb; have : ¬ _ := fun h => i3 ⟨a, ha, b, hb, h⟩; omega
    · rintro ⟨i1, i2, i3, i4⟩
      refine ⟨?_, ?_, ?_, ?_⟩
      · rintro ⟨x, hx, y, hy, h⟩; have := i2 x hx y hy; omega
      · rintro ⟨x, hx, y, hy, h⟩; have := i1 x hx y hy; omega
      · rintro ⟨x, hx, y, hy, h⟩; have := i4 x hx y hy; omega
      · rintro ⟨x, hx, y, hy, h⟩; have := i3 x hx y hy; omega

theorem truthy_int (o : Option Int) : Datatype.truthy ext (o.map .int) = true ↔ ∃ x ∈ o, x ≠ 0 := by
  cases o <;> simp [Datatype.truthy, Val.truthy]

theorem int_kind (s : DatatypeSpec) (mn mx mi xi me xe : Option Int) :
    Datatype.kindBad ext (intDt s mn mx mi xi me xe) = false ↔
      (∀ o ∈ [s.length, s.minLength, s.maxLength], ∀ l ∈ o, l = 0) ∧ (∀ a ∈ mi, ∀ b ∈ me, a = 0 ∨ b = 0) ∧
      (∀ a ∈ xi, ∀ b ∈ xe, a = 0 ∨ b = 0) := by
  have hkb : Datatype.kindBad ext (intDt s mn mx mi xi me xe) = (decide (s.length.getD 0 ≠ 0) || decide (s.minLength.getD 0 ≠ 0) ||
      decide (s.maxLength.getD 0 ≠ 0) || (Datatype.truthy ext (mi.map .int) && Datatype.truthy ext (me.map .int)) ||
      (Datatype.truthy ext (xi.map .int) && Datatype.truthy ext (xe.map .int))) := by
    rfl
  have hz : ∀ o : Option Int, o.getD 0 = 0 ↔ ∀ l ∈ o, l = 0 := by
    intro o; cases o <;> simp
  have hp : ∀ a b : Option Int, (Datatype.truthy ext (a.map .int) && Datatype.truthy ext (b.map .int)) = false ↔
      ∀ x ∈ a, ∀ y ∈ b, x = 0 ∨ y = 0 := by
    intro a b
    rw [← Bool.not_eq_true, Bool.and_eq_true, truthy_int, truthy_int]
    constructor
    · intro h x hx y hy
      by_cases h0 : x = 0
      · exact .inl h0
      · by_cases h1 : y = 0
        · exact .inr h1
        · exact absurd ⟨⟨x, hx, h0⟩, ⟨y, hy, h1⟩⟩ h
    · rintro h ⟨⟨x, hx, h0⟩, ⟨y, hy, h1⟩⟩
      rcases h x hx y hy with h | h
      · exact h0 h
      · exact h1 h
  rw [hkb]
  simp only [Bool.or_eq_false_iff, hp, decide_eq_false_iff_not, Decidable.not_not, hz, List.mem_cons, List.not_mem_nil, or_false,
    forall_eq_or_imp, forall_eq, and_assoc]

theorem lengthsBad_zero (d : Datatype) (h1 : ∀ l ∈ d.length, l = 0) (h2 : ∀ l ∈ d.minLength, l = 0)
    (h3 : ∀ l ∈ d.maxLength, l = 0) : Datatype.lengthsBad d = false := by
  obtain ⟨base, format, l1, l2, l3⟩ := d
  cases l1 with
  | none =>
    cases l2 with
    | none => rfl
    | some y =>
      cases l3 with
      | none => rfl
      | some z => have := h2 y rfl; have := h3 z rfl; subst y; subst z; rfl
  | some x =>
    have := h1 x rfl; subst x
    cases l2 with
    | none =>
      cases l3 with
      | none => rfl
      | some z => have := h3 z rfl; subst z; rfl
    | some y =>
      have := h2 y rfl; subst y
      cases l3 with
      | none => rfl
      | some z => have := h3 z rfl; subst z; rfl

/-- **C27** (exact, integers) `Datatype(base='integer', minInclusive=…, …)` with integer bounds is constructed if and only if the
conditions `IntConsistent` hold; otherwise `ValueError` is raised. `minimum` and `maximum` play no role, and a bound of 0 counts as
absent. -/
theorem C27_integer_iff {mn mx mi xi me xe : Option Int} (hb : s.base = .str "integer".toList) (hf : s.format = .null)
    (hid : Dict.get "id".toList s.atProps = none)
    (h1 : s.minimum = intBound mn) (h2 : s.maximum = intBound mx) (h3 : s.minInclusive = intBound mi)
    (h4 : s.maxInclusive = intBound xi) (h5 : s.minExclusive = intBound me) (h6 : s.maxExclusive = intBound xe)
    (hsmall : ∀ o ∈ [mn, mx, mi, xi, me, xe], ∀ a ∈ o, a.natAbs < 10 ^ 28) :
    ((∃ dt, Datatype.construct ext other s = .ok dt) ↔ IntConsistent s mi xi me xe) ∧
    (¬ IntConsistent s mi xi me xe → Datatype.construct ext other s = .error .valueError) := by
  have hc : Datatype.construct ext other s = Datatype.finish ext (intDt s mn mx mi xi me xe) := by
    unfold Datatype.construct
    simp only [hb, hf, h1, h2, h3, h4, h5, h6, show Datatype.convBase (.str "integer".toList) = .ok .integer by decide,
      show derived ext .integer .null = .ok .empty from rfl, bind, Except.bind,
      parseBound_int mn (hsmall _ (by simp)), parseBound_int mx (hsmall _ (by simp)), parseBound_int mi (hsmall mi (by simp)),
      parseBound_int xi (hsmall xi (by simp)), parseBound_int me (hsmall me (by simp)), parseBound_int xe (hsmall xe (by simp))]
    rfl
  obtain ⟨b, hi, hbi⟩ := int_interval (ext := ext) s mn mx mi xi me xe
  have hk := int_kind (ext := ext) s mn mx mi xi me xe
  have hlen : (∀ o ∈ [s.length, s.minLength, s.maxLength], ∀ l ∈ o, l = 0) →
      Datatype.lengthsBad (intDt s mn mx mi xi me xe) = false := by
    intro hz
    simp only [List.mem_cons, List.not_mem_nil, or_false, forall_eq_or_imp, forall_eq] at hz
    exact lengthsBad_zero _ hz.1 hz.2.1 hz.2.2
  rw [hc]
  have key : (IntConsistent s mi xi me xe → ∃ dt, Datatype.finish ext (intDt s mn mx mi xi me xe) = .ok dt) ∧
      (¬ IntConsistent s mi xi me xe → Datatype.finish ext (intDt s mn mx mi xi me xe) = .error .valueError) := by
    constructor
    · rintro ⟨c1, c2, c3, c4, c5, c6, c7⟩
      unfold Datatype.finish
      rw [hi, hlen c1, hk.2 ⟨c1, c2, c3⟩, hbi.2 ⟨c4, c5, c6, c7⟩]
      have hid' : Datatype.idOf (intDt s mn mx mi xi me xe).atProps = none := by
        show Datatype.idOf s.atProps = none
        unfold Datatype.idOf; rw [hid]
      simp only [hid']
      exact ⟨_, rfl⟩
    · intro hn
      unfold Datatype.finish
      rw [hi]
      split
      · rfl
      split
      · rfl
      next hk' =>
      cases b with
      | true => rfl
      | false =>
        exfalso
        obtain ⟨k1, k2, k3⟩ := hk.1 (by simpa using hk')
        obtain ⟨j1, j2, j3, j4⟩ := hbi.1 rfl
        exact hn ⟨k1, k2, k3, j1, j2, j3, j4⟩
  refine ⟨⟨?_, key.1⟩, key.2⟩
  rintro ⟨dt, hdt⟩
  by_cases hcon : IntConsistent s mi xi me xe
  · exact hcon
  · rw [key.2 hcon] at hdt; simp at hdt

end

/-- **C27 does not hold**: an empty interval is accepted if one of the bounds is 0, for example `1 ≤ x ≤ 0`. -/
theorem C27_zero_violated (ext : Ext) (other : Base → Derived → J → Res Val) :
    Datatype.construct ext other { base := .str "integer".toList, minInclusive := .int 1, maxInclusive := .int 0 } =
      .ok { base := .integer, minInclusive := some (.int 1), maxInclusive := some (.int 0) } := rfl

/-- **C27 does not hold**: `minimum > maximum` is accepted. -/
theorem C27_minimum_maximum_violated (ext : Ext) (other : Base → Derived → J → Res Val) :
    Datatype.construct ext other { base := .str "integer".toList, minimum := .int 5, maximum := .int 1 } =
      .ok { base := .integer, minimum := some (.int 5), maximum := some (.int 1) } := rfl

/-- **C27 does not hold**: both an inclusive and an exclusive bound are accepted if one of them is 0. -/
theorem C27_both_violated (ext : Ext) (other : Base → Derived → J → Res Val) :
    Datatype.construct ext other { base := .str "integer".toList, minInclusive := .int 0, minExclusive := .int 7 } =
      .ok { base := .integer, minInclusive := some (.int 0), minExclusive := some (.int 7) } := rfl

example : IntConsistent { base := .str "integer".toList, minInclusive := .int 1, maxInclusive := .int 5 } (some 1) (some 5) none none :=
  ⟨by simp, by simp, by simp, by simp, by simp, by simp, by simp⟩
example : ¬ IntConsistent { base := .str "integer".toList, minInclusive := .int 6, maxInclusive := .int 5 } (some 6) (some 5) none none :=
  fun h => by have := h.ii 6 rfl 5 rfl; omega

end Csvw.Props

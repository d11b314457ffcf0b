import Verif.Model.Dialect
import Verif.Py.ListAux
/-!
# C14–C15: dialect descriptions

`Dialect.construct lk kw` is `Dialect(**kw)`: the object and the names of the properties warned about, or the exception.
`lk` is the codec lookup.
-/

namespace Csvw.Props

/-- What happens to one property: without value it has its default; a valid value is kept (normalized by `norm`); an
invalid one is replaced by the default, with a warning. -/
structure Kept (valid : J → Prop) (norm : J → J) (dflt : J) (arg : Option J) (value : J) (warned : Prop) : Prop where
  absent : arg = none → value = dflt ∧ ¬ warned
  kept : ∀ j, arg = some j → valid j → value = norm j ∧ ¬ warned
  replaced : ∀ j, arg = some j → ¬ valid j → value = dflt ∧ warned

def IsBoolean (j : J) : Prop := ∃ b, j = .bool b
def IsCount (j : J) : Prop := ∃ n : Nat, j = .int n
def IsString (j : J) : Prop := ∃ s, j = .str s
def IsStringOrNull (j : J) : Prop := j = .null ∨ ∃ s, j = .str s
def IsArray (j : J) : Prop := ∃ l, j = .arr l
/-- The codec for an encoding: the alias `UTF-8-BOM` is Python's `utf-8-sig`. -/
def codecOf (s : Str) : Str := if s = "UTF-8-BOM".toList then "utf-8-sig".toList else s
theorem codecOf_eq : encodingMap = codecOf := rfl
/-- The encoding is one of which Python knows the codec. -/
def IsEncoding (lk : EncLookup) (j : J) : Prop := ∃ s, j = .str s ∧ lk (codecOf s) = .ok ()
def IsTrim (j : J) : Prop :=
  j = .bool true ∨ j = .bool false ∨ j ∈ ["true", "false", "start", "end"].map (fun s => J.str s.toList)
/-- Booleans as trim keywords. -/
def normTrim : J → J
  | .bool true => .str "true".toList
  | .bool false => .str "false".toList
  | j => j

theorem isBool_iff (j : J) : j.isBool = true ↔ IsBoolean j := by cases j <;> simp [J.isBool, IsBoolean]
theorem isStr_iff (j : J) : j.isStr = true ↔ IsString j := by cases j <;> simp [J.isStr, IsString]
theorem isNonNegInt_iff (j : J) : j.isNonNegInt = true ↔ IsCount j := by
  cases j <;> simp [J.isNonNegInt, IsCount]
  next i => exact ⟨fun h => ⟨i.toNat, by omega⟩, fun ⟨n, h⟩ => by omega⟩

/-- The converter, for results which are not lists. -/
theorem kept_converter {ok : J → Bool} {dflt : J} {an : Bool} {valid : J → Prop} {value : J} {w : Bool}
    (arg : Option J) (warned : Prop) (hw : warned ↔ w = true) (hnl : ∀ l, value ≠ .arr l)
    (h : converter ok dflt an (arg.getD dflt) = (value, w))
    (hv : ∀ j, (∀ l, j ≠ .arr l) → (valid j ↔ (ok j = true ∨ (an = true ∧ j = .null))))
    (hdl : ∀ l, dflt ≠ .arr l) (hd : ok dflt = true) : Kept valid id dflt arg value warned := by
  have key : ∀ j, converter ok dflt an j = (value, w) →
      ((valid j ∧ value = j ∧ w = false) ∨ (¬ valid j ∧ value = dflt ∧ w = true)) := by
    intro j hj
    have hja : ∀ l, j ≠ .arr l := by
      rintro l rfl
      simp only [converter, Prod.mk.injEq] at hj
      exact hnl _ hj.1.symm
    rw [hv j hja]
    have hc : converter ok dflt an j = if an && decide (j = .null) then (j, false) else if ok j then (j, false) else (dflt, true) := by
      cases j <;> first | rfl | exact absurd rfl (hja _)
    rw [hc] at hj
    split at hj
    · next hc => simp at hc; cases hj; exact .inl ⟨.inr hc, rfl, rfl⟩
    · next hc =>
      split at hj
      · next ho => cases hj; exact .inl ⟨.inl ho, rfl, rfl⟩
      · next ho =>
        cases hj
        refine .inr ⟨?_, rfl, rfl⟩
        rintro (h | h)
        · exact ho h
        · exact hc (by simp [h.1, h.2])
  refine ⟨?_, ?_, ?_⟩
  · rintro rfl
    rcases key dflt h with ⟨_, h1, h2⟩ | ⟨h0, _, _⟩
    · exact ⟨h1, by rw [hw, h2]; simp⟩
    · exact absurd ((hv dflt hdl).2 (.inl hd)) h0
  · rintro j rfl hj
    rcases key j h with ⟨_, h1, h2⟩ | ⟨h0, _, _⟩
    · exact ⟨h1, by rw [hw, h2]; simp⟩
    · exact absurd hj h0
  · rintro j rfl hj
    rcases key j h with ⟨h0, _, _⟩ | ⟨_, h1, h2⟩
    · exact absurd h0 hj
    · exact ⟨h1, by rw [hw, h2]⟩

/-- The properties of a constructed dialect. -/
structure DialectOk (lk : EncLookup) (kw : List (Str × J)) (d : Dialect) (warned : List Str) : Prop where
  known : ∀ k ∈ Dict.keys kw, k ∈ Dialect.propNames
  encoding : Kept (IsEncoding lk) id (.str "utf-8".toList) (Dict.get "encoding".toList kw) (.str d.encoding)
    ("encoding".toList ∈ warned)
  lineTerminators : Kept IsArray id (.arr [.str "\r\n".toList, .str "\n".toList])
    (Dict.get "lineTerminators".toList kw) (.arr d.lineTerminators) ("lineTerminators".toList ∈ warned)
  /-- a list given for `quoteChar` slips through (no validator) -/
  quoteChar : (∀ l, Dict.get "quoteChar".toList kw ≠ some (.arr l)) →
    Kept IsStringOrNull id (.str ['"']) (Dict.get "quoteChar".toList kw) d.quoteChar ("quoteChar".toList ∈ warned)
  doubleQuote : Kept IsBoolean id (.bool true) (Dict.get "doubleQuote".toList kw) (.bool d.doubleQuote)
    ("doubleQuote".toList ∈ warned)
  skipRows : Kept IsCount id (.int 0) (Dict.get "skipRows".toList kw) (.int d.skipRows) ("skipRows".toList ∈ warned)
  commentPrefix : Kept IsStringOrNull id (.str ['#']) (Dict.get "commentPrefix".toList kw)
    (J.ofOptStr d.commentPrefix) ("commentPrefix".toList ∈ warned)
  header : Kept IsBoolean id (.bool true) (Dict.get "header".toList kw) (.bool d.header) ("header".toList ∈ warned)
  headerRowCount : Kept IsCount id (.int 1) (Dict.get "headerRowCount".toList kw) (.int d.headerRowCount)
    ("headerRowCount".toList ∈ warned)
  delimiter : Kept IsString id (.str [',']) (Dict.get "delimiter".toList kw) (.str d.delimiter)
    ("delimiter".toList ∈ warned)
  skipColumns : Kept IsCount id (.int 0) (Dict.get "skipColumns".toList kw) (.int d.skipColumns)
    ("skipColumns".toList ∈ warned)
  skipBlankRows : Kept IsBoolean id (.bool false) (Dict.get "skipBlankRows".toList kw) (.bool d.skipBlankRows)
    ("skipBlankRows".toList ∈ warned)
  skipInitialSpace : Kept IsBoolean id (.bool false) (Dict.get "skipInitialSpace".toList kw) (.bool d.skipInitialSpace)
    ("skipInitialSpace".toList ∈ warned)
  trim : Kept IsTrim normTrim (.str "false".toList) (Dict.get "trim".toList kw) (.str (trimStr d.trim))
    ("trim".toList ∈ warned)

theorem asBool_ok {j : J} {b : Bool} (h : asBool j = .ok b) : j = .bool b := by
  cases j <;> simp [asBool] at h <;> simp [h]
theorem asStr_ok {j : J} {b : Str} (h : asStr j = .ok b) : j = .str b := by
  cases j <;> simp [asStr] at h <;> simp [h]
theorem asOptStr_ok {j : J} {b : Option Str} (h : asOptStr j = .ok b) :
    j = J.ofOptStr b := by
  cases j <;> simp [asOptStr] at h <;> subst h <;> rfl
theorem asNat_ok {j : J} {b : Nat} (h : asNat j = .ok b) : j = .int b := by
  cases j <;> simp [asNat] at h
  next i => split at h <;> simp at h; subst h; simp; omega
theorem parseTrim_ok {s : Str} {t : Trim} (h : parseTrim s = some t) : s = trimStr t := by
  unfold parseTrim at h
  repeat' split at h
  all_goals first | (simp at h; done) | (simp only [Option.some.injEq] at h; subst h; simpa [trimStr] using ‹_›)
theorem asTrim_ok {j : J} {t : Trim} (h : asTrim j = .ok t) : j = .str (trimStr t) := by
  cases j <;> simp [asTrim] at h
  split at h <;> simp at h
  next s t' ht => subst h; rw [parseTrim_ok ht]

theorem trimStr_isTrim (t : Trim) : IsTrim (.str (trimStr t)) := by
  cases t <;> simp [IsTrim, trimStr]

theorem mem_warn (n m : String) (b : Bool) :
    n.toList ∈ (if b then [m.toList] else []) ↔ (n.toList = m.toList ∧ b = true) := by
  cases b <;> simp

theorem kept_trim {arg : Option J} {value : J} {w : Bool} {t : Trim} (warned : Prop) (hw : warned ↔ w = true)
    (h : convertTrim (arg.getD (.str "false".toList)) = (value, w)) (ht : asTrim value = .ok t) :
    Kept IsTrim normTrim (.str "false".toList) arg (.str (trimStr t)) warned := by
  have hv := asTrim_ok ht
  subst hv
  have key : ∀ j, convertTrim j = (.str (trimStr t), w) →
      (IsTrim j ∧ .str (trimStr t) = normTrim j ∧ w = false) ∨
      (¬ IsTrim j ∧ J.str (trimStr t) = .str "false".toList ∧ w = true) := by
    intro j hj
    cases j with
    | bool b => cases b <;> simp [convertTrim, converter, J.isStr] at hj <;> left <;> simp [IsTrim, normTrim, hj]
    | str s =>
      simp [convertTrim, converter, J.isStr] at hj
      left
      obtain ⟨rfl, rfl⟩ := hj
      exact ⟨trimStr_isTrim t, rfl, rfl⟩
    | arr l => simp [convertTrim, converter] at hj
    | null | int i | flt f | obj m =>
      right
      simp [convertTrim, converter, J.isStr, J.isBool] at hj
      refine ⟨by simp [IsTrim], ?_, hj.2⟩
      rw [← hj.1]
      rfl
  refine ⟨?_, ?_, ?_⟩
  · rintro rfl
    rcases key _ h with ⟨_, h1, h2⟩ | ⟨h0, _, _⟩
    · exact ⟨h1, by rw [hw, h2]; simp⟩
    · exact absurd (trimStr_isTrim .false_) h0
  · rintro j rfl hj
    rcases key j h with ⟨_, h1, h2⟩ | ⟨h0, _, _⟩
    · exact ⟨h1, by rw [hw, h2]; simp⟩
    · exact absurd hj h0
  · rintro j rfl hj
    rcases key j h with ⟨h0, _, _⟩ | ⟨_, h1, h2⟩
    · exact absurd h0 hj
    · exact ⟨h1, by rw [hw, h2]⟩

theorem kept_encoding {lk : EncLookup} (hlk : lk "utf-8".toList = .ok ()) {arg : Option J} {value : J} {w : Bool} {e : Str}
    (warned : Prop) (hw : warned ↔ w = true)
    (h : convertEncoding lk (arg.getD (.str "utf-8".toList)) = .ok (value, w)) (he : asStr value = .ok e) :
    Kept (IsEncoding lk) id (.str "utf-8".toList) arg (.str e) warned := by
  have hv := asStr_ok he
  subst hv
  have hmap : encodingMap "utf-8".toList = "utf-8".toList := by decide
  have hmap' : codecOf "utf-8".toList = "utf-8".toList := hmap
  have key : ∀ j, convertEncoding lk j = .ok (.str e, w) →
      (IsEncoding lk j ∧ .str e = j ∧ w = false) ∨
      (¬ IsEncoding lk j ∧ J.str e = .str "utf-8".toList ∧ w = true) := by
    intro j hj
    cases j with
    | str s =>
      simp only [convertEncoding, converter, J.isStr, decide_false, Bool.and_false, Bool.false_eq_true, if_false, if_true,
        Bool.false_and] at hj
      rw [codecOf_eq] at hj
      cases hl : lk (codecOf s) with
      | ok u =>
        rw [hl] at hj
        simp only [Except.ok.injEq, Prod.mk.injEq, J.str.injEq] at hj
        obtain ⟨rfl, rfl⟩ := hj
        exact .inl ⟨⟨s, rfl, hl⟩, rfl, rfl⟩
      | error x =>
        rw [hl] at hj
        cases x <;> simp at hj
        right
        refine ⟨?_, by rw [← hj.1]; rfl, hj.2⟩
        rintro ⟨s', h1, h2⟩
        cases h1
        rw [hl] at h2
        simp at h2
    | arr l => simp [convertEncoding, converter] at hj
    | null | bool b | int i | flt f | obj m =>
      right
      simp only [convertEncoding, converter, J.isStr, Bool.false_and, Bool.false_eq_true, if_false, hmap, hlk,
        Except.ok.injEq, Prod.mk.injEq] at hj
      exact ⟨by simp [IsEncoding], hj.1.symm, hj.2.symm⟩
  refine ⟨?_, ?_, ?_⟩
  · rintro rfl
    rcases key _ h with ⟨_, h1, h2⟩ | ⟨h0, _, _⟩
    · exact ⟨h1, by rw [hw, h2]; simp⟩
    · exact absurd ⟨_, rfl, by rw [hmap']; exact hlk⟩ h0
  · rintro j rfl hj
    rcases key j h with ⟨_, h1, h2⟩ | ⟨h0, _, _⟩
    · exact ⟨h1, by rw [hw, h2]; simp⟩
    · exact absurd hj h0
  · rintro j rfl hj
    rcases key j h with ⟨h0, _, _⟩ | ⟨_, h1, h2⟩
    · exact absurd h0 hj
    · exact ⟨h1, by rw [hw, h2]⟩

theorem kept_lineTerminators {arg : Option J} {l : List J} {w : Bool} (warned : Prop) (hw : warned ↔ w = true)
    (h : convertLineTerminators (arg.getD (.arr [.str "\r\n".toList, .str "\n".toList])) = (l, w)) :
    Kept IsArray id (.arr [.str "\r\n".toList, .str "\n".toList]) arg (.arr l) warned := by
  refine ⟨?_, ?_, ?_⟩
  · rintro rfl
    simp only [Option.getD_none, convertLineTerminators, Prod.mk.injEq] at h
    exact ⟨by rw [h.1], by rw [hw, ← h.2]; simp⟩
  · rintro j rfl ⟨l', rfl⟩
    simp only [Option.getD_some, convertLineTerminators, Prod.mk.injEq] at h
    exact ⟨by rw [h.1]; rfl, by rw [hw, ← h.2]; simp⟩
  · rintro j rfl hj
    have : convertLineTerminators j = ([.str "\r\n".toList, .str "\n".toList], true) := by
      cases j <;> first | rfl | exact absurd ⟨_, rfl⟩ hj
    simp only [Option.getD_some, this, Prod.mk.injEq] at h
    exact ⟨by rw [h.1], by rw [hw, ← h.2]⟩

/-- **C14** Every constructed dialect has only known properties, and each is given by the rule of `Kept`. (Types are part
of the statement: e.g. `skipRows` is a natural number, `header` a boolean.) -/
theorem C14_dialect_valid (lk : EncLookup) (hlk : lk "utf-8".toList = .ok ()) (kw : List (Str × J)) (d : Dialect)
    (warned : List Str) (h : Dialect.construct lk kw = .ok (d, warned)) : DialectOk lk kw d warned := by
  unfold Dialect.construct at h
  simp only at h
  split at h
  · simp at h
  next hk =>
  simp only [bind, Except.bind, pure, Except.pure] at h
  cases hE : convertEncoding lk ((Dict.get "encoding".toList kw).getD (.str "utf-8".toList)) with
  | error e => rw [hE] at h; simp at h
  | ok p =>
  obtain ⟨encJ, w1⟩ := p
  rw [hE] at h
  simp only at h
  generalize hL : convertLineTerminators _ = rL at h
  generalize hQ : converter J.isStr (.str ['"']) true _ = rQ at h
  generalize hDQ : converter J.isBool (.bool true) false ((Dict.get "doubleQuote".toList kw).getD _) = rDQ at h
  generalize hSR : converter J.isNonNegInt (.int 0) false ((Dict.get "skipRows".toList kw).getD _) = rSR at h
  generalize hCP : converter J.isStr (.str ['#']) true _ = rCP at h
  generalize hHD : converter J.isBool (.bool true) false ((Dict.get "header".toList kw).getD _) = rHD at h
  generalize hHC : converter J.isNonNegInt (.int 1) false _ = rHC at h
  generalize hDL : converter J.isStr (.str [',']) false _ = rDL at h
  generalize hSC : converter J.isNonNegInt (.int 0) false ((Dict.get "skipColumns".toList kw).getD _) = rSC at h
  generalize hSB : converter J.isBool (.bool false) false ((Dict.get "skipBlankRows".toList kw).getD _) = rSB at h
  generalize hSI : converter J.isBool (.bool false) false ((Dict.get "skipInitialSpace".toList kw).getD _) = rSI at h
  generalize hTR : convertTrim _ = rTR at h
  obtain ⟨lts, w2⟩ := rL
  obtain ⟨qc, w3⟩ := rQ
  obtain ⟨dqJ, w4⟩ := rDQ
  obtain ⟨srJ, w5⟩ := rSR
  obtain ⟨cpJ, w6⟩ := rCP
  obtain ⟨hdJ, w7⟩ := rHD
  obtain ⟨hcJ, w8⟩ := rHC
  obtain ⟨dlJ, w9⟩ := rDL
  obtain ⟨scJ, w10⟩ := rSC
  obtain ⟨sbJ, w11⟩ := rSB
  obtain ⟨siJ, w12⟩ := rSI
  obtain ⟨trJ, w13⟩ := rTR
  simp only at h
  cases v1 : asStr encJ with | error e => rw [v1] at h; simp at h | ok enc =>
  rw [v1] at h
  cases v2 : asBool dqJ with | error e => rw [v2] at h; simp at h | ok dq =>
  rw [v2] at h
  cases v3 : asNat srJ with | error e => rw [v3] at h; simp at h | ok sr =>
  rw [v3] at h
  cases v4 : asOptStr cpJ with | error e => rw [v4] at h; simp at h | ok cp =>
  rw [v4] at h
  cases v5 : asBool hdJ with | error e => rw [v5] at h; simp at h | ok hd =>
  rw [v5] at h
  cases v6 : asNat hcJ with | error e => rw [v6] at h; simp at h | ok hc =>
  rw [v6] at h
  cases v7 : asStr dlJ with | error e => rw [v7] at h; simp at h | ok dl =>
  rw [v7] at h
  cases v8 : asNat scJ with | error e => rw [v8] at h; simp at h | ok sc =>
  rw [v8] at h
  cases v9 : asBool sbJ with | error e => rw [v9] at h; simp at h | ok sb =>
  rw [v9] at h
  cases v10 : asBool siJ with | error e => rw [v10] at h; simp at h | ok si =>
  rw [v10] at h
  cases v11 : asTrim trJ with | error e => rw [v11] at h; simp at h | ok tr =>
  rw [v11] at h
  simp only [Except.ok.injEq, Prod.mk.injEq] at h
  obtain ⟨rfl, hws⟩ := h
  have hmem : ∀ n : String, n.toList ∈ warned ↔
      (n.toList = "encoding".toList ∧ w1 = true) ∨ (n.toList = "lineTerminators".toList ∧ w2 = true) ∨
      (n.toList = "quoteChar".toList ∧ w3 = true) ∨ (n.toList = "doubleQuote".toList ∧ w4 = true) ∨
      (n.toList = "skipRows".toList ∧ w5 = true) ∨ (n.toList = "commentPrefix".toList ∧ w6 = true) ∨
      (n.toList = "header".toList ∧ w7 = true) ∨ (n.toList = "headerRowCount".toList ∧ w8 = true) ∨
      (n.toList = "delimiter".toList ∧ w9 = true) ∨ (n.toList = "skipColumns".toList ∧ w10 = true) ∨
      (n.toList = "skipBlankRows".toList ∧ w11 = true) ∨ (n.toList = "skipInitialSpace".toList ∧ w12 = true) ∨
      (n.toList = "trim".toList ∧ w13 = true) := by
    intro n
    rw [← hws]
    simp only [List.mem_append, mem_warn, or_assoc]
  clear hws
  have bv : ∀ j : J, (∀ l, j ≠ .arr l) → (IsBoolean j ↔ (j.isBool = true ∨ (false = true ∧ j = .null))) := by
    intro j _; simp [isBool_iff]
  have nv : ∀ j : J, (∀ l, j ≠ .arr l) → (IsCount j ↔ (j.isNonNegInt = true ∨ (false = true ∧ j = .null))) := by
    intro j _; simp [isNonNegInt_iff]
  have sv : ∀ j : J, (∀ l, j ≠ .arr l) → (IsString j ↔ (j.isStr = true ∨ (false = true ∧ j = .null))) := by
    intro j _; simp [isStr_iff]
  have ov : ∀ j : J, (∀ l, j ≠ .arr l) → (IsStringOrNull j ↔ (j.isStr = true ∨ (true = true ∧ j = .null))) := by
    intro j _; simp [isStr_iff, IsStringOrNull, IsString, or_comm]
  have e2 := asBool_ok v2; have e3 := asNat_ok v3; have e4 := asOptStr_ok v4; have e5 := asBool_ok v5
  have e6 := asNat_ok v6; have e7 := asStr_ok v7; have e8 := asNat_ok v8; have e9 := asBool_ok v9
  have e10 := asBool_ok v10
  subst e2 e3 e4 e5 e6 e7 e8 e9 e10
  refine ⟨?_, ?_, ?_, ?_, ?_, ?_, ?_, ?_, ?_, ?_, ?_, ?_, ?_, ?_⟩
  · intro k hk'
    simp only [List.any_eq_true, not_exists, not_and, Bool.not_eq_true', Bool.not_eq_false] at hk
    obtain ⟨p, hp, rfl⟩ := List.mem_map.1 hk'
    have := hk p hp
    simpa using this
  · exact kept_encoding hlk _ (by rw [hmem]; simp) hE v1
  · exact kept_lineTerminators _ (by rw [hmem]; simp) hL
  · intro hq
    refine kept_converter _ _ (by rw [hmem]; simp) ?_ hQ ov (by simp) rfl
    rintro l rfl
    cases hg : Dict.get "quoteChar".toList kw with
    | none => rw [hg] at hQ; simp [converter, J.isStr] at hQ
    | some j =>
      rw [hg] at hQ hq
      cases j <;> simp [converter, J.isStr] at hQ
      exact hq _ rfl
  · exact kept_converter _ _ (by rw [hmem]; simp) (by simp) hDQ bv (by simp) rfl
  · exact kept_converter _ _ (by rw [hmem]; simp) (by simp) hSR nv (by simp) rfl
  · exact kept_converter _ _ (by rw [hmem]; simp) (by intro l; cases cp <;> simp [J.ofOptStr]) hCP ov (by simp) rfl
  · exact kept_converter _ _ (by rw [hmem]; simp) (by simp) hHD bv (by simp) rfl
  · exact kept_converter _ _ (by rw [hmem]; simp) (by simp) hHC nv (by simp) rfl
  · exact kept_converter _ _ (by rw [hmem]; simp) (by simp) hDL sv (by simp) rfl
  · exact kept_converter _ _ (by rw [hmem]; simp) (by simp) hSC nv (by simp) rfl
  · exact kept_converter _ _ (by rw [hmem]; simp) (by simp) hSB bv (by simp) rfl
  · exact kept_converter _ _ (by rw [hmem]; simp) (by simp) hSI bv (by simp) rfl
  · exact kept_trim _ (by rw [hmem]; simp) hTR v11

theorem asBool_conv (dflt : Bool) (arg : Option J) (h : ∀ l, arg ≠ some (.arr l)) :
    ∃ b, asBool (converter J.isBool (.bool dflt) false (arg.getD (.bool dflt))).1 = .ok b := by
  cases arg with
  | none => exact ⟨dflt, rfl⟩
  | some j => cases j <;> first | exact ⟨_, rfl⟩ | exact absurd rfl (h _)
theorem asNat_conv (dflt : Nat) (arg : Option J) (h : ∀ l, arg ≠ some (.arr l)) :
    ∃ b, asNat (converter J.isNonNegInt (.int dflt) false (arg.getD (.int dflt))).1 = .ok b := by
  cases arg with
  | none => exact ⟨dflt, by simp [converter, J.isNonNegInt, asNat]⟩
  | some j =>
    cases j with
    | int i =>
      by_cases hi : 0 ≤ i
      · exact ⟨i.toNat, by simp [converter, J.isNonNegInt, asNat, hi]⟩
      · exact ⟨dflt, by simp [converter, J.isNonNegInt, asNat, hi]⟩
    | arr l => exact absurd rfl (h l)
    | _ => exact ⟨dflt, by simp [converter, J.isNonNegInt, asNat]⟩
theorem asStr_conv (dflt : Str) (arg : Option J) (h : ∀ l, arg ≠ some (.arr l)) :
    ∃ b, asStr (converter J.isStr (.str dflt) false (arg.getD (.str dflt))).1 = .ok b := by
  cases arg with
  | none => exact ⟨dflt, rfl⟩
  | some j => cases j <;> first | exact ⟨_, rfl⟩ | exact absurd rfl (h _)
theorem asOptStr_conv (dflt : Str) (arg : Option J) (h : ∀ l, arg ≠ some (.arr l)) :
    ∃ b, asOptStr (converter J.isStr (.str dflt) true (arg.getD (.str dflt))).1 = .ok b := by
  cases arg with
  | none => exact ⟨some dflt, rfl⟩
  | some j => cases j <;> first | exact ⟨_, rfl⟩ | exact absurd rfl (h _)
theorem asTrim_conv (arg : Option J) (h : ∀ l, arg ≠ some (.arr l)) (hs : ∀ s, arg = some (.str s) → IsTrim (.str s)) :
    ∃ b, asTrim (convertTrim (arg.getD (.str "false".toList))).1 = .ok b := by
  cases arg with
  | none => exact ⟨.false_, rfl⟩
  | some j =>
    cases j with
    | arr l => exact absurd rfl (h l)
    | bool b => cases b <;> exact ⟨_, rfl⟩
    | str s =>
      have := hs s rfl
      simp only [IsTrim, reduceCtorEq, List.map_cons, List.map_nil, List.mem_cons, J.str.injEq, List.not_mem_nil,
        or_false, false_or] at this
      rcases this with rfl | rfl | rfl | rfl <;> exact ⟨_, rfl⟩
    | _ => exact ⟨.false_, rfl⟩
theorem asStr_enc {lk : EncLookup} {arg : Option J} {e : J} {w : Bool}
    (h : convertEncoding lk (arg.getD (.str "utf-8".toList)) = .ok (e, w)) : ∃ b, asStr e = .ok b := by
  unfold convertEncoding at h
  split at h
  · split at h <;> simp at h <;> (obtain ⟨rfl, _⟩ := h; exact ⟨_, rfl⟩)
  · simp at h

/-- **C14** The constructor raises only because of an unknown property, a list given for a property (other than
`lineTerminators`, `quoteChar`), a string which is no trim keyword, or a codec lookup failing in an unusual way. -/
theorem C14_raises_only (lk : EncLookup) (kw : List (Str × J))
    (hk : ∀ k ∈ Dict.keys kw, k ∈ Dialect.propNames)
    (hl : ∀ n ∈ Dialect.propNames, n ≠ "lineTerminators".toList → n ≠ "quoteChar".toList →
      ∀ l, Dict.get n kw ≠ some (.arr l))
    (ht : ∀ s, Dict.get "trim".toList kw = some (.str s) → IsTrim (.str s))
    (he : ∀ s, lk s = .ok () ∨ lk s = .error .keyError) :
    ∃ d w, Dialect.construct lk kw = .ok (d, w) := by
  unfold Dialect.construct
  have hany : kw.any (fun p => !Dialect.propNames.contains p.1) = false := by
    rw [List.any_eq_false]
    intro p hp
    have := hk p.1 (List.mem_map_of_mem hp)
    simpa using this
  simp only [hany, Bool.false_eq_true, if_false]
  have hE : ∃ e w, convertEncoding lk ((Dict.get "encoding".toList kw).getD (.str "utf-8".toList)) = .ok (e, w) := by
    have hs : ∀ s, ∃ e w, convertEncoding lk (.str s) = .ok (e, w) := by
      intro s
      rcases he (encodingMap s) with h | h
      · exact ⟨.str s, false, by simp [convertEncoding, converter, J.isStr, h]⟩
      · exact ⟨.str "utf-8".toList, true, by simp [convertEncoding, converter, J.isStr, h]⟩
    have hbad : ∀ j : J, j.isStr = false → (∀ l, j ≠ .arr l) → ∃ e w, convertEncoding lk j = .ok (e, w) := by
      intro j hj hja
      have : converter J.isStr (.str "utf-8".toList) false j = (.str "utf-8".toList, true) := by
        cases j <;> first | rfl | exact absurd rfl (hja _) | (simp [J.isStr] at hj; done)
      unfold convertEncoding
      rw [this]
      rcases he (encodingMap "utf-8".toList) with h | h <;> simp only [h] <;> exact ⟨_, _, rfl⟩
    cases hg : Dict.get "encoding".toList kw with
    | none => exact hs _
    | some j =>
      cases j with
      | str s => exact hs s
      | arr l => exact absurd hg (hl _ (by decide) (by decide) (by decide) l)
      | null | bool b | int i | flt f | obj m => exact hbad _ rfl (by simp)
  obtain ⟨e, w, hE⟩ := hE
  obtain ⟨b0, h0⟩ := asStr_enc hE
  obtain ⟨b1, h1⟩ := asBool_conv true _ (hl "doubleQuote".toList (by decide) (by decide) (by decide))
  obtain ⟨b2, h2⟩ := asNat_conv 0 _ (hl "skipRows".toList (by decide) (by decide) (by decide))
  obtain ⟨b3, h3⟩ := asOptStr_conv ['#'] _ (hl "commentPrefix".toList (by decide) (by decide) (by decide))
  obtain ⟨b4, h4⟩ := asBool_conv true _ (hl "header".toList (by decide) (by decide) (by decide))
  obtain ⟨b5, h5⟩ := asNat_conv 1 _ (hl "headerRowCount".toList (by decide) (by decide) (by decide))
  obtain ⟨b6, h6⟩ := asStr_conv [','] _ (hl "delimiter".toList (by decide) (by decide) (by decide))
  obtain ⟨b7, h7⟩ := asNat_conv 0 _ (hl "skipColumns".toList (by decide) (by decide) (by decide))
  obtain ⟨b8, h8⟩ := asBool_conv false _ (hl "skipBlankRows".toList (by decide) (by decide) (by decide))
  obtain ⟨b9, h9⟩ := asBool_conv false _ (hl "skipInitialSpace".toList (by decide) (by decide) (by decide))
  obtain ⟨b10, h10⟩ := asTrim_conv _ (hl "trim".toList (by decide) (by decide) (by decide)) ht
  simp only [Int.ofNat_zero, Int.cast_ofNat_Int, Int.ofNat_one] at h2 h5 h7
  simp only [hE, bind, Except.bind, pure, Except.pure, h0, h1, h2, h3, h4, h5, h6, h7, h8, h9, h10]
  exact ⟨_, _, rfl⟩

/-- Lookup of an encoding: everything is known but `"nope"`. -/
def lkExample : EncLookup := fun s => if s = "nope".toList then .error .keyError else .ok ()

/-- Non-vacuity: valid, invalid and missing values. -/
example : ∃ d w, Dialect.construct lkExample [("skipRows".toList, .int (-1)), ("trim".toList, .bool true),
      ("encoding".toList, .str "nope".toList), ("delimiter".toList, .str [';'])] = .ok (d, w) ∧
    d.skipRows = 0 ∧ d.trim = .true_ ∧ d.delimiter = [';'] ∧ w = ["encoding".toList, "skipRows".toList] :=
  ⟨_, _, rfl, by decide⟩

/-- **C14** boundary: a list given as `quoteChar` is neither rejected nor replaced (no validator,
dsv_dialects.py 61-64). -/
theorem C14_violated_quoteChar_list :
    ∃ d, Dialect.construct lkExample [("quoteChar".toList, .arr [.int 1, .str ['x']])] = .ok (d, []) ∧
      d.quoteChar = .arr [.str ['x']] := ⟨_, rfl, by simp [convList, J.isStr]⟩

/-! ## C15 -/

/-- A dialect that `Dialect(...)` can produce: its encoding is known and its quote character a string or `None`. -/
def Constructible (lk : EncLookup) (d : Dialect) : Prop :=
  lk (codecOf d.encoding) = .ok () ∧ IsStringOrNull d.quoteChar

theorem fields_keys (d : Dialect) : Dict.keys d.fields = Dialect.propNames := rfl

theorem propNames_nodup : Dialect.propNames.Nodup := by decide

/-- The value of each property is recovered from `asdict`, with the default for omitted ones. -/
theorem asdict_getD (d : Dialect) (o : Bool) (n : Str) (v dflt : J) (hv : Dict.get n d.fields = some v)
    (hd : Dict.get n Dialect.defaults = some dflt) : (Dict.get n (d.asdict o)).getD dflt = v := by
  unfold Dialect.asdict
  rw [Dict.get_filter _ _ _ (by rw [fields_keys]; exact propNames_nodup), hv]
  simp only [Option.filter]
  split
  · rfl
  · next hc =>
    simp only [Bool.not_eq_true', Bool.not_eq_false, Bool.and_eq_true, decide_eq_true_eq] at hc
    rw [hd] at hc
    simpa using hc.2

theorem asNat_int (n : Nat) : asNat (.int n) = .ok n := by
  simp [asNat]

theorem conv_bool (dflt : J) (b : Bool) : converter J.isBool dflt false (.bool b) = (.bool b, false) := rfl
theorem conv_nat (dflt : J) (n : Nat) : converter J.isNonNegInt dflt false (.int n) = (.int n, false) := by
  simp [converter, J.isNonNegInt]
theorem conv_str (dflt : J) (an : Bool) (s : Str) : converter J.isStr dflt an (.str s) = (.str s, false) := by
  simp [converter, J.isStr]
theorem conv_opt (dflt : J) (s : Option Str) : converter J.isStr dflt true (J.ofOptStr s) = (J.ofOptStr s, false) := by
  cases s <;> simp [converter, J.isStr, J.ofOptStr]
theorem conv_quote (dflt : J) {j : J} (h : IsStringOrNull j) : converter J.isStr dflt true j = (j, false) := by
  rcases h with rfl | ⟨s, rfl⟩ <;> simp [converter, J.isStr]
theorem conv_trim (t : Trim) : convertTrim (.str (trimStr t)) = (.str (trimStr t), false) := by
  cases t <;> rfl
theorem asTrim_trim (t : Trim) : asTrim (.str (trimStr t)) = .ok t := by cases t <;> decide
theorem conv_enc {lk : EncLookup} {e : Str} (h : lk (encodingMap e) = .ok ()) :
    convertEncoding lk (.str e) = .ok (.str e, false) := by
  simp [convertEncoding, conv_str, h]
theorem asOptStr_of (s : Option Str) : asOptStr (J.ofOptStr s) = .ok s := by cases s <;> rfl

/-- Constructing from a map which has the attribute values of `d`, up to omitted defaults. -/
theorem construct_of_values (lk : EncLookup) (d : Dialect) (hc : Constructible lk d) (kw : List (Str × J))
    (hk : ∀ p ∈ kw, p.1 ∈ Dialect.propNames)
    (hv : ∀ n v dflt, Dict.get n d.fields = some v → Dict.get n Dialect.defaults = some dflt →
      (Dict.get n kw).getD dflt = v) :
    Dialect.construct lk kw = .ok (d, []) := by
  unfold Dialect.construct
  have hany : kw.any (fun p => !Dialect.propNames.contains p.1) = false := by
    rw [List.any_eq_false]
    intro p hp
    have := hk p hp
    simpa using this
  simp only [hany, Bool.false_eq_true, if_false]
  simp only [hv "encoding".toList _ _ rfl rfl, hv "lineTerminators".toList _ _ rfl rfl, hv "quoteChar".toList _ _ rfl rfl,
    hv "doubleQuote".toList _ _ rfl rfl, hv "skipRows".toList (.int d.skipRows) (.int 0) rfl rfl, hv "commentPrefix".toList (J.ofOptStr d.commentPrefix) (.str ['#']) rfl rfl,
    hv "header".toList _ _ rfl rfl, hv "headerRowCount".toList (.int d.headerRowCount) (.int 1) rfl rfl, hv "delimiter".toList _ _ rfl rfl,
    hv "skipColumns".toList (.int d.skipColumns) (.int 0) rfl rfl, hv "skipBlankRows".toList _ _ rfl rfl,
    hv "skipInitialSpace".toList _ _ rfl rfl, hv "trim".toList (.str (trimStr d.trim)) (.str "false".toList) rfl rfl]
  simp only [conv_bool, conv_nat, conv_str, conv_opt, conv_quote _ hc.2, conv_trim, conv_enc hc.1, asTrim_trim, asNat_int,
    asOptStr_of, asBool, asStr, convertLineTerminators, bind, Except.bind, pure, Except.pure, Bool.false_eq_true, if_false,
    List.append_nil]

/-- **C15** `Dialect(**d.asdict(omit_defaults)) == d`, without warnings. -/
theorem C15_asdict_roundtrip (lk : EncLookup) (d : Dialect) (hc : Constructible lk d) (omitDefaults : Bool) :
    Dialect.construct lk (d.asdict omitDefaults) = .ok (d, []) := by
  apply construct_of_values lk d hc
  · intro p hp
    have : p ∈ d.fields := (List.mem_filter.1 hp).1
    rw [← fields_keys d]
    exact List.mem_map_of_mem this
  · exact fun n v dflt => asdict_getD d omitDefaults n v dflt

/-- **C15** `asdict()` contains exactly the properties which differ from the defaults. -/
theorem C15_asdict_omits_exactly_defaults (d : Dialect) (n : Str) (v : J) :
    Dict.get n d.asdict = some v ↔ Dict.get n d.fields = some v ∧ Dict.get n Dialect.defaults ≠ some v := by
  unfold Dialect.asdict
  rw [Dict.get_filter _ _ _ (by rw [fields_keys]; exact propNames_nodup)]
  simp [Option.filter_eq_some_iff]

/-- **C15** Every constructed dialect is constructible (unless a list was passed as quote character), so the round-trip
applies to it. -/
theorem C15_constructed_is_constructible (lk : EncLookup) (hlk : lk "utf-8".toList = .ok ()) (kw : List (Str × J))
    (d : Dialect) (w : List Str) (h : Dialect.construct lk kw = .ok (d, w))
    (hq : ∀ l, Dict.get "quoteChar".toList kw ≠ some (.arr l)) : Constructible lk d := by
  have ok := C14_dialect_valid lk hlk kw d w h
  have gen : ∀ {valid : J → Prop} {dflt : J} {arg : Option J} {value : J} {wd : Prop},
      Kept valid id dflt arg value wd → valid dflt → valid value := by
    intro valid dflt arg value wd hk hd
    cases arg with
    | none => rw [(hk.absent rfl).1]; exact hd
    | some j =>
      by_cases hj : valid j
      · rw [(hk.kept j rfl hj).1]; exact hj
      · rw [(hk.replaced j rfl hj).1]; exact hd
  refine ⟨?_, gen (ok.quoteChar hq) (.inr ⟨_, rfl⟩)⟩
  obtain ⟨s, h1, h2⟩ := gen ok.encoding ⟨_, rfl, hlk⟩
  cases h1
  exact h2

/-- **C15** `updated(**kw)` changes exactly the given properties. -/
theorem C15_updated_changes_exactly (lk : EncLookup) (d : Dialect) (hc : Constructible lk d) (kw : List (Str × J))
    (hn : (Dict.keys kw).Nodup) :
    ∃ m, Dialect.updated lk d kw = .ok m ∧
      ∀ n, Dict.get n m = match Dict.get n kw with | some v => some v | none => Dict.get n d.fields := by
  have h : Dialect.construct lk d.fields = .ok (d, []) := by
    have := C15_asdict_roundtrip lk d hc false
    have e : d.asdict false = d.fields := by simp [Dialect.asdict]
    rwa [e] at this
  refine ⟨Dict.update d.fields kw, by simp [Dialect.updated, h], ?_⟩
  intro n
  rw [Dict.get_update, Dict.get_reverse_of_nodup hn]
  cases Dict.get n kw <;> rfl

/-- Non-vacuity. -/
example : Constructible lkExample { skipRows := 2, quoteChar := .null, trim := .start, encoding := "latin1".toList } ∧
    ({ skipRows := 2, quoteChar := .null, trim := .start } : Dialect).asdict =
      [("quoteChar".toList, .null), ("skipRows".toList, .int 2), ("trim".toList, .str "start".toList)] :=
  ⟨⟨by decide, .inl rfl⟩, by decide⟩

end Csvw.Props

import Verif.Lemmas.NumberPattern
import Verif.Lemmas.DecimalRt
import Verif.Props.C20_C21
import Verif.Props.C26_C27
/-!
# C28: number patterns

`Spec.NumPattern` is a pattern `#,##0.0##`, `Spec.NumText` a plain number; `Spec.Conforms` says that the number conforms to the pattern.
-/

namespace Csvw.Props
open Datatypes Spec

/-- **C28** (exact) For all patterns and plain numbers: `NumberPattern(pattern).is_valid(number)` is true if and only if the number conforms. -/
theorem C28_is_valid_iff {p : NumPattern} {v : NumText} (hp : p.WF) (hv : v.WF) :
    NumPat.valid p.text v.text = .ok true ↔ Conforms p v := by
  unfold NumPat.valid
  rw [NumPat.positive_text hp]
  simp only [Except.map, Except.ok.injEq]
  exact NumPat.isValid_iff hp hv

theorem C28_is_valid_false {p : NumPattern} {v : NumText} (hp : p.WF) (hv : v.WF) (h : ¬ Conforms p v) :
    NumPat.valid p.text v.text = .ok false := by
  unfold NumPat.valid
  rw [NumPat.positive_text hp]
  simp only [Except.map, Except.ok.injEq]
  rw [← Bool.not_eq_true, NumPat.isValid_iff hp hv]
  exact h

theorem pattern_ne_nil {p : NumPattern} (hp : p.WF) : p.text ≠ [] := by
  intro h
  obtain ⟨hne, hg⟩ := hp
  unfold NumPattern.text at h
  have h := (List.append_eq_nil_iff.1 h).1
  cases hgs : p.groups with
  | nil => exact hne hgs
  | cons g gs =>
    rw [hgs] at h hg
    have hgne := (hg g (by simp)).1
    cases gs with
    | nil => simp [Py.join] at h; exact hgne h
    | cons a b =>
      rw [Py.join_cons_cons] at h
      simp at h

theorem replace_same (c : Char) (s : Str) : Py.replace [c] [c] s = s := by
  rw [Py.replace_char]
  refine (flatMap_congr' (g := fun x => [x]) ?_).trans (flatMap_single s)
  intro x _
  by_cases h : x = c <;> simp [h]

/-- The test of the pattern in `decimal.to_python`. -/
theorem decToPython_pattern {q : Str} (hq : q ≠ []) {x : Str} {d : Dec}
    (h : decToPython ⟨some q, none, none⟩ x = .ok d) : NumPat.valid q x = .ok true := by
  unfold decToPython at h
  simp only [charFromPattern, Option.getD_some] at h
  split at h
  · simp at h
  split at h
  · simp at h
  have hr : ∀ (q1 q2 : Bool), Py.replace (orStr (if q1 then some ['.'] else none) ['.']) ['.']
      (Py.replace (orStr (if q2 then some [','] else none) [',']) [','] x) = x := by
    intro q1 q2
    cases q1 <;> cases q2 <;> simp [orStr, replace_same]
  rw [hr] at h
  obtain ⟨c, cs, hpt⟩ : ∃ c cs, q = c :: cs := by
    cases hq' : q with
    | nil => exact absurd hq' hq
    | cons c cs => exact ⟨c, cs, rfl⟩
  rw [hpt] at h ⊢
  try simp only at h
  cases hv : NumPat.valid (c :: cs) x with
  | error e => rw [hv] at h; simp at h
  | ok b =>
    cases b with
    | false => rw [hv] at h; simp at h
    | true => rfl

section
variable {ext : Ext} {other : Base → Derived → J → Res Val} {s : DatatypeSpec} {dt : Datatype}

theorem pattern_descr {q : Str} (hq : q ≠ [])
    (hchars : (q.all fun c => "#0.,;%‰E-+".toList.contains c) = true) (hB : Datatype.Built ext other s dt)
    (hk : dt.base.kind = .decimal ∨ dt.base.kind = .integer ∨ dt.base.kind = .float) (hf : s.format = .str q) :
    dt.descr ext = .ok (.num ⟨some q, none, none⟩) := by
  have hd : derived ext dt.base (.str q) = .ok (.num ⟨some q, none, none⟩) := by
    rcases hk with hk | hk | hk <;> simp [derived, hk, numDerived, J.truthy, hq]
  obtain ⟨d, hd', hfm, _⟩ := hB.descr
  rw [hf, hd] at hd'
  simp only [Except.ok.injEq] at hd'
  subst hd'
  have hchars' : (q.all Datatype.patternChar) = true := hchars
  have hfm := hB.format_eq (by
    rw [hf]
    rcases hk with hk | hk | hk <;> simp [Datatype.badPattern, hk, J.truthy, hq, Datatype.patternSet, hchars'])
  unfold Datatype.descr
  rw [hfm, hf]
  exact hd

/-- The numeric datatypes. -/
def numericTypes : List String := ["decimal", "float", "number", "double"] ++ integerTypes

theorem numeric_kind {t : String} (ht : t ∈ numericTypes) :
    ∃ b, Datatype.convBase (.str t.toList) = .ok b ∧ (b.kind = .decimal ∨ b.kind = .integer ∨ b.kind = .float) := by
  unfold numericTypes at ht
  rcases List.mem_append.1 ht with ht | ht
  · simp only [List.mem_cons, List.not_mem_nil, or_false] at ht
    rcases ht with rfl | rfl | rfl | rfl
    · exact ⟨.decimal, by decide, .inl rfl⟩
    · exact ⟨.float, by decide, .inr (.inr rfl)⟩
    · exact ⟨.number, by decide, .inr (.inr rfl)⟩
    · exact ⟨.double, by decide, .inr (.inr rfl)⟩
  · obtain ⟨b, h1, h2⟩ := integer_kind ht
    exact ⟨b, h1, .inr (.inl h2)⟩

/-- **C28** For every numeric datatype with any pattern as format: a text which `read` accepts passed the test of the pattern
(for the decimal types only if the pattern consists of pattern characters; other formats are ignored). -/
theorem C28_read_valid {t : String} (ht : t ∈ numericTypes) (hb : s.base = .str t.toList) {q : Str} (hq : q ≠ [])
    (hchars : (q.all fun c => "#0.,;%‰E-+".toList.contains c) = true)
    (hf : s.format = .str q) (h : Datatype.construct ext other s = .ok dt) {x : Str} {w : Val}
    (hr : dt.read ext x = .ok w) : NumPat.valid q x = .ok true := by
  have hB := Datatype.built_of_construct h
  obtain ⟨b, hcb, hbk⟩ := numeric_kind ht
  have hbase := base_of hB (b := b) (by rw [hb]; exact hcb)
  rw [← hbase] at hbk
  have hd := pattern_descr hq hchars hB hbk hf
  unfold Datatype.read Datatype.parse at hr
  rw [hd] at hr
  simp only at hr
  split at hr
  · simp at hr
  · next u hu =>
    unfold toPython at hu
    rcases hbk with hk | hk | hk
    · simp only [hk, numFmtOf] at hu
      cases hd' : decToPython ⟨some q, none, none⟩ x with
      | error e => rw [hd'] at hu; simp [Except.map] at hu
      | ok d => exact decToPython_pattern hq hd'
    · simp only [hk, numFmtOf] at hu
      cases hd' : decToPython ⟨some q, none, none⟩ x with
      | error e => unfold intToPython at hu; rw [hd'] at hu; simp [Except.map] at hu
      | ok d => exact decToPython_pattern hq hd'
    · simp only [hk, numFmtOf, Option.getD_some] at hu
      have hu' : (match NumPat.valid q x with
          | .error e => Except.error e
          | .ok false => Except.error PyErr.valueError
          | .ok true => (match ext.floatParse x with
            | some t => Except.ok (Val.flt t)
            | none => Except.error PyErr.valueError : Res Val)) = .ok u := by
        exact hu
      cases hv' : NumPat.valid q x with
      | error e => rw [hv'] at hu'; simp at hu'
      | ok b =>
        cases b with
        | false => rw [hv'] at hu'; simp at hu'
        | true => rfl

/-- **C28** For every numeric datatype with a pattern as format: a plain number which `read` accepts conforms to the pattern. -/
theorem C28_read_conforms {t : String} (ht : t ∈ numericTypes) (hb : s.base = .str t.toList) {p : NumPattern} (hp : p.WF)
    (hf : s.format = .str p.text) (h : Datatype.construct ext other s = .ok dt) {v : NumText} (hv : v.WF) {w : Val}
    (hr : dt.read ext v.text = .ok w) : Conforms p v := by
  rw [← C28_is_valid_iff hp hv]
  refine C28_read_valid ht hb (pattern_ne_nil hp) ?_ hf h hr
  rw [List.all_eq_true]
  intro c hc
  rcases NumPat.text_mem hp hc with rfl | rfl | rfl | rfl <;> decide


theorem sigLen_le (ds : Str) : sigLen ds ≤ ds.length := by
  unfold sigLen
  split
  · next h =>
    cases ds with
    | nil => exact absurd rfl h.1
    | cons a b => simp
  · exact (List.dropWhile_sublist _).length_le

/-- The number of digits before the decimal point which the pattern requires: all its `0` there. -/
def requiredDigits (p : NumPattern) : Nat := p.groups.flatten.count '0'

/-- **C28** (what the property says) A plain number accepted by a numeric datatype with a pattern has: between the required and the allowed
number of digits after the decimal point; a last group of exactly the size given by the pattern and further groups of the size of the other
groups of the pattern, except that the first may be shorter; and, if in the pattern all the `0` of the integer part are at the end of
the last group, at least the required number of digits before the decimal point. -/
theorem C28_digits {t : String} (ht : t ∈ numericTypes) (hb : s.base = .str t.toList) {p : NumPattern} (hp : p.WF)
    (hf : s.format = .str p.text) (h : Datatype.construct ext other s = .ok dt) {v : NumText} (hv : v.WF) {w : Val}
    (hr : dt.read ext v.text = .ok w) :
    p.zeros ≤ (v.frac.getD []).length ∧ (v.frac.getD []).length ≤ p.zeros + p.hashes ∧
    (2 ≤ p.groups.length → 2 ≤ v.groups.length →
      (v.groups.getLast?.getD []).length = (p.groups.getLast?.getD []).length) ∧
    (∀ n ∈ p.secondary, 2 ≤ v.groups.length →
      (v.groups.headD []).length ≤ n ∧ ∀ g ∈ v.groups.dropLast.tail, g.length = n) ∧
    (p.minDigits = requiredDigits p → requiredDigits p ≤ v.groups.flatten.length) := by
  have hc := C28_read_conforms ht hb hp hf h hv hr
  refine ⟨hc.minFrac, hc.maxFrac, ?_, hc.otherGroups, ?_⟩
  · intro h1 h2
    have : p.primary = some (p.groups.getLast?.getD []).length := by simp [NumPattern.primary, h1]
    exact (hc.lastGroup _ this).2 h2
  · intro heq
    rw [← heq]
    exact Nat.le_trans hc.intDigits (sigLen_le _)

theorem join_no_double {gs : List Str} (hne : ∀ g ∈ gs, g ≠ []) (hc : ∀ g ∈ gs, ',' ∉ g) :
    Py.contains [',', ','] (Py.join [','] gs) = false := by
  induction gs with
  | nil => rfl
  | cons g gs ih =>
    have ih := ih (fun q hq => hne q (by simp [hq])) (fun q hq => hc q (by simp [hq]))
    cases gs with
    | nil => rw [show Py.join [','] [g] = g by simp [Py.join]]; exact not_contains_double (hc g (by simp))
    | cons a b =>
      rw [Py.join_cons_cons, Bool.eq_false_iff]
      intro h
      rw [List.append_assoc] at h
      have h := contains_double_append' (hc g (by simp)) h
      simp only [List.cons_append, List.nil_append, Py.contains, Bool.or_eq_true] at h
      rcases h with h | h
      · obtain ⟨x, xs, hx⟩ : ∃ x xs, a = x :: xs := by
          cases a with
          | nil => exact absurd rfl (hne [] (by simp))
          | cons x xs => exact ⟨x, xs, rfl⟩
        have hxc : x ≠ ',' := by rintro rfl; exact hc a (by simp) (by simp [hx])
        obtain ⟨r, hr⟩ : ∃ r, Py.join [','] (a :: b) = x :: r := by
          cases b with
          | nil => exact ⟨xs, by simp [Py.join, hx]⟩
          | cons y ys => exact ⟨_, by rw [Py.join_cons_cons, hx]; rfl⟩
        rw [hr] at h
        simp only [List.isPrefixOf, Bool.and_eq_true, beq_iff_eq] at h
        exact hxc h.2.1.symm
      · rw [ih] at h; simp at h

theorem filter_join {gs : List Str} (hc : ∀ g ∈ gs, ',' ∉ g) :
    (Py.join [','] gs).flatMap (fun x => if x = ',' then [] else [x]) = gs.flatten := by
  have one : ∀ g : Str, ',' ∉ g → g.flatMap (fun x => if x = ',' then [] else [x]) = g := by
    intro g hg
    refine flatMap_fixed ?_
    intro x hx
    have : x ≠ ',' := by rintro rfl; exact hg hx
    simp [this]
  induction gs with
  | nil => rfl
  | cons g gs ih =>
    have ih := ih (fun q hq => hc q (by simp [hq]))
    cases gs with
    | nil => simpa [Py.join] using one g (hc g (by simp))
    | cons a b =>
      rw [Py.join_cons_cons]
      simp only [List.flatMap_append, ih, one g (hc g (by simp))]
      simp

theorem numeral_lt {s : Str} (h : ∀ c ∈ s, c.isDigit = true) : Dec.numeral s < 10 ^ s.length := by
  induction s with
  | nil => simp [Dec.numeral]
  | cons c s ih =>
    have ih := ih (fun x hx => h x (by simp [hx]))
    have h1 : Dec.numeral [c] ≤ 9 := by
      have := (Dec.isDigit_iff c).1 (h c (by simp))
      have e : Dec.numeral [c] = c.toNat - 48 := by simp [Dec.numeral, Nat.ofDigitChars]
      omega
    rw [show c :: s = [c] ++ s from rfl, Dec.numeral_append]
    simp only [List.length_append, List.length_cons, List.length_nil, Nat.zero_add, Nat.pow_add]
    calc 10 ^ s.length * Dec.numeral [c] + Dec.numeral s < 10 ^ s.length * Dec.numeral [c] + 10 ^ s.length := by omega
      _ ≤ 10 ^ s.length * 9 + 10 ^ s.length := by
        have := Nat.mul_le_mul_left (10 ^ s.length) h1; omega
      _ = _ := by omega

/-- Reading a plain number which the pattern accepts. -/
theorem decToPython_conforms {p : NumPattern} (hp : p.WF) {v : NumText} (hv : v.WF) (hval : NumPat.valid p.text v.text = .ok true)
    (hsign : v.sign ≠ ['+']) (hne : ∀ g ∈ v.groups, g ≠ []) (hg : 2 ≤ v.groups.length → 2 ≤ p.groups.length) :
    decToPython ⟨some p.text, none, none⟩ v.text =
      Dec.fix (decide (v.sign = ['-'])) (Dec.numeral (v.groups.flatten ++ v.frac.getD [])) (-((v.frac.getD []).length : Int)) := by
  have hnc : ∀ q ∈ v.groups, ',' ∉ q := by
    intro q hq hm
    have := hv.2.2.1 q hq ',' hm
    simp at this
  have hsgn : v.sign = Dec.signStr (decide (v.sign = ['-'])) := by
    rcases hv.1 with h | h | h
    · rw [h]; rfl
    · exact absurd h hsign
    · rw [h]; rfl
  have hscomma : ',' ∉ v.sign := by rcases hv.1 with h | h | h <;> rw [h] <;> simp
  have hfcomma : ',' ∉ (match v.frac with | none => [] | some f => '.' :: f : Str) := by
    cases hf : v.frac with
    | none => simp
    | some f =>
      intro hm
      rcases List.mem_cons.1 hm with hm | hm
      · simp at hm
      · have := hv.2.2.2 f hf ',' hm; simp at this
  have hdouble : Py.contains [',', ','] v.text = false := by
    rw [Bool.eq_false_iff]
    intro h
    unfold NumText.text at h
    rcases contains_double_append h with h | h
    · have := contains_double_append' hscomma h
      rw [join_no_double hne hnc] at this; simp at this
    · exact hfcomma h
  have hplain : ∀ w : Str, w = Dec.plain (decide (v.sign = ['-'])) v.groups.flatten v.frac → decFactor w =
      Dec.fix (decide (v.sign = ['-'])) (Dec.numeral (v.groups.flatten ++ v.frac.getD [])) (-((v.frac.getD []).length : Int)) := by
    rintro w rfl
    have hi : ∀ c ∈ v.groups.flatten, c.isDigit = true := by
      intro c hc
      obtain ⟨g, hg1, hg2⟩ := List.mem_flatten.1 hc
      exact hv.2.2.1 g hg1 c hg2
    have hpl := Dec.plain_plain (neg := decide (v.sign = ['-'])) hi hv.2.2.2
    have hnot : ∀ c : Char, Dec.plainChar c = false → c ∉ Dec.plain (decide (v.sign = ['-'])) v.groups.flatten v.frac := by
      intro c h0 hm
      rw [hpl c hm] at h0; simp at h0
    rw [decFactor_eq (hnot _ (by decide)) (hnot _ (by decide))]
    refine decConvert_plain hi hv.2.2.2 ?_ _
    intro h0
    obtain ⟨g, gs, hgs, _⟩ := NumPat.value_groups hv
    have h0 := (List.append_eq_nil_iff.1 h0).1
    rw [hgs] at h0
    simp at h0
    exact hne g (by simp [hgs]) h0.1
  have hno := NumPat.text_no_e hv
  unfold decToPython
  simp only [charFromPattern, Option.getD_some]
  rw [if_neg (by simp [hno.1, hno.2])]
  rw [if_neg (by simp [orStr, hdouble])]
  have hr : ∀ (q1 q2 : Bool), Py.replace (orStr (if q1 then some ['.'] else none) ['.']) ['.']
      (Py.replace (orStr (if q2 then some [','] else none) [',']) [','] v.text) = v.text := by
    intro q1 q2
    cases q1 <;> cases q2 <;> simp [orStr, replace_same]
  rw [hr]
  have hspec : special v.text = none := by
    have hnoN : ∀ c : Char, c = 'N' → c ∉ v.text := by
      rintro c rfl hm
      unfold NumText.text at hm
      rcases List.mem_append.1 hm with hm | hm
      · rcases NumPat.int_chars hv hm with h | h | h | h <;> simp at h
      · cases hf : v.frac with
        | none => rw [hf] at hm; simp at hm
        | some f =>
          rw [hf] at hm
          rcases List.mem_cons.1 hm with hm | hm
          · simp at hm
          · have := hv.2.2.2 f hf 'N' hm; simp at this
    have hn := hnoN 'N' rfl
    have h3 : ∀ w : Str, 'N' ∈ w → v.text ≠ w := by rintro w hw rfl; exact hn hw
    simp only [special]
    rw [if_neg (h3 _ (by decide)), if_neg (h3 _ (by decide)), if_neg (h3 _ (by decide))]
  obtain ⟨c, cs, hpt⟩ : ∃ c cs, p.text = c :: cs := by
    cases hq : p.text with
    | nil => exact absurd hq (pattern_ne_nil hp)
    | cons c cs => exact ⟨c, cs, rfl⟩
  have hcomma : ',' ∉ p.text → ∃ g, v.groups = [g] := by
    intro hnp
    obtain ⟨g, gs, hgs, _⟩ := NumPat.value_groups hv
    cases gs with
    | nil => exact ⟨g, hgs⟩
    | cons a b =>
      have h2 := hg (by simp [hgs])
      exfalso
      apply hnp
      unfold NumPattern.text
      match hpg : p.groups, h2 with
      | x :: y :: z, _ => simp [Py.join_cons_cons]
  rw [hpt] at hval hcomma ⊢
  simp only [hval, hspec]
  refine hplain _ ?_
  have hdot : ∀ (q : Bool) (w : Str), (match (if q = true then some ['.'] else none : Option Str).getD [] with
      | [] => w | d => if d = ['.'] then w else Py.replace d ['.'] w) = w := by
    intro q w; cases q <;> simp
  have hrep : Py.replace [','] [] v.text = Dec.plain (decide (v.sign = ['-'])) v.groups.flatten v.frac := by
    rw [Py.replace_char]
    unfold NumText.text Dec.plain
    rw [← hsgn]
    simp only [List.flatMap_append, filter_join hnc]
    rw [flatMap_fixed (s := v.sign) (by
        intro x hx
        have : x ≠ ',' := by rintro rfl; exact hscomma hx
        simp [this])]
    congr 1
    cases hvf : v.frac with
    | none => rfl
    | some f =>
      rw [hvf] at hfcomma
      refine flatMap_fixed ?_
      intro x hx
      have : x ≠ ',' := by rintro rfl; exact hfcomma hx
      simp [this]
  have hone : ',' ∉ c :: cs → v.text = Dec.plain (decide (v.sign = ['-'])) v.groups.flatten v.frac := by
    intro hq
    obtain ⟨g, hgg⟩ := hcomma hq
    unfold NumText.text Dec.plain
    rw [← hsgn, hgg]
    cases v.frac <;> simp [Py.join]
  by_cases hc1 : ',' ∈ c :: cs <;> by_cases hc2 : '.' ∈ c :: cs
  · simp only [List.contains_iff_mem, hc1, hc2, if_true, Option.getD_some, hrep]
  · simp only [List.contains_iff_mem, hc1, hc2, if_true, if_false, Option.getD_some, Option.getD_none, hrep]
  · simp only [List.contains_iff_mem, hc1, hc2, if_true, if_false, Option.getD_some, Option.getD_none]
    exact hone hc1
  · simp only [List.contains_iff_mem, hc1, hc2, if_false, Option.getD_none]
    exact hone hc1

/-- **C28** The converse, for `decimal`: a plain number which conforms, has no empty groups, no groups if the pattern has none, no `+`, and at
most 28 digits is read, with the right value. -/
theorem C28_conforms_read (hb : s.base = .str "decimal".toList) {p : NumPattern} (hp : p.WF)
    (hf : s.format = .str p.text) (hs : NoBounds s) (h : Datatype.construct ext other s = .ok dt) {v : NumText} (hv : v.WF)
    (hc : Conforms p v) (hsign : v.sign ≠ ['+']) (hne : ∀ g ∈ v.groups, g ≠ []) (hg : 2 ≤ v.groups.length → 2 ≤ p.groups.length)
    (hlen : (v.groups.flatten ++ v.frac.getD []).length ≤ 28) :
    dt.read ext v.text = .ok (.dec (.fin (decide (v.sign = ['-'])) (Dec.numeral (v.groups.flatten ++ v.frac.getD []))
      (-((v.frac.getD []).length : Int)))) := by
  have hB := Datatype.built_of_construct h
  have hbase := base_of hB (b := .decimal) (by rw [hb]; decide)
  have hk : dt.base.kind = .decimal := by rw [hbase]; rfl
  have hchars : (p.text.all fun c => "#0.,;%‰E-+".toList.contains c) = true := by
    rw [List.all_eq_true]
    intro c hc
    rcases NumPat.text_mem hp hc with rfl | rfl | rfl | rfl <;> decide
  have hd := pattern_descr (pattern_ne_nil hp) hchars hB (.inl hk) hf
  have hval := (C28_is_valid_iff hp hv).2 hc
  have key := decToPython_conforms hp hv hval hsign hne hg
  have hdig : ∀ c ∈ v.groups.flatten ++ v.frac.getD [], c.isDigit = true := by
    intro c hc
    rcases List.mem_append.1 hc with hc | hc
    · obtain ⟨g, hg1, hg2⟩ := List.mem_flatten.1 hc
      exact hv.2.2.1 g hg1 c hg2
    · exact NumPat.frac_digits hv c hc
  have hfix : Dec.fix (decide (v.sign = ['-'])) (Dec.numeral (v.groups.flatten ++ v.frac.getD [])) (-((v.frac.getD []).length : Int)) =
      .ok (.fin (decide (v.sign = ['-'])) (Dec.numeral (v.groups.flatten ++ v.frac.getD [])) (-((v.frac.getD []).length : Int))) := by
    apply Dec.fix_exact
    · exact Nat.lt_of_lt_of_le (numeral_lt hdig) (Nat.pow_le_pow_right (by decide) hlen)
    · simp only [List.length_append] at hlen
      simp only [Dec.etiny, Dec.prec]; omega
    · simp only [Dec.etop, Dec.emax, Dec.prec]; omega
  rw [hfix] at key
  unfold Datatype.read Datatype.parse
  rw [hd]
  simp only [toPython, hk, numFmtOf, key, Except.map]
  exact dec_validate hB hs hk _

end

/-- The datatype with a pattern as format. -/
def patternSpec (name : String) (p : NumPattern) : DatatypeSpec := { base := .str name.toList, format := .str p.text }

/-- **C28 is violated**: the pattern `0,000` requires four digits, but `123` is accepted; the `0` before the last group are ignored. -/
theorem C28_min_violated (ext : Ext) (other : Base → Derived → J → Res Val) :
    ∃ (p : NumPattern) (dt : Datatype), p.WF ∧ p.text = "0,000".toList ∧ requiredDigits p = 4 ∧
      Datatype.construct ext other (patternSpec "decimal" p) = .ok dt ∧
      dt.read ext "123".toList = .ok (.dec (.fin false 123 0)) := by
  refine ⟨⟨["0".toList, "000".toList], 0, 0⟩, _, ⟨by decide, ?_⟩, by decide, by decide, rfl, ?_⟩
  · decide
  · rfl

/-- **C28 is violated**: leading zeros are not counted, so that with the pattern `000` the number `005` is rejected. -/
theorem C28_padding_violated (ext : Ext) (other : Base → Derived → J → Res Val) :
    ∃ (p : NumPattern) (dt : Datatype), p.WF ∧ p.text = "000".toList ∧
      Datatype.construct ext other (patternSpec "decimal" p) = .ok dt ∧
      dt.read ext "005".toList = .error .valueError ∧ dt.read ext "105".toList = .ok (.dec (.fin false 105 0)) := by
  refine ⟨⟨["000".toList], 0, 0⟩, _, ⟨by decide, by decide⟩, by decide, rfl, ?_, ?_⟩
  · rfl
  · rfl

/-- **C28 is violated**: the fraction digits are counted together with characters which are no digits: with the pattern `0.00` the value `1.5_`
is accepted. -/
theorem C28_underscore_violated (ext : Ext) (other : Base → Derived → J → Res Val) :
    ∃ (p : NumPattern) (dt : Datatype), p.WF ∧ p.text = "0.00".toList ∧
      Datatype.construct ext other (patternSpec "decimal" p) = .ok dt ∧
      dt.read ext "1.5_".toList = .ok (.dec (.fin false 15 (-1))) := by
  refine ⟨⟨["0".toList], 2, 0⟩, _, ⟨by decide, by decide⟩, by decide, rfl, ?_⟩
  rfl

/-! ## The hypotheses are satisfiable -/

/-- `#,##0.0##` -/
def examplePattern : NumPattern := ⟨["#".toList, "##0".toList], 1, 2⟩
/-- `-12,345.67` -/
def exampleNumber : NumText := ⟨['-'], ["12".toList, "345".toList], some "67".toList⟩

example : examplePattern.text = "#,##0.0##".toList ∧ exampleNumber.text = "-12,345.67".toList := by decide
theorem examplePattern_wf : examplePattern.WF := ⟨by decide, by decide⟩
theorem exampleNumber_wf : exampleNumber.WF := ⟨by decide, by decide, by decide, by decide⟩
theorem exampleNumber_conforms : Conforms examplePattern exampleNumber :=
  (C28_is_valid_iff examplePattern_wf exampleNumber_wf).1 (by decide)
/-- `1234,5.6` does not conform. -/
example : ¬ Conforms examplePattern ⟨[], ["1234".toList, "5".toList], some "6".toList⟩ := by
  rw [← C28_is_valid_iff examplePattern_wf ⟨by decide, by decide, by decide, by decide⟩]
  decide
example (ext : Ext) (other : Base → Derived → J → Res Val) :
    ∃ dt, Datatype.construct ext other (patternSpec "decimal" examplePattern) = .ok dt ∧
      dt.read ext exampleNumber.text = .ok (.dec (.fin true 1234567 (-2))) := by
  refine ⟨_, rfl, ?_⟩
  exact C28_conforms_read (s := patternSpec "decimal" examplePattern) (other := other) rfl examplePattern_wf rfl ⟨rfl, rfl, rfl, rfl, rfl, rfl⟩ rfl
    exampleNumber_wf exampleNumber_conforms (by decide) (by decide) (by decide) (by decide)

end Csvw.Props

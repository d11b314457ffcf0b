import Verif.Lemmas.DecimalRt
import Verif.Props.C18_C19
/-!
# C20, C21: decimals
-/

namespace Csvw.Props
open Datatypes

/-- `dt.read(dt.formatted(d)) == d`: formatting gives a string, and reading it gives a finite `Decimal` with the same
numeric value. -/
def DecRoundTrips (ext : Ext) (dt : Datatype) (d : Dec) : Prop :=
  ∃ x neg c e, dt.formatted ext (.dec d) = .ok x ∧ dt.read ext x = .ok (.dec (.fin neg c e)) ∧
    Dec.value (.fin neg c e) = Dec.value d

/-- The format object with the given separators. -/
def sepFormat : Option Char → Option Char → J
  | none, none => .null
  | some g, none => .obj [("groupChar".toList, .str [g])]
  | none, some d => .obj [("decimalChar".toList, .str [d])]
  | some g, some d => .obj [("groupChar".toList, .str [g]), ("decimalChar".toList, .str [d])]

section
variable {ext : Ext} {other : Base → Derived → J → Res Val} {s : DatatypeSpec} {dt : Datatype}

theorem dec_validate (hB : Datatype.Built ext other s dt) (hn : NoBounds s) (hk : dt.base.kind = .decimal) (d : Dec) :
    dt.validate ext (.dec d) = .ok (.dec d) := by
  have hl : dt.base.hasLength = false := by simp [Base.hasLength, hk]
  have hm : dt.base.minmax = true := by simp [Base.minmax, hk]
  unfold Datatype.validate
  simp [hB.lengthOk_of_none hl (v := .dec d) (.inr rfl), hm, boundsOk_of_noBounds hB hn, Except.map]

theorem dec_descr {g d : Option Char} (hb : s.base = .str "decimal".toList) (hf : s.format = sepFormat g d)
    (h : Datatype.construct ext other s = .ok dt) :
    Datatype.Built ext other s dt ∧ dt.base = .decimal ∧
      ∃ D, Datatype.descr ext dt = .ok D ∧ numFmtOf D = .ok (fmtOf g d) := by
  have hB := Datatype.built_of_construct h
  have hbase : dt.base = .decimal := by
    have := hB.base
    rw [hb, show Datatype.convBase (.str "decimal".toList) = .ok .decimal by decide] at this
    simpa using this.symm
  refine ⟨hB, hbase, ?_⟩
  obtain ⟨D, hD, hfm, _⟩ := hB.descr
  have hfm := hB.format_eq (by rw [hbase, hf]; cases g <;> cases d <;> rfl)
  refine ⟨D, by unfold Datatype.descr; rw [hfm]; exact hD, ?_⟩
  rw [hbase, hf] at hD
  cases g <;> cases d <;> (simp only [sepFormat] at hD; cases hD; rfl)

theorem dec_roundTrips_iff {g d : Option Char} (hb : s.base = .str "decimal".toList) (hf : s.format = sepFormat g d)
    (hs : NoBounds s) (h : Datatype.construct ext other s = .ok dt) (v : Dec) :
    DecRoundTrips ext dt v ↔ ∃ x neg c e, decToString ext (fmtOf g d) (.dec v) = .ok x ∧
      decToPython (fmtOf g d) x = .ok (.fin neg c e) ∧ Dec.value (.fin neg c e) = Dec.value v := by
  obtain ⟨hB, hbase, D, hD, hDf⟩ := dec_descr hb hf h
  have hk : dt.base.kind = .decimal := by rw [hbase]; rfl
  have e1 : dt.formatted ext (.dec v) = decToString ext (fmtOf g d) (.dec v) := by
    unfold Datatype.formatted
    rw [hD]
    simp only [toText, hk, hDf]
  have e2 : ∀ x w, dt.read ext x = .ok (.dec w) ↔ decToPython (fmtOf g d) x = .ok w := by
    intro x w
    unfold Datatype.read Datatype.parse
    rw [hD]
    simp only [toPython, hk, hDf]
    cases hx : decToPython (fmtOf g d) x with
    | error e => simp [Except.map]
    | ok u => simp [Except.map, dec_validate hB hs hk u]
  unfold DecRoundTrips
  rw [e1]
  simp only [e2]

end

theorem numeral_cons_zero (a : Str) : Dec.numeral ('0' :: a) = Dec.numeral a := by
  have := Dec.numeral_zeros_append 1 a
  simpa using this

theorem value_signed_zero (neg : Bool) (c : Nat) (e : Int) :
    Dec.value (.fin (neg && decide (c ≠ 0)) c e) = Dec.value (.fin neg c e) := by
  by_cases h : c = 0
  · subst h; simp [Dec.value_zero]
  · simp [h]

theorem sci_iff {c k : Nat} (hc : c ≠ 0) : -6 < (-(k : Int)) + Dec.ndigits c ↔ 10 ^ k ≤ c * 10 ^ 6 := by
  have hp := Dec.ndigits_pos c
  by_cases hk : k ≤ 6
  · constructor
    · intro _
      calc 10 ^ k ≤ 1 * 10 ^ 6 := by rw [Nat.one_mul]; exact Nat.pow_le_pow_right (by decide) hk
        _ ≤ c * 10 ^ 6 := Nat.mul_le_mul_right _ (by omega)
    · intro _; omega
  · obtain ⟨m, rfl⟩ : ∃ m, k = m + 6 := ⟨k - 6, by omega⟩
    rw [Nat.pow_add]
    have h1 : 10 ^ m * 10 ^ 6 ≤ c * 10 ^ 6 ↔ 10 ^ m ≤ c := Nat.mul_le_mul_right_iff (by decide)
    rw [h1, ← Nat.not_lt, ← Dec.ndigits_le (n := c) (k := m) (by omega)]
    omega

/-- Exact condition for the round trip of numbers with non-positive exponent. -/
theorem rt_nonpos (ext : Ext) {g d : Option Char} (hg : ∀ x ∈ g, sepOk x) (hd : ∀ x ∈ d, sepOk x)
    (hgd : ∀ x ∈ g, d ≠ some x) (neg : Bool) (c k : Nat) (hc : c < 10 ^ 28) (hk : k ≤ 1000026) :
    (∃ x n' c' e', decToString ext (fmtOf g d) (.dec (.fin neg c (-(k : Int)))) = .ok x ∧
      decToPython (fmtOf g d) x = .ok (.fin n' c' e') ∧ Dec.value (.fin n' c' e') = Dec.value (.fin neg c (-(k : Int)))) ↔
    (g.isSome → g = some ',' ∨ d = some ',' ∨ c < 1000 * 10 ^ k) ∧
    (g = some '.' → c = 0 ∨ (d = none ∧ k = 0) ∨ (d ≠ none ∧ 10 ^ k ≤ c * 10 ^ 6)) := by
  have hfix : ∀ n, Dec.fix n c (-(k : Int)) = .ok (.fin n c (-(k : Int))) := fun n =>
    Dec.fix_exact hc (by simp only [Dec.etiny, Dec.prec]; omega) (by simp only [Dec.etop, Dec.emax, Dec.prec]; omega)
  have hfix0 : ∀ n, Dec.fix n c 0 = .ok (.fin n c 0) := fun n =>
    Dec.fix_exact hc (by decide) (by decide)
  have hshift : ∀ n, Dec.value (.fin n c 0) = Dec.value (.fin n c (-(k : Int))) ↔ c = 0 ∨ k = 0 := by
    intro n
    have h0 : Dec.value (.fin n c 0) = Dec.value (.fin n (c * 10 ^ k) (-(k : Int))) := by
      rw [← Dec.value_shift]; congr 2; omega
    rw [h0]
    constructor
    · intro h
      have := Dec.value_inj h
      by_cases hc0 : c = 0
      · exact .inl hc0
      · right
        have h1 : 10 ^ k = 1 := by
          have : c * 10 ^ k = c * 1 := by omega
          exact Nat.eq_of_mul_eq_mul_left (by omega) this
        by_cases hk0 : k = 0
        · exact hk0
        · have : 10 ^ 1 ≤ 10 ^ k := Nat.pow_le_pow_right (by decide) (by omega)
          omega
    · rintro (rfl | rfl)
      · simp
      · simp
  have hp := Dec.ndigits_pos c
  have h1000 : c < 1000 * 10 ^ k ↔ Dec.ndigits c ≤ 3 + k := by
    rw [Dec.ndigits_le (by omega), Nat.pow_add]
  by_cases h6 : -6 < (-(k : Int)) + Dec.ndigits c
  · obtain ⟨ip, fp, hi, hf, hne, hnum, hfl, hil, hstr⟩ := decToString_plain ext g d neg c (-(k : Int)) (by omega) h6
    rw [hstr]
    have hread := plain_read_str (neg := neg) hi hf hne hg hd hgd
    rw [hnum, hfl, Int.neg_neg] at hread
    simp only [Except.ok.injEq, exists_and_left, exists_eq_left']
    have hread : decToPython (fmtOf g d) (List.flatMap (sepW g d)
        (Dec.signStr neg ++ (if g.isSome then Dec.group ip else ip) ++ fracOf ['.'] fp)) = _ := hread
    rw [hread]
    have hlen : 3 < ip.length ↔ ¬ c < 1000 * 10 ^ k := by rw [h1000]; omega
    by_cases hcom : g.isSome ∧ g ≠ some ',' ∧ d ≠ some ',' ∧ 3 < ip.length
    · rw [if_pos hcom]
      simp only [reduceCtorEq, false_and, exists_false, false_iff, not_and]
      intro h
      rcases h hcom.1 with h | h | h
      · exact absurd h hcom.2.1
      · exact absurd h hcom.2.2.1
      · exact absurd h (hlen.1 hcom.2.2.2)
    · rw [if_neg hcom]
      have hfirst : g.isSome → g = some ',' ∨ d = some ',' ∨ c < 1000 * 10 ^ k := by
        intro hgs
        by_cases h1 : g = some ','
        · exact .inl h1
        · by_cases h2 : d = some ','
          · exact .inr (.inl h2)
          · refine .inr (.inr ?_)
            have : ¬ 3 < ip.length := fun h3 => hcom ⟨hgs, h1, h2, h3⟩
            by_cases h3 : c < 1000 * 10 ^ k
            · exact h3
            · exact absurd (hlen.2 h3) this
      by_cases hdot : g = some '.' ∧ d = none
      · rw [if_pos hdot, hfix0]
        constructor
        · rintro ⟨n', c', e', h1, hv⟩
          simp only [Except.ok.injEq, Dec.fin.injEq] at h1
          obtain ⟨rfl, rfl, rfl⟩ := h1
          refine ⟨hfirst, fun _ => ?_⟩
          rcases (hshift neg).1 hv with h | h
          · exact .inl h
          · exact .inr (.inl ⟨hdot.2, h⟩)
        · rintro ⟨_, h⟩
          refine ⟨neg, c, 0, rfl, (hshift neg).2 ?_⟩
          rcases h hdot.1 with h | h | h
          · exact .inl h
          · exact .inr h.2
          · exact absurd hdot.2 h.1
      · rw [if_neg hdot, hfix]
        constructor
        · rintro _
          refine ⟨hfirst, fun hg' => ?_⟩
          by_cases hc0 : c = 0
          · exact .inl hc0
          · exact .inr (.inr ⟨fun hd' => hdot ⟨hg', hd'⟩, (sci_iff hc0).1 h6⟩)
        · intro _
          exact ⟨neg, c, _, rfl, rfl⟩
  · have hsci := decToString_sci ext g d neg c (-(k : Int)) (.inr (by omega))
    rw [if_neg (by omega)] at hsci
    rw [hsci]
    simp only [Except.ok.injEq, exists_and_left, exists_eq_left']
    have hdig : ∀ y ∈ List.replicate (- -(k : Int) - (Dec.ndigits c : Int)).toNat '0' ++ Dec.digits c, y.isDigit = true := by
      intro y hy
      rcases List.mem_append.1 hy with hy | hy
      · rw [List.eq_of_mem_replicate hy]; decide
      · exact Dec.isDigit_digits y hy
    rw [sci_read_str (by decide) hdig (by decide) hg hd]
    have hnum : Dec.numeral (['0'] ++ (List.replicate (- -(k : Int) - (Dec.ndigits c : Int)).toNat '0' ++ Dec.digits c)) = c := by
      rw [List.singleton_append, numeral_cons_zero, Dec.numeral_zeros_append, Dec.numeral_digits]
    have hlen : ((List.replicate (- -(k : Int) - (Dec.ndigits c : Int)).toNat '0' ++ Dec.digits c).length : Int) = k := by
      rw [List.length_append, List.length_replicate]
      have : (Dec.digits c).length = Dec.ndigits c := rfl
      omega
    rw [hnum, hlen]
    have hfirst : g.isSome → g = some ',' ∨ d = some ',' ∨ c < 1000 * 10 ^ k := fun _ => .inr (.inr (h1000.2 (by omega)))
    by_cases hdot : g = some '.'
    · rw [if_pos hdot, hfix0]
      constructor
      · rintro ⟨n', c', e', h, hv⟩
        simp only [Except.ok.injEq, Dec.fin.injEq] at h
        obtain ⟨rfl, rfl, rfl⟩ := h
        refine ⟨hfirst, fun _ => ?_⟩
        rw [value_signed_zero] at hv
        rcases (hshift neg).1 hv with h | h
        · exact .inl h
        · omega
      · rintro ⟨_, h⟩
        refine ⟨_, _, _, rfl, ?_⟩
        rw [value_signed_zero]
        refine (hshift neg).2 ?_
        rcases h hdot with h | h | h
        · exact .inl h
        · exact .inr h.2
        · by_cases hc0 : c = 0
          · exact .inl hc0
          · exact absurd ((sci_iff hc0).2 h.2) h6
    · rw [if_neg hdot, hfix]
      constructor
      · intro _; exact ⟨hfirst, fun h => absurd h hdot⟩
      · intro _; exact ⟨_, _, _, rfl, value_signed_zero neg c _⟩

/-- Exact condition for the round trip of numbers with positive exponent, without separators. -/
theorem rt_pos (ext : Ext) (neg : Bool) (c k : Nat) (hc : c < 10 ^ 28) (hk0 : 0 < k) (hk : k ≤ 999972) :
    (∃ x n' c' e', decToString ext (fmtOf none none) (.dec (.fin neg c (k : Int))) = .ok x ∧
      decToPython (fmtOf none none) x = .ok (.fin n' c' e') ∧ Dec.value (.fin n' c' e') = Dec.value (.fin neg c (k : Int))) ↔
    c = 0 ∨ (10 ≤ c ∧ c < 100) := by
  have hp := Dec.ndigits_pos c
  have hsci := decToString_sci ext none none neg c (k : Int) (.inl (by omega))
  rw [if_pos (by omega)] at hsci
  rw [hsci]
  simp only [Except.ok.injEq, exists_and_left, exists_eq_left']
  obtain ⟨z, hz⟩ : ∃ z, z = ((k : Int) + (Dec.ndigits c : Int) - 2).toNat := ⟨_, rfl⟩
  have hzk : z + 2 = k + Dec.ndigits c := by omega
  rw [← hz]
  have hdig : ∀ y ∈ Dec.digits c ++ List.replicate z '0', y.isDigit = true := by
    intro y hy
    rcases List.mem_append.1 hy with hy | hy
    · exact Dec.isDigit_digits y hy
    · rw [List.eq_of_mem_replicate hy]; decide
  rw [sci_read_str (g := none) (d := none) hdig (by decide) (by simp [Dec.digits_ne_nil]) (by simp) (by simp)]
  rw [if_neg (by simp)]
  have hnum : Dec.numeral (Dec.digits c ++ List.replicate z '0' ++ ['0']) = c * 10 ^ (z + 1) := by
    rw [List.append_assoc, show List.replicate z '0' ++ ['0'] = List.replicate (z + 1) '0' by
      rw [List.replicate_succ']]
    rw [Dec.numeral_append_zeros, Dec.numeral_digits]
  rw [hnum]
  have h2 : 10 ≤ c ∧ c < 100 ↔ Dec.ndigits c = 2 := by
    have e1 : Dec.ndigits c ≤ 1 ↔ c < 10 ^ 1 := Dec.ndigits_le (by decide)
    have e2 : Dec.ndigits c ≤ 2 ↔ c < 10 ^ 2 := Dec.ndigits_le (by decide)
    omega
  by_cases hc0 : c = 0
  · subst hc0
    simp only [true_or, iff_true, Nat.zero_mul]
    refine ⟨_, _, _, rfl, ?_⟩
    rw [Dec.value_zero, Dec.value_zero]
  simp only [hc0, false_or, h2]
  have hsg : (neg && decide (c ≠ 0)) = neg := by simp [hc0]
  rw [hsg]
  have hval : ∀ (m j : Nat), m * 10 ^ j = c * 10 ^ (z + 1) →
      (Dec.value (.fin neg m (-(1 : Int) + j)) = Dec.value (.fin neg c (k : Int)) ↔ Dec.ndigits c = 2) := by
    intro m j hmj
    rw [Dec.value_shift, hmj]
    have hk1 : Dec.value (.fin neg c (k : Int)) = Dec.value (.fin neg (c * 10 ^ (k + 1)) (-1)) := by
      rw [← Dec.value_shift]; congr 2; omega
    rw [hk1]
    constructor
    · intro h
      have := Dec.value_inj h
      have := Nat.eq_of_mul_eq_mul_left (by omega) this
      have := (Nat.pow_right_inj (a := 10) (by decide)).1 this
      omega
    · intro h
      rw [show z = k by omega]
  by_cases hov : (Dec.ndigits (c * 10 ^ (z + 1)) : Int) + (-1) - 1 ≤ Dec.emax
  · obtain ⟨m', j, hfx, heq⟩ := Dec.fix_sig_gen (neg := neg) (e := -1) hc (by decide) (by decide) hov
    rw [show (-((['0'] : Str).length : Int)) = -1 from rfl, hfx]
    constructor
    · rintro ⟨n', c', e', h, hv⟩
      simp only [Except.ok.injEq, Dec.fin.injEq] at h
      obtain ⟨rfl, rfl, rfl⟩ := h
      exact (hval m' j heq).1 hv
    · intro h
      exact ⟨_, _, _, rfl, (hval m' j heq).2 h⟩
  · have hne : c * 10 ^ (z + 1) ≠ 0 := Nat.mul_ne_zero hc0 (Nat.ne_of_gt (Nat.pow_pos (by decide)))
    have herr : Dec.fix neg (c * 10 ^ (z + 1)) (-((['0'] : Str).length : Int)) = .error .arithmeticError := by
      rw [show (-((['0'] : Str).length : Int)) = -1 from rfl]
      unfold Dec.fix
      simp only [hne, if_false]
      rw [if_pos (by simp only [Dec.prec, Dec.etop, Dec.emax] at *; omega)]
    rw [herr]
    simp only [reduceCtorEq, false_and, exists_false, false_iff]
    intro h2'
    apply hov
    have : Dec.ndigits (c * 10 ^ (z + 1)) ≤ 2 + (z + 1) := by
      rw [Dec.ndigits_le (by omega), Nat.pow_add 10 2]
      refine Nat.mul_lt_mul_of_pos_right ?_ (Nat.pow_pos (n := z + 1) (by decide : 0 < 10))
      exact (Dec.ndigits_le (by decide)).1 (by omega)
    simp only [Dec.emax]
    omega

section
variable {ext : Ext} {other : Base → Derived → J → Res Val} {s : DatatypeSpec} {dt : Datatype}

/-- **C20** (exact) For the datatype `decimal` without format and every finite `Decimal` `± c·10^e` with at most 28 digits
and an exponent within the range of the default context, reading the formatted number gives an equal number if and only if
the exponent is not positive, or the number is zero, or the coefficient has exactly two digits. -/
theorem C20_roundtrip_iff (hb : s.base = .str "decimal".toList) (hf : s.format = .null)
    (hs : NoBounds s) (h : Datatype.construct ext other s = .ok dt)
    (neg : Bool) (c : Nat) (e : Int) (hc : c < 10 ^ 28) (h1 : -1000026 ≤ e) (h2 : e ≤ 999972) :
    DecRoundTrips ext dt (.fin neg c e) ↔ e ≤ 0 ∨ c = 0 ∨ (10 ≤ c ∧ c < 100) := by
  rw [dec_roundTrips_iff (g := none) (d := none) hb hf hs h]
  by_cases he : e ≤ 0
  · obtain ⟨k, rfl⟩ : ∃ k : Nat, e = -(k : Int) := ⟨e.natAbs, by omega⟩
    rw [rt_nonpos ext (by simp) (by simp) (by simp) neg c k hc (by omega)]
    simp only [Option.isSome_none, Bool.false_eq_true, false_imp_iff, reduceCtorEq, true_and, true_iff]
    exact .inl he
  · obtain ⟨k, rfl⟩ : ∃ k : Nat, e = (k : Int) := ⟨e.natAbs, by omega⟩
    rw [rt_pos ext neg c k hc (by omega) (by omega)]
    constructor
    · exact .inr
    · rintro (h | h)
      · exact absurd h he
      · exact h

/-- **C20** Round trip for numbers given without positive exponent. -/
theorem C20_roundtrip_nonpos (hb : s.base = .str "decimal".toList) (hf : s.format = .null)
    (hs : NoBounds s) (h : Datatype.construct ext other s = .ok dt)
    (neg : Bool) (c k : Nat) (hc : c < 10 ^ 28) (hk : k ≤ 1000026) :
    DecRoundTrips ext dt (.fin neg c (-(k : Int))) :=
  (C20_roundtrip_iff hb hf hs h neg c _ hc (by omega) (by omega)).2 (.inl (by omega))

/-- **C20 does not hold**: `Decimal('5E+3')` is formatted as `500.0` and `Decimal('123E+3')` as `1230000.0`. -/
theorem C20_violated (hb : s.base = .str "decimal".toList) (hf : s.format = .null)
    (hs : NoBounds s) (h : Datatype.construct ext other s = .ok dt) :
    ¬ DecRoundTrips ext dt (.fin false 5 3) ∧ ¬ DecRoundTrips ext dt (.fin false 123 3) := by
  constructor
  · rw [C20_roundtrip_iff hb hf hs h _ _ _ (by decide) (by decide) (by decide)]; decide
  · rw [C20_roundtrip_iff hb hf hs h _ _ _ (by decide) (by decide) (by decide)]; decide

theorem C20_violated_strings (ext : Ext) :
    Datatype.formatted ext { base := .decimal } (.dec (.fin false 5 3)) = .ok "500.0".toList ∧
    Datatype.formatted ext { base := .decimal } (.dec (.fin false 123 3)) = .ok "1230000.0".toList := by
  constructor
  · have := decToString_sci ext none none false 5 3 (.inl (by decide))
    exact this.trans (by decide)
  · have := decToString_sci ext none none false 123 3 (.inl (by decide))
    exact this.trans (by decide)

/-- **C20 does not hold** for more than 28 digits: the number is rounded when read. -/
theorem C20_digits_violated (hb : s.base = .str "decimal".toList) (hf : s.format = .null)
    (hs : NoBounds s) (h : Datatype.construct ext other s = .ok dt) :
    ¬ DecRoundTrips ext dt (.fin false (10 ^ 28 + 1) 0) := by
  rw [dec_roundTrips_iff (g := none) (d := none) hb hf hs h]
  rintro ⟨x, n', c', e', h1, h2, h3⟩
  obtain ⟨ip, fp, hi, hfd, hne, hnum, hfl, hil, hstr⟩ :=
    decToString_plain ext none none false (10 ^ 28 + 1) 0 (by decide) (by decide +kernel)
  rw [hstr] at h1
  simp only [Except.ok.injEq] at h1
  subst h1
  have hread := plain_read_str (neg := false) hi hfd hne (g := none) (d := none) (by simp) (by simp) (by simp)
  rw [if_neg (by simp), if_neg (by simp), hnum, hfl] at hread
  have h2 := hread.symm.trans h2
  have : Dec.fix false (10 ^ 28 + 1) (- -0) = .ok (.fin false (10 ^ 27) 1) := by decide +kernel
  rw [this] at h2
  simp only [Except.ok.injEq, Dec.fin.injEq] at h2
  obtain ⟨rfl, rfl, rfl⟩ := h2
  have hv : Dec.value (.fin false (10 ^ 27) (0 + (1 : Nat))) = Dec.value (.fin false (10 ^ 27 * 10 ^ 1) 0) := Dec.value_shift _ _ _ _
  rw [show ((0 : Int) + (1 : Nat)) = 1 from rfl, h3] at hv
  have := Dec.value_inj hv
  exact absurd this (by decide)

/-! ## C21 -/

/-- Characters usable as separators: no digits, signs or `e`/`E`. -/
def SepChar (c : Char) : Prop := c.isDigit = false ∧ c ≠ '-' ∧ c ≠ '+' ∧ c ≠ 'e' ∧ c ≠ 'E'

/-- **C21** (exact, both separators) For the datatype `decimal` with format `{groupChar: g, decimalChar: d}`, `g ≠ d`, and every
number `± c·10^-k` of at most 28 digits: it round-trips if and only if (`,` is one of the two characters or the
number is smaller than 1000) and (`g` is not `.`, or the number is zero or at least 10^-6). -/
theorem C21_roundtrip_iff {g d : Char} (hg : SepChar g) (hd : SepChar d) (hgd : g ≠ d)
    (hb : s.base = .str "decimal".toList)
    (hf : s.format = .obj [("groupChar".toList, .str [g]), ("decimalChar".toList, .str [d])])
    (hs : NoBounds s) (h : Datatype.construct ext other s = .ok dt)
    (neg : Bool) (c k : Nat) (hc : c < 10 ^ 28) (hk : k ≤ 1000026) :
    DecRoundTrips ext dt (.fin neg c (-(k : Int))) ↔
      (g = ',' ∨ d = ',' ∨ c < 1000 * 10 ^ k) ∧ (g = '.' → c = 0 ∨ 10 ^ k ≤ c * 10 ^ 6) := by
  rw [dec_roundTrips_iff (g := some g) (d := some d) hb hf hs h,
    rt_nonpos ext (by rintro x ⟨⟩; exact hg) (by rintro x ⟨⟩; exact hd) (by rintro x ⟨⟩ hh; exact hgd (Option.some.inj hh).symm)
      neg c k hc hk]
  simp

/-- **C21** The formats with `,` and `.`: all numbers round-trip with `{groupChar: ',', decimalChar: '.'}`, and all numbers of
at least 10^-6 (and zero) with `{groupChar: '.', decimalChar: ','}`. -/
theorem C21_common_formats (hb : s.base = .str "decimal".toList)
    (hs : NoBounds s) (h : Datatype.construct ext other s = .ok dt)
    (neg : Bool) (c k : Nat) (hc : c < 10 ^ 28) (hk : k ≤ 1000026) :
    (s.format = .obj [("groupChar".toList, .str [',']), ("decimalChar".toList, .str ['.'])] →
      DecRoundTrips ext dt (.fin neg c (-(k : Int)))) ∧
    (s.format = .obj [("groupChar".toList, .str ['.']), ("decimalChar".toList, .str [','])] → c = 0 ∨ 10 ^ k ≤ c * 10 ^ 6 →
      DecRoundTrips ext dt (.fin neg c (-(k : Int)))) := by
  constructor
  · intro hf
    exact (C21_roundtrip_iff (by unfold SepChar; decide) (by unfold SepChar; decide) (by decide) hb hf hs h neg c k hc hk).2 ⟨.inl rfl, fun hh => absurd hh (by decide)⟩
  · intro hf hh
    exact (C21_roundtrip_iff (by unfold SepChar; decide) (by unfold SepChar; decide) (by decide) hb hf hs h neg c k hc hk).2 ⟨.inr (.inl rfl), fun _ => hh⟩

/-- **C21** (exact, `groupChar` only). -/
theorem C21_group_iff {g : Char} (hg : SepChar g) (hb : s.base = .str "decimal".toList)
    (hf : s.format = .obj [("groupChar".toList, .str [g])])
    (hs : NoBounds s) (h : Datatype.construct ext other s = .ok dt)
    (neg : Bool) (c k : Nat) (hc : c < 10 ^ 28) (hk : k ≤ 1000026) :
    DecRoundTrips ext dt (.fin neg c (-(k : Int))) ↔
      (g = ',' ∨ c < 1000 * 10 ^ k) ∧ (g = '.' → c = 0 ∨ k = 0) := by
  rw [dec_roundTrips_iff (g := some g) (d := none) hb hf hs h,
    rt_nonpos ext (by rintro x ⟨⟩; exact hg) (by simp) (by simp) neg c k hc hk]
  simp

/-- **C21** With only a `decimalChar`, all numbers round-trip. -/
theorem C21_decimalChar {d : Char} (hd : SepChar d) (hb : s.base = .str "decimal".toList)
    (hf : s.format = .obj [("decimalChar".toList, .str [d])])
    (hs : NoBounds s) (h : Datatype.construct ext other s = .ok dt)
    (neg : Bool) (c k : Nat) (hc : c < 10 ^ 28) (hk : k ≤ 1000026) :
    DecRoundTrips ext dt (.fin neg c (-(k : Int))) := by
  rw [dec_roundTrips_iff (g := none) (d := some d) hb hf hs h,
    rt_nonpos ext (by simp) (by rintro x ⟨⟩; exact hd) (by simp) neg c k hc hk]
  simp

/-- **C21 does not hold**: with `{groupChar: ' ', decimalChar: '.'}` the number 1000 is formatted as `1,000`, which is
not readable; with `{groupChar: '.', decimalChar: ','}` the number 10^-7 is formatted as `0.0000001`, read as 1. -/
theorem C21_violated (hb : s.base = .str "decimal".toList)
    (hs : NoBounds s) (h : Datatype.construct ext other s = .ok dt) :
    (s.format = .obj [("groupChar".toList, .str [' ']), ("decimalChar".toList, .str ['.'])] →
      ¬ DecRoundTrips ext dt (.fin false 1000 0)) ∧
    (s.format = .obj [("groupChar".toList, .str ['.']), ("decimalChar".toList, .str [','])] →
      ¬ DecRoundTrips ext dt (.fin false 1 (-7))) := by
  constructor
  · intro hf
    have := C21_roundtrip_iff (g := ' ') (d := '.') (by unfold SepChar; decide) (by unfold SepChar; decide) (by decide) hb hf hs h false 1000 0
      (by decide) (by decide)
    rw [show (-(0 : Nat) : Int) = 0 from rfl] at this
    rw [this]; decide
  · intro hf
    have := C21_roundtrip_iff (g := '.') (d := ',') (by unfold SepChar; decide) (by unfold SepChar; decide) (by decide) hb hf hs h false 1 7
      (by decide) (by decide)
    rw [show (-(7 : Nat) : Int) = -7 from rfl] at this
    rw [this]; decide

end

/-- The hypotheses are met. -/
example (ext : Ext) (other : Base → Derived → J → Res Val) :
    ∃ dt, Datatype.construct ext other (plainSpec "decimal") = .ok dt ∧ dt.base = .decimal := ⟨_, rfl, rfl⟩
example (ext : Ext) (other : Base → Derived → J → Res Val) :
    ∃ dt, Datatype.construct ext other { base := .str "decimal".toList, format := sepFormat (some '.') (some ',') } = .ok dt ∧
      dt.base = .decimal := ⟨_, rfl, rfl⟩
example : SepChar ' ' ∧ SepChar '.' ∧ SepChar ',' := by unfold SepChar; decide

end Csvw.Props

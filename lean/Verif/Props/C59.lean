import Verif.Props.C20_C21
/-!
# C59: the lexical space of numbers
-/

namespace Csvw.Props
open Datatypes Csvw.Spec

/-! ## `Decimal(s)` -/

theorem partition_eq (sep : Char) (s : Str) :
    (sep ∉ s ∧ Py.partition sep s = (s, false, [])) ∨ ∃ a b, s = a ++ sep :: b ∧ Py.partition sep s = (a, true, b) := by
  by_cases h : sep ∈ s
  · right
    obtain ⟨a, b, rfl, hn⟩ : ∃ a b, s = a ++ sep :: b ∧ sep ∉ a := by
      induction s with
      | nil => simp at h
      | cons c s ih =>
        by_cases hc : sep = c
        · exact ⟨[], s, by rw [hc]; rfl, by simp⟩
        · rcases List.mem_cons.1 h with h | h
          · exact absurd h hc
          · obtain ⟨a, b, rfl, hn⟩ := ih h
            exact ⟨c :: a, b, rfl, by simp [hn, hc]⟩
    exact ⟨a, b, rfl, Dec.partition_of_not_mem hn⟩
  · exact .inl ⟨h, Dec.partition_none h⟩

theorem takeSign_spec (a : Str) : ∃ sgn, Sign sgn (Dec.takeSign a).1 ∧ a = sgn ++ (Dec.takeSign a).2 := by
  unfold Dec.takeSign
  split
  · exact ⟨['-'], .minus, rfl⟩
  · exact ⟨['+'], .plus, rfl⟩
  · exact ⟨[], .none, rfl⟩

theorem takeSign_text {sgn r : Str} {neg : Bool} (h : Sign sgn neg) (hr : ∀ t, r ≠ '-' :: t ∧ r ≠ '+' :: t) :
    Dec.takeSign (sgn ++ r) = (neg, r) := by
  cases h with
  | plus => rfl
  | minus => rfl
  | none =>
    show Dec.takeSign r = _
    unfold Dec.takeSign
    split
    · exact absurd rfl (hr _).1
    · exact absurd rfl (hr _).2
    · rfl

/-- `ofAscii` after the sign. -/
def unsignedOf (neg : Bool) (r : Str) : Option Dec :=
  let l := Dec.asciiLower r
  if l = "inf".toList ∨ l = "infinity".toList then some (.inf neg)
  else if "nan".toList.isPrefixOf l ∧ (l.drop 3).all Char.isDigit then some (.nan neg false (Dec.numeral (l.drop 3)))
  else if "snan".toList.isPrefixOf l ∧ (l.drop 4).all Char.isDigit then some (.nan neg true (Dec.numeral (l.drop 4)))
  else
    let (ip, _, fp) := Py.partition '.' r
    if (ip ++ fp).all Char.isDigit ∧ ip ++ fp ≠ [] then some (.fin neg (Dec.numeral (ip ++ fp)) (-(fp.length : Int)))
    else none

theorem ofAscii_eq (a : Str) : Dec.ofAscii a = unsignedOf (Dec.takeSign a).1 (Dec.takeSign a).2 := rfl

/-- The finite numbers among the results of `Decimal(s)`. -/
theorem ofAscii_fin_iff (a : Str) (neg : Bool) (c : Nat) (e : Int) :
    Dec.ofAscii a = some (.fin neg c e) ↔ ∃ ip fp, DecimalText a neg ip fp ∧ c = Dec.numeral (ip ++ fp) ∧ e = -(fp.length : Int) := by
  constructor
  · intro h
    rw [ofAscii_eq] at h
    obtain ⟨sgn, hs, ha⟩ := takeSign_spec a
    generalize Dec.takeSign a = q at h hs ha
    obtain ⟨n, r⟩ := q
    simp only at h hs ha
    unfold unsignedOf at h
    simp only at h
    split at h
    · cases h
    split at h
    · cases h
    split at h
    · cases h
    rcases partition_eq '.' r with ⟨hn, hp⟩ | ⟨ip, fp, rfl, hp⟩
    · rw [hp] at h
      simp only [List.append_nil] at h
      split at h
      · next hall =>
        cases h
        refine ⟨r, [], ?_, by simp, rfl⟩
        rw [ha]
        exact .whole hs (fun c hc => List.all_eq_true.1 hall.1 c hc) hall.2
      · cases h
    · rw [hp] at h
      simp only at h
      split at h
      · next hall =>
        cases h
        have hd := fun c hc => List.all_eq_true.1 hall.1 c hc
        refine ⟨ip, fp, ?_, rfl, rfl⟩
        rw [ha, ← List.append_assoc]
        exact .point hs (fun c hc => hd c (List.mem_append_left _ hc)) (fun c hc => hd c (List.mem_append_right _ hc)) hall.2
      · cases h
  · rintro ⟨ip, fp, h, rfl, rfl⟩
    have hsg : ∀ {ip : Str}, (∀ c ∈ ip, c.isDigit = true) → ∀ (rest t : Str), (∀ t, rest ≠ '-' :: t ∧ rest ≠ '+' :: t) →
        ip ++ rest ≠ '-' :: t ∧ ip ++ rest ≠ '+' :: t := by
      intro ip hi rest t hrest
      cases ip with
      | nil => exact hrest t
      | cons x ip =>
        have := hi x (List.mem_cons_self ..)
        constructor <;> (intro hh; simp only [List.cons_append, List.cons.injEq] at hh; rw [hh.1] at this; revert this; decide)
    cases h with
    | @whole sgn _ neg hs hi hne =>
      have h1 := Dec.ofAscii_unsigned (fp := none) hi (by simp) (by simpa using hne) neg
      have h2 : Dec.takeSign (sgn ++ ip) = (neg, ip) := takeSign_text hs fun t => by
        have := hsg hi [] t (by simp)
        simpa using this
      have h3 : Dec.takeSign (Dec.plain neg ip none) = (neg, ip) := by
        cases neg with
        | true => simp [Dec.plain, Dec.signStr, Dec.takeSign]
        | false =>
          have := takeSign_text .none fun t => by
            have := hsg hi [] t (by simp)
            simpa using this
          simpa [Dec.plain, Dec.signStr] using this
      rw [ofAscii_eq, h3] at h1
      rw [ofAscii_eq, h2]
      simpa using h1
    | @point sgn _ _ neg hs hi hf hne =>
      have h1 := Dec.ofAscii_unsigned (fp := some fp) hi (by simpa using hf) (by simpa using hne) neg
      have hd : ∀ t, ip ++ '.' :: fp ≠ '-' :: t ∧ ip ++ '.' :: fp ≠ '+' :: t := fun t => hsg hi ('.' :: fp) t (by simp)
      have h2 : Dec.takeSign (sgn ++ ip ++ '.' :: fp) = (neg, ip ++ '.' :: fp) := by
        rw [List.append_assoc]
        exact takeSign_text hs hd
      have h3 : Dec.takeSign (Dec.plain neg ip (some fp)) = (neg, ip ++ '.' :: fp) := by
        cases neg with
        | true => simp [Dec.plain, Dec.signStr, Dec.takeSign]
        | false =>
          have := takeSign_text .none hd
          simpa [Dec.plain, Dec.signStr] using this
      rw [ofAscii_eq, h3] at h1
      rw [ofAscii_eq, h2]
      simpa using h1

/-- There is a digit. -/
theorem decimalText_digit {a : Str} {neg : Bool} {ip fp : Str} (h : DecimalText a neg ip fp) : ∃ c ∈ a, c.isDigit = true := by
  cases h with
  | whole hs hi hne =>
    cases ip with
    | nil => exact absurd rfl hne
    | cons c ip => exact ⟨c, by simp, hi c (by simp)⟩
  | point hs hi hf hne =>
    cases ip with
    | nil => cases fp with
      | nil => exact absurd rfl hne
      | cons c fp => exact ⟨c, by simp, hf c (by simp)⟩
    | cons c ip => exact ⟨c, by simp, hi c (by simp)⟩

/-! ## `decimal.to_python` -/

theorem decFactor_iff (v : Str) (neg : Bool) (c : Nat) (e : Int) :
    decFactor v = .ok (.fin neg c e) ↔ ∃ p y a ip fp, Scaled v p y ∧ Dec.asciiNumeric y = some a ∧ DecimalText a neg ip fp ∧
      Dec.fix neg (Dec.numeral (ip ++ fp)) (-(fp.length : Int) - p) = .ok (.fin neg c e) := by
  have key : ∀ y p, decConvert y 1 (-(p : Int)) = .ok (.fin neg c e) ↔ ∃ a ip fp, Dec.asciiNumeric y = some a ∧ DecimalText a neg ip fp ∧
      Dec.fix neg (Dec.numeral (ip ++ fp)) (-(fp.length : Int) - p) = .ok (.fin neg c e) := by
    intro y p
    unfold decConvert Dec.parse
    cases ha : Dec.asciiNumeric y with
    | none => simp
    | some a =>
      simp only [Option.some.injEq]
      constructor
      · intro h
        cases ho : Dec.ofAscii a with
        | none => rw [ho] at h; cases h
        | some d =>
          rw [ho] at h
          simp only at h
          cases d with
          | inf n => simp only [Dec.mulConst] at h; cases h
          | nan n s p => cases s <;> simp only [Dec.mulConst] at h <;> cases h
          | fin n c' e' =>
            simp only [Dec.mulConst] at h
            obtain ⟨d, hd, hn⟩ : ∃ d, d = (Dec.fin neg c e) ∧ Dec.fix n (c' * 1) (e' + -(p : Int)) = .ok d := ⟨_, rfl, h⟩
            obtain ⟨c2, e2, hd2⟩ := Dec.fix_ok_neg hn
            rw [hd] at hd2
            cases hd2
            obtain ⟨ip, fp, h1, rfl, rfl⟩ := (ofAscii_fin_iff ..).1 ho
            refine ⟨a, ip, fp, rfl, h1, ?_⟩
            rw [Nat.mul_one] at h
            exact h
      · rintro ⟨a', ip, fp, rfl, h1, h2⟩
        rw [(ofAscii_fin_iff ..).2 ⟨ip, fp, h1, rfl, rfl⟩]
        simp only [Dec.mulConst, Nat.mul_one]
        exact h2
  unfold decFactor
  by_cases h1 : '%' ∈ v
  · rw [if_pos (by simpa using h1)]
    have := key (v.filter (· ≠ '%')) 2
    refine Iff.trans this ⟨?_, ?_⟩
    · rintro ⟨a, ip, fp, h⟩
      exact ⟨2, _, a, ip, fp, .percent h1, h⟩
    · rintro ⟨p, y, a, ip, fp, hs, h⟩
      cases hs with
      | percent _ => exact ⟨a, ip, fp, h⟩
      | permille hn _ => exact absurd h1 hn
      | plain hn _ => exact absurd h1 hn
  · rw [if_neg (by simpa using h1)]
    by_cases h2 : '‰' ∈ v
    · rw [if_pos (by simpa using h2)]
      have := key (v.filter (· ≠ '‰')) 3
      refine Iff.trans this ⟨?_, ?_⟩
      · rintro ⟨a, ip, fp, h⟩
        exact ⟨3, _, a, ip, fp, .permille h1 h2, h⟩
      · rintro ⟨p, y, a, ip, fp, hs, h⟩
        cases hs with
        | percent hn => exact absurd hn h1
        | permille _ _ => exact ⟨a, ip, fp, h⟩
        | plain _ hn => exact absurd h2 hn
    · rw [if_neg (by simpa using h2)]
      have := key v 0
      refine Iff.trans this ⟨?_, ?_⟩
      · rintro ⟨a, ip, fp, h⟩
        exact ⟨0, _, a, ip, fp, .plain h1 h2, h⟩
      · rintro ⟨p, y, a, ip, fp, hs, h⟩
        cases hs with
        | percent hn => exact absurd hn h1
        | permille _ hn => exact absurd hn h2
        | plain _ _ => exact ⟨a, ip, fp, h⟩

theorem withoutSeps_eq (g d : Option Char) (x : Str) : x.flatMap (sepR g d) = withoutSeps g d x := by
  unfold withoutSeps
  induction x with
  | nil => rfl
  | cons c x ih =>
    rw [List.flatMap_cons, ih]
    unfold sepR
    by_cases hg : g = some c
    · simp [hg]
    · simp only [if_neg hg]
      rw [List.filter_cons_of_pos (by simpa using hg), List.map_cons]
      by_cases hd : d = some c <;> simp [hd]

theorem special_no_digit {v : Str} {w : Dec} (h : special v = some w) : v = "INF".toList ∨ v = "-INF".toList ∨ v = "NaN".toList := by
  unfold special at h
  split at h
  · exact .inl (by assumption)
  · split at h
    · exact .inr (.inl (by assumption))
    · split at h
      · exact .inr (.inr (by assumption))
      · cases h

open Classical in
theorem decToPython_seps (g d : Option Char) (v : Str) :
    decToPython (fmtOf g d) v =
      if 'e' ∈ v ∨ 'E' ∈ v ∨ (∃ a b, v = a ++ [g.getD ',', g.getD ','] ++ b) then .error .valueError
      else match special v with
        | some w => .ok w
        | none => decFactor (withoutSeps g d v) := by
  have hg0 : orStr (fmtOf g d).groupChar [','] = [g.getD ','] := by cases g <;> rfl
  have hgc : charFromPattern (fmtOf g d).groupChar (fmtOf g d).pattern ',' = (fmtOf g d).groupChar := by
    cases g <;> rfl
  have hdc : charFromPattern (fmtOf g d).decimalChar (fmtOf g d).pattern '.' = (fmtOf g d).decimalChar := by
    cases d <;> rfl
  unfold decToPython
  simp only [hg0, hgc, hdc]
  by_cases h1 : 'e' ∈ v ∨ 'E' ∈ v
  · rw [if_pos (by simpa using h1), if_pos (by rcases h1 with h | h <;> simp [h])]
  · rw [if_neg (by simpa using h1)]
    simp only [not_or] at h1
    by_cases h3 : Py.contains ([g.getD ','] ++ [g.getD ',']) v = true
    · rw [if_pos h3, if_pos (.inr (.inr ((Py.contains_iff _ _).1 h3)))]
    · rw [if_neg h3, if_neg]
      · rw [← withoutSeps_eq, ← sepR_eq]
        rfl
      · rintro (h | h | h)
        · exact h1.1 h
        · exact h1.2 h
        · exact h3 ((Py.contains_iff _ _).2 h)

theorem plain_lower {c : Char} (h : Dec.plainChar c = true) : c.toLower = c := by
  have := Dec.plain_range h
  unfold Char.toLower
  rw [dif_neg]
  rintro ⟨h1, -⟩
  have : 65 ≤ c.toNat := h1
  omega

/-- Texts of digits, signs, and points are not words. -/
theorem plain_not_word {x : Str} (h : ∀ c ∈ x, Dec.plainChar c = true) {w : Dec} (hw : ∀ neg c e, w ≠ .fin neg c e) :
    Dec.ofAscii x ≠ some w := by
  rw [ofAscii_eq]
  obtain ⟨sgn, -, ha⟩ := takeSign_spec x
  generalize Dec.takeSign x = q at ha
  obtain ⟨n, r⟩ := q
  simp only at ha ⊢
  have hr : ∀ c ∈ r, Dec.plainChar c = true := fun c hc => h c (by rw [ha]; exact List.mem_append_right _ hc)
  have hl : Dec.asciiLower r = r := by
    unfold Dec.asciiLower
    conv => rhs; rw [← List.map_id r]
    exact List.map_congr_left fun c hc => plain_lower (hr c hc)
  have hno : ∀ d, Dec.plainChar d = false → d ∉ r := by
    intro d hd hm
    rw [hr d hm] at hd
    cases hd
  unfold unsignedOf
  simp only [hl]
  rw [if_neg, if_neg, if_neg]
  · split
    · intro hh
      simp only [Option.some.injEq] at hh
      exact hw _ _ _ hh.symm
    · simp
  · rintro ⟨hp, -⟩
    obtain ⟨t, ht⟩ := List.isPrefixOf_iff_prefix.1 hp
    exact hno 's' (by decide) (by rw [← ht]; simp)
  · rintro ⟨hp, -⟩
    obtain ⟨t, ht⟩ := List.isPrefixOf_iff_prefix.1 hp
    exact hno 'n' (by decide) (by rw [← ht]; simp)
  · rintro (hp | hp)
    · exact hno 'i' (by decide) (by rw [hp]; decide)
    · exact hno 'i' (by decide) (by rw [hp]; decide)

theorem no_adjacent {a b : Str} {c x y : Char} : (∀ {z}, [x, y, z] ≠ a ++ [c, c] ++ b ∨ x = y ∨ y = z) := by
  intro z
  by_cases h1 : x = y
  · exact .inr (.inl h1)
  by_cases h2 : y = z
  · exact .inr (.inr h2)
  left
  intro h
  match a, h with
  | [], h => simp only [List.nil_append, List.cons_append, List.cons.injEq] at h; exact h1 (h.1.trans h.2.1.symm)
  | [_], h => simp only [List.nil_append, List.cons_append, List.cons.injEq] at h; exact h2 (h.2.1.trans h.2.2.1.symm)
  | _ :: _ :: a, h =>
    have := congrArg List.length h
    simp at this
    omega

theorem value_int (neg : Bool) (m : Nat) : Dec.value (.fin neg m 0) = ((if neg then -(m : Int) else (m : Int) : Int) : Rat) := by
  unfold Dec.value
  cases neg <;> simp [Rat.intCast_natCast]

/-- `as_integer_ratio()` of an integer. -/
theorem asInteger_iff (neg : Bool) (c : Nat) (e n : Int) :
    (Dec.fin neg c e).asInteger = .ok (some n) ↔ Dec.value (.fin neg c e) = n := by
  unfold Dec.asInteger
  simp only
  by_cases he : 0 ≤ e
  · rw [if_pos he]
    have h1 := Dec.value_shift neg c e.toNat 0
    rw [show (0 : Int) + (e.toNat : Int) = e by omega, value_int] at h1
    rw [h1]
    constructor
    · intro h
      simp only [Except.ok.injEq, Option.some.injEq] at h
      rw [h]
    · intro h
      have := Rat.intCast_inj.1 h
      rw [this]
  · rw [if_neg he]
    have hk : -(e.natAbs : Int) = e := by omega
    by_cases hd : c % 10 ^ e.natAbs = 0
    · rw [if_pos hd]
      have hc : c = c / 10 ^ e.natAbs * 10 ^ e.natAbs := by
        have := Nat.div_add_mod c (10 ^ e.natAbs)
        rw [hd, Nat.add_zero, Nat.mul_comm] at this
        exact this.symm
      have h1 := Dec.value_shift neg (c / 10 ^ e.natAbs) e.natAbs e
      rw [show e + (e.natAbs : Int) = 0 by omega, value_int, ← hc] at h1
      rw [← h1]
      constructor
      · intro h
        simp only [Except.ok.injEq, Option.some.injEq] at h
        rw [h]
      · intro h
        have := Rat.intCast_inj.1 h
        rw [this]
    · rw [if_neg hd]
      constructor
      · intro h; simp at h
      · intro h
        exfalso
        have hc0 : c ≠ 0 := fun h0 => hd (by rw [h0]; simp)
        have hneg := Dec.value_neg_iff neg c e
        have hm : Dec.value (.fin neg c e) = Dec.value (.fin neg n.natAbs 0) := by
          rw [h, value_int]
          congr 1
          have hlt : (n : Rat) < 0 ↔ n < 0 := by
            have := Rat.intCast_lt_intCast (a := n) (b := 0)
            simpa using this
          rw [h, hlt] at hneg
          cases neg with
          | true =>
            have := hneg.2 ⟨rfl, hc0⟩
            simp only [if_true]
            omega
          | false =>
            have : ¬ n < 0 := fun hn => by simpa using (hneg.1 hn).1
            simp only [Bool.false_eq_true, if_false]
            omega
        have h1 := Dec.value_shift neg n.natAbs e.natAbs e
        rw [show e + (e.natAbs : Int) = 0 by omega, ← hm] at h1
        have := Dec.value_inj h1
        rw [this] at hd
        exact hd (Nat.mul_mod_left _ _)

section
variable {ext : Ext} {other : Base → Derived → J → Res Val} {s : DatatypeSpec} {dt : Datatype}

theorem dec_read {g d : Option Char} (hb : s.base = .str "decimal".toList) (hf : s.format = sepFormat g d)
    (hs : NoBounds s) (h : Datatype.construct ext other s = .ok dt) (x : Str) :
    dt.read ext x = (decToPython (fmtOf g d) x).map .dec := by
  obtain ⟨hB, hbase, D, hD, hDf⟩ := dec_descr hb hf h
  have hk : dt.base.kind = .decimal := by rw [hbase]; rfl
  unfold Datatype.read Datatype.parse
  rw [hD]
  simp only [toPython, hk, hDf]
  cases hx : decToPython (fmtOf g d) x with
  | error e => simp [Except.map]
  | ok u => simp [Except.map, dec_validate hB hs hk u]

/-- **C59** Exactly which texts are read as (finite) decimals, and as which: for the datatype `decimal` without format, or with `groupChar`
and/or `decimalChar`. There is no `e` or `E` in it, no two group characters (`,` by default) in a row, and, without the group characters, with a
point for the decimal character, without a percent or permille sign, and up to surrounding whitespace, underscores and other Unicode digits
(`asciiNumeric`), it is an optional sign followed by digits with at most one point. The number is the value of the digits, rounded to 28
digits (`Dec.fix`). -/
theorem C59_decimal_iff {g d : Option Char} (hb : s.base = .str "decimal".toList) (hf : s.format = sepFormat g d)
    (hs : NoBounds s) (h : Datatype.construct ext other s = .ok dt) (x : Str) (neg : Bool) (c : Nat) (e : Int) :
    dt.read ext x = .ok (.dec (.fin neg c e)) ↔
      'e' ∉ x ∧ 'E' ∉ x ∧ (¬ ∃ a b, x = a ++ [g.getD ',', g.getD ','] ++ b) ∧
      x ∉ ["INF".toList, "-INF".toList, "NaN".toList] ∧
      ∃ p y a ip fp, Scaled (withoutSeps g d x) p y ∧ Dec.asciiNumeric y = some a ∧ DecimalText a neg ip fp ∧
        Dec.fix neg (Dec.numeral (ip ++ fp)) (-(fp.length : Int) - p) = .ok (.fin neg c e) := by
  rw [dec_read hb hf hs h, decToPython_seps]
  by_cases h1 : 'e' ∈ x ∨ 'E' ∈ x ∨ (∃ a b, x = a ++ [g.getD ',', g.getD ','] ++ b)
  · rw [if_pos h1]
    constructor
    · intro h; cases h
    · rintro ⟨n1, n2, n3, -⟩
      rcases h1 with h | h | h
      · exact absurd h n1
      · exact absurd h n2
      · exact absurd h n3
  · rw [if_neg h1]
    simp only [not_or] at h1
    cases hsp : special x with
    | some w =>
      constructor
      · intro h
        simp only [Except.map, Except.ok.injEq, Val.dec.injEq] at h
        subst h
        unfold special at hsp
        split at hsp
        · cases hsp
        · split at hsp
          · cases hsp
          · split at hsp <;> cases hsp
      · rintro ⟨-, -, -, hn, -⟩
        exfalso
        apply hn
        rcases special_no_digit hsp with rfl | rfl | rfl <;> simp
    | none =>
      have hn : x ∉ ["INF".toList, "-INF".toList, "NaN".toList] := by
        intro hm
        simp only [List.mem_cons, List.not_mem_nil, or_false] at hm
        rcases hm with rfl | rfl | rfl <;> exact absurd hsp (by decide)
      simp only
      rw [← decFactor_iff]
      constructor
      · intro h
        refine ⟨h1.1, h1.2.1, h1.2.2, hn, ?_⟩
        cases hd : decFactor (withoutSeps g d x) with
        | error e => rw [hd] at h; cases h
        | ok w => rw [hd] at h; simp only [Except.map, Except.ok.injEq, Val.dec.injEq] at h; rw [h]
      · rintro ⟨-, -, -, -, h⟩
        rw [h]
        rfl

/-- **C59** Decimal numbers of at most 28 digits are read exactly. -/
theorem C59_decimal_exact (hb : s.base = .str "decimal".toList) (hf : s.format = .null)
    (hs : NoBounds s) (h : Datatype.construct ext other s = .ok dt) {x : Str} {neg : Bool} {ip fp : Str} (hx : DecimalText x neg ip fp)
    (h28 : Nat.ofDigitChars 10 (ip ++ fp) 0 < 10 ^ 28) (hl : fp.length ≤ 1000026) :
    dt.read ext x = .ok (.dec (.fin neg (Nat.ofDigitChars 10 (ip ++ fp) 0) (-(fp.length : Int)))) := by
  have hplain : ∀ c ∈ x, Dec.plainChar c = true := by
    have hsgn : ∀ {sgn : Str} {neg : Bool}, Sign sgn neg → ∀ c ∈ sgn, Dec.plainChar c = true := by
      intro sgn neg h
      cases h <;> decide
    intro c hc
    cases hx with
    | whole hs hi _ =>
      rcases List.mem_append.1 hc with hc | hc
      · exact hsgn hs c hc
      · simp [Dec.plainChar, hi c hc]
    | point hs hi hf _ =>
      rcases List.mem_append.1 hc with hc | hc
      · rcases List.mem_append.1 hc with hc | hc
        · exact hsgn hs c hc
        · simp [Dec.plainChar, hi c hc]
      · rcases List.mem_cons.1 hc with rfl | hc
        · decide
        · simp [Dec.plainChar, hf c hc]
  have hnm : ∀ d, Dec.plainChar d = false → d ∉ x := by
    intro d hd hm
    rw [hplain d hm] at hd
    cases hd
  rw [C59_decimal_iff (g := none) (d := none) hb hf hs h]
  have hw : withoutSeps none none x = x := by
    unfold withoutSeps
    simp
  refine ⟨hnm _ (by decide), hnm _ (by decide), ?_, ?_, 0, x, x, ip, fp, ?_, Dec.asciiNumeric_plain hplain, hx, ?_⟩
  · rintro ⟨a, b, hab⟩
    exact hnm ',' (by decide) (by rw [hab]; simp)
  · intro hm
    simp only [List.mem_cons, List.not_mem_nil, or_false] at hm
    rcases hm with rfl | rfl | rfl
    · exact hnm 'I' (by decide) (by decide)
    · exact hnm 'I' (by decide) (by decide)
    · exact hnm 'N' (by decide) (by decide)
  · rw [hw]
    exact .plain (hnm _ (by decide)) (hnm _ (by decide))
  · rw [show (-(fp.length : Int) - ((0 : Nat) : Int)) = -(fp.length : Int) by omega]
    exact Dec.fix_exact h28 (by simp only [Dec.etiny, Dec.prec]; omega) (by simp only [Dec.etop, Dec.emax, Dec.prec]; omega)

/-- **C59** A text of digits, signs and points which is not of the form of a decimal number is rejected with a `ValueError`. -/
theorem C59_decimal_rejected (hb : s.base = .str "decimal".toList) (hf : s.format = .null)
    (hs : NoBounds s) (h : Datatype.construct ext other s = .ok dt) {x : Str} (hx : ∀ c ∈ x, c.isDigit = true ∨ c = '.' ∨ c = '+' ∨ c = '-')
    (hn : ¬ ∃ neg ip fp, DecimalText x neg ip fp) : dt.read ext x = .error .valueError := by
  have hplain : ∀ c ∈ x, Dec.plainChar c = true := by
    intro c hc
    rcases hx c hc with h | rfl | rfl | rfl
    · simp [Dec.plainChar, h]
    all_goals decide
  have h1 := dec_read (g := none) (d := none) hb hf hs h x
  rw [h1, show fmtOf none none = {} from rfl, decToPython_plain hplain]
  unfold decConvert Dec.parse
  rw [Dec.asciiNumeric_plain hplain]
  simp only
  cases ho : Dec.ofAscii x with
  | none => rfl
  | some w =>
    exfalso
    cases w with
    | fin neg c e =>
      obtain ⟨ip, fp, hd, -⟩ := (ofAscii_fin_iff ..).1 ho
      exact hn ⟨_, _, _, hd⟩
    | inf n => exact absurd ho (plain_not_word hplain (fun _ _ _ => by simp))
    | nan n sg p => exact absurd ho (plain_not_word hplain (fun _ _ _ => by simp))

/-- **C59** Scientific notation is not accepted by decimal and integer datatypes, whatever the format. -/
theorem C59_scientific (hk : dt.base.kind = .decimal ∨ dt.base.kind = .integer) {x : Str} (hx : 'e' ∈ x ∨ 'E' ∈ x) (v : Val) :
    dt.read ext x ≠ .ok v := by
  have hd : ∀ f, decToPython f x = .error .valueError := by
    intro f
    unfold decToPython
    rw [if_pos (by simpa using hx)]
  unfold Datatype.read Datatype.parse
  cases hD : Datatype.descr ext dt with
  | error e => simp
  | ok D =>
    simp only
    rcases hk with hk | hk
    · simp only [toPython, hk]
      cases hf : numFmtOf D with
      | error e => simp
      | ok f => simp [hd f, Except.map]
    · simp only [toPython, hk]
      cases hf : numFmtOf D with
      | error e => simp
      | ok f => simp [intToPython, hd f, Except.map]

/-- **C59** The special values. -/
theorem C59_special {g d : Option Char} (hb : s.base = .str "decimal".toList) (hf : s.format = sepFormat g d)
    (hs : NoBounds s) (h : Datatype.construct ext other s = .ok dt) :
    dt.read ext "INF".toList = .ok (.dec (.inf false)) ∧ dt.read ext "-INF".toList = .ok (.dec (.inf true)) ∧
    dt.read ext "NaN".toList = .ok (.dec (.nan false false 0)) := by
  have h3 : ∀ (c x y z : Char), x ≠ y → y ≠ z → ¬ ∃ a b, [x, y, z] = a ++ [c, c] ++ b := by
    rintro c x y z hxy hyz ⟨a, b, hab⟩
    rcases no_adjacent (a := a) (b := b) (c := c) (x := x) (y := y) (z := z) with h | h | h
    · exact h hab
    · exact hxy h
    · exact hyz h
  have h4 : ∀ (c w x y z : Char), w ≠ x → x ≠ y → y ≠ z → ¬ ∃ a b, [w, x, y, z] = a ++ [c, c] ++ b := by
    rintro c w x y z hwx hxy hyz ⟨a, b, hab⟩
    cases a with
    | nil => simp only [List.nil_append, List.cons_append, List.cons.injEq] at hab; exact hwx (hab.1.trans hab.2.1.symm)
    | cons u a =>
      simp only [List.cons_append, List.cons.injEq] at hab
      exact h3 c x y z hxy hyz ⟨a, b, by simpa using hab.2⟩
  have hno : ∀ v ∈ ["INF".toList, "-INF".toList, "NaN".toList], ¬ ('e' ∈ v ∨ 'E' ∈ v ∨ (∃ a b, v = a ++ [g.getD ',', g.getD ','] ++ b)) := by
    intro v hv
    simp only [List.mem_cons, List.not_mem_nil, or_false] at hv
    rcases hv with rfl | rfl | rfl
    · rintro (h | h | h)
      · exact absurd h (by decide)
      · exact absurd h (by decide)
      · exact h3 _ 'I' 'N' 'F' (by decide) (by decide) h
    · rintro (h | h | h)
      · exact absurd h (by decide)
      · exact absurd h (by decide)
      · exact h4 _ '-' 'I' 'N' 'F' (by decide) (by decide) (by decide) h
    · rintro (h | h | h)
      · exact absurd h (by decide)
      · exact absurd h (by decide)
      · exact h3 _ 'N' 'a' 'N' (by decide) (by decide) h
  refine ⟨?_, ?_, ?_⟩ <;> (rw [dec_read hb hf hs h, decToPython_seps, if_neg (hno _ (by simp))]; rfl)

/-- **C59** A text is read as the integer `n` by an integer datatype (without format) exactly if it is read as a decimal number which is
equal to `n`, and `n` is in the range of the datatype. -/
theorem C59_integer_iff {s' : DatatypeSpec} {dt' : Datatype} {name : String} (hn : name ∈ Spec.intNames) (hb : s.base = .str name.toList)
    (hf : s.format = .null) (hs : NoBounds s) (h : Datatype.construct ext other s = .ok dt)
    (hb' : s'.base = .str "decimal".toList) (hf' : s'.format = .null) (hs' : NoBounds s') (h' : Datatype.construct ext other s' = .ok dt')
    (x : Str) (n : Int) :
    dt.read ext x = .ok (.int n) ↔
      (∃ neg c e, dt'.read ext x = .ok (.dec (.fin neg c e)) ∧ Dec.value (.fin neg c e) = n) ∧ Spec.InRange name n := by
  have hB := Datatype.built_of_construct h
  obtain ⟨b, h1, h2, h3, _⟩ := base_of_intName hn
  have hbase : dt.base = b := by
    have := hB.base; rw [hb, h1] at this; simpa using this.symm
  rw [int_read hB hs hf (hbase ▸ h2), dec_read (g := none) (d := none) hb' hf' hs' h', hbase, show fmtOf none none = {} from rfl, h3 n]
  unfold intToPython
  cases hd : decToPython {} x with
  | error e => simp [Except.map]
  | ok w =>
    cases w with
    | inf n => simp [Except.map, Dec.asInteger]
    | nan n sg p => simp [Except.map, Dec.asInteger]
    | fin neg c e =>
      have hai := asInteger_iff neg c e
      have hex : (∃ neg' c' e', (Except.map Val.dec (.ok (.fin neg c e)) : Res Val) = .ok (.dec (.fin neg' c' e')) ∧
          Dec.value (.fin neg' c' e') = n) ↔ Dec.value (.fin neg c e) = n := by
        constructor
        · rintro ⟨_, _, _, h, hv⟩
          simp only [Except.map, Except.ok.injEq, Val.dec.injEq] at h
          rw [h]; exact hv
        · exact fun hv => ⟨_, _, _, rfl, hv⟩
      rw [hex, ← hai n]
      simp only
      cases ha : (Dec.fin neg c e).asInteger with
      | error e => simp [Except.map]
      | ok o =>
        cases o with
        | none => simp [Except.map]
        | some m =>
          simp only [Except.ok.injEq, Option.some.injEq]
          cases hr : b.range with
          | none => simp [Except.map]
          | some p =>
            obtain ⟨lo, hi⟩ := p
            simp only
            split
            · next hin =>
              simp only [Except.map, Except.ok.injEq, Val.int.injEq]
              constructor
              · rintro rfl; exact ⟨rfl, hin⟩
              · exact And.left
            · next hin =>
              simp only [Except.map]
              constructor
              · intro h; cases h
              · rintro ⟨rfl, hh⟩; exact absurd hh hin

end

/-- The hypotheses are met, and the texts of the documentation of `decimal` are read as expected. -/
theorem C59_example (ext : Ext) (other : Base → Derived → J → Res Val) :
    ∃ dt, Datatype.construct ext other { base := .str "decimal".toList } = .ok dt ∧
      dt.read ext "+1234.456".toList = .ok (.dec (.fin false 1234456 (-3))) ∧ dt.read ext "-.456".toList = .ok (.dec (.fin true 456 (-3))) ∧
      (∀ v, dt.read ext "1234.456E+2".toList ≠ .ok v) ∧ dt.read ext "1.2.3".toList = .error .valueError := by
  refine ⟨{ base := .decimal }, rfl, ?_, ?_, fun v => C59_scientific (.inl rfl) (by decide) v, rfl⟩
  · exact C59_decimal_exact (other := other) (s := { base := .str "decimal".toList }) rfl rfl ⟨rfl, rfl, rfl, rfl, rfl, rfl⟩ rfl
      (DecimalText.point (ip := "1234".toList) (fp := "456".toList) .plus (by decide) (by decide) (by decide)) (by decide) (by decide)
  · exact C59_decimal_exact (other := other) (s := { base := .str "decimal".toList }) rfl rfl ⟨rfl, rfl, rfl, rfl, rfl, rfl⟩ rfl
      (DecimalText.point (ip := []) (fp := "456".toList) .minus (by decide) (by decide) (by decide)) (by decide) (by decide)

/-- With `groupChar` and `decimalChar`: the example of the documentation. -/
example (ext : Ext) : Datatype.read ext { base := .decimal, format := sepFormat (some '.') (some ',') } "1.234,5".toList
    = .ok (.dec (.fin false 12345 (-1))) := rfl

end Csvw.Props

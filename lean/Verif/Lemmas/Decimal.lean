import Verif.Py.Decimal
import Verif.Py.StrLemmas
/-!
# Lemmas on the model of `decimal.Decimal`
-/

namespace Csvw.Dec

theorem dropWhile_false {α : Type} (p : α → Bool) (l : List α) (h : ∀ a ∈ l, p a = false) : l.dropWhile p = l := by
  cases l with
  | nil => rfl
  | cons a l => simp [List.dropWhile, h a (by simp)]

theorem strip_eq_self {s : Str} (h : ∀ c ∈ s, Py.isSpace c = false) : Py.strip s = s := by
  unfold Py.strip Py.rstrip Py.rstripP Py.lstrip Py.lstripP
  rw [dropWhile_false _ _ h, dropWhile_false _ _ (by simpa using h), List.reverse_reverse]

theorem mapOpt_eq_self {f : Char → Option Char} {s : Str} (h : ∀ c ∈ s, f c = some c) : mapOpt f s = some s := by
  induction s with
  | nil => rfl
  | cons c s ih =>
    simp only [mapOpt, h c (by simp), ih (fun d hd => h d (by simp [hd]))]

/-- Plain characters of numerals. -/
def plainChar (c : Char) : Bool := c.isDigit || c = '.' || c = '-' || c = '+'

theorem isDigit_iff (c : Char) : c.isDigit = true ↔ 48 ≤ c.toNat ∧ c.toNat ≤ 57 := by
  simp only [Char.isDigit, Bool.and_eq_true, decide_eq_true_eq, ge_iff_le, UInt32.le_iff_toNat_le]
  rfl

theorem char_eq_iff (c d : Char) : c = d ↔ c.toNat = d.toNat := by
  rw [Char.ext_iff, ← UInt32.toNat_inj]; rfl

theorem isSpace_eq (c : Char) (h1 : 33 ≤ c.toNat) (h2 : c.toNat ≤ 126) : Py.isSpace c = false := by
  unfold Py.isSpace
  simp only [Bool.or_eq_false_iff, Bool.and_eq_false_iff, decide_eq_false_iff_not, beq_eq_false_iff_ne]
  omega

theorem plain_range {c : Char} (h : plainChar c = true) : 43 ≤ c.toNat ∧ c.toNat ≤ 57 := by
  simp only [plainChar, Bool.or_eq_true, isDigit_iff, decide_eq_true_eq] at h
  rcases h with ((h | rfl) | rfl) | rfl
  · omega
  all_goals decide

theorem asciiNumeric_plain {s : Str} (h : ∀ c ∈ s, plainChar c = true) : asciiNumeric s = some s := by
  unfold asciiNumeric
  rw [strip_eq_self, List.filter_eq_self.2]
  · apply mapOpt_eq_self
    intro c hc
    have := plain_range (h c hc)
    simp [asciiChar, show 0 < c.toNat ∧ c.toNat < 128 by omega]
  · intro c hc
    have := plain_range (h c hc)
    have : c ≠ '_' := by intro hh; subst hh; revert this; decide
    simp [this]
  · intro c hc
    have := plain_range (h c hc)
    exact isSpace_eq c (by omega) (by omega)

theorem digit_ne {c d : Char} (h : c.isDigit = true) (hd : d.isDigit = false) : c ≠ d := by
  intro hh; subst hh; rw [h] at hd; simp at hd

theorem partition_of_not_mem {sep : Char} {a b : Str} (h : sep ∉ a) :
    Py.partition sep (a ++ sep :: b) = (a, true, b) := by
  induction a with
  | nil => simp [Py.partition]
  | cons c t ih =>
    simp only [List.mem_cons, not_or] at h
    have hc : ¬ c = sep := fun hh => h.1 hh.symm
    simp [Py.partition, hc, ih h.2]

theorem partition_none {sep : Char} {a : Str} (h : sep ∉ a) : Py.partition sep a = (a, false, []) := by
  induction a with
  | nil => simp [Py.partition]
  | cons c t ih =>
    simp only [List.mem_cons, not_or] at h
    have hc : ¬ c = sep := fun hh => h.1 hh.symm
    simp [Py.partition, hc, ih h.2]

/-- The text of a numeral: sign, integral digits, and the fraction digits if there is a decimal point. -/
def plain (neg : Bool) (ip : Str) (fp : Option Str) : Str :=
  signStr neg ++ ip ++ (match fp with | none => [] | some f => '.' :: f)

theorem digits_plain {s : Str} (h : ∀ c ∈ s, c.isDigit = true) : ∀ c ∈ s, plainChar c = true := by
  intro c hc; simp [plainChar, h c hc]

theorem plain_plain {neg : Bool} {ip : Str} {fp : Option Str} (hi : ∀ c ∈ ip, c.isDigit = true)
    (hf : ∀ f ∈ fp, ∀ c ∈ f, c.isDigit = true) : ∀ c ∈ plain neg ip fp, plainChar c = true := by
  intro c hc
  simp only [plain, List.mem_append] at hc
  rcases hc with (hc | hc) | hc
  · cases neg <;> simp [signStr] at hc; subst hc; decide
  · exact digits_plain hi c hc
  · cases fp with
    | none => simp at hc
    | some f =>
      simp only [List.mem_cons] at hc
      rcases hc with rfl | hc
      · decide
      · exact digits_plain (hf f rfl) c hc

theorem lower_head_ne {c : Char} {r : Str} (hc : c.isDigit = true ∨ c = '.') {d : Char} {t : Str}
    (hd : plainChar d = false) : asciiLower (c :: r) ≠ d :: t := by
  intro h
  simp only [asciiLower, List.map_cons, List.cons.injEq] at h
  have h1 : c.toLower = c := by
    have hr : 43 ≤ c.toNat ∧ c.toNat ≤ 57 := plain_range (by
      rcases hc with hc | hc <;> simp [plainChar, hc])
    unfold Char.toLower
    have : ¬ (c.val ≥ 'A'.val ∧ c.val ≤ 'Z'.val) := by
      simp only [ge_iff_le, UInt32.le_iff_toNat_le]
      have : c.val.toNat = c.toNat := rfl
      have e1 : 'A'.val.toNat = 65 := rfl
      omega
    exact dif_neg this
  rw [h1] at h
  have : plainChar c = true := by rcases hc with hc | hc <;> simp [plainChar, hc]
  rw [h.1] at this
  rw [this] at hd
  simp at hd

theorem ofAscii_unsigned {ip : Str} {fp : Option Str} (hi : ∀ c ∈ ip, c.isDigit = true)
    (hf : ∀ f ∈ fp, ∀ c ∈ f, c.isDigit = true) (hne : ip ++ fp.getD [] ≠ []) (neg : Bool) :
    ofAscii (plain neg ip fp) =
      some (.fin neg (numeral (ip ++ fp.getD [])) (-((fp.getD []).length : Int))) := by
  obtain ⟨r, hr⟩ : ∃ r, r = plain false ip fp := ⟨_, rfl⟩
  have hrne : ∃ c t, r = c :: t ∧ (c.isDigit = true ∨ c = '.') := by
    cases ip with
    | cons c ip => exact ⟨c, _, by rw [hr]; simp only [plain, signStr]; rfl, .inl (hi c (by simp))⟩
    | nil =>
      cases fp with
      | none => simp at hne
      | some f => exact ⟨'.', f, by simp [hr, plain, signStr], .inr rfl⟩
  obtain ⟨c, t, hct, hc⟩ := hrne
  have hsign : takeSign (plain neg ip fp) = (neg, r) := by
    cases neg with
    | true => simp [plain, signStr, takeSign, hr]
    | false =>
      rw [← hr, hct]
      have h1 : c ≠ '-' := by
        rcases hc with hc | hc
        · exact digit_ne hc (by decide)
        · subst hc; decide
      have h2 : c ≠ '+' := by
        rcases hc with hc | hc
        · exact digit_ne hc (by decide)
        · subst hc; decide
      unfold takeSign
      split
      · next h => simp only [List.cons.injEq] at h; exact absurd h.1 h1
      · next h => simp only [List.cons.injEq] at h; exact absurd h.1 h2
      · rfl
  have hpart : Py.partition '.' r = (ip, fp.isSome, fp.getD []) := by
    have hdot : '.' ∉ ip := fun h => by simpa using hi _ h
    rw [hr]
    cases fp with
    | none => simpa [plain, signStr] using partition_none hdot
    | some f => simpa [plain, signStr] using partition_of_not_mem hdot
  have hl : ∀ d u, plainChar d = false → asciiLower r ≠ d :: u := by
    intro d u hd; rw [hct]; exact lower_head_ne hc hd
  have hpre : ∀ d u, plainChar d = false → (d :: u).isPrefixOf (asciiLower r) = false := by
    intro d u hd
    cases hq : asciiLower r with
    | nil => rfl
    | cons e v =>
      have : e ≠ d := fun h => hl d v hd (by rw [hq, h])
      simp [List.isPrefixOf, this.symm]
  have hall : ((ip ++ fp.getD []).all Char.isDigit) = true := by
    rw [List.all_eq_true]
    intro x hx
    rcases List.mem_append.1 hx with hx | hx
    · exact hi x hx
    · cases fp with
      | none => simp at hx
      | some f => exact hf f rfl x hx
  unfold ofAscii
  rw [hsign]
  simp only [hpart]
  rw [if_neg, if_neg, if_neg, if_pos ⟨hall, hne⟩]
  · rintro ⟨h, _⟩; rw [show "snan".toList = 's' :: "nan".toList from rfl, hpre 's' _ (by decide)] at h; simp at h
  · rintro ⟨h, _⟩; rw [show "nan".toList = 'n' :: "an".toList from rfl, hpre 'n' _ (by decide)] at h; simp at h
  · rintro (h | h)
    · exact hl 'i' _ (by decide) h
    · exact hl 'i' _ (by decide) h

theorem parse_plain {ip : Str} {fp : Option Str} (hi : ∀ c ∈ ip, c.isDigit = true)
    (hf : ∀ f ∈ fp, ∀ c ∈ f, c.isDigit = true) (hne : ip ++ fp.getD [] ≠ []) (neg : Bool) :
    parse (plain neg ip fp) = some (.fin neg (numeral (ip ++ fp.getD [])) (-((fp.getD []).length : Int))) := by
  unfold parse
  rw [asciiNumeric_plain (plain_plain hi hf)]
  exact ofAscii_unsigned hi hf hne neg

/-! ## Numerals -/

theorem isDigit_digits {n : Nat} : ∀ c ∈ digits n, c.isDigit = true :=
  fun _ hc => Nat.isDigit_of_mem_toDigits (by decide) (by decide) hc

theorem digits_ne_nil (n : Nat) : digits n ≠ [] := Nat.toDigits_ne_nil

@[simp] theorem numeral_digits (n : Nat) : numeral (digits n) = n := Nat.ofDigitChars_ten_toDigits

theorem numeral_append (a b : Str) : numeral (a ++ b) = 10 ^ b.length * numeral a + numeral b := by
  unfold numeral
  rw [Nat.ofDigitChars_append, Nat.ofDigitChars_eq_ofDigitChars_zero]

theorem numeral_zeros (k : Nat) : numeral (List.replicate k '0') = 0 := by
  simp [numeral]

theorem numeral_zeros_append (k : Nat) (a : Str) : numeral (List.replicate k '0' ++ a) = numeral a := by
  rw [numeral_append, numeral_zeros]; simp

theorem numeral_append_zeros (k : Nat) (a : Str) : numeral (a ++ List.replicate k '0') = numeral a * 10 ^ k := by
  rw [numeral_append, numeral_zeros]; simp [Nat.mul_comm]

theorem ndigits_pos (n : Nat) : 0 < ndigits n := Nat.length_toDigits_pos

theorem ndigits_le {n k : Nat} (hk : 0 < k) : ndigits n ≤ k ↔ n < 10 ^ k :=
  Nat.length_toDigits_le_iff (by decide) hk

theorem le_of_ndigits {n k : Nat} (hk : 0 < k) (h : k < ndigits n) : 10 ^ k ≤ n := by
  rcases Nat.lt_or_ge n (10 ^ k) with h1 | h1
  · have := (ndigits_le hk).2 h1; omega
  · exact h1

/-! ## Rounding -/

theorem fix_exact {neg : Bool} {c : Nat} {e : Int} (hc : c < 10 ^ 28) (h1 : etiny ≤ e) (h2 : e ≤ etop) :
    fix neg c e = .ok (.fin neg c e) := by
  have hd : ndigits c ≤ 28 := (ndigits_le (by decide)).2 hc
  unfold fix
  by_cases h0 : c = 0
  · subst h0
    simp only [if_true]
    have : min (max e etiny) emax = e := by simp only [etiny, etop, emax, prec] at *; omega
    rw [this]
  · have e1 : ¬ ((ndigits c : Int) + e - prec > etop) := by simp only [etiny, etop, emax, prec] at *; omega
    have e2 : ¬ (e < max ((ndigits c : Int) + e - prec) etiny) := by simp only [etiny, etop, emax, prec] at *; omega
    simp only [h0, if_false, e1, e2]

theorem roundHE_ge (n k : Nat) : n / 10 ^ k ≤ roundHE n k := by
  unfold roundHE; simp only; split <;> omega

theorem roundHE_exact (m k : Nat) : roundHE (m * 10 ^ k) k = m := by
  have hp : 0 < 10 ^ k := Nat.pow_pos (by decide)
  unfold roundHE
  simp only [Nat.mul_div_cancel _ hp, Nat.mul_mod_left]
  rw [if_neg]
  omega

/-- Rounding keeps large numbers large. -/
theorem fix_large {neg : Bool} {c : Nat} (hc : 10 ^ 28 ≤ c) :
    fix neg c 0 = .error .arithmeticError ∨
    ∃ (m k : Nat), fix neg c 0 = .ok (.fin neg m (k : Int)) ∧ 10 ^ 28 ≤ m * 10 ^ k := by
  have hd : 28 < ndigits c := by
    rcases Nat.lt_or_ge 28 (ndigits c) with h | h
    · exact h
    · have := (ndigits_le (n := c) (k := 28) (by decide)).1 h; omega
  have h0 : c ≠ 0 := by intro h; subst h; revert hc; decide
  unfold fix
  simp only [h0, if_false]
  split
  · exact .inl rfl
  next h1 =>
  have hmax : max ((ndigits c : Int) + 0 - prec) etiny = ((ndigits c - 28 : Nat) : Int) := by
    simp only [etiny, prec]; omega
  rw [hmax]
  have hlt : (0 : Int) < ((ndigits c - 28 : Nat) : Int) := by omega
  rw [if_pos hlt]
  have hk : ((((ndigits c - 28 : Nat) : Int) - 0).toNat) = ndigits c - 28 := by omega
  rw [hk]
  obtain ⟨k, hk⟩ : ∃ k, k = ndigits c - 28 := ⟨_, rfl⟩
  rw [← hk]
  have hck : 10 ^ (27 + k) ≤ c := le_of_ndigits (by omega) (by omega)
  have hdiv : 10 ^ 27 ≤ c / 10 ^ k := by
    rw [Nat.le_div_iff_mul_le (Nat.pow_pos (by decide)), ← Nat.pow_add]; exact hck
  have hr : 10 ^ 27 ≤ roundHE c k := Nat.le_trans hdiv (roundHE_ge c k)
  generalize roundHE c k = m at *
  have hk1 : 1 ≤ k := by omega
  have h10 : 10 ^ 1 ≤ 10 ^ k := Nat.pow_le_pow_right (by decide) hk1
  by_cases hm : ndigits m > prec
  · simp only [hm, if_true]
    split
    · exact .inl rfl
    · refine .inr ⟨m / 10, k + 1, by simp, ?_⟩
      have : 10 ^ 28 ≤ m := le_of_ndigits (by decide) hm
      have h3 : 10 ^ 27 ≤ m / 10 := by
        rw [Nat.le_div_iff_mul_le (by decide)]; exact Nat.le_trans (by decide) this
      calc 10 ^ 28 ≤ 10 ^ 27 * 10 ^ (k + 1) := by
            rw [← Nat.pow_add]; exact Nat.pow_le_pow_right (by decide) (by omega)
        _ ≤ _ := Nat.mul_le_mul_right _ h3
  · simp only [hm, if_false]
    split
    · exact .inl rfl
    · refine .inr ⟨m, k, rfl, ?_⟩
      calc 10 ^ 28 ≤ 10 ^ 27 * 10 ^ k := by
            rw [← Nat.pow_add]; exact Nat.pow_le_pow_right (by decide) (by omega)
        _ ≤ _ := Nat.mul_le_mul_right _ hr

theorem fix_ok_neg {neg : Bool} {c : Nat} {e : Int} {d : Dec} (h : fix neg c e = .ok d) :
    ∃ c' e', d = .fin neg c' e' := by
  unfold fix at h
  simp only at h
  split at h
  · simp at h; exact ⟨_, _, h.symm⟩
  · split at h
    · simp at h
    · split at h
      · split at h
        all_goals
          split at h
          · simp at h
          · simp only [Except.ok.injEq] at h; exact ⟨_, _, h.symm⟩
      · simp only [Except.ok.injEq] at h; exact ⟨_, _, h.symm⟩

end Csvw.Dec

import Verif.Lemmas.Decimal
import Verif.Model.Datatypes
/-!
# Lemmas on the strings of decimals
-/

namespace Csvw.Dec

theorem groupRev_mem {k : Nat} {s : Str} {c : Char} (h : c ∈ groupRev k s) : c = ',' ∨ c ∈ s := by
  induction s generalizing k with
  | nil => simp [groupRev] at h
  | cons d s ih =>
    cases k with
    | zero =>
      simp only [groupRev, List.mem_cons] at h
      rcases h with h | h | h
      · exact .inl h
      · exact .inr (by simp [h])
      · rcases ih h with h | h
        · exact .inl h
        · exact .inr (by simp [h])
    | succ k =>
      simp only [groupRev, List.mem_cons] at h
      rcases h with h | h
      · exact .inr (by simp [h])
      · rcases ih h with h | h
        · exact .inl h
        · exact .inr (by simp [h])

theorem group_mem {s : Str} {c : Char} (h : c ∈ group s) : c = ',' ∨ c ∈ s := by
  have := groupRev_mem (k := 3) (s := s.reverse) (c := c) (by simpa [group] using h)
  simpa using this

theorem groupRev_filter (k : Nat) (s : Str) (h : ',' ∉ s) : (groupRev k s).filter (· ≠ ',') = s := by
  induction s generalizing k with
  | nil => simp [groupRev]
  | cons d s ih =>
    simp only [List.mem_cons, not_or] at h
    have hd : ¬ d = ',' := fun hh => h.1 hh.symm
    cases k <;> simp [groupRev, hd, ih _ h.2] <;> simpa using ih _ h.2

theorem group_filter {s : Str} (h : ',' ∉ s) : (group s).filter (· ≠ ',') = s := by
  unfold group
  rw [List.filter_reverse, groupRev_filter _ _ (by simpa using h), List.reverse_reverse]

theorem groupRev_comma {k : Nat} {s : Str} (h : ',' ∉ s) : ',' ∈ groupRev k s ↔ k < s.length := by
  induction s generalizing k with
  | nil => simp [groupRev]
  | cons d s ih =>
    simp only [List.mem_cons, not_or] at h
    cases k with
    | zero => simp [groupRev]
    | succ k =>
      have := ih (k := k) h.2
      simp [groupRev, h.1, this]

theorem group_comma {s : Str} (h : ',' ∉ s) : ',' ∈ group s ↔ 3 < s.length := by
  have := groupRev_comma (k := 3) (s := s.reverse) (by simpa using h)
  simpa [group] using this

/-- `,` never occurs twice in a row, nor at the end. -/
theorem groupRev_pairs {k : Nat} {s a b : Str} (h : ',' ∉ s) (hk : groupRev k s = a ++ ',' :: b) :
    ∃ d r, b = d :: r ∧ d ≠ ',' := by
  induction s generalizing k a with
  | nil => simp [groupRev] at hk
  | cons d s ih =>
    simp only [List.mem_cons, not_or] at h
    cases k with
    | zero =>
      simp only [groupRev] at hk
      cases a with
      | nil =>
        simp only [List.nil_append, List.cons.injEq, true_and] at hk
        exact ⟨d, _, hk.symm, fun hh => h.1 hh.symm⟩
      | cons x a =>
        simp only [List.cons_append, List.cons.injEq] at hk
        cases a with
        | nil =>
          simp only [List.nil_append, List.cons.injEq] at hk
          exact absurd hk.2.1.symm h.1
        | cons y a =>
          simp only [List.cons_append, List.cons.injEq] at hk
          exact ih h.2 hk.2.2
    | succ k =>
      simp only [groupRev] at hk
      cases a with
      | nil =>
        simp only [List.nil_append, List.cons.injEq] at hk
        exact absurd hk.1.symm h.1
      | cons y a =>
        simp only [List.cons_append, List.cons.injEq] at hk
        exact ih h.2 hk.2

theorem group_no_double {s : Str} (h : ',' ∉ s) : Py.contains [',', ','] (group s) = false := by
  rw [Bool.eq_false_iff]
  intro hc
  obtain ⟨a, b, hab⟩ := (Py.contains_iff _ _).1 hc
  have : groupRev 3 s.reverse = b.reverse ++ ',' :: (',' :: a.reverse) := by
    rw [← List.reverse_inj]
    show group s = _
    rw [hab]; simp
  obtain ⟨d, r, h1, h2⟩ := groupRev_pairs (by simpa using h) this
  simp only [List.cons.injEq] at h1
  exact h2 h1.1.symm

theorem group_single (c : Char) : group [c] = [c] := rfl

/-- The strings written without exponent. -/
theorem toStr_plain (th neg : Bool) (c : Nat) (e : Int) (h0 : e ≤ 0) (h6 : -6 < e + ndigits c) :
    ∃ ip fp : Str, (∀ x ∈ ip, x.isDigit = true) ∧ (∀ x ∈ fp, x.isDigit = true) ∧ ip ≠ [] ∧ numeral (ip ++ fp) = c ∧
      (fp.length : Int) = -e ∧ (ip.length : Int) = max 1 ((ndigits c : Int) + e) ∧
      toStr th (.fin neg c e) = signStr neg ++ (if th then group ip else ip) ++ (if fp = [] then [] else '.' :: fp) := by
  have hds : ∀ x ∈ digits c, x.isDigit = true := isDigit_digits
  have hnum := numeral_digits c
  have hne := digits_ne_nil c
  obtain ⟨ds, hd⟩ : ∃ ds, ds = digits c := ⟨_, rfl⟩
  have hnd : (ndigits c : Int) = ds.length := by rw [hd]; rfl
  have h6 : -6 < e + (ds.length : Int) := by rw [hd]; exact h6
  rw [hnd]
  have hpos : 0 < (ds.length : Int) := by
    have := List.length_pos_iff.2 hne
    rw [← hd] at this; omega
  unfold toStr
  simp only
  rw [← hd] at hds hnum hne ⊢
  have hdot : (if e ≤ 0 ∧ e + (ds.length : Int) > -6 then e + (ds.length : Int) else 1) = e + ds.length :=
    if_pos ⟨h0, by omega⟩
  rw [hdot]
  unfold toStrDot splitDot
  by_cases h1 : e + (ds.length : Int) ≤ 0
  · rw [if_pos h1]
    refine ⟨['0'], List.replicate (e + (ds.length : Int)).natAbs '0' ++ ds, by decide, ?_, by simp, ?_, ?_, ?_, ?_⟩
    · intro x hx
      rcases List.mem_append.1 hx with hx | hx
      · rw [List.eq_of_mem_replicate hx]; decide
      · exact hds x hx
    · rw [show ['0'] = List.replicate 1 '0' from rfl, numeral_zeros_append, numeral_zeros_append]
      exact hnum
    · simp; omega
    · simp; omega
    · simp [List.append_assoc]
  · rw [if_neg h1]
    by_cases h2 : (ds.length : Int) ≤ e + (ds.length : Int)
    · rw [if_pos h2]
      have he : e = 0 := by omega
      subst he
      refine ⟨ds, [], hds, by simp, hne, by simpa using hnum, by simp, by omega, ?_⟩
      simp
    · rw [if_neg h2]
      obtain ⟨k, hk⟩ : ∃ k : Nat, (k : Int) = e + ds.length := ⟨(e + ds.length).toNat, by omega⟩
      rw [← hk, Int.toNat_natCast]
      refine ⟨ds.take k, ds.drop k, fun x hx => hds x (List.mem_of_mem_take hx), fun x hx => hds x (List.mem_of_mem_drop hx),
        ?_, ?_, ?_, ?_, ?_⟩
      · cases ds with
        | nil => exact absurd rfl hne
        | cons d ds => cases k with
          | zero => omega
          | succ k => simp
      · rw [List.take_append_drop]; exact hnum
      · simp; omega
      · simp; omega
      · simp [List.append_assoc]

/-- The strings written with exponent. -/
theorem toStr_sci (th neg : Bool) (c : Nat) (e : Int) (h : 0 < e ∨ e + ndigits c ≤ -6) :
    ∃ d ds, digits c = d :: ds ∧ e + ndigits c - 1 ≠ 0 ∧
      toStr th (.fin neg c e) = (signStr neg ++ d :: (if ds = [] then [] else '.' :: ds)) ++
        'E' :: plusInt (e + ndigits c - 1) := by
  have hp := ndigits_pos c
  obtain ⟨d, ds, hd⟩ : ∃ d ds, digits c = d :: ds := by
    cases hq : digits c with
    | nil => exact absurd hq (digits_ne_nil c)
    | cons d ds => exact ⟨d, ds, rfl⟩
  have hl : (ndigits c : Int) = (d :: ds).length := by unfold ndigits; rw [hd]
  refine ⟨d, ds, hd, by omega, ?_⟩
  rw [hl] at h ⊢
  unfold toStr
  simp only [hd]
  have hdot : (if e ≤ 0 ∧ e + ((d :: ds).length : Int) > -6 then e + ((d :: ds).length : Int) else 1) = 1 :=
    if_neg (by omega)
  rw [hdot]
  unfold toStrDot splitDot
  have h1 : ¬ ((1 : Int) ≤ 0) := by decide
  rw [if_neg h1]
  by_cases h2 : ((d :: ds).length : Int) ≤ 1
  · have hds : ds = [] := by
      cases ds with
      | nil => rfl
      | cons x y => simp at h2; omega
    subst hds
    rw [if_pos h2]
    have : e + (([d] : Str).length : Int) ≠ 1 := by simp at h ⊢; omega
    cases th <;> simp [this, group_single] <;> (intro hh; simp at this; omega)
  · rw [if_neg h2]
    have hds : ds ≠ [] := by rintro rfl; simp at h2
    have : e + ((d :: ds).length : Int) ≠ 1 := by omega
    cases th <;> simp only [Int.toNat_one, List.take_succ_cons, List.take_zero, List.drop_succ_cons, List.drop_zero, hds,
      this, if_false, group_single, Bool.false_eq_true] <;> simp [group_single]

theorem expInt_plusInt (i : Int) : Datatypes.expInt (plusInt i) = i := by
  unfold plusInt
  split
  · simp only [Datatypes.expInt, numeral_digits]; omega
  · simp only [Datatypes.expInt, numeral_digits]; omega

theorem ten_ne : (10 : Rat) ≠ 0 := by decide

theorem zpow_pos (e : Int) : 0 < (10 : Rat) ^ e := Rat.zpow_pos (by decide)

theorem value_neg_iff (neg : Bool) (c : Nat) (e : Int) : value (.fin neg c e) < 0 ↔ neg = true ∧ c ≠ 0 := by
  have hp := zpow_pos e
  have hc : (0 : Rat) ≤ (c : Rat) := by exact_mod_cast Nat.zero_le c
  unfold value
  cases neg with
  | false =>
    simp only [Bool.false_eq_true, if_false, false_and, iff_false, Rat.not_lt]
    exact Rat.mul_nonneg hc (Rat.le_of_lt hp)
  | true =>
    simp only [if_true, true_and, Rat.neg_mul]
    constructor
    · rintro h rfl
      simp at h
    · intro h
      have : (0 : Rat) < (c : Rat) := by exact_mod_cast Nat.pos_of_ne_zero h
      have := Rat.mul_pos this hp
      grind

/-- Equality of values for different exponents. -/
theorem value_shift (neg : Bool) (c k : Nat) (e : Int) : value (.fin neg c (e + k)) = value (.fin neg (c * 10 ^ k) e) := by
  simp only [value]
  rw [Rat.zpow_add ten_ne, Rat.zpow_natCast]
  cases neg <;> simp <;> grind

theorem natCast_mul_zpow_inj {a b : Nat} {e : Int} (h : (a : Rat) * 10 ^ e = (b : Rat) * 10 ^ e) : a = b := by
  have hp := zpow_pos e
  have : (a : Rat) = (b : Rat) := by
    have h2 : ((a : Rat) * 10 ^ e) * (10 ^ e)⁻¹ = ((b : Rat) * 10 ^ e) * (10 ^ e)⁻¹ := by rw [h]
    rwa [Rat.mul_assoc, Rat.mul_assoc, Rat.mul_inv_cancel _ (Rat.ne_of_gt hp), Rat.mul_one, Rat.mul_one] at h2
  exact_mod_cast this

theorem value_inj {neg : Bool} {a b : Nat} {e : Int} (h : value (.fin neg a e) = value (.fin neg b e)) : a = b := by
  unfold value at h
  cases neg with
  | false => exact natCast_mul_zpow_inj (by simpa using h)
  | true =>
    simp only [if_true, Rat.neg_mul] at h
    exact natCast_mul_zpow_inj (e := e) (by grind)

theorem value_zero (neg : Bool) (e : Int) : value (.fin neg 0 e) = 0 := by
  unfold value; cases neg <;> simp

theorem value_eq_zero {neg : Bool} {c : Nat} {e : Int} (h : value (.fin neg c e) = 0) : c = 0 := by
  rw [← value_zero neg e] at h
  exact value_inj h

/-- Rounding to 28 digits is exact for coefficients with at most 28 significant digits. -/
theorem fix_sig_gen {neg : Bool} {m k : Nat} {e : Int} (hm : m < 10 ^ 28) (h1 : etiny ≤ e) (h2 : e ≤ etop)
    (hd : (ndigits (m * 10 ^ k) : Int) + e - 1 ≤ emax) :
    ∃ m' j : Nat, fix neg (m * 10 ^ k) e = .ok (.fin neg m' (e + j)) ∧ m' * 10 ^ j = m * 10 ^ k := by
  obtain ⟨c, hc⟩ : ∃ c, c = m * 10 ^ k := ⟨_, rfl⟩
  rw [← hc] at hd ⊢
  by_cases hs : c < 10 ^ 28
  · exact ⟨c, 0, by simpa using fix_exact hs h1 h2, by simp⟩
  have h28 : 28 < ndigits c := by
    rcases Nat.lt_or_ge 28 (ndigits c) with h | h
    · exact h
    · exact absurd ((ndigits_le (by decide)).1 h) hs
  have h0 : c ≠ 0 := by rintro h; rw [h] at hs; exact hs (by decide)
  have hj : ndigits c - 28 ≤ k := by
    have : ndigits (m * 10 ^ k) ≤ 28 + k := by
      rw [ndigits_le (by omega), Nat.pow_add]
      exact Nat.mul_lt_mul_of_pos_right hm (Nat.pow_pos (by decide))
    rw [← hc] at this; omega
  obtain ⟨j, hj'⟩ : ∃ j, j = ndigits c - 28 := ⟨_, rfl⟩
  have hcj : c = (m * 10 ^ (k - j)) * 10 ^ j := by
    rw [hc, Nat.mul_assoc, ← Nat.pow_add]; congr 2; omega
  unfold fix
  simp only [h0, if_false]
  rw [if_neg (by simp only [prec, etop, emax] at *; omega)]
  have hmax : max ((ndigits c : Int) + e - prec) etiny = e + (j : Int) := by
    simp only [etiny, prec] at *; omega
  rw [hmax, if_pos (by omega)]
  have hjn : (e + (j : Int) - e).toNat = j := by omega
  have hr : roundHE c j = m * 10 ^ (k - j) := by rw [hcj, roundHE_exact]
  rw [hjn, hr]
  have hnd : ¬ (ndigits (m * 10 ^ (k - j)) > prec) := by
    have : m * 10 ^ (k - j) < 10 ^ 28 := by
      have h1 : c < 10 ^ (28 + j) := (ndigits_le (by omega)).1 (by omega)
      rw [hcj, Nat.pow_add] at h1
      exact Nat.lt_of_mul_lt_mul_right h1
    have := (ndigits_le (n := m * 10 ^ (k - j)) (k := 28) (by decide)).2 this
    simp only [prec]; omega
  simp only [hnd, if_false]
  rw [if_neg (by simp only [prec, etop, emax] at *; omega)]
  exact ⟨_, j, rfl, hcj.symm⟩

end Csvw.Dec

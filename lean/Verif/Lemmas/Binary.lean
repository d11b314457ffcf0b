import Verif.Model.Binary
import Verif.Py.StrLemmas
/-!
# Lemmas on hexadecimal and base64 encoding
-/

namespace Csvw.Bin

theorem char_toNat_lt {c : Char} {n : Nat} (h : c.toNat = n) (hn : n < 128) : c = Char.ofNat n := by
  have := Char.ofNat_toNat c
  rw [h] at this
  exact this.symm

theorem hexVal_hexChar : ∀ n, n < 16 → hexVal (hexChar n) = some n := by decide

theorem hexChar_ascii : ∀ n, n < 16 → (hexChar n).toNat < 128 := by decide

theorem hexVal_lt {c : Char} {n : Nat} (h : hexVal c = some n) : n < 16 := by
  unfold hexVal at h
  simp only at h
  split at h
  · simp at h; omega
  · split at h
    · simp at h; omega
    · split at h
      · simp at h; omega
      · simp at h

theorem unhexlify_hexlify (b : List UInt8) : unhexlify (hexlify b) = some b := by
  induction b with
  | nil => rfl
  | cons x b ih =>
    have hx : x.toNat < 256 := x.toNat_lt
    simp only [hexlify, unhexlify]
    rw [hexVal_hexChar _ (by omega), hexVal_hexChar _ (by omega), ih]
    simp only [Option.some.injEq, List.cons.injEq, and_true]
    have : 16 * (x.toNat / 16) + x.toNat % 16 = x.toNat := by omega
    rw [this]
    exact UInt8.ofNat_toNat

theorem hexlify_ascii (b : List UInt8) : isAscii (hexlify b) = true := by
  induction b with
  | nil => rfl
  | cons x b ih =>
    have hx : x.toNat < 256 := x.toNat_lt
    simp only [isAscii, hexlify, List.all_cons, Bool.and_eq_true, decide_eq_true_eq] at ih ⊢
    exact ⟨hexChar_ascii _ (by omega), hexChar_ascii _ (by omega), ih⟩

/-- The digits of `hexVal`. -/
theorem hexVal_cases {c : Char} {n : Nat} (h : hexVal c = some n) : c.toNat < 128 := by
  unfold hexVal at h
  simp only at h
  split at h
  · omega
  · split at h
    · omega
    · split at h
      · omega
      · simp at h

theorem hexVal_toUpper_aux : ∀ m : Nat, m < 128 → ∀ n, hexVal (Char.ofNat m) = some n → hexChar n = (Char.ofNat m).toUpper := by
  intro m hm n h
  have key : ∀ m : Nat, m < 128 → (match hexVal (Char.ofNat m) with | some n => decide (hexChar n = (Char.ofNat m).toUpper) | none => true) = true := by
    decide +kernel
  have := key m hm
  rw [h] at this
  simpa using this

theorem hexChar_hexVal {c : Char} {n : Nat} (h : hexVal c = some n) : hexChar n = c.toUpper := by
  have hc := hexVal_cases h
  have := hexVal_toUpper_aux c.toNat hc n (by rwa [Char.ofNat_toNat])
  rwa [Char.ofNat_toNat] at this

theorem hexVal_iff (c : Char) : (hexVal c).isSome = true ↔ c ∈ "0123456789abcdefABCDEF".toList := by
  by_cases hc : c.toNat < 128
  · have key : ∀ m : Nat, m < 128 → ((hexVal (Char.ofNat m)).isSome = decide (Char.ofNat m ∈ "0123456789abcdefABCDEF".toList)) := by
      decide +kernel
    have := key _ hc
    rw [Char.ofNat_toNat] at this
    rw [this]; simp
  · constructor
    · intro h
      obtain ⟨n, hn⟩ := Option.isSome_iff_exists.1 h
      exact absurd (hexVal_cases hn) hc
    · intro h
      have : ∀ c ∈ "0123456789abcdefABCDEF".toList, c.toNat < 128 := by decide
      exact absurd (this c h) hc

theorem unhexlify_some {s : Str} {b : List UInt8} (h : unhexlify s = some b) :
    hexlify b = s.map Char.toUpper ∧ s.length = 2 * b.length ∧ ∀ c ∈ s, (hexVal c).isSome = true := by
  match s, b, h with
  | [], b, h => simp [unhexlify] at h; subst h; simp [hexlify]
  | [_], b, h => simp [unhexlify] at h
  | x :: y :: r, b, h =>
    simp only [unhexlify] at h
    split at h
    · next u v bs h1 h2 h3 =>
      simp only [Option.some.injEq] at h
      subst h
      obtain ⟨i1, i2, i3⟩ := unhexlify_some h3
      have hu := hexVal_lt h1
      have hv := hexVal_lt h2
      have hn : (UInt8.ofNat (16 * u + v)).toNat = 16 * u + v := by
        rw [UInt8.toNat_ofNat']; omega
      refine ⟨?_, by simp; omega, ?_⟩
      · simp only [hexlify, hn, List.map_cons]
        rw [show (16 * u + v) / 16 = u by omega, show (16 * u + v) % 16 = v by omega, hexChar_hexVal h1, hexChar_hexVal h2, i1]
      · intro c hc
        rcases List.mem_cons.1 hc with rfl | hc
        · simp [h1]
        · rcases List.mem_cons.1 hc with rfl | hc
          · simp [h2]
          · exact i3 c hc
    · simp at h

theorem unhexlify_isSome {s : Str} (hl : s.length % 2 = 0) (hs : ∀ c ∈ s, (hexVal c).isSome = true) :
    ∃ b, unhexlify s = some b := by
  match s, hl, hs with
  | [], _, _ => exact ⟨[], rfl⟩
  | [_], hl, _ => simp at hl
  | x :: y :: r, hl, hs =>
    obtain ⟨bs, hbs⟩ := unhexlify_isSome (s := r) (by simp only [List.length_cons] at hl; omega) (fun c hc => hs c (by simp [hc]))
    obtain ⟨u, hu⟩ := Option.isSome_iff_exists.1 (hs x (by simp))
    obtain ⟨v, hv⟩ := Option.isSome_iff_exists.1 (hs y (by simp))
    exact ⟨_, by simp only [unhexlify, hu, hv, hbs]; rfl⟩

theorem isAscii_of_hex {s : Str} (hs : ∀ c ∈ s, (hexVal c).isSome = true) : isAscii s = true := by
  simp only [isAscii, List.all_eq_true, decide_eq_true_eq]
  intro c hc
  obtain ⟨n, hn⟩ := Option.isSome_iff_exists.1 (hs c hc)
  exact hexVal_cases hn

/-! ## base64 -/

/-- The characters which the decoder does not ignore. -/
def keep (c : Char) : Bool := c == '=' || (b64Val c).isSome

theorem a2bGo_filter (s : Str) : ∀ st, a2bGo st (s.filter keep) = a2bGo st s := by
  induction s with
  | nil => intro st; rfl
  | cons c s ih =>
    intro st
    by_cases hc : keep c = true
    · rw [List.filter_cons_of_pos hc]
      simp only [a2bGo]
      by_cases he : c = '='
      · simp only [he, if_true]
        split
        · split
          · rfl
          · exact ih _
        · exact ih _
      · simp only [he, if_false]
        cases hv : b64Val c with
        | none => exact ih _
        | some v =>
          simp only
          split <;> simp only [ih]
    · rw [List.filter_cons_of_neg (by simpa using hc), ih]
      simp only [keep, Bool.or_eq_true, not_or, beq_iff_eq, Bool.not_eq_true, Option.isSome_eq_false_iff, Option.isNone_iff_eq_none] at hc
      simp only [a2bGo, hc.1, if_false, hc.2]

theorem b64Val_b64Char : ∀ n, n < 64 → b64Val (b64Char n) = some n := by decide
theorem b64Char_ne_pad : ∀ n, n < 64 → b64Char n ≠ '=' := by decide
theorem b64Char_ascii : ∀ n, n < 64 → (b64Char n).toNat < 128 := by decide
theorem b64Char_keep : ∀ n, n < 64 → keep (b64Char n) = true := by decide

theorem a2bGo_char {n : Nat} (hn : n < 64) (st : A2b) (s : Str) :
    a2bGo st (b64Char n :: s) = match st.quad with
        | 0 => a2bGo ⟨1, n, 0⟩ s
        | 1 => (a2bGo ⟨2, n % 16, 0⟩ s).map (UInt8.ofNat (st.left * 4 + n / 16) :: ·)
        | 2 => (a2bGo ⟨3, n % 4, 0⟩ s).map (UInt8.ofNat (st.left * 16 + n / 4) :: ·)
        | _ => (a2bGo ⟨0, 0, 0⟩ s).map (UInt8.ofNat (st.left * 64 + n) :: ·) := by
  rw [a2bGo]
  rw [if_neg (b64Char_ne_pad n hn), b64Val_b64Char n hn]
  rfl

theorem ofNat_of_eq {x : UInt8} {n : Nat} (h : n = x.toNat) : UInt8.ofNat n = x := by
  subst h; exact UInt8.ofNat_toNat

theorem a2bGo_quad (a b c : UInt8) (s : Str) :
    a2bGo {} (b64Char (a.toNat / 4) :: b64Char (a.toNat % 4 * 16 + b.toNat / 16) ::
      b64Char (b.toNat % 16 * 4 + c.toNat / 64) :: b64Char (c.toNat % 64) :: s) = (a2bGo {} s).map (a :: b :: c :: ·) := by
  have ha := a.toNat_lt; have hb := b.toNat_lt; have hc := c.toNat_lt
  rw [a2bGo_char (by omega)]
  simp only
  rw [a2bGo_char (by omega)]
  simp only
  rw [a2bGo_char (by omega)]
  simp only
  rw [a2bGo_char (by omega)]
  simp only
  rw [ofNat_of_eq (x := a) (by omega), ofNat_of_eq (x := b) (by omega), ofNat_of_eq (x := c) (by omega)]
  show _ = _
  cases a2bGo {} s <;> simp [Option.map]

/-- A whole number of quads. -/
theorem a2bGo_b2a_full (l : List UInt8) (hl : l.length % 3 = 0) (s : Str) :
    a2bGo {} (b2a l ++ s) = (a2bGo {} s).map (l ++ ·) := by
  induction l using b2a.induct with
  | case1 => simp [b2a]
  | case2 => simp at hl
  | case3 => simp at hl
  | case4 a b c r ih =>
    simp only [List.length_cons] at hl
    have ih := ih (by omega)
    simp only [b2a, List.cons_append]
    rw [a2bGo_quad, ih]
    cases a2bGo {} s <;> simp [Option.map]

/-- The last line. -/
theorem a2bGo_b2a (l : List UInt8) : a2bGo {} (b2a l ++ ['\n']) = some l := by
  induction l using b2a.induct with
  | case1 => decide
  | case2 a =>
    have ha := a.toNat_lt
    simp only [b2a, List.cons_append]
    rw [a2bGo_char (by omega)]
    simp only
    rw [a2bGo_char (by omega)]
    simp only
    rw [ofNat_of_eq (x := a) (by omega)]
    simp [a2bGo]
  | case3 a b =>
    have ha := a.toNat_lt
    have hb := b.toNat_lt
    simp only [b2a, List.cons_append]
    rw [a2bGo_char (by omega)]
    simp only
    rw [a2bGo_char (by omega)]
    simp only
    rw [a2bGo_char (by omega)]
    simp only
    rw [ofNat_of_eq (x := a) (by omega), ofNat_of_eq (x := b) (by omega)]
    simp [a2bGo]
  | case4 a b c r ih =>
    simp only [b2a, List.cons_append]
    rw [a2bGo_quad, ih]
    rfl

theorem a2bGo_newline (s : Str) (st : A2b) : a2bGo st ('\n' :: s) = a2bGo st s := by
  rw [← a2bGo_filter, List.filter_cons_of_neg (by decide), a2bGo_filter]

theorem decode_chunks (k : Nat) : ∀ l : List UInt8, l.length ≤ k →
    a2bGo {} (((chunks 57 k l).map fun c => b2a c ++ ['\n']).flatten) = some l := by
  induction k with
  | zero =>
    intro l hl
    have : l = [] := List.length_eq_zero_iff.1 (by omega)
    subst this
    simp [chunks, a2bGo]
  | succ k ih =>
    intro l hl
    match l with
    | [] => simp [chunks, a2bGo]
    | x :: l' =>
      have hch : chunks 57 (k + 1) (x :: l') = (x :: l').take 57 :: chunks 57 k ((x :: l').drop 57) := by
        simp only [chunks]
      rw [hch, List.map_cons, List.flatten_cons]
      by_cases hle : (x :: l').length ≤ 57
      · have h1 : (x :: l').take 57 = x :: l' := List.take_of_length_le hle
        have h2 : (x :: l').drop 57 = [] := List.drop_eq_nil_of_le hle
        rw [h1, h2]
        have : chunks 57 k ([] : List UInt8) = [] := by cases k <;> simp [chunks]
        rw [this]
        simp only [List.map_nil, List.flatten_nil, List.append_nil]
        exact a2bGo_b2a _
      · have hlen : ((x :: l').take 57).length = 57 := by rw [List.length_take]; omega
        rw [List.append_assoc, a2bGo_b2a_full _ (by omega), List.singleton_append, a2bGo_newline]
        rw [ih _ (by rw [List.length_drop]; omega)]
        simp only [Option.map]
        rw [List.take_append_drop]

theorem decodebytes_encodebytes (l : List UInt8) : decodebytes (encodebytes l) = some l :=
  decode_chunks _ l (Nat.le_refl _)

theorem b2a_ascii (l : List UInt8) : ∀ c ∈ b2a l, c.toNat < 128 := by
  induction l using b2a.induct with
  | case1 => simp [b2a]
  | case2 a =>
    have ha := a.toNat_lt
    simp only [b2a, List.mem_cons, List.not_mem_nil, or_false]
    rintro c (rfl | rfl | rfl | rfl)
    · exact b64Char_ascii _ (by omega)
    · exact b64Char_ascii _ (by omega)
    · decide
    · decide
  | case3 a b =>
    have ha := a.toNat_lt
    have hb := b.toNat_lt
    simp only [b2a, List.mem_cons, List.not_mem_nil, or_false]
    rintro c (rfl | rfl | rfl | rfl)
    · exact b64Char_ascii _ (by omega)
    · exact b64Char_ascii _ (by omega)
    · exact b64Char_ascii _ (by omega)
    · decide
  | case4 a b c r ih =>
    have ha := a.toNat_lt
    have hb := b.toNat_lt
    have hc := c.toNat_lt
    simp only [b2a, List.mem_cons]
    rintro d (rfl | rfl | rfl | rfl | hd)
    · exact b64Char_ascii _ (by omega)
    · exact b64Char_ascii _ (by omega)
    · exact b64Char_ascii _ (by omega)
    · exact b64Char_ascii _ (by omega)
    · exact ih d hd

theorem encodebytes_ascii (l : List UInt8) : ∀ c ∈ encodebytes l, c.toNat < 128 := by
  intro c hc
  simp only [encodebytes, List.mem_flatten, List.mem_map] at hc
  obtain ⟨s, ⟨ch, _, rfl⟩, hc⟩ := hc
  rcases List.mem_append.1 hc with hc | hc
  · exact b2a_ascii _ c hc
  · rw [List.mem_singleton.1 hc]; decide

end Csvw.Bin

namespace Csvw.Py

theorem mem_strip {s : Str} {c : Char} (h : c ∈ strip s) : c ∈ s := by
  unfold strip rstrip lstrip lstripP rstripP at h
  have h := (List.dropWhile_sublist _).subset (List.mem_reverse.1 h)
  exact (List.dropWhile_sublist _).subset (List.mem_reverse.1 h)

theorem filter_dropWhile {α : Type} (p q : α → Bool) (h : ∀ a, p a = true → q a = false) (l : List α) :
    (l.dropWhile p).filter q = l.filter q := by
  induction l with
  | nil => rfl
  | cons a l ih =>
    by_cases ha : p a = true
    · rw [List.dropWhile_cons_of_pos ha, ih, List.filter_cons_of_neg (by simp [h a ha])]
    · rw [List.dropWhile_cons_of_neg ha]

theorem filter_strip (q : Char → Bool) (h : ∀ a, isSpace a = true → q a = false) (s : Str) : (strip s).filter q = s.filter q := by
  unfold strip rstrip lstrip lstripP rstripP
  rw [List.filter_reverse, filter_dropWhile _ _ h, List.filter_reverse, List.reverse_reverse, filter_dropWhile _ _ h]

end Csvw.Py

namespace Csvw.Bin

theorem b64Val_ascii {c : Char} {n : Nat} (h : b64Val c = some n) : c.toNat < 128 ∧ 32 < c.toNat := by
  unfold b64Val at h
  simp only at h
  split at h
  · omega
  · split at h
    · omega
    · split at h
      · omega
      · split at h
        · next hc => subst hc; decide
        · split at h
          · next hc => subst hc; decide
          · simp at h

theorem space_not_keep (c : Char) (h : Py.isSpace c = true) : keep c = false := by
  cases hk : keep c with
  | false => rfl
  | true =>
    exfalso
    simp only [keep, Bool.or_eq_true, beq_iff_eq] at hk
    have hr : c.toNat < 128 ∧ 32 < c.toNat := by
      rcases hk with rfl | hk
      · decide
      · obtain ⟨n, hn⟩ := Option.isSome_iff_exists.1 hk
        exact b64Val_ascii hn
    simp only [Py.isSpace, Bool.or_eq_true, Bool.and_eq_true, decide_eq_true_eq, beq_iff_eq] at h
    omega

theorem decode_strip_encode (l : List UInt8) : decodebytes (Py.strip (encodebytes l)) = some l := by
  unfold decodebytes
  rw [← a2bGo_filter, Py.filter_strip _ space_not_keep, a2bGo_filter]
  exact decodebytes_encodebytes l

theorem isAscii_strip_encode (l : List UInt8) : isAscii (Py.strip (encodebytes l)) = true := by
  simp only [isAscii, List.all_eq_true, decide_eq_true_eq]
  exact fun c hc => encodebytes_ascii l c (Py.mem_strip hc)

end Csvw.Bin

import Verif.Props.C16
/-!
# C16: what `slug` keeps of an arbitrary text
-/

namespace Csvw.Spec

/-- ASCII symbols: neither letters, digits, whitespace nor control characters. -/
def symbol (c : Char) : Bool := decide (33 ≤ c.toNat ∧ c.toNat ≤ 126) && !letterOrDigit c

/-- `r` is `t` with each maximal run of whitespace replaced by one space. -/
inductive Collapsed : Str → Str → Prop where
  | nil : Collapsed [] []
  | char (c : Char) {t r : Str} : Py.isSpace c = false → Collapsed t r → Collapsed (c :: t) (c :: r)
  | run (w : Str) {t r : Str} : w ≠ [] → (∀ c ∈ w, Py.isSpace c = true) → (∀ c, t.head? = some c → Py.isSpace c = false) → Collapsed t r →
      Collapsed (w ++ t) (' ' :: r)

end Csvw.Spec

namespace Csvw.Props
open Csvw Names

theorem punct_classes : ∀ c : Char, punctuation.contains c = Spec.symbol c := by
  have h : ∀ n : Fin 128, punctuation.contains (Char.ofNat n.val) = Spec.symbol (Char.ofNat n.val) := by decide +kernel
  intro c
  by_cases hc : c.toNat < 128
  · have := h ⟨c.toNat, hc⟩
    simpa only [Char.ofNat_toNat] using this
  · have h1 : punctuation.contains c = false := by
      cases hp : punctuation.contains c with
      | false => rfl
      | true =>
        have : ∀ c ∈ punctuation, c.toNat < 128 := by decide +kernel
        exact absurd (this c (by simpa using hp)) hc
    have h2 : Spec.symbol c = false := by
      unfold Spec.symbol
      rw [Bool.and_eq_false_iff]; left
      simp; omega
    rw [h1, h2]

theorem control_ascii {c : Char} (h : Spec.control c = true) : c.toNat < 128 := by
  unfold Spec.control at h
  simp only [Bool.or_eq_true, decide_eq_true_eq] at h
  omega

theorem letter_ascii {c : Char} (h : Spec.letterOrDigit c = true) : c.toNat < 128 := by
  unfold Spec.letterOrDigit Spec.letter at h
  simp only [Bool.or_eq_true, decide_eq_true_eq, Char.le_def, UInt32.le_iff_toNat_le] at h
  have e1 : ('z' : Char).val.toNat = 122 := rfl
  have e2 : ('Z' : Char).val.toNat = 90 := rfl
  have e3 : ('9' : Char).val.toNat = 57 := rfl
  have : c.val.toNat = c.toNat := rfl
  omega

/-- The end of `slug`: ASCII characters are kept, which must be letters, digits and spaces. -/
theorem slug_end {t r : Str} (hr : ∀ c ∈ r, Py.isSpace c = false ∨ c = ' ') (hp : ∀ c ∈ r, punctuation.contains c = false)
    (hc : ∀ c, Spec.control c = true → (c ∈ r ↔ c ∈ t)) :
    (if (r.filter isAscii).all (fun c => c == ' ' || isLetter c || isDigit c) then (.ok (r.filter isAscii) : Res Str) else .error .assertionError) =
      if t.any Spec.control then .error .assertionError else .ok (r.filter fun c => c == ' ' || Spec.letterOrDigit c) := by
  by_cases h : t.any Spec.control = true
  · rw [if_pos h, if_neg]
    intro hall
    obtain ⟨c, h1, h2⟩ := List.any_eq_true.1 h
    obtain ⟨a1, a2, a3, a4, a5⟩ := (ascii_classes c (control_ascii h2)).2.1 h2
    have := List.all_eq_true.1 hall c (List.mem_filter.2 ⟨(hc c h2).2 h1, by simp [isAscii, control_ascii h2]⟩)
    simp [a3, a4, a5] at this
  · rw [if_neg h]
    have hn : ∀ c ∈ r, Spec.control c = false := by
      intro c hcr
      cases h' : Spec.control c with
      | false => rfl
      | true => exact absurd (List.any_eq_true.2 ⟨c, (hc c h').1 hcr, h'⟩) h
    have e : r.filter isAscii = r.filter fun c => c == ' ' || Spec.letterOrDigit c := by
      apply List.filter_congr
      intro c h
      unfold isAscii
      by_cases ha : c.toNat < 128
      · have h0 := (ascii_classes c ha).1
        rw [hp c h, hn c h] at h0
        rcases hr c h with hs | hs
        · rw [hs] at h0
          simp [ha, h0]
        · subst hs; decide
      · have h1 : Spec.letterOrDigit c = false := by
          cases h' : Spec.letterOrDigit c with
          | false => rfl
          | true => exact absurd (letter_ascii h') ha
        have h2 : (c == ' ') = false := by
          cases h' : c == ' ' with
          | false => rfl
          | true =>
            rw [beq_iff_eq] at h'
            subst h'
            exact absurd (by decide) ha
        simp [ha, h1, h2]
    rw [e, if_pos]
    rw [List.all_eq_true]
    intro c h
    have hm := (List.mem_filter.1 h).2
    rw [Bool.or_eq_true] at hm
    rcases hm with hm | hm
    · simp [hm]
    · have h3 := (ascii_classes c (letter_ascii hm)).2.2.1
      rw [hm] at h3
      rw [Bool.or_assoc, ← h3, Bool.or_true]

theorem slug_eq (u : Unicode) (s : Str) (rm lc : Bool) : slug u s rm lc =
    (let r := subWs (if rm then [] else [' ']) false ((Spec.unmarked u lc s).filter fun c => !punctuation.contains c)
     if (r.filter isAscii).all (fun c => c == ' ' || isLetter c || isDigit c) then .ok (r.filter isAscii) else .error .assertionError) := by
  unfold slug Spec.unmarked
  simp only [foldl_remove]

/-- **C16** `slug(s, lowercase=lc)` keeps the letters and digits of the text without marks (in lower case), in order; it raises
`AssertionError` iff there is a control character. -/
theorem C16_slug (u : Unicode) (s : Str) (lc : Bool) : slug u s true lc =
    if (Spec.unmarked u lc s).any Spec.control then .error .assertionError else .ok ((Spec.unmarked u lc s).filter Spec.letterOrDigit) := by
  rw [slug_eq]
  simp only [if_true, subWs_nil_filter]
  rw [slug_end (t := Spec.unmarked u lc s)]
  · congr 2
    rw [List.filter_filter, List.filter_filter]
    apply List.filter_congr
    intro c _
    cases hl : Spec.letterOrDigit c with
    | false =>
      rw [Bool.or_false]
      by_cases hs : c = ' '
      · subst hs; decide
      · simp [hs]
    | true =>
      have h0 := (ascii_classes c (letter_ascii hl)).1
      rw [hl] at h0
      have h1 := h0.symm
      simp only [Bool.and_eq_true] at h1
      simp only [h1.1.1, h1.1.2, Bool.or_true, Bool.and_self]
  · intro c hc
    left
    simpa using (List.mem_filter.1 hc).2
  · intro c hc
    simpa using (List.mem_filter.1 (List.mem_filter.1 hc).1).2
  · intro c hc
    obtain ⟨a1, a2, -⟩ := (ascii_classes c (control_ascii hc)).2.1 hc
    simp [List.mem_filter, a1, a2]

theorem subWs_collapsed (t : Str) : Spec.Collapsed t (subWs [' '] false t) ∧
    ∀ w, w ≠ [] → (∀ c ∈ w, Py.isSpace c = true) → Spec.Collapsed (w ++ t) (' ' :: subWs [' '] true t) := by
  induction t with
  | nil => exact ⟨.nil, fun w h1 h2 => .run w h1 h2 (by rintro c ⟨⟩) .nil⟩
  | cons c cs ih =>
    by_cases h : Py.isSpace c = true
    · have e1 : subWs [' '] false (c :: cs) = ' ' :: subWs [' '] true cs := by simp [subWs, h]
      have e2 : subWs [' '] true (c :: cs) = subWs [' '] true cs := by simp [subWs, h]
      rw [e1, e2]
      refine ⟨ih.2 [c] (by simp) (by simpa using h), ?_⟩
      intro w h1 h2
      have := ih.2 (w ++ [c]) (by simp) (by
        intro d hd
        rcases List.mem_append.1 hd with hd | hd
        · exact h2 d hd
        · rw [List.mem_singleton] at hd; subst hd; exact h)
      rwa [List.append_assoc] at this
    · have e : ∀ b, subWs [' '] b (c :: cs) = c :: subWs [' '] false cs := by intro b; simp [subWs, h]
      rw [e, e]
      have hc : Spec.Collapsed (c :: cs) (c :: subWs [' '] false cs) := .char c (by simpa using h) ih.1
      exact ⟨hc, fun w h1 h2 => .run w h1 h2 (by intro d hd; cases hd; simpa using h) hc⟩

theorem Collapsed.mem {t r : Str} (h : Spec.Collapsed t r) : ∀ c, (c ∈ r → (Py.isSpace c = false ∧ c ∈ t) ∨ c = ' ') ∧ (Py.isSpace c = false → c ∈ t → c ∈ r) := by
  induction h with
  | nil => intro c; exact ⟨by rintro ⟨⟩, by rintro _ ⟨⟩⟩
  | char d hd _ ih =>
    intro c
    refine ⟨?_, ?_⟩
    · intro h
      rcases List.mem_cons.1 h with rfl | h
      · exact .inl ⟨hd, List.mem_cons_self⟩
      · exact ((ih c).1 h).imp (fun h => ⟨h.1, List.mem_cons_of_mem _ h.2⟩) id
    · intro h1 h
      rcases List.mem_cons.1 h with rfl | h
      · exact List.mem_cons_self
      · exact List.mem_cons_of_mem _ ((ih c).2 h1 h)
  | run w h1 h2 _ _ ih =>
    intro c
    refine ⟨?_, ?_⟩
    · intro h
      rcases List.mem_cons.1 h with rfl | h
      · exact .inr rfl
      · exact ((ih c).1 h).imp (fun h => ⟨h.1, List.mem_append_right _ h.2⟩) id
    · intro h3 h
      rcases List.mem_append.1 h with h | h
      · rw [h2 c h] at h3; cases h3
      · exact List.mem_cons_of_mem _ ((ih c).2 h3 h)

/-- **C16** `slug(s, remove_whitespace=False, lowercase=lc)`: symbols are removed first, then runs of whitespace become one space, and
letters, digits and spaces are kept. -/
theorem C16_slug_spaces (u : Unicode) (s : Str) (lc : Bool) :
    ∃ r, Spec.Collapsed ((Spec.unmarked u lc s).filter fun c => !Spec.symbol c) r ∧ slug u s false lc =
      if (Spec.unmarked u lc s).any Spec.control then .error .assertionError else .ok (r.filter fun c => c == ' ' || Spec.letterOrDigit c) := by
  have hsym : (fun c => !punctuation.contains c) = fun c => !Spec.symbol c := by funext c; rw [punct_classes]
  refine ⟨subWs [' '] false ((Spec.unmarked u lc s).filter fun c => !Spec.symbol c), (subWs_collapsed _).1, ?_⟩
  have hm := Collapsed.mem (subWs_collapsed ((Spec.unmarked u lc s).filter fun c => !Spec.symbol c)).1
  rw [slug_eq]
  simp only [Bool.false_eq_true, if_false]
  rw [hsym]
  refine slug_end ?_ ?_ ?_
  · intro c hc
    exact ((hm c).1 hc).imp (fun h => h.1) id
  · intro c hc
    rcases (hm c).1 hc with h | rfl
    · rw [punct_classes]
      simpa using (List.mem_filter.1 h.2).2
    · decide
  · intro c hc
    obtain ⟨a1, a2, -, -, a5⟩ := (ascii_classes c (control_ascii hc)).2.1 hc
    have a1' : Spec.symbol c = false := by rw [← punct_classes]; simpa using a1
    refine ⟨fun h => ?_, fun h => (hm c).2 a2 (List.mem_filter.2 ⟨h, by simp [a1']⟩)⟩
    rcases (hm c).1 h with h | h
    · exact (List.mem_filter.1 h.2).1
    · exact absurd h a5

end Csvw.Props

import Verif.Spec.Names
import Verif.Model.Names
import Verif.Py.StrLemmas
/-!
# C16: normalized names

`normalizeName u s` is `utils.normalize_name(s)` and `slug u s rm lc` is `utils.slug(s, rm, lc)`, for an arbitrary
Unicode database `u`. The only possible exception is the `AssertionError` of `slug`.
-/

namespace Csvw.Props
open Names

/-- An ASCII letter, digit or underscore. -/
def IdentChar (c : Char) : Prop := ('a' ≤ c ∧ c ≤ 'z') ∨ ('A' ≤ c ∧ c ≤ 'Z') ∨ ('0' ≤ c ∧ c ≤ '9') ∨ c = '_'
/-- A non-empty string of ASCII letters, digits, underscores, not starting with a digit. -/
def Identifier (s : Str) : Prop := ∃ c cs, s = c :: cs ∧ ¬ ('0' ≤ c ∧ c ≤ '9') ∧ ∀ x ∈ s, IdentChar x

instance : DecidablePred IdentChar := fun _ => inferInstanceAs (Decidable (_ ∨ _))

theorem isLetter_iff (c : Char) : isLetter c = true ↔ ('a' ≤ c ∧ c ≤ 'z') ∨ ('A' ≤ c ∧ c ≤ 'Z') := by
  simp [isLetter]
theorem isDigit_iff (c : Char) : isDigit c = true ↔ ('0' ≤ c ∧ c ≤ '9') := by simp [isDigit]

theorem subWs_nil_spaces (b : Bool) (s : Str) : ∀ c ∈ subWs [] b s, c ∈ s ∧ Py.isSpace c = false := by
  induction s generalizing b with
  | nil => simp [subWs]
  | cons x xs ih =>
    intro c hc
    simp only [subWs] at hc
    split at hc
    · next hx =>
      have : c ∈ subWs [] true xs := by cases b <;> simpa using hc
      obtain ⟨h1, h2⟩ := ih true c this
      exact ⟨by simp [h1], h2⟩
    · next hx =>
      rcases List.mem_cons.1 hc with rfl | hc
      · exact ⟨by simp, by simpa using hx⟩
      · obtain ⟨h1, h2⟩ := ih false c hc
        exact ⟨by simp [h1], h2⟩

/-- **C16** `slug` with whitespace removal contains only ASCII letters and digits. -/
theorem C16_slug_chars (u : Unicode) (s r : Str) (lc : Bool) (h : slug u s true lc = .ok r) :
    ∀ c ∈ r, ('a' ≤ c ∧ c ≤ 'z') ∨ ('A' ≤ c ∧ c ≤ 'Z') ∨ ('0' ≤ c ∧ c ≤ '9') := by
  unfold slug at h
  simp only [if_true] at h
  generalize (if lc = true then u.lower _ else _) = t at h
  split at h
  · next ha =>
    simp only [Except.ok.injEq] at h
    rw [h] at ha
    intro c hc
    have h1 := List.all_eq_true.1 ha c hc
    rw [← h] at hc
    have h2 := (subWs_nil_spaces false _ c (List.mem_filter.1 hc).1).2
    simp only [Bool.or_eq_true, beq_iff_eq, isLetter_iff, isDigit_iff] at h1
    rcases h1 with (h1 | h1) | h1
    · subst h1; exact absurd h2 (by decide)
    · rcases h1 with h1 | h1
      · exact .inl h1
      · exact .inr (.inl h1)
    · exact .inr (.inr h1)
  · simp at h

theorem slugParts_chars {u : Unicode} {ps rs : List Str} (h : slugParts u ps = .ok rs) :
    ∀ r ∈ rs, ∀ c ∈ r, ('a' ≤ c ∧ c ≤ 'z') ∨ ('A' ≤ c ∧ c ≤ 'Z') ∨ ('0' ≤ c ∧ c ≤ '9') := by
  induction ps generalizing rs with
  | nil => simp [slugParts] at h; subst h; simp
  | cons p ps ih =>
    simp only [slugParts] at h
    split at h
    · simp at h
    · next a ha =>
      split at h
      · simp at h
      · next r hr =>
        simp only [Except.ok.injEq] at h
        subst h
        intro x hx
        rcases List.mem_cons.1 hx with rfl | hx
        · exact C16_slug_chars u p x false ha
        · exact ih hr x hx

theorem kwlist_ident : ∀ k ∈ kwlist, ∃ c cs, k = c :: cs ∧ ¬ ('0' ≤ c ∧ c ≤ '9') ∧ ∀ x ∈ k, IdentChar x := by
  have h : kwlist.all (fun k => match k with
      | [] => false
      | c :: cs => !(decide ('0' ≤ c ∧ c ≤ '9')) && (c :: cs).all (fun x => decide (IdentChar x))) = true := by
    decide +kernel
  intro k hk
  have := List.all_eq_true.1 h k hk
  cases k with
  | nil => simp at this
  | cons c cs =>
    simp only [Bool.and_eq_true, Bool.not_eq_true', decide_eq_false_iff_not] at this
    refine ⟨c, cs, rfl, this.1, ?_⟩
    intro x hx
    have := List.all_eq_true.1 this.2 x hx
    simpa using this

/-- **C16** A normalized name is a non-empty string of ASCII letters, digits and underscores which does not start with a
digit. -/
theorem C16_normalized_is_identifier (u : Unicode) (s r : Str) (h : normalizeName u s = .ok r) : Identifier r := by
  unfold normalizeName at h
  simp only at h
  generalize Py.replace [' '] ['_'] (Py.replace ['.'] ['_'] (Py.replace ['-'] ['_'] s)) = s' at h
  split at h
  · next hk =>
    simp only [Except.ok.injEq] at h
    subst h
    obtain ⟨c, cs, rfl, h1, h2⟩ := kwlist_ident s' (by simpa using hk)
    refine ⟨c, cs ++ ['_'], rfl, h1, ?_⟩
    intro x hx
    rcases List.mem_append.1 hx with hx | hx
    · exact h2 x hx
    · simp only [List.mem_singleton] at hx; subst hx; exact .inr (.inr (.inr rfl))
  · split at h
    · simp at h
    · next parts hp =>
      have hj : ∀ x ∈ (if (Py.join ['_'] parts).isEmpty then ['_'] else Py.join ['_'] parts), IdentChar x := by
        intro x hx
        split at hx
        · simp only [List.mem_singleton] at hx; subst hx; exact .inr (.inr (.inr rfl))
        · rcases Py.mem_join hx with hx | ⟨p, hp', hx⟩
          · simp only [List.mem_singleton] at hx; subst hx; exact .inr (.inr (.inr rfl))
          · rcases slugParts_chars hp p hp' x hx with h | h | h
            · exact .inl h
            · exact .inr (.inl h)
            · exact .inr (.inr (.inl h))
      have hne : (if (Py.join ['_'] parts).isEmpty then ['_'] else Py.join ['_'] parts) ≠ [] := by
        split
        · simp
        · next hn => simpa using hn
      generalize (if (Py.join ['_'] parts).isEmpty then ['_'] else Py.join ['_'] parts) = t at h hj hne
      cases t with
      | nil => exact absurd rfl hne
      | cons c cs =>
        simp only [Except.ok.injEq] at h
        subst h
        split
        · next hc =>
          refine ⟨c, cs, rfl, ?_, hj⟩
          rintro ⟨h1, h2⟩
          simp only [Bool.or_eq_true, beq_iff_eq, isLetter_iff] at hc
          rcases hc with (⟨h3, _⟩ | ⟨h3, _⟩) | h3
          · exact absurd (Char.le_trans h3 h2) (by decide)
          · exact absurd (Char.le_trans h3 h2) (by decide)
          · subst h3; exact absurd h2 (by decide)
        · refine ⟨'_', c :: cs, rfl, by decide, ?_⟩
          intro x hx
          rcases List.mem_cons.1 hx with rfl | hx
          · exact .inr (.inr (.inr rfl))
          · exact hj x hx

/-- A database that leaves ASCII strings alone, as the real one does. -/
def AsciiStable (u : Unicode) : Prop :=
  (∀ s : Str, (∀ c ∈ s, c.toNat < 128) → u.nfd s = s) ∧ ∀ c : Char, c.toNat < 128 → u.isMn c = false

/-- Letters and digits. -/
def AlNum (c : Char) : Prop := ('a' ≤ c ∧ c ≤ 'z') ∨ ('A' ≤ c ∧ c ≤ 'Z') ∨ ('0' ≤ c ∧ c ≤ '9')

theorem alnum_ascii {c : Char} (h : AlNum c) : c.toNat < 128 := by
  have le : ∀ d : Char, d.toNat < 128 → c ≤ d → c.toNat < 128 := by
    intro d hd h
    have : c.toNat ≤ d.toNat := by simpa [Char.le_def, UInt32.le_iff_toNat_le] using h
    omega
  rcases h with ⟨_, h⟩ | ⟨_, h⟩ | ⟨_, h⟩
  · exact le 'z' (by decide) h
  · exact le 'Z' (by decide) h
  · exact le '9' (by decide) h

theorem alnum_not_punct {c : Char} (h : AlNum c) : c ∉ punctuation := by
  have : punctuation.all (fun c => !decide ((('a' ≤ c ∧ c ≤ 'z') ∨ ('A' ≤ c ∧ c ≤ 'Z') ∨ ('0' ≤ c ∧ c ≤ '9')))) = true := by decide
  intro hc
  have := List.all_eq_true.1 this c hc
  simp only [Bool.not_eq_true', decide_eq_false_iff_not] at this
  exact this h

theorem alnum_not_space {c : Char} (h : AlNum c) : Py.isSpace c = false := by
  have h1 := alnum_ascii h
  have h2 : 48 ≤ c.toNat := by
    have le : ∀ d : Char, 48 ≤ d.toNat → d ≤ c → 48 ≤ c.toNat := by
      intro d hd h
      have : d.toNat ≤ c.toNat := by simpa [Char.le_def, UInt32.le_iff_toNat_le] using h
      omega
    rcases h with ⟨h, _⟩ | ⟨h, _⟩ | ⟨h, _⟩
    · exact le 'a' (by decide) h
    · exact le 'A' (by decide) h
    · exact le '0' (by decide) h
  unfold Py.isSpace
  simp only [Bool.or_eq_false_iff, Bool.and_eq_false_iff, decide_eq_false_iff_not, beq_eq_false_iff_ne, ne_eq]
  omega

theorem replace_absent (c : Char) (new s : Str) (h : c ∉ s) : Py.replace [c] new s = s := by
  rw [Py.replace_char]
  induction s with
  | nil => rfl
  | cons x xs ih =>
    simp only [List.mem_cons, not_or] at h
    simp [Ne.symm h.1, ih h.2]

theorem subWs_id (rep s : Str) (b : Bool) (h : ∀ c ∈ s, Py.isSpace c = false) : subWs rep b s = s := by
  induction s generalizing b with
  | nil => rfl
  | cons x xs ih => simp [subWs, h x (by simp), ih false (fun c hc => h c (by simp [hc]))]

/-- `slug` leaves strings of letters and digits alone. -/
theorem slug_id {u : Unicode} (hu : AsciiStable u) (s : Str) (hs : ∀ c ∈ s, AlNum c) : slug u s true false = .ok s := by
  have h1 : u.nfd s = s := hu.1 s (fun c hc => alnum_ascii (hs c hc))
  have h2 : s.filter (fun c => !u.isMn c) = s := by
    rw [List.filter_eq_self]; intro c hc; simp [hu.2 c (alnum_ascii (hs c hc))]
  have h3 : punctuation.foldl (fun r c => Py.replace [c] [] r) s = s := by
    have : ∀ l : Str, (∀ c ∈ l, c ∉ s) → l.foldl (fun r c => Py.replace [c] [] r) s = s := by
      intro l
      induction l with
      | nil => intro _; rfl
      | cons c l ih =>
        intro h
        simp only [List.foldl_cons, replace_absent c [] s (h c (by simp))]
        exact ih (fun c hc => h c (by simp [hc]))
    exact this punctuation (fun c hc hs' => alnum_not_punct (hs c hs') hc)
  have h4 : subWs [] false s = s := subWs_id _ _ _ (fun c hc => alnum_not_space (hs c hc))
  have h5 : s.filter isAscii = s := by
    rw [List.filter_eq_self]; intro c hc; simp [isAscii, alnum_ascii (hs c hc)]
  have h6 : s.all (fun c => c == ' ' || isLetter c || isDigit c) = true := by
    rw [List.all_eq_true]
    intro c hc
    simp only [Bool.or_eq_true, beq_iff_eq, isLetter_iff, isDigit_iff]
    rcases hs c hc with h | h | h
    · exact .inl (.inr (.inl h))
    · exact .inl (.inr (.inr h))
    · exact .inr h
  simp only [slug, h1, h2, h3, h4, h5, h6, Bool.false_eq_true, if_false, if_true]

theorem slugParts_id {u : Unicode} (hu : AsciiStable u) (ps : List Str) (hs : ∀ p ∈ ps, ∀ c ∈ p, AlNum c) :
    slugParts u ps = .ok ps := by
  induction ps with
  | nil => rfl
  | cons p ps ih =>
    simp only [slugParts, slug_id hu p (hs p (by simp)), ih (fun q hq => hs q (by simp [hq]))]

/-- **C16** For names made of ASCII letters, digits, `_`, `-`, `.` and spaces, the normalized name exists, is an
identifier and is not a keyword. (For names with other characters see `C16_ascii`.) -/
theorem C16_not_keyword (u : Unicode) (hu : AsciiStable u) (s : Str)
    (hs : ∀ c ∈ s, AlNum c ∨ c ∈ ['_', '-', '.', ' ']) :
    ∃ r, normalizeName u s = .ok r ∧ Identifier r ∧ r ∉ kwlist := by
  have hr : ∀ c ∈ Py.replace [' '] ['_'] (Py.replace ['.'] ['_'] (Py.replace ['-'] ['_'] s)), AlNum c ∨ c = '_' := by
    intro c hc
    rw [Py.replace_char, Py.replace_char, Py.replace_char] at hc
    simp only [List.mem_flatMap] at hc
    obtain ⟨x, ⟨y, ⟨z, hz, hy⟩, hx⟩, hc⟩ := hc
    have := hs z hz
    simp only [List.mem_cons, List.not_mem_nil, or_false] at this
    split at hy <;> simp only [List.mem_singleton] at hy <;> subst hy <;>
    split at hx <;> simp only [List.mem_singleton] at hx <;> subst hx <;>
    split at hc <;> simp only [List.mem_singleton] at hc <;> subst hc <;> simp_all
  suffices ∃ r, normalizeName u s = .ok r ∧ r ∉ kwlist by
    obtain ⟨r, h1, h2⟩ := this
    exact ⟨r, h1, C16_normalized_is_identifier u s r h1, h2⟩
  unfold normalizeName
  simp only
  generalize Py.replace [' '] ['_'] (Py.replace ['.'] ['_'] (Py.replace ['-'] ['_'] s)) = s' at hr
  have hparts : slugParts u (Py.split ['_'] s') = .ok (Py.split ['_'] s') := by
    apply slugParts_id hu
    intro p hp c hc
    rcases hr c (Py.mem_of_mem_split hp hc) with h | h
    · exact h
    · subst h; exact absurd hc (Py.not_mem_split_char '_' s' p hp)
  have hkey : ∀ t : Str, t ∈ kwlist → ∀ c cs, t = c :: cs → isLetter c = true ∧ t.getLast? ≠ some '_' := by
    have h : kwlist.all (fun k => match k with
        | [] => true
        | c :: cs => isLetter c && decide ((c :: cs).getLast? ≠ some '_')) = true := by decide +kernel
    rintro t ht c cs rfl
    simpa using List.all_eq_true.1 h _ ht
  split
  · next hk =>
    refine ⟨_, rfl, ?_⟩
    intro hmem
    cases s' with
    | nil => exact absurd hk (by decide)
    | cons c cs =>
      exact (hkey _ hmem c (cs ++ ['_']) rfl).2 List.getLast?_concat
  · next hk =>
    rw [hparts]
    simp only [Py.join_split ['_'] (by simp)]
    cases s' with
    | nil => exact ⟨['_'], rfl, by decide⟩
    | cons c cs =>
      simp only [List.isEmpty_cons, Bool.false_eq_true, if_false]
      split
      · exact ⟨_, rfl, by simpa using hk⟩
      · refine ⟨_, rfl, ?_⟩
        intro hmem
        have := (hkey _ hmem '_' (c :: cs) rfl).1
        exact absurd this (by decide)

/-! ### ASCII strings exactly -/

theorem ascii_classes : ∀ c : Char, c.toNat < 128 →
    (Spec.letterOrDigit c = (!punctuation.contains c && !Py.isSpace c && !Spec.control c)) ∧
    (Spec.control c = true → c ∉ punctuation ∧ Py.isSpace c = false ∧ isLetter c = false ∧ isDigit c = false ∧ c ≠ ' ') ∧
    (Spec.letterOrDigit c = (isLetter c || isDigit c)) ∧ (Spec.letterOrDigit c = true → c ≠ ' ') ∧ (c = '_' → punctuation.contains c = true) := by
  have h : ∀ n : Fin 128, let c := Char.ofNat n.val
      (Spec.letterOrDigit c = (!punctuation.contains c && !Py.isSpace c && !Spec.control c)) ∧
    (Spec.control c = true → c ∉ punctuation ∧ Py.isSpace c = false ∧ isLetter c = false ∧ isDigit c = false ∧ c ≠ ' ') ∧
    (Spec.letterOrDigit c = (isLetter c || isDigit c)) ∧ (Spec.letterOrDigit c = true → c ≠ ' ') ∧ (c = '_' → punctuation.contains c = true) := by
    decide +kernel
  intro c hc
  have := h ⟨c.toNat, hc⟩
  simpa only [Char.ofNat_toNat] using this

theorem foldl_remove (l s : Str) :
    l.foldl (fun r c => Py.replace [c] [] r) s = s.filter (fun c => !l.contains c) := by
  induction l generalizing s with
  | nil => exact (List.filter_eq_self.2 (fun _ _ => rfl)).symm
  | cons x l ih =>
    simp only [List.foldl_cons, ih]
    have : Py.replace [x] [] s = s.filter (fun c => !(c == x)) := by
      rw [Py.replace_char]
      clear ih
      induction s with
      | nil => rfl
      | cons y ys ih =>
        rw [List.flatMap_cons, ih, List.filter_cons]
        by_cases h : y = x <;> simp [h]
    rw [this, List.filter_filter]
    congr 1
    funext c
    rw [List.contains_cons, Bool.not_or, Bool.and_comm]

theorem subWs_nil_filter (b : Bool) (s : Str) : subWs [] b s = s.filter (fun c => !Py.isSpace c) := by
  induction s generalizing b with
  | nil => rfl
  | cons c cs ih =>
    rw [List.filter_cons]
    simp only [subWs]
    by_cases h : Py.isSpace c = true
    · simp [h, ih]
    · simp [h, ih]

/-- `slug` of an ASCII string: its letters and digits, unless there is a control character. -/
theorem slug_ascii {u : Unicode} (hu : AsciiStable u) (s : Str) (hs : ∀ c ∈ s, c.toNat < 128) :
    slug u s true false = if s.any Spec.control then .error .assertionError else .ok (s.filter Spec.letterOrDigit) := by
  have h2 : s.filter (fun c => !u.isMn c) = s := by
    rw [List.filter_eq_self]; intro c hc; simp [hu.2 c (hs c hc)]
  have h5 : ∀ p : Char → Bool, (s.filter p).filter isAscii = s.filter p := by
    intro p
    rw [List.filter_eq_self]; intro c hc; simp [isAscii, hs c (List.mem_filter.1 hc).1]
  simp only [slug, hu.1 s hs, h2, foldl_remove, subWs_nil_filter, Bool.false_eq_true, if_false, if_true]
  rw [List.filter_filter (p := fun c => !Py.isSpace c), h5]
  by_cases hc : s.any Spec.control = true
  · rw [if_pos hc, if_neg]
    intro hall
    obtain ⟨c, h1, h2⟩ := List.any_eq_true.1 hc
    obtain ⟨a1, a2, a3, a4, a5⟩ := (ascii_classes c (hs c h1)).2.1 h2
    have := List.all_eq_true.1 hall c (by rw [List.mem_filter]; simp [h1, a1, a2])
    simp [a3, a4, a5] at this
  · rw [if_neg hc]
    have hn : ∀ c ∈ s, Spec.control c = false := by
      intro c h
      cases h' : Spec.control c with
      | false => rfl
      | true => exact absurd (List.any_eq_true.2 ⟨c, h, h'⟩) hc
    have e : s.filter (fun c => !Py.isSpace c && !punctuation.contains c) = s.filter Spec.letterOrDigit := by
      apply List.filter_congr
      intro c h
      rw [(ascii_classes c (hs c h)).1, hn c h]
      simp [Bool.and_comm]
    rw [e, if_pos]
    rw [List.all_eq_true]
    intro c h
    rw [List.mem_filter] at h
    have := (ascii_classes c (hs c h.1)).2.2.1
    rw [h.2] at this
    simp only [Bool.or_eq_true]
    rcases (Bool.or_eq_true _ _).mp this.symm with h | h
    · exact .inl (.inr h)
    · exact .inr h

theorem slugParts_ascii {u : Unicode} (hu : AsciiStable u) (ps : List Str) (hs : ∀ p ∈ ps, ∀ c ∈ p, c.toNat < 128) :
    slugParts u ps = if ps.any (·.any Spec.control) then .error .assertionError
      else .ok (ps.map (·.filter Spec.letterOrDigit)) := by
  induction ps with
  | nil => rfl
  | cons p ps ih =>
    simp only [slugParts, slug_ascii hu p (hs p (by simp)), ih (fun q hq => hs q (by simp [hq])), List.any_cons,
      List.map_cons]
    by_cases h1 : p.any Spec.control = true
    · simp [h1]
    · by_cases h2 : ps.any (·.any Spec.control) = true
      · simp only [h1, h2, Bool.false_or, if_true]; rfl
      · simp only [h1, h2, Bool.false_or]; rfl

theorem filter_join_under (p : Char → Bool) (ps : List Str) (hp : p '_' = true) :
    (Py.join ['_'] ps).filter p = Py.join ['_'] (ps.map (·.filter p)) := by
  induction ps with
  | nil => rfl
  | cons a ps ih =>
    cases ps with
    | nil => simp [Py.join]
    | cons b bs =>
      simp only [Py.join, List.map_cons, List.filter_append] at ih ⊢
      rw [ih]
      simp [hp]

theorem any_join (p : Char → Bool) (ps : List Str) (hp : p '_' = false) :
    (Py.join ['_'] ps).any p = ps.any (·.any p) := by
  induction ps with
  | nil => rfl
  | cons a ps ih =>
    cases ps with
    | nil => simp [Py.join]
    | cons b bs =>
      simp only [Py.join, List.any_cons, List.any_append] at ih ⊢
      rw [ih]
      simp [hp]

theorem underscored_eq (s : Str) :
    Py.replace [' '] ['_'] (Py.replace ['.'] ['_'] (Py.replace ['-'] ['_'] s)) = Spec.underscored s := by
  rw [Py.replace_char, Py.replace_char, Py.replace_char]
  induction s with
  | nil => rfl
  | cons c cs ih =>
    simp only [Spec.underscored, List.map_cons, List.flatMap_cons, List.flatMap_append] at ih ⊢
    rw [ih]
    by_cases h1 : c = '-'
    · subst h1; rfl
    · by_cases h2 : c = '.'
      · subst h2; rfl
      · by_cases h3 : c = ' '
        · subst h3; rfl
        · simp [h1, h2, h3]

/-- **C16** The normalized name of every ASCII string, exactly: with dashes, dots and spaces as underscores, a keyword gets an
underscore appended; otherwise an exception is raised if there are control characters (which are not whitespace), and else
the letters, digits and underscores remain, with an underscore in front unless there is a letter or an underscore already. -/
theorem C16_ascii (u : Unicode) (hu : AsciiStable u) (s : Str) (hs : ∀ c ∈ s, c.toNat < 128) :
    (Spec.underscored s ∈ kwlist → normalizeName u s = .ok (Spec.underscored s ++ ['_'])) ∧
    (Spec.underscored s ∉ kwlist → (∃ c ∈ s, Spec.control c = true) → normalizeName u s = .error .assertionError) ∧
    (Spec.underscored s ∉ kwlist → (∀ c ∈ s, Spec.control c = false) →
      normalizeName u s = .ok (Spec.startedName (Spec.keptOfName s))) := by
  have hctrl : (Spec.underscored s).any Spec.control = s.any Spec.control := by
    unfold Spec.underscored
    rw [List.any_map]
    congr 1
    funext c
    simp only [Function.comp]
    split
    · next h => rcases h with rfl | rfl | rfl <;> decide
    · rfl
  have hua : ∀ c ∈ Spec.underscored s, c.toNat < 128 := by
    intro c hc
    obtain ⟨x, hx, rfl⟩ := List.mem_map.1 hc
    split
    · decide
    · exact hs x hx
  have hparts := slugParts_ascii hu (Py.split ['_'] (Spec.underscored s))
    (fun p hp c hc => hua c (Py.mem_of_mem_split hp hc))
  rw [← any_join Spec.control _ (by decide), Py.join_split ['_'] (by simp), hctrl] at hparts
  have hfil : (Py.split ['_'] (Spec.underscored s)).map (·.filter Spec.letterOrDigit) =
      (Py.split ['_'] (Spec.underscored s)).map (·.filter (fun c => Spec.letterOrDigit c || c == '_')) := by
    apply List.map_congr_left
    intro p hp
    apply List.filter_congr
    intro c hc
    have : c ≠ '_' := by rintro rfl; exact Py.not_mem_split_char '_' _ p hp hc
    simp [this]
  unfold normalizeName
  simp only [underscored_eq]
  refine ⟨fun h => ?_, fun h hc => ?_, fun h hc => ?_⟩
  · rw [if_pos (by simpa using h)]
  · rw [if_neg (by simpa using h), hparts, if_pos (List.any_eq_true.2 hc)]
  · rw [if_neg (by simpa using h), hparts, if_neg (by simpa using hc)]
    simp only [hfil]
    rw [← filter_join_under _ _ (by decide), Py.join_split ['_'] (by simp)]
    show _ = Except.ok (Spec.startedName (Spec.keptOfName s))
    unfold Spec.keptOfName
    cases (Spec.underscored s).filter (fun c => Spec.letterOrDigit c || c == '_') with
    | nil => rfl
    | cons c cs =>
      simp only [List.isEmpty_cons, Bool.false_eq_true, if_false, Spec.startedName]
      have : isLetter c = Spec.letter c := by simp [isLetter, Spec.letter]
      rw [this]

/-- **C16** So for ASCII strings the result is a keyword exactly if the string is none, but what remains of it is one (like
`class!`). -/
theorem C16_keyword_iff (u : Unicode) (hu : AsciiStable u) (s r : Str) (hs : ∀ c ∈ s, c.toNat < 128)
    (h : normalizeName u s = .ok r) :
    r ∈ kwlist ↔ (Spec.underscored s ∉ kwlist ∧ Spec.keptOfName s ∈ kwlist) := by
  obtain ⟨h1, h2, h3⟩ := C16_ascii u hu s hs
  have hkey : ∀ t : Str, t ∈ kwlist → ∀ c cs, t = c :: cs → isLetter c = true ∧ t.getLast? ≠ some '_' := by
    have h : kwlist.all (fun k => match k with
        | [] => true
        | c :: cs => isLetter c && decide ((c :: cs).getLast? ≠ some '_')) = true := by decide +kernel
    rintro t ht c cs rfl
    simpa using List.all_eq_true.1 h _ ht
  by_cases hk : Spec.underscored s ∈ kwlist
  · rw [h1 hk] at h
    cases h
    simp only [hk, not_true_eq_false, false_and, iff_false]
    intro hmem
    cases hu : Spec.underscored s with
    | nil => rw [hu] at hk; exact absurd hk (by decide)
    | cons c cs => rw [hu] at hmem; exact (hkey _ hmem c (cs ++ ['_']) rfl).2 List.getLast?_concat
  · simp only [hk, not_false_eq_true, true_and]
    by_cases hc : ∃ c ∈ s, Spec.control c = true
    · rw [h2 hk hc] at h; cases h
    · have hc' : ∀ c ∈ s, Spec.control c = false := by
        intro c hm
        cases h' : Spec.control c with
        | false => rfl
        | true => exact absurd ⟨c, hm, h'⟩ hc
      rw [h3 hk hc'] at h
      cases h
      cases hkept : Spec.keptOfName s with
      | nil => simp only [Spec.startedName]; decide
      | cons c cs =>
        simp only [Spec.startedName]
        split
        · rfl
        · next hn =>
          constructor
          · intro hm; exact absurd (hkey _ hm '_' _ rfl).1 (by decide)
          · intro hm
            have := (hkey _ hm c _ rfl).1
            have e : isLetter c = Spec.letter c := by simp [isLetter, Spec.letter]
            rw [e] at this
            simp [this] at hn

/-- A Unicode database that is right for ASCII strings. -/
def asciiDb : Unicode := ⟨id, fun _ => false, id⟩

example : AsciiStable asciiDb := ⟨fun _ _ => rfl, fun _ _ => rfl⟩

/-- Non-vacuity (a test): keywords, digits, separators. -/
example : normalizeName asciiDb "class".toList = .ok "class_".toList ∧
    normalizeName asciiDb "1-a b".toList = .ok "_1_a_b".toList ∧ normalizeName asciiDb [] = .ok ['_'] := by
  decide +kernel

/-- **C16 is violated**: the normalized name of `class!` is the keyword `class`. -/
theorem C16_violated_keyword : normalizeName asciiDb "class!".toList = .ok "class".toList ∧ "class".toList ∈ kwlist := by
  decide +kernel

/-- **C16 is violated**: a control character in the name raises an `AssertionError`. -/
theorem C16_violated_control : normalizeName asciiDb ['a', Char.ofNat 0] = .error .assertionError := by
  decide +kernel

end Csvw.Props

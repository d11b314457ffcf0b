import Verif.Model.NumberPattern
import Verif.Spec.NumberPattern
import Verif.Py.StrLemmas
import Verif.Lemmas.Decimal
/-!
# `NumberPattern.is_valid` on structured patterns and numbers
-/

namespace Csvw.NumPat
open Py Spec

theorem split_none {c : Char} {s : Str} (h : c ∉ s) : split [c] s = [s] := by
  have := split_join [c] (by simp) [s] (by simp) (by
    intro p hp; rw [List.mem_singleton.1 hp]; exact noEarly_char c s h)
  simpa [join] using this

theorem split_head {c : Char} {a b : Str} (h : c ∉ a) : (split [c] (a ++ c :: b)).headD [] = a := by
  have hp := splitGo_part [c] (by simp) a b [] (noEarly_char c a h)
  unfold split
  have e : a ++ c :: b = a ++ [c] ++ b := by simp
  rw [e, hp]
  simp

theorem not_mem_join {c : Char} {gs : List Str} (hc : c ≠ ',') (h : ∀ g ∈ gs, c ∉ g) : c ∉ join [','] gs := by
  intro hm
  rcases mem_join hm with hm | ⟨p, hp, hm⟩
  · exact hc (List.mem_singleton.1 hm)
  · exact h p hp hm

theorem split_groups {gs : List Str} (hne : gs ≠ []) (h : ∀ g ∈ gs, ',' ∉ g) : split [','] (join [','] gs) = gs :=
  split_join [','] (by simp) gs hne fun p hp => noEarly_char ',' p (h p hp)

/-- The end of a joined list. -/
theorem join_last {sep : Char} : ∀ {gs : List Str}, gs ≠ [] →
    ∃ pre, join [sep] gs = pre ++ gs.getLast?.getD [] ∧ (pre = [] ∨ ∃ q, pre = q ++ [sep])
  | [], h => absurd rfl h
  | [x], _ => ⟨[], by simp [join], .inl rfl⟩
  | x :: y :: r, _ => by
    obtain ⟨pre, h1, h2⟩ := join_last (sep := sep) (gs := y :: r) (by simp)
    refine ⟨x ++ [sep] ++ pre, ?_, .inr ?_⟩
    · rw [join_cons_cons, h1]
      simp
    · rcases h2 with rfl | ⟨q, rfl⟩
      · exact ⟨x, by simp⟩
      · exact ⟨x ++ [sep] ++ q, by simp⟩

theorem takeWhile_append_stop {p : Char → Bool} {a : Str} {x : Char} {b : Str} (hx : p x = false) :
    (a ++ x :: b).takeWhile p = a.takeWhile p := by
  induction a with
  | nil => simp [hx]
  | cons c a ih =>
    simp only [List.cons_append, List.takeWhile_cons]
    split
    · rw [ih]
    · rfl

/-! ## The pattern -/

section
variable {p : NumPattern} (hp : p.WF)
include hp

theorem group_chars {g : Str} (hg : g ∈ p.groups) {d : Char} (h1 : d ≠ '#') (h2 : d ≠ '0') : d ∉ g := by
  intro hm
  rcases (hp.2 g hg).2 d hm with h | h
  · exact h1 h
  · exact h2 h

theorem text_head : (split ['.'] p.text).headD [] = join [','] p.groups := by
  have hd : '.' ∉ join [','] p.groups := not_mem_join (by decide) fun g hg => group_chars hp hg (by decide) (by decide)
  unfold NumPattern.text
  split
  · rw [List.append_nil, split_none hd]; rfl
  · exact split_head hd

theorem text_comps : intComps p.text = p.groups := by
  unfold intComps
  rw [text_head hp, split_groups hp.1 fun g hg => group_chars hp hg (by decide) (by decide)]

theorem countHash0_group {g : Str} (hg : g ∈ p.groups) : countHash0 g = g.length := by
  unfold countHash0
  rw [List.countP_eq_length]
  intro c hc
  rcases (hp.2 g hg).2 c hc with h | h <;> simp [h]

theorem last_mem : p.groups.getLast?.getD [] ∈ p.groups := by
  have := hp.1
  rw [List.getLast?_eq_some_getLast this]
  exact List.getLast_mem this

theorem primary_text : primary p.text = p.primary := by
  unfold primary NumPattern.primary
  simp only [text_comps hp]
  rw [countHash0_group hp (last_mem hp)]
  rfl

theorem secondary_text : secondary p.text = p.secondary := by
  unfold secondary NumPattern.secondary
  simp only [text_comps hp, primary_text hp]
  by_cases h : 3 ≤ p.groups.length
  · rw [if_pos (show p.groups.length > 2 from h), if_pos h, countHash0_group hp]
    have : p.groups.getD 1 [] = p.groups[1]'(by omega) := by
      simp [List.getElem?_eq_getElem (show 1 < p.groups.length by omega)]
    rw [this]
    exact List.getElem_mem _
  · rw [if_neg (show ¬ p.groups.length > 2 from h), if_neg h]

theorem minInt_text : minInt p.text = if p.minDigits = 0 then none else some p.minDigits := by
  unfold minInt NumPattern.minDigits
  simp only [text_head hp]
  obtain ⟨pre, h1, h2⟩ := join_last (sep := ',') hp.1
  have : ((join [','] p.groups).reverse.takeWhile (· = '0')) = ((p.groups.getLast?.getD []).reverse.takeWhile (· = '0')) := by
    rw [h1, List.reverse_append]
    rcases h2 with rfl | ⟨q, rfl⟩
    · simp
    · rw [List.reverse_append]
      exact takeWhile_append_stop (by decide)
  rw [this]

theorem text_frac : (partition '.' p.text).2.2 = List.replicate p.zeros '0' ++ List.replicate p.hashes '#' := by
  have hd : '.' ∉ join [','] p.groups := not_mem_join (by decide) fun g hg => group_chars hp hg (by decide) (by decide)
  unfold NumPattern.text
  split
  · next h =>
    have h1 : p.zeros = 0 := by omega
    have h2 : p.hashes = 0 := by omega
    rw [List.append_nil, Dec.partition_none hd, h1, h2]; rfl
  · rw [Dec.partition_of_not_mem hd]

theorem decDigits_text : decDigits p.text = p.zeros + p.hashes := by
  unfold decDigits
  rw [text_frac hp]
  have h1 : ∀ n, decDigitsGo (List.replicate n '#') = n := by
    intro n
    induction n with
    | zero => rfl
    | succ n ih => simp [List.replicate_succ, decDigitsGo, ih]
  have h2 : ∀ n m, decDigitsGo (List.replicate n '0' ++ List.replicate m '#') = n + m := by
    intro n m
    induction n with
    | zero => simp [h1]
    | succ n ih => simp [List.replicate_succ, decDigitsGo, ih]; omega
  exact h2 _ _

theorem sigDigits_text : sigDigits p.text = p.zeros := by
  unfold sigDigits
  rw [text_frac hp]
  have h1 : ∀ n, sigDigitsGo (List.replicate n '#') = 0 := by
    intro n
    cases n with
    | zero => rfl
    | succ n => simp [List.replicate_succ, sigDigitsGo]
  have h2 : ∀ n m, sigDigitsGo (List.replicate n '0' ++ List.replicate m '#') = n := by
    intro n m
    induction n with
    | zero => simp [h1]
    | succ n ih => simp [List.replicate_succ, sigDigitsGo, ih]
  exact h2 _ _

theorem text_mem {c : Char} (hc : c ∈ p.text) : c = '#' ∨ c = '0' ∨ c = ',' ∨ c = '.' := by
  unfold NumPattern.text at hc
  rcases List.mem_append.1 hc with h | h
  · rcases mem_join h with h | ⟨g, hg, h⟩
    · exact .inr (.inr (.inl (List.mem_singleton.1 h)))
    · rcases (hp.2 g hg).2 c h with h | h
      · exact .inl h
      · exact .inr (.inl h)
  · split at h
    · simp at h
    · rcases List.mem_cons.1 h with h | h
      · exact .inr (.inr (.inr h))
      · rcases List.mem_append.1 h with h | h
        · exact .inr (.inl (List.eq_of_mem_replicate h))
        · exact .inl (List.eq_of_mem_replicate h)

theorem lowerE_id {s : Str} (h : 'E' ∉ s) : lowerE s = s := by
  unfold lowerE
  conv => rhs; rw [← List.map_id s]
  apply List.map_congr_left
  intro c hc
  rw [if_neg (by rintro rfl; exact h hc)]; rfl

theorem expDigits_text : expDigits p.text = 0 := by
  unfold expDigits
  have hE : 'E' ∉ p.text := by intro h; rcases text_mem hp h with h | h | h | h <;> simp at h
  have he : 'e' ∉ p.text := by intro h; rcases text_mem hp h with h | h | h | h <;> simp at h
  rw [lowerE_id hp hE, Dec.partition_none he]
  rfl

theorem positive_text : positive p.text = .ok p.text := by
  unfold positive
  have hs : ';' ∉ p.text := by intro h; rcases text_mem hp h with h | h | h | h <;> simp at h
  rw [List.count_eq_zero_of_not_mem hs, if_pos (by decide), Dec.partition_none hs]

end

/-! ## The number -/

theorem nonSep_digits {s : Str} (h : ∀ c ∈ s, c.isDigit = true) : nonSep s = s := by
  unfold nonSep
  rw [List.filter_eq_self]
  intro c hc
  have hd : ∀ d ∈ ".,E+-%‰".toList, d.isDigit = false := by decide
  have : c ∉ ".,E+-%‰".toList := by
    intro hm
    have := hd c hm
    rw [h c hc] at this
    simp at this
  simpa using this

theorem nonSep_sign {sg s : Str} (hs : sg = [] ∨ sg = ['+'] ∨ sg = ['-']) (h : ∀ c ∈ s, c.isDigit = true) : nonSep (sg ++ s) = s := by
  unfold nonSep
  rw [List.filter_append]
  have : sg.filter (fun c => !(".,E+-%‰".toList.contains c)) = [] := by
    rcases hs with rfl | rfl | rfl <;> decide
  rw [this]
  exact nonSep_digits h

theorem significantGo_false {s : Str} (h : ∀ c ∈ s, c.isDigit = true) : significantGo false s = (s, false) := by
  induction s with
  | nil => rfl
  | cons c s ih =>
    have hc := h c (by simp)
    have n1 : ¬ (c = '+' ∨ c = '-' ∨ c = '%') := by
      rintro (rfl | rfl | rfl) <;> simp at hc
    have : (if c = '0' then false else false) = false := by split <;> rfl
    simp only [significantGo, n1, if_false, this, ih fun c hc => h c (by simp [hc])]
    simp

theorem significantGo_true {s : Str} (h : ∀ c ∈ s, c.isDigit = true) :
    significantGo true s = (s.dropWhile (· = '0'), s.head? == some '0') := by
  induction s with
  | nil => rfl
  | cons c s ih =>
    have hc := h c (by simp)
    have n1 : ¬ (c = '+' ∨ c = '-' ∨ c = '%') := by
      rintro (rfl | rfl | rfl) <;> simp at hc
    have ih := ih fun c hc => h c (by simp [hc])
    by_cases h0 : c = '0'
    · subst h0
      simp only [significantGo, ih]
      simp
    · have hf : ∀ d ∈ s, d.isDigit = true := fun d hd => h d (by simp [hd])
      simp only [significantGo, n1, if_false, h0, false_and, significantGo_false hf]
      simp [h0]

theorem significant_len {sg s : Str} (hs : sg = [] ∨ sg = ['+'] ∨ sg = ['-']) (h : ∀ c ∈ s, c.isDigit = true) :
    (significant (sg ++ s)).length = sigLen s := by
  have hgo : significantGo true (sg ++ s) = significantGo true s := by
    rcases hs with rfl | rfl | rfl
    · rfl
    · simp [significantGo]
    · simp [significantGo]
  unfold significant sigLen
  simp only [hgo, significantGo_true h]
  by_cases hd : s.dropWhile (· = '0') = []
  · by_cases hn : s = []
    · subst hn; simp
    · have hh : s.head? = some '0' := by
        cases s with
        | nil => exact absurd rfl hn
        | cons c s =>
          by_cases h0 : c = '0'
          · subst h0; rfl
          · rw [List.dropWhile_cons_of_neg (by simp [h0])] at hd; simp at hd
      simp [hd, hn, hh]
  · simp [hd]

section
variable {v : NumText} (hv : v.WF)
include hv

theorem int_chars {c : Char} (hc : c ∈ v.sign ++ join [','] v.groups) : c.isDigit = true ∨ c = ',' ∨ c = '+' ∨ c = '-' := by
  obtain ⟨h1, h2, h3, h4⟩ := hv
  rcases List.mem_append.1 hc with hc | hc
  · rcases h1 with h | h | h <;> rw [h] at hc <;> simp at hc <;> simp [hc]
  · rcases mem_join hc with hc | ⟨g, hg, hc⟩
    · exact .inr (.inl (List.mem_singleton.1 hc))
    · exact .inl (h3 g hg c hc)

theorem frac_digits : ∀ c ∈ v.frac.getD [], c.isDigit = true := by
  obtain ⟨h1, h2, h3, h4⟩ := hv
  cases hf : v.frac with
  | none => simp
  | some f => exact h4 f hf

theorem value_parts : partition '.' v.text = (v.sign ++ join [','] v.groups, v.frac.isSome, v.frac.getD []) := by
  have hd : '.' ∉ v.sign ++ join [','] v.groups := by
    intro h
    rcases int_chars hv h with h | h | h | h <;> simp at h
  unfold NumText.text
  cases v.frac with
  | none => rw [List.append_nil, Dec.partition_none hd]; rfl
  | some f => rw [Dec.partition_of_not_mem hd]; rfl

/-- The groups of the number, the first one with the sign. -/
theorem value_groups : ∃ g gs, v.groups = g :: gs ∧ split [','] (v.sign ++ join [','] v.groups) = (v.sign ++ g) :: gs := by
  obtain ⟨h1, h2, h3, h4⟩ := hv
  cases hg : v.groups with
  | nil => exact absurd hg h2
  | cons g gs =>
    refine ⟨g, gs, rfl, ?_⟩
    rw [hg] at h3
    have hnc : ∀ q ∈ g :: gs, ',' ∉ q := by
      intro q hq hm
      have := h3 q hq ',' hm
      simp at this
    have hsc : ',' ∉ v.sign := by rcases h1 with h | h | h <;> rw [h] <;> simp
    have : v.sign ++ join [','] (g :: gs) = join [','] ((v.sign ++ g) :: gs) := by
      cases gs with
      | nil => simp [join]
      | cons a b => rw [join_cons_cons, join_cons_cons]; simp
    rw [this]
    apply split_groups (by simp)
    intro q hq
    rcases List.mem_cons.1 hq with rfl | hq
    · intro hm
      rcases List.mem_append.1 hm with hm | hm
      · exact hsc hm
      · exact hnc g (by simp) hm
    · exact hnc q (by simp [hq])

theorem text_no_e : 'e' ∉ v.text ∧ 'E' ∉ v.text := by
  have key : ∀ c : Char, c.isDigit = false → c ≠ ',' → c ≠ '+' → c ≠ '-' → c ≠ '.' → c ∉ v.text := by
    intro c h0 h1 h2 h3 h4 hm
    unfold NumText.text at hm
    rcases List.mem_append.1 hm with hm | hm
    · rcases int_chars hv hm with h | h | h | h
      · rw [h0] at h; simp at h
      · exact h1 h
      · exact h2 h
      · exact h3 h
    · cases hf : v.frac with
      | none => rw [hf] at hm; simp at hm
      | some f =>
        rw [hf] at hm
        rcases List.mem_cons.1 hm with hm | hm
        · exact h4 hm
        · have := hv.2.2.2 f hf c hm
          rw [h0] at this; simp at this
  exact ⟨key _ (by decide) (by decide) (by decide) (by decide) (by decide),
    key _ (by decide) (by decide) (by decide) (by decide) (by decide)⟩

end

theorem primary_pos {p : NumPattern} (hp : p.WF) : ∀ n ∈ p.primary, n ≠ 0 := by
  intro n hn
  unfold NumPattern.primary at hn
  split at hn
  · simp only [Option.mem_def, Option.some.injEq] at hn
    subst hn
    have := (hp.2 _ (last_mem hp)).1
    exact fun h => this (List.length_eq_zero_iff.1 h)
  · simp at hn

theorem secondary_pos {p : NumPattern} (hp : p.WF) : ∀ n ∈ p.secondary, n ≠ 0 := by
  intro n hn
  unfold NumPattern.secondary at hn
  split at hn
  · next h =>
    simp only [Option.mem_def, Option.some.injEq] at hn
    subst hn
    have e : p.groups.getD 1 [] = p.groups[1]'(by omega) := by
      simp [List.getElem?_eq_getElem (show 1 < p.groups.length by omega)]
    rw [e]
    have := (hp.2 _ (List.getElem_mem (show 1 < p.groups.length by omega))).1
    exact fun h => this (List.length_eq_zero_iff.1 h)
  · exact primary_pos hp n hn

/-- `is_valid` is conformance. -/
theorem isValid_iff {p : NumPattern} {v : NumText} (hp : p.WF) (hv : v.WF) : isValid p.text v.text = true ↔ Conforms p v := by
  obtain ⟨g, gs, hg, hsplit⟩ := value_groups hv
  have hfd := frac_digits hv
  have hfe : 'e' ∉ v.frac.getD [] := fun h => by have := hfd _ h; simp at this
  have hfE : 'E' ∉ v.frac.getD [] := fun h => by have := hfd _ h; simp at this
  have hgd : ∀ q ∈ v.groups, ∀ c ∈ q, c.isDigit = true := hv.2.2.1
  have hflat : ((v.sign ++ g) :: gs).flatten = v.sign ++ v.groups.flatten := by rw [hg]; simp
  have hfl : ∀ c ∈ v.groups.flatten, c.isDigit = true := by
    intro c hc
    obtain ⟨q, hq, hc⟩ := List.mem_flatten.1 hc
    exact hgd q hq c hc
  have hsig := significant_len hv.1 hfl
  have hlast : nonSep (((v.sign ++ g) :: gs).getLast?.getD []) = v.groups.getLast?.getD [] := by
    rw [hg]
    cases gs with
    | nil => simpa using nonSep_sign hv.1 (hgd g (by rw [hg]; simp))
    | cons a b =>
      simp only [List.getLast?_cons_cons]
      apply nonSep_digits
      apply hgd
      rw [hg]
      rw [List.getLast?_eq_some_getLast (l := a :: b) (by simp)]
      exact List.mem_cons_of_mem _ (List.getLast_mem _)
  have hhead : nonSep (((v.sign ++ g) :: gs).headD []) = v.groups.headD [] := by
    rw [hg]
    exact nonSep_sign hv.1 (hgd g (by rw [hg]; simp))
  have hlen : ((v.sign ++ g) :: gs).length = v.groups.length := by rw [hg]; simp
  have hmid : ((v.sign ++ g) :: gs).dropLast.tail = v.groups.dropLast.tail := by
    rw [hg]; cases gs <;> simp
  have hmidd : ∀ q ∈ v.groups.dropLast.tail, nonSep q = q := by
    intro q hq
    apply nonSep_digits
    exact hgd q ((List.dropLast_sublist _).subset (List.mem_of_mem_tail hq))
  unfold isValid
  rw [value_parts hv]
  simp only [lowerE_id hp hfE, Dec.partition_none hfe, hsplit, hflat, hsig, hlast, hhead, hlen, hmid, primary_text hp,
    secondary_text hp, minInt_text hp, decDigits_text hp, sigDigits_text hp, expDigits_text hp, nonSep_digits hfd]
  have e1 : (match (if p.minDigits = 0 then none else some p.minDigits : Option Nat) with
      | some m => decide (m ≤ sigLen v.groups.flatten) | none => true) = true ↔ p.minDigits ≤ sigLen v.groups.flatten := by
    by_cases h : p.minDigits = 0
    · simp [h]
    · simp [h]
  have e2 : (match p.primary with
      | some n => n == 0 || (decide ((v.groups.getLast?.getD []).length ≤ n) &&
        (decide (v.groups.length ≤ 1) || decide (n ≤ (v.groups.getLast?.getD []).length)))
      | none => true) = true ↔ ∀ n ∈ p.primary, (v.groups.getLast?.getD []).length ≤ n ∧
    (2 ≤ v.groups.length → (v.groups.getLast?.getD []).length = n) := by
    have h0 := primary_pos hp
    cases h : p.primary with
    | none => simp
    | some n =>
      have := h0 n h
      simp only [Option.mem_def, Option.some.injEq, forall_eq', Bool.or_eq_true, beq_iff_eq, this, false_or, Bool.and_eq_true,
        decide_eq_true_eq]
      omega
  have e3 : (match p.secondary with
      | some q => q == 0 || decide (v.groups.length ≤ 1) ||
        (decide ((v.groups.headD []).length ≤ q) && (v.groups.dropLast.tail.all fun g => (nonSep g).length == q))
      | none => true) = true ↔ ∀ n ∈ p.secondary, 2 ≤ v.groups.length →
    (v.groups.headD []).length ≤ n ∧ ∀ g ∈ v.groups.dropLast.tail, g.length = n := by
    have h0 := secondary_pos hp
    cases h : p.secondary with
    | none => simp
    | some n =>
      have := h0 n h
      have hall : (v.groups.dropLast.tail.all fun g => (nonSep g).length == n) = true ↔ ∀ g ∈ v.groups.dropLast.tail, g.length = n := by
        rw [List.all_eq_true]
        constructor
        · intro hh q hq; have := hh q hq; rw [hmidd q hq] at this; simpa using this
        · intro hh q hq; rw [hmidd q hq]; simpa using hh q hq
      simp only [Option.mem_def, Option.some.injEq, forall_eq', Bool.or_eq_true, beq_iff_eq, this, false_or, Bool.and_eq_true,
        decide_eq_true_eq, hall]
      by_cases h1 : v.groups.length ≤ 1
      · simp [h1]; omega
      · have h2 : 2 ≤ v.groups.length := by omega
        simp [h1, h2]
  have e4 : (v.frac.getD [] == [] || decide ((v.frac.getD []).length ≤ p.zeros + p.hashes)) = true ↔
      (v.frac.getD []).length ≤ p.zeros + p.hashes := by
    cases v.frac.getD [] with
    | nil => simp
    | cons a b => simp
  have e5 : (p.zeros == 0 || (v.frac.getD [] != [] && decide (p.zeros ≤ (v.frac.getD []).length))) = true ↔
      p.zeros ≤ (v.frac.getD []).length := by
    cases v.frac.getD [] with
    | nil => simp
    | cons a b => simp; omega
  simp only [Bool.and_eq_true, e4, e5]
  constructor
  · rintro ⟨⟨⟨⟨⟨h1, h2⟩, h3⟩, h4⟩, h5⟩, _⟩
    exact ⟨e1.1 h1, e2.1 h2, e3.1 h3, h4, h5⟩
  · rintro ⟨h1, h2, h3, h4, h5⟩
    exact ⟨⟨⟨⟨⟨e1.2 h1, e2.2 h2⟩, e3.2 h3⟩, h4⟩, h5⟩, by simp⟩

end Csvw.NumPat

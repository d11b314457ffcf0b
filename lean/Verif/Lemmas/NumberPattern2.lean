import Verif.Lemmas.NumberPattern
/-!
# `NumberPattern.is_valid` with exponent, percent sign and negative pattern
-/

namespace Csvw.NumPat
open Py Spec

/-- The checks of `is_valid`, as a function of the sizes which matter. -/
def checks (m pr se : Option Nat) (D S : Nat) (sl : Nat) (ng : List Str) (nd : Str) : Bool :=
  (match m with | some m => decide (m ≤ sl) | none => true) &&
  (match pr with
   | some p => p == 0 || (decide ((ng.getLast?.getD []).length ≤ p) &&
       (decide (ng.length ≤ 1) || decide (p ≤ (ng.getLast?.getD []).length)))
   | none => true) &&
  (match se with
   | some q => q == 0 || decide (ng.length ≤ 1) ||
       (decide ((ng.headD []).length ≤ q) && (ng.dropLast.tail.all fun g => g.length == q))
   | none => true) &&
  decide (nd.length ≤ D) && decide (S ≤ nd.length)

/-- The check of the exponent. -/
def expCheck (E : Nat) (s : Str) : Bool :=
  E == 0 || !(lowerE s).contains 'e' || decide ((nonSep ((split ['e'] (lowerE s)).getLast?.getD [])).length ≤ E)

theorem nonSep_nil : nonSep [] = [] := rfl

theorem isValid_checks (pos s : Str) : isValid pos s =
    (checks (minInt pos) (primary pos) (secondary pos) (decDigits pos) (sigDigits pos)
      (significant (split [','] (partition '.' s).1).flatten).length
      ((split [','] (partition '.' s).1).map nonSep)
      (nonSep (partition 'e' (lowerE (partition '.' s).2.2)).1) && expCheck (expDigits pos) s) := by
  unfold isValid checks expCheck
  simp only
  generalize split [','] (partition '.' s).1 = gs
  generalize (partition 'e' (lowerE (partition '.' s).2.2)).1 = dp
  have h1 : ((gs.map nonSep).getLast?.getD []) = nonSep (gs.getLast?.getD []) := by
    rw [List.getLast?_map]; cases gs.getLast? <;> rfl
  have h2 : (gs.map nonSep).headD [] = nonSep (gs.headD []) := by cases gs <;> rfl
  have h3 : ∀ q, ((gs.map nonSep).dropLast.tail.all fun g => g.length == q) = (gs.dropLast.tail.all fun g => (nonSep g).length == q) := by
    intro q
    rw [← List.map_dropLast, ← List.map_tail, List.all_map]
    rfl
  have h4 : (dp == [] || decide ((nonSep dp).length ≤ decDigits pos)) = decide ((nonSep dp).length ≤ decDigits pos) := by
    cases dp with
    | nil => simp [nonSep_nil]
    | cons a b => simp
  have h5 : (sigDigits pos == 0 || (dp != [] && decide (sigDigits pos ≤ (nonSep dp).length))) = decide (sigDigits pos ≤ (nonSep dp).length) := by
    cases dp with
    | nil => simp [nonSep_nil]; rw [Bool.eq_iff_iff]; simp
    | cons a b =>
      have : ((a :: b) != []) = true := rfl
      rw [this, Bool.true_and]
      by_cases h : sigDigits pos = 0
      · simp [h]
      · simp [h]
  simp only [h1, h2, h3, h4, h5, List.length_map, Bool.and_assoc]
  cases minInt pos <;> cases primary pos <;> cases secondary pos <;> rfl

/-! ## The pattern -/

/-- What comes after the digits of the pattern. -/
def tailOf (p : NumPatternX) : Str := (match p.expo with | none => [] | some e => 'E' :: e) ++ p.mark

theorem lowerE_append (a b : Str) : lowerE (a ++ b) = lowerE a ++ lowerE b := List.map_append

section
variable {p : NumPatternX} (hp : p.WF)
include hp

theorem tail_no_point : '.' ∉ tailOf p := by
  intro h
  unfold tailOf at h
  rcases List.mem_append.1 h with h | h
  · cases he : p.expo with
    | none => rw [he] at h; simp at h
    | some e =>
      rw [he] at h
      rcases List.mem_cons.1 h with h | h
      · simp at h
      · rcases (hp.expo e he).2 _ h with h | h <;> simp at h
  · rcases hp.mark with hm | hm | hm <;> rw [hm] at h <;> simp at h

theorem tail_no_semi : ';' ∉ tailOf p := by
  intro h
  unfold tailOf at h
  rcases List.mem_append.1 h with h | h
  · cases he : p.expo with
    | none => rw [he] at h; simp at h
    | some e =>
      rw [he] at h
      rcases List.mem_cons.1 h with h | h
      · simp at h
      · rcases (hp.expo e he).2 _ h with h | h <;> simp at h
  · rcases hp.mark with hm | hm | hm <;> rw [hm] at h <;> simp at h

theorem positive_textX : positive p.text = .ok (p.core.text ++ tailOf p) := by
  have h1 : ';' ∉ p.core.text ++ tailOf p := by
    intro h
    rcases List.mem_append.1 h with h | h
    · rcases text_mem hp.core h with h | h | h | h <;> simp at h
    · exact tail_no_semi hp h
  have ht : p.text = (p.core.text ++ tailOf p) ++ (match p.neg with | none => [] | some n => ';' :: n) := by
    simp only [NumPatternX.text, tailOf, List.append_assoc]; rfl
  unfold positive
  rw [ht]
  cases hn : p.neg with
  | none =>
    simp only [List.append_nil]
    rw [List.count_eq_zero_of_not_mem h1, if_pos (by decide), Dec.partition_none h1]
  | some n =>
    simp only
    rw [List.count_append, List.count_eq_zero_of_not_mem h1, List.count_cons_self,
      List.count_eq_zero_of_not_mem (hp.neg n hn), if_pos (by decide), Dec.partition_of_not_mem h1]

theorem no_point_groups : '.' ∉ join [','] p.core.groups :=
  not_mem_join (by decide) fun _ hg => group_chars hp.core hg (by decide) (by decide)

theorem headX : (split ['.'] (p.core.text ++ tailOf p)).headD [] = (split ['.'] p.core.text).headD [] := by
  rw [text_head hp.core]
  rcases hp.point with ⟨h1, h2⟩ | h
  · have : tailOf p = [] := by simp [tailOf, h1, h2]
    rw [this, List.append_nil, text_head hp.core]
  · unfold NumPattern.text
    rw [if_neg (by omega), List.append_assoc, List.cons_append]
    exact split_head (no_point_groups hp)

theorem fracX : (partition '.' (p.core.text ++ tailOf p)).2.2 =
    List.replicate p.core.zeros '0' ++ List.replicate p.core.hashes '#' ++ tailOf p := by
  rcases hp.point with ⟨h1, h2⟩ | h
  · have : tailOf p = [] := by simp [tailOf, h1, h2]
    rw [this, List.append_nil, text_frac hp.core, List.append_nil]
  · unfold NumPattern.text
    rw [if_neg (by omega), List.append_assoc, List.cons_append, Dec.partition_of_not_mem (no_point_groups hp)]

theorem minIntX : minInt (p.core.text ++ tailOf p) = minInt p.core.text := by
  unfold minInt; simp only [headX hp]
theorem primaryX : primary (p.core.text ++ tailOf p) = primary p.core.text := by
  unfold primary intComps; simp only [headX hp]
theorem secondaryX : secondary (p.core.text ++ tailOf p) = secondary p.core.text := by
  unfold secondary intComps; simp only [headX hp, primaryX hp]

theorem decTail : decDigitsGo (tailOf p) = 0 := by
  unfold tailOf
  cases p.expo with
  | none =>
    rcases hp.mark with h | h | h <;> rw [h] <;> decide
  | some e => simp [decDigitsGo]

theorem sigTail : sigDigitsGo (tailOf p) = 0 := by
  unfold tailOf
  cases p.expo with
  | none =>
    rcases hp.mark with h | h | h <;> rw [h] <;> decide
  | some e => simp [sigDigitsGo]

theorem decDigitsX : decDigits (p.core.text ++ tailOf p) = decDigits p.core.text := by
  rw [decDigits_text hp.core]
  unfold decDigits
  rw [fracX hp]
  have h1 : ∀ n, decDigitsGo (List.replicate n '#' ++ tailOf p) = n := by
    intro n
    induction n with
    | zero => simpa using decTail hp
    | succ n ih => simp [List.replicate_succ, decDigitsGo, ih]
  have h2 : ∀ n m, decDigitsGo (List.replicate n '0' ++ List.replicate m '#' ++ tailOf p) = n + m := by
    intro n m
    induction n with
    | zero => simp [h1]
    | succ n ih =>
      simp only [List.append_assoc] at ih
      simp [List.replicate_succ, decDigitsGo, ih]; omega
  exact h2 _ _

theorem sigDigitsX : sigDigits (p.core.text ++ tailOf p) = sigDigits p.core.text := by
  rw [sigDigits_text hp.core]
  unfold sigDigits
  rw [fracX hp]
  have h1 : ∀ n, sigDigitsGo (List.replicate n '#' ++ tailOf p) = 0 := by
    intro n
    cases n with
    | zero => simpa using sigTail hp
    | succ n => simp [List.replicate_succ, sigDigitsGo]
  have h2 : ∀ n m, sigDigitsGo (List.replicate n '0' ++ List.replicate m '#' ++ tailOf p) = n := by
    intro n m
    induction n with
    | zero => simp [h1]
    | succ n ih =>
      simp only [List.append_assoc] at ih
      simp [List.replicate_succ, sigDigitsGo, ih]
  exact h2 _ _

theorem expGo_len {e m : Str} (h : ∀ c ∈ e, c = '#' ∨ c = '0') (hm : m = [] ∨ m = ['%'] ∨ m = ['‰']) :
    expDigitsGo (e ++ m) = e.length := by
  induction e with
  | nil => rcases hm with rfl | rfl | rfl <;> decide
  | cons c cs ih =>
    have hc := h c (by simp)
    simp only [List.cons_append, expDigitsGo]
    rw [if_pos (by rcases hc with h | h <;> simp [h]), ih (fun x hx => h x (by simp [hx]))]
    rfl

theorem expDigitsX : expDigits (p.core.text ++ tailOf p) = ((p.expo.map List.length).getD 0) := by
  have hE : 'E' ∉ p.core.text := by intro h; rcases text_mem hp.core h with h | h | h | h <;> simp at h
  have he : 'e' ∉ p.core.text := by intro h; rcases text_mem hp.core h with h | h | h | h <;> simp at h
  have hm1 : lowerE p.mark = p.mark := by rcases hp.mark with h | h | h <;> rw [h] <;> decide
  have hm2 : 'e' ∉ p.mark := by rcases hp.mark with h | h | h <;> rw [h] <;> decide
  unfold expDigits
  rw [lowerE_append, lowerE_id hp.core hE]
  unfold tailOf
  cases hx : p.expo with
  | none =>
    simp only [List.nil_append, hm1]
    have hn : 'e' ∉ p.core.text ++ p.mark := by
      intro h
      rcases List.mem_append.1 h with h | h
      · exact he h
      · exact hm2 h
    rw [Dec.partition_none hn]
    rfl
  | some e =>
    have h3 : lowerE e = e := by
      apply lowerE_id hp.core
      intro h; rcases (hp.expo e hx).2 _ h with h | h <;> simp at h
    simp only [List.cons_append]
    have : lowerE ('E' :: (e ++ p.mark)) = 'e' :: (e ++ p.mark) := by
      show 'e' :: lowerE (e ++ p.mark) = _
      rw [lowerE_append, h3, hm1]
    rw [this, Dec.partition_of_not_mem he]
    exact expGo_len hp (hp.expo e hx).2 hp.mark

end

/-! ## The number -/

/-- What comes after the digits of the number. -/
def vtail (v : NumTextX) : Str := (match v.expo with | none => [] | some (c, sg, ds) => c :: (sg ++ ds)) ++ v.mark

theorem vtext (v : NumTextX) : v.text = v.core.text ++ vtail v := by
  simp only [NumTextX.text, vtail, List.append_assoc]; rfl

theorem nonSep_append (a b : Str) : nonSep (a ++ b) = nonSep a ++ nonSep b := List.filter_append ..

theorem nonSep_mark {m : Str} (h : m = [] ∨ m = ['%'] ∨ m = ['‰']) : nonSep m = [] := by
  rcases h with rfl | rfl | rfl <;> decide

theorem lowerE_mark {m : Str} (h : m = [] ∨ m = ['%'] ∨ m = ['‰']) : lowerE m = m ∧ 'e' ∉ m := by
  rcases h with rfl | rfl | rfl <;> decide

theorem lowerE_same {s : Str} (h : 'E' ∉ s) : lowerE s = s := by
  unfold lowerE
  conv => rhs; rw [← List.map_id s]
  apply List.map_congr_left
  intro c hc
  rw [if_neg (by rintro rfl; exact h hc)]; rfl

theorem lowerE_digits {s : Str} (h : ∀ c ∈ s, c.isDigit = true) : lowerE s = s ∧ 'e' ∉ s := by
  constructor
  · apply lowerE_same
    intro hm; have := h _ hm; simp at this
  · intro hm; have := h _ hm; simp at this

/-- Something appended to the last group. -/
def appendLast : List Str → Str → List Str
  | [], m => [m]
  | [x], m => [x ++ m]
  | x :: y :: r, m => x :: appendLast (y :: r) m

theorem appendLast_ne : ∀ (L : List Str) (m : Str), appendLast L m ≠ []
  | [], _ => by simp [appendLast]
  | [_], _ => by simp [appendLast]
  | _ :: _ :: _, _ => by simp [appendLast]

theorem join_appendLast : ∀ (L : List Str) (m : Str), join [','] (appendLast L m) = join [','] L ++ m
  | [], m => by simp [appendLast, join]
  | [x], m => by simp [appendLast, join]
  | x :: y :: r, m => by
    have ih := join_appendLast (y :: r) m
    cases ha : appendLast (y :: r) m with
    | nil => exact absurd ha (appendLast_ne _ _)
    | cons a b =>
      simp only [appendLast, ha]
      rw [join_cons_cons, ← ha, ih, join_cons_cons]
      simp

theorem map_appendLast : ∀ {L : List Str} {m : Str}, L ≠ [] → nonSep m = [] → (appendLast L m).map nonSep = L.map nonSep
  | [], _, h, _ => absurd rfl h
  | [x], m, _, hm => by simp [appendLast, nonSep_append, hm]
  | x :: y :: r, m, _, hm => by
    simp only [appendLast, List.map_cons]
    rw [map_appendLast (by simp) hm]
    rfl

theorem flatten_appendLast : ∀ (L : List Str) (m : Str), (appendLast L m).flatten = L.flatten ++ m
  | [], m => by simp [appendLast]
  | [x], m => by simp [appendLast]
  | x :: y :: r, m => by
    simp only [appendLast, List.flatten_cons]
    rw [flatten_appendLast (y :: r) m]
    simp

theorem mem_appendLast : ∀ {L : List Str} {m g : Str}, g ∈ appendLast L m → ∀ c ∈ g, (∃ h ∈ L, c ∈ h) ∨ c ∈ m
  | [], m, g, h, c, hc => by simp [appendLast] at h; subst h; exact .inr hc
  | [x], m, g, h, c, hc => by
    simp [appendLast] at h; subst h
    rcases List.mem_append.1 hc with hc | hc
    · exact .inl ⟨x, by simp, hc⟩
    · exact .inr hc
  | x :: y :: r, m, g, h, c, hc => by
    rcases List.mem_cons.1 h with rfl | h
    · exact .inl ⟨g, by simp, hc⟩
    · rcases mem_appendLast h c hc with ⟨q, hq, hcq⟩ | hc
      · exact .inl ⟨q, by simp [List.mem_cons.1 hq], hcq⟩
      · exact .inr hc

theorem significantGo_percent : ∀ (b : Bool) (s : Str), significantGo b (s ++ ['%']) = significantGo b s
  | b, [] => by simp [significantGo]
  | b, c :: cs => by
    simp only [List.cons_append, significantGo]
    simp only [significantGo_percent _ cs]

theorem significant_percent (s : Str) : significant (s ++ ['%']) = significant s := by
  unfold significant; rw [significantGo_percent]

theorem split_appendLast {L : List Str} {m : Str} (h : ∀ g ∈ L, ',' ∉ g) (hm : ',' ∉ m) :
    split [','] (join [','] L ++ m) = appendLast L m := by
  rw [← join_appendLast]
  apply split_groups (appendLast_ne _ _)
  intro g hg hc
  rcases mem_appendLast hg _ hc with ⟨q, hq, hcq⟩ | hc
  · exact h q hq hcq
  · exact hm hc

section
variable {v : NumTextX} (hv : v.WF)
include hv

theorem int_no_point : '.' ∉ v.core.sign ++ join [','] v.core.groups := by
  intro h
  rcases int_chars hv.core h with h | h | h | h <;> simp at h

/-- Without a decimal point there is at most a percent sign. -/
theorem vtail_none (hf : v.core.frac = none) : vtail v = [] ∨ vtail v = ['%'] := by
  rcases hv.point with h | ⟨h1, h2⟩
  · rw [hf] at h; simp at h
  · unfold vtail
    rw [h1]
    rcases hv.mark with h | h | h
    · exact .inl h
    · exact .inr h
    · exact absurd h h2

theorem partsV_some {f : Str} (hf : v.core.frac = some f) :
    partition '.' v.text = (v.core.sign ++ join [','] v.core.groups, true, f ++ vtail v) := by
  rw [vtext, NumText.text, hf]
  simp only [List.append_assoc, List.cons_append]
  rw [← List.append_assoc, Dec.partition_of_not_mem (int_no_point hv)]

theorem partsV_none (hf : v.core.frac = none) :
    partition '.' v.text = (v.core.sign ++ join [','] v.core.groups ++ vtail v, false, []) := by
  rw [vtext, NumText.text, hf]
  simp only [List.append_nil]
  rw [Dec.partition_none]
  intro h
  rcases List.mem_append.1 h with h | h
  · exact int_no_point hv h
  · rcases vtail_none hv hf with h' | h' <;> rw [h'] at h <;> simp at h

/-- The fraction part, as `is_valid` sees it. -/
theorem fracV : nonSep (partition 'e' (lowerE (partition '.' v.text).2.2)).1 =
    nonSep (partition 'e' (lowerE (partition '.' v.core.text).2.2)).1 := by
  rw [value_parts hv.core]
  cases hf : v.core.frac with
  | none =>
    rw [partsV_none hv hf]
    rfl
  | some f =>
    rw [partsV_some hv hf]
    have hd := hv.core.2.2.2 f hf
    have ⟨hl, hne⟩ := lowerE_digits hd
    simp only [Option.getD_some, lowerE_append, hl]
    rw [Dec.partition_none hne]
    cases hx : v.expo with
    | none =>
      have ⟨hm1, hm2⟩ := lowerE_mark hv.mark
      have : vtail v = v.mark := by unfold vtail; rw [hx]; rfl
      rw [this, hm1, Dec.partition_none, nonSep_append, nonSep_mark hv.mark, List.append_nil]
      intro h
      rcases List.mem_append.1 h with h | h
      · exact hne h
      · exact hm2 h
    | some e =>
      obtain ⟨c, sg, ds⟩ := e
      have : ∃ r, lowerE (vtail v) = 'e' :: r := by
        unfold vtail; rw [hx]
        refine ⟨lowerE (sg ++ ds ++ v.mark), ?_⟩
        rcases (hv.expo _ hx).1 with h | h <;> simp only at h <;> subst h <;> rfl
      obtain ⟨r, hr⟩ := this
      rw [hr, Dec.partition_of_not_mem hne]

theorem groupsV : ((split [','] (partition '.' v.text).1).map nonSep = (split [','] (partition '.' v.core.text).1).map nonSep) ∧
    significant (split [','] (partition '.' v.text).1).flatten = significant (split [','] (partition '.' v.core.text).1).flatten := by
  rw [value_parts hv.core]
  cases hf : v.core.frac with
  | some f => rw [partsV_some hv hf]; exact ⟨rfl, rfl⟩
  | none =>
    rw [partsV_none hv hf]
    rcases vtail_none hv hf with h | h
    · rw [h, List.append_nil]; exact ⟨rfl, rfl⟩
    · rw [h]
      obtain ⟨g, gs, hg, hs⟩ := value_groups hv.core
      simp only
      have hj : v.core.sign ++ join [','] v.core.groups = join [','] ((v.core.sign ++ g) :: gs) := by
        rw [hg]
        cases gs with
        | nil => simp [join]
        | cons a b => rw [join_cons_cons, join_cons_cons]; simp
      have hc : ∀ q ∈ (v.core.sign ++ g) :: gs, ',' ∉ q := by
        have h3 := hv.core.2.2.1
        rw [hg] at h3
        have hnc : ∀ q ∈ g :: gs, ',' ∉ q := by
          intro q hq hm
          have := h3 q hq ',' hm
          simp at this
        intro q hq
        rcases List.mem_cons.1 hq with rfl | hq
        · intro hm
          rcases List.mem_append.1 hm with hm | hm
          · rcases hv.core.1 with h | h | h <;> rw [h] at hm <;> simp at hm
          · exact hnc g (by simp) hm
        · exact hnc q (by simp [hq])
      rw [hs, hj, split_appendLast hc (by decide)]
      exact ⟨map_appendLast (by simp) (by decide), by rw [flatten_appendLast, significant_percent]⟩

theorem expV (E : Nat) : expCheck E v.text = (E == 0 || match v.expo with | none => true | some e => decide (e.2.2.length ≤ E)) := by
  have ⟨he, hE⟩ := text_no_e hv.core
  have ⟨hm1, hm2⟩ := lowerE_mark hv.mark
  unfold expCheck
  rw [vtext, lowerE_append, lowerE_same hE]
  cases hx : v.expo with
  | none =>
    have : vtail v = v.mark := by unfold vtail; rw [hx]; rfl
    rw [this, hm1]
    have hn : 'e' ∉ v.core.text ++ v.mark := by
      intro h
      rcases List.mem_append.1 h with h | h
      · exact he h
      · exact hm2 h
    have : (v.core.text ++ v.mark).contains 'e' = false := by
      rw [Bool.eq_false_iff]; intro h; exact hn (List.contains_iff_mem.1 h)
    rw [this]; simp
  | some e =>
    obtain ⟨c, sg, ds⟩ := e
    obtain ⟨h1, h2, h3⟩ := hv.expo _ hx
    simp only at h1 h2 h3
    have ⟨hl, hne⟩ := lowerE_digits h3
    have hsg : lowerE sg = sg ∧ 'e' ∉ sg ∧ nonSep sg = [] := by
      rcases h2 with rfl | rfl | rfl <;> decide
    have : lowerE (vtail v) = 'e' :: (sg ++ ds ++ v.mark) := by
      unfold vtail; rw [hx]
      have : lowerE (sg ++ ds ++ v.mark) = sg ++ ds ++ v.mark := by
        rw [lowerE_append, lowerE_append, hsg.1, hl, hm1]
      rcases h1 with rfl | rfl
      · show 'e' :: lowerE (sg ++ ds ++ v.mark) = _
        rw [this]
      · show 'e' :: lowerE (sg ++ ds ++ v.mark) = _
        rw [this]
    rw [this]
    have hc : (v.core.text ++ 'e' :: (sg ++ ds ++ v.mark)).contains 'e' = true := by simp
    have hn : 'e' ∉ sg ++ ds ++ v.mark := by
      intro h
      rcases List.mem_append.1 h with h | h
      · rcases List.mem_append.1 h with h | h
        · exact hsg.2.1 h
        · exact hne h
      · exact hm2 h
    have hs : split ['e'] (v.core.text ++ 'e' :: (sg ++ ds ++ v.mark)) = [v.core.text, sg ++ ds ++ v.mark] := by
      have := split_join ['e'] (by simp) [v.core.text, sg ++ ds ++ v.mark] (by simp) (by
        intro q hq
        rcases List.mem_cons.1 hq with rfl | hq
        · exact noEarly_char 'e' _ he
        · rw [List.mem_singleton.1 hq]; exact noEarly_char 'e' _ hn)
      simpa [join] using this
    rw [hc, hs]
    have : nonSep (sg ++ ds ++ v.mark) = ds := by
      rw [nonSep_append, nonSep_append, hsg.2.2, nonSep_mark hv.mark, nonSep_digits h3]; simp
    have h4 : ([v.core.text, sg ++ ds ++ v.mark].getLast?.getD []) = sg ++ ds ++ v.mark := rfl
    rw [h4, this]
    simp

end

/-- `is_valid` for patterns with exponent, percent sign and negative pattern. -/
theorem validX {p : NumPatternX} {v : NumTextX} (hp : p.WF) (hv : v.WF) :
    valid p.text v.text = .ok true ↔ ConformsX p v := by
  have hcore := isValid_iff hp.core hv.core
  unfold valid
  rw [positive_textX hp]
  simp only [Except.map, Except.ok.injEq]
  have hc0 : expCheck (expDigits p.core.text) v.core.text = true := by
    rw [expDigits_text hp.core]; rfl
  rw [isValid_checks, hc0, Bool.and_true] at hcore
  rw [isValid_checks, minIntX hp, primaryX hp, secondaryX hp, decDigitsX hp, sigDigitsX hp, expDigitsX hp, fracV hv, (groupsV hv).1,
    (groupsV hv).2, expV hv, Bool.and_eq_true, hcore]
  unfold ConformsX
  refine and_congr Iff.rfl ?_
  cases he : p.expo with
  | none => simp
  | some e =>
    have hne := (hp.expo e he).1
    have : e.length ≠ 0 := by simpa using hne
    cases hx : v.expo with
    | none => simp
    | some f => simp [this]

end Csvw.NumPat

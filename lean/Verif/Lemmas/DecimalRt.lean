import Verif.Lemmas.DecimalSep
/-!
# Writing and reading decimals
-/

namespace Csvw.Datatypes
open Py

theorem decConvert_plain {ip : Str} {fp : Option Str} (hi : ∀ c ∈ ip, c.isDigit = true)
    (hf : ∀ f ∈ fp, ∀ c ∈ f, c.isDigit = true) (hne : ip ++ fp.getD [] ≠ []) (neg : Bool) :
    decConvert (Dec.plain neg ip fp) 1 0 =
      Dec.fix neg (Dec.numeral (ip ++ fp.getD [])) (-((fp.getD []).length : Int)) := by
  unfold decConvert
  rw [Dec.parse_plain hi hf hne]
  simp [Dec.mulConst]

theorem decFactor_eq {v : Str} (h1 : '%' ∉ v) (h2 : '‰' ∉ v) : decFactor v = decConvert v 1 0 := by
  simp [decFactor, h1, h2]

theorem sepOk_digit {c x : Char} (h : sepOk c) (hx : x.isDigit = true) : c ≠ x := by
  rintro rfl; rw [h.1] at hx; simp at hx

section
variable {g d : Option Char} (hg : ∀ x ∈ g, sepOk x) (hd : ∀ x ∈ d, sepOk x) (hgd : ∀ x ∈ g, d ≠ some x)

include hg hd in
theorem sepR_digit {x : Char} (hx : x.isDigit = true ∨ x = '-') : sepR g d x = [x] := by
  have h1 : g ≠ some x := by
    rintro rfl
    have h := hg x rfl
    rcases hx with hx | hx
    · exact sepOk_digit h hx rfl
    · exact h.2.1 hx
  have h2 : d ≠ some x := by
    rintro rfl
    have h := hd x rfl
    rcases hx with hx | hx
    · exact sepOk_digit h hx rfl
    · exact h.2.1 hx
  simp [sepR, h1, h2]

include hg hd in
theorem sepW_digit {x : Char} (hx : x.isDigit = true ∨ x = '-') : sepW g d x = [x] := by
  have h1 : g ≠ some x := by
    rintro rfl
    have h := hg x rfl
    rcases hx with hx | hx
    · exact sepOk_digit h hx rfl
    · exact h.2.1 hx
  have h2 : d ≠ some x := by
    rintro rfl
    have h := hd x rfl
    rcases hx with hx | hx
    · exact sepOk_digit h hx rfl
    · exact h.2.1 hx
  simp [sepW, h1, h2]

theorem sepR_dot : sepR g d '.' = if g = some '.' then [] else ['.'] := by
  unfold sepR; split
  · rfl
  · split <;> rfl

theorem flatMap_fixed {s : Str} {f : Char → Str} (h : ∀ x ∈ s, f x = [x]) : s.flatMap f = s :=
  (flatMap_congr' h).trans (flatMap_single s)

/-- Reading an expanded scientific notation. -/
theorem sci_read_str {neg : Bool} {a b : Str} (ha : ∀ c ∈ a, c.isDigit = true) (hb : ∀ c ∈ b, c.isDigit = true)
    (hane : a ≠ []) (hg : ∀ x ∈ g, sepOk x) (hd : ∀ x ∈ d, sepOk x) :
    decToPython (fmtOf g d) (Dec.signStr neg ++ a ++ '.' :: b) =
      if g = some '.' then Dec.fix neg (Dec.numeral (a ++ b)) 0 else Dec.fix neg (Dec.numeral (a ++ b)) (-(b.length : Int)) := by
  have hsg : ∀ x ∈ Dec.signStr neg, x = '-' := by cases neg <;> simp [Dec.signStr]
  have hch : ∀ x ∈ Dec.signStr neg ++ a ++ '.' :: b, x.isDigit = true ∨ x = '-' ∨ x = '.' := by
    intro x hx
    simp only [List.mem_append, List.mem_cons] at hx
    rcases hx with (hx | hx) | hx | hx
    · exact .inr (.inl (hsg x hx))
    · exact .inl (ha x hx)
    · exact .inr (.inr hx)
    · exact .inl (hb x hx)
  have hR : (Dec.signStr neg ++ a ++ '.' :: b).flatMap (sepR g d) =
      Dec.signStr neg ++ a ++ ((if g = some '.' then [] else ['.']) ++ b) := by
    simp only [List.flatMap_append, List.flatMap_cons, sepR_dot]
    rw [flatMap_fixed (s := Dec.signStr neg) (fun x hx => sepR_digit hg hd (.inr (hsg x hx))),
      flatMap_fixed (s := a) (fun x hx => sepR_digit hg hd (.inl (ha x hx))),
      flatMap_fixed (s := b) (fun x hx => sepR_digit hg hd (.inl (hb x hx)))]
  have hnot : ∀ y : Char, y.isDigit = false → y ≠ '-' → y ≠ '.' → y ∉ Dec.signStr neg ++ a ++ '.' :: b := by
    intro y h1 h2 h3 hy
    rcases hch y hy with h | h | h
    · rw [h] at h1; simp at h1
    · exact h2 h
    · exact h3 h
  rw [decToPython_sep, hR]
  · have : ∀ y : Char, y.isDigit = false → y ≠ '-' → y ≠ '.' →
        y ∉ Dec.signStr neg ++ a ++ ((if g = some '.' then [] else ['.']) ++ b) := by
      intro y h1 h2 h3 hy
      refine hnot y h1 h2 h3 ?_
      simp only [List.mem_append, List.mem_cons] at hy ⊢
      rcases hy with hy | hy | hy
      · exact .inl hy
      · split at hy <;> simp at hy; exact .inr (.inl hy)
      · exact .inr (.inr hy)
    rw [decFactor_eq (this _ (by decide) (by decide) (by decide)) (this _ (by decide) (by decide) (by decide))]
    split
    · have := decConvert_plain (ip := a ++ b) (fp := none) (neg := neg)
        (by intro c hc; exact (List.mem_append.1 hc).elim (ha c) (hb c)) (by simp) (by simp [hane])
      simpa [Dec.plain, List.append_assoc] using this
    · have := decConvert_plain (ip := a) (fp := some b) (neg := neg) ha (by simpa using hb) (by simp [hane])
      simpa [Dec.plain, List.append_assoc] using this
  · exact hnot _ (by decide) (by decide) (by decide)
  · exact hnot _ (by decide) (by decide) (by decide)
  · rw [Bool.eq_false_iff]
    intro h
    by_cases hdot : g.getD ',' = '.'
    · rw [hdot] at h
      rw [show Dec.signStr neg ++ a ++ '.' :: b = (Dec.signStr neg ++ a ++ ['.']) ++ b by simp] at h
      have hb' : '.' ∉ b := fun hm => absurd (hb _ hm) (by decide)
      rcases contains_double_append h with h | h
      · have ha' : '.' ∉ Dec.signStr neg ++ a := by
          intro hm; rcases List.mem_append.1 hm with hm | hm
          · exact absurd (hsg _ hm) (by decide)
          · exact absurd (ha _ hm) (by decide)
        have := contains_double_append' ha' h
        simp [contains, List.isPrefixOf] at this
      · exact hb' h
    · have hm : g.getD ',' ∉ Dec.signStr neg ++ a ++ '.' :: b := by
        cases g with
        | none => exact hnot ',' (by decide) (by decide) (by decide)
        | some x => exact hnot x (hg x rfl).1 (hg x rfl).2.1 hdot
      rw [not_contains_double hm] at h; simp at h
  · cases a with
    | nil => exact absurd rfl hane
    | cons x a => exact ⟨x, by simp, ha x (by simp)⟩

include hgd in
theorem sepT_dot : (sepW g d '.').flatMap (sepR g d) = if g = some '.' ∧ d = none then [] else ['.'] := by
  unfold sepW
  by_cases h : g = some '.' ∨ d = some '.'
  · rw [if_pos h]
    simp only [show ¬ '.' = ',' by decide, if_false, if_true]
    cases d with
    | none => simp at h; simp [h]
    | some x =>
      have hx : g ≠ some x := fun hh => hgd x hh rfl
      simp [sepR, hx]
  · rw [if_neg h]
    simp only [not_or] at h
    simp [sepR, h.1, h.2]

theorem sepT_comma (hgs : g.isSome) : (sepW g d ',').flatMap (sepR g d) =
    if g = some ',' ∨ d = some ',' then [] else [','] := by
  unfold sepW
  by_cases h : g = some ',' ∨ d = some ','
  · rw [if_pos h, if_pos h]
    cases g with
    | none => simp at hgs
    | some x => simp [sepR]
  · rw [if_neg h, if_neg h]
    simp only [not_or] at h
    simp [sepR, h.1, h.2]

/-- What writing and reading does with a character. -/
def sepT (g d : Option Char) (x : Char) : Str :=
  if x = ',' then (if g = some ',' ∨ d = some ',' then [] else [','])
  else if x = '.' then (if g = some '.' ∧ d = none then [] else ['.']) else [x]

theorem sepT_digit {x : Char} (hx : x.isDigit = true) : sepT g d x = [x] := by
  have h1 : x ≠ ',' := Dec.digit_ne hx (by decide)
  have h2 : x ≠ '.' := Dec.digit_ne hx (by decide)
  simp [sepT, h1, h2]

/-- The decimal point after writing and reading. -/
def dotT (g d : Option Char) : Str := if g = some '.' ∧ d = none then [] else ['.']

/-- The decimal point and the fraction digits. -/
def fracOf (dot fp : Str) : Str := if fp = [] then [] else dot ++ fp

theorem fracOf_fin {neg : Bool} {ip fp : Str} (hi : ∀ c ∈ ip, c.isDigit = true) (hf : ∀ c ∈ fp, c.isDigit = true)
    (hine : ip ≠ []) : decConvert (Dec.signStr neg ++ ip ++ fracOf (dotT g d) fp) 1 0 =
      if g = some '.' ∧ d = none then Dec.fix neg (Dec.numeral (ip ++ fp)) 0
      else Dec.fix neg (Dec.numeral (ip ++ fp)) (-(fp.length : Int)) := by
  unfold dotT
  split
  · have := decConvert_plain (ip := ip ++ fp) (fp := none) (neg := neg)
      (by intro c hc; exact (List.mem_append.1 hc).elim (hi c) (hf c)) (by simp) (by simp [hine])
    by_cases hfp : fp = []
    · subst hfp; simpa [Dec.plain, fracOf, List.append_assoc] using this
    · simpa [Dec.plain, fracOf, List.append_assoc, hfp] using this
  · by_cases hfp : fp = []
    · subst hfp
      have := decConvert_plain (ip := ip) (fp := none) (neg := neg) hi (by simp) (by simp [hine])
      simpa [Dec.plain, fracOf, List.append_assoc] using this
    · have := decConvert_plain (ip := ip) (fp := some fp) (neg := neg) hi (by simpa using hf) (by simp [hine])
      simpa [Dec.plain, fracOf, List.append_assoc, hfp] using this

theorem fracOf_mem {dot fp : Str} {y : Char} (h : y ∈ fracOf dot fp) : y ∈ dot ∨ y ∈ fp := by
  unfold fracOf at h
  split at h
  · simp at h
  · exact List.mem_append.1 h

/-- Reading a plainly written number. -/
theorem plain_read_str {neg : Bool} {ip fp : Str} (hi : ∀ c ∈ ip, c.isDigit = true) (hf : ∀ c ∈ fp, c.isDigit = true)
    (hine : ip ≠ []) (hg : ∀ x ∈ g, sepOk x) (hd : ∀ x ∈ d, sepOk x) (hgd : ∀ x ∈ g, d ≠ some x) :
    decToPython (fmtOf g d)
      ((Dec.signStr neg ++ (if g.isSome then Dec.group ip else ip) ++ fracOf ['.'] fp).flatMap (sepW g d)) =
      if g.isSome ∧ g ≠ some ',' ∧ d ≠ some ',' ∧ 3 < ip.length then .error .valueError
      else if g = some '.' ∧ d = none then Dec.fix neg (Dec.numeral (ip ++ fp)) 0
      else Dec.fix neg (Dec.numeral (ip ++ fp)) (-(fp.length : Int)) := by
  have hci : ',' ∉ ip := fun h => absurd (hi _ h) (by decide)
  have hsg : ∀ x ∈ Dec.signStr neg, x = '-' := by cases neg <;> simp [Dec.signStr]
  obtain ⟨gi, hgi⟩ : ∃ gi, gi = if g.isSome then Dec.group ip else ip := ⟨_, rfl⟩
  have hgim : ∀ x ∈ gi, (x = ',' ∧ g.isSome) ∨ x.isDigit = true := by
    intro x hx
    rw [hgi] at hx
    split at hx
    · next hs => exact (Dec.group_mem hx).elim (fun h => .inl ⟨h, hs⟩) (fun h => .inr (hi x h))
    · exact .inr (hi x hx)
  have hgine : ∃ x ∈ gi, x.isDigit = true := by
    rw [hgi]
    cases ip with
    | nil => exact absurd rfl hine
    | cons y ip =>
      refine ⟨y, ?_, hi y (by simp)⟩
      split
      · have : y ∈ (Dec.group (y :: ip)).filter (· ≠ ',') := by rw [Dec.group_filter hci]; simp
        exact (List.mem_filter.1 this).1
      · simp
  rw [← hgi]
  obtain ⟨s, hs⟩ : ∃ s, s = Dec.signStr neg ++ gi ++ fracOf ['.'] fp := ⟨_, rfl⟩
  rw [← hs]
  have hsm : ∀ x ∈ s, x.isDigit = true ∨ x = '-' ∨ (x = ',' ∧ g.isSome) ∨ x = '.' := by
    intro x hx
    rw [hs] at hx
    simp only [List.mem_append] at hx
    rcases hx with (hx | hx) | hx
    · exact .inr (.inl (hsg x hx))
    · rcases hgim x hx with h | h
      · exact .inr (.inr (.inl h))
      · exact .inl h
    · rcases fracOf_mem hx with hx | hx
      · exact .inr (.inr (.inr (by simpa using hx)))
      · exact .inl (hf x hx)
  -- characters of the written string
  have hWm : ∀ x ∈ s, ∀ y ∈ sepW g d x, y = x ∨ g = some y ∨ d = some y := by
    intro x _ y hy
    unfold sepW at hy
    split at hy
    · split at hy
      · right; left; cases g <;> simp at hy; simp [hy]
      · split at hy
        · right; right; cases d <;> simp at hy; simp [hy]
        · simp at hy
    · left; simpa using hy
  have hvm : ∀ y ∈ s.flatMap (sepW g d), y ∈ s ∨ g = some y ∨ d = some y := by
    intro y hy
    obtain ⟨x, hx, hy⟩ := List.mem_flatMap.1 hy
    rcases hWm x hx y hy with rfl | h
    · exact .inl hx
    · exact .inr h
  have hnoE : ∀ y, y = 'e' ∨ y = 'E' → y ∉ s.flatMap (sepW g d) := by
    intro y hy hm
    rcases hvm y hm with h | h | h
    · rcases hsm y h with h | h | h | h <;> rcases hy with rfl | rfl <;> revert h <;> simp <;> decide
    · have := hg y h; rcases hy with rfl | rfl
      · exact this.2.2.2.1 rfl
      · exact this.2.2.2.2 rfl
    · have := hd y h; rcases hy with rfl | rfl
      · exact this.2.2.2.1 rfl
      · exact this.2.2.2.2 rfl
  have hT : ∀ x ∈ s, (sepW g d x).flatMap (sepR g d) = sepT g d x := by
    intro x hx
    unfold sepT
    rcases hsm x hx with h | h | h | h
    · have h1 : x ≠ ',' := Dec.digit_ne h (by decide)
      have h2 : x ≠ '.' := Dec.digit_ne h (by decide)
      rw [if_neg h1, if_neg h2, sepW_digit hg hd (.inl h)]
      simp [sepR_digit hg hd (.inl h)]
    · subst h
      rw [sepW_digit hg hd (.inr rfl)]
      simp [sepR_digit hg hd (.inr rfl)]
    · obtain ⟨rfl, h⟩ := h
      rw [sepT_comma h]; simp
    · subst h
      rw [sepT_dot hgd]; simp
  rw [decToPython_sep (hnoE _ (.inl rfl)) (hnoE _ (.inr rfl))]
  · rw [flatMap_flatMap, flatMap_congr' hT]
    have hsT : s.flatMap (sepT g d) =
        Dec.signStr neg ++ (if g.isSome ∧ g ≠ some ',' ∧ d ≠ some ',' then Dec.group ip else ip) ++
          fracOf (dotT g d) fp := by
      rw [hs]
      simp only [List.flatMap_append]
      congr 1
      · congr 1
        · apply flatMap_fixed
          intro x hx; rw [hsg x hx]; simp [sepT]
        · by_cases hgs : g.isSome
          · rw [hgi, if_pos hgs]
            by_cases hk : g = some ',' ∨ d = some ','
            · rw [if_neg (fun h => hk.elim h.2.1 h.2.2)]
              have : ∀ l : Str, (∀ x ∈ l, x = ',' ∨ x.isDigit = true) → l.flatMap (sepT g d) = l.filter (· ≠ ',') := by
                intro l hl
                induction l with
                | nil => rfl
                | cons x l ih =>
                  simp only [List.flatMap_cons, ih (fun y hy => hl y (by simp [hy])), List.filter_cons]
                  by_cases hx : x = ','
                  · simp [hx, sepT, hk]
                  · rw [sepT_digit ((hl x (by simp)).resolve_left hx)]
                    simp [hx]
              rw [this, Dec.group_filter hci]
              intro x hx
              exact (Dec.group_mem hx).elim .inl (fun h => .inr (hi x h))
            · simp only [not_or] at hk
              rw [if_pos ⟨hgs, hk.1, hk.2⟩]
              apply flatMap_fixed
              intro x hx
              rcases Dec.group_mem hx with h | h
              · subst h; simp [sepT, hk.1, hk.2]
              · exact sepT_digit (hi x h)
          · rw [hgi, if_neg hgs, if_neg (fun h => hgs h.1)]
            exact flatMap_fixed fun x hx => sepT_digit (hi x hx)
      · unfold fracOf
        split
        · rfl
        · simp only [List.flatMap_append]
          rw [flatMap_fixed (s := fp) fun x hx => sepT_digit (hf x hx)]
          simp [sepT, dotT]
    rw [hsT, decFactor_eq]
    · by_cases hk : g.isSome ∧ g ≠ some ',' ∧ d ≠ some ','
      · rw [if_pos hk]
        by_cases h3 : 3 < ip.length
        · rw [if_pos (And.intro hk.1 ⟨hk.2.1, hk.2.2, h3⟩)]
          -- a comma remains
          have hcm : ',' ∈ Dec.group ip := (Dec.group_comma hci).2 h3
          have hhead : ∃ x r, Dec.group ip = x :: r ∧ x.isDigit = true := by
            unfold Dec.group
            -- the last character of `groupRev` is the last of the digits
            have key : ∀ (k : Nat) (l : Str), l ≠ [] → (∀ x ∈ l, x.isDigit = true) →
                ∃ x r, (Dec.groupRev k l).reverse = x :: r ∧ x.isDigit = true := by
              intro k l
              induction l generalizing k with
              | nil => simp
              | cons y l ih =>
                intro _ hd
                cases l with
                | nil => cases k <;> exact ⟨y, _, rfl, hd y (by simp)⟩
                | cons z l =>
                  cases k with
                  | zero =>
                    obtain ⟨x, r, h1, h2⟩ := ih 2 (by simp) (fun x hx => hd x (List.mem_cons_of_mem _ hx))
                    exact ⟨x, r ++ [y, ','], by
                      rw [Dec.groupRev, List.reverse_cons, List.reverse_cons, h1]; simp, h2⟩
                  | succ k =>
                    obtain ⟨x, r, h1, h2⟩ := ih k (by simp) (fun x hx => hd x (List.mem_cons_of_mem _ hx))
                    exact ⟨x, r ++ [y], by rw [Dec.groupRev, List.reverse_cons, h1]; simp, h2⟩
            exact key 3 ip.reverse (by simpa using hine) (by simpa using hi)
          obtain ⟨x, r, hxr, hx⟩ := hhead
          have hmem : ∀ y ∈ x :: r, y = ',' ∨ y.isDigit = true := by
            intro y hy; rw [← hxr] at hy
            exact (Dec.group_mem hy).elim .inl (fun h => .inr (hi y h))
          rw [hxr] at hcm ⊢
          have hcr : ',' ∈ r := by
            rcases List.mem_cons.1 hcm with h | h
            · rw [← h] at hx; exact absurd hx (by decide)
            · exact h
          unfold decConvert
          rw [List.append_assoc, List.cons_append, parse_comma hx]
          · intro y hy
            rcases List.mem_append.1 hy with hy | hy
            · rcases hmem y (by simp [hy]) with h | h
              · exact .inr (.inl h)
              · exact .inl h
            · rcases fracOf_mem hy with hy | hy
              · unfold dotT at hy
                split at hy <;> simp at hy; exact .inr (.inr hy)
              · exact .inl (hf y hy)
          · exact List.mem_append_left _ hcr
        · rw [if_neg (fun h => h3 h.2.2.2)]
          have hgeq : Dec.group ip = ip := by
            have : ',' ∉ Dec.group ip := fun h => h3 ((Dec.group_comma hci).1 h)
            have h1 := Dec.group_filter hci
            rwa [List.filter_eq_self.2] at h1
            intro y hy
            have : y ≠ ',' := fun hh => this (hh ▸ hy)
            simpa using this
          rw [hgeq]
          exact fracOf_fin hi hf hine
      · rw [if_neg hk, if_neg (fun h => hk ⟨h.1, h.2.1, h.2.2.1⟩)]
        exact fracOf_fin hi hf hine
    all_goals
      intro hm
      rw [← hsT] at hm
      obtain ⟨x, hx, hm⟩ := List.mem_flatMap.1 hm
      have hx := hsm x hx
      unfold sepT at hm
      split at hm
      · split at hm <;> simp at hm
      · split at hm
        · split at hm <;> simp at hm
        · simp only [List.mem_singleton] at hm
          subst hm
          rcases hx with h | h | h | h
          · exact absurd h (by decide)
          · exact absurd h (by decide)
          · exact absurd h.1 (by decide)
          · exact absurd h (by decide)
  · -- no doubled group characters
    rw [Bool.eq_false_iff]
    intro h
    have hnd : contains [',', ','] s = false := by
      rw [Bool.eq_false_iff]; intro hc
      rw [hs] at hc
      rcases contains_double_append hc with hc | hc
      · have : ',' ∉ Dec.signStr neg := fun hm => absurd (hsg _ hm) (by decide)
        have := contains_double_append' this hc
        rw [hgi] at this
        split at this
        · rw [Dec.group_no_double hci] at this; simp at this
        · rw [not_contains_double hci] at this; simp at this
      · rcases fracOf_mem hc with hc | hc
        · exact absurd hc (by decide)
        · exact absurd (hf _ hc) (by decide)
    cases hgv : g with
    | none =>
      rw [hgv] at h
      have hm : ',' ∉ s.flatMap (sepW none d) := by
        intro hm
        obtain ⟨x, hx, hm⟩ := List.mem_flatMap.1 hm
        have hxc : x ≠ ',' := by
          rintro rfl
          rcases hsm _ hx with h | h | h | h
          · exact absurd h (by decide)
          · exact absurd h (by decide)
          · rw [hgv] at h; simp at h
          · exact absurd h (by decide)
        unfold sepW at hm
        split at hm
        · next hxd =>
          split at hm
          · next hx' =>
            simp only [reduceCtorEq, false_or] at hxd
            rw [hxd] at hm
            simp only [Option.toList_some, List.mem_singleton] at hm
            exact hxc hm.symm
          · simp at hm
        · simp only [List.mem_singleton] at hm; exact hxc hm.symm
      rw [show (none : Option Char).getD ',' = ',' from rfl, not_contains_double hm] at h
      simp at h
    | some gc =>
      simp only [hgv, Option.getD_some] at h
      have hgc := hg gc hgv
      have hdg := hgd gc hgv
      by_cases hcol : gc = '.' ∧ d = none
      · obtain ⟨rfl, rfl⟩ := hcol
        have hm : '.' ∉ s.flatMap (sepW (some '.') none) := by
          intro hm
          obtain ⟨x, hx, hm⟩ := List.mem_flatMap.1 hm
          unfold sepW at hm
          split at hm
          · next hxg =>
            simp only [Option.some.injEq, reduceCtorEq, or_false] at hxg
            subst hxg
            simp at hm
          · next hxg =>
            simp only [List.mem_singleton] at hm
            subst hm
            simp at hxg
        rw [not_contains_double hm] at h
        simp at h
      · have hone : ∀ x ∈ s, ∃ y, sepW (some gc) d x = [y] ∧ (y = gc → x = ',') := by
          intro x hx
          have hx := hsm x hx
          unfold sepW
          by_cases hc : x = ','
          · subst hc
            split
            · exact ⟨gc, by simp, fun _ => rfl⟩
            · exact ⟨',', rfl, fun _ => rfl⟩
          · by_cases hdot : x = '.'
            · subst hdot
              split
              · next hh =>
                cases hdv : d with
                | none =>
                  rw [hdv] at hh hcol
                  simp at hh hcol; exact absurd hh hcol
                | some y =>
                  refine ⟨y, by simp, ?_⟩
                  rintro rfl
                  exact absurd hdv hdg
              · next hh =>
                refine ⟨'.', rfl, ?_⟩
                rintro rfl
                exact absurd (Or.inl rfl) hh
            · have hdig : x.isDigit = true ∨ x = '-' := by
                rcases hx with h | h | h | h
                · exact .inl h
                · exact .inr h
                · exact absurd h.1 hc
                · exact absurd h hdot
              have hw := sepW_digit hg hd hdig
              rw [hgv] at hw
              unfold sepW at hw
              rw [hw]
              refine ⟨x, rfl, ?_⟩
              rintro rfl
              rcases hdig with h | h
              · exact absurd rfl (sepOk_digit hgc h)
              · exact absurd h hgc.2.1
        have hmap : s.flatMap (sepW (some gc) d) = s.map (fun x => (sepW (some gc) d x).headD x) := by
          clear hs hsm hWm hvm hnoE hT h hnd
          induction s with
          | nil => rfl
          | cons x s ih =>
            obtain ⟨y, hy, _⟩ := hone x (by simp)
            rw [List.flatMap_cons, List.map_cons, ih (fun z hz => hone z (by simp [hz])), hy]
            rfl
        rw [hmap] at h
        have := contains_double_map h (by
          intro x hx hy
          obtain ⟨y, hy1, hy2⟩ := hone x hx
          rw [hy1] at hy
          exact hy2 hy)
        rw [this] at hnd
        simp at hnd
  · obtain ⟨x, hx, hdx⟩ := hgine
    refine ⟨x, ?_, hdx⟩
    refine List.mem_flatMap.2 ⟨x, by rw [hs]; simp [hx], ?_⟩
    rw [sepW_digit hg hd (.inl hdx)]; simp

end

theorem reverseSpecial_none {s : Str} (h1 : 'n' ∉ s) (h2 : 'N' ∉ s) : reverseSpecial s = none := by
  unfold reverseSpecial
  rw [if_neg, if_neg, if_neg]
  · rintro rfl; exact h2 (by decide)
  · rintro rfl; exact h1 (by decide)
  · rintro rfl; exact h1 (by decide)

theorem plusInt_mem {i : Int} {c : Char} (h : c ∈ Dec.plusInt i) : Dec.plainChar c = true := by
  unfold Dec.plusInt at h
  rcases List.mem_cons.1 h with h | h
  · split at h <;> subst h <;> decide
  · simp [Dec.plainChar, Dec.isDigit_digits c h]

/-- Writing a number in plain notation. -/
theorem decToString_plain (ext : Ext) (g d : Option Char) (neg : Bool) (c : Nat) (e : Int) (h0 : e ≤ 0)
    (h6 : -6 < e + Dec.ndigits c) :
    ∃ ip fp : Str, (∀ x ∈ ip, x.isDigit = true) ∧ (∀ x ∈ fp, x.isDigit = true) ∧ ip ≠ [] ∧ Dec.numeral (ip ++ fp) = c ∧
      (fp.length : Int) = -e ∧ (ip.length : Int) = max 1 ((Dec.ndigits c : Int) + e) ∧
      decToString ext (fmtOf g d) (.dec (.fin neg c e)) =
        .ok ((Dec.signStr neg ++ (if g.isSome then Dec.group ip else ip) ++ fracOf ['.'] fp).flatMap
          (sepW g d)) := by
  have hmem : ∀ (ip fp gi : Str), (∀ x ∈ gi, x = ',' ∨ x ∈ ip) → (∀ x ∈ ip, x.isDigit = true) →
      (∀ x ∈ fp, x.isDigit = true) → ∀ y, y.isDigit = false → y ≠ '-' → y ≠ ',' → y ≠ '.' →
      y ∉ Dec.signStr neg ++ gi ++ fracOf ['.'] fp := by
    intro ip fp gi hgi hi hf y hy h1 h2 h3 hm
    simp only [List.mem_append] at hm
    rcases hm with (hm | hm) | hm
    · cases neg <;> simp [Dec.signStr] at hm; exact h1 hm
    · rcases hgi y hm with h | h
      · exact h2 h
      · rw [hi y h] at hy; simp at hy
    · rcases fracOf_mem hm with h | h
      · exact h3 (by simpa using h)
      · rw [hf y h] at hy; simp at hy
  obtain ⟨ip, fp, hi, hf, hne, hnum, hfl, hil, hstr⟩ := Dec.toStr_plain g.isSome neg c e h0 h6
  obtain ⟨ip', fp', hi', hf', _, _, _, _, hstr'⟩ := Dec.toStr_plain false neg c e h0 h6
  refine ⟨ip, fp, hi, hf, hne, hnum, hfl, hil, ?_⟩
  have hstr : Dec.toStr g.isSome (.fin neg c e) =
      Dec.signStr neg ++ (if g.isSome then Dec.group ip else ip) ++ fracOf ['.'] fp := hstr
  have hgi : ∀ x ∈ (if g.isSome then Dec.group ip else ip), x = ',' ∨ x ∈ ip := by
    intro x hx
    split at hx
    · exact Dec.group_mem hx
    · exact .inr hx
  unfold decToString
  rw [if_neg (by simp [tooLong])]
  have hrs : reverseSpecial (numStr false (.dec (.fin neg c e))) = none := by
    simp only [numStr, hstr']
    apply reverseSpecial_none
    · exact hmem ip' fp' _ (fun x hx => .inr (by simpa using hx)) hi' hf' _ (by decide) (by decide) (by decide) (by decide)
    · exact hmem ip' fp' _ (fun x hx => .inr (by simpa using hx)) hi' hf' _ (by decide) (by decide) (by decide) (by decide)
  rw [hrs]
  have hE := hmem ip fp _ hgi hi hf 'E' (by decide) (by decide) (by decide) (by decide)
  have hgs : (fmtOf g d).groupChar.isSome = g.isSome := by cases g <;> rfl
  rw [← substSeps_eq]
  show Except.ok (decPlain (fmtOf g d) _ (numStr (fmtOf g d).groupChar.isSome _)) = _
  rw [hgs]
  simp only [numStr, hstr, decPlain, Dec.partition_none hE]
  rfl

/-- Writing a number in (expanded) scientific notation. -/
theorem decToString_sci (ext : Ext) (g d : Option Char) (neg : Bool) (c : Nat) (e : Int)
    (h : 0 < e ∨ e + Dec.ndigits c ≤ -6) :
    decToString ext (fmtOf g d) (.dec (.fin neg c e)) =
      .ok (if 0 < e then Dec.signStr (neg && decide (c ≠ 0)) ++ (Dec.digits c ++
            List.replicate (e + Dec.ndigits c - 2).toNat '0') ++ '.' :: ['0']
        else Dec.signStr (neg && decide (c ≠ 0)) ++ ['0'] ++ '.' ::
          (List.replicate (-e - Dec.ndigits c).toNat '0' ++ Dec.digits c)) := by
  obtain ⟨x, ds, hxd, hne, hstr⟩ := Dec.toStr_sci g.isSome neg c e h
  obtain ⟨x', ds', hxd', _, hstr'⟩ := Dec.toStr_sci false neg c e h
  have hdig : ∀ y ∈ x :: ds, y.isDigit = true := by rw [← hxd]; exact Dec.isDigit_digits
  rw [hxd] at hxd'
  simp only [List.cons.injEq] at hxd'
  obtain ⟨rfl, rfl⟩ := hxd'
  have hmant : ∀ y, Dec.plainChar y = false → y ∉ Dec.signStr neg ++ x :: (if ds = [] then [] else '.' :: ds) := by
    intro y hy hm
    have : Dec.plainChar y = true := by
      simp only [List.mem_append, List.mem_cons] at hm
      rcases hm with hm | hm | hm
      · cases neg <;> simp [Dec.signStr] at hm; subst hm; decide
      · simp [Dec.plainChar, hm, hdig x (by simp)]
      · split at hm
        · simp at hm
        · rcases List.mem_cons.1 hm with h | h
          · subst h; decide
          · simp [Dec.plainChar, hdig y (by simp [h])]
    rw [this] at hy; simp at hy
  have hall : ∀ y, Dec.plainChar y = false → y ≠ 'E' →
      y ∉ (Dec.signStr neg ++ x :: (if ds = [] then [] else '.' :: ds)) ++ 'E' :: Dec.plusInt (e + Dec.ndigits c - 1) := by
    intro y hy hne hm
    rcases List.mem_append.1 hm with hm | hm
    · exact hmant y hy hm
    · rcases List.mem_cons.1 hm with hm | hm
      · exact hne hm
      · rw [plusInt_mem hm] at hy; simp at hy
  unfold decToString
  rw [if_neg (by simp [tooLong])]
  have hrs : reverseSpecial (numStr false (.dec (.fin neg c e))) = none := by
    simp only [numStr, hstr']
    exact reverseSpecial_none (hall _ (by decide) (by decide)) (hall _ (by decide) (by decide))
  rw [hrs]
  have hgs : (fmtOf g d).groupChar.isSome = g.isSome := by cases g <;> rfl
  show Except.ok (decPlain (fmtOf g d) (decide (Dec.value (.fin neg c e) < Dec.value (.fin false 0 0)))
    (numStr (fmtOf g d).groupChar.isSome _)) = _
  rw [hgs]
  simp only [numStr, hstr, decPlain, Dec.partition_of_not_mem (hmant 'E' (by decide)), if_true, Dec.expInt_plusInt]
  have hneg : decide (Dec.value (.fin neg c e) < Dec.value (.fin false 0 0)) = (neg && decide (c ≠ 0)) := by
    rw [Dec.value_zero, Bool.eq_iff_iff]
    simp only [decide_eq_true_eq, Bool.and_eq_true]
    exact Dec.value_neg_iff neg c e
  rw [hneg]
  have hfil : (Dec.signStr neg ++ x :: (if ds = [] then [] else '.' :: ds)).filter (fun c => c ≠ '.' && c ≠ '-') = x :: ds := by
    have h1 : ∀ l : Str, (∀ y ∈ l, y.isDigit = true) → l.filter (fun c => c ≠ '.' && c ≠ '-') = l := by
      intro l hl
      rw [List.filter_eq_self]
      intro y hy
      have h1 : y ≠ '.' := Dec.digit_ne (hl y hy) (by decide)
      have h2 : y ≠ '-' := Dec.digit_ne (hl y hy) (by decide)
      simp [h1, h2]
    have hx := h1 [x] (by intro y hy; exact hdig y (by simp at hy; simp [hy]))
    have hds := h1 ds (fun y hy => hdig y (by simp [hy]))
    rw [show Dec.signStr neg ++ x :: (if ds = [] then [] else '.' :: ds) =
      Dec.signStr neg ++ ([x] ++ (if ds = [] then [] else '.' :: ds)) from rfl, List.filter_append, List.filter_append, hx]
    have h2 : (Dec.signStr neg).filter (fun c => c ≠ '.' && c ≠ '-') = [] := by cases neg <;> rfl
    rw [h2]
    split
    · next h => simp [h]
    · rw [List.filter_cons_of_neg (by decide), hds]; rfl
  unfold sciStr
  simp only [hfil, ← hxd]
  by_cases he : 0 < e
  · have hp := Dec.ndigits_pos c
    rw [if_pos he, if_pos (by omega)]
    rw [show (e + (Dec.ndigits c : Int) - 1).natAbs - 1 = (e + (Dec.ndigits c : Int) - 2).toNat by omega]
    simp [List.append_assoc]
  · rw [if_neg he, if_neg (by omega)]
    rw [show (e + (Dec.ndigits c : Int) - 1).natAbs - 1 = (-e - (Dec.ndigits c : Int)).toNat by omega]
    simp [List.append_assoc]

end Csvw.Datatypes

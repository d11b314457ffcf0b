import Verif.Props.C41
import Verif.Props.C39
/-!
# C40: referential integrity
-/

namespace Csvw.Props
open Csvw.Spec Csvw.Table Csvw.TableGroup

/-! ## Specification -/

/-- The value is `None` (also written `null`, in JSON). -/
def IsNone (v : CVal) : Prop := v = .one .none ∨ v = .one (.json .null)

/-- The value is a list (of a list-valued column, or a JSON array) with items `l`. -/
inductive IsList : CVal → List CVal → Prop where
  | many (l : List Val) : IsList (.many l) (l.map .one)
  | json (l : List J) : IsList (.one (.json (.arr l))) (l.map fun j => .one (.json j))

/-- The keys to which a row refers through the columns of a foreign key: for a single column its value, if it is not `None`, or,
for lists, each item; for several columns their values, if none of them is `None`. -/
inductive Reference (cols : List Str) (row : RowDict) : List CVal → Prop where
  | value {c : Str} (hc : cols = [c]) (hn : ¬ IsNone (valueOf row c)) (hl : ∀ l, ¬ IsList (valueOf row c) l) :
      Reference cols row [valueOf row c]
  | item {c : Str} (hc : cols = [c]) {l : List CVal} (hl : IsList (valueOf row c) l) {i : CVal} (hi : i ∈ l) :
      Reference cols row [i]
  | composite (hc : 2 ≤ cols.length) (hn : ∀ c ∈ cols, ¬ IsNone (valueOf row c)) : Reference cols row (cols.map (valueOf row))

/-- The row has the given key in the columns: the values are equal, by Python's `==`. -/
def MatchesKey (eq : PyEq) (cols : List Str) (row : RowDict) (key : List CVal) : Prop :=
  All2 (fun c v => eq (valueOf row c) v = true) cols key

/-- Every reference from a row of the table `t` by the columns `tc` is the key, in columns `sc`, of a row of the table `u`. -/
def Satisfied (eq : PyEq) (rows : Table → List RowDict) (u : Table) (sc : List Str) (t : Table) (tc : List Str) : Prop :=
  ∀ row ∈ rows t, ∀ key, Reference tc row key → ∃ row' ∈ rows u, MatchesKey eq sc row' key

/-- All foreign keys of all tables of the group are satisfied. -/
def AllSatisfied (eq : PyEq) (rows : Table → List RowDict) (g : TableGroup) : Prop :=
  ∀ t fk, IsForeignKey g t fk → ∀ r u, fk.resource = some r → TableNamed g r u →
    Satisfied eq rows u fk.refColumns t fk.columnReference

/-- The foreign key can be checked: it references a table of the group, by the same number of columns; the data of both tables
can be read; their rows have these columns; and the keys are hashable. -/
structure Checkable (read : Reader) (log : Bool) (g : TableGroup) (t : Table) (fk : ForeignKey) : Prop where
  table : ∃ r u, fk.resource = some r ∧ TableNamed g r u ∧ (read u log).err = none ∧
    ∀ row ∈ rowsOf (read u log), HasKey fk.refColumns row
  columns : fk.columnReference ≠ [] ∧ fk.refColumns.length = fk.columnReference.length
  readable : (read t log).err = none
  keys : ∀ row ∈ rowsOf (read t log), ∀ c ∈ fk.columnReference, c ∈ Dict.keys row
  hash : ∀ row ∈ rowsOf (read t log), ∀ key, Reference fk.columnReference row key → ∀ v ∈ key, hashable v = true

/-! ## Proof -/

/-- What checks do: `d` and `b` are conditions; if `b` fails, this is logged or raised. -/
def judge (log ok d b : Bool) : Res Bool := if b then .ok (ok && d) else if log then .ok false else .error .valueError

def thenJudge (r : Res Bool) (f : Bool → Res Bool) : Res Bool :=
  match r with
  | .error e => .error e
  | .ok ok => f ok

theorem judge_then (log ok d b d' b' : Bool) :
    thenJudge (judge log ok d b) (fun ok' => judge log ok' d' b') = judge log ok (d && d') (b && b') := by
  cases log <;> cases ok <;> cases d <;> cases b <;> cases d' <;> cases b' <;> rfl

section
variable {eq : PyEq} {read : Reader} {log strict : Bool} {g : TableGroup}

theorem isNone_iff {v : CVal} : isNone v = true ↔ IsNone v := by simp [isNone, IsNone]

theorem listItems_iff {v : CVal} {l : List CVal} : listItems v = some l ↔ IsList v l := by
  constructor
  · intro h
    cases v with
    | many m => simp only [listItems, Option.some.injEq] at h; subst h; exact .many m
    | one w => cases w with
      | json j => cases j with
        | arr m => simp only [listItems, Option.some.injEq] at h; subst h; exact .json m
        | _ => simp [listItems] at h
      | _ => simp [listItems] at h
  · intro h; cases h <;> rfl

/-- Is the key found? -/
def found (eq : PyEq) (rows : List RowDict) (sc : List Str) (k : List CVal) : Bool :=
  rows.any fun row => keyEq eq (sc.map (valueOf row)) k

theorem keyEq_iff {sc : List Str} {row : RowDict} {k : List CVal} :
    keyEq eq (sc.map (valueOf row)) k = true ↔ MatchesKey eq sc row k := by
  unfold MatchesKey
  induction sc generalizing k with
  | nil =>
    cases k with
    | nil => exact ⟨fun _ => .nil, fun _ => rfl⟩
    | cons v vs => exact ⟨fun h => by simp [keyEq] at h, fun h => by cases h⟩
  | cons c cs ih =>
    cases k with
    | nil => exact ⟨fun h => by simp [keyEq] at h, fun h => by cases h⟩
    | cons v vs =>
      simp only [List.map_cons, keyEq, Bool.and_eq_true]
      rw [ih]
      exact ⟨fun h => .cons h.1 h.2, fun h => by cases h with | cons h1 h2 => exact ⟨h1, h2⟩⟩

theorem found_iff {rows : List RowDict} {sc : List Str} {k : List CVal} :
    found eq rows sc k = true ↔ ∃ row ∈ rows, MatchesKey eq sc row k := by
  unfold found
  simp only [List.any_eq_true, keyEq_iff]

/-- The keys of rows. -/
def keysOf (sc : List Str) (rows : List RowDict) : List (List CVal) := rows.reverse.map fun row => sc.map (valueOf row)

theorem inSeen_eq {rows : List RowDict} {sc : List Str} {k : List CVal} (hk : k.all hashable = true) :
    inSeen eq (keysOf sc rows) k = .ok (found eq rows sc k) := by
  unfold inSeen keysOf found
  rw [hk]
  simp only [Bool.not_true, Bool.false_eq_true, if_false, List.any_map, List.any_reverse]
  rfl

theorem seenKeys_eq {sc : List Str} {rows pre : List RowDict} (hk : ∀ r ∈ rows, HasKey sc r) (dup : Bool) :
    ∃ d, seenKeys eq sc (keysOf sc pre) dup rows = .ok (keysOf sc (pre ++ rows), d) ∧
      (d = false ↔ dup = false ∧ NoDuplicateKey eq sc rows ∧ ∀ p ∈ pre, ∀ q ∈ rows, ¬ SameKey eq sc p q) := by
  induction rows generalizing pre dup with
  | nil => exact ⟨dup, by rw [List.append_nil]; rfl, by simp [NoDuplicateKey]⟩
  | cons r rs ih =>
    obtain ⟨h1, h2⟩ := getKey_of_hasKey (hk r (List.mem_cons_self ..))
    unfold seenKeys
    rw [h1]
    simp only
    rw [inSeen_eq h2]
    simp only
    have hcons : sc.map (valueOf r) :: keysOf sc pre = keysOf sc (pre ++ [r]) := by simp [keysOf]
    rw [hcons]
    obtain ⟨d, hd1, hd2⟩ := ih (pre := pre ++ [r]) (fun q hq => hk q (List.mem_cons_of_mem _ hq)) (dup || found eq pre sc (sc.map (valueOf r)))
    rw [List.append_assoc, List.singleton_append] at hd1
    refine ⟨d, hd1, ?_⟩
    rw [hd2, Bool.or_eq_false_iff]
    have hf : found eq pre sc (sc.map (valueOf r)) = false ↔ ∀ p ∈ pre, ¬ SameKey eq sc p r := by
      rw [← Bool.not_eq_true]
      unfold found
      simp only [List.any_eq_true, keyEq_map, not_exists, not_and]
    rw [hf]
    unfold NoDuplicateKey
    rw [List.pairwise_cons]
    simp only [List.mem_append, List.mem_cons, List.not_mem_nil, or_false]
    constructor
    · rintro ⟨⟨hdup, hno⟩, hrs, hx⟩
      refine ⟨hdup, ⟨fun q hq => hx r (.inr rfl) q hq, hrs⟩, ?_⟩
      rintro p hp q (rfl | hq)
      · exact hno p hp
      · exact hx p (.inl hp) q hq
    · rintro ⟨hdup, ⟨hr, hrs⟩, hx⟩
      refine ⟨⟨hdup, fun p hp => hx p hp r (.inl rfl)⟩, hrs, ?_⟩
      rintro p (hp | rfl) q hq
      · exact hx p hp q (.inr hq)
      · exact hr q hq

theorem lookupRefs_eq {rows : List RowDict} {sc : List Str} {refs : List (List CVal)} (hh : ∀ k ∈ refs, k.all hashable = true) (ok : Bool) :
    lookupRefs eq log (keysOf sc rows) refs ok = judge log ok true (refs.all (found eq rows sc)) := by
  induction refs generalizing ok with
  | nil => simp [lookupRefs, judge]
  | cons k r ih =>
    unfold lookupRefs
    rw [inSeen_eq (hh k (List.mem_cons_self ..))]
    have ih' := ih fun k hk => hh k (List.mem_cons_of_mem _ hk)
    cases hf : found eq rows sc k with
    | true => simp only [ih', List.all_cons, hf, Bool.true_and]
    | false =>
      simp only [ih', List.all_cons, hf, Bool.false_and]
      cases log <;> cases (r.all (found eq rows sc)) <;> rfl

/-- The references of a row. -/
def refsOf (cols : List Str) (row : RowDict) : List (List CVal) :=
  match cols with
  | [c] =>
    if isNone (valueOf row c) then []
    else match listItems (valueOf row c) with
      | some l => l.map fun i => [i]
      | none => [[valueOf row c]]
  | cols => if cols.any fun c => isNone (valueOf row c) then [] else [cols.map (valueOf row)]

theorem colrefs_eq (cols : List Str) (row : RowDict) :
    colrefs (decide (cols.length = 1)) (cols.map (valueOf row)) = .ok (refsOf cols row) := by
  cases cols with
  | nil => rfl
  | cons c r =>
    cases r with
    | nil =>
      simp only [List.map_cons, List.map_nil, colrefs, refsOf, List.length_cons, List.length_nil]
      simp only [decide_true, if_true, Nat.zero_add]
      split
      · rfl
      · cases listItems (valueOf row c) <;> rfl
    | cons c' r =>
      have hd : decide ((c :: c' :: r).length = 1) = false := by simp
      have h1 : ∀ (a b : CVal) l, colrefs false (a :: b :: l) =
          if (a :: b :: l).any isNone then .ok [] else .ok [a :: b :: l] := fun _ _ _ => rfl
      have h2 : refsOf (c :: c' :: r) row =
          if (c :: c' :: r).any fun c => isNone (valueOf row c) then [] else [(c :: c' :: r).map (valueOf row)] := rfl
      have h3 : ((c :: c' :: r).map (valueOf row)).any isNone = (c :: c' :: r).any fun c => isNone (valueOf row c) := by
        rw [List.any_map]; rfl
      rw [hd, h2]
      rw [List.map_cons, List.map_cons] at h3 ⊢
      rw [h1, h3]
      cases ((c :: c' :: r).any fun c => isNone (valueOf row c)) <;> rfl

theorem mem_refsOf {cols : List Str} (hc : cols ≠ []) {row : RowDict} {key : List CVal} :
    key ∈ refsOf cols row ↔ Reference cols row key := by
  cases cols with
  | nil => exact absurd rfl hc
  | cons c r =>
    cases r with
    | nil =>
      simp only [refsOf]
      by_cases hn : isNone (valueOf row c) = true
      · rw [if_pos hn]
        simp only [List.not_mem_nil, false_iff]
        intro h
        have hn' := isNone_iff.1 hn
        cases h with
        | value hc hnn hl => cases hc; exact hnn hn'
        | item hc hl hi =>
          cases hc
          rcases hn' with hn' | hn' <;> rw [hn'] at hl <;> cases hl
        | composite h2 _ => simp at h2
      · rw [if_neg hn]
        cases hl : listItems (valueOf row c) with
        | some l =>
          simp only [List.mem_map]
          constructor
          · rintro ⟨i, hi, rfl⟩; exact .item rfl (listItems_iff.1 hl) hi
          · intro h
            cases h with
            | value hc hnn hl' => cases hc; exact absurd (listItems_iff.1 hl) (hl' l)
            | item hc hl' hi =>
              cases hc
              rw [listItems_iff.2 hl'] at hl
              cases hl
              exact ⟨_, hi, rfl⟩
            | composite h2 _ => simp at h2
        | none =>
          simp only [List.mem_singleton]
          constructor
          · rintro rfl
            exact .value rfl (fun h => hn (isNone_iff.2 h)) fun l h => by rw [listItems_iff.2 h] at hl; simp at hl
          · intro h
            cases h with
            | value hc _ _ => cases hc; rfl
            | item hc hl' hi => cases hc; rw [listItems_iff.2 hl'] at hl; simp at hl
            | composite h2 _ => simp at h2
    | cons c' r =>
      simp only [refsOf]
      by_cases hn : ((c :: c' :: r).any fun c => isNone (valueOf row c)) = true
      · rw [if_pos hn]
        simp only [List.not_mem_nil, false_iff]
        intro h
        cases h with
        | value hc _ _ => simp at hc
        | item hc _ _ => simp at hc
        | composite _ hnn =>
          obtain ⟨d, hd, hdn⟩ := List.any_eq_true.1 hn
          exact hnn d hd (isNone_iff.1 hdn)
      · rw [if_neg hn]
        rw [List.mem_singleton]
        constructor
        · rintro rfl
          refine .composite (by simp) fun d hd hdn => hn ?_
          exact List.any_eq_true.2 ⟨d, hd, isNone_iff.2 hdn⟩
        · intro h
          cases h with
          | value hc _ _ => simp at hc
          | item hc _ _ => simp at hc
          | composite _ _ => rfl

/-- An item of `foreign_keys()` can be checked. -/
structure KeyCheckable (read : Reader) (log : Bool) (k : FKey) : Prop where
  scNe : k.sc ≠ []
  tcNe : k.tc ≠ []
  len : k.sc.length = k.tc.length
  serr : (read k.st log).err = none
  terr : (read k.tt log).err = none
  skeys : ∀ r ∈ rowsOf (read k.st log), HasKey k.sc r
  tkeys : ∀ r ∈ rowsOf (read k.tt log), ∀ c ∈ k.tc, c ∈ Dict.keys r
  hash : ∀ r ∈ rowsOf (read k.tt log), ∀ key, Reference k.tc r key → ∀ v ∈ key, hashable v = true

theorem getKey_eq {row : RowDict} {cols : List Str} (h : ∀ c ∈ cols, c ∈ Dict.keys row) :
    getKey row cols = .ok (cols.map (valueOf row)) := by
  induction cols with
  | nil => rfl
  | cons c r ih =>
    have hc := (Dict.get_isSome_iff_mem_keys _ _).2 (h c (List.mem_cons_self ..))
    obtain ⟨v, hv⟩ := Option.isSome_iff_exists.1 hc
    unfold getKey
    rw [hv, ih fun c hc => h c (List.mem_cons_of_mem _ hc)]
    simp [valueOf, hv]

theorem childRows_eq {srows rows : List RowDict} {sc tc : List Str} (hne : tc ≠ [])
    (hk : ∀ r ∈ rows, ∀ c ∈ tc, c ∈ Dict.keys r)
    (hh : ∀ r ∈ rows, ∀ key, Reference tc r key → ∀ v ∈ key, hashable v = true) (ok : Bool) :
    childRows eq log (decide (tc.length = 1)) (keysOf sc srows) tc none rows ok =
      judge log ok true (rows.all fun r => (refsOf tc r).all (found eq srows sc)) := by
  induction rows generalizing ok with
  | nil => simp [childRows, judge]
  | cons r rs ih =>
    unfold childRows
    rw [getKey_eq (hk r (List.mem_cons_self ..))]
    simp only [colrefs_eq]
    rw [lookupRefs_eq (by
      intro k hk'
      rw [List.all_eq_true]
      exact hh r (List.mem_cons_self ..) k ((mem_refsOf hne).1 hk'))]
    have ih' := ih (fun q hq => hk q (List.mem_cons_of_mem _ hq)) fun q hq => hh q (List.mem_cons_of_mem _ hq)
    have := judge_then log ok true ((refsOf tc r).all (found eq srows sc)) true (rs.all fun r => (refsOf tc r).all (found eq srows sc))
    rw [List.all_cons]
    simp only [Bool.and_self] at this
    rw [← this]
    unfold thenJudge
    cases judge log ok true ((refsOf tc r).all (found eq srows sc)) with
    | error e => rfl
    | ok ok' => exact ih' ok'

/-- The check for one item of `foreign_keys()`. -/
def keyOk (eq : PyEq) (read : Reader) (log : Bool) (k : FKey) : Bool :=
  (rowsOf (read k.tt log)).all fun r => (refsOf k.tc r).all (found eq (rowsOf (read k.st log)) k.sc)

theorem children_eq {ks : List FKey} {st : Table} {sc : List Str} (hs : ∀ k ∈ ks, k.st = st ∧ k.sc = sc)
    (hc : ∀ k ∈ ks, KeyCheckable read log k) (ok : Bool) :
    children eq read log (decide (sc.length = 1)) (keysOf sc (rowsOf (read st log))) ks ok =
      judge log ok true (ks.all (keyOk eq read log)) := by
  induction ks generalizing ok with
  | nil => simp [children, judge]
  | cons k r ih =>
    have hk := hc k (List.mem_cons_self ..)
    obtain ⟨h1, h2⟩ := hs k (List.mem_cons_self ..)
    unfold children
    rw [if_neg hk.tcNe, hk.terr]
    have hlen : sc.length = k.tc.length := by rw [← h2, hk.len]
    rw [hlen, childRows_eq hk.tcNe hk.tkeys hk.hash]
    have ih' := ih (fun k hk => hs k (List.mem_cons_of_mem _ hk)) (fun k hk => hc k (List.mem_cons_of_mem _ hk))
    rw [hlen] at ih'
    have he : ((rowsOf (read k.tt log)).all fun r => (refsOf k.tc r).all (found eq (rowsOf (read st log)) sc)) = keyOk eq read log k := by
      unfold keyOk; rw [h1, h2]
    rw [he]
    have := judge_then log ok true (keyOk eq read log k) true (r.all (keyOk eq read log))
    rw [List.all_cons]
    simp only [Bool.and_self] at this
    rw [← this]
    unfold thenJudge
    cases judge log ok true (keyOk eq read log k) with
    | error e => rfl
    | ok ok' => exact ih' ok'

/-- `groupby` divides a list into non-empty groups with equal keys. -/
theorem groupBy_spec {α β : Type} [DecidableEq β] (f : α → β) (l : List α) :
    (groupBy f l).flatten = l ∧ ∀ grp ∈ groupBy f l, ∃ a r, grp = a :: r ∧ ∀ b ∈ grp, f b = f a := by
  induction l with
  | nil => exact ⟨rfl, by simp [groupBy]⟩
  | cons a r ih =>
    obtain ⟨ih1, ih2⟩ := ih
    unfold groupBy
    cases hg : groupBy f r with
    | nil =>
      rw [hg] at ih1
      simp only [List.flatten_nil] at ih1
      exact ⟨by rw [← ih1]; rfl, by intro grp hgrp; simp only [List.mem_singleton] at hgrp; subst hgrp; exact ⟨a, [], rfl, by simp⟩⟩
    | cons x gs =>
      rw [hg] at ih1 ih2
      cases x with
      | nil => obtain ⟨b, r', h, _⟩ := ih2 [] (List.mem_cons_self ..); simp at h
      | cons b grp =>
        simp only
        obtain ⟨b', r', h1, h2⟩ := ih2 (b :: grp) (List.mem_cons_self ..)
        cases h1
        split
        · rename_i hab
          refine ⟨by rw [← ih1]; rfl, ?_⟩
          intro gr hgr
          rcases List.mem_cons.1 hgr with rfl | hgr
          · refine ⟨a, _, rfl, ?_⟩
            intro c hc
            rcases List.mem_cons.1 hc with rfl | hc
            · rfl
            · rw [h2 c hc, hab]
          · exact ih2 gr (List.mem_cons_of_mem _ hgr)
        · refine ⟨by rw [← ih1]; rfl, ?_⟩
          intro gr hgr
          rcases List.mem_cons.1 hgr with rfl | hgr
          · exact ⟨a, [], rfl, by simp⟩
          · exact ih2 gr hgr

/-- Is the key unique in the referenced table? -/
def uniqueKey (eq : PyEq) (read : Reader) (log : Bool) (k : FKey) : Prop :=
  NoDuplicateKey eq k.sc (rowsOf (read k.st log))

theorem allSeen_eq {st : Table} {gs : List (List FKey)}
    (hg : ∀ grp ∈ gs, ∃ a r, grp = a :: r ∧ ∀ b ∈ grp, b.sc = a.sc) (hst : ∀ grp ∈ gs, ∀ k ∈ grp, k.st = st)
    (hc : ∀ grp ∈ gs, ∀ k ∈ grp, KeyCheckable read log k) (herr : (read st log).err = none) (ok : Bool) :
    ∃ d, allSeen eq strict (read st log) gs ok =
        .ok (gs.map fun grp => keysOf ((grp.head?.map FKey.sc).getD []) (rowsOf (read st log)), ok && d) ∧
      (d = true ↔ (strict = true → ∀ grp ∈ gs, ∀ k ∈ grp, uniqueKey eq read log k)) := by
  induction gs generalizing ok with
  | nil => exact ⟨true, by simp [allSeen, herr], by simp⟩
  | cons grp r ih =>
    obtain ⟨a, rest, rfl, hsame⟩ := hg grp (List.mem_cons_self ..)
    have ha := hc _ (List.mem_cons_self ..) a (List.mem_cons_self ..)
    have hast := hst _ (List.mem_cons_self ..) a (List.mem_cons_self ..)
    have hsk := ha.skeys
    rw [hast] at hsk
    obtain ⟨dup, h1, h2⟩ := seenKeys_eq (eq := eq) (pre := []) hsk false
    have h1' : seenKeys eq a.sc [] false (rowsOf (read st log)) = .ok (keysOf a.sc (rowsOf (read st log)), dup) := h1
    unfold allSeen
    rw [if_neg ha.scNe, h1']
    obtain ⟨d, hd1, hd2⟩ := ih (fun grp hgrp => hg grp (List.mem_cons_of_mem _ hgrp)) (fun grp hgrp => hst grp (List.mem_cons_of_mem _ hgrp))
      (fun grp hgrp => hc grp (List.mem_cons_of_mem _ hgrp)) (ok && !(strict && dup))
    simp only [hd1]
    refine ⟨!(strict && dup) && d, by simp [Bool.and_assoc], ?_⟩
    simp only [Bool.and_eq_true, Bool.not_eq_true', Bool.and_eq_false_iff, hd2]
    have hu : dup = false ↔ ∀ k ∈ a :: rest, uniqueKey eq read log k := by
      rw [h2]
      simp only [List.not_mem_nil, false_implies, implies_true, and_true, true_and]
      constructor
      · intro h k hk
        unfold uniqueKey
        rw [hsame k hk, hst _ (List.mem_cons_self ..) k hk]
        exact h
      · intro h
        have := h a (List.mem_cons_self ..)
        unfold uniqueKey at this
        rw [hast] at this
        exact this
    rw [hu]
    constructor
    · rintro ⟨h3, h4⟩ hs grp hgrp
      rcases List.mem_cons.1 hgrp with rfl | hgrp
      · rcases h3 with h3 | h3
        · rw [hs] at h3; simp at h3
        · exact h3
      · exact h4 hs grp hgrp
    · intro h
      refine ⟨?_, fun hs grp hgrp => h hs grp (List.mem_cons_of_mem _ hgrp)⟩
      cases hs : strict with
      | false => exact .inl rfl
      | true => exact .inr (h hs _ (List.mem_cons_self ..))

theorem keyGroups_eq {st : Table} {gs : List (List FKey)}
    (hg : ∀ grp ∈ gs, ∃ a r, grp = a :: r ∧ ∀ b ∈ grp, b.sc = a.sc) (hst : ∀ grp ∈ gs, ∀ k ∈ grp, k.st = st)
    (hc : ∀ grp ∈ gs, ∀ k ∈ grp, KeyCheckable read log k) (ok : Bool) :
    keyGroups eq read log gs (gs.map fun grp => keysOf ((grp.head?.map FKey.sc).getD []) (rowsOf (read st log))) ok =
      judge log ok true (gs.flatten.all (keyOk eq read log)) := by
  induction gs generalizing ok with
  | nil => simp [keyGroups, judge]
  | cons grp r ih =>
    obtain ⟨a, rest, rfl, hsame⟩ := hg grp (List.mem_cons_self ..)
    simp only [List.map_cons, List.head?_cons, Option.map_some, Option.getD_some]
    unfold keyGroups
    rw [children_eq (st := st) (sc := a.sc) (fun k hk => ⟨hst _ (List.mem_cons_self ..) k hk, hsame k hk⟩)
      (fun k hk => hc _ (List.mem_cons_self ..) k hk)]
    have ih' := ih (fun grp hgrp => hg grp (List.mem_cons_of_mem _ hgrp)) (fun grp hgrp => hst grp (List.mem_cons_of_mem _ hgrp))
      (fun grp hgrp => hc grp (List.mem_cons_of_mem _ hgrp))
    have := judge_then log ok true ((a :: rest).all (keyOk eq read log)) true (r.flatten.all (keyOk eq read log))
    rw [List.flatten_cons, List.all_append]
    simp only [Bool.and_self] at this
    rw [← this]
    unfold thenJudge
    cases judge log ok true ((a :: rest).all (keyOk eq read log)) with
    | error e => rfl
    | ok ok' => exact ih' ok'

theorem judge_and (d b ok : Bool) : judge log (ok && d) true b = judge log ok d b := by
  cases log <;> cases ok <;> cases d <;> cases b <;> rfl

theorem tableGroup_eq {st : Table} {grp : List FKey} (hne : grp ≠ []) (hst : ∀ k ∈ grp, k.st = st)
    (hc : ∀ k ∈ grp, KeyCheckable read log k) (ok : Bool) :
    ∃ d, tableGroup eq read log strict grp ok = judge log ok d (grp.all (keyOk eq read log)) ∧
      (d = true ↔ (strict = true → ∀ k ∈ grp, uniqueKey eq read log k)) := by
  cases grp with
  | nil => exact absurd rfl hne
  | cons k r =>
    obtain ⟨g1, g2⟩ := groupBy_spec FKey.sc (k :: r)
    have hmem : ∀ grp ∈ groupBy FKey.sc (k :: r), ∀ k' ∈ grp, k' ∈ k :: r := by
      intro grp hgrp k' hk'
      rw [← g1]
      exact List.mem_flatten.2 ⟨grp, hgrp, hk'⟩
    have hk := hst k (List.mem_cons_self ..)
    have hck := hc k (List.mem_cons_self ..)
    obtain ⟨d, hd1, hd2⟩ := allSeen_eq (eq := eq) (strict := strict) (st := st) g2 (fun grp hgrp k' hk' => hst k' (hmem grp hgrp k' hk'))
      (fun grp hgrp k' hk' => hc k' (hmem grp hgrp k' hk')) (by rw [← hk]; exact hck.serr) ok
    refine ⟨d, ?_, ?_⟩
    · unfold tableGroup
      simp only
      rw [hk, hd1]
      simp only
      rw [keyGroups_eq g2 (fun grp hgrp k' hk' => hst k' (hmem grp hgrp k' hk')) (fun grp hgrp k' hk' => hc k' (hmem grp hgrp k' hk')), g1]
      exact judge_and d _ ok
    · rw [hd2]
      constructor
      · intro h hs k' hk'
        have : k' ∈ (groupBy FKey.sc (k :: r)).flatten := by rw [g1]; exact hk'
        obtain ⟨grp, hgrp, hm⟩ := List.mem_flatten.1 this
        exact h hs grp hgrp k' hm
      · intro h hs grp hgrp k' hk'
        exact h hs k' (hmem grp hgrp k' hk')

theorem tableGroups_eq {gs : List (List FKey)} (hg : ∀ grp ∈ gs, grp ≠ [] ∧ ∃ st, ∀ k ∈ grp, k.st = st)
    (hc : ∀ grp ∈ gs, ∀ k ∈ grp, KeyCheckable read log k) (ok : Bool) :
    ∃ d, tableGroups eq read log strict gs ok = judge log ok d (gs.flatten.all (keyOk eq read log)) ∧
      (d = true ↔ (strict = true → ∀ k ∈ gs.flatten, uniqueKey eq read log k)) := by
  induction gs generalizing ok with
  | nil => exact ⟨true, by simp [tableGroups, judge], by simp⟩
  | cons grp r ih =>
    obtain ⟨hne, st, hst⟩ := hg grp (List.mem_cons_self ..)
    obtain ⟨d, hd1, hd2⟩ := tableGroup_eq (eq := eq) (strict := strict) hne hst (hc grp (List.mem_cons_self ..)) ok
    have ih' := fun ok => ih (fun grp hgrp => hg grp (List.mem_cons_of_mem _ hgrp)) (fun grp hgrp => hc grp (List.mem_cons_of_mem _ hgrp)) ok
    -- the flag does not depend on `ok`
    obtain ⟨d', hd'⟩ : ∃ d', ∀ ok, tableGroups eq read log strict r ok = judge log ok d' (r.flatten.all (keyOk eq read log)) ∧
        (d' = true ↔ (strict = true → ∀ k ∈ r.flatten, uniqueKey eq read log k)) := by
      obtain ⟨d1, _, h2⟩ := ih' ok
      refine ⟨d1, fun ok' => ?_⟩
      obtain ⟨d2, h3, h4⟩ := ih' ok'
      have : d2 = d1 := by rw [Bool.eq_iff_iff, h4, h2]
      rw [← this]
      exact ⟨h3, h4⟩
    refine ⟨d && d', ?_, ?_⟩
    · unfold tableGroups
      rw [hd1, List.flatten_cons, List.all_append]
      rw [← judge_then]
      unfold thenJudge
      cases judge log ok d (grp.all (keyOk eq read log)) with
      | error e => rfl
      | ok ok' => exact (hd' ok').1
    · rw [Bool.and_eq_true, hd2, (hd' ok).2, List.flatten_cons]
      simp only [List.mem_append]
      constructor
      · rintro ⟨h1, h2⟩ hs k (hk | hk)
        · exact h1 hs k hk
        · exact h2 hs k hk
      · intro h
        exact ⟨fun hs k hk => h hs k (.inl hk), fun hs k hk => h hs k (.inr hk)⟩

theorem keyOk_iff {k : FKey} (hc : KeyCheckable read log k) :
    keyOk eq read log k = true ↔ Satisfied eq (fun t => rowsOf (read t log)) k.st k.sc k.tt k.tc := by
  unfold keyOk Satisfied
  simp only [List.all_eq_true]
  constructor
  · intro h row hrow key hkey
    exact found_iff.1 (h row hrow key ((mem_refsOf hc.tcNe).2 hkey))
  · intro h row hrow key hkey
    exact found_iff.2 (h row hrow key ((mem_refsOf hc.tcNe).1 hkey))

theorem foreignKeys_ok (hch : ∀ t fk, IsForeignKey g t fk → Checkable read log g t fk) :
    ∃ ks, g.foreignKeys = .ok ks ∧ All2 (fun p k => fkeyOf g p.1 p.2 = .ok k) g.fkPairs ks ∧ ∀ k ∈ ks, KeyCheckable read log k := by
  have hr : ∀ p ∈ g.fkPairs, p.2.resource ≠ none := by
    intro p hp
    obtain ⟨r, u, h, _⟩ := (hch p.1 p.2 (mem_fkPairs.1 hp)).table
    rw [h]; simp
  obtain ⟨ks, h1, h2⟩ := (fkeysOf_spec (g := g) hr).2 (by
    intro p hp r hpr
    obtain ⟨r', u, h, hu, _⟩ := (hch p.1 p.2 (mem_fkPairs.1 hp)).table
    rw [hpr] at h
    cases h
    exact ⟨u, tableNamed_mem hu⟩)
  refine ⟨ks, h1, h2, ?_⟩
  intro k hk
  obtain ⟨⟨t, fk⟩, hp, hpk⟩ := all2_mem_right h2 hk
  obtain ⟨r, hr', hst, hk'⟩ := fkeyOf_ok hpk
  have hc := hch t fk (mem_fkPairs.1 hp)
  obtain ⟨r2, u, h3, h4, h5, h6⟩ := hc.table
  rw [hr'] at h3
  cases h3
  cases tableNamed_unique h4 hst
  rw [hk']
  refine ⟨?_, hc.columns.1, hc.columns.2, h5, hc.readable, h6, hc.keys, hc.hash⟩
  intro hn
  have := hc.columns.2
  simp only at hn
  rw [hn] at this
  exact hc.columns.1 (List.length_eq_zero_iff.1 this.symm)

theorem group_same_table {ks : List FKey} (hk : ∀ k ∈ ks, ∃ t fk, fkeyOf g t fk = .ok k) {grp : List FKey}
    (hgrp : ∃ a r, grp = a :: r ∧ ∀ b ∈ grp, b.st.url = a.st.url) (hsub : ∀ k ∈ grp, k ∈ ks) :
    grp ≠ [] ∧ ∃ st, ∀ k ∈ grp, k.st = st := by
  obtain ⟨a, r, rfl, hs⟩ := hgrp
  refine ⟨by simp, a.st, fun k hk' => ?_⟩
  obtain ⟨t, fk, h1⟩ := hk k (hsub k hk')
  obtain ⟨t', fk', h2⟩ := hk a (hsub a (List.mem_cons_self ..))
  obtain ⟨r1, _, h3, _⟩ := fkeyOf_ok h1
  obtain ⟨r2, _, h4, _⟩ := fkeyOf_ok h2
  have e1 := (tableNamed_mem h3).2
  have e2 := (tableNamed_mem h4).2
  have : r1 = r2 := by rw [← e1, ← e2]; exact hs k hk'
  rw [this] at h3
  exact tableNamed_unique h3 h4

/-- No two rows of the referenced table have the same key, for every foreign key. -/
def AllUnique (eq : PyEq) (rows : Table → List RowDict) (g : TableGroup) : Prop :=
  ∀ t fk, IsForeignKey g t fk → ∀ r u, fk.resource = some r → TableNamed g r u → NoDuplicateKey eq fk.refColumns (rows u)

theorem integrity_eq (hch : ∀ t fk, IsForeignKey g t fk → Checkable read log g t fk) {ks : List FKey} (hks : g.foreignKeys = .ok ks)
    (ok : Bool) :
    ∃ d b, tableGroups eq read log strict (groupBy (fun k => k.st.url) (ks.mergeSort fkeyLe)) ok = judge log ok d b ∧
      (b = true ↔ AllSatisfied eq (fun t => rowsOf (read t log)) g) ∧
      (d = true ↔ (strict = true → AllUnique eq (fun t => rowsOf (read t log)) g)) := by
  obtain ⟨ks', h1, h2, h3⟩ := foreignKeys_ok hch
  rw [hks] at h1
  cases h1
  obtain ⟨g1, g2⟩ := groupBy_spec (fun k : FKey => k.st.url) (ks.mergeSort fkeyLe)
  have hmem : ∀ k, k ∈ ks.mergeSort fkeyLe ↔ k ∈ ks := fun k => (List.mergeSort_perm ks fkeyLe).mem_iff
  have hsub : ∀ grp ∈ groupBy (fun k : FKey => k.st.url) (ks.mergeSort fkeyLe), ∀ k ∈ grp, k ∈ ks := by
    intro grp hgrp k hk
    rw [← hmem, ← g1]
    exact List.mem_flatten.2 ⟨grp, hgrp, hk⟩
  have hof : ∀ k ∈ ks, ∃ t fk, fkeyOf g t fk = .ok k := by
    intro k hk
    obtain ⟨p, _, hp⟩ := all2_mem_right h2 hk
    exact ⟨p.1, p.2, hp⟩
  obtain ⟨d, hd1, hd2⟩ := tableGroups_eq (eq := eq) (read := read) (log := log) (strict := strict)
    (gs := groupBy (fun k => k.st.url) (ks.mergeSort fkeyLe))
    (fun grp hgrp => group_same_table hof (g2 grp hgrp) (hsub grp hgrp)) (fun grp hgrp k hk => h3 k (hsub grp hgrp k hk)) ok
  rw [g1] at hd1 hd2
  refine ⟨d, _, hd1, ?_, ?_⟩
  · rw [List.all_eq_true]
    constructor
    · intro h t fk hfk r u hr hu
      obtain ⟨k, hk, hpk⟩ := all2_mem_left h2 (mem_fkPairs.2 hfk)
      obtain ⟨r', hr', hst, hk'⟩ := fkeyOf_ok hpk
      simp only at hr'
      rw [hr] at hr'
      cases hr'
      cases tableNamed_unique hu hst
      have := (keyOk_iff (h3 k hk)).1 (h k ((hmem k).2 hk))
      rw [hk'] at this
      exact this
    · intro h k hk
      have hk := (hmem k).1 hk
      obtain ⟨p, hp, hpk⟩ := all2_mem_right h2 hk
      obtain ⟨r', hr', hst, hk'⟩ := fkeyOf_ok hpk
      have := h p.1 p.2 (mem_fkPairs.1 hp) r' k.st hr' hst
      rw [keyOk_iff (h3 k hk), hk']
      exact this
  · rw [hd2]
    constructor
    · intro h hs t fk hfk r u hr hu
      obtain ⟨k, hk, hpk⟩ := all2_mem_left h2 (mem_fkPairs.2 hfk)
      obtain ⟨r', hr', hst, hk'⟩ := fkeyOf_ok hpk
      simp only at hr'
      rw [hr] at hr'
      cases hr'
      cases tableNamed_unique hu hst
      have := h hs k ((hmem k).2 hk)
      unfold uniqueKey at this
      rw [hk'] at this
      exact this
    · intro h hs k hk
      have hk := (hmem k).1 hk
      obtain ⟨p, hp, hpk⟩ := all2_mem_right h2 hk
      obtain ⟨r', hr', hst, hk'⟩ := fkeyOf_ok hpk
      have := h hs p.1 p.2 (mem_fkPairs.1 hp) r' k.st hr' hst
      unfold uniqueKey
      rw [hk']
      exact this

/-- **C40** With a log, `check_referential_integrity` returns `True` exactly if the foreign keys pass `validate_schema` and all
references of all foreign keys are found in the referenced tables. -/
theorem C40_log (hch : ∀ t fk, IsForeignKey g t fk → Checkable read true g t fk)
    (hv : g.validateSchema false = .ok () ∨ g.validateSchema false = .error .valueError) :
    ∃ b, g.checkReferentialIntegrity eq read true false = .ok b ∧
      (b = true ↔ g.validateSchema false = .ok () ∧ AllSatisfied eq (fun t => rowsOf (read t true)) g) := by
  obtain ⟨ks, hks, _, _⟩ := foreignKeys_ok hch
  unfold checkReferentialIntegrity schemaOk
  simp only [Bool.false_eq_true, if_false]
  rcases hv with hv | hv
  · rw [hv, hks]
    simp only
    obtain ⟨d, b, h1, h2, h3⟩ := integrity_eq (eq := eq) (strict := false) hch hks true
    have hd : d = true := h3.2 (by simp)
    rw [h1, hd]
    refine ⟨b, by cases b <;> rfl, by rw [h2]; simp⟩
  · rw [hv, hks]
    simp only [if_true]
    obtain ⟨d, b, h1, h2, h3⟩ := integrity_eq (eq := eq) (strict := false) hch hks false
    rw [h1]
    refine ⟨false, by cases b <;> rfl, by simp⟩

/-- **C40** Without a log, it returns `True` under the same condition, and otherwise raises `ValueError`. -/
theorem C40_nolog (hch : ∀ t fk, IsForeignKey g t fk → Checkable read false g t fk)
    (hv : g.validateSchema false = .ok () ∨ g.validateSchema false = .error .valueError) :
    (g.validateSchema false = .ok () ∧ AllSatisfied eq (fun t => rowsOf (read t false)) g →
      g.checkReferentialIntegrity eq read false false = .ok true) ∧
    (¬ (g.validateSchema false = .ok () ∧ AllSatisfied eq (fun t => rowsOf (read t false)) g) →
      g.checkReferentialIntegrity eq read false false = .error .valueError) := by
  obtain ⟨ks, hks, _, _⟩ := foreignKeys_ok hch
  unfold checkReferentialIntegrity schemaOk
  simp only [Bool.false_eq_true, if_false]
  rcases hv with hv | hv
  · rw [hv, hks]
    simp only [true_and]
    obtain ⟨d, b, h1, h2, h3⟩ := integrity_eq (eq := eq) (strict := false) hch hks true
    have hd : d = true := h3.2 (by simp)
    rw [h1, hd, ← h2]
    cases b <;> simp [judge]
  · rw [hv]
    simp

/-- A foreign key column of some row is `None`. -/
def NullInKey (read : Reader) (t : Table) (fk : ForeignKey) : Prop :=
  ∃ row ∈ rowsOf (read t false), ∃ c ∈ fk.columnReference, IsNone (valueOf row c)

theorem nullCheck_eq {t : Table} {fk : ForeignKey} (herr : (read t false).err = none) :
    (NullInKey read t fk → nullCheck (read t false) fk.columnReference = .error .valueError) ∧
    (¬ NullInKey read t fk → nullCheck (read t false) fk.columnReference = .ok ()) := by
  unfold nullCheck
  have hiff : ((rowsOf (read t false)).any fun row => fk.columnReference.any fun c => isNone ((Dict.get c row).getD (.one .none))) = true ↔
      NullInKey read t fk := by
    unfold NullInKey
    simp only [List.any_eq_true, isNone_iff, valueOf]
  rw [herr]
  exact ⟨fun h => if_pos (hiff.2 h), fun h => if_neg fun h' => h (hiff.1 h')⟩

theorem nullChecks_eq {ps : List (Table × ForeignKey)} (herr : ∀ p ∈ ps, (read p.1 false).err = none) :
    ((∃ p ∈ ps, NullInKey read p.1 p.2) → nullChecks read ps = .error .valueError) ∧
    ((¬ ∃ p ∈ ps, NullInKey read p.1 p.2) → nullChecks read ps = .ok ()) := by
  induction ps with
  | nil => exact ⟨fun ⟨p, hp, _⟩ => by simp at hp, fun _ => rfl⟩
  | cons p r ih =>
    obtain ⟨t, fk⟩ := p
    obtain ⟨h1, h2⟩ := nullCheck_eq (fk := fk) (herr (t, fk) (List.mem_cons_self ..))
    obtain ⟨ih1, ih2⟩ := ih fun p hp => herr p (List.mem_cons_of_mem _ hp)
    unfold nullChecks
    by_cases hn : NullInKey read t fk
    · rw [h1 hn]
      exact ⟨fun _ => rfl, fun h => absurd ⟨(t, fk), List.mem_cons_self .., hn⟩ h⟩
    · rw [h2 hn]
      constructor
      · rintro ⟨q, hq, hqn⟩
        rcases List.mem_cons.1 hq with rfl | hq
        · exact absurd hqn hn
        · exact ih1 ⟨q, hq, hqn⟩
      · intro h
        exact ih2 fun ⟨q, hq, hqn⟩ => h ⟨q, List.mem_cons_of_mem _ hq, hqn⟩

theorem mem_allPairs {p : Table × ForeignKey} :
    p ∈ (g.tables.flatMap fun t => t.schema.foreignKeys.map fun fk => (t, fk)) ↔ p.1 ∈ g.tables ∧ p.2 ∈ p.1.schema.foreignKeys := by
  simp only [List.mem_flatMap, List.mem_map]
  constructor
  · rintro ⟨t, ht, fk, hfk, rfl⟩; exact ⟨ht, hfk⟩
  · rintro ⟨h1, h2⟩; exact ⟨p.1, h1, p.2, h2, rfl⟩

/-- **C40**, strict mode: a null value in a foreign key column raises `ValueError`, even with a log. -/
theorem C40_strict_null (herr : ∀ t ∈ g.tables, (read t false).err = none)
    (h : ∃ t ∈ g.tables, ∃ fk ∈ t.schema.foreignKeys, NullInKey read t fk) :
    g.checkReferentialIntegrity eq read log true = .error .valueError := by
  unfold checkReferentialIntegrity
  simp only [if_true]
  obtain ⟨t, ht, fk, hfk, hn⟩ := h
  rw [(nullChecks_eq (fun p hp => herr p.1 (mem_allPairs.1 hp).1)).1 ⟨(t, fk), mem_allPairs.2 ⟨ht, hfk⟩, hn⟩]

/-- **C40**, strict mode, otherwise: the result is `True` exactly if moreover the keys are unique in the referenced tables. -/
theorem C40_strict (herr : ∀ t ∈ g.tables, (read t false).err = none)
    (hn : ¬ ∃ t ∈ g.tables, ∃ fk ∈ t.schema.foreignKeys, NullInKey read t fk)
    (hch : ∀ t fk, IsForeignKey g t fk → Checkable read true g t fk)
    (hv : g.validateSchema false = .ok () ∨ g.validateSchema false = .error .valueError) :
    ∃ b, g.checkReferentialIntegrity eq read true true = .ok b ∧
      (b = true ↔ g.validateSchema false = .ok () ∧ AllSatisfied eq (fun t => rowsOf (read t true)) g ∧
        AllUnique eq (fun t => rowsOf (read t true)) g) := by
  obtain ⟨ks, hks, _, _⟩ := foreignKeys_ok hch
  unfold checkReferentialIntegrity schemaOk
  simp only [if_true]
  rw [(nullChecks_eq (fun p hp => herr p.1 (mem_allPairs.1 hp).1)).2 (by
    rintro ⟨p, hp, hpn⟩
    exact hn ⟨p.1, (mem_allPairs.1 hp).1, p.2, (mem_allPairs.1 hp).2, hpn⟩)]
  simp only
  rcases hv with hv | hv
  · rw [hv, hks]
    simp only
    obtain ⟨d, b, h1, h2, h3⟩ := integrity_eq (eq := eq) (strict := true) hch hks true
    rw [h1]
    refine ⟨d && b, by cases d <;> cases b <;> rfl, ?_⟩
    rw [Bool.and_eq_true, h2, h3]
    simp [and_comm]
  · rw [hv, hks]
    simp only
    obtain ⟨d, b, h1, h2, h3⟩ := integrity_eq (eq := eq) (strict := true) hch hks false
    rw [h1]
    refine ⟨false, by cases b <;> rfl, by simp⟩
end

/-- Reading tables from data files: `data` are the contents of the files, by URL. -/
def fileReader (ext : Ext) (x : MExt) (data : Str → Str) : Reader := fun t log => t.iterdicts ext x true log (data t.url)

/-! ## Deviations -/

/-- **C40 does not hold** if a referenced table is missing: even with a log, `KeyError` is raised. -/
theorem C40_violated_missing_table (eq : PyEq) (read : Reader) :
    checkReferentialIntegrity eq read ⟨[keyTable "c.csv".toList (.json .null) true]⟩ true false = .error .keyError := by
  have h1 : validateSchema ⟨[keyTable "c.csv".toList (.json .null) true]⟩ false = .error .valueError := by decide +kernel
  have h2 : foreignKeys ⟨[keyTable "c.csv".toList (.json .null) true]⟩ = .error .keyError := by decide +kernel
  unfold checkReferentialIntegrity schemaOk
  rw [h1, h2]
  rfl

/-- The table `p.csv` with column `a`, which has title `b`; and a table `c.csv` with foreign key `a`, which references `b`. -/
def titleGroup : TableGroup :=
  ⟨[{ schema := { columns := [{ name := some ['a'], titles := some [(none, [['b']])], number := 1 }] }, url := "p.csv".toList },
    { schema := { columns := [{ name := some ['a'], number := 1 }],
                  foreignKeys := [⟨[['a']], some "p.csv".toList, none, [['b']]⟩] },
      url := "c.csv".toList }]⟩

/-- **C40 does not hold** if a column is referenced by its title: the schema is valid, but the check raises `KeyError`. -/
theorem C40_violated_title (ext : Ext) (x : MExt) (eq : PyEq) :
    titleGroup.validateSchema false = .ok () ∧
    titleGroup.checkReferentialIntegrity eq (fileReader ext x fun _ => "a\nx\n".toList) true false = .error .keyError := by
  have h1 : titleGroup.validateSchema false = .ok () := by decide +kernel
  refine ⟨h1, ?_⟩
  have h2 : titleGroup.foreignKeys = .ok [⟨titleGroup.tables[0], [['b']], titleGroup.tables[1], [['a']]⟩] := by decide +kernel
  have h3 : DataRows titleGroup.tables[0] "a\nx\n".toList [(1, [['a']]), (2, [['x']])] none :=
    ⟨_, rfl, by decide +kernel, by decide +kernel⟩
  unfold checkReferentialIntegrity schemaOk
  rw [h1, h2]
  have h4 : fileReader ext x (fun _ => "a\nx\n".toList) titleGroup.tables[0] true =
      iterEvents ext x titleGroup.tables[0] true true [(1, [['a']]), (2, [['x']])] none := iterdicts_eq h3
  simp only [List.mergeSort_singleton, groupBy, tableGroups, tableGroup]
  rw [h4]
  rfl

/-- A table `p.csv` with column `a`; and a table `c.csv` with list-valued foreign key `a`. -/
def listGroup : TableGroup :=
  ⟨[{ schema := { columns := [{ name := some ['a'], number := 1 }] }, url := "p.csv".toList },
    { schema := { columns := [{ name := some ['a'], props := { separator := .str [';'] }, number := 1 }],
                  foreignKeys := [⟨[['a']], some "p.csv".toList, none, [['a']]⟩] },
      url := "c.csv".toList }]⟩

/-- The data of the tables of `listGroup`. -/
def listData (cell : Str) (url : Str) : Str :=
  if url = "p.csv".toList then "a\nx\ny\n".toList else "a\n".toList ++ cell ++ "\n".toList

/-- The foreign key of `listGroup`, as given by `foreign_keys()`. -/
theorem listGroup_keys : listGroup.foreignKeys = .ok [⟨listGroup.tables[0], [['a']], listGroup.tables[1], [['a']]⟩] := by
  decide +kernel

theorem listGroup_p (ext : Ext) (x : MExt) (cell : Str) :
    fileReader ext x (listData cell) listGroup.tables[0] true =
      { rows := [(2, [(['a'], .one (.str ['x']))]), (3, [(['a'], .one (.str ['y']))])] } := by
  have h : DataRows listGroup.tables[0] "a\nx\ny\n".toList [(1, [['a']]), (2, [['x']]), (3, [['y']])] none :=
    ⟨_, rfl, by decide +kernel, by decide +kernel⟩
  exact (iterdicts_eq h).trans rfl

/-- Null items in a list are looked up, too (see `Reference.item`): for the cell `x;;y`, with `x` and `y` in the referenced
table, the check fails. -/
theorem C40_null_item (ext : Ext) (x : MExt) :
    listGroup.checkReferentialIntegrity (fun a b => decide (a = b)) (fileReader ext x (listData "x;;y".toList)) true false =
      .ok false ∧
    fileReader ext x (listData "x;;y".toList) listGroup.tables[1] true =
      { rows := [(2, [(['a'], .many [.str ['x'], .none, .str ['y']])])] } := by
  have h : DataRows listGroup.tables[1] "a\nx;;y\n".toList [(1, [['a']]), (2, ["x;;y".toList])] none :=
    ⟨_, rfl, by decide +kernel, by decide +kernel⟩
  have hc : fileReader ext x (listData "x;;y".toList) listGroup.tables[1] true =
      { rows := [(2, [(['a'], .many [.str ['x'], .none, .str ['y']])])] } := (iterdicts_eq h).trans rfl
  refine ⟨?_, hc⟩
  have h1 : listGroup.validateSchema false = .ok () := by decide +kernel
  unfold checkReferentialIntegrity schemaOk
  rw [h1, listGroup_keys]
  simp only [List.mergeSort_singleton, groupBy, tableGroups, tableGroup, listGroup_p, allSeen, keyGroups, children, hc]
  rfl

/-- Non-vacuity: list-valued references `x` and `y` which are found. -/
example (ext : Ext) (x : MExt) :
    (∀ t fk, IsForeignKey listGroup t fk → Checkable (fileReader ext x (listData "x;y".toList)) true listGroup t fk) ∧
    listGroup.validateSchema false = .ok () ∧
    AllSatisfied (fun a b => decide (a = b)) (fun t => rowsOf (fileReader ext x (listData "x;y".toList) t true)) listGroup := by
  have hp := listGroup_p ext x "x;y".toList
  have h : DataRows listGroup.tables[1] "a\nx;y\n".toList [(1, [['a']]), (2, ["x;y".toList])] none :=
    ⟨_, rfl, by decide +kernel, by decide +kernel⟩
  have hc : fileReader ext x (listData "x;y".toList) listGroup.tables[1] true =
      { rows := [(2, [(['a'], .many [.str ['x'], .str ['y']])])] } := (iterdicts_eq h).trans rfl
  have hfk : ∀ t fk, IsForeignKey listGroup t fk → t = listGroup.tables[1] ∧ fk = ⟨[['a']], some "p.csv".toList, none, [['a']]⟩ := by
    rintro t fk ⟨ht, hf, _⟩
    simp only [listGroup, List.mem_cons, List.not_mem_nil, or_false] at ht
    rcases ht with rfl | rfl
    · simp at hf
    · simp only [List.mem_singleton] at hf; exact ⟨rfl, hf⟩
  have htn : TableNamed listGroup "p.csv".toList listGroup.tables[0] := by
    refine ⟨[], [listGroup.tables[1]], rfl, rfl, ?_⟩
    intro w hw
    simp only [List.mem_singleton] at hw
    subst hw
    decide
  have href : ∀ key, Reference [['a']] [(['a'], .many [.str ['x'], .str ['y']])] key → key = [.one (.str ['x'])] ∨ key = [.one (.str ['y'])] := by
    intro key hkey
    have hm := (mem_refsOf (by simp)).2 hkey
    have : refsOf [['a']] [(['a'], .many [.str ['x'], .str ['y']])] = [[.one (.str ['x'])], [.one (.str ['y'])]] := by decide
    rw [this] at hm
    simpa using hm
  refine ⟨?_, by decide +kernel, ?_⟩
  · intro t fk hf
    obtain ⟨rfl, rfl⟩ := hfk t fk hf
    refine ⟨⟨_, _, rfl, htn, by rw [hp], ?_⟩, ⟨by simp, rfl⟩, by rw [hc], ?_, ?_⟩
    · rw [hp]
      intro row hrow k hk
      simp only [rowsOf, List.map_cons, List.map_nil, List.mem_cons, List.not_mem_nil, or_false] at hrow hk
      subst hk
      rcases hrow with rfl | rfl <;> exact ⟨_, rfl, rfl⟩
    · rw [hc]
      intro row hrow c hcm
      simp only [rowsOf, List.map_cons, List.map_nil, List.mem_cons, List.not_mem_nil, or_false] at hrow hcm
      subst hrow hcm
      decide
    · rw [hc]
      intro row hrow key hkey v hv
      simp only [rowsOf, List.map_cons, List.map_nil, List.mem_cons, List.not_mem_nil, or_false] at hrow
      subst hrow
      rcases href key hkey with rfl | rfl <;>
      · simp only [List.mem_singleton] at hv; subst hv; rfl
  · intro t fk hf r u hr hu
    obtain ⟨rfl, rfl⟩ := hfk t fk hf
    simp only [Option.some.injEq] at hr
    subst hr
    cases tableNamed_unique hu htn
    intro row hrow key hkey
    show ∃ row' ∈ rowsOf (fileReader ext x (listData "x;y".toList) listGroup.tables[0] true), _
    change row ∈ rowsOf (fileReader ext x (listData "x;y".toList) listGroup.tables[1] true) at hrow
    rw [hc] at hrow
    simp only [rowsOf, List.map_cons, List.map_nil, List.mem_cons, List.not_mem_nil, or_false] at hrow
    subst hrow
    rw [hp]
    rcases href key hkey with rfl | rfl
    · exact ⟨_, List.mem_cons_self .., .cons (by decide) .nil⟩
    · exact ⟨_, List.mem_cons_of_mem _ (List.mem_cons_self ..), .cons (by decide) .nil⟩

end Csvw.Props

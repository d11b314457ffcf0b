import Verif.Model.Metadata
import Verif.Lemmas.Common
import Verif.Props.C52_C55
/-!
# Lemmas about `asdict` and `fromvalue`: common parts
-/

namespace Csvw

/-! ## Validated common properties are valid -/

section
variable {x : MExt}

theorem validCommonMap_keys {m : List (Str × J)} : ∀ {m'}, validCommonMap x m = .ok m' →
    (∀ k ∈ Dict.keys m', k ∈ Dict.keys m) ∧ m'.length ≤ m.length ∧ (m'.length = m.length → Dict.keys m' = Dict.keys m) ∧
    ∀ k, k ≠ "@language".toList → (k ∈ Dict.keys m → k ∈ Dict.keys m') ∧ ∀ v', Dict.get k m' = some v' →
      ∃ v, Dict.get k m = some v ∧ ((k = "@id".toList ∧ v' = idValue v) ∨ (k ≠ "@id".toList ∧ validCommon x v = .ok v')) := by
  induction m with
  | nil =>
    intro m' h
    simp [validCommonMap] at h
    subst h
    simp [Dict.keys, Dict.get]
  | cons e r ih =>
    obtain ⟨k, v⟩ := e
    intro m' h
    rw [validCommonMap] at h
    have fin : ∀ (r' : List (Str × J)) (w : J), validCommonMap x r = .ok r' → m' = (k, w) :: r' →
        ((k = "@id".toList ∧ w = idValue v) ∨ (k ≠ "@id".toList ∧ validCommon x v = .ok w)) →
        (∀ k_1 ∈ Dict.keys m', k_1 ∈ Dict.keys ((k, v) :: r)) ∧ m'.length ≤ ((k, v) :: r).length ∧
        (m'.length = ((k, v) :: r).length → Dict.keys m' = Dict.keys ((k, v) :: r)) ∧
        ∀ k', k' ≠ "@language".toList → (k' ∈ Dict.keys ((k, v) :: r) → k' ∈ Dict.keys m') ∧ ∀ v', Dict.get k' m' = some v' →
          ∃ v_1, Dict.get k' ((k, v) :: r) = some v_1 ∧
            ((k' = "@id".toList ∧ v' = idValue v_1) ∨ (k' ≠ "@id".toList ∧ validCommon x v_1 = .ok v')) := by
      rintro r' w hr rfl hw
      obtain ⟨i1, i2, i3, i4⟩ := ih hr
      refine ⟨?_, by simpa using i2, ?_, ?_⟩
      · intro k' hk'
        simp only [Dict.keys, List.map_cons, List.mem_cons] at hk' ⊢
        exact hk'.imp id (i1 k')
      · intro hl
        simp only [Dict.keys, List.map_cons, List.cons.injEq, true_and]
        exact i3 (by simpa using hl)
      · intro k' hk'
        refine ⟨?_, ?_⟩
        · intro hm
          simp only [Dict.keys, List.map_cons, List.mem_cons] at hm ⊢
          exact hm.imp id (i4 k' hk').1
        · intro v' hv'
          simp only [Dict.get] at hv' ⊢
          split at hv'
          · next he =>
            subst he
            cases hv'
            exact ⟨v, by simp, hw⟩
          · next he =>
            obtain ⟨v1, h1, h2⟩ := (i4 k' hk').2 v' hv'
            exact ⟨v1, by rw [if_neg he]; exact h1, h2⟩
    by_cases hid : k = "@id".toList
    · rw [if_pos hid] at h
      cases hr : validCommonMap x r with
      | error e => simp only [hr] at h; cases h
      | ok r' =>
        simp only [hr] at h
        cases h
        exact fin r' _ hr rfl (.inl ⟨hid, rfl⟩)
    · rw [if_neg hid] at h
      split at h
      · next hlk =>
        simp only [Bool.and_eq_true, decide_eq_true_eq] at hlk
        obtain ⟨i1, i2, i3, i4⟩ := ih h
        refine ⟨?_, by simp; omega, by simp; omega, ?_⟩
        · intro k' hk'
          simp only [Dict.keys, List.map_cons, List.mem_cons]
          exact .inr (i1 k' hk')
        · intro k' hk'
          have hne : k ≠ k' := by rintro rfl; exact hk' hlk.1
          refine ⟨?_, ?_⟩
          · intro hm
            simp only [Dict.keys, List.map_cons, List.mem_cons] at hm
            exact (i4 k' hk').1 (hm.resolve_left (fun hh => hne hh.symm))
          · intro v' hv'
            obtain ⟨v1, h1, h2⟩ := (i4 k' hk').2 v' hv'
            exact ⟨v1, by rw [Dict.get, if_neg hne]; exact h1, h2⟩
      · cases hv : validCommon x v with
        | error e => simp only [hv] at h; cases h
        | ok v' =>
          cases hr : validCommonMap x r with
          | error e => simp only [hv, hr] at h; cases h
          | ok r' =>
            simp only [hv, hr] at h
            cases h
            exact fin r' _ hr rfl (.inr ⟨hid, hv⟩)

theorem idOk_idValue {v : J} (h : idOk v = true) : idOk (idValue v) = true := by
  cases v with
  | str s => exact h
  | _ => rfl

theorem onKey_mono {k : Str} {m m' : List (Str × J)} {f : J → Bool} {g : J → Bool} (h : onKey k m f = true)
    (hg : ∀ v', Dict.get k m' = some v' → ∃ v, Dict.get k m = some v ∧ (f v = true → g v' = true)) : onKey k m' g = true := by
  unfold onKey at h ⊢
  cases hk : Dict.get k m' with
  | none => rfl
  | some v' =>
    obtain ⟨v, hv, hi⟩ := hg v' hk
    rw [hv] at h
    exact hi h

theorem commonObjOk_clean {m m' : List (Str × J)} (h : commonObjOk m = true) (hm : validCommonMap x m = .ok m') : commonObjOk m' = true := by
  obtain ⟨i1, i2, i3, i4⟩ := validCommonMap_keys hm
  unfold commonObjOk at h ⊢
  simp only [Bool.and_eq_true] at h ⊢
  obtain ⟨⟨⟨⟨h1, h2⟩, h3⟩, h4⟩, h5⟩ := h
  have hv : "@value".toList ≠ "@language".toList := by decide
  refine ⟨⟨⟨⟨?_, ?_⟩, ?_⟩, ?_⟩, ?_⟩
  · rw [List.all_eq_true] at h1 ⊢
    exact fun k hk => h1 k (i1 k hk)
  · refine onKey_mono h2 fun v' hv' => ?_
    obtain ⟨v, hgv, hr⟩ := (i4 _ hv).2 v' hv'
    refine ⟨v, hgv, ?_⟩
    intro hf
    have hr : validCommon x v = .ok v' := by
      rcases hr with ⟨h, -⟩ | ⟨-, h⟩
      · exact absurd h (by decide)
      · exact h
    simp only [Bool.or_eq_true, Bool.and_eq_true, decide_eq_true_eq] at hf ⊢
    rcases hf with hf | ⟨⟨hl, ht⟩, hlit⟩
    · exact .inl (by omega)
    · by_cases hl' : m'.length ≤ 1
      · exact .inl hl'
      · have hl2 : m'.length = 2 := by omega
        refine .inr ⟨⟨hl2, ?_⟩, ?_⟩
        · rw [Dict.has_iff_mem_keys, Dict.has_iff_mem_keys, i3 (by omega), ← Dict.has_iff_mem_keys, ← Dict.has_iff_mem_keys]
          exact ht
        · cases v <;> simp [isLiteral] at hlit <;> simp [validCommon] at hr <;> subst hr <;> rfl
  · simp only [Bool.or_eq_true, Bool.not_eq_true'] at h3 ⊢
    rcases h3 with h3 | h3
    · left
      cases hh : Dict.has "@language".toList m' with
      | false => rfl
      | true =>
        exfalso
        have := i1 _ ((Dict.has_iff_mem_keys _ _).1 hh)
        rw [(Dict.has_iff_mem_keys _ _).2 this] at h3
        cases h3
    · right
      rw [Dict.has_iff_mem_keys] at h3 ⊢
      exact (i4 _ hv).1 h3
  · refine onKey_mono h4 fun v' hv' => ?_
    obtain ⟨v, hgv, hr⟩ := (i4 _ (by decide)).2 v' hv'
    refine ⟨v, hgv, fun hf => ?_⟩
    rcases hr with ⟨-, h⟩ | ⟨h, -⟩
    · rw [h]; exact idOk_idValue hf
    · exact absurd rfl h
  · refine onKey_mono h5 fun v' hv' => ?_
    obtain ⟨v, hgv, hr⟩ := (i4 _ (by decide)).2 v' hv'
    refine ⟨v, hgv, fun hf => ?_⟩
    rcases hr with ⟨h, -⟩ | ⟨-, h⟩
    · exact absurd h (by decide)
    · cases v with
      | str s => simp [validCommon] at h; subst h; exact hf
      | arr l =>
        rw [validCommon] at h
        obtain ⟨l', -, hj⟩ := Except.map_eq_ok.1 h
        subst hj; rfl
      | obj m =>
        rw [validCommon] at h
        split at h
        · obtain ⟨l', -, hj⟩ := Except.map_eq_ok.1 h
          subst hj; rfl
        · cases h
      | _ => simp [typeOk] at hf

theorem langKept_valid {v v' : J} (h : validCommon x v = .ok v') : langKept x v' = langKept x v := by
  cases v with
  | arr l =>
    rw [validCommon] at h
    obtain ⟨l', -, hj⟩ := Except.map_eq_ok.1 h
    subst hj; rfl
  | obj m =>
    rw [validCommon] at h
    split at h
    · obtain ⟨l', -, hj⟩ := Except.map_eq_ok.1 h
      subst hj; rfl
    · cases h
  | _ => simp [validCommon] at h; subst h; rfl

mutual
/-- Validation is idempotent. -/
theorem validCommon_idem (x : MExt) : ∀ (j j' : J), validCommon x j = .ok j' → validCommon x j' = .ok j'
  | .null, _, h => by simp [validCommon] at h; subst h; rfl
  | .bool _, _, h => by simp [validCommon] at h; subst h; rfl
  | .int _, _, h => by simp [validCommon] at h; subst h; rfl
  | .flt _, _, h => by simp [validCommon] at h; subst h; rfl
  | .str _, _, h => by simp [validCommon] at h; subst h; rfl
  | .arr l, j', h => by
    rw [validCommon] at h
    obtain ⟨l', hl, hj⟩ := Except.map_eq_ok.1 h
    subst hj
    rw [validCommon, validCommonList_idem x l l' hl]; rfl
  | .obj m, j', h => by
    rw [validCommon] at h
    split at h
    · next hok =>
      obtain ⟨l', hl, hj⟩ := Except.map_eq_ok.1 h
      subst hj
      rw [validCommon, if_pos (commonObjOk_clean hok hl), validCommonMap_idem x m l' hl]; rfl
    · cases h
theorem validCommonMap_idem (x : MExt) : ∀ (m m' : List (Str × J)), validCommonMap x m = .ok m' → validCommonMap x m' = .ok m'
  | [], m', h => by simp [validCommonMap] at h; subst h; rfl
  | (k, v) :: r, m', h => by
    have ihr := validCommonMap_idem x r
    have ihv := validCommon_idem x v
    rw [validCommonMap] at h
    by_cases hid : k = "@id".toList
    · rw [if_pos hid] at h
      cases hr : validCommonMap x r with
      | error e => simp only [hr] at h; cases h
      | ok r' =>
        simp only [hr] at h; cases h
        rw [validCommonMap, if_pos hid, ihr _ hr]
        cases v <;> rfl
    · rw [if_neg hid] at h
      by_cases hlk : (k = "@language".toList && !langKept x v) = true
      · rw [if_pos hlk] at h
        exact ihr _ h
      · rw [if_neg hlk] at h
        cases hv : validCommon x v with
        | error e => simp only [hv] at h; cases h
        | ok v' =>
          cases hr : validCommonMap x r with
          | error e => simp only [hv, hr] at h; cases h
          | ok r' =>
            simp only [hv, hr] at h; cases h
            have hlk' : ¬ (k = "@language".toList && !langKept x v') = true := by
              rw [langKept_valid hv]; exact hlk
            rw [validCommonMap, if_neg hid, if_neg hlk', ihv _ hv]
            simp only [ihr _ hr]
theorem validCommonList_idem (x : MExt) : ∀ (l l' : List J), validCommonList x l = .ok l' → validCommonList x l' = .ok l'
  | [], l', h => by simp [validCommonList] at h; subst h; rfl
  | v :: r, l', h => by
    rw [validCommonList] at h
    cases hv : validCommon x v with
    | error e => simp only [hv] at h; cases h
    | ok v' =>
      cases hr : validCommonList x r with
      | error e => simp only [hv, hr] at h; cases h
      | ok r' =>
        simp only [hv, hr] at h; cases h
        rw [validCommonList, validCommon_idem x v v' hv]
        simp only [validCommonList_idem x r r' hr]
end
end

/-! ## Sorting -/

theorem insertItem_perm (e : Str × J) (l : List (Str × J)) : (insertItem e l).Perm (e :: l) := by
  induction l with
  | nil => exact .refl _
  | cons f r ih =>
    unfold insertItem
    split
    · exact .refl _
    · exact (ih.cons f).trans (.swap ..)

theorem sortItems_perm (l : List (Str × J)) : (sortItems l).Perm l := by
  induction l with
  | nil => exact .refl _
  | cons e r ih => exact (insertItem_perm e _).trans (ih.cons e)

theorem get_perm {κ α : Type} [DecidableEq κ] {m m' : List (κ × α)} (h : m.Perm m') (hn : (Dict.keys m).Nodup) (k : κ) : Dict.get k m = Dict.get k m' := by
  have hn' : (Dict.keys m').Nodup := (h.map Prod.fst).nodup_iff.1 hn
  cases hk : Dict.get k m with
  | none =>
    rw [Dict.get_eq_none_iff] at hk
    symm
    rw [Dict.get_eq_none_iff]
    intro hm
    exact hk ((h.map Prod.fst).mem_iff.2 hm)
  | some v => exact (Dict.get_of_mem_nodup hn' (h.mem_iff.1 (Dict.get_mem hk))).symm

/-! ## Partitioning what `asdict` returns -/

section
variable {x : MExt} {fields : List Str} {tn : Str}

theorem loop_at {rest : List (Str × J)} (l : List (Str × J)) :
    ∀ {p : Parts}, (Dict.keys (p.atProps ++ l)).Nodup → (∀ e ∈ l, e.1 = "id".toList → validId e.2 = .ok e.2) →
    (∀ e ∈ l, e.1 = "type".toList → e.2 = .str tn) →
    partitionLoop x fields tn true (l.map (fun e => ('@' :: e.1, e.2)) ++ rest) p =
      partitionLoop x fields tn true rest { p with atProps := p.atProps ++ l } := by
  induction l with
  | nil => intro p _ _ _; simp
  | cons e r ih =>
    obtain ⟨k, v⟩ := e
    intro p hn hi ht
    rw [List.map_cons, List.cons_append, partitionLoop]
    have h1 : ['@'].isPrefixOf ('@' :: k) = true := by simp [List.isPrefixOf]
    rw [if_pos h1]
    have hid : (if ('@' :: k) = "@id".toList then validId v else .ok v) = .ok v := by
      split
      · next he => exact hi (k, v) (List.mem_cons_self ..) (by simpa using he)
      · rfl
    simp only [hid]
    have hty : ¬ (('@' :: k) = "@type".toList && decide (v ≠ .str tn)) = true := by
      simp only [Bool.and_eq_true, decide_eq_true_eq, not_and, ne_eq, Decidable.not_not]
      intro he
      exact ht (k, v) (List.mem_cons_self ..) (by simpa using he)
    simp only [if_neg hty]
    have hnk : k ∉ Dict.keys p.atProps := by
      intro hk
      simp only [Dict.keys, List.map_append, List.map_cons] at hn
      rw [List.nodup_append] at hn
      exact hn.2.2 k hk k (List.mem_cons_self ..) rfl
    have hset : Dict.set (('@' :: k).drop 1) v p.atProps = p.atProps ++ [(k, v)] := Dict.set_eq_append_of_not_mem hnk
    rw [hset, ih (p := { p with atProps := p.atProps ++ [(k, v)] }) (by simpa using hn) (fun e he => hi e (List.mem_cons_of_mem _ he))
      (fun e he => ht e (List.mem_cons_of_mem _ he))]
    simp

theorem loop_common {rest : List (Str × J)} (l : List (Str × J)) :
    ∀ {p : Parts}, (Dict.keys (p.common ++ l)).Nodup → (∀ e ∈ l, Spec.CommonProperty e.1) → (∀ e ∈ l, validCommon x e.2 = .ok e.2) →
    partitionLoop x fields tn true (l ++ rest) p = partitionLoop x fields tn true rest { p with common := p.common ++ l } := by
  induction l with
  | nil => intro p _ _ _; simp
  | cons e r ih =>
    obtain ⟨k, v⟩ := e
    intro p hn hc hv
    obtain ⟨h1, h2⟩ := hc (k, v) (List.mem_cons_self ..)
    rw [List.cons_append, partitionLoop, if_neg (by rw [Props.isAt_iff]; exact h1), if_pos (by simpa using h2)]
    simp only [hv (k, v) (List.mem_cons_self ..)]
    have hnk : k ∉ Dict.keys p.common := by
      intro hk
      simp only [Dict.keys, List.map_append, List.map_cons] at hn
      rw [List.nodup_append] at hn
      exact hn.2.2 k hk k (List.mem_cons_self ..) rfl
    rw [Dict.set_eq_append_of_not_mem hnk, ih (p := { p with common := p.common ++ [(k, v)] }) (by simpa using hn)
      (fun e he => hc e (List.mem_cons_of_mem _ he)) (fun e he => hv e (List.mem_cons_of_mem _ he))]
    simp

theorem loop_own (l : List (Str × J)) :
    ∀ {p : Parts}, (Dict.keys (p.own ++ l)).Nodup → (∀ e ∈ l, Spec.OwnProperty e.1) → (∀ e ∈ l, e.1 ∈ fields) →
    partitionLoop x fields tn true l p = .ok { p with own := p.own ++ l } := by
  induction l with
  | nil => intro p _ _ _; simp [partitionLoop]
  | cons e r ih =>
    obtain ⟨k, v⟩ := e
    intro p hn hc hf
    obtain ⟨h1, h2⟩ := hc (k, v) (List.mem_cons_self ..)
    have hfk : k ∈ fields := hf (k, v) (List.mem_cons_self ..)
    rw [partitionLoop, if_neg (by rw [Props.isAt_iff]; exact h1), if_neg (by simpa using h2), if_neg (by simpa using hfk)]
    have hnk : k ∉ Dict.keys p.own := by
      intro hk
      simp only [Dict.keys, List.map_append, List.map_cons] at hn
      rw [List.nodup_append] at hn
      exact hn.2.2 k hk k (List.mem_cons_self ..) rfl
    rw [Dict.set_eq_append_of_not_mem hnk, ih (p := { p with own := p.own ++ [(k, v)] }) (by simpa using hn)
      (fun e he => hc e (List.mem_cons_of_mem _ he)) (fun e he => hf e (List.mem_cons_of_mem _ he))]
    simp

/-- The conditions which the parts of a description satisfy: what `partition_properties` returns. -/
structure GoodParts (x : MExt) (tn : Str) (atProps common : List (Str × J)) : Prop where
  atNodup : (Dict.keys atProps).Nodup
  id : ∀ e ∈ atProps, e.1 = "id".toList → validId e.2 = .ok e.2
  type : ∀ e ∈ atProps, e.1 = "type".toList → e.2 = .str tn
  commonNodup : (Dict.keys common).Nodup
  commonKeys : ∀ e ∈ common, Spec.CommonProperty e.1
  commonVals : ∀ e ∈ common, validCommon x e.2 = .ok e.2

theorem GoodParts.nil : GoodParts x tn [] [] := by constructor <;> simp [Dict.keys]

/-- The kept items, sorted. -/
def canon (m : List (Str × J)) : List (Str × J) := (sortItems m).filter fun e => keptValue e.2

theorem get_canon {m : List (Str × J)} (hn : (Dict.keys m).Nodup) (k : Str) : Dict.get k (canon m) = (Dict.get k m).filter keptValue := by
  have hp := sortItems_perm m
  have hn' : (Dict.keys (sortItems m)).Nodup := (hp.map Prod.fst).nodup_iff.2 hn
  unfold canon
  rw [Dict.get_filter _ _ _ hn', get_perm hp hn']

theorem mem_canon {m : List (Str × J)} {e : Str × J} (h : e ∈ canon m) : e ∈ m :=
  (sortItems_perm m).mem_iff.1 (List.mem_filter.1 h).1

theorem canon_nodup {m : List (Str × J)} (hn : (Dict.keys m).Nodup) : (Dict.keys (canon m)).Nodup :=
  List.Nodup.sublist (List.Sublist.map Prod.fst List.filter_sublist) (((sortItems_perm m).map Prod.fst).nodup_iff.2 hn)

theorem GoodParts.canon {a c : List (Str × J)} (h : GoodParts x tn a c) : GoodParts x tn (canon a) (canon c) :=
  ⟨canon_nodup h.atNodup, fun e he => h.id e (mem_canon he), fun e he => h.type e (mem_canon he), canon_nodup h.commonNodup,
    fun e he => h.commonKeys e (mem_canon he), fun e he => h.commonVals e (mem_canon he)⟩

theorem not_null_at (k : Str) : ('@' :: k) ≠ "null".toList := by simp
theorem not_null_common {k : Str} (h : Spec.CommonProperty k) : k ≠ "null".toList := by
  rintro rfl
  exact absurd h.2 (by decide)

theorem filter_congr_aux {l : List (Str × J)} (h : ∀ e ∈ l, e.1 ≠ "null".toList) :
    l.filter (fun e => decide (e.1 = "null".toList) || keptValue e.2) = l.filter fun e => keptValue e.2 := by
  apply List.filter_congr
  intro e he
  simp only [h e he, decide_false, Bool.false_or]

theorem asdictOf_eq {a c own : List (Str × J)} (h : GoodParts x tn a c) :
    asdictOf a c own = (canon a).map (fun e => ('@' :: e.1, e.2)) ++
      (canon c ++ own.filter fun e => decide (e.1 = "null".toList) || keptValue e.2) := by
  unfold asdictOf
  rw [List.filter_append, List.filter_append, filter_congr_aux, filter_congr_aux]
  · unfold canon
    rw [List.filter_map]
    rfl
  · intro e he
    exact not_null_common (h.commonKeys e ((sortItems_perm c).mem_iff.1 he))
  · intro e he
    obtain ⟨e', -, rfl⟩ := List.mem_map.1 he
    exact not_null_at _

/-- Partitioning the result of `asdict`. -/
theorem partition_asdict {a c own : List (Str × J)} (h : GoodParts x tn a c) (hn : (Dict.keys own).Nodup)
    (ho : ∀ e ∈ own, Spec.OwnProperty e.1 ∧ e.1 ∈ fields ∧ e.1 ∉ partNames) :
    partitionProperties x fields tn true (.obj (asdictOf a c own)) =
      .ok (some ⟨canon c, canon a, own.filter fun e => decide (e.1 = "null".toList) || keptValue e.2, []⟩) := by
  have hc := h.canon
  rw [asdictOf_eq h]
  unfold partitionProperties
  simp only
  rw [loop_at _ (by simpa using hc.atNodup) hc.id hc.type, loop_common _ (by simpa using hc.commonNodup) hc.commonKeys hc.commonVals,
    loop_own _ (by rw [List.nil_append]; exact List.Nodup.sublist (List.Sublist.map Prod.fst List.filter_sublist) hn)
      (fun e he => (ho e (List.mem_filter.1 he).1).1) (fun e he => (ho e (List.mem_filter.1 he).1).2.1)]
  simp only [List.nil_append]
  rw [if_neg]
  intro hh
  obtain ⟨e, he, hp⟩ := List.any_eq_true.1 hh
  exact (ho e (List.mem_filter.1 he).1).2.2 (by simpa using hp)

theorem All2_mem_right {α β : Type} {R : α → β → Prop} {l : List α} {l' : List β} (h : Spec.All2 R l l') : ∀ b ∈ l', ∃ a ∈ l, R a b := by
  induction h with
  | nil => simp
  | cons h _ ih =>
    intro b hb
    rcases List.mem_cons.1 hb with rfl | hb
    · exact ⟨_, List.mem_cons_self .., h⟩
    · obtain ⟨a, ha, hr⟩ := ih b hb
      exact ⟨a, List.mem_cons_of_mem _ ha, hr⟩

theorem All2_keys {R : Str × J → Str × J → Prop} (hR : ∀ e e', R e e' → e'.1 = e.1) {l l' : List (Str × J)} (h : Spec.All2 R l l') :
    Dict.keys l' = Dict.keys l := by
  induction h with
  | nil => rfl
  | cons h _ ih => simp only [Dict.keys, List.map_cons] at *; rw [ih, hR _ _ h]

/-- What `partition_properties` returns is good. -/
theorem goodParts {d : J} (hd : Spec.DistinctKeys d) {p : Parts} (h : partitionProperties x fields tn true d = .ok (some p)) :
    GoodParts x tn p.atProps p.common ∧ (Dict.keys p.own).Nodup := by
  cases d with
  | obj m =>
    have hn : (m.map Prod.fst).Nodup := by cases hd with | obj h _ => exact h
    have hs := (Props.C52_succeeds_iff x fields tn true m hd).1 ⟨p, h⟩
    obtain ⟨q1, -, q3, -⟩ := Props.C52_partition x fields tn true m p hn h
    simp only [partitionProperties] at h
    split at h
    · cases h
    rename_i q hq
    split at h
    · cases h
    cases h
    obtain ⟨-, -, -, l, hl, hall⟩ := Props.partitionLoop_spec x fields tn true m {} p hn
      (fun k _ => ⟨by simp [Dict.keys], by simp [Dict.keys], by simp [Dict.keys]⟩) hq
    simp only [List.nil_append] at hl
    subst hl
    have hsub : ∀ (f : Str × J → Bool), (Dict.keys (m.filter f)).Nodup := fun f =>
      List.Nodup.sublist (List.Sublist.map Prod.fst List.filter_sublist) hn
    refine ⟨⟨?_, ?_, ?_, ?_, ?_, ?_⟩, ?_⟩
    · rw [q3]
      have hk : Dict.keys ((m.filter fun e => decide (Spec.AtProperty e.1)).map fun e => (e.1.drop 1, Props.atValue e.1 e.2)) =
          (Dict.keys (m.filter fun e => decide (Spec.AtProperty e.1))).map fun k => k.drop 1 := by
        simp [Dict.keys, List.map_map]
      rw [hk]
      have hnn := hsub fun e => decide (Spec.AtProperty e.1)
      have hat : ∀ k ∈ Dict.keys (m.filter fun e => decide (Spec.AtProperty e.1)), Spec.AtProperty k := by
        intro k hk
        obtain ⟨e, he, rfl⟩ := List.mem_map.1 hk
        simpa using (List.mem_filter.1 he).2
      generalize Dict.keys (m.filter fun e => decide (Spec.AtProperty e.1)) = ks at hnn hat
      clear hk
      induction ks with
      | nil => simp
      | cons k r ih =>
        rw [List.nodup_cons] at hnn
        rw [List.map_cons, List.nodup_cons]
        refine ⟨?_, ih hnn.2 fun k' hk' => hat k' (List.mem_cons_of_mem _ hk')⟩
        intro hm
        obtain ⟨k', hk', he⟩ := List.mem_map.1 hm
        obtain ⟨r1, rfl⟩ := hat k (List.mem_cons_self ..)
        obtain ⟨r2, rfl⟩ := hat k' (List.mem_cons_of_mem _ hk')
        simp only [List.drop_succ_cons, List.drop_zero] at he
        subst he
        exact hnn.1 hk'
    · rw [q3]
      intro e he hk
      obtain ⟨f, hf, rfl⟩ := List.mem_map.1 he
      obtain ⟨hfm, hfa⟩ := List.mem_filter.1 hf
      obtain ⟨r, hr⟩ : Spec.AtProperty f.1 := by simpa using hfa
      simp only [hr, List.drop_succ_cons, List.drop_zero] at hk
      have hfk : f.1 = "@id".toList := by rw [hr, hk]; rfl
      have hv : Props.atValue f.1 f.2 = idValue f.2 := by unfold Props.atValue; rw [if_pos hfk]
      simp only [hv]
      have hok := (hs.1 f.1 f.2 hfm).1 hfk
      cases hf2 : f.2 with
      | str s => rw [hf2] at hok; exact Props.validId_of hok
      | _ => rfl
    · rw [q3]
      intro e he hk
      obtain ⟨f, hf, rfl⟩ := List.mem_map.1 he
      obtain ⟨hfm, hfa⟩ := List.mem_filter.1 hf
      obtain ⟨r, hr⟩ : Spec.AtProperty f.1 := by simpa using hfa
      simp only [hr, List.drop_succ_cons, List.drop_zero] at hk
      have hfk : f.1 = "@type".toList := by rw [hr, hk]; rfl
      have hv : Props.atValue f.1 f.2 = f.2 := by unfold Props.atValue; rw [if_neg (by rw [hfk]; decide)]
      simp only [hv]
      exact (hs.1 f.1 f.2 hfm).2.1 hfk
    · rw [All2_keys (fun _ _ h => h.1) hall]; exact hsub _
    · intro e he
      obtain ⟨f, hf, hk, -⟩ := All2_mem_right hall e he
      rw [hk]
      simpa using (List.mem_filter.1 hf).2
    · intro e he
      obtain ⟨f, hf, -, hv⟩ := All2_mem_right hall e he
      exact validCommon_idem x _ _ hv
    · rw [q1]; exact hsub _
  | _ =>
    simp only [partitionProperties] at h
    split at h
    · cases h
    · cases h; exact ⟨GoodParts.nil, by simp [Dict.keys]⟩

end
end Csvw

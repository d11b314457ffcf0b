import Verif.Lemmas.Rewarn4
/-!
# The keys of written descriptions are distinct
-/

namespace Csvw
open Csvw.Spec Datatypes

/-- All values of a map have distinct keys. -/
def DistinctVals (m : List (Str × J)) : Prop := ∀ k v, (k, v) ∈ m → DistinctKeys v

section
variable {ext : Ext} {x : MExt} {other : Base → Derived → J → Res Val} {lk : EncLookup}

theorem distinct_strs (l : List Str) : DistinctKeys (.arr (l.map .str)) := by
  refine .arr fun v hv => ?_
  obtain ⟨s, -, rfl⟩ := List.mem_map.1 hv
  exact .str s

theorem distinct_ofOptStr (o : Option Str) : DistinctKeys (.ofOptStr o) := by
  cases o
  · exact .null
  · exact .str _

theorem distinct_convList (ok : J → Bool) : ∀ l : List J, (∀ v ∈ l, DistinctKeys v) → ∀ v ∈ convList ok l, DistinctKeys v
  | [], _, v, hv => by simp [convList] at hv
  | .arr l :: r, h, v, hv => by
    simp only [convList, List.mem_cons] at hv
    rcases hv with rfl | hv
    · exact .arr (distinct_convList ok l (distinct_arr (h _ (List.mem_cons_self ..))))
    · exact distinct_convList ok r (fun v hv => h v (List.mem_cons_of_mem _ hv)) v hv
  | .null :: r, h, v, hv => by
    have ih := distinct_convList ok r (fun v hv => h v (List.mem_cons_of_mem _ hv)) v
    simp only [convList] at hv
    split at hv
    · rcases List.mem_cons.1 hv with rfl | hv
      · exact h _ (List.mem_cons_self ..)
      · exact ih hv
    · exact ih hv
  | .bool _ :: r, h, v, hv => by
    have ih := distinct_convList ok r (fun v hv => h v (List.mem_cons_of_mem _ hv)) v
    simp only [convList] at hv
    split at hv
    · rcases List.mem_cons.1 hv with rfl | hv
      · exact h _ (List.mem_cons_self ..)
      · exact ih hv
    · exact ih hv
  | .int _ :: r, h, v, hv => by
    have ih := distinct_convList ok r (fun v hv => h v (List.mem_cons_of_mem _ hv)) v
    simp only [convList] at hv
    split at hv
    · rcases List.mem_cons.1 hv with rfl | hv
      · exact h _ (List.mem_cons_self ..)
      · exact ih hv
    · exact ih hv
  | .flt _ :: r, h, v, hv => by
    have ih := distinct_convList ok r (fun v hv => h v (List.mem_cons_of_mem _ hv)) v
    simp only [convList] at hv
    split at hv
    · rcases List.mem_cons.1 hv with rfl | hv
      · exact h _ (List.mem_cons_self ..)
      · exact ih hv
    · exact ih hv
  | .str _ :: r, h, v, hv => by
    have ih := distinct_convList ok r (fun v hv => h v (List.mem_cons_of_mem _ hv)) v
    simp only [convList] at hv
    split at hv
    · rcases List.mem_cons.1 hv with rfl | hv
      · exact h _ (List.mem_cons_self ..)
      · exact ih hv
    · exact ih hv
  | .obj _ :: r, h, v, hv => by
    have ih := distinct_convList ok r (fun v hv => h v (List.mem_cons_of_mem _ hv)) v
    simp only [convList] at hv
    split at hv
    · rcases List.mem_cons.1 hv with rfl | hv
      · exact h _ (List.mem_cons_self ..)
      · exact ih hv
    · exact ih hv

theorem distinct_converter {ok : J → Bool} {dflt : J} {an : Bool} {j : J} (hd : DistinctKeys dflt) (hj : DistinctKeys j) :
    DistinctKeys (converter ok dflt an j).1 := by
  unfold converter
  split
  · exact .arr (distinct_convList ok _ (distinct_arr hj))
  · split
    · exact hj
    · split
      · exact hj
      · exact hd

/-! ## Parts -/

mutual
theorem distinct_common (x : MExt) : ∀ (j j' : J), DistinctKeys j → validCommon x j = .ok j' → DistinctKeys j'
  | .null, _, hd, h => by simp [validCommon] at h; subst h; exact hd
  | .bool _, _, hd, h => by simp [validCommon] at h; subst h; exact hd
  | .int _, _, hd, h => by simp [validCommon] at h; subst h; exact hd
  | .flt _, _, hd, h => by simp [validCommon] at h; subst h; exact hd
  | .str _, _, hd, h => by simp [validCommon] at h; subst h; exact hd
  | .arr l, j', hd, h => by
    rw [validCommon] at h
    obtain ⟨l', hl, hj⟩ := Except.map_eq_ok.1 h
    subst hj
    exact .arr (distinct_commonList x l l' (distinct_arr hd) hl)
  | .obj m, j', hd, h => by
    rw [validCommon] at h
    split at h
    · obtain ⟨m', hm, hj⟩ := Except.map_eq_ok.1 h
      subst hj
      cases hd with
      | obj hn hv =>
        obtain ⟨h1, h2⟩ := distinct_commonMap x m m' hn hv hm
        exact .obj h1 h2.1
    · cases h
theorem distinct_commonMap (x : MExt) : ∀ (m m' : List (Str × J)), (m.map Prod.fst).Nodup → DistinctVals m → validCommonMap x m = .ok m' →
    (m'.map Prod.fst).Nodup ∧ DistinctVals m' ∧ ∀ k ∈ m'.map Prod.fst, k ∈ m.map Prod.fst
  | [], m', _, _, h => by simp [validCommonMap] at h; subst h; exact ⟨by simp, (by intro k v hm; cases hm), by simp⟩
  | (k, v) :: r, m', hn, hv, h => by
    rw [List.map_cons, List.nodup_cons] at hn
    have ihr := fun r' hr => distinct_commonMap x r r' hn.2 (fun k v hm => hv k v (List.mem_cons_of_mem _ hm)) hr
    have ihv := fun v' => distinct_common x v v' (hv k v (List.mem_cons_self ..))
    have cons : ∀ {r' : List (Str × J)} {w : J}, validCommonMap x r = .ok r' → DistinctKeys w → m' = (k, w) :: r' →
        (m'.map Prod.fst).Nodup ∧ DistinctVals m' ∧ ∀ k' ∈ m'.map Prod.fst, k' ∈ ((k, v) :: r).map Prod.fst := by
      intro r' w hr hw he
      subst he
      obtain ⟨i1, i2, i3⟩ := ihr _ hr
      refine ⟨?_, ?_, ?_⟩
      · rw [List.map_cons, List.nodup_cons]
        exact ⟨fun hm => hn.1 (i3 _ hm), i1⟩
      · intro k' v' hm
        rcases List.mem_cons.1 hm with he | hm
        · cases he; exact hw
        · exact i2 _ _ hm
      · intro k' hm
        rw [List.map_cons] at hm ⊢
        rcases List.mem_cons.1 hm with rfl | hm
        · exact List.mem_cons_self ..
        · exact List.mem_cons_of_mem _ (i3 _ hm)
    rw [validCommonMap] at h
    by_cases hid : k = "@id".toList
    · rw [if_pos hid] at h
      cases hr : validCommonMap x r with
      | error e => simp only [hr] at h; cases h
      | ok r' =>
        simp only [hr] at h
        refine cons hr (w := idValue v) ?_ (by cases h; rfl)
        cases v <;> first | exact .null | exact .str _
    · rw [if_neg hid] at h
      by_cases hlk : (k = "@language".toList && !langKept x v) = true
      · rw [if_pos hlk] at h
        obtain ⟨i1, i2, i3⟩ := ihr _ h
        exact ⟨i1, i2, fun k' hk' => List.mem_cons_of_mem _ (i3 k' hk')⟩
      · rw [if_neg hlk] at h
        cases hv' : validCommon x v with
        | error e => simp only [hv'] at h; cases h
        | ok v' =>
          cases hr : validCommonMap x r with
          | error e => simp only [hv', hr] at h; cases h
          | ok r' =>
            simp only [hv', hr] at h
            exact cons hr (ihv _ hv') (by cases h; rfl)
theorem distinct_commonList (x : MExt) : ∀ (l l' : List J), (∀ v ∈ l, DistinctKeys v) → validCommonList x l = .ok l' → ∀ v ∈ l', DistinctKeys v
  | [], l', _, h => by simp [validCommonList] at h; subst h; simp
  | v :: r, l', hd, h => by
    rw [validCommonList] at h
    cases hv : validCommon x v with
    | error e => simp only [hv] at h; cases h
    | ok v' =>
      cases hr : validCommonList x r with
      | error e => simp only [hv, hr] at h; cases h
      | ok r' =>
        simp only [hv, hr] at h; cases h
        intro w hw
        rcases List.mem_cons.1 hw with rfl | hw
        · exact distinct_common x v _ (hd _ (List.mem_cons_self ..)) hv
        · exact distinct_commonList x r r' (fun v hv => hd v (List.mem_cons_of_mem _ hv)) hr w hw
end

/-- The values which `partition_properties` keeps. -/
theorem parts_distinct {fields : List Str} {tn : Str} {d : J} (hd : DistinctKeys d) {p : Parts}
    (h : partitionProperties x fields tn true d = .ok (some p)) : DistinctVals p.atProps ∧ DistinctVals p.common := by
  cases d with
  | obj m =>
    cases hd with
    | obj hn hv =>
      obtain ⟨-, -, q3, -⟩ := Props.C52_partition x fields tn true m p hn h
      constructor
      · intro k v hm
        rw [q3] at hm
        obtain ⟨e, he, heq⟩ := List.mem_map.1 hm
        cases heq
        have := hv e.1 e.2 (List.mem_filter.1 he).1
        unfold Props.atValue
        split
        · cases e.2 <;> first | exact .null | exact .str _
        · exact this
      · simp only [partitionProperties] at h
        split at h
        · cases h
        rename_i q hq
        split at h
        · cases h
        cases h
        obtain ⟨-, -, -, l, hl, hall⟩ := Props.partitionLoop_spec x fields tn true m {} p hn
          (fun k _ => ⟨by simp [Dict.keys], by simp [Dict.keys], by simp [Dict.keys]⟩) hq
        simp only [List.nil_append] at hl
        subst hl
        intro k v hm
        obtain ⟨f, hf, -, hvv⟩ := All2_mem_right hall _ hm
        exact distinct_common x _ _ (hv f.1 f.2 (List.mem_filter.1 hf).1) hvv
  | _ =>
    simp only [partitionProperties] at h
    split at h
    · cases h
    · cases h
      exact ⟨fun k v hm => (by cases hm), fun k v hm => (by cases hm)⟩

/-- What `asdict` writes has distinct keys: `@`-properties, common properties and other properties do not get in each other's way. -/
theorem distinct_asdict {tn : Str} {a c own : List (Str × J)} (hg : GoodParts x tn a c) (ha : DistinctVals a) (hc : DistinctVals c)
    (hn : (Dict.keys own).Nodup) (ho : ∀ e ∈ own, OwnProperty e.1) (hv : DistinctVals own) : DistinctKeys (.obj (asdictOf a c own)) := by
  rw [asdictOf_eq hg]
  refine .obj ?_ ?_
  · rw [List.map_append, List.map_append, List.nodup_append, List.nodup_append]
    refine ⟨?_, ⟨hg.canon.commonNodup, List.Nodup.sublist (List.Sublist.map Prod.fst List.filter_sublist) hn, ?_⟩, ?_⟩
    · have := hg.canon.atNodup
      rw [List.map_map]
      have he : List.map (Prod.fst ∘ fun e : Str × J => ('@' :: e.1, e.2)) (canon a) = (Dict.keys (canon a)).map ('@' :: ·) := by
        simp [Dict.keys, Function.comp_def]
      rw [he]
      exact List.pairwise_map.2 (List.Pairwise.imp (fun hne heq => hne (List.cons.inj heq).2) this)
    · intro k hk k' hk' heq
      subst heq
      obtain ⟨e, he, rfl⟩ := List.mem_map.1 hk
      obtain ⟨e', he', hee⟩ := List.mem_map.1 hk'
      have h1 := hg.canon.commonKeys e he
      have h2 := ho e' (List.mem_filter.1 he').1
      rw [hee] at h2
      exact h2.2 h1.2
    · intro k hk k' hk' heq
      subst heq
      obtain ⟨e, he, rfl⟩ := List.mem_map.1 hk
      obtain ⟨f, hf, rfl⟩ := List.mem_map.1 he
      rcases List.mem_append.1 hk' with h | h
      · obtain ⟨e', he', hee⟩ := List.mem_map.1 h
        have := (hg.canon.commonKeys e' he').1
        rw [hee] at this
        exact this ⟨_, rfl⟩
      · obtain ⟨e', he', hee⟩ := List.mem_map.1 h
        have := (ho e' (List.mem_filter.1 he').1).1
        rw [hee] at this
        exact this ⟨_, rfl⟩
  · intro k v hm
    rcases List.mem_append.1 hm with h | h
    · obtain ⟨f, hf, he⟩ := List.mem_map.1 h
      cases he
      exact ha _ _ (mem_canon hf)
    · rcases List.mem_append.1 h with h | h
      · exact hc _ _ (mem_canon h)
      · exact hv _ _ (List.mem_filter.1 h).1

theorem distinct_attrItems {od : Bool} {l : List (String × J × J)} (h : ∀ e ∈ l, DistinctKeys e.2.1) : DistinctVals (attrItems od l) := by
  intro k v hm
  obtain ⟨f, hf, he⟩ := List.mem_map.1 hm
  cases he
  exact h f (List.mem_filter.1 hf).1

end
end Csvw

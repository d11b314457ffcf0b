import Verif.Spec.Frame
import Verif.Model.JsonLd
import Verif.Py.ListAux
import Verif.Lemmas.Datatype
import Verif.Lemmas.Common
/-!
# C66: framing
-/

namespace Csvw.Props
open Csvw.JsonLd Csvw.Spec.Frame

section
variable {data : List Obj}

theorem idOf_eq (m : Obj) : JsonLd.idOf m = id? m := by
  unfold JsonLd.idOf id?
  cases Dict.get "@id".toList m with
  | none => rfl
  | some j => cases h : j.truthy <;> simp [h, Option.filter]

theorem refOf_eq (v : J) : refOf v = target v := by
  cases v <;> simp [refOf, target, idOf_eq]

theorem refsIn_eq (m : Obj) : refsIn m = references m := by
  unfold refsIn references
  induction m with
  | nil => rfl
  | cons p r ih =>
    rw [List.flatMap_cons, List.filterMap_append, List.flatMap_cons, ih]
    congr 1
    obtain ⟨k, v⟩ := p
    cases v with
    | arr l =>
      show List.filterMap refOf l = List.filterMap target l
      congr 1
      funext v
      exact refOf_eq v
    | obj m =>
      show List.filterMap refOf [.obj m] = (target (.obj m)).toList
      rw [List.filterMap_cons, refOf_eq]
      cases target (.obj m) <;> rfl
    | _ => rfl

/-- The items with their `@id`s. -/
def idItems (data : List Obj) : List (J × Obj) := data.filterMap fun m => (id? m).map fun i => (i, m)

theorem keys_idItems (data : List Obj) : Dict.keys (idItems data) = data.filterMap id? := by
  unfold idItems Dict.keys
  rw [List.map_filterMap]
  congr 1
  funext m
  cases id? m <;> rfl

theorem itemsOf_eq (hn : (data.filterMap id?).Nodup) : itemsOf data = idItems data := by
  unfold itemsOf
  have : (data.filterMap fun item => (JsonLd.idOf item).map fun i => (i, item)) = idItems data := by
    unfold idItems
    congr 1
    funext m
    rw [idOf_eq]
  rw [this]
  exact Dict.ofPairs_of_nodup (by rw [keys_idItems]; exact hn)

theorem get_idItems (hn : (data.filterMap id?).Nodup) {i : J} {m : Obj} : Dict.get i (idItems data) = some m ↔ m ∈ data ∧ id? m = some i := by
  constructor
  · intro h
    have := Dict.get_mem h
    unfold idItems at this
    obtain ⟨m', h1, h2⟩ := List.mem_filterMap.1 this
    cases h3 : id? m' with
    | none => rw [h3] at h2; cases h2
    | some i' =>
      rw [h3] at h2
      cases h2
      exact ⟨h1, h3⟩
  · rintro ⟨h1, h2⟩
    refine Dict.get_of_mem_nodup (by rw [keys_idItems]; exact hn) ?_
    exact List.mem_filterMap.2 ⟨m, h1, by rw [h2]; rfl⟩

theorem inlined_iff (hn : (data.filterMap id?).Nodup) {i : J} : inlined data i = true ↔ Once data i ∧ ∃ m ∈ data, id? m = some i := by
  unfold inlined Once
  have : (data.flatMap refsIn) = data.flatMap references := by
    congr 1
    funext m
    exact refsIn_eq m
  rw [this, itemsOf_eq hn]
  simp only [Bool.and_eq_true, decide_eq_true_eq, Dict.has_iff_mem_keys, keys_idItems, List.mem_filterMap]

theorem count_unique {i : J} : ∀ {data : List Obj}, (data.flatMap references).count i = 1 → ∀ {m m' : Obj}, m ∈ data → m' ∈ data →
    i ∈ references m → i ∈ references m' → m = m'
  | [], _, _, _, h, _, _, _ => by cases h
  | a :: r, hc, m, m', hm, hm', hi, hi' => by
    rw [List.flatMap_cons, List.count_append] at hc
    have pos : ∀ {l : List J}, i ∈ l → 0 < l.count i := fun h => List.count_pos_iff.2 h
    have posr : ∀ {m : Obj}, m ∈ r → i ∈ references m → 0 < (r.flatMap references).count i :=
      fun h h' => pos (List.mem_flatMap.2 ⟨_, h, h'⟩)
    rcases List.mem_cons.1 hm with h | g <;> rcases List.mem_cons.1 hm' with h' | g'
    · rw [h, h']
    · subst h; have := pos hi; have := posr g' hi'; omega
    · subst h'; have := pos hi'; have := posr g hi; omega
    · refine count_unique ?_ g g' hi hi'
      have := posr g hi; omega

/-- A chain of `@id`s from an object which is kept: each of the following objects is referenced exactly once, by the one before. -/
inductive RefChain (data : List Obj) : List J → Prop where
  | root {m : Obj} {i : J} : m ∈ data → id? m = some i → ¬ Once data i → RefChain data [i]
  | step {m p : Obj} {i j : J} {L : List J} : m ∈ data → id? m = some i → Once data i → p ∈ data → id? p = some j → i ∈ references p →
      RefChain data (j :: L) → RefChain data (i :: j :: L)

theorem RefChain.split {L : List J} (h : RefChain data L) : ∀ {i : J}, i ∈ L → Once data i →
    ∃ (A B : List J) (p : Obj) (j : J), L = A ++ i :: j :: B ∧ p ∈ data ∧ id? p = some j ∧ i ∈ references p := by
  induction h with
  | root h1 h2 h3 =>
    intro i hi ho
    simp at hi; subst hi
    exact absurd ho h3
  | @step m p i j L h1 h2 h3 h4 h5 h6 _ ih =>
    intro i' hi ho
    rcases List.mem_cons.1 hi with rfl | hi
    · exact ⟨[], L, p, j, rfl, h4, h5, h6⟩
    · obtain ⟨A, B, p', j', e, r⟩ := ih hi ho
      exact ⟨i :: A, B, p', j', by rw [e]; rfl, r⟩

theorem RefChain.nodup {L : List J} (h : RefChain data L) : L.Nodup := by
  induction h with
  | root => simp
  | @step m p i j L h1 h2 h3 h4 h5 h6 hc ih =>
    refine List.nodup_cons.2 ⟨fun hi => ?_, ih⟩
    obtain ⟨A, B, p', j', e, g1, g2, g3⟩ := hc.split hi h3
    have hp : p = p' := count_unique h3 h4 g1 h6 g3
    subst hp
    have hj : j = j' := by rw [h5] at g2; exact Option.some.inj g2
    subst hj
    rw [e] at ih
    cases A with
    | nil =>
      simp only [List.nil_append, List.cons.injEq] at e
      obtain ⟨e, -⟩ := e
      subst e
      simp at ih
    | cons a A =>
      simp only [List.cons_append, List.cons.injEq] at e
      obtain ⟨e, -⟩ := e
      subst e
      simp at ih

theorem RefChain.mem {L : List J} (h : RefChain data L) : ∀ i ∈ L, i ∈ data.filterMap id? := by
  induction h with
  | root h1 h2 _ => intro i hi; simp at hi; subst hi; exact List.mem_filterMap.2 ⟨_, h1, h2⟩
  | step h1 h2 _ _ _ _ _ ih =>
    intro i hi
    rcases List.mem_cons.1 hi with rfl | hi
    · exact List.mem_filterMap.2 ⟨_, h1, h2⟩
    · exact ih i hi

theorem RefChain.length {L : List J} (h : RefChain data L) : L.length ≤ (data.filterMap id?).length :=
  List.Nodup.length_le_of_subset h.nodup fun i hi => h.mem i hi

/-- The references among the items of a value. -/
def refsOfValue : J → List J
  | .arr l => l.filterMap target
  | v => (target v).toList

theorem references_eq (m : Obj) : references m = m.flatMap fun p => refsOfValue p.2 := by
  unfold references
  rfl

theorem inlineRef_framed (hn : (data.filterMap id?).Nodup) {sub : Obj → Obj}
    (hs : ∀ i m, m ∈ data → id? m = some i → Once data i → (Dict.keys (sub m)).Nodup) {v : J}
    (hsub : ∀ i m, target v = some i → m ∈ data → id? m = some i → Once data i → Framed data m (sub m)) : FramedItem data v (inlineRef data sub v) := by
  cases v with
  | obj r =>
    unfold inlineRef
    simp only [idOf_eq]
    cases hr : id? r with
    | none => exact .same fun i m ht => by rw [show target (.obj r) = id? r from rfl, hr] at ht; cases ht
    | some i =>
      simp only
      by_cases hi : inlined data i = true
      · rw [if_pos hi]
        obtain ⟨ho, m, hm, hmi⟩ := (inlined_iff hn).1 hi
        rw [itemsOf_eq hn, (get_idItems hn).2 ⟨hm, hmi⟩]
        simp only
        refine .merged hr hm hmi ho (hsub i m hr hm hmi ho) ?_
        intro k
        show Dict.get k (Dict.update r (sub m)) = _
        rw [Dict.get_update, Dict.get_reverse_of_nodup (hs i m hm hmi ho)]
      · rw [if_neg hi]
        refine .same fun i' m ht hm hmi ho => hi ?_
        rw [show target (.obj r) = id? r from rfl, hr] at ht
        cases ht
        exact (inlined_iff hn).2 ⟨ho, m, hm, hmi⟩
  | _ => exact .same fun i m ht => by cases ht

theorem inlineList_framed (hn : (data.filterMap id?).Nodup) {sub : Obj → Obj}
    (hs : ∀ i m, m ∈ data → id? m = some i → Once data i → (Dict.keys (sub m)).Nodup) : ∀ {l : List J},
    (∀ i m, i ∈ l.filterMap target → m ∈ data → id? m = some i → Once data i → Framed data m (sub m)) → FramedList data l (l.map (inlineRef data sub))
  | [], _ => .nil
  | v :: r, hsub => .cons (inlineRef_framed hn hs fun i m ht => hsub i m (List.mem_filterMap.2 ⟨v, by simp, ht⟩))
      (inlineList_framed hn hs fun i m hi => hsub i m (by
        obtain ⟨w, hw, hwi⟩ := List.mem_filterMap.1 hi
        exact List.mem_filterMap.2 ⟨w, List.mem_cons_of_mem _ hw, hwi⟩))

theorem inlineValue_framed (hn : (data.filterMap id?).Nodup) {sub : Obj → Obj}
    (hs : ∀ i m, m ∈ data → id? m = some i → Once data i → (Dict.keys (sub m)).Nodup) {v : J}
    (hsub : ∀ i m, i ∈ refsOfValue v → m ∈ data → id? m = some i → Once data i → Framed data m (sub m)) :
    FramedValue data v (inlineValue data sub v) := by
  cases v with
  | arr l => exact .list (inlineList_framed hn hs hsub)
  | _ => exact .one (by intro l h; cases h) (inlineRef_framed hn hs fun i m ht => hsub i m (by simp [refsOfValue, ht]))

theorem keys_inline (n : Nat) (m : Obj) : Dict.keys (inline data n m) = Dict.keys m := by
  cases n with
  | zero => rfl
  | succ n => simp [JsonLd.inline, Dict.keys]

theorem inline_framed (hn : (data.filterMap id?).Nodup) (hk : ∀ m ∈ data, (Dict.keys m).Nodup) : ∀ (n : Nat) {L : List J} {i : J} {m : Obj},
    RefChain data (i :: L) → m ∈ data → id? m = some i → (data.filterMap id?).length < n + (L.length + 1) → Framed data m (inline data n m)
  | 0, L, i, m, hc, _, _, hl => by
    have := hc.length
    simp only [List.length_cons] at this
    omega
  | n + 1, L, i, m, hc, hm, hi, hl => by
    have key : ∀ m' : Obj, (∀ p ∈ m', p ∈ m) → Framed data m' (m'.map fun p => (p.1, inlineValue data (inline data n) p.2)) := by
      intro m' hm'
      induction m' with
      | nil => exact .nil
      | cons p r ih =>
        obtain ⟨k, v⟩ := p
        refine .cons (inlineValue_framed hn ?_ ?_) (ih fun q hq => hm' q (by simp [hq]))
        · intro i' m1 hm1 _ _
          rw [keys_inline]
          exact hk m1 hm1
        · intro j m1 hj hm1 hmi ho
          refine inline_framed hn hk n (.step hm1 hmi ho hm hi ?_ hc) hm1 hmi (by simp only [List.length_cons]; omega)
          rw [references_eq]
          exact List.mem_flatMap.2 ⟨(k, v), hm' _ (by simp), hj⟩
    exact key m fun p hp => hp

theorem frame_eq (hn : (data.filterMap id?).Nodup) :
    frame data = (data.filter fun m => (id? m).any fun i => !inlined data i).map fun m => inline data (data.filterMap id?).length m := by
  unfold frame
  rw [itemsOf_eq hn]
  have hl : (idItems data).length = (data.filterMap id?).length := by rw [← keys_idItems]; simp [Dict.keys]
  rw [hl]
  generalize (data.filterMap id?).length = N
  have : ∀ l : List Obj, ((idItems l).filter fun p => !inlined data p.1).map (fun p => inline data N p.2) =
      (l.filter fun m => (id? m).any fun i => !inlined data i).map fun m => inline data N m := by
    intro l
    induction l with
    | nil => rfl
    | cons m r ih =>
      unfold idItems at ih ⊢
      rw [List.filterMap_cons, List.filter_cons]
      cases h : id? m with
      | none => simp [ih]
      | some i =>
        cases h2 : inlined data i <;> simp [h2, ih]
  exact this data

/-- **C66** Framing keeps the objects which are not referenced exactly once, in order, where each reference to an object which is referenced
exactly once is merged with this object, at all depths. -/
theorem C66_frame (hn : (data.filterMap id?).Nodup) (hk : ∀ m ∈ data, (Dict.keys m).Nodup) (kept : Obj → Bool)
    (hkept : ∀ m, kept m = true ↔ ∃ i, id? m = some i ∧ ¬ Once data i) :
    ∃ f : Obj → Obj, frame data = (data.filter kept).map f ∧ ∀ m ∈ data, kept m = true → Framed data m (f m) := by
  refine ⟨fun m => inline data (data.filterMap id?).length m, ?_, ?_⟩
  · rw [frame_eq hn]
    congr 1
    refine List.filter_congr fun m hm => ?_
    rw [Bool.eq_iff_iff, hkept]
    cases hi : id? m with
    | none => simp
    | some i =>
      have := inlined_iff hn (i := i)
      simp only [Option.any_some, Bool.not_eq_true', Option.some.injEq, exists_eq_left']
      constructor
      · intro h ho
        rw [this.2 ⟨ho, m, hm, hi⟩] at h
        cases h
      · intro h
        cases h2 : inlined data i with
        | false => rfl
        | true => exact absurd (this.1 h2).1 h
  · intro m hm hkm
    obtain ⟨i, hi, ho⟩ := (hkept m).1 hkm
    exact inline_framed hn hk _ (.root hm hi ho) hm hi (by simp)

/-! ## Nothing is lost, unless there are cycles -/

/-- The references which are replaced don't form cycles: the objects can be ranked. -/
def AcyclicRefs (data : List Obj) : Prop :=
  ∃ rank : J → Nat, ∀ p ∈ data, ∀ i j, id? p = some i → j ∈ references p → Once data j → rank i < rank j

theorem get_mem_map {n : Nat} {m : Obj} {k : Str} {v : J} (h : (k, v) ∈ m) : (k, inlineValue data (inline data n) v) ∈ inline data (n + 1) m :=
  List.mem_map.2 ⟨(k, v), h, rfl⟩

theorem chain_within (hn : (data.filterMap id?).Nodup) (hk : ∀ m ∈ data, (Dict.keys m).Nodup) {L : List J} (hc : RefChain data L) :
    ∀ {i : J} {L' : List J} {m : Obj}, L = i :: L' → m ∈ data → id? m = some i →
    ∃ n o, n + L'.length = (data.filterMap id?).length ∧ o ∈ frame data ∧ ∃ r, Within r o ∧ ∀ k v, Dict.get k (inline data n m) = some v → Dict.get k r = some v := by
  induction hc with
  | @root m0 i0 h1 h2 h3 =>
    intro i L' m hL hm hi
    injection hL with hLi hL'
    subst hL' hLi
    have hmm : m = m0 := by
      have g1 := (get_idItems hn).2 ⟨h1, h2⟩
      have g2 := (get_idItems hn).2 ⟨hm, hi⟩
      rw [g1] at g2; exact (Option.some.inj g2).symm
    subst hmm
    refine ⟨(data.filterMap id?).length, inline data (data.filterMap id?).length m, rfl, ?_, _, .here, fun k v h => h⟩
    rw [frame_eq hn]
    refine List.mem_map.2 ⟨m, List.mem_filter.2 ⟨hm, ?_⟩, rfl⟩
    rw [hi]
    simp only [Option.any_some, Bool.not_eq_true']
    cases h4 : inlined data i0 with
    | false => rfl
    | true => exact absurd ((inlined_iff hn).1 h4).1 h3
  | @step m0 p i0 j L0 h1 h2 h3 h4 h5 h6 hc' ih =>
    intro i L' m hL hm hi
    injection hL with hLi hL'
    subst hL' hLi
    have hmm : m = m0 := by
      have g1 := (get_idItems hn).2 ⟨h1, h2⟩
      have g2 := (get_idItems hn).2 ⟨hm, hi⟩
      rw [g1] at g2; exact (Option.some.inj g2).symm
    subst hmm
    obtain ⟨n, o, hlen, ho, r, hw, hr⟩ := ih rfl h4 h5
    have hcl := (RefChain.step h1 h2 h3 h4 h5 h6 hc').length
    simp only [List.length_cons] at hcl
    cases n with
    | zero => omega
    | succ n =>
      refine ⟨n, o, by simp only [List.length_cons]; omega, ho, ?_⟩
      rw [references_eq] at h6
      obtain ⟨⟨k, v⟩, hkv, hiv⟩ := List.mem_flatMap.1 h6
      have hkn : (Dict.keys (inline data (n + 1) p)).Nodup := by rw [keys_inline]; exact hk p h4
      have hin := hr k _ (Dict.get_of_mem_nodup hkn (get_mem_map hkv))
      have hmem := Dict.get_mem hin
      have hone : ∀ w, target w = some i0 → ∃ s, inlineRef data (inline data n) w = .obj s ∧ ∀ k v, Dict.get k (inline data n m) = some v → Dict.get k s = some v := by
        intro w hwi
        cases w with
        | obj rr =>
          have hrr : id? rr = some i0 := hwi
          unfold inlineRef
          simp only [idOf_eq, hrr]
          rw [if_pos ((inlined_iff hn).2 ⟨h3, m, hm, hi⟩), itemsOf_eq hn, (get_idItems hn).2 ⟨hm, hi⟩]
          refine ⟨_, rfl, ?_⟩
          intro k v hkv
          show Dict.get k (Dict.update rr (inline data n m)) = _
          rw [Dict.get_update, Dict.get_reverse_of_nodup (by rw [keys_inline]; exact hk m hm), hkv]
          rfl
        | _ => cases hwi
      have trans : ∀ {a b c : Obj}, Within a b → Within b c → Within a c := by
        intro a b c hab hbc
        induction hbc with
        | here => exact hab
        | value h _ ih => exact .value h ih
        | item h h' _ ih => exact .item h h' ih
      cases v with
      | arr l =>
        obtain ⟨w, hwl, hwi⟩ := List.mem_filterMap.1 hiv
        obtain ⟨s, hs1, hs2⟩ := hone w hwi
        refine ⟨s, trans (.item hmem (l := l.map (inlineRef data (inline data n))) ?_ .here) hw, hs2⟩
        rw [← hs1]
        exact List.mem_map.2 ⟨w, hwl, rfl⟩
      | obj rr =>
        have hwi : target (.obj rr) = some i0 := by
          simp only [refsOfValue, Option.mem_toList] at hiv
          exact hiv
        obtain ⟨s, hs1, hs2⟩ := hone _ hwi
        refine ⟨s, trans (.value (k := k) ?_ .here) hw, hs2⟩
        rw [← hs1]
        exact hmem
      | _ => simp [refsOfValue, target] at hiv

theorem chain_exists (hd : AcyclicRefs data) {m : Obj} {i : J} (hm : m ∈ data) (hi : id? m = some i) (hall : ∀ p ∈ data, (id? p).isSome) :
    ∃ L, RefChain data (i :: L) := by
  obtain ⟨rank, hr⟩ := hd
  generalize hN : rank i = N
  induction N using Nat.strongRecOn generalizing m i with
  | _ N ih =>
    by_cases ho : Once data i
    · have : i ∈ data.flatMap references := List.count_pos_iff.1 (by unfold Once at ho; omega)
      obtain ⟨p, hp, hip⟩ := List.mem_flatMap.1 this
      obtain ⟨j, hj⟩ := Option.isSome_iff_exists.1 (hall p hp)
      obtain ⟨L, hL⟩ := ih (rank j) (by rw [← hN]; exact hr p hp j i hj hip ho) hp hj rfl
      exact ⟨j :: L, .step hm hi ho hp hj hip hL⟩
    · exact ⟨[], .root hm hi ho⟩

/-- If the references to objects which are referenced exactly once don't form cycles, all objects of the graph are found in the result, at some
depth, with all their properties. -/
theorem C66_no_loss (hn : (data.filterMap id?).Nodup) (hk : ∀ m ∈ data, (Dict.keys m).Nodup) (hall : ∀ m ∈ data, (id? m).isSome)
    (hd : AcyclicRefs data) {m : Obj} (hm : m ∈ data) :
    ∃ o ∈ frame data, ∃ r m', Within r o ∧ Framed data m m' ∧ ∀ k v, Dict.get k m' = some v → Dict.get k r = some v := by
  obtain ⟨i, hi⟩ := Option.isSome_iff_exists.1 (hall m hm)
  obtain ⟨L, hL⟩ := chain_exists hd hm hi hall
  obtain ⟨n, o, hlen, ho, r, hw, hr⟩ := chain_within hn hk hL rfl hm hi
  exact ⟨o, ho, r, _, hw, inline_framed hn hk n hL hm hi (by omega), hr⟩

end

/-! ## Defects and examples -/

/-- An object with a property `p` whose value is a reference, as in the output of `rdflib`. -/
def refObj (i : String) (j : String) : Obj :=
  [("@id".toList, .str i.toList), (['p'], .arr [.obj [("@id".toList, .str j.toList)]])]

/-- An object with a literal. -/
def litObj (i : String) : Obj := [("@id".toList, .str i.toList), (['q'], .arr [.obj [("@value".toList, .str ['x'])]])]

/-- **Defect**: objects which refer to themselves, or to each other, and to which nothing else refers, vanish. -/
theorem C66_cycle_violated : frame [refObj "a" "a"] = [] ∧ frame [refObj "a" "b", refObj "b" "a", litObj "c"] = [litObj "c"] := by
  decide +kernel

/-- Non-vacuity: `a` refers to `b`, and `b` to `c`. -/
example : frame [litObj "c", refObj "b" "c", refObj "a" "b"] =
    [[("@id".toList, .str ['a']), (['p'], .arr [.obj [("@id".toList, .str ['b']), (['p'], .arr [.obj (litObj "c")])]])]] ∧
    ([litObj "c", refObj "b" "c", refObj "a" "b"].filterMap id?).Nodup ∧ (∀ m ∈ [litObj "c", refObj "b" "c", refObj "a" "b"], (Dict.keys m).Nodup) := by
  decide +kernel

example : AcyclicRefs [litObj "c", refObj "b" "c", refObj "a" "b"] := by
  refine ⟨fun j => if j = .str ['a'] then 0 else if j = .str ['b'] then 1 else 2, ?_⟩
  have : ∀ p ∈ [litObj "c", refObj "b" "c", refObj "a" "b"], ∀ i ∈ (id? p).toList, ∀ j ∈ references p,
      (if i = .str ['a'] then 0 else if i = .str ['b'] then 1 else 2 : Nat) < if j = .str ['a'] then 0 else if j = .str ['b'] then 1 else 2 := by
    decide +kernel
  intro p hp i j hi hj _
  exact this p hp i (by rw [hi]; simp) j hj

end Csvw.Props

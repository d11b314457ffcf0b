import Verif.Lemmas.Distinct2
import Verif.Props.C90
/-!
# C92: what is written is unambiguous and complete

A description is written as an object in which the `@`-properties, the common properties and the attributes are put one after the other (in
`asdict`, as items of one `OrderedDict`). No property gets in the way of another one.
-/

namespace Csvw.Props
open Csvw Spec

section
variable {ext : Ext} {x : MExt} {other : Base → Derived → J → Res Val} {lk : EncLookup}

/-- **C92** A group of tables, read from JSON with distinct keys, is written as JSON with distinct keys: nowhere in it, the same property occurs
twice. -/
theorem C92_group {d : J} (hd : DistinctKeys d) {g : GroupD} (h : GroupD.fromvalue ext x other lk d = .ok g) {od : Bool} {j : J}
    (hj : g.asdict ext od = .ok j) : DistinctKeys j := group_distinct hd h hj

/-- **C92** … a table. -/
theorem C92_table {d : J} (hd : DistinctKeys d) {t : TableD} (h : TableD.fromvalue ext x other lk d = .ok t) {od : Bool} {j : J}
    (hj : t.asdict ext od = .ok j) : DistinctKeys j := table_distinct hd h hj

/-- **C92** … a schema. -/
theorem C92_schema {d : J} (hd : DistinctKeys d) {s : Schema} (h : Schema.fromvalue ext x other d = .ok s) {od : Bool} {j : J}
    (hj : s.asdict ext od = .ok j) : DistinctKeys j := schema_distinct hd h hj

/-- **C92** … a column. -/
theorem C92_column {d : J} (hd : DistinctKeys d) {c : Column} (h : Column.fromvalue ext x other d = .ok c) {od : Bool} {j : J}
    (hj : c.asdict ext od = .ok j) : DistinctKeys j := column_distinct (n := c.number) hd h hj

/-- **C92** … a datatype. -/
theorem C92_datatype {d : J} (hd : DistinctKeys d) {dt : Datatype} (h : Datatype.fromvalue ext x other d = .ok dt) {j : J}
    (hj : dt.asdict ext = .ok j) : DistinctKeys j := datatype_distinct hd h hj

/-! ## Nothing is lost, nothing is invented -/

/-- The keys are in the order of their characters. -/
def SortedKeys (m : List (Str × J)) : Prop := m.Pairwise fun e f => ¬ f.1 < e.1

theorem keyLe_iff (a b : Str) : TableGroup.strLe a b = true ↔ ¬ b < a := by
  induction a generalizing b with
  | nil => cases b <;> simp [TableGroup.strLe]
  | cons c a ih =>
    cases b with
    | nil => simp [TableGroup.strLe]
    | cons d b =>
      rw [TableGroup.strLe, List.cons_lt_cons_iff]
      by_cases h : c = d
      · subst h
        simp [ih]
      · rw [if_neg h, decide_eq_true_eq, not_or]
        constructor
        · intro hlt
          exact ⟨fun h2 => absurd (show d.toNat < c.toNat from h2) (by omega), fun h2 => h h2.1.symm⟩
        · intro h2
          have h3 : ¬ d.toNat < c.toNat := h2.1
          have h4 : c.toNat ≠ d.toNat := fun e => h (Char.toNat_inj.1 e)
          omega

theorem insertItem_sorted (e : Str × J) {l : List (Str × J)} (h : SortedKeys l) : SortedKeys (insertItem e l) := by
  have trans : ∀ {a b c : Str}, ¬ b < a → ¬ c < b → ¬ c < a := fun {a b c} h1 h2 h3 => by
    rw [List.not_lt] at h1 h2
    exact absurd h3 (List.not_lt.2 (List.le_trans h1 h2))
  induction l with
  | nil => exact List.pairwise_singleton _ _
  | cons f r ih =>
    unfold insertItem
    obtain ⟨h1, h2⟩ := List.pairwise_cons.1 h
    split
    · next h3 =>
      have h3' := (keyLe_iff _ _).1 h3
      refine List.pairwise_cons.2 ⟨fun g hg => ?_, h⟩
      rcases List.mem_cons.1 hg with rfl | hg
      · exact h3'
      · exact trans h3' (h1 g hg)
    · next h3 =>
      have h3' : f.1 < e.1 := Classical.byContradiction fun hc => h3 ((keyLe_iff _ _).2 hc)
      refine List.pairwise_cons.2 ⟨fun g hg => ?_, ih h2⟩
      rcases List.mem_cons.1 ((insertItem_perm e r).mem_iff.1 hg) with rfl | hg
      · exact List.not_lt.2 (List.le_of_lt h3')
      · exact h1 g hg

theorem sortItems_sorted (l : List (Str × J)) : SortedKeys (sortItems l) := by
  induction l with
  | nil => exact List.Pairwise.nil
  | cons e r ih => exact insertItem_sorted e ih

theorem canon_sorted (l : List (Str × J)) : SortedKeys (canon l) := (sortItems_sorted l).filter _

/-- The document `m'` has the `@`-properties and the common properties of `m`, and no others. -/
structure PropertiesKept (tagOk : Str → Prop) (m m' : List (Str × J)) : Prop where
  /-- `@`-properties are kept as they are (`@id` and `@context` are changed, see C52 and C68). -/
  at_ : ∀ k v, (k, v) ∈ m → AtProperty k → k ≠ "@id".toList → k ≠ "@context".toList → v ≠ .arr [] → v ≠ .obj [] → (k, v) ∈ m'
  /-- The identifier. -/
  id : ∀ s, ("@id".toList, .str s) ∈ m → ("@id".toList, .str s) ∈ m'
  /-- Common properties are kept with the value which validation leaves. -/
  common : ∀ k v, (k, v) ∈ m → CommonProperty k → ∃ v', Cleaned tagOk v v' ∧ (v' ≠ .arr [] → v' ≠ .obj [] → (k, v') ∈ m')
  /-- No others are added. -/
  back : ∀ k v', (k, v') ∈ m' → ¬ OwnProperty k → ∃ v, (k, v) ∈ m
  /-- The `@`-properties come first, then the common properties, each in the order of their names; then the attributes. -/
  order : ∃ a c o, m' = a ++ (c ++ o) ∧ (∀ e ∈ a, AtProperty e.1) ∧ (∀ e ∈ c, CommonProperty e.1) ∧ (∀ e ∈ o, OwnProperty e.1) ∧
    SortedKeys a ∧ SortedKeys c

theorem all2_left {α β : Type} {R : α → β → Prop} {l : List α} {l' : List β} (h : All2 R l l') : ∀ a ∈ l, ∃ b ∈ l', R a b := by
  induction h with
  | nil => simp
  | cons h _ ih =>
    intro a ha
    rcases List.mem_cons.1 ha with rfl | ha
    · exact ⟨_, List.mem_cons_self .., h⟩
    · obtain ⟨b, hb, hr⟩ := ih a ha
      exact ⟨b, List.mem_cons_of_mem _ hb, hr⟩

theorem mem_canon_iff {m : List (Str × J)} {e : Str × J} : e ∈ canon m ↔ e ∈ m ∧ keptValue e.2 = true := by
  unfold canon
  rw [List.mem_filter, (sortItems_perm m).mem_iff]

theorem kept_asdict {fields : List Str} {tn : Str} {m : List (Str × J)} (hd : DistinctKeys (.obj m)) {p : Parts}
    (hp : partitionProperties x fields tn true (.obj m) = .ok (some p)) {a' own : List (Str × J)}
    (ha : a' = p.atProps ∨ postInit x p.atProps = .ok a') (ho : ∀ e ∈ own, OwnProperty e.1) :
    PropertiesKept (fun s => x.tagOk s = true) m (asdictOf a' p.common own) := by
  have hg0 := (goodParts hd hp).1
  have hg : GoodParts x tn a' p.common := by
    rcases ha with rfl | ha
    · exact hg0
    · exact (postInit_good ha hg0).1
  have same : ∀ k v, k ≠ "context".toList → ((k, v) ∈ a' ↔ (k, v) ∈ p.atProps) := by
    intro k v hk
    rcases ha with rfl | ha
    · exact Iff.rfl
    · unfold postInit at ha
      split at ha
      · cases ha
      split at ha
      · obtain ⟨l', -, rfl⟩ := Except.map_eq_ok.1 ha
        constructor
        · intro hm
          have h := Dict.get_of_mem_nodup (Dict.nodup_keys_set hg0.atNodup) hm
          rw [Dict.get_set_ne (Ne.symm hk)] at h
          exact Dict.get_mem h
        · intro hm
          have h := Dict.get_of_mem_nodup hg0.atNodup hm
          exact Dict.get_mem (by rw [Dict.get_set_ne (Ne.symm hk)]; exact h)
      · cases ha; exact Iff.rfl
  have keys : ∀ k, k ∈ Dict.keys a' → k ∈ Dict.keys p.atProps := by
    intro k hk
    rcases ha with rfl | ha
    · exact hk
    · unfold postInit at ha
      split at ha
      · cases ha
      split at ha
      · next l hl =>
        obtain ⟨l', -, rfl⟩ := Except.map_eq_ok.1 ha
        obtain ⟨e, he, rfl⟩ := List.mem_map.1 hk
        have h := Dict.get_of_mem_nodup (Dict.nodup_keys_set hg0.atNodup) (show (e.1, e.2) ∈ _ from he)
        by_cases hc : e.1 = "context".toList
        · rw [hc]; exact List.mem_map_of_mem (f := Prod.fst) (Dict.get_mem hl)
        · rw [Dict.get_set_ne (Ne.symm hc)] at h
          exact List.mem_map_of_mem (f := Prod.fst) (Dict.get_mem h)
      · cases ha; exact hk
  obtain ⟨-, -, q3, q4⟩ := C52_partition x fields tn true m p (by cases hd with | obj h _ => exact h) hp
  rw [asdictOf_eq hg]
  have at_mem : ∀ k v, (k, v) ∈ a' → v ≠ .arr [] → v ≠ .obj [] →
      ('@' :: k, v) ∈ (canon a').map (fun e => ('@' :: e.1, e.2)) ++ (canon p.common ++ own.filter fun e => decide (e.1 = "null".toList) || keptValue e.2) := by
    intro k v hm h1 h2
    refine List.mem_append_left _ (List.mem_map.2 ⟨(k, v), mem_canon_iff.2 ⟨hm, ?_⟩, rfl⟩)
    simp [keptValue, h1, h2]
  have order : ∃ a c o, (canon a').map (fun e => ('@' :: e.1, e.2)) ++ (canon p.common ++ own.filter fun e => decide (e.1 = "null".toList) || keptValue e.2) =
      a ++ (c ++ o) ∧ (∀ e ∈ a, AtProperty e.1) ∧ (∀ e ∈ c, CommonProperty e.1) ∧ (∀ e ∈ o, OwnProperty e.1) ∧ SortedKeys a ∧ SortedKeys c := by
    refine ⟨_, _, _, rfl, ?_, fun e he => hg.commonKeys e (mem_canon he), fun e he => ho e (List.mem_filter.1 he).1, ?_, canon_sorted _⟩
    · intro e he
      obtain ⟨e', -, rfl⟩ := List.mem_map.1 he
      exact ⟨e'.1, rfl⟩
    · refine List.pairwise_map.2 ((canon_sorted a').imp fun {e f} h => ?_)
      show ¬ ('@' :: f.1) < ('@' :: e.1)
      rw [List.cons_lt_cons_iff, not_or]
      exact ⟨Char.lt_irrefl _, fun h2 => h h2.2⟩
  refine ⟨?_, ?_, ?_, ?_, order⟩
  · rintro k v hm ⟨r, rfl⟩ hid hctx h1 h2
    refine at_mem r v ((same r v ?_).2 ?_) h1 h2
    · rintro rfl; exact hctx rfl
    · rw [q3]
      refine List.mem_map.2 ⟨('@' :: r, v), List.mem_filter.2 ⟨hm, decide_eq_true (⟨r, rfl⟩ : AtProperty ('@' :: r))⟩, ?_⟩
      unfold atValue
      rw [if_neg hid]
      rfl
  · intro s hm
    refine at_mem "id".toList (.str s) ((same _ _ (by decide)).2 ?_) (by rintro ⟨⟩) (by rintro ⟨⟩)
    rw [q3]
    exact List.mem_map.2 ⟨("@id".toList, .str s), List.mem_filter.2 ⟨hm, decide_eq_true (⟨_, rfl⟩ : AtProperty "@id".toList)⟩, rfl⟩
  · intro k v hm hk
    obtain ⟨e, he, h1, h2⟩ := all2_left q4 (k, v) (List.mem_filter.2 ⟨hm, by simpa using hk⟩)
    refine ⟨e.2, h2, fun h3 h4 => List.mem_append_right _ (List.mem_append_left _ (mem_canon_iff.2 ⟨?_, by simp [keptValue, h3, h4]⟩))⟩
    obtain ⟨k', v'⟩ := e
    cases h1
    exact he
  · intro k v' hm hk
    rcases List.mem_append.1 hm with hm | hm
    · obtain ⟨e, he, heq⟩ := List.mem_map.1 hm
      cases heq
      have := keys e.1 (List.mem_map_of_mem (f := Prod.fst) (mem_canon he))
      rw [q3] at this
      obtain ⟨e', he', hee⟩ := List.mem_map.1 this
      obtain ⟨f, hf, rfl⟩ := List.mem_map.1 he'
      obtain ⟨hfm, hfa⟩ := List.mem_filter.1 hf
      obtain ⟨r, hr⟩ : AtProperty f.1 := by simpa using hfa
      simp only [hr, List.drop_succ_cons, List.drop_zero] at hee
      refine ⟨f.2, ?_⟩
      rw [← hee, ← hr]
      exact hfm
    · rcases List.mem_append.1 hm with hm | hm
      · obtain ⟨f, hf, h1, -⟩ := All2_mem_right q4 _ (mem_canon hm)
        refine ⟨f.2, ?_⟩
        simp only at h1
        rw [h1]
        exact (List.mem_filter.1 hf).1
      · exact absurd (ho _ (List.mem_filter.1 hm).1) hk

theorem ownProperties_descr {od : Bool} {D : Descr} {l : List (Str × J)} (h : D.items ext od = .ok l) : ∀ e ∈ l, OwnProperty e.1 := by
  unfold Descr.items at h
  obtain ⟨_, -, h⟩ := Datatype.bind_ok h
  obtain ⟨_, -, h⟩ := Datatype.bind_ok h
  obtain ⟨_, -, h⟩ := Datatype.bind_ok h
  obtain ⟨_, -, h⟩ := Datatype.bind_ok h
  simp only [pure, Except.pure, Except.ok.injEq] at h
  subst h
  intro e he
  have := attrItems_keys he
  have key : ∀ k ∈ inheritedNames.map String.toList, OwnProperty k := by decide +kernel
  exact key _ this

theorem ownProperties_like {od : Bool} {t : TableLike} {l : List (Str × J)} (h : t.props.items ext od = .ok l) {K : List (String × J × J)}
    (hK : t.items ext = .ok K) {M : List (String × J × J)} (hM : ∀ e ∈ M, OwnProperty e.1.toList) : ∀ e ∈ l ++ attrItems od (K ++ M), OwnProperty e.1 := by
  intro e he
  rcases List.mem_append.1 he with he | he
  · exact ownProperties_descr h e he
  · have := attrItems_keys he
    rw [List.map_append] at this
    rcases List.mem_append.1 this with h' | h'
    · unfold TableLike.items at hK
      obtain ⟨_, -, hK⟩ := Datatype.bind_ok hK
      simp only [pure, Except.pure, Except.ok.injEq] at hK
      subst hK
      have key : ∀ k ∈ likeNames.map String.toList, OwnProperty k := by decide +kernel
      exact key _ h'
    · obtain ⟨f, hf, hff⟩ := List.mem_map.1 h'
      rw [← hff]
      exact hM f hf

theorem like_parts {p : Parts} {t : TableLike} (h : TableLike.ofParts ext x other lk p = .ok t) :
    t.props.common = p.common ∧ postInit x p.atProps = .ok t.props.atProps := by
  unfold TableLike.ofParts at h
  obtain ⟨D, hD, h⟩ := Datatype.bind_ok h
  obtain ⟨_, -, h⟩ := Datatype.bind_ok h
  obtain ⟨_, -, h⟩ := Datatype.bind_ok h
  obtain ⟨_, -, h⟩ := Datatype.bind_ok h
  obtain ⟨_, -, h⟩ := Datatype.bind_ok h
  obtain ⟨_, -, h⟩ := Datatype.bind_ok h
  obtain ⟨a', h6, h⟩ := Datatype.bind_ok h
  simp only [pure, Except.pure, Except.ok.injEq] at h
  subst h
  unfold Descr.ofParts at hD
  obtain ⟨d0, -, rfl⟩ := Except.map_eq_ok.1 hD
  exact ⟨rfl, h6⟩

/-- **C92** The `@`-properties and common properties of a group of tables are written. -/
theorem C92_group_kept {m : List (Str × J)} (hd : DistinctKeys (.obj m)) {g : GroupD} (h : GroupD.fromvalue ext x other lk (.obj m) = .ok g) {od : Bool} {j : J}
    (hj : g.asdict ext od = .ok j) : ∃ m', j = .obj m' ∧ PropertiesKept (fun s => x.tagOk s = true) m m' := by
  obtain ⟨p, hp, hf⟩ := fromParts_ok h
  unfold GroupD.ofParts at hf
  obtain ⟨like, hl, hf⟩ := Datatype.bind_ok hf
  obtain ⟨ts, htb, hf⟩ := Datatype.bind_ok hf
  simp only [pure, Except.pure, Except.ok.injEq] at hf
  subst hf
  unfold GroupD.asdict at hj
  obtain ⟨l, i1, hj⟩ := Datatype.bind_ok hj
  obtain ⟨K, i2, hj⟩ := Datatype.bind_ok hj
  obtain ⟨js, i3, hj⟩ := Datatype.bind_ok hj
  simp only [pure, Except.pure, Except.ok.injEq] at hj
  obtain ⟨h1, h2⟩ := like_parts hl
  refine ⟨_, hj.symm, ?_⟩
  simp only [h1]
  exact kept_asdict hd hp (.inr h2) (ownProperties_like i1 i2 (by intro e he; simp only [List.mem_singleton] at he; subst he; simp only; decide +kernel))

/-- **C92** … of a table. -/
theorem C92_table_kept {m : List (Str × J)} (hd : DistinctKeys (.obj m)) {t : TableD} (h : TableD.fromvalue ext x other lk (.obj m) = .ok t) {od : Bool} {j : J}
    (hj : t.asdict ext od = .ok j) : ∃ m', j = .obj m' ∧ PropertiesKept (fun s => x.tagOk s = true) m m' := by
  obtain ⟨p, hp, hf⟩ := fromParts_ok h
  unfold TableD.ofParts at hf
  obtain ⟨like, hl, hf⟩ := Datatype.bind_ok hf
  split at hf
  · cases hf
  simp only [pure, Except.pure, Except.ok.injEq] at hf
  subst hf
  unfold TableD.asdict at hj
  obtain ⟨l, i1, hj⟩ := Datatype.bind_ok hj
  obtain ⟨K, i2, hj⟩ := Datatype.bind_ok hj
  simp only [pure, Except.pure, Except.ok.injEq] at hj
  obtain ⟨h1, h2⟩ := like_parts hl
  refine ⟨_, hj.symm, ?_⟩
  simp only [h1]
  exact kept_asdict hd hp (.inr h2) (ownProperties_like i1 i2 (by intro e he; simp only [List.mem_singleton] at he; subst he; simp only; decide +kernel))

/-- **C92** … of a column. -/
theorem C92_column_kept {m : List (Str × J)} (hd : DistinctKeys (.obj m)) {c : Column} (h : Column.fromvalue ext x other (.obj m) = .ok c) {od : Bool} {j : J}
    (hj : c.asdict ext od = .ok j) : ∃ m', j = .obj m' ∧ PropertiesKept (fun s => x.tagOk s = true) m m' := by
  obtain ⟨p, hp, hf⟩ := fromParts_ok h
  unfold Column.ofParts at hf
  obtain ⟨D, hD, hf⟩ := Datatype.bind_ok hf
  obtain ⟨name, -, hf⟩ := Datatype.bind_ok hf
  obtain ⟨so, -, hf⟩ := Datatype.bind_ok hf
  obtain ⟨vi, -, hf⟩ := Datatype.bind_ok hf
  simp only [pure, Except.pure, Except.ok.injEq] at hf
  subst hf
  unfold Column.asdict at hj
  obtain ⟨l, hl, hj⟩ := Datatype.bind_ok hj
  simp only [pure, Except.pure, Except.ok.injEq] at hj
  refine ⟨_, hj.symm, ?_⟩
  have hDp : D.atProps = p.atProps ∧ D.common = p.common := by
    unfold Descr.ofParts at hD
    obtain ⟨d0, -, rfl⟩ := Except.map_eq_ok.1 hD
    exact ⟨rfl, rfl⟩
  simp only [hDp.2]
  refine kept_asdict hd hp (.inl hDp.1) ?_
  intro e he
  rcases List.mem_append.1 he with he | he
  · exact ownProperties_descr hl e he
  · have := attrItems_keys he
    have key : ∀ k ∈ ["name", "suppressOutput", "titles", "virtual"].map String.toList, OwnProperty k := by decide +kernel
    exact key _ this

/-- **C90**, in terms of the descriptions, without conditions on what is written: if all properties of a group of tables and of its parts are
known and have values of the right kind, and the names of columns are valid and different, then this is the case in the description which is
written. -/
theorem C92_clean (hlk : lk "utf-8".toList = .ok ()) {m : List (Str × J)} (hj : DistinctKeys (.obj m)) {g : GroupD}
    (h : GroupD.fromvalue ext x other lk (.obj m) = .ok g) (hw : LikeWritable ext g.like) (hwt : ∀ t ∈ g.tables, LikeWritable ext t.like)
    (hfin : FiniteLike g.like) (hft : ∀ t ∈ g.tables, FiniteLike t.like) (hs : GroupClean ext lk (fun s => x.tagOk s = true) m)
    {od : Bool} (hund : od = false → x.tagOk "und".toList = true) :
    ∃ m', g.asdict ext od = .ok (.obj m') ∧ DistinctKeys (.obj m') ∧ GroupClean ext lk (fun s => x.tagOk s = true) m' := by
  obtain ⟨m', -, h1, -, -, -⟩ := C90_group hlk hj h hw hwt hfin hft ((C79_group hlk hj h).2 hs) hund
  have hd := group_distinct hj h h1
  exact ⟨m', h1, hd, C90_clean hlk hj h hw hwt hfin hft hs hund h1 hd⟩

/-! ## Example -/

/-- A column with properties of all kinds. -/
def kindsExample : List (Str × J) := [("@id".toList, .str "http://example.org/c".toList), ("name".toList, .str "a".toList),
  ("dc:title".toList, .obj [("@value".toList, .str "A".toList)]), ("titles".toList, .arr [.str "A".toList, .str "B".toList])]

theorem kinds_distinct : DistinctKeys (.obj kindsExample) := by
  refine .obj (by decide +kernel) ?_
  intro k v hm
  simp only [kindsExample, List.mem_cons, List.not_mem_nil, or_false, Prod.mk.injEq] at hm
  rcases hm with ⟨-, rfl⟩ | ⟨-, rfl⟩ | ⟨-, rfl⟩ | ⟨-, rfl⟩
  · exact .str _
  · exact .str _
  · refine .obj (by decide +kernel) ?_
    intro k v hm
    simp only [List.mem_cons, List.not_mem_nil, or_false, Prod.mk.injEq] at hm
    rw [hm.2]; exact .str _
  · refine .arr ?_
    intro v hm
    simp only [List.mem_cons, List.not_mem_nil, or_false] at hm
    rcases hm with rfl | rfl <;> exact .str _

/-- The column which is read. -/
def kindsColumn : Column :=
  { props := { common := [("dc:title".toList, .obj [("@value".toList, .str "A".toList)])], atProps := [("id".toList, .str "http://example.org/c".toList)] },
    name := some "a".toList, titles := some [(none, ["A".toList, "B".toList])] }

/-- The hypotheses of `C92_column` and `C92_column_kept` are met. -/
theorem C92_example : ∃ c m', Column.fromvalue ext x other (.obj kindsExample) = .ok c ∧ c.asdict ext true = .ok (.obj m') ∧
    m'.map (fun e => e.1) = ["@id".toList, "dc:title".toList, "name".toList, "titles".toList] ∧ DistinctKeys (.obj m') := by
  have h1 : Column.fromvalue ext x other (.obj kindsExample) = .ok kindsColumn := by rfl
  have h2 : kindsColumn.asdict ext true = .ok (.obj [("@id".toList, .str "http://example.org/c".toList), ("dc:title".toList, .obj [("@value".toList, .str "A".toList)]),
      ("name".toList, .str "a".toList), ("titles".toList, .arr [.str "A".toList, .str "B".toList])]) := by
    rfl
  exact ⟨_, _, h1, h2, rfl, C92_column kinds_distinct h1 h2⟩

end
end Csvw.Props

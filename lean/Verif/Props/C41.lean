import Verif.Spec.ForeignKeys
import Verif.Lemmas.Table
/-!
# C41: `validate_schema`
-/

namespace Csvw.Props
open Csvw.Spec Csvw.Table Csvw.TableGroup

theorem get_reverse_last {α : Type} {l : List (Str × α)} {k : Str} {a : α} :
    Dict.get k l.reverse = some a ↔ LastSuch (fun p => p.1 = k) l (k, a) := by
  constructor
  · intro h
    induction l with
    | nil => simp at h
    | cons p r ih =>
      rw [List.reverse_cons, Dict.get_append] at h
      cases hr : Dict.get k r.reverse with
      | some b =>
        rw [hr] at h
        simp only [Option.some_or, Option.some.injEq] at h
        subst h
        obtain ⟨be, af, h1, h2, h3⟩ := ih hr
        exact ⟨p :: be, af, by rw [h1]; rfl, h2, h3⟩
      | none =>
        rw [hr] at h
        simp only [Option.none_or] at h
        obtain ⟨k', b⟩ := p
        have := Dict.get_mem h
        simp only [List.mem_singleton, Prod.mk.injEq] at this
        obtain ⟨rfl, rfl⟩ := this
        refine ⟨[], r, rfl, rfl, ?_⟩
        intro w hw he
        rw [Dict.get_eq_none_iff] at hr
        exact hr (by unfold Dict.keys; rw [List.map_reverse, List.mem_reverse]; exact List.mem_map.2 ⟨w, hw, he⟩)
  · rintro ⟨be, af, rfl, _, h⟩
    rw [List.reverse_append, Dict.get_append, List.reverse_cons, Dict.get_append]
    have : Dict.get k af.reverse = none := by
      rw [Dict.get_eq_none_iff]
      unfold Dict.keys
      rw [List.map_reverse, List.mem_reverse]
      intro hk
      obtain ⟨w, hw, he⟩ := List.mem_map.1 hk
      exact h w hw he
    rw [this]
    simp [Dict.get]

theorem get_ofPairs_map {α : Type} (f : α → Str) (l : List α) (k : Str) :
    (∀ a, Dict.get k (Dict.ofPairs (l.map fun a => (f a, a))) = some a ↔ LastSuch (fun a => f a = k) l a) ∧
    (Dict.get k (Dict.ofPairs (l.map fun a => (f a, a))) = none ↔ ∀ a ∈ l, f a ≠ k) := by
  have hg : Dict.get k (Dict.ofPairs (l.map fun a => (f a, a))) = Dict.get k (l.map fun a => (f a, a)).reverse := by
    unfold Dict.ofPairs; rw [Dict.get_update]; simp
  rw [hg]
  constructor
  · intro a
    rw [get_reverse_last]
    constructor
    · rintro ⟨be, af, h1, h2, h3⟩
      obtain ⟨be', r', rfl, rfl, h4⟩ := List.map_eq_append_iff.1 h1
      obtain ⟨a', af', rfl, h5, rfl⟩ := List.map_eq_cons_iff.1 h4
      simp only [Prod.mk.injEq] at h5
      obtain ⟨h5, rfl⟩ := h5
      exact ⟨be', af', rfl, h5, fun w hw he => h3 (f w, w) (List.mem_map.2 ⟨w, hw, rfl⟩) he⟩
    · rintro ⟨be, af, rfl, h2, h3⟩
      refine ⟨be.map fun a => (f a, a), af.map fun a => (f a, a), by simp [h2], rfl, ?_⟩
      intro w hw
      obtain ⟨a', ha', rfl⟩ := List.mem_map.1 hw
      exact h3 a' ha'
  · rw [Dict.get_eq_none_iff]
    unfold Dict.keys
    rw [List.map_reverse, List.mem_reverse, List.map_map]
    simp only [List.mem_map, Function.comp_apply, not_exists, not_and]

theorem search_iff {name : Str} {cs : List Column} (hv : ∀ c ∈ cs, c.props.propertyUrl ≠ .invalid) :
    (∃ o, Schema.search name cs = .ok o) ∧
    (∀ c, Schema.search name cs = .ok (some c) ↔ FirstSuch (TitleOrUrl name) cs c) := by
  induction cs with
  | nil =>
    refine ⟨⟨none, rfl⟩, fun c => ?_⟩
    simp only [Schema.search, Except.ok.injEq, reduceCtorEq, false_iff]
    rintro ⟨be, af, h, _⟩
    simp at h
  | cons a r ih =>
    obtain ⟨ih1, ih2⟩ := ih fun c hc => hv c (List.mem_cons_of_mem _ hc)
    have hcons : ∀ c, ¬ TitleOrUrl name a → (FirstSuch (TitleOrUrl name) (a :: r) c ↔ FirstSuch (TitleOrUrl name) r c) := by
      intro c hna
      constructor
      · rintro ⟨be, af, h1, h2, h3⟩
        cases be with
        | nil => simp only [List.nil_append, List.cons.injEq] at h1; rw [← h1.1] at h2; exact absurd h2 hna
        | cons b be =>
          simp only [List.cons_append, List.cons.injEq] at h1
          exact ⟨be, af, h1.2, h2, fun w hw => h3 w (List.mem_cons_of_mem _ hw)⟩
      · rintro ⟨be, af, h1, h2, h3⟩
        refine ⟨a :: be, af, by rw [h1]; rfl, h2, ?_⟩
        intro w hw
        rcases List.mem_cons.1 hw with rfl | hw
        · exact hna
        · exact h3 w hw
    have hself : ∀ c, TitleOrUrl name a → (FirstSuch (TitleOrUrl name) (a :: r) c ↔ a = c) := by
      intro c ha
      constructor
      · rintro ⟨be, af, h1, h2, h3⟩
        cases be with
        | nil => simp only [List.nil_append, List.cons.injEq] at h1; exact h1.1
        | cons b be =>
          simp only [List.cons_append, List.cons.injEq] at h1
          rw [h1.1] at ha
          exact absurd ha (h3 b (List.mem_cons_self ..))
      · rintro rfl
        exact ⟨[], r, rfl, ha, by simp⟩
    unfold Schema.search
    by_cases ht : NatLang.first a.titles = some name
    · rw [if_pos ht]
      refine ⟨⟨_, rfl⟩, fun c => ?_⟩
      rw [hself c (.inl ht)]
      simp
    · rw [if_neg ht]
      have hva := hv a (List.mem_cons_self ..)
      cases hp : a.props.propertyUrl with
      | invalid => exact absurd hp hva
      | tmpl u =>
        simp only
        by_cases hu : u = name
        · rw [if_pos hu]
          refine ⟨⟨_, rfl⟩, fun c => ?_⟩
          rw [hself c (.inr (by rw [hp, hu]))]
          simp
        · rw [if_neg hu]
          refine ⟨ih1, fun c => ?_⟩
          rw [hcons c (by rintro (h | h); exact ht h; rw [hp] at h; exact hu (PVal.tmpl.inj h)), ih2]
      | json j =>
        refine ⟨ih1, fun c => ?_⟩
        rw [hcons c (by rintro (h | h); exact ht h; rw [hp] at h; simp at h), ih2]
      | dtype d =>
        refine ⟨ih1, fun c => ?_⟩
        rw [hcons c (by rintro (h | h); exact ht h; rw [hp] at h; simp at h), ih2]

/-- `get_column` finds the column a name refers to. -/
theorem getColumn_iff {s : Schema} (hv : ∀ c ∈ s.columns, c.props.propertyUrl ≠ .invalid) (name : Str) :
    (∃ o, s.getColumn name = .ok o) ∧ ∀ c, s.getColumn name = .ok (some c) ↔ RefersTo s name c := by
  obtain ⟨h1, h2⟩ := get_ofPairs_map Column.header s.columns name
  unfold Schema.getColumn
  cases hg : Dict.get name s.columndict with
  | some a =>
    refine ⟨⟨_, rfl⟩, fun c => ?_⟩
    simp only [Except.ok.injEq, Option.some.injEq]
    constructor
    · rintro rfl; exact .inl ((h1 a).1 hg)
    · rintro (h | ⟨h, _⟩)
      · have := (h1 c).2 h
        unfold Schema.columndict at hg
        rw [hg] at this
        exact Option.some.inj this
      · have := h2.2 h
        unfold Schema.columndict at hg
        rw [hg] at this
        simp at this
  | none =>
    have hn := h2.1 hg
    obtain ⟨h3, h4⟩ := search_iff hv (name := name)
    refine ⟨h3, fun c => ?_⟩
    simp only
    rw [h4]
    constructor
    · intro h; exact .inr ⟨hn, h⟩
    · rintro (⟨be, af, h5, h6, _⟩ | ⟨_, h⟩)
      · exact absurd h6 (hn c (by rw [h5]; simp))
      · exact h

theorem getColumnStrict_iff {s : Schema} (name : Str) :
    ((∃ c, s.getColumnStrict name = .ok (some c)) ∨ s.getColumnStrict name = .error .assertionError) ∧
    ∀ c, s.getColumnStrict name = .ok (some c) ↔ RefersToStrict s name c := by
  obtain ⟨h1, h2⟩ := get_ofPairs_map Column.header s.columns name
  have hne : ∀ c : Column, nonEmpty c.name ≠ none ↔ ∃ n, c.name = some n ∧ n ≠ [] := by
    intro c
    cases hc : c.name with
    | none => simp [nonEmpty]
    | some n => by_cases hn : n = [] <;> simp [nonEmpty, hn]
  unfold Schema.getColumnStrict
  cases hg : Dict.get name s.columndict with
  | none =>
    refine ⟨.inr rfl, fun c => ?_⟩
    simp only [reduceCtorEq, false_iff]
    rintro ⟨⟨be, af, h5, h6, _⟩, _⟩
    exact absurd h6 (h2.1 hg c (by rw [h5]; simp))
  | some a =>
    simp only
    by_cases ha : nonEmpty a.name = none
    · rw [if_pos ha]
      refine ⟨.inr rfl, fun c => ?_⟩
      simp only [reduceCtorEq, false_iff]
      rintro ⟨h, hn⟩
      have := (h1 c).2 h
      unfold Schema.columndict at hg
      rw [hg] at this
      cases Option.some.inj this
      exact (hne _).2 hn ha
    · rw [if_neg ha]
      refine ⟨.inl ⟨a, rfl⟩, fun c => ?_⟩
      simp only [Except.ok.injEq, Option.some.injEq]
      constructor
      · rintro rfl; exact ⟨(h1 a).1 hg, (hne _).1 ha⟩
      · rintro ⟨h, _⟩
        have := (h1 c).2 h
        unfold Schema.columndict at hg
        rw [hg] at this
        exact Option.some.inj this

theorem tabledict_iff (g : TableGroup) (r : Str) :
    (∀ u, Dict.get r g.tabledict = some u ↔ TableNamed g r u) ∧
    (Dict.get r g.tabledict = none ↔ ∀ u ∈ g.tables, u.url ≠ r) :=
  get_ofPairs_map Table.url g.tables r

/-- How names refer to columns in the two modes. -/
def refersIn (strict : Bool) : Schema → Str → Column → Prop := if strict then RefersToStrict else RefersTo

/-- The errors of `get_column` which `validate_schema` reports as `ValueError`. -/
def Reported (e : PyErr) : Prop := e = .valueError ∨ e = .keyError ∨ e = .assertionError

/-- The property URLs of the columns are valid. -/
def ValidUrls (g : TableGroup) : Prop := ∀ t ∈ g.tables, ∀ c ∈ t.schema.columns, c.props.propertyUrl ≠ .invalid

theorem column_iff {s : Schema} (strict : Bool) (hv : strict = false → ∀ c ∈ s.columns, c.props.propertyUrl ≠ .invalid) (name : Str) :
    ((∃ o, TableGroup.column s strict name = .ok o) ∨ ∃ e, TableGroup.column s strict name = .error e ∧ Reported e) ∧
    ∀ c, TableGroup.column s strict name = .ok (some c) ↔ refersIn strict s name c := by
  cases strict with
  | true =>
    obtain ⟨h1, h2⟩ := getColumnStrict_iff (s := s) name
    refine ⟨?_, h2⟩
    rcases h1 with ⟨c, h⟩ | h
    · exact .inl ⟨_, h⟩
    · exact .inr ⟨_, h, .inr (.inr rfl)⟩
  | false =>
    obtain ⟨h1, h2⟩ := getColumn_iff (hv rfl) name
    exact ⟨.inl h1, h2⟩

theorem sameBase_false {a b : Column} : sameBase a b = false ↔ DifferentBase a b := by
  unfold sameBase DifferentBase
  cases ha : a.props.datatype <;> cases hb : b.props.datatype <;> simp

theorem checkPair_iff {s s' : Schema} {strict : Bool} (hv : strict = false → ∀ c ∈ s.columns, c.props.propertyUrl ≠ .invalid)
    (hv' : strict = false → ∀ c ∈ s'.columns, c.props.propertyUrl ≠ .invalid) (a b : Str) :
    let bad := (∀ c, ¬ refersIn strict s a c) ∨ (∀ c, ¬ refersIn strict s' b c) ∨
      ∃ c d, refersIn strict s a c ∧ refersIn strict s' b d ∧ DifferentBase c d
    (bad → ∃ e, checkPair s s' strict a b = .error e ∧ Reported e) ∧ (¬ bad → checkPair s s' strict a b = .ok ()) := by
  intro bad
  obtain ⟨h1, h2⟩ := column_iff strict hv a
  obtain ⟨h3, h4⟩ := column_iff strict hv' b
  unfold checkPair
  rcases h1 with ⟨o, h1⟩ | ⟨e, h1, he⟩
  · rcases h3 with ⟨o', h3⟩ | ⟨e, h3, he⟩
    · rw [h1, h3]
      cases o with
      | none =>
        refine ⟨fun _ => ⟨_, rfl, .inl rfl⟩, fun h => absurd (.inl fun c hc => ?_) h⟩
        have := (h2 c).2 hc
        rw [h1] at this; simp at this
      | some c =>
        cases o' with
        | none =>
          refine ⟨fun _ => ⟨_, rfl, .inl rfl⟩, fun h => absurd (.inr (.inl fun c hc => ?_)) h⟩
          have := (h4 c).2 hc
          rw [h3] at this; simp at this
        | some d =>
          have hc := (h2 c).1 h1
          have hd := (h4 d).1 h3
          simp only
          by_cases hs : sameBase c d = true
          · rw [if_pos hs]
            refine ⟨fun h => ?_, fun _ => rfl⟩
            exfalso
            rcases h with h | h | ⟨c', d', hc', hd', hdiff⟩
            · exact h c hc
            · exact h d hd
            · have e1 := (h2 c').2 hc'
              have e2 := (h4 d').2 hd'
              rw [h1] at e1; rw [h3] at e2
              cases e1; cases e2
              rw [sameBase_false.2 hdiff] at hs
              simp at hs
          · rw [if_neg hs]
            refine ⟨fun _ => ⟨_, rfl, .inl rfl⟩, fun h => absurd (.inr (.inr ⟨c, d, hc, hd, ?_⟩)) h⟩
            exact sameBase_false.1 (by simpa using hs)
    · rw [h1, h3]
      refine ⟨fun _ => ⟨_, rfl, he⟩, fun h => absurd (.inr (.inl fun c hc => ?_)) h⟩
      have := (h4 c).2 hc
      rw [h3] at this; simp at this
  · rw [h1]
    refine ⟨fun _ => ⟨_, rfl, he⟩, fun h => absurd (.inl fun c hc => ?_) h⟩
    have := (h2 c).2 hc
    rw [h1] at this; simp at this

theorem checkPairs_iff {s s' : Schema} {strict : Bool} (ps : List (Str × Str)) :
    (∃ p ∈ ps, ∃ e, checkPair s s' strict p.1 p.2 = .error e) ∨ checkPairs s s' strict ps = .ok () := by
  induction ps with
  | nil => exact .inr rfl
  | cons p r ih =>
    obtain ⟨a, b⟩ := p
    unfold checkPairs
    cases hp : checkPair s s' strict a b with
    | error e => exact .inl ⟨(a, b), List.mem_cons_self .., e, hp⟩
    | ok u =>
      rcases ih with ⟨q, hq, e, he⟩ | h
      · exact .inl ⟨q, List.mem_cons_of_mem _ hq, e, he⟩
      · exact .inr h

theorem checkPairs_error {s s' : Schema} {strict : Bool} {ps : List (Str × Str)}
    (hall : ∀ p ∈ ps, checkPair s s' strict p.1 p.2 = .ok () ∨ ∃ e, checkPair s s' strict p.1 p.2 = .error e ∧ Reported e)
    (h : ∃ p ∈ ps, ∃ e, checkPair s s' strict p.1 p.2 = .error e) : ∃ e, checkPairs s s' strict ps = .error e ∧ Reported e := by
  induction ps with
  | nil => obtain ⟨p, hp, _⟩ := h; simp at hp
  | cons p r ih =>
    obtain ⟨a, b⟩ := p
    unfold checkPairs
    rcases hall (a, b) (List.mem_cons_self ..) with hok | ⟨e, he, hr⟩
    · simp only at hok
      rw [hok]
      refine ih (fun q hq => hall q (List.mem_cons_of_mem _ hq)) ?_
      obtain ⟨q, hq, e, he⟩ := h
      rcases List.mem_cons.1 hq with rfl | hq
      · simp only at he; rw [hok] at he; simp at he
      · exact ⟨q, hq, e, he⟩
    · simp only at he
      rw [he]
      exact ⟨e, rfl, hr⟩

/-- What is wrong with an item of `foreign_keys()`. -/
def KeyProblem (strict : Bool) (k : FKey) : Prop :=
  k.sc.length ≠ k.tc.length ∨ ∃ p ∈ k.sc.zip k.tc, (∀ c, ¬ refersIn strict k.st.schema p.1 c) ∨
    (∀ c, ¬ refersIn strict k.tt.schema p.2 c) ∨
    ∃ c d, refersIn strict k.st.schema p.1 c ∧ refersIn strict k.tt.schema p.2 d ∧ DifferentBase c d

def KeyUrls (k : FKey) : Prop :=
  (∀ c ∈ k.st.schema.columns, c.props.propertyUrl ≠ .invalid) ∧ ∀ c ∈ k.tt.schema.columns, c.props.propertyUrl ≠ .invalid

theorem checkFkeys_iff {strict : Bool} {ks : List FKey} (hv : strict = false → ∀ k ∈ ks, KeyUrls k) :
    ((∃ k ∈ ks, KeyProblem strict k) → ∃ e, checkFkeys strict ks = .error e ∧ Reported e) ∧
    ((∀ k ∈ ks, ¬ KeyProblem strict k) → checkFkeys strict ks = .ok ()) := by
  induction ks with
  | nil => exact ⟨fun ⟨k, hk, _⟩ => by simp at hk, fun _ => rfl⟩
  | cons k r ih =>
    obtain ⟨ih1, ih2⟩ := ih fun hs k hk => hv hs k (List.mem_cons_of_mem _ hk)
    have hvk : strict = false → KeyUrls k := fun hs => hv hs k (List.mem_cons_self ..)
    have hpair := fun (p : Str × Str) => checkPair_iff (fun hs => (hvk hs).1) (fun hs => (hvk hs).2) p.1 p.2
    have hall : ∀ p ∈ k.sc.zip k.tc, checkPair k.st.schema k.tt.schema strict p.1 p.2 = .ok () ∨
        ∃ e, checkPair k.st.schema k.tt.schema strict p.1 p.2 = .error e ∧ Reported e := by
      intro p _
      obtain ⟨h1, h2⟩ := hpair p
      exact (Classical.em _).elim (fun h => .inr (h1 h)) (fun h => .inl (h2 h))
    unfold checkFkeys
    by_cases hlen : k.sc.length ≠ k.tc.length
    · rw [if_pos hlen]
      exact ⟨fun _ => ⟨_, rfl, .inl rfl⟩, fun h => absurd (.inl hlen) (h k (List.mem_cons_self ..))⟩
    · rw [if_neg hlen]
      by_cases hp : ∃ p ∈ k.sc.zip k.tc, ∃ e, checkPair k.st.schema k.tt.schema strict p.1 p.2 = .error e
      · obtain ⟨e, he, hr⟩ := checkPairs_error hall hp
        rw [he]
        refine ⟨fun _ => ⟨e, rfl, hr⟩, fun h => absurd (.inr ?_) (h k (List.mem_cons_self ..))⟩
        obtain ⟨p, hpm, e', he'⟩ := hp
        refine ⟨p, hpm, Classical.byContradiction fun hbad => ?_⟩
        rw [(hpair p).2 hbad] at he'
        simp at he'
      · rcases checkPairs_iff (s := k.st.schema) (s' := k.tt.schema) (strict := strict) (k.sc.zip k.tc) with h | h
        · exact absurd h hp
        · rw [h]
          simp only
          have hnk : ¬ KeyProblem strict k := by
            rintro (h | ⟨p, hpm, hbad⟩)
            · exact hlen h
            · obtain ⟨e, he, _⟩ := (hpair p).1 hbad
              exact hp ⟨p, hpm, e, he⟩
          refine ⟨fun ⟨k', hk', hpr⟩ => ?_, fun h => ih2 fun k hk => h k (List.mem_cons_of_mem _ hk)⟩
          rcases List.mem_cons.1 hk' with rfl | hk'
          · exact absurd hpr hnk
          · exact ih1 ⟨k', hk', hpr⟩

theorem mem_fkPairs {g : TableGroup} {t : Table} {fk : ForeignKey} : (t, fk) ∈ g.fkPairs ↔ IsForeignKey g t fk := by
  unfold fkPairs IsForeignKey
  simp only [List.mem_flatMap, List.mem_map, List.mem_filter, decide_eq_true_eq, Prod.mk.injEq]
  constructor
  · rintro ⟨t', ht', fk', ⟨h1, h2⟩, rfl, rfl⟩; exact ⟨ht', h1, h2⟩
  · rintro ⟨h1, h2, h3⟩; exact ⟨t, h1, fk, ⟨h2, h3⟩, rfl, rfl⟩

theorem fkeysOf_spec {g : TableGroup} {ps : List (Table × ForeignKey)} (hr : ∀ p ∈ ps, p.2.resource ≠ none) :
    ((∃ p ∈ ps, ∃ r, p.2.resource = some r ∧ ∀ u ∈ g.tables, u.url ≠ r) → fkeysOf g ps = .error .keyError) ∧
    ((∀ p ∈ ps, ∀ r, p.2.resource = some r → ∃ u ∈ g.tables, u.url = r) →
      ∃ ks, fkeysOf g ps = .ok ks ∧ All2 (fun p k => fkeyOf g p.1 p.2 = .ok k) ps ks) := by
  induction ps with
  | nil => exact ⟨fun ⟨p, hp, _⟩ => by simp at hp, fun _ => ⟨[], rfl, .nil⟩⟩
  | cons p ps ih =>
    obtain ⟨t, fk⟩ := p
    obtain ⟨ih1, ih2⟩ := ih fun p hp => hr p (List.mem_cons_of_mem _ hp)
    cases hres : fk.resource with
    | none => exact absurd hres (hr (t, fk) (List.mem_cons_self ..))
    | some r =>
      obtain ⟨h1, h2⟩ := tabledict_iff g r
      cases hg : Dict.get r g.tabledict with
      | none =>
        have hf : fkeyOf g t fk = .error .keyError := by unfold fkeyOf; rw [hres]; simp only [hg]
        refine ⟨fun _ => by unfold fkeysOf; rw [hf], fun h => ?_⟩
        obtain ⟨u, hu, hur⟩ := h (t, fk) (List.mem_cons_self ..) r hres
        exact absurd hur (h2.1 hg u hu)
      | some st =>
        have hf : fkeyOf g t fk = .ok ⟨st, fk.refColumns, t, fk.columnReference⟩ := by unfold fkeyOf; rw [hres]; simp only [hg]
        constructor
        · rintro ⟨q, hq, r', hr', hno⟩
          unfold fkeysOf
          rw [hf]
          simp only
          rcases List.mem_cons.1 hq with rfl | hq
          · simp only at hr'
            rw [hres] at hr'
            cases hr'
            have := h2.2 hno
            rw [hg] at this; simp at this
          · rw [ih1 ⟨q, hq, r', hr', hno⟩]
        · intro h
          obtain ⟨ks, hks, hall⟩ := ih2 fun p hp => h p (List.mem_cons_of_mem _ hp)
          exact ⟨_ :: ks, by unfold fkeysOf; rw [hf]; simp only [hks], .cons hf hall⟩

theorem all2_mem_right {α β : Type} {R : α → β → Prop} {as : List α} {bs : List β} (h : All2 R as bs) {b : β} (hb : b ∈ bs) :
    ∃ a ∈ as, R a b := by
  induction h with
  | nil => simp at hb
  | cons h1 _ ih =>
    rcases List.mem_cons.1 hb with rfl | hb
    · exact ⟨_, List.mem_cons_self .., h1⟩
    · obtain ⟨a, ha, hr⟩ := ih hb; exact ⟨a, List.mem_cons_of_mem _ ha, hr⟩

theorem all2_mem_left {α β : Type} {R : α → β → Prop} {as : List α} {bs : List β} (h : All2 R as bs) {a : α} (ha : a ∈ as) :
    ∃ b ∈ bs, R a b := by
  induction h with
  | nil => simp at ha
  | cons h1 _ ih =>
    rcases List.mem_cons.1 ha with rfl | ha
    · exact ⟨_, List.mem_cons_self .., h1⟩
    · obtain ⟨a, ha, hr⟩ := ih ha; exact ⟨a, List.mem_cons_of_mem _ ha, hr⟩

theorem fkeyOf_ok {g : TableGroup} {t : Table} {fk : ForeignKey} {k : FKey} (h : fkeyOf g t fk = .ok k) :
    ∃ r, fk.resource = some r ∧ TableNamed g r k.st ∧ k = ⟨k.st, fk.refColumns, t, fk.columnReference⟩ := by
  unfold fkeyOf at h
  cases hr : fk.resource with
  | none => rw [hr] at h; simp at h
  | some r =>
    rw [hr] at h
    simp only at h
    cases hg : Dict.get r g.tabledict with
    | none => rw [hg] at h; simp at h
    | some st => rw [hg] at h; cases h; exact ⟨r, rfl, ((tabledict_iff g r).1 st).1 hg, rfl⟩

theorem tableNamed_unique {g : TableGroup} {r : Str} {u u' : Table} (h : TableNamed g r u) (h' : TableNamed g r u') : u = u' := by
  have h1 := ((tabledict_iff g r).1 u).2 h
  have h2 := ((tabledict_iff g r).1 u').2 h'
  rw [h1] at h2
  exact Option.some.inj h2

theorem tableNamed_mem {g : TableGroup} {r : Str} {u : Table} (h : TableNamed g r u) : u ∈ g.tables ∧ u.url = r := by
  obtain ⟨be, af, h1, h2, _⟩ := h
  exact ⟨by rw [h1]; simp, h2⟩

theorem problem_iff {strict : Bool} {g : TableGroup} {t : Table} {fk : ForeignKey} {k : FKey} (h : fkeyOf g t fk = .ok k) :
    Problem (refersIn strict) g t fk ↔ KeyProblem strict k := by
  obtain ⟨r, hr, hst, hk⟩ := fkeyOf_ok h
  rw [hk]
  constructor
  · intro hp
    cases hp with
    | table r' hr' h' =>
      rw [hr] at hr'; cases hr'
      exact absurd (tableNamed_mem hst).2 (h' _ (tableNamed_mem hst).1)
    | number r' hr' u hu h' => exact .inl h'
    | refColumn r' hr' u hu a b hab h' =>
      rw [hr] at hr'; cases hr'
      cases tableNamed_unique hu hst
      exact .inr ⟨(a, b), hab, .inl h'⟩
    | column r' hr' u hu a b hab h' => exact .inr ⟨(a, b), hab, .inr (.inl h')⟩
    | datatype r' hr' u hu a b hab c d hc hd h' =>
      rw [hr] at hr'; cases hr'
      cases tableNamed_unique hu hst
      exact .inr ⟨(a, b), hab, .inr (.inr ⟨c, d, hc, hd, h'⟩)⟩
  · rintro (h' | ⟨⟨a, b⟩, hab, h' | h' | ⟨c, d, hc, hd, h'⟩⟩)
    · exact .number r hr _ hst h'
    · exact .refColumn r hr _ hst a b hab h'
    · exact .column r hr _ hst a b hab h'
    · exact .datatype r hr _ hst a b hab c d hc hd h'

/-- **C41** `validate_schema` raises `ValueError` exactly if there is a problem with a foreign key. (Foreign keys which
reference neither a table nor a schema, or, in non-strict mode, columns with invalid property URL make it raise
`AttributeError`.) -/
theorem C41_exact (g : TableGroup) (strict : Bool) (hr : ∀ t fk, IsForeignKey g t fk → fk.resource ≠ none)
    (hv : strict = false → ValidUrls g) :
    ((∃ t fk, IsForeignKey g t fk ∧ Problem (refersIn strict) g t fk) → g.validateSchema strict = .error .valueError) ∧
    ((¬ ∃ t fk, IsForeignKey g t fk ∧ Problem (refersIn strict) g t fk) → g.validateSchema strict = .ok ()) := by
  have hrep : ∀ e, Reported e → asForeignKeyError (.error e : Res Unit) = .error .valueError := by
    rintro e (rfl | rfl | rfl) <;> rfl
  have hsp := fkeysOf_spec (g := g) (ps := g.fkPairs) (fun p hp => hr p.1 p.2 (mem_fkPairs.1 hp))
  unfold validateSchema foreignKeys
  by_cases hm : ∃ p ∈ g.fkPairs, ∃ r, p.2.resource = some r ∧ ∀ u ∈ g.tables, u.url ≠ r
  · rw [hsp.1 hm]
    refine ⟨fun _ => rfl, fun h => absurd ?_ h⟩
    obtain ⟨p, hp, r, hpr, hno⟩ := hm
    exact ⟨p.1, p.2, mem_fkPairs.1 hp, .table r hpr hno⟩
  · obtain ⟨ks, hks, hall⟩ := hsp.2 (by
      intro p hp r hpr
      refine Classical.byContradiction fun hno => hm ⟨p, hp, r, hpr, fun u hu he => hno ⟨u, hu, he⟩⟩)
    rw [hks]
    have hck := checkFkeys_iff (strict := strict) (ks := ks) (by
      intro hs k hk
      obtain ⟨p, hp, hpk⟩ := all2_mem_right hall hk
      obtain ⟨r, _, hst, hk'⟩ := fkeyOf_ok hpk
      have ht := (mem_fkPairs.1 hp).1
      refine ⟨hv hs _ (tableNamed_mem hst).1, ?_⟩
      rw [hk']
      exact hv hs _ ht)
    simp only
    constructor
    · rintro ⟨t, fk, hfk, hp⟩
      obtain ⟨k, hk, hpk⟩ := all2_mem_left hall (mem_fkPairs.2 hfk)
      obtain ⟨e, he, hre⟩ := hck.1 ⟨k, hk, (problem_iff hpk).1 hp⟩
      rw [he]
      exact hrep e hre
    · intro hno
      rw [hck.2 (by
        intro k hk hkp
        obtain ⟨⟨t, fk⟩, hp, hpk⟩ := all2_mem_right hall hk
        exact hno ⟨t, fk, mem_fkPairs.1 hp, (problem_iff hpk).2 hkp⟩)]
      rfl

/-- A table with URL `url` and a column `a` with the given datatype (`None`: strings), with a foreign key to column `a` of the
table `p.csv` if `fk`. -/
def keyTable (url : Str) (dt : PVal) (fk : Bool) : Table :=
  { schema := { columns := [{ name := some ['a'], props := { datatype := dt }, number := 1 }],
                foreignKeys := if fk then [⟨[['a']], some "p.csv".toList, none, [['a']]⟩] else [] },
    url := url }

/-- **C41 does not hold** if one of the columns has no datatype of its own, i.e. (unless it inherits one) contains strings: a
foreign key from a string column to an integer column is accepted. -/
theorem C41_violated :
    validateSchema ⟨[keyTable "p.csv".toList (.dtype { base := .integer }) false, keyTable "c.csv".toList (.json .null) true]⟩ false
      = .ok () := by decide +kernel

/-- Non-vacuity: groups of two tables, without and with different datatypes. -/
example :
    validateSchema ⟨[keyTable "p.csv".toList (.dtype { base := .integer }) false,
      keyTable "c.csv".toList (.dtype { base := .integer }) true]⟩ false = .ok () ∧
    validateSchema ⟨[keyTable "p.csv".toList (.dtype { base := .integer }) false,
      keyTable "c.csv".toList (.dtype { base := .string }) true]⟩ false = .error .valueError ∧
    IsForeignKey ⟨[keyTable "p.csv".toList (.dtype { base := .integer }) false,
      keyTable "c.csv".toList (.dtype { base := .string }) true]⟩ (keyTable "c.csv".toList (.dtype { base := .string }) true)
      ⟨[['a']], some "p.csv".toList, none, [['a']]⟩ ∧
    ValidUrls ⟨[keyTable "p.csv".toList (.dtype { base := .integer }) false,
      keyTable "c.csv".toList (.dtype { base := .string }) true]⟩ := by
  refine ⟨by decide +kernel, by decide +kernel, ⟨by simp, by simp [keyTable], rfl⟩, ?_⟩
  intro t ht c hc
  simp only [List.mem_cons, List.not_mem_nil, or_false] at ht
  rcases ht with rfl | rfl <;>
  · simp only [keyTable, List.mem_singleton] at hc
    subst hc
    simp

end Csvw.Props

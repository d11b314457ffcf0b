import Verif.Model.Links
import Verif.Spec.Links
import Verif.Lemmas.Metadata
/-!
# Lemmas on links
-/

namespace Csvw.Links

open Csvw.Spec

section
variable {ext : Ext} {x : MExt} {other : Base → Derived → J → Res Val} {lk : EncLookup} {fx : FExt} {d : Disk}

theorem set_set {κ α : Type} [DecidableEq κ] (k : κ) (v w : α) (l : List (κ × α)) : Dict.set k v (Dict.set k w l) = Dict.set k v l := by
  induction l with
  | nil => simp [Dict.set]
  | cons e r ih =>
    obtain ⟨a, b⟩ := e
    simp only [Dict.set]
    split
    · next h => simp [Dict.set, h]
    · next h => simp [Dict.set, h, ih]

theorem set_comm {κ α : Type} [DecidableEq κ] {k k' : κ} (hk : k ≠ k') (v w : α) (l : List (κ × α)) (hl : k ∈ Dict.keys l) :
    Dict.set k' w (Dict.set k v l) = Dict.set k v (Dict.set k' w l) := by
  induction l with
  | nil => cases hl
  | cons e r ih =>
    obtain ⟨a, b⟩ := e
    by_cases h1 : a = k
    · subst h1
      simp [Dict.set, hk]
    · by_cases h2 : a = k'
      · subst h2
        simp [Dict.set, h1]
      · simp only [Dict.set, h1, h2, if_false]
        rw [ih]
        simp only [Dict.keys, List.map_cons, List.mem_cons] at hl
        exact hl.resolve_left (fun h => h1 h.symm)

theorem loop_later {fields : List Str} {tn : Str} {strict : Bool} {k : Str} {j : J} {l : List (Str × J)} (hl : k ∉ Dict.keys l) {p : Parts}
    (hp : k ∈ Dict.keys p.own) :
    partitionLoop x fields tn strict l { p with own := Dict.set k j p.own } =
      (partitionLoop x fields tn strict l p).map fun q => { q with own := Dict.set k j q.own } := by
  induction l generalizing p with
  | nil => rfl
  | cons e r ih =>
    obtain ⟨a, v⟩ := e
    simp only [Dict.keys, List.map_cons, List.mem_cons, not_or] at hl
    obtain ⟨h1, h2⟩ := hl
    have ih := @ih h2
    simp only [partitionLoop]
    split
    · split
      · rfl
      · split
        · rfl
        · rw [← ih (by exact hp)]
    · split
      · split
        · rfl
        · rw [← ih (by exact hp)]
      · split
        · rw [← ih (by exact hp)]
        · rw [← ih (by simp only; rw [Dict.mem_keys_set]; exact Or.inr hp)]
          simp only
          rw [set_comm h1 _ _ _ hp]

theorem loop_set {fields : List Str} {tn : Str} {strict : Bool} {k : Str} {j : J} {m : List (Str × J)} (hn : (Dict.keys m).Nodup)
    (hk : k ∈ Dict.keys m) (ho : OwnProperty k) (hf : k ∈ fields) {p : Parts} :
    partitionLoop x fields tn strict (Dict.set k j m) p =
      (partitionLoop x fields tn strict m p).map fun q => { q with own := Dict.set k j q.own } := by
  induction m generalizing p with
  | nil => cases hk
  | cons e r ih =>
    obtain ⟨a, v⟩ := e
    simp only [Dict.keys, List.map_cons, List.mem_cons, List.nodup_cons] at hk hn
    by_cases ha : a = k
    · subst ha
      rw [Dict.set, if_pos rfl]
      have e1 : ¬ (['@'].isPrefixOf a = true) := by rw [Props.isAt_iff]; exact ho.1
      have e2 : ¬ (a.contains ':' = true) := by simpa using ho.2
      have e3 : ¬ ((strict && !fields.contains a) = true) := by simp [hf]
      simp only [partitionLoop]
      rw [if_neg e1, if_neg e2, if_neg e3, if_neg e1, if_neg e2, if_neg e3]
      rw [← loop_later (k := a) (j := j) hn.1 (by rw [Dict.mem_keys_set]; exact Or.inl rfl)]
      simp only [set_set]
    · rw [Dict.set, if_neg ha]
      have ih := @ih hn.2 (hk.resolve_left (fun h => ha h.symm))
      simp only [partitionLoop]
      split
      · split
        · rfl
        · split
          · rfl
          · rw [ih]
      · split
        · split
          · rfl
          · rw [ih]
        · split
          · rw [ih]
          · rw [ih]

theorem loop_mem {fields : List Str} {tn : Str} {strict : Bool} {k : Str} {m : List (Str × J)} (ho : OwnProperty k) (hf : k ∈ fields)
    {p q : Parts} (h : partitionLoop x fields tn strict m p = .ok q) (hk : k ∈ Dict.keys m ∨ k ∈ Dict.keys p.own) : k ∈ Dict.keys q.own := by
  induction m generalizing p with
  | nil =>
    simp only [partitionLoop, Except.ok.injEq] at h
    subst h
    exact hk.resolve_left (by simp [Dict.keys])
  | cons e r ih =>
    obtain ⟨a, v⟩ := e
    simp only [Dict.keys, List.map_cons, List.mem_cons] at hk
    simp only [partitionLoop] at h
    have hne : ∀ {b : Prop}, (a = k → ¬ b) → b → (k = a ∨ k ∈ r.map Prod.fst) ∨ k ∈ Dict.keys p.own → k ∈ Dict.keys r ∨ k ∈ Dict.keys p.own := by
      rintro b h1 hb ((rfl | h) | h)
      · exact absurd hb (h1 rfl)
      · exact Or.inl h
      · exact Or.inr h
    split at h
    · next hat =>
      have hk := hne (by rintro rfl; rw [Props.isAt_iff]; exact ho.1) hat hk
      split at h
      · cases h
      · split at h
        · cases h
        · exact ih h hk
    · split at h
      · next hc =>
        have hk := hne (by rintro rfl; simpa using ho.2) hc hk
        split at h
        · cases h
        · exact ih h hk
      · split at h
        · next hs =>
          have hk := hne (by rintro rfl; simp [hf]) hs hk
          exact ih h hk
        · apply ih h
          rcases hk with (rfl | hk) | hk
          · exact Or.inr (by simp only; rw [Dict.mem_keys_set]; exact Or.inl rfl)
          · exact Or.inl hk
          · exact Or.inr (by simp only; rw [Dict.mem_keys_set]; exact Or.inr hk)

theorem any_keys {l : List (Str × J)} {ns : List Str} : (l.any fun q => ns.contains q.1) = (Dict.keys l).any fun k => ns.contains k := by
  simp [Dict.keys, List.any_map, Function.comp_def]

/-- Replacing the value of an own property. -/
theorem fromParts_set {α : Type} {fields : List Str} {tn : String} {f g : Parts → Res α} {k : Str} {j : J} {m : List (Str × J)}
    (hn : (Dict.keys m).Nodup) (hk : k ∈ Dict.keys m) (ho : OwnProperty k) (hf : k ∈ fields)
    (h : ∀ p, partitionProperties x fields tn.toList true (.obj m) = .ok (some p) → f { p with own := Dict.set k j p.own } = g p) :
    fromParts x fields tn f (.obj (Dict.set k j m)) = fromParts x fields tn g (.obj m) := by
  unfold fromParts
  have hpp : partitionProperties x fields tn.toList true (.obj (Dict.set k j m)) =
      (partitionProperties x fields tn.toList true (.obj m)).map fun o => o.map fun q => { q with own := Dict.set k j q.own } := by
    simp only [partitionProperties]
    rw [loop_set hn hk ho hf]
    cases hq : partitionLoop x fields tn.toList true m {} with
    | error e => rfl
    | ok q =>
      have := loop_mem ho hf hq (Or.inl hk)
      simp only [Except.map]
      rw [any_keys, any_keys, Dict.keys_set, if_pos this]
      split <;> rfl
  rw [hpp]
  cases hq : partitionProperties x fields tn.toList true (.obj m) with
  | error e => rfl
  | ok o =>
    cases o with
    | none => rfl
    | some q =>
      have hmem : k ∈ Dict.keys q.own := by
        simp only [partitionProperties] at hq
        split at hq
        · cases hq
        · next p hp =>
          split at hq
          · cases hq
          · simp only [Except.ok.injEq, Option.some.injEq] at hq
            subst hq
            exact loop_mem ho hf hp (Or.inl hk)
      simp only [Except.map, Option.map]
      rw [any_keys, any_keys, Dict.keys_set, if_pos hmem]
      split
      · rfl
      · exact h q hq

theorem ofParts_set {p : Parts} {k : Str} {j : J}
    (hk : k ∉ descriptionFields) : Descr.ofParts ext x other { p with own := Dict.set k j p.own } = Descr.ofParts ext x other p := by
  have hg : ∀ f ∈ descriptionFields, Dict.get f (Dict.set k j p.own) = Dict.get f p.own :=
    fun f hf => Dict.get_set_ne (fun (h : k = f) => hk (by rw [h]; exact hf)) _ _
  have e : Descr.construct ext x other (Dict.set k j p.own) = Descr.construct ext x other p.own := by
    simp only [Descr.construct, argOf]
    rw [hg "datatype".toList (by decide), hg "aboutUrl".toList (by decide), hg "default".toList (by decide), hg "lang".toList (by decide),
      hg "null".toList (by decide), hg "ordered".toList (by decide), hg "propertyUrl".toList (by decide), hg "required".toList (by decide),
      hg "separator".toList (by decide), hg "textDirection".toList (by decide), hg "valueUrl".toList (by decide)]
  simp only [Descr.ofParts, e]

end

end Csvw.Links

import Verif.Py.Basic
/-!
# Python dictionaries

A Python `dict`/`OrderedDict` is an association list in insertion order. `set` on an existing key keeps the
position and replaces the value, like Python.
-/

namespace Csvw.Dict

variable {κ : Type _} {α : Type _} {β : Type _} [DecidableEq κ]

/-- `d.get(k)` (`none`: no such key). -/
def get (k : κ) : List (κ × α) → Option α
  | [] => none
  | (k', v) :: r => if k' = k then some v else get k r

/-- `d[k] = v`. -/
def set (k : κ) (v : α) : List (κ × α) → List (κ × α)
  | [] => [(k, v)]
  | (k', v') :: r => if k' = k then (k', v) :: r else (k', v') :: set k v r

/-- `k in d`. -/
def has (k : κ) (d : List (κ × α)) : Bool := d.any (fun p => decide (p.1 = k))

/-- `d.keys()`. -/
def keys (d : List (κ × α)) : List κ := d.map Prod.fst
/-- `d.values()`. -/
def values (d : List (κ × α)) : List α := d.map Prod.snd

/-- `d.update(pairs)`. -/
def update (d : List (κ × α)) (ps : List (κ × α)) : List (κ × α) :=
  ps.foldl (fun d p => set p.1 p.2 d) d

/-- `dict(pairs)`. -/
def ofPairs (ps : List (κ × α)) : List (κ × α) := update [] ps

/-- `d.setdefault(k, v)` (effect on the dict). -/
def setdefault (k : κ) (v : α) (d : List (κ × α)) : List (κ × α) :=
  if has k d then d else d ++ [(k, v)]

/-- `del d[k]` / `d.pop(k, None)` (effect on the dict). -/
def erase (k : κ) (d : List (κ × α)) : List (κ × α) := d.filter (fun p => !decide (p.1 = k))

/-! ## Laws -/

@[simp] theorem get_nil (k : κ) : get k ([] : List (κ × α)) = none := rfl

theorem get_set (k k' : κ) (v : α) (d : List (κ × α)) :
    get k (set k' v d) = if k' = k then some v else get k d := by
  induction d with
  | nil => simp [set, get]
  | cons p r ih =>
    obtain ⟨a, b⟩ := p
    simp only [set]
    by_cases h : a = k'
    · subst h
      simp only [if_true, get]
      by_cases h2 : a = k <;> simp [h2]
    · simp only [h, if_false, get, ih]
      by_cases h2 : a = k
      · simp only [h2, if_true]
        have : ¬ k' = k := fun hh => h (h2.trans hh.symm)
        simp [this]
      · simp [h2]

@[simp] theorem get_set_self (k : κ) (v : α) (d : List (κ × α)) : get k (set k v d) = some v := by
  simp [get_set]

theorem get_set_ne {k k' : κ} (h : k' ≠ k) (v : α) (d : List (κ × α)) :
    get k (set k' v d) = get k d := by simp [get_set, h]

theorem get_isSome_iff_mem_keys (k : κ) (d : List (κ × α)) :
    (get k d).isSome = true ↔ k ∈ keys d := by
  induction d with
  | nil => simp [get, keys]
  | cons p r ih =>
    obtain ⟨a, b⟩ := p
    simp only [get, keys, List.map_cons, List.mem_cons]
    by_cases h : a = k
    · simp [h]
    · simp only [h, if_false]
      rw [ih]; simp [keys, Ne.symm h]

theorem get_eq_none_iff (k : κ) (d : List (κ × α)) : get k d = none ↔ k ∉ keys d := by
  rw [← get_isSome_iff_mem_keys]; simp

theorem has_iff_mem_keys (k : κ) (d : List (κ × α)) : has k d = true ↔ k ∈ keys d := by
  simp [has, keys]

theorem mem_keys_set (k k' : κ) (v : α) (d : List (κ × α)) :
    k ∈ keys (set k' v d) ↔ k = k' ∨ k ∈ keys d := by
  rw [← get_isSome_iff_mem_keys, get_set, ← get_isSome_iff_mem_keys]
  by_cases h : k' = k
  · simp [h]
  · simp [h, Ne.symm h]

theorem set_eq_append_of_not_mem {k : κ} {v : α} {d : List (κ × α)} (h : k ∉ keys d) :
    set k v d = d ++ [(k, v)] := by
  induction d with
  | nil => rfl
  | cons p r ih =>
    obtain ⟨a, b⟩ := p
    simp only [keys, List.map_cons, List.mem_cons, not_or] at h
    simp only [set, Ne.symm h.1, if_false, List.cons_append]
    rw [ih h.2]

omit [DecidableEq κ] in
theorem keys_cons (p : κ × α) (d : List (κ × α)) : keys (p :: d) = p.1 :: keys d := rfl
omit [DecidableEq κ] in
theorem keys_nil : keys ([] : List (κ × α)) = [] := rfl

theorem keys_set (k : κ) (v : α) (d : List (κ × α)) :
    keys (set k v d) = if k ∈ keys d then keys d else keys d ++ [k] := by
  induction d with
  | nil => simp [set, keys_nil, keys_cons]
  | cons p r ih =>
    obtain ⟨a, b⟩ := p
    by_cases h : a = k
    · simp [set, h, keys_cons]
    · simp only [set, h, if_false, keys_cons, List.mem_cons, Ne.symm h, false_or]
      rw [ih]
      by_cases hm : k ∈ keys r <;> simp [hm]

theorem nodup_keys_set {k : κ} {v : α} {d : List (κ × α)} (h : (keys d).Nodup) :
    (keys (set k v d)).Nodup := by
  rw [keys_set]
  split
  · exact h
  · next hk =>
    rw [List.nodup_append]
    refine ⟨h, by simp, ?_⟩
    intro a ha b hb
    simp only [List.mem_singleton] at hb
    subst hb
    exact fun hab => hk (hab ▸ ha)

theorem nodup_keys_update {d ps : List (κ × α)} (h : (keys d).Nodup) : (keys (update d ps)).Nodup := by
  induction ps generalizing d with
  | nil => exact h
  | cons p r ih => exact ih (nodup_keys_set h)

theorem nodup_keys_ofPairs (ps : List (κ × α)) : (keys (ofPairs ps)).Nodup :=
  nodup_keys_update (by simp [keys])

theorem mem_keys_update (k : κ) (d ps : List (κ × α)) :
    k ∈ keys (update d ps) ↔ k ∈ keys d ∨ k ∈ keys ps := by
  induction ps generalizing d with
  | nil => simp [update, keys]
  | cons p r ih =>
    have := ih (set p.1 p.2 d)
    simp only [update, List.foldl_cons] at this ⊢
    rw [this, mem_keys_set]
    simp only [keys, List.map_cons, List.mem_cons]
    constructor
    · rintro ((h | h) | h)
      · exact .inr (.inl h)
      · exact .inl h
      · exact .inr (.inr h)
    · rintro (h | h | h)
      · exact .inl (.inr h)
      · exact .inl (.inl h)
      · exact .inr h

theorem mem_keys_ofPairs (k : κ) (ps : List (κ × α)) : k ∈ keys (ofPairs ps) ↔ k ∈ keys ps := by
  rw [ofPairs, mem_keys_update]; simp [keys]

/-- With distinct keys, `dict(pairs)` is the list of pairs. -/
theorem update_append_of_nodup {d ps : List (κ × α)} (h : (keys (d ++ ps)).Nodup) :
    update d ps = d ++ ps := by
  induction ps generalizing d with
  | nil => simp [update]
  | cons p r ih =>
    have hk : p.1 ∉ keys d := by
      simp only [keys, List.map_append, List.map_cons] at h ⊢
      rw [List.nodup_append] at h
      intro hm
      exact h.2.2 _ hm _ (List.mem_cons_self ..) rfl
    have e : update d (p :: r) = update (d ++ [p]) r := by
      simp only [update, List.foldl_cons]
      rw [set_eq_append_of_not_mem hk]
    rw [e, ih]
    · simp
    · simpa using h

theorem ofPairs_of_nodup {ps : List (κ × α)} (h : (keys ps).Nodup) : ofPairs ps = ps := by
  have := update_append_of_nodup (d := ([] : List (κ × α))) (ps := ps) (by simpa using h)
  simpa [ofPairs] using this

/-- `dict(pairs)[k]` is the value of the last pair with key `k`. -/
theorem get_update (k : κ) (d ps : List (κ × α)) :
    get k (update d ps) = (get k ps.reverse).or (get k d) := by
  induction ps generalizing d with
  | nil => simp [update]
  | cons p r ih =>
    have e : update d (p :: r) = update (set p.1 p.2 d) r := rfl
    rw [e, ih, get_set]
    have happ : ∀ (l m : List (κ × α)), get k (l ++ m) = (get k l).or (get k m) := by
      intro l m
      induction l with
      | nil => simp
      | cons q l ih2 =>
        simp only [List.cons_append, get]
        by_cases h : q.1 = k <;> simp [h, ih2]
    rw [List.reverse_cons, happ]
    cases get k r.reverse with
    | some x => simp
    | none =>
      simp only [Option.none_or, get]
      by_cases h : p.1 = k <;> simp [h]

theorem get_append (k : κ) (l m : List (κ × α)) : get k (l ++ m) = (get k l).or (get k m) := by
  induction l with
  | nil => simp
  | cons q l ih2 =>
    simp only [List.cons_append, get]
    by_cases h : q.1 = k <;> simp [h, ih2]

theorem get_mem {k : κ} {v : α} {d : List (κ × α)} (h : get k d = some v) : (k, v) ∈ d := by
  induction d with
  | nil => simp at h
  | cons p r ih =>
    obtain ⟨a, b⟩ := p
    simp only [get] at h
    by_cases h2 : a = k
    · simp only [h2, if_true, Option.some.injEq] at h
      simp [h2, h]
    · simp only [h2, if_false] at h
      exact List.mem_cons_of_mem _ (ih h)

theorem get_of_mem_nodup {k : κ} {v : α} {d : List (κ × α)} (hn : (keys d).Nodup) (h : (k, v) ∈ d) :
    get k d = some v := by
  induction d with
  | nil => simp at h
  | cons p r ih =>
    obtain ⟨a, b⟩ := p
    simp only [keys, List.map_cons, List.nodup_cons] at hn
    rcases List.mem_cons.1 h with h | h
    · cases h; simp [get]
    · have : a ≠ k := by
        rintro rfl
        exact hn.1 (List.mem_map.2 ⟨_, h, rfl⟩)
      simp only [get, this, if_false]
      exact ih hn.2 h

theorem get_reverse_of_nodup {k : κ} {d : List (κ × α)} (hn : (keys d).Nodup) : get k d.reverse = get k d := by
  have hn' : (keys d.reverse).Nodup := by
    simp only [keys, List.map_reverse]
    rw [List.nodup_iff_pairwise_ne, List.pairwise_reverse]
    exact (List.nodup_iff_pairwise_ne.1 hn).imp Ne.symm
  cases h : get k d with
  | some v => exact get_of_mem_nodup hn' (List.mem_reverse.2 (get_mem h))
  | none =>
    rw [get_eq_none_iff] at h ⊢
    simpa [keys] using h

theorem get_filter (p : κ × α → Bool) (k : κ) (m : List (κ × α)) (hn : (keys m).Nodup) :
    get k (m.filter p) = (get k m).filter (fun v => p (k, v)) := by
  induction m with
  | nil => rfl
  | cons q m ih =>
    obtain ⟨a, b⟩ := q
    rw [keys_cons, List.nodup_cons] at hn
    simp only [List.filter_cons]
    by_cases ha : a = k
    · subst ha
      have hnone : get a m = none := (get_eq_none_iff a m).2 hn.1
      cases hp : p (a, b) with
      | true => simp [get, Option.filter, hp]
      | false =>
        simp only [Bool.false_eq_true, if_false, ih hn.2, hnone, get, if_true]
        simp [Option.filter, hp]
    · cases hp : p (a, b) with
      | true => simp only [if_true, get, ha, if_false, ih hn.2]
      | false => simp only [Bool.false_eq_true, if_false, get, ha, ih hn.2]

end Csvw.Dict

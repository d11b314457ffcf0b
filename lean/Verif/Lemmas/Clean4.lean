import Verif.Lemmas.Clean3
import Verif.Lemmas.Metadata4
import Verif.Lemmas.Frictionless4
/-!
# Warnings about columns and schemas
-/

namespace Csvw
open Csvw.Spec

section
variable {ext : Ext} {x : MExt} {other : Base → Derived → J → Res Val}

/-- Names which cannot be given. -/
def privNames : List Str := partNames ++ privateFields

/-- What was partitioned. -/
theorem fromParts_inv {α : Type} {fields : List Str} {tn : String} {f : Parts → Res α} {m : List (Str × J)} (hn : (Dict.keys m).Nodup) {a : α}
    (h : fromParts x fields tn f (.obj m) = .ok a) :
    ∃ p, partitionProperties x fields tn.toList true (.obj m) = .ok (some p) ∧ f p = .ok a ∧
      ∀ k v, (k, v) ∈ m → k ∈ fields → k ∉ privNames := by
  unfold fromParts at h
  split at h
  · cases h
  · cases h
  next p hp =>
  split at h
  · cases h
  next hpriv =>
  refine ⟨p, hp, h, ?_⟩
  intro k v hm hk hkp
  have hown : OwnProperty k := by
    revert hkp
    have : ∀ k ∈ privNames, OwnProperty k := by decide +kernel
    exact this k
  have hmem : (k, v) ∈ p.own := by
    rw [(Props.C52_partition x _ _ _ _ p hn hp).1, List.mem_filter]
    exact ⟨hm, by simp [hown, hk]⟩
  unfold privNames at hkp
  rw [List.mem_append] at hkp
  rcases hkp with hkp | hkp
  · unfold partitionProperties at hp
    simp only at hp
    split at hp
    · cases hp
    split at hp
    · cases hp
    next hany =>
    cases hp
    exact hany (List.any_eq_true.2 ⟨(k, v), hmem, by simpa using hkp⟩)
  · exact hpriv (List.any_eq_true.2 ⟨(k, v), hmem, by simpa using hkp⟩)

/-- The inherited properties of a description which could be read. -/
theorem descr_inv {p : Parts} {d : Descr} (h : Descr.ofParts ext x other p = .ok d) :
    (argOf "datatype" p.own).truthy = true → ∃ dt, Datatype.fromvalue ext x other (argOf "datatype" p.own) = .ok dt := by
  intro ht
  unfold Descr.ofParts at h
  obtain ⟨d', h, -⟩ := Except.map_eq_ok.1 h
  unfold Descr.construct at h
  obtain ⟨dt, h1, -⟩ := Datatype.bind_ok h
  unfold convDatatype at h1
  rw [if_pos ht] at h1
  obtain ⟨dt, h2, -⟩ := Except.map_eq_ok.1 h1
  exact ⟨dt, h2⟩

/-- Reading an object with inherited properties. -/
theorem descr_iff' {fields : List Str} {tn : String} {m : List (Str × J)} (hj : DistinctKeys (.obj m)) {p : Parts}
    (hp : partitionProperties x fields tn.toList true (.obj m) = .ok (some p)) (hf : "datatype".toList ∈ fields) {d : Descr}
    (h : Descr.ofParts ext x other p = .ok d) : Warn.descr ext x m = false ↔ InheritedClean ext (tagOf x) m := by
  have e : argOf "datatype" p.own = argOf "datatype" m := own_arg hj.nodup hp (by decide) fun _ => hf
  have := descr_inv h
  rw [e] at this
  exact descr_iff hj this

theorem columnNames_fields : (∀ n ∈ Spec.columnNames, n.toList ∈ columnFields) ∧
    ∀ k ∈ columnFields, (∃ n ∈ Spec.columnNames, k = n.toList) ∨ k ∈ privNames := by
  constructor <;> decide +kernel

theorem listed_noArr {P : J → Prop} {j : J} (h : ∀ l, j ≠ .arr l) : Listed P j ↔ P j :=
  ⟨fun hl => by cases hl with | one h => exact h | list => exact absurd rfl (h _), .one⟩

theorem titlesIn_iff {j : J} : Warn.titlesIn j = false ↔ IsText j ∨ IsTexts j := by
  cases j with
  | arr l => simp only [Warn.titlesIn, Bool.not_eq_false', all_isStr_iff, IsText, reduceCtorEq, exists_false, false_or]
  | _ => simp [Warn.titlesIn, IsText, IsTexts, J.isStr]

theorem titles_iff {j : J} : Warn.titles x j = false ↔ TitlesClean (tagOf x) j := by
  cases j with
  | arr l =>
    simp only [Warn.titles, Bool.not_eq_false', all_isStr_iff, TitlesClean, IsTextOrNull, IsText, reduceCtorEq, exists_false, false_or, false_and,
      or_false]
  | obj m =>
    have e : TitlesClean (tagOf x) (.obj m) ↔ ∀ k t, (k, t) ∈ m → tagOf x k ∧ (IsText t ∨ IsTexts t) := by
      simp [TitlesClean, IsTextOrNull, IsText, IsTexts]
    rw [e]
    simp only [Warn.titles, Bool.or_eq_false_iff, Bool.not_eq_false', List.all_eq_true, List.any_eq_false, Bool.not_eq_true, titlesIn_iff]
    exact ⟨fun ⟨h1, h2⟩ k t hm => ⟨h1 _ hm, h2 _ hm⟩, fun h => ⟨fun e he => (h e.1 e.2 he).1, fun e he => (h e.1 e.2 he).2⟩⟩
  | _ => simp [Warn.titles, TitlesClean, IsTextOrNull, IsText, IsTexts]

theorem column_iff {m : List (Str × J)} (hj : DistinctKeys (.obj m)) {c : Column} (h : Column.fromvalue ext x other (.obj m) = .ok c) :
    Warn.column ext x m = false ↔ ColumnClean ext (tagOf x) m := by
  have hn := hj.nodup
  obtain ⟨p, hp, h, hpriv⟩ := fromParts_inv hn h
  unfold Column.ofParts at h
  obtain ⟨d, hd, h⟩ := Datatype.bind_ok h
  obtain ⟨name, hname, h⟩ := Datatype.bind_ok h
  obtain ⟨so, hso, h⟩ := Datatype.bind_ok h
  obtain ⟨vi, hvi, h⟩ := Datatype.bind_ok h
  rw [own_arg hn hp (by decide) (by decide)] at hname hso hvi
  have noArr : ∀ {k : String} {v : J}, Has m k v → ∀ {l}, v = .arr l → argOf k m = .arr l := by
    intro k v hv l hl
    unfold argOf
    rw [Dict.get_of_mem_nodup hn hv, hl]; rfl
  have h1 : Warn.conv J.isStr true (argOf "name" m) = false ↔ ∀ v, Has m "name" v → IsTextOrNull v := by
    rw [arg_iff hn "name" (f := Warn.conv J.isStr true) rfl]
    refine forall_congr' fun v => forall_congr' fun hv => ?_
    rw [conv_null_iff (ok := J.isStr) (fun j => isStr_iff) (fun _ => rfl) rfl, listed_noArr]
    · rfl
    · intro l hl
      rw [noArr hv hl] at hname
      simp [convName] at hname
  have hflag : ∀ k : String, (∃ b, convFlag (argOf k m) = .ok b) → (Warn.given k (Warn.conv J.isBool false) m = false ↔ ∀ v, Has m k v → IsFlag v) := by
    rintro k ⟨b, hk⟩
    rw [given_iff hn]
    refine forall_congr' fun v => forall_congr' fun hv => ?_
    rw [conv_iff (fun _ => rfl) rfl, Listed.congr (fun j => isBool_iff), listed_noArr]
    · simp
    · intro l hl
      rw [noArr hv hl] at hk
      simp [convFlag] at hk
  unfold Warn.column
  simp only [Bool.or_eq_false_iff]
  rw [parts_iff columnNames_fields.1 columnNames_fields.2 hpriv, descr_iff' hj hp (by decide) hd, h1, hflag _ ⟨_, hso⟩, hflag _ ⟨_, hvi⟩,
    arg_iff hn "titles" (f := Warn.titles x) rfl]
  simp only [titles_iff]
  constructor
  · rintro ⟨⟨⟨⟨⟨a, b⟩, c⟩, d⟩, e⟩, f⟩
    refine ⟨a, b, c, ?_, e⟩
    intro n hn
    simp only [List.mem_cons, List.not_mem_nil, or_false] at hn
    rcases hn with rfl | rfl
    · exact d
    · exact f
  · rintro ⟨a, b, c, d, e⟩
    exact ⟨⟨⟨⟨⟨a, b⟩, c⟩, d _ (by simp)⟩, e⟩, d _ (by simp)⟩

/-! ## The names of columns -/

/-- What a column has from its description. -/
structure ColumnOf (m : List (Str × J)) (c : Column) : Prop where
  name : ∀ n, nonEmpty c.name = some n ↔ Named m n
  title : ∀ t, nonEmpty (NatLang.first c.titles) = some t ↔ Titled m t
  virtual : c.virtual = true ↔ Has m "virtual" (.bool true)

theorem nonEmpty_iff {o : Option Str} {s : Str} : nonEmpty o = some s ↔ o = some s ∧ s ≠ [] := by
  unfold nonEmpty
  simp [Option.filter_eq_some_iff]

theorem strsOf_head {t : Str} {l : List J} (h : l.all J.isStr = true) : (∃ r, strsOf l = t :: r) ↔ ∃ r, l = .str t :: r := by
  cases l with
  | nil => simp [strsOf]
  | cons j r =>
    cases j with
    | str s => simp [strsOf]
    | _ => simp [J.isStr] at h

theorem get_none_ofPairs (m : List (Str × List Str)) : Dict.get (none : Option Str) (Dict.ofPairs (m.map fun p => (some p.1, p.2))) = none := by
  cases hg : Dict.get (none : Option Str) (Dict.ofPairs (m.map fun p => (some p.1, p.2))) with
  | none => rfl
  | some v =>
    have := List.mem_map_of_mem (f := Prod.fst) (Dict.get_mem hg)
    rw [show List.map Prod.fst (Dict.ofPairs (m.map fun p => (some p.1, p.2))) = Dict.keys (Dict.ofPairs (m.map fun p => (some p.1, p.2))) from rfl,
      Dict.mem_keys_ofPairs] at this
    simp [Dict.keys] at this

theorem columnOf {m : List (Str × J)} (hj : DistinctKeys (.obj m)) {c : Column} (h : Column.fromvalue ext x other (.obj m) = .ok c)
    (hc : ColumnClean ext (tagOf x) m) : ColumnOf m c := by
  have hn := hj.nodup
  obtain ⟨p, hp, h, -⟩ := fromParts_inv hn h
  unfold Column.ofParts at h
  obtain ⟨d, hd, h⟩ := Datatype.bind_ok h
  obtain ⟨name, hname, h⟩ := Datatype.bind_ok h
  obtain ⟨so, hso, h⟩ := Datatype.bind_ok h
  obtain ⟨vi, hvi, h⟩ := Datatype.bind_ok h
  rw [own_arg hn hp (by decide) (by decide)] at hname hso hvi
  simp only [pure, Except.pure, Except.ok.injEq] at h
  rw [own_arg hn hp (by decide) (by decide)] at h
  subst h
  refine ⟨fun n => ?_, fun t => ?_, ?_⟩
  · simp only
    rw [nonEmpty_iff]
    unfold Named
    rw [← arg_eq_iff hn "name" (by simp)]
    cases hv : argOf "name" m <;> rw [hv] at hname <;> simp only [convName, Except.ok.injEq, reduceCtorEq] at hname <;> subst hname <;> simp
  · simp only
    rw [nonEmpty_iff]
    unfold Titled
    rw [and_comm]
    refine and_congr Iff.rfl ?_
    rw [← arg_eq_iff hn "titles" (by simp), exists_congr fun l => (arg_eq_iff hn "titles" (v := .arr (.str t :: l)) (by simp)).symm]
    cases hv : argOf "titles" m with
    | str s => simp [convTitles, NatLang.construct, NatLang.first, Dict.get]
    | arr l =>
      have hl : l.all J.isStr = true := by
        rw [all_isStr_iff]
        have := hc.titles _ ((arg_eq_iff hn "titles" (by simp)).1 hv)
        simpa [TitlesClean, IsTextOrNull, IsText] using this
      simp only [convTitles, NatLang.construct, if_pos hl, NatLang.first, Dict.get, if_pos rfl, reduceCtorEq, J.arr.injEq, false_or]
      rw [← strsOf_head hl]
      cases strsOf l <;> simp [eq_comm]
    | obj o =>
      simp only [convTitles, NatLang.construct]
      split
      · next n hn' =>
        split at hn'
        · cases hn'
          simp only [NatLang.first, reduceCtorEq, exists_false, or_false, iff_false]
          have := get_none_ofPairs (o.map fun p => (p.1, titlesOf p.2))
          rw [List.map_map] at this
          simp only [Function.comp_def] at this
          rw [this]; simp
        · cases hn'
      · simp [NatLang.first]
    | _ => simp [convTitles, NatLang.construct, NatLang.first]
  · simp only
    rw [← arg_eq_iff hn "virtual" (by simp)]
    cases hv : argOf "virtual" m <;> rw [hv] at hvi <;> simp only [convFlag, Except.ok.injEq, reduceCtorEq] at hvi <;> subst hvi <;> simp

theorem header_iff {m : List (Str × J)} {c : Column} (h : ColumnOf m c) (dflt s : Str) :
    ((nonEmpty c.name).or (nonEmpty (NatLang.first c.titles))).getD dflt = s ↔ Headed m dflt s := by
  unfold Headed
  have hn : (∀ n, ¬ Named m n) ↔ nonEmpty c.name = none := by
    rw [Option.eq_none_iff_forall_ne_some]
    exact forall_congr' fun n => not_congr (h.name n).symm
  have ht : (∀ n, ¬ Titled m n) ↔ nonEmpty (NatLang.first c.titles) = none := by
    rw [Option.eq_none_iff_forall_ne_some]
    exact forall_congr' fun n => not_congr (h.title n).symm
  rw [hn, ht, ← h.name, ← h.title]
  cases nonEmpty c.name with
  | some n => simp
  | none => cases nonEmpty (NatLang.first c.titles) <;> simp [eq_comm]

end

end Csvw

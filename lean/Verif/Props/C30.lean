import Verif.Spec.Inherit
import Verif.Spec.Dsv
import Verif.Lemmas.Datatype
import Verif.Lemmas.Common
import Verif.Model.Column
/-!
# C30: inherited properties
-/

namespace Csvw.Props
open Csvw.Spec

section
variable {ext : Ext} {x : MExt} {other : Base → Derived → J → Res Val}

theorem argOf_unset {k : String} {m : List (Str × J)} (h : ∀ v, Dict.get k.toList m = some v → v = .null) :
    argOf k m = .null := by
  unfold argOf
  cases hg : Dict.get k.toList m with
  | none => rfl
  | some v => rw [h v hg]; rfl

theorem argOf_set {k : String} {m : List (Str × J)} {v : J} (h : Dict.get k.toList m = some v) : argOf k m = v := by
  unfold argOf; rw [h]; rfl

/-- A property which is not set is `None`, except for `default`, `lang` and `null`. -/
theorem get_unset {p : Prp} (hp : p ≠ .default ∧ p ≠ .lang ∧ p ≠ .null) {m : List (Str × J)} {d : Descr}
    (hd : Descr.construct ext x other m = .ok d) (h : Unset p m) : d.get p = .json .null := by
  unfold Descr.construct at hd
  obtain ⟨dt, hdt, hd⟩ := Datatype.bind_ok hd
  cases hd
  cases p with
  | aboutUrl => simp only [Descr.get]; rw [argOf_unset (k := "aboutUrl") h]; rfl
  | datatype =>
    rw [argOf_unset (k := "datatype") h] at hdt
    cases hdt; rfl
  | default => exact absurd rfl hp.1
  | lang => exact absurd rfl hp.2.1
  | null => exact absurd rfl hp.2.2
  | ordered => simp only [Descr.get]; rw [argOf_unset (k := "ordered") h]; rfl
  | propertyUrl => simp only [Descr.get]; rw [argOf_unset (k := "propertyUrl") h]; rfl
  | required => simp only [Descr.get]; rw [argOf_unset (k := "required") h]
  | separator => simp only [Descr.get]; rw [argOf_unset (k := "separator") h]; rfl
  | textDirection => simp only [Descr.get]; rw [argOf_unset (k := "textDirection") h]; rfl
  | valueUrl => simp only [Descr.get]; rw [argOf_unset (k := "valueUrl") h]; rfl

/-- A property which is set has the value which is meant. -/
theorem get_set {p : Prp} {m : List (Str × J)} {d : Descr} {v : J} {w : PVal}
    (hd : Descr.construct ext x other m = .ok d) (h : Dict.get (propName p) m = some v) (hv : Means ext x other p v w) :
    d.get p = w := by
  unfold Descr.construct at hd
  obtain ⟨dt, hdt, hd⟩ := Datatype.bind_ok hd
  cases hd
  cases hv with
  | aboutUrl s => simp only [Descr.get]; rw [argOf_set h]; rfl
  | propertyUrl s => simp only [Descr.get]; rw [argOf_set h]; rfl
  | valueUrl s => simp only [Descr.get]; rw [argOf_set h]; rfl
  | ordered b => simp only [Descr.get]; rw [argOf_set h]; rfl
  | required b => simp only [Descr.get]; rw [argOf_set h]
  | separator s => simp only [Descr.get]; rw [argOf_set h]; rfl
  | textDirection s hs =>
    simp only [Descr.get]; rw [argOf_set h]
    simp only [List.mem_cons, List.not_mem_nil, or_false] at hs
    rcases hs with rfl | rfl | rfl | rfl <;> rfl
  | datatype s dd hne hf =>
    simp only [Descr.get]
    rw [argOf_set h] at hdt
    unfold convDatatype at hdt
    rw [if_pos (by simpa [J.truthy] using hne), hf] at hdt
    cases hdt; rfl
  | datatypeObj mm dd hne hf =>
    simp only [Descr.get]
    rw [argOf_set h] at hdt
    unfold convDatatype at hdt
    rw [if_pos (by simpa [J.truthy] using hne), hf] at hdt
    cases hdt; rfl

theorem inherit_cons_none {p : Prp} {d : Descr} {ds : List Descr} (h : d.get p = .json .null) :
    inherit p (d :: ds) = inherit p ds := by
  cases ds with
  | nil => simp [inherit, h]
  | cons e ds => simp [inherit, h]

theorem inherit_cons_some {p : Prp} {d : Descr} {ds : List Descr} (h : d.get p ≠ .json .null) :
    inherit p (d :: ds) = d.get p := by
  cases ds with
  | nil => simp [inherit]
  | cons e ds => simp [inherit, h]

theorem Means.ne_null {p : Prp} {v : J} {w : PVal} (h : Means ext x other p v w) : w ≠ .json .null := by
  cases h <;> simp

theorem Means.inherited {p : Prp} {v : J} {w : PVal} (h : Means ext x other p v w) :
    p ≠ .default ∧ p ≠ .lang ∧ p ≠ .null := by
  cases h <;> simp

/-- **C30** If a description (the column, or its schema, table or table group) sets an inherited property, and no description
nearer to the column does, then the column inherits this value. The chain of descriptions is any list, of any length, of
descriptions made from JSON objects. -/
theorem C30_nearest {p : Prp} {before : List (List (Str × J))} {m : List (Str × J)} {ds : List Descr} {d : Descr}
    {after : List Descr} {v : J} {w : PVal}
    (hds : All2 (fun m d => Descr.construct ext x other m = .ok d) before ds)
    (hb : ∀ m ∈ before, Unset p m)
    (hd : Descr.construct ext x other m = .ok d)
    (hm : Dict.get (propName p) m = some v) (hv : Means ext x other p v w) :
    inherit p (ds ++ d :: after) = w := by
  induction hds with
  | nil =>
    have := get_set hd hm hv
    rw [List.nil_append, inherit_cons_some (by rw [this]; exact Means.ne_null hv), this]
  | @cons a b as bs hab _ ih =>
    rw [List.cons_append, inherit_cons_none (get_unset (Means.inherited hv) hab (hb _ (List.mem_cons_self ..)))]
    exact ih fun m hm => hb m (List.mem_cons_of_mem _ hm)

/-- **C30** If no description sets the property, the inherited value is `None`. -/
theorem C30_none {p : Prp} (hp : p ≠ .default ∧ p ≠ .lang ∧ p ≠ .null) {ms : List (List (Str × J))} {ds : List Descr}
    (hds : All2 (fun m d => Descr.construct ext x other m = .ok d) ms ds) (hb : ∀ m ∈ ms, Unset p m) :
    inherit p ds = .json .null := by
  induction hds with
  | nil => rfl
  | @cons a b as bs hab _ ih =>
    rw [inherit_cons_none (get_unset hp hab (hb _ (List.mem_cons_self ..)))]
    exact ih fun m hm => hb m (List.mem_cons_of_mem _ hm)

/-! ## `null` -/

theorem null_of_construct {m : List (Str × J)} {d : Descr} (hd : Descr.construct ext x other m = .ok d) :
    d.null = ((Dict.get "null".toList m).map convNull).getD [[]] := by
  unfold Descr.construct at hd
  obtain ⟨dt, hdt, hd⟩ := Datatype.bind_ok hd
  cases hd; rfl

theorem strsOf_map (l : List Str) : strsOf (l.map J.str) = l := by
  induction l with
  | nil => rfl
  | cons a l ih => simp only [List.map_cons, strsOf, ih]

theorem convNull_markers {j : J} {l : List Str} (h : NullMarkers j l) : convNull j = l := by
  cases h with
  | no => rfl
  | one s => rfl
  | many l =>
    simp only [convNull]
    rw [if_pos (by simp [J.isStr]), strsOf_map]

/-- **C30** (null markers) The null markers of a column are the nearest ones which were given, provided they are not just the
default `""`. -/
theorem C30_null_nearest {before : List (List (Str × J))} {m : List (Str × J)} {ds : List Descr} {d : Descr}
    {after : List Descr} {v : J} {l : List Str}
    (hds : All2 (fun m d => Descr.construct ext x other m = .ok d) before ds)
    (hb : ∀ m ∈ before, Dict.get "null".toList m = none)
    (hd : Descr.construct ext x other m = .ok d)
    (hm : Dict.get "null".toList m = some v) (hv : NullMarkers v l) (hl : l ≠ [[]]) :
    inheritNull (ds ++ d :: after) = l := by
  have hdn : d.null = l := by rw [null_of_construct hd, hm]; exact convNull_markers hv
  induction hds with
  | nil =>
    cases after with
    | nil => simpa [inheritNull] using hdn
    | cons e r => simp only [List.nil_append, inheritNull]; rw [hdn, if_neg hl]
  | @cons a b as bs hab _ ih =>
    have hbn : b.null = [[]] := by rw [null_of_construct hab, hb _ (List.mem_cons_self ..)]; rfl
    rw [List.cons_append]
    have : ∀ e r, inheritNull (b :: e :: r) = inheritNull (e :: r) := by
      intro e r; simp only [inheritNull]; rw [if_pos hbn]
    cases hbs : bs ++ d :: after with
    | nil => simp at hbs
    | cons e r =>
      rw [this, ← hbs]
      exact ih fun m hm => hb m (List.mem_cons_of_mem _ hm)

/-- Without any `null` property, the only null marker is the empty string. -/
theorem C30_null_default {ms : List (List (Str × J))} {ds : List Descr}
    (hds : All2 (fun m d => Descr.construct ext x other m = .ok d) ms ds)
    (hb : ∀ m ∈ ms, Dict.get "null".toList m = none) : inheritNull ds = [[]] := by
  induction hds with
  | nil => rfl
  | @cons a b as bs hab _ ih =>
    have hbn : b.null = [[]] := by rw [null_of_construct hab, hb _ (List.mem_cons_self ..)]; rfl
    cases bs with
    | nil => simpa [inheritNull] using hbn
    | cons e r =>
      simp only [inheritNull]; rw [if_pos hbn]
      exact ih fun m hm => hb m (List.mem_cons_of_mem _ hm)

/-- **C30 does not hold** for `null`: a column which sets `null` to `""` inherits the null markers of its schema. -/
theorem C30_violated_null :
    ∃ col schema : Descr,
      Descr.construct ext x other [("null".toList, .str [])] = .ok col ∧
      Descr.construct ext x other [("null".toList, .str "NA".toList)] = .ok schema ∧
      inheritNull [col, schema] = ["NA".toList] :=
  ⟨_, _, rfl, rfl, rfl⟩

/-! ## `default` and `lang` -/

/-- **C30 does not hold** for `default` and `lang`: they are never inherited. -/
theorem C30_violated_default {m : List (Str × J)} {d : Descr} (hd : Descr.construct ext x other m = .ok d)
    (ancestors : List Descr) :
    (Unset .default m → inherit .default (d :: ancestors) = .json (.str [])) ∧
    (Dict.get "lang".toList m = none → inherit .lang (d :: ancestors) = .json (.str "und".toList)) := by
  unfold Descr.construct at hd
  obtain ⟨dt, hdt, hd⟩ := Datatype.bind_ok hd
  cases hd
  constructor
  · intro h
    rw [inherit_cons_some (by simp [Descr.get])]
    simp only [Descr.get, PVal.json.injEq, J.str.injEq]
    cases hg : Dict.get "default".toList m with
    | none => rfl
    | some v => rw [h v hg]; rfl
  · intro h
    rw [inherit_cons_some]
    · simp only [Descr.get]; rw [h]; rfl
    · simp only [Descr.get]; rw [h]; simp

/-- A concrete case: the table group sets a default value, the column does not. -/
theorem C30_violated_default_case :
    ∃ col group : Descr,
      Descr.construct ext x other [] = .ok col ∧
      Descr.construct ext x other [("default".toList, .str "x".toList)] = .ok group ∧
      inherit .default [col, {}, {}, group] = .json (.str []) ∧ inherit .default [group] = .json (.str "x".toList) :=
  ⟨_, _, rfl, rfl, rfl, rfl⟩

end

/-- Non-vacuity of `C30_nearest`: a column without separator, a schema without, a table with `;`, a group with `,`. -/
example (ext : Ext) (x : MExt) (other : Base → Derived → J → Res Val) :
    ∃ ds d g, All2 (fun m d => Descr.construct ext x other m = .ok d) [[], [("required".toList, .bool true)]] ds ∧
      Descr.construct ext x other [("separator".toList, .str [';'])] = .ok d ∧
      Descr.construct ext x other [("separator".toList, .str [','])] = .ok g ∧
      inherit .separator (ds ++ d :: [g]) = .json (.str [';']) := by
  refine ⟨_, _, _, .cons rfl (.cons rfl .nil), rfl, rfl, ?_⟩
  exact C30_nearest (ext := ext) (x := x) (other := other) (before := [[], [("required".toList, .bool true)]])
    (m := [("separator".toList, .str [';'])]) (v := .str [';'])
    (.cons rfl (.cons rfl .nil)) (by intro m hm v hv; simp at hm; rcases hm with rfl | rfl <;> cases hv) rfl rfl (.separator _)

end Csvw.Props

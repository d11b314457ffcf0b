import Verif.Lemmas.Datatype
import Verif.Lemmas.Metadata6
import Verif.Lemmas.Frictionless4
import Verif.Spec.ToJson
import Verif.Lemmas.JsonLd
import Verif.Props.C51
import Verif.Props.C50
/-!
# C64, C65: conversion of tables to JSON
-/

namespace Csvw.Props
open Csvw.JsonLd Csvw.ToJson Csvw.Spec Csvw.Spec.ToJson

section
variable {e : Env} {data : Str → Str}

theorem rowToJson_ok {t : Table} {nm : Bool} {n : Nat} {line : Int} {row : RowDict} {o : Out} (h : rowToJson e t nm n line row = .ok o) :
    ∃ d, describes e t nm row n = .ok d ∧ RowObject (e.jx.resolve t.url) n line d o := by
  unfold rowToJson at h
  obtain ⟨d, hd, h⟩ := Datatype.bind_ok h
  cases h
  refine ⟨d, hd, rfl, rfl, ?_⟩
  have hr : rowTitles e t row = [] ∨ ∃ o, rowTitles e t row = [("titles".toList, o)] := by
    unfold rowTitles
    split
    · exact .inl rfl
    · exact .inr ⟨_, rfl⟩
  rcases hr with hr | ⟨o, hr⟩ <;> rw [hr] <;> rfl

theorem rowsToJson_ok {t : Table} {nm : Bool} : ∀ {rows : List (Int × RowDict)} {n : Nat} {os : List Out}, rowsToJson e t nm n rows = .ok os →
    os.length = rows.length ∧ ∀ i (h : i < rows.length) (h' : i < os.length),
      ∃ d, describes e t nm rows[i].2 (n + i) = .ok d ∧ RowObject (e.jx.resolve t.url) (n + i) rows[i].1 d os[i]
  | [], n, os, h => by
    cases h
    exact ⟨rfl, fun i h => absurd h (by simp)⟩
  | (line, row) :: r, n, os, h => by
    unfold rowsToJson at h
    obtain ⟨a, ha, h'⟩ := Datatype.bind_ok h
    obtain ⟨as, has, h''⟩ := Datatype.bind_ok h'
    cases h''
    obtain ⟨h1, h2⟩ := rowsToJson_ok has
    refine ⟨by simp [h1], fun i hi hi' => ?_⟩
    cases i with
    | zero => exact rowToJson_ok ha
    | succ i =>
      have := h2 i (by simpa using hi) (by simpa using hi')
      rw [show n + 1 + i = n + (i + 1) by omega] at this
      exact this

/-- The object for a table: the URL and an object for each row which is read from its file. -/
structure TableObject (e : Env) (noMetadata : Bool) (t : Table) (text : Str) (o : Out) : Prop where
  url : prop "url" o = some (.json (.str (e.jx.resolve t.url)))
  read : (t.iterdicts e.ext e.x false false text).err = none
  rows : ∃ os, prop "row" o = some (.list os) ∧ os.length = (t.iterdicts e.ext e.x false false text).rows.length ∧
    ∀ i line row ro, (t.iterdicts e.ext e.x false false text).rows[i]? = some (line, row) → os[i]? = some ro →
      ∃ d, describes e t noMetadata row (i + 1) = .ok d ∧ RowObject (e.jx.resolve t.url) (i + 1) line d ro

theorem get_update_ne {d m : List (Str × Out)} {k : Str} (h : k ∉ Dict.keys m) : Dict.get k (update d m) = Dict.get k d := by
  unfold update
  induction m generalizing d with
  | nil => rfl
  | cons a r ih =>
    simp only [Dict.keys, List.map_cons, List.mem_cons, not_or] at h
    rw [List.foldl_cons, ih h.2, Dict.get_set_ne (Ne.symm h.1)]

/-- Common properties have a `:` in their names. -/
def CommonOnly (m : List (Str × J)) : Prop := ∀ k ∈ Dict.keys m, k.contains ':' = true

theorem toJson_common_keys {f : Bool} {m m' : List (Str × J)} (hc : CommonOnly m) (h : JsonLd.toJson f (.obj m) = .ok (.obj m')) :
    ∀ k ∈ Dict.keys m', k.contains ':' = true ∨ k = "@type".toList := by
  have hv : Spec.JsonLd.keyValue ∉ Dict.keys m := fun hm => by have := hc _ hm; revert this; decide
  have hi : Dict.keys m ≠ [Spec.JsonLd.keyId] := fun he => by
    have := hc Spec.JsonLd.keyId (by rw [he]; simp)
    revert this; decide
  rw [toJson_obj f hv hi] at h
  unfold mapFrom123 at h
  obtain ⟨m'', h1, h2⟩ := Except.map_eq_ok.1 h
  cases h2
  obtain ⟨h3, -⟩ := (collectMap_ok f).1 h1
  intro k hk
  rw [Dict.mem_keys_ofPairs, h3] at hk
  obtain ⟨k', hk', rfl⟩ := List.mem_map.1 hk
  unfold renamed
  split
  · exact .inr rfl
  · exact .inl (hc _ hk')

theorem tableHead_url {d : TableD} {t : Table} {m : List (Str × Out)} (hc : CommonOnly d.like.props.common) (h : tableHead e d t = .ok m) :
    Dict.get "url".toList m = some (.json (.str (e.jx.resolve t.url))) := by
  unfold tableHead at h
  obtain ⟨notes, hn, h'⟩ := Datatype.bind_ok h
  obtain ⟨c, hcj, h''⟩ := Datatype.bind_ok h'
  obtain ⟨cm, hcm, h3⟩ := Datatype.bind_ok h''
  cases h3
  cases c with
  | obj m' =>
    injection hcm with hcm
    subst hcm
    rw [get_update_ne]
    · rfl
    · intro hk
      have : "url".toList ∈ Dict.keys m' := by
        simpa [outJson, Dict.keys] using hk
      rcases toJson_common_keys hc hcj _ this with h | h <;> revert h <;> decide
  | _ => cases hcm

theorem tableToJson_ok {nm : Bool} {d : TableD} {t : Table} {text : Str} {o : Out} (hc : CommonOnly d.like.props.common)
    (h : tableToJson e nm d t text = .ok o) : TableObject e nm t text o := by
  unfold tableToJson at h
  obtain ⟨head, hh, h'⟩ := Datatype.bind_ok h
  obtain ⟨rows, hr, h''⟩ := Datatype.bind_ok h'
  cases herr : (t.iterdicts e.ext e.x false false text).err with
  | some err => simp only [herr] at h''; cases h''
  | none =>
    simp only [herr] at h''
    cases h''
    obtain ⟨h1, h2⟩ := rowsToJson_ok hr
    refine ⟨?_, herr, rows, Dict.get_set_self _ _ _, h1, ?_⟩
    · show Dict.get "url".toList _ = _
      rw [Dict.get_set_ne (by decide)]
      unfold withComments
      split
      · exact tableHead_url hc hh
      · rw [Dict.get_set_ne (by decide)]; exact tableHead_url hc hh
    · intro i line row ro hi ho
      obtain ⟨hi1, hi2⟩ := List.getElem?_eq_some_iff.1 hi
      obtain ⟨ho1, ho2⟩ := List.getElem?_eq_some_iff.1 ho
      have := h2 i hi1 ho1
      rw [hi2, ho2, show 1 + i = i + 1 by omega] at this
      exact this

theorem tablesToJson_ok {nm : Bool} : ∀ {l : List (TableD × Table)} {os : List Out}, (∀ p ∈ l, CommonOnly p.1.like.props.common) →
    tablesToJson e data nm l = .ok os →
    All2 (fun p o => TableObject e nm p.2 (data p.2.url) o) (l.filter fun p => !p.1.suppressOutput.truthy) os
  | [], os, _, h => by cases h; exact .nil
  | (d, t) :: r, os, hc, h => by
    unfold tablesToJson at h
    by_cases hs : d.suppressOutput.truthy = true
    · rw [if_pos hs] at h
      rw [List.filter_cons_of_neg (by simp [hs])]
      exact tablesToJson_ok (fun p hp => hc p (by simp [hp])) h
    · rw [if_neg hs] at h
      obtain ⟨a, ha, h'⟩ := Datatype.bind_ok h
      obtain ⟨as, has, h''⟩ := Datatype.bind_ok h'
      cases h''
      rw [List.filter_cons_of_pos (by simp [hs])]
      exact .cons (tableToJson_ok (hc (d, t) (by simp)) ha) (tablesToJson_ok (fun p hp => hc p (by simp [hp])) has)

/-- **C64** The JSON for a dataset lists the tables which are not suppressed, in order. Each lists all rows which are read from the file of the
table (non-strictly), in order: with consecutive numbers starting from 1, the line in the data file, and the objects the row describes. -/
theorem C64_tables {d : Data} {out : Out} (hc : ∀ p ∈ d.tables, CommonOnly p.1.like.props.common) (h : ToJson.toJson e data d = .ok out) :
    ∃ os, prop "tables" out = some (.list os) ∧
      All2 (fun p o => TableObject e d.noMetadata p.2 (data p.2.url) o) (d.tables.filter fun p => !p.1.suppressOutput.truthy) os := by
  unfold ToJson.toJson at h
  obtain ⟨c, hcj, h'⟩ := Datatype.bind_ok h
  obtain ⟨ts, hts, h''⟩ := Datatype.bind_ok h'
  cases h''
  exact ⟨ts, Dict.get_set_self _ _ _, tablesToJson_ok hc hts⟩

theorem like_common {ext : Ext} {x : MExt} {other : Base → Derived → J → Res Val} {lk : EncLookup} {fields : List Str} {tn : Str} {j : J}
    {p : Parts} {l : TableLike} (hd : DistinctKeys j) (h : partitionProperties x fields tn true j = .ok (some p))
    (hl : TableLike.ofParts ext x other lk p = .ok l) : CommonOnly l.props.common := by
  unfold TableLike.ofParts at hl
  obtain ⟨d, h0, h1⟩ := Datatype.bind_ok hl
  obtain ⟨_, -, h2⟩ := Datatype.bind_ok h1
  obtain ⟨_, -, h3⟩ := Datatype.bind_ok h2
  obtain ⟨_, -, h4⟩ := Datatype.bind_ok h3
  obtain ⟨_, -, h5⟩ := Datatype.bind_ok h4
  obtain ⟨_, -, h6⟩ := Datatype.bind_ok h5
  obtain ⟨_, -, h7⟩ := Datatype.bind_ok h6
  cases h7
  have g := (descrFrom hd h h0).good.commonKeys
  intro k hk
  obtain ⟨e, he, rfl⟩ := List.mem_map.1 hk
  simpa using (g e he).2

theorem table_common {ext : Ext} {x : MExt} {other : Base → Derived → J → Res Val} {lk : EncLookup} {j : J} {t : TableD}
    (hd : DistinctKeys j) (h : TableD.fromvalue ext x other lk j = .ok t) : CommonOnly t.like.props.common := by
  obtain ⟨p, hp, h⟩ := fromParts_ok h
  unfold TableD.ofParts at h
  obtain ⟨l, hl, h'⟩ := Datatype.bind_ok h
  split at h'
  · cases h'
  · cases h'
    exact like_common hd hp hl

/-- The group which `CSVW` uses for metadata: names of columns which are not allowed are removed. -/
def cleanGroup (g : GroupD) : GroupD := { g with tables := g.tables.map TableD.fixNames }

/-- The hypothesis of `C64_tables` holds for all tables of a description. -/
theorem C64_described {ext : Ext} {x : MExt} {other : Base → Derived → J → Res Val} {lk : EncLookup} {j : J} {g : GroupD} {nm : Bool}
    (hd : DistinctKeys j) (h : GroupD.fromvalue ext x other lk j = .ok g) :
    ∀ p ∈ (Data.mk (.inr (cleanGroup g)) nm).tables, CommonOnly p.1.like.props.common := by
  obtain ⟨p, hp, h⟩ := fromParts_ok h
  unfold GroupD.ofParts at h
  obtain ⟨l, hl, h'⟩ := Datatype.bind_ok h
  obtain ⟨ts, hts, h''⟩ := Datatype.bind_ok h'
  cases h''
  intro q hq
  simp only [Data.tables, cleanGroup, List.mem_map] at hq
  obtain ⟨t, ⟨t0, ht0, rfl⟩, rfl⟩ := hq
  show CommonOnly t0.like.props.common
  unfold convTables at hts
  split at hts
  · cases hts; cases ht0
  · next l' hl' =>
    obtain ⟨m, hm, hf⟩ := mapObjs_mem hts t0 ht0
    refine table_common ?_ hf
    have := own_distinct hd hp _ _ (Dict.get_mem hl')
    cases this with
    | arr h => exact h _ hm
  · cases hts; cases ht0
  · cases hts; cases ht0
  · cases hts

/-! ## Minimal mode -/

theorem each_ok {f : Out → Res (List Out)} : ∀ {l xs : List Out}, each f l = .ok xs → ∃ yss, All2 (fun a ys => f a = .ok ys) l yss ∧ xs = yss.flatten
  | [], xs, h => by cases h; exact ⟨[], .nil, rfl⟩
  | a :: r, xs, h => by
    unfold each at h
    obtain ⟨y, hy, h'⟩ := Datatype.bind_ok h
    obtain ⟨ys, hys, h''⟩ := Datatype.bind_ok h'
    cases h''
    obtain ⟨yss, h1, rfl⟩ := each_ok hys
    exact ⟨y :: yss, .cons hy h1, rfl⟩

theorem firsts_ok : ∀ {l xs : List Out}, each (fun r => (firstDescribed r).map fun x => [x]) l = .ok xs → All2 (fun r x => firstDescribed r = .ok x) l xs
  | [], xs, h => by cases h; exact .nil
  | a :: r, xs, h => by
    unfold each at h
    obtain ⟨y, hy, h'⟩ := Datatype.bind_ok h
    obtain ⟨ys, hys, h''⟩ := Datatype.bind_ok h'
    cases h''
    obtain ⟨z, hz, rfl⟩ := Except.map_eq_ok.1 hy
    exact .cons hz (firsts_ok hys)

/-- In minimal mode, the result lists for each row of each table in the result of standard mode, in order, the first object which it
describes. -/
theorem C64_minimal {d : Data} {os : List Out} (h : toJsonMinimal e data d = .ok os) :
    ∃ out, ToJson.toJson e data d = .ok out ∧ ∃ ts, prop "tables" out = some (.list ts) ∧ ∃ oss, os = oss.flatten ∧
      All2 (fun t os => All2 (fun r o => ∃ l, prop "describes" r = some (.list (o :: l))) (rowsOf t) os) ts oss := by
  unfold toJsonMinimal at h
  obtain ⟨o, ho, h'⟩ := Datatype.bind_ok h
  refine ⟨o, ho, ?_⟩
  unfold ToJson.toJson at ho
  obtain ⟨c, hcj, h1⟩ := Datatype.bind_ok ho
  obtain ⟨ts, hts, h2⟩ := Datatype.bind_ok h1
  cases h2
  have hp : prop "tables" (.obj (Dict.set "tables".toList (.list ts) (outJson c))) = some (.list ts) := Dict.get_set_self _ _ _
  refine ⟨ts, hp, ?_⟩
  have ht : tablesOf (.obj (Dict.set "tables".toList (.list ts) (outJson c))) = ts := by
    unfold tablesOf
    simp only [Dict.get_set_self]
  rw [ht] at h'
  obtain ⟨yss, h3, h4⟩ := each_ok h'
  refine ⟨yss, h4, Frictionless.All2_imp ?_ h3⟩
  intro t ys hy
  refine Frictionless.All2_imp ?_ (firsts_ok hy)
  intro r o hr
  unfold firstDescribed at hr
  split at hr
  · split at hr
    · next l heq => cases hr; exact ⟨l, heq⟩
    · cases hr
    · cases hr
  · cases hr

end
end Csvw.Props

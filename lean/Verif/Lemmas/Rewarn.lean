import Verif.Lemmas.Metadata6
import Verif.Lemmas.Clean9
import Verif.Spec.Rewarn
/-!
# Warnings about descriptions which were written by the library
-/

namespace Csvw
open Csvw.Spec

section
variable {ext : Ext} {x : MExt} {other : Base → Derived → J → Res Val} {lk : EncLookup}

/-! ## Properties in general -/

/-- Common properties and `@id` without problems. -/
structure CleanParts (x : MExt) (a c : List (Str × J)) : Prop where
  common : ∀ e ∈ c, Warn.common x e.2 = false
  id : ∀ v, ("id".toList, v) ∈ a → v.isStr = true

theorem cleanParts_of {fields : List Str} {tn : Str} {m : List (Str × J)} (hn : (Dict.keys m).Nodup) {p : Parts}
    (hp : partitionProperties x fields tn true (.obj m) = .ok (some p)) (hw : Warn.parts x fields true m = false) :
    CleanParts x p.atProps p.common := by
  obtain ⟨-, -, q3, q4⟩ := Props.C52_partition x fields tn true m p hn hp
  unfold Warn.parts at hw
  rw [List.any_eq_false] at hw
  constructor
  · intro e he
    obtain ⟨f, hf, h1, h2⟩ := All2_mem_right q4 e he
    obtain ⟨hm, hc⟩ := List.mem_filter.1 hf
    have hc : CommonProperty f.1 := of_decide_eq_true hc
    have := hw f hm
    rw [if_neg, if_pos] at this
    · rw [Bool.not_eq_true] at this
      rw [cleaned_eq h2 this]; exact this
    · simpa using hc.2
    · intro h
      exact hc.1 (atPrefix.1 h)
  · intro v hv
    rw [q3] at hv
    obtain ⟨e, he, heq⟩ := List.mem_map.1 hv
    obtain ⟨hm, hc⟩ := List.mem_filter.1 he
    have hc : AtProperty e.1 := of_decide_eq_true hc
    simp only [Prod.mk.injEq] at heq
    obtain ⟨r, hr⟩ := hc
    rw [hr] at heq
    have hk : e.1 = "@id".toList := by rw [hr]; simpa using heq.1
    have := hw e hm
    rw [if_pos (by rw [hk]; decide), hk] at this
    simp only [decide_true, Bool.true_and, Bool.not_eq_true', Bool.not_eq_false] at this
    rw [← heq.2, ← hr, hk]
    unfold Props.atValue
    rw [if_pos rfl]
    cases hv : e.2 with
    | str s => rfl
    | _ => rw [hv] at this; cases this

theorem get_asdict {tn : Str} {a c own : List (Str × J)} (hg : GoodParts x tn a c) {k : Str} (hk : OwnProperty k) :
    Dict.get k (asdictOf a c own) = Dict.get k (keepItems own) := by
  rw [asdictOf_eq hg, Dict.get_append, Dict.get_append]
  have h1 : Dict.get k ((canon a).map fun e => ('@' :: e.1, e.2)) = none := by
    rw [Dict.get_eq_none_iff]
    intro h
    obtain ⟨e, he, rfl⟩ := List.mem_map.1 h
    obtain ⟨f, -, rfl⟩ := List.mem_map.1 he
    exact hk.1 ⟨_, rfl⟩
  have h2 : Dict.get k (canon c) = none := by
    rw [Dict.get_eq_none_iff]
    intro h
    obtain ⟨e, he, rfl⟩ := List.mem_map.1 h
    exact hk.2 (hg.commonKeys e (mem_canon he)).2
  rw [h1, h2]
  rfl

theorem arg_asdict {tn : Str} {a c own : List (Str × J)} (hg : GoodParts x tn a c) {n : String} (hk : OwnProperty n.toList) :
    argOf n (asdictOf a c own) = argOf n (keepItems own) := by
  unfold argOf; rw [get_asdict hg hk]

theorem given_asdict {tn : Str} {a c own : List (Str × J)} (hg : GoodParts x tn a c) {n : String} (hk : OwnProperty n.toList) (f : J → Bool) :
    Warn.given n f (asdictOf a c own) = Warn.given n f (keepItems own) := by
  unfold Warn.given; rw [get_asdict hg hk]

theorem parts_written {tn : Str} {fields : List Str} {a c own : List (Str × J)} (hg : GoodParts x tn a c) (hc : CleanParts x a c)
    (ho : ∀ e ∈ own, OwnProperty e.1 ∧ e.1 ∈ fields) : Warn.parts x fields true (asdictOf a c own) = false := by
  unfold Warn.parts
  rw [List.any_eq_false, asdictOf_eq hg]
  intro e he
  rcases List.mem_append.1 he with he | he
  · obtain ⟨f, hf, rfl⟩ := List.mem_map.1 he
    rw [if_pos (by simp [List.isPrefixOf])]
    intro h
    simp only [Bool.and_eq_true, decide_eq_true_eq, Bool.not_eq_true'] at h
    have hk : f.1 = "id".toList := by simpa using h.1
    have := hc.id f.2 (by rw [← hk]; exact mem_canon hf)
    rw [this] at h
    cases h.2
  rcases List.mem_append.1 he with he | he
  · have h1 := hg.commonKeys e (mem_canon he)
    rw [if_neg (fun h => h1.1 (atPrefix.1 h)), if_pos (by simpa using h1.2), hc.common e (mem_canon he)]
    simp
  · obtain ⟨h1, h2⟩ := ho e (List.mem_filter.1 he).1
    rw [if_neg (fun h => h1.1 (atPrefix.1 h)), if_neg (by simpa using h1.2)]
    simp [h2]

/-- A property which is written is without problems if it is so for its value. -/
theorem given_attr {od : Bool} {l : List (String × J × J)} (h : (l.map fun e => e.1.toList).Nodup) {n : String} {v d : J} (hm : (n, v, d) ∈ l)
    {f : J → Bool} (hf : ¬ (od = true ∧ v = d) → f v = false) : Warn.given n f (keepItems (attrItems od l)) = false := by
  unfold Warn.given
  rw [get_attr h hm]
  split
  · next hx =>
    split at hx
    · cases hx
    · next hc =>
      cases hx
      apply hf
      rintro ⟨rfl, rfl⟩
      simp at hc
  · rfl

/-! ## Datatypes -/

theorem bound_written {dt : Datatype} {d : Derived} (hd : dt.descr ext = .ok d) {n : String} {o : Option Val} (h : BoundSurvives ext dt o)
    (hf : ∀ d : Dec, o = some (.dec d) → ∃ neg coef exp, d = .fin neg coef exp) :
    ∃ j, boundItem ext dt n o = .ok (attrItems true [(n, j, .null)]) ∧ pruneJ j = j ∧ Warn.bound dt.base d j = false := by
  cases o with
  | none => exact ⟨.null, rfl, rfl, rfl⟩
  | some v =>
    obtain ⟨h1, h2, s, hs, hp⟩ := h v rfl
    refine ⟨.str s, by simp [boundItem, h1, h2, hs, Except.map, attrItems], rfl, ?_⟩
    unfold Datatype.parse at hp
    rw [hd] at hp
    have hp : Datatypes.toPython ext dt.base d s = .ok v := hp
    have key : ∀ {f : NumFmt}, Datatypes.decWarns f s = true → ∃ D, Datatypes.decToPython f s = .ok D ∧ ∀ neg coef exp, D ≠ .fin neg coef exp := by
      intro f hw
      unfold Datatypes.decWarns at hw
      split at hw
      · next D0 D1 hsp hD =>
        refine ⟨D1, hD, ?_⟩
        unfold Datatypes.decToPython at hD
        have hD0 : D1 = D0 := by
          simp only [hsp] at hD
          repeat' (split at hD)
          all_goals first | (cases hD; done) | (cases hD; rfl)
        subst hD0
        unfold Datatypes.special at hsp
        split at hsp
        · cases hsp; intro _ _ _ h; cases h
        split at hsp
        · cases hsp; intro _ _ _ h; cases h
        split at hsp
        · cases hsp; intro _ _ _ h; cases h
        · cases hsp
      · cases hw
    unfold Warn.bound
    simp only
    split
    · next f hk hfm =>
      cases hw : Datatypes.decWarns f s with
      | false => rfl
      | true =>
        obtain ⟨D, hD, hne⟩ := key hw
        exfalso
        unfold Datatypes.toPython at hp
        rw [hk] at hp
        simp only [hfm, hD, Except.map, Except.ok.injEq] at hp
        obtain ⟨a, b, c, h⟩ := hf D (by rw [hp])
        exact hne a b c h
    · next f hk hfm =>
      cases hw : Datatypes.decWarns f s with
      | false => rfl
      | true =>
        obtain ⟨D, hD, hne⟩ := key hw
        exfalso
        unfold Datatypes.toPython at hp
        rw [hk] at hp
        simp only [hfm, Datatypes.intToPython, hD] at hp
        cases D with
        | fin a b c => exact hne a b c rfl
        | inf _ => simp [Dec.asInteger, Except.map] at hp
        | nan _ _ _ => simp [Dec.asInteger, Except.map] at hp
    · rfl

theorem datatype_written {s : DatatypeSpec} {dt : Datatype} (h : Datatype.Built ext other s dt)
    (hg : GoodParts x "Datatype".toList dt.atProps dt.common) (hw : DtWritable ext dt) (hf : FiniteBounds dt)
    (hs : Warn.datatypeSpec ext s = false) (hc : CleanParts x dt.atProps dt.common) {j : J} (hj : dt.asdict ext = .ok j) :
    Warn.datatype ext x j = false := by
  obtain ⟨d, hd, hbad⟩ := descr_built h
  obtain ⟨j1, e1, p1, r1⟩ := bound_written (n := "minimum") hd hw.minimum (hf _ (by simp))
  obtain ⟨j2, e2, p2, r2⟩ := bound_written (n := "maximum") hd hw.maximum (hf _ (by simp))
  obtain ⟨j3, e3, p3, r3⟩ := bound_written (n := "minInclusive") hd hw.minInclusive (hf _ (by simp))
  obtain ⟨j4, e4, p4, r4⟩ := bound_written (n := "maxInclusive") hd hw.maxInclusive (hf _ (by simp))
  obtain ⟨j5, e5, p5, r5⟩ := bound_written (n := "minExclusive") hd hw.minExclusive (hf _ (by simp))
  obtain ⟨j6, e6, p6, r6⟩ := bound_written (n := "maxExclusive") hd hw.maxExclusive (hf _ (by simp))
  have hfmt : Datatypes.derivedWarns ext dt.base dt.format = false := by
    obtain ⟨d0, k1, ⟨bad, k2, k3⟩, -⟩ := h.descr
    unfold Warn.datatypeSpec at hs
    rw [h.base] at hs
    simp only [k1, k2, Bool.or_eq_false_iff] at hs
    rw [hs.2.2.2] at k3
    rw [k3]
    exact hs.2.1
  let L : List (String × J × J) :=
    [("base", .str dt.base.name.toList, .null), ("format", dt.format, .null), ("length", .ofOptInt dt.length, .null),
     ("minLength", .ofOptInt dt.minLength, .null), ("maxLength", .ofOptInt dt.maxLength, .null), ("minimum", j1, .null),
     ("maximum", j2, .null), ("minInclusive", j3, .null), ("maxInclusive", j4, .null), ("minExclusive", j5, .null), ("maxExclusive", j6, .null)]
  have hL : (L.map fun e => e.1.toList) = dtFieldNames.map String.toList := rfl
  have hnd : (L.map fun e => e.1.toList).Nodup := by rw [hL]; decide
  have hown : ∀ e ∈ attrItems true L, OwnProperty e.1 ∧ e.1 ∈ datatypeFields := by
    intro e he
    have := attrItems_keys he
    rw [hL] at this
    revert this
    have hall : ∀ k ∈ dtFieldNames.map String.toList, OwnProperty k ∧ k ∈ datatypeFields := by decide +kernel
    exact hall e.1
  have hobj : Warn.datatype ext x (.obj (asdictOf dt.atProps dt.common (attrItems true L))) = false := by
    unfold Warn.datatype
    simp only
    rw [parts_written hg hc hown, Bool.false_or]
    have g : ∀ {n : String} {v : J}, (n, v, .null) ∈ L → n.toList ≠ "null".toList → OwnProperty n.toList →
        argOf n (asdictOf dt.atProps dt.common (attrItems true L)) = pruneJ v := fun hm hn ho => by
      rw [arg_asdict hg ho]; exact arg_attr hnd hm hn
    have hbase : (Dict.get "base".toList (asdictOf dt.atProps dt.common (attrItems true L))).getD (.str "string".toList) = .str dt.base.name.toList := by
      rw [get_asdict hg (by decide), get_attr hnd (n := "base") (v := .str dt.base.name.toList) (d := .null) (by simp [L])]
      rfl
    have hfk : pruneJ dt.format = dt.format := pruneJ_kept ((keptValue_iff _).2 hw.format)
    rw [hbase, g (n := "format") (v := dt.format) (by simp [L]) (by decide) (by decide),
      g (n := "minimum") (v := j1) (by simp [L]) (by decide) (by decide), g (n := "maximum") (v := j2) (by simp [L]) (by decide) (by decide),
      g (n := "minInclusive") (v := j3) (by simp [L]) (by decide) (by decide), g (n := "maxInclusive") (v := j4) (by simp [L]) (by decide) (by decide),
      g (n := "minExclusive") (v := j5) (by simp [L]) (by decide) (by decide), g (n := "maxExclusive") (v := j6) (by simp [L]) (by decide) (by decide),
      p1, p2, p3, p4, p5, p6, hfk]
    unfold Warn.datatypeSpec
    simp only [convBase_name]
    rw [hfmt, show Datatypes.derived ext dt.base dt.format = .ok d from hd]
    simp only [hbad, r1, r2, r3, r4, r5, r6, List.any_cons, List.any_nil, Bool.or_false, Bool.false_or]
    simp [Warn.conv, Warn.isBase, ofName_name]
  have happ : attrItems true L = attrItems true (L.take 5) ++ (attrItems true [("minimum", j1, .null)] ++ (attrItems true [("maximum", j2, .null)] ++
      (attrItems true [("minInclusive", j3, .null)] ++ (attrItems true [("maxInclusive", j4, .null)] ++
        (attrItems true [("minExclusive", j5, .null)] ++ attrItems true [("maxExclusive", j6, .null)]))))) := by
    simp only [← attrItems_append]; rfl
  have has : dt.asdict ext = (match asdictOf dt.atProps dt.common (attrItems true L) with
      | [(k, v)] => if k = "base".toList then .ok v else .ok (.obj [(k, v)])
      | m => .ok (.obj m)) := by
    unfold Datatype.asdict
    simp only [e1, e2, e3, e4, e5, e6, bind, Except.bind]
    rw [happ]
    rfl
  rw [has] at hj
  split at hj
  · next k v hm =>
    split at hj
    · next hk =>
      cases hj
      rw [hm, hk] at hobj
      cases j with
      | str s =>
        unfold Warn.datatype at hobj ⊢
        simp only [Bool.or_eq_false_iff] at hobj ⊢
        exact hobj.2
      | obj o =>
        exfalso
        unfold Warn.datatype at hobj
        simp only [Bool.or_eq_false_iff] at hobj
        have := hobj.2
        simp [Warn.datatypeSpec, Dict.get, Warn.conv, Warn.isBase] at this
      | _ => rfl
    · cases hj
      rw [hm] at hobj
      exact hobj
  · cases hj; exact hobj

end
end Csvw

import Verif.Lemmas.Metadata6
import Verif.Lemmas.Frictionless5
import Verif.Props.C68_C69
/-!
# Lemmas on written descriptions and converted data packages
-/

namespace Csvw

open Csvw.Spec Csvw.Props Csvw.Frictionless

section
variable {ext : Ext} {x : MExt} {other : Base → Derived → J → Res Val} {lk : EncLookup}

/-! ## What is written -/

theorem get_at {l : List (Str × J)} {k : Str} : Dict.get ('@' :: k) (l.map fun e => ('@' :: e.1, e.2)) = Dict.get k l := by
  induction l with
  | nil => rfl
  | cons e r ih => simp only [List.map_cons, Dict.get, List.cons.injEq, true_and, ih]

theorem asdictOf_at {tn : Str} {a c own : List (Str × J)} (h : GoodParts x tn a c) {k : Str} {v : J} (hg : Dict.get k a = some v)
    (hv : keptValue v = true) : Dict.get ('@' :: k) (asdictOf a c own) = some v := by
  rw [asdictOf_eq h, Dict.get_append, get_at, get_canon h.atNodup, hg]
  simp [Option.filter, hv]

theorem asdictOf_own {tn : Str} {a c own : List (Str × J)} (h : GoodParts x tn a c) {k : Str} (hk : OwnProperty k) :
    Dict.get k (asdictOf a c own) = Dict.get k (keepItems own) := by
  rw [asdictOf_eq h, Dict.get_append, (Dict.get_eq_none_iff _ _).2, Dict.get_append, (Dict.get_eq_none_iff _ _).2]
  · rfl
  · intro hm
    obtain ⟨e, he, rfl⟩ := List.mem_map.1 hm
    exact hk.2 (h.commonKeys e (mem_canon he)).2
  · intro hm
    obtain ⟨e, he, rfl⟩ := List.mem_map.1 hm
    obtain ⟨e', -, rfl⟩ := List.mem_map.1 he
    exact hk.1 ⟨_, rfl⟩

theorem cleanContext_strings {l l' : List J} (h : cleanContext x l = .ok l') {s : Str} (hs : .str s ∈ l) : .str s ∈ l' := by
  induction l generalizing l' with
  | nil => cases hs
  | cons j r ih =>
    have step : ∀ {f : List J → List J} {j' : J}, (∀ r', f r' = j' :: r') → (cleanContext x r).map f = .ok l' →
        (.str s = j → .str s = j') → .str s ∈ l' := by
      intro f j' hf h hj
      obtain ⟨r', hr, rfl⟩ := Except.map_eq_ok.1 h
      rw [hf]
      rcases List.mem_cons.1 hs with e | hs
      · rw [hj e]; exact List.mem_cons_self ..
      · exact List.mem_cons_of_mem _ (ih hr hs)
    cases j with
    | obj m =>
      simp only [cleanContext] at h
      split at h
      · cases h
      split at h
      · exact step (fun _ => rfl) h id
      · split at h
        · exact step (fun _ => rfl) h id
        · exact step (fun _ => rfl) h (by intro e; cases e)
      · cases h
    | str s' =>
      simp only [cleanContext] at h
      split at h
      · exact step (fun _ => rfl) h id
      · cases h
    | _ => exact step (fun _ => rfl) h id

theorem at_get {fields : List Str} {tn : Str} {m : List (Str × J)} (hn : (Dict.keys m).Nodup) {p : Parts}
    (h : partitionProperties x fields tn true (.obj m) = .ok (some p)) {v : J} (hg : Dict.get "@context".toList m = some v) :
    Dict.get "context".toList p.atProps = some v := by
  obtain ⟨-, -, q3, -⟩ := C52_partition x fields tn true m p hn h
  rw [q3]
  clear q3 h hn p
  induction m with
  | nil => cases hg
  | cons e r ih =>
    obtain ⟨k, w⟩ := e
    simp only [Dict.get] at hg
    split at hg
    · next hk =>
      cases hg
      subst hk
      rfl
    · next hk =>
      rw [List.filter_cons]
      split
      · next ha =>
        simp only [decide_eq_true_eq] at ha
        obtain ⟨k', rfl⟩ := ha
        rw [List.map_cons, Dict.get, if_neg]
        · exact ih hg
        · intro he
          apply hk
          rw [show k' = "context".toList from he]
          rfl
      · exact ih hg

theorem keptValue_arr {l : List J} {v : J} (h : v ∈ l) : keptValue (.arr l) = true := by
  cases l with
  | nil => cases h
  | cons a r => simp [keptValue]

theorem keptValue_obj {l : List (Str × J)} {v : Str × J} (h : v ∈ l) : keptValue (.obj l) = true := by
  cases l with
  | nil => cases h
  | cons a r => simp [keptValue]

/-- The `@context` is written. -/
theorem declares_written {tn : Str} {fields : List Str} {m : List (Str × J)} (hn : (Dict.keys m).Nodup) {p : Parts}
    (hp : partitionProperties x fields tn true (.obj m) = .ok (some p)) {a' c own : List (Str × J)} (h6 : postInit x p.atProps = .ok a')
    (hgood : GoodParts x tn a' c) (h : DeclaresCsvw m) : DeclaresCsvw (asdictOf a' c own) := by
  have hctx : "@context".toList = '@' :: "context".toList := rfl
  unfold postInit at h6
  split at h6
  · cases h6
  cases h with
  | text b e hg =>
    rw [at_get hn hp hg] at h6
    cases h6
    exact .text b e (by rw [hctx]; exact asdictOf_at hgood (at_get hn hp hg) rfl)
  | item l hg hl =>
    rw [at_get hn hp hg] at h6
    obtain ⟨l', hl', rfl⟩ := Except.map_eq_ok.1 h6
    have := cleanContext_strings hl' hl
    exact .item l' (by rw [hctx]; exact asdictOf_at hgood (by rw [Dict.get_set]; simp) (keptValue_arr this)) this
  | key o hg v ho =>
    rw [at_get hn hp hg] at h6
    cases h6
    exact .key o (by rw [hctx]; exact asdictOf_at hgood (at_get hn hp hg) (keptValue_obj ho)) v ho

/-- Writing and reading a table group again (`group_roundtrip`), with what is needed to open the written document as a dataset. -/
theorem group_reopen (hlk : lk "utf-8".toList = .ok ()) {md : List (Str × J)} (hd : DistinctKeys (.obj md)) {g : GroupD}
    (h : GroupD.fromvalue ext x other lk (.obj md) = .ok g) (hw : LikeWritable ext g.like) (hwt : ∀ t ∈ g.tables, LikeWritable ext t.like)
    (od : Bool) :
    ∃ m g', g.asdict ext od = .ok (.obj m) ∧ GroupD.fromvalue ext x other lk (.obj m) = .ok g' ∧ SameGroup g g' ∧
      (DeclaresCsvw md → DeclaresCsvw m) ∧ (g.tables ≠ [] → ∃ v l, Dict.get "tables".toList m = some (.arr (v :: l))) := by
  obtain ⟨m, g', h1, h2, h3⟩ := group_roundtrip hlk hd h hw hwt od
  refine ⟨m, g', h1, h2, h3, ?_, ?_⟩
  all_goals
    obtain ⟨p, hp, hf⟩ := fromParts_ok h
    unfold GroupD.ofParts at hf
    obtain ⟨like, hl, hf⟩ := Datatype.bind_ok hf
    obtain ⟨ts, htb, hf⟩ := Datatype.bind_ok hf
    simp only [pure, Except.pure, Except.ok.injEq] at hf
    subst hf
    unfold GroupD.asdict at h1
    obtain ⟨items, hi, h1⟩ := Datatype.bind_ok h1
    obtain ⟨K, hK, h1⟩ := Datatype.bind_ok h1
    obtain ⟨js, hjs, h1⟩ := Datatype.bind_ok h1
    simp only [pure, Except.pure, Except.ok.injEq, J.obj.injEq] at h1
    subst h1
    have hl0 := hl
    unfold TableLike.ofParts at hl
    obtain ⟨D, hD, hl⟩ := Datatype.bind_ok hl
    obtain ⟨dia, -, hl⟩ := Datatype.bind_ok hl
    obtain ⟨dir, -, hl⟩ := Datatype.bind_ok hl
    obtain ⟨sch, -, hl⟩ := Datatype.bind_ok hl
    obtain ⟨trs, -, hl⟩ := Datatype.bind_ok hl
    obtain ⟨url, -, hl⟩ := Datatype.bind_ok hl
    obtain ⟨a', h6, hl⟩ := Datatype.bind_ok hl
    simp only [pure, Except.pure, Except.ok.injEq] at hl
    have hat : D.atProps = p.atProps := by
      unfold Descr.ofParts at hD
      obtain ⟨d0, -, rfl⟩ := Except.map_eq_ok.1 hD
      rfl
    obtain ⟨hgood, -⟩ := postInit_good h6 (descrFrom hd hp hD).good
    have hgood' : GoodParts x "TableGroup".toList like.props.atProps like.props.common := by rw [← hl]; exact hgood
    rw [hat] at h6
  · intro hdc
    have ha : like.props.atProps = a' := by rw [← hl]
    cases hd with
    | obj hn _ => exact declares_written hn hp (by rw [ha]; exact h6) hgood' hdc
  · intro hne
    rw [asdictOf_own hgood' (by decide)]
    obtain ⟨L, K', t', i1, i2, -, i4⟩ := like_roundtrip hlk (names := ["tables"]) (fields := groupFields) (by decide) (by decide +kernel) hd hp hl0
      hw od
    rw [hi] at i1
    rw [hK] at i2
    cases i1
    cases i2
    generalize hM : [("tables", J.arr js, J.arr [])] = M
    obtain ⟨hnd, -, -⟩ := i4 M (by subst hM; rfl)
    have hget := get_attr (od := od) hnd (n := "tables") (v := .arr js) (d := .arr [])
      (List.mem_append_right _ (List.mem_append_right _ (by subst hM; simp)))
    have happ : attrItems od L ++ attrItems od (K ++ M) = attrItems od (L ++ (K ++ M)) := by
      unfold attrItems
      rw [List.filter_append L, List.map_append]
    rw [happ, hget]
    cases js with
    | nil =>
      cases ts with
      | nil => exact absurd rfl hne
      | cons t r =>
        simp only [mapRes] at hjs
        split at hjs <;> first | cases hjs | (obtain ⟨_, _, h⟩ := Except.map_eq_ok.1 hjs; cases h)
    | cons v l => exact ⟨v, l, by cases od <;> simp [keptValue]⟩

/-! ## Data packages have distinct keys, so have the descriptions made from them -/

/-- The values of an object. -/
def Vals (m : List (Str × J)) : Prop := ∀ k v, (k, v) ∈ m → DistinctKeys v

theorem vals_of {m : List (Str × J)} (h : DistinctKeys (.obj m)) : Vals m := by cases h with | obj _ h => exact h

theorem vals_nil : Vals [] := by intro k v h; cases h

theorem vals_cons {k : Str} {v : J} {m : List (Str × J)} (hv : DistinctKeys v) (hm : Vals m) : Vals ((k, v) :: m) := by
  intro k' v' h
  rcases List.mem_cons.1 h with h | h
  · cases h; exact hv
  · exact hm _ _ h

theorem vals_append {m m' : List (Str × J)} (h : Vals m) (h' : Vals m') : Vals (m ++ m') := by
  intro k v hm
  rcases List.mem_append.1 hm with hm | hm
  · exact h _ _ hm
  · exact h' _ _ hm

theorem vals_get {m : List (Str × J)} (h : Vals m) {k : Str} {v : J} (hg : Dict.get k m = some v) : DistinctKeys v := h _ _ (Dict.get_mem hg)

theorem vals_arg {m : List (Str × J)} (h : Vals m) (n : String) : DistinctKeys (argOf n m) := argOf_distinct h n

theorem vals_set {k : Str} {v : J} {m : List (Str × J)} (hv : DistinctKeys v) (hm : Vals m) : Vals (Dict.set k v m) := by
  induction m with
  | nil => exact vals_cons hv vals_nil
  | cons e r ih =>
    obtain ⟨k', v'⟩ := e
    have hr : Vals r := fun a b h => hm a b (List.mem_cons_of_mem _ h)
    simp only [Dict.set]
    split
    · exact vals_cons hv hr
    · exact vals_cons (hm _ _ (List.mem_cons_self ..)) (ih hr)

theorem vals_opt {m : List (Str × J)} (h : Vals m) (k k' : String) : Vals (optItem k k' m) := by
  unfold optItem
  split
  · next v hv => exact vals_cons (vals_get h hv) vals_nil
  · exact vals_nil

theorem item_vals {m : List (Str × J)} (h : Vals m) {k : String} {v : J} (hi : item k m = .ok v) : DistinctKeys v := by
  unfold item at hi
  split at hi
  · cases hi
  · next w hw => cases hi; exact vals_get h hw

/-- Distinct keys and values with distinct keys. -/
def DK (m : List (Str × J)) : Prop := (Dict.keys m).Nodup ∧ Vals m

theorem dk_obj {m : List (Str × J)} : DK m ↔ DistinctKeys (.obj m) :=
  ⟨fun h => .obj h.1 h.2, fun h => by cases h with | obj h h' => exact ⟨h, h'⟩⟩

theorem dk_set {k : Str} {v : J} {m : List (Str × J)} (hv : DistinctKeys v) (hm : DK m) : DK (Dict.set k v m) :=
  ⟨Dict.nodup_keys_set hm.1, vals_set hv hm.2⟩

theorem dk_one {k : Str} {v : J} (hv : DistinctKeys v) : DK [(k, v)] := ⟨by simp [Dict.keys], vals_cons hv vals_nil⟩

theorem dk_two {k k' : Str} {v v' : J} (hk : k ≠ k') (hv : DistinctKeys v) (hv' : DistinctKeys v') : DK [(k, v), (k', v')] :=
  ⟨by simp [Dict.keys, hk], vals_cons hv (vals_cons hv' vals_nil)⟩

theorem numberFormat_dk {spec : List (Str × J)} (h : Vals spec) : DK (numberFormat spec) := by
  unfold numberFormat
  simp only [List.filter_cons, List.filter_nil]
  split <;> split
  · exact dk_two (by decide) (vals_arg h _) (vals_arg h _)
  · exact dk_one (vals_arg h _)
  · exact dk_one (vals_arg h _)
  · exact ⟨List.nodup_nil, vals_nil⟩

theorem numberType_dk {b : String} {spec dt : List (Str × J)} (h : Vals spec) (hf : numberType b spec = .ok dt) : DK dt := by
  unfold numberType at hf
  split at hf
  · cases hf
  split at hf
  · cases hf
    exact dk_two (by decide) (.str _) (dk_obj.1 (numberFormat_dk h))
  · cases hf
    exact dk_one (.str _)

theorem booleanType_dk {spec dt : List (Str × J)} (hf : booleanType spec = .ok dt) : DK dt := by
  unfold booleanType at hf
  split at hf
  · obtain ⟨t, -, hf⟩ := Datatype.bind_ok hf
    obtain ⟨f, -, hf⟩ := Datatype.bind_ok hf
    cases hf
    exact dk_two (by decide) (.str _) (.str _)
  · cases hf
    exact dk_one (.str _)

theorem stringType_dk {spec : List (Str × J)} (h : Vals spec) : DK (stringType spec) := by
  unfold stringType
  split
  · exact dk_two (by decide) (.str _) (vals_arg h _)
  · exact dk_one (.str _)

theorem ite_ok {α : Type} {P : Prop} {c : Prop} [Decidable c] {a b : Res α} {r : α} (h : (if c then a else b) = .ok r) (h1 : a = .ok r → P)
    (h2 : b = .ok r → P) : P := by
  by_cases hc : c
  · rw [if_pos hc] at h; exact h1 h
  · rw [if_neg hc] at h; exact h2 h

theorem fieldType_dk {spec dt : List (Str × J)} (h : Vals spec) (hf : fieldType spec = .ok dt) : DK dt := by
  have one : ∀ {b : String} {dt : List (Str × J)}, Except.ok (baseOnly b) = (.ok dt : Res _) → DK dt := by
    intro b dt h
    cases h
    exact dk_one (.str _)
  have two : ∀ {b c : String} {dt : List (Str × J)}, Except.ok (baseOnly b ++ [("dc:format".toList, .str c.toList)]) = (.ok dt : Res _) →
      DK dt := by
    intro b c dt h
    cases h
    exact dk_two (by decide) (.str _) (.str _)
  unfold fieldType at hf
  cases hg : Dict.get "type".toList spec with
  | none => rw [hg] at hf; exact one hf
  | some j =>
    rw [hg] at hf
    cases j with
    | str t =>
      refine ite_ok hf (fun hf => ite_ok hf one fun hf => ite_ok hf one fun hf => ?_) fun hf => ite_ok hf one fun hf => ite_ok hf one fun hf =>
        ite_ok hf booleanType_dk fun hf => ite_ok hf (numberType_dk h) fun hf => ite_ok hf (numberType_dk h) fun hf => ite_ok hf one fun hf =>
        ite_ok hf one fun hf => ite_ok hf one fun hf => ite_ok hf one fun hf => ite_ok hf two fun hf => ite_ok hf two one
      cases hf
      exact stringType_dk h
    | arr l => cases hf
    | obj l => cases hf
    | _ => exact one hf

theorem constrain_dk {cs dt : List (Str × J)} (hc : Vals cs) (h : DK dt) (p : String) : DK (constrain cs dt p) := by
  have h1 : DK (addConstraint cs dt p) := by
    unfold addConstraint
    split
    · next v hv => exact dk_set (vals_get hc hv) h
    · exact h
  unfold constrain addPattern
  split
  · next v hv =>
    split
    · exact h1
    · exact dk_set (vals_get hc hv) h1
  · exact h1

theorem constraints_dk {cs : List (Str × J)} (hc : Vals cs) {l : List String} {dt : List (Str × J)} (h : DK dt) :
    DK (l.foldl (constrain cs) dt) := by
  induction l generalizing dt with
  | nil => exact h
  | cons p r ih => exact ih (constrain_dk hc h p)

theorem asObj_dk {j : J} (h : DistinctKeys j) {m : List (Str × J)} (hm : asObj j = .ok m) : DK m := by
  rw [asObj_ok hm] at h
  exact dk_obj.2 h

theorem asArr_dk {j : J} (h : DistinctKeys j) {l : List J} (hm : asArr j = .ok l) : ∀ v ∈ l, DistinctKeys v := by
  rw [asArr_ok hm] at h
  exact distinct_arr h

theorem columnItems_vals {spec : List (Str × J)} (h : Vals spec) : Vals (columnItems spec) := by
  unfold columnItems
  refine vals_append ?_ (vals_append ?_ (vals_opt h _ _))
  · split
    · refine vals_cons (.arr ?_) vals_nil
      intro v hv
      rw [List.mem_singleton.1 hv]
      exact vals_arg h _
    · exact vals_nil
  · split
    · next v hv =>
      refine vals_cons (.arr ?_) vals_nil
      intro w hw
      rw [List.mem_singleton.1 hw]
      exact vals_get h hv
    · exact vals_nil

theorem convertColumn_dk {j b : J} (h : DistinctKeys j) (hc : convertColumn j = .ok b) : DistinctKeys b := by
  unfold convertColumn at hc
  obtain ⟨spec, hs, hc⟩ := Datatype.bind_ok hc
  obtain ⟨name, hn, hc⟩ := Datatype.bind_ok hc
  obtain ⟨dt, hd, hc⟩ := Datatype.bind_ok hc
  obtain ⟨cs, hcs, hc⟩ := Datatype.bind_ok hc
  cases hc
  have hv := (asObj_dk h hs).2
  have hcv : Vals cs := by
    unfold constraintsOf at hcs
    split at hcs
    · cases hcs; exact vals_nil
    · next w hw => exact (asObj_dk (vals_get hv hw) hcs).2
  refine .obj ?_ (vals_cons (item_vals hv hn) (vals_cons (dk_obj.1 (constraints_dk hcv (fieldType_dk hv hd))) (columnItems_vals hv)))
  unfold columnItems optItem
  split <;> split <;> split <;>
    (simp only [List.map_cons, List.map_nil, List.cons_append, List.nil_append, List.append_nil]; decide)

theorem forAll_dk {f : J → Res J} (hf : ∀ j b, DistinctKeys j → f j = .ok b → DistinctKeys b) {l bs : List J}
    (h : ∀ v ∈ l, DistinctKeys v) (hb : forAll f l = .ok bs) : ∀ v ∈ bs, DistinctKeys v := by
  have := forAll_all2 hb
  clear hb
  induction this with
  | nil => intro v hv; cases hv
  | cons hab _ ih =>
    intro v hv
    rcases List.mem_cons.1 hv with rfl | hv
    · exact hf _ _ (h _ (List.mem_cons_self ..)) hab
    · exact ih (fun w hw => h w (List.mem_cons_of_mem _ hw)) v hv

/-- The values of the resource map. -/
def MapVals (rm : List (J × J)) : Prop := ∀ k v, Dict.get k rm = some v → DistinctKeys v

theorem convertForeignKey_dk {rn : J} {rm : List (J × J)} (hr : MapVals rm) {j b : J} (h : DistinctKeys j)
    (hc : convertForeignKey rn rm j = .ok b) : DistinctKeys b := by
  unfold convertForeignKey at hc
  obtain ⟨fk, h1, hc⟩ := Datatype.bind_ok hc
  obtain ⟨fields, h2, hc⟩ := Datatype.bind_ok hc
  obtain ⟨rj, h3, hc⟩ := Datatype.bind_ok hc
  obtain ⟨r, h4, hc⟩ := Datatype.bind_ok hc
  obtain ⟨rf, h5, hc⟩ := Datatype.bind_ok hc
  obtain ⟨name, h6, hc⟩ := Datatype.bind_ok hc
  obtain ⟨res, h7, hc⟩ := Datatype.bind_ok hc
  cases hc
  have hv := (asObj_dk h h1).2
  have hrv := (asObj_dk (item_vals hv h3) h4).2
  refine dk_obj.1 (dk_two (by decide) (item_vals hv h2) (dk_obj.1 (dk_two (by decide) (item_vals hrv h5) ?_)))
  unfold Frictionless.lookup at h7
  refine ite_ok h7 (fun h7 => ?_) (fun h7 => by cases h7)
  generalize (if name.truthy then name else rn) = n at h7
  cases hg : Dict.get n rm with
  | none => rw [hg] at h7; cases h7
  | some v => rw [hg] at h7; cases h7; exact hr _ _ hg

theorem convertSchema_dk {rn : J} {rm : List (J × J)} (hr : MapVals rm) {j b : J} (h : DistinctKeys j)
    (hc : convertSchema rn rm j = .ok b) : DistinctKeys b := by
  unfold convertSchema at hc
  obtain ⟨sch, h1, hc⟩ := Datatype.bind_ok hc
  obtain ⟨fj, h2, hc⟩ := Datatype.bind_ok hc
  obtain ⟨fields, h3, hc⟩ := Datatype.bind_ok hc
  obtain ⟨cols, h4, hc⟩ := Datatype.bind_ok hc
  obtain ⟨fks, h5, hc⟩ := Datatype.bind_ok hc
  cases hc
  have hv := (asObj_dk h h1).2
  have hcols := forAll_dk (fun _ _ => convertColumn_dk) (asArr_dk (item_vals hv h2) h3) h4
  have hfk : fks = [] ∨ ∃ l, fks = [("foreignKeys".toList, .arr l)] ∧ ∀ v ∈ l, DistinctKeys v := by
    unfold convertForeignKeys at h5
    split at h5
    · cases h5; exact .inl rfl
    · next w hw =>
      obtain ⟨l, h6, h5⟩ := Datatype.bind_ok h5
      obtain ⟨fs, h7, h5⟩ := Datatype.bind_ok h5
      cases h5
      exact .inr ⟨fs, rfl, forAll_dk (fun _ _ => convertForeignKey_dk hr) (asArr_dk (vals_get hv hw) h6) h7⟩
  refine .obj ?_ (vals_cons (.arr hcols) (vals_append (vals_opt hv _ _) (vals_append (vals_opt hv _ _) ?_)))
  · unfold optItem
    rcases hfk with rfl | ⟨l, rfl, -⟩ <;> split <;> split <;>
      (simp only [List.map_cons, List.map_nil, List.cons_append, List.nil_append, List.append_nil]; decide)
  · rcases hfk with rfl | ⟨l, rfl, hl⟩
    · exact vals_nil
    · exact vals_cons (.arr hl) vals_nil

theorem convertDialect_dk {rsc : List (Str × J)} (h : Vals rsc) {b : J} (hc : convertDialect rsc = .ok b) : DistinctKeys b := by
  unfold convertDialect at hc
  obtain ⟨d, h1, hc⟩ := Datatype.bind_ok hc
  have hd : Vals d := by
    unfold dialectOf at h1
    split at h1
    · cases h1; exact vals_nil
    · next w hw =>
      obtain ⟨m, h2, h1⟩ := Datatype.bind_ok h1
      have hm := (asObj_dk (vals_get h hw) h2).2
      split at h1
      · cases h1; exact hm
      · next w' hw' => exact (asObj_dk (vals_get hm hw') h1).2
  have hfold : ∀ (l : List String) {res : List (Str × J)}, DK res → DK (l.foldl (copyProp d) res) := by
    intro l
    induction l with
    | nil => exact fun h => h
    | cons p r ih =>
      intro res hres
      refine ih ?_
      unfold copyProp
      split
      · next v hv => exact dk_set (vals_get hd hv) hres
      · exact hres
  have h0 : DK (if (argOf "delimiter" d).truthy then [("delimiter".toList, argOf "delimiter" d)] else []) := by
    split
    · exact dk_one (vals_arg hd _)
    · exact ⟨List.nodup_nil, vals_nil⟩
  have h2 : ∀ {res : List (Str × J)}, DK res →
      DK (if (argOf "encoding" rsc).truthy then Dict.set "encoding".toList (argOf "encoding" rsc) res else res) := by
    intro res hres
    split
    · exact dk_set (vals_arg h _) hres
    · exact hres
  simp only [pure, Except.pure, Except.ok.injEq] at hc
  rw [← hc]
  refine dk_obj.1 ?_
  split
  · next v hv => exact dk_set (vals_get hd hv) (hfold _ (h2 h0))
  · exact hfold _ (h2 h0)

theorem convertResource_dk {rm : List (J × J)} (hr : MapVals rm) {rsc : List (Str × J)} (h : Vals rsc) {b : J}
    (hc : convertResource rm rsc = .ok b) : DistinctKeys b := by
  unfold convertResource at hc
  obtain ⟨s, h1, hc⟩ := Datatype.bind_ok hc
  obtain ⟨d, h2, hc⟩ := Datatype.bind_ok hc
  cases hc
  refine .obj (by simp only [List.map_cons, List.map_nil]; decide)
    (vals_cons (vals_arg h _) (vals_cons (convertSchema_dk hr (vals_arg h _) h1) (vals_cons (convertDialect_dk h h2) vals_nil)))

theorem convertResources_dk {rm : List (J × J)} (hr : MapVals rm) {rs : List (List (Str × J))} (h : ∀ m ∈ rs, Vals m) {ts : List J}
    (hc : convertResources rm rs = .ok ts) : ∀ v ∈ ts, DistinctKeys v := by
  induction rs generalizing ts with
  | nil => cases hc; intro v hv; cases hv
  | cons m r ih =>
    unfold convertResources at hc
    split at hc
    · obtain ⟨t, h1, hc⟩ := Datatype.bind_ok hc
      obtain ⟨ts', h2, hc⟩ := Datatype.bind_ok hc
      cases hc
      intro v hv
      rcases List.mem_cons.1 hv with rfl | hv
      · exact convertResource_dk hr (h m (List.mem_cons_self ..)) h1
      · exact ih (fun m hm => h m (List.mem_cons_of_mem _ hm)) h2 v hv
    · exact ih (fun m hm => h m (List.mem_cons_of_mem _ hm)) hc

theorem withPath_dk {l : List J} (h : ∀ v ∈ l, DistinctKeys v) {rs : List (List (Str × J))} (hw : withPath l = .ok rs) :
    ∀ m ∈ rs, Vals m := by
  induction l generalizing rs with
  | nil => cases hw; intro m hm; cases hm
  | cons j r ih =>
    unfold withPath at hw
    split at hw
    · cases hw
    · next m0 hm0 =>
      obtain ⟨rs', hr, rfl⟩ := Except.map_eq_ok.1 hw
      have ih' := ih (fun v hv => h v (List.mem_cons_of_mem _ hv)) hr
      intro m hm
      split at hm
      · rcases List.mem_cons.1 hm with rfl | hm
        · exact (asObj_dk (h j (List.mem_cons_self ..)) hm0).2
        · exact ih' m hm
      · exact ih' m hm

theorem resourceMap_dk {rs : List (List (Str × J))} (h : ∀ m ∈ rs, Vals m) {rm : List (J × J)} (hr : resourceMap rs = .ok rm) :
    ∀ p ∈ rm, DistinctKeys p.2 := by
  induction rs generalizing rm with
  | nil => cases hr; intro p hp; cases hp
  | cons m r ih =>
    unfold resourceMap at hr
    obtain ⟨rest, h1, hr⟩ := Datatype.bind_ok hr
    have ih' := ih (fun m hm => h m (List.mem_cons_of_mem _ hm)) h1
    split at hr
    · cases hr; exact ih'
    · split at hr
      · cases hr
        intro p hp
        rcases List.mem_cons.1 hp with rfl | hp
        · exact vals_arg (h m (List.mem_cons_self ..)) _
        · exact ih' p hp
      · cases hr

theorem ofPairs_vals {ps : List (J × J)} (h : ∀ p ∈ ps, DistinctKeys p.2) : MapVals (Dict.ofPairs ps) := by
  intro k v hg
  unfold Dict.ofPairs at hg
  rw [Dict.get_update] at hg
  simp only [Dict.get, Option.or_none] at hg
  exact h (k, v) (List.mem_reverse.1 (Dict.get_mem hg))

theorem packageMeta_vals {dumps : J → Str} {pkg : List (Str × J)} (h : Vals pkg) : Vals (packageMeta dumps pkg) := by
  have hfold : ∀ (l : List (String × String)) {md : List (Str × J)}, Vals md → Vals (l.foldl (copyMeta pkg) md) := by
    intro l
    induction l with
    | nil => exact fun h => h
    | cons p r ih =>
      intro md hmd
      refine ih ?_
      unfold copyMeta
      split
      · next v hv => exact vals_set (vals_get h hv) hmd
      · exact hmd
  unfold packageMeta nameMeta
  have h0 := hfold packageProps (vals_cons (k := "@context".toList) (.str "http://www.w3.org/ns/csvw".toList)
    (vals_cons (k := "dc:replaces".toList) (.str (dumps (.obj pkg))) vals_nil))
  split
  · exact h0
  · next v hv =>
    split
    · exact vals_set (vals_get h hv) h0
    · split
      · exact vals_set (vals_get h hv) h0
      · exact h0

/-- The description made from a data package has distinct keys. -/
theorem convertPackage_dk {dumps : J → Str} {pkg : List (Str × J)} (h : DistinctKeys (.obj pkg)) {j : J}
    (hc : convertPackage dumps pkg = .ok j) : DistinctKeys j := by
  unfold convertPackage at hc
  obtain ⟨rs, h1, hc⟩ := Datatype.bind_ok hc
  obtain ⟨rm, h2, hc⟩ := Datatype.bind_ok hc
  obtain ⟨ts, h3, hc⟩ := Datatype.bind_ok hc
  cases hc
  have hv := vals_of h
  have hrs : ∀ m ∈ rs, Vals m := by
    unfold resourcesOf at h1
    split at h1
    · cases h1; intro m hm; cases hm
    · next w hw =>
      obtain ⟨l, h4, h1⟩ := Datatype.bind_ok h1
      exact withPath_dk (asArr_dk (vals_get hv hw) h4) h1
  have hts := convertResources_dk (ofPairs_vals (resourceMap_dk hrs h2)) hrs h3
  obtain ⟨hk1, hk2⟩ := meta_keys (dumps := dumps) (pkg := pkg)
  refine .obj ?_ (vals_append (packageMeta_vals hv) ?_)
  · rw [List.map_append, List.nodup_append]
    refine ⟨hk1, ?_, ?_⟩
    · split <;> simp
    · intro a ha b hb hab
      subst hab
      have : a = "tables".toList := by
        split at hb
        · cases hb
        · simpa using hb
      subst this
      rcases hk2 _ ha with h | h
      · revert h; decide
      · revert h; decide
  · split
    · exact vals_nil
    · exact vals_cons (.arr hts) vals_nil

end

end Csvw

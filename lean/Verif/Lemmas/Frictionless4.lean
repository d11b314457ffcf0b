import Verif.Lemmas.Frictionless3
/-!
# Lemmas about the conversion of frictionless data packages: schemas, tables and table groups
-/

namespace Csvw.Frictionless
open Spec Datatypes Csvw.Spec.Frictionless

variable {ext : Ext} {x : MExt} {other : Base → Derived → J → Res Val} {lk : EncLookup}

theorem All2_trans {α β γ : Type} {R : α → β → Prop} {S : β → γ → Prop} {l : List α} {m : List β} {n : List γ} (h : All2 R l m) (h' : All2 S m n) :
    All2 (fun a c => ∃ b, R a b ∧ S b c) l n := by
  induction h generalizing n with
  | nil => cases h'; exact .nil
  | cons ha _ ih => cases h' with | cons hb ht => exact .cons ⟨_, ha, hb⟩ (ih ht)

theorem All2_imp {α β : Type} {R S : α → β → Prop} (hRS : ∀ a b, R a b → S a b) {l : List α} {m : List β} (h : All2 R l m) : All2 S l m := by
  induction h with
  | nil => exact .nil
  | cons ha _ ih => exact .cons (hRS _ _ ha) ih

theorem forAll_all2 {α : Type} {f : J → Res α} : ∀ {l : List J} {as : List α}, forAll f l = .ok as → All2 (fun j a => f j = .ok a) l as
  | [], as, h => by cases h; exact .nil
  | j :: r, as, h => by
    simp only [forAll] at h
    split at h
    · cases h
    · next b hb =>
      obtain ⟨bs, hbs, rfl⟩ := Except.map_eq_ok.1 h
      exact .cons hb (forAll_all2 hbs)

theorem mapObjs_all2 {α : Type} {f : List (Str × J) → Res α} : ∀ {l : List J} {as : List α}, (∀ j ∈ l, ∃ m, j = .obj m) → mapObjs f l = .ok as →
    All2 (fun j a => ∃ m, j = .obj m ∧ f m = .ok a) l as
  | [], as, _, h => by cases h; exact .nil
  | j :: r, as, ho, h => by
    obtain ⟨m, rfl⟩ := ho j (by simp)
    simp only [mapObjs] at h
    split at h
    · cases h
    · next b hb =>
      obtain ⟨bs, hbs, rfl⟩ := Except.map_eq_ok.1 h
      exact .cons ⟨m, rfl, hb⟩ (mapObjs_all2 (fun j hj => ho j (by simp [hj])) hbs)

theorem number_all2 : ∀ {cols cs : List Column} {v : Bool} {names : List Str} {i : Nat}, Schema.number v names i cols = .ok cs →
    All2 (fun c c' => ∃ n, c' = { c with number := n }) cols cs
  | [], cs, v, names, i, h => by
    simp only [Schema.number] at h
    cases h; exact .nil
  | c :: r, cs, v, names, i, h => by
    obtain ⟨v', names', cs', rfl, h', -⟩ := number_cons h
    exact .cons ⟨_, rfl⟩ (number_all2 h')

theorem asObj_ok {j : J} {m : List (Str × J)} (h : asObj j = .ok m) : j = .obj m := by cases j <;> cases h; rfl
theorem asArr_ok {j : J} {m : List J} (h : asArr j = .ok m) : j = .arr m := by cases j <;> cases h; rfl

theorem convertColumn_obj {j b : J} (h : convertColumn j = .ok b) : ∃ f m, j = .obj f ∧ b = .obj m := by
  unfold convertColumn at h
  obtain ⟨spec, hs, h⟩ := Datatype.bind_ok h
  obtain ⟨_, _, h⟩ := Datatype.bind_ok h
  obtain ⟨_, _, h⟩ := Datatype.bind_ok h
  obtain ⟨_, _, h⟩ := Datatype.bind_ok h
  cases h
  cases j <;> cases hs
  exact ⟨_, _, rfl, rfl⟩

/-! ## Foreign keys -/

theorem colref_names {j : J} {l : List Str} (h : convColref j = .ok l) : Names j l := by
  cases j with
  | str s => cases h; exact .one s
  | arr a =>
    simp only [convColref] at h
    split at h
    · next ha =>
      cases h
      have : a = (strsOf a).map .str := by
        induction a with
        | nil => rfl
        | cons b r ih =>
          simp only [List.all_cons, Bool.and_eq_true] at ha
          cases b with
          | str s => simp only [strsOf, List.map_cons, ← ih ha.2]
          | _ => cases ha.1
      rw [this, strsOf_map]
      exact .many _
    · cases h
  | _ => cases h

theorem names_colref {j : J} {l : List Str} (h : Names j l) : convColref j = .ok l := by
  cases h with
  | one s => rfl
  | many l => exact convColref_strs l

theorem item_ok {k : String} {m : List (Str × J)} {v : J} (h : item k m = .ok v) : prop k m = some v := by
  unfold item at h
  unfold prop
  split at h
  · cases h
  · next w hw => cases h; exact hw

/-- The lookup of resources finds the last one with this name. -/
def MapOf (resources : List J) (rm : List (J × J)) : Prop := ∀ n p, Dict.get n rm = some p → PathOf resources n p

theorem key_same {resources : List J} {rsc : List (Str × J)} {rm : List (J × J)} (hrm : MapOf resources rm) {j : J} {m : List (Str × J)}
    (h : convertForeignKey (argOf "name" rsc) rm j = .ok (.obj m)) {k : ForeignKey} (hk : ForeignKey.fromdict m = .ok k) :
    SameKey resources rsc j k := by
  unfold convertForeignKey at h
  obtain ⟨fk, h0, h⟩ := Datatype.bind_ok h
  obtain ⟨jf, h1, h⟩ := Datatype.bind_ok h
  obtain ⟨rj, h2, h⟩ := Datatype.bind_ok h
  obtain ⟨r, h3, h⟩ := Datatype.bind_ok h
  obtain ⟨jr, h4, h⟩ := Datatype.bind_ok h
  obtain ⟨n, h5, h⟩ := Datatype.bind_ok h
  obtain ⟨res, h6, h⟩ := Datatype.bind_ok h
  cases h
  obtain rfl := asObj_ok h0
  obtain rfl := asObj_ok h3
  unfold ForeignKey.fromdict at hk
  simp only [show Dict.get "reference".toList [("columnReference".toList, jf), ("reference".toList, J.obj [("columnReference".toList, jr), ("resource".toList, res)])] =
    some (J.obj [("columnReference".toList, jr), ("resource".toList, res)]) from rfl] at hk
  split at hk
  · cases hk
  obtain ⟨resource, e1, hk⟩ := Datatype.bind_ok hk
  obtain ⟨schemaReference, e2, hk⟩ := Datatype.bind_ok hk
  obtain ⟨refColumns, e3, hk⟩ := Datatype.bind_ok hk
  cases e2
  split at hk
  · cases hk
  split at hk
  · cases hk
  obtain ⟨columnReference, e4, hk⟩ := Datatype.bind_ok hk
  cases hk
  have e1 : convLink res = .ok resource := e1
  have e3 : convColref jr = .ok refColumns := e3
  have e4 : convColref jf = .ok columnReference := e4
  refine .mk (item_ok h1) (colref_names e4) (item_ok h2) (item_ok h4) (colref_names e3) (item_ok h5) (path := res) ?_ ?_
  · apply hrm
    change Dict.get (if n.truthy = true then n else argOf "name" rsc) rm = some res
    generalize (if n.truthy = true then n else argOf "name" rsc) = key at h6 ⊢
    unfold lookup at h6
    split at h6
    · split at h6
      · next v hv => cases h6; exact hv
      · cases h6
    · cases h6
  · cases res <;> cases e1 <;> rfl

theorem convertForeignKey_obj {n : J} {rm : List (J × J)} {j b : J} (h : convertForeignKey n rm j = .ok b) : ∃ m, b = .obj m := by
  unfold convertForeignKey at h
  obtain ⟨_, _, h⟩ := Datatype.bind_ok h
  obtain ⟨_, _, h⟩ := Datatype.bind_ok h
  obtain ⟨_, _, h⟩ := Datatype.bind_ok h
  obtain ⟨_, _, h⟩ := Datatype.bind_ok h
  obtain ⟨_, _, h⟩ := Datatype.bind_ok h
  obtain ⟨_, _, h⟩ := Datatype.bind_ok h
  obtain ⟨_, _, h⟩ := Datatype.bind_ok h
  cases h
  exact ⟨_, rfl⟩

/-! ## Schemas -/

/-- What the schema of the table has in common with the one of the resource. -/
structure SchemaFacts (ext : Ext) (other : Base → Derived → J → Res Val) (resources : List J) (rsc schema : List (Str × J)) (s : Schema) : Prop where
  columns : ∃ fields, prop "fields" schema = some (.arr fields) ∧
    All2 (fun j c => ∃ f, j = .obj f ∧ FieldColumn ext other f c ∧ BareCol f c.props) fields s.columns
  bare : Bare s.props
  primaryKey : ∀ j l, prop "primaryKey" schema = some j → Names j l → (∀ c ∈ s.columns, c.name ≠ none ∧ c.name ≠ some []) → s.primaryKey = some l
  null : ∀ l, prop "missingValues" schema = some (.arr (l.map .str)) → s.props.null = l
  noForeignKeys : prop "foreignKeys" schema = none → s.foreignKeys = []
  foreignKeys : ∀ l, prop "foreignKeys" schema = some (.arr l) → All2 (SameKey resources rsc) l s.foreignKeys

theorem checkKey_named {s : Schema} (h : ∀ c ∈ s.columns, c.name ≠ none ∧ c.name ≠ some []) : s.checkKey = s := by
  unfold Schema.checkKey
  rw [if_neg]
  intro hc
  obtain ⟨r, -, hr⟩ := List.any_eq_true.1 hc
  split at hr
  · next c hc =>
    have hm : c ∈ s.columns := by
      have := Dict.get_mem hc
      have : ∀ (l : List Column) (acc : List (Str × Column)), (r, c) ∈ Dict.update acc (l.map fun c => (c.header, c)) →
          (r, c) ∈ acc ∨ c ∈ l := by
        intro l
        induction l with
        | nil => intro acc h; exact .inl h
        | cons a t ih =>
          intro acc h
          rcases ih (Dict.set a.header a acc) h with h | h
          · have hs : ∀ (acc : List (Str × Column)), (r, c) ∈ Dict.set a.header a acc → (r, c) ∈ acc ∨ c = a := by
              intro acc
              induction acc with
              | nil => intro h; simp [Dict.set] at h; exact .inr h.2
              | cons e acc ih =>
                intro h
                simp only [Dict.set] at h
                split at h
                · rcases List.mem_cons.1 h with h | h
                  · right; cases h; rfl
                  · left; exact List.mem_cons_of_mem _ h
                · rcases List.mem_cons.1 h with h | h
                  · left; rw [h]; exact List.mem_cons_self
                  · rcases ih h with h | h
                    · left; exact List.mem_cons_of_mem _ h
                    · exact .inr h
            rcases hs acc h with h | h
            · exact .inl h
            · right; rw [h]; exact List.mem_cons_self
          · right; exact List.mem_cons_of_mem _ h
      rcases this _ _ (Dict.get_mem hc) with h | h
      · cases h
      · exact h
    obtain ⟨h1, h2⟩ := h c hm
    simp only [decide_eq_true_eq] at hr
    cases hn : c.name with
    | none => exact h1 hn
    | some n =>
      cases n with
      | nil => exact h2 hn
      | cons => rw [hn] at hr; simp [nonEmpty] at hr
  · cases hr

theorem schema_facts {resources : List J} {rsc : List (Str × J)} {rm : List (J × J)} (hrm : MapOf resources rm) {j b : J}
    (h : convertSchema (argOf "name" rsc) rm j = .ok b) {s : Schema} (hs : Schema.fromvalue ext x other b = .ok s) :
    ∃ schema, j = .obj schema ∧ SchemaFacts ext other resources rsc schema s := by
  unfold convertSchema at h
  obtain ⟨schema, h0, hA⟩ := Datatype.bind_ok h
  obtain rfl := asObj_ok h0
  clear h
  obtain ⟨fj, h1, hB⟩ := Datatype.bind_ok hA
  obtain ⟨fields, h2, h⟩ := Datatype.bind_ok hB
  clear hA hB
  obtain rfl := asArr_ok h2
  obtain ⟨cols, hcols, h⟩ := Datatype.bind_ok h
  obtain ⟨fks, hfks, h⟩ := Datatype.bind_ok h
  cases h
  refine ⟨schema, rfl, ?_⟩
  unfold Schema.fromvalue at hs
  simp only at hs
  obtain ⟨p, hp, hs⟩ := fromParts_ok hs
  generalize hn1 : optItem "missingValues" "null" schema = m1 at hp
  generalize hn2 : optItem "primaryKey" "primaryKey" schema = m2 at hp
  have k1 : (Dict.keys m1).Sublist ["null".toList] := by rw [← hn1]; unfold optItem; split <;> simp [Dict.keys]
  have k2 : (Dict.keys m2).Sublist ["primaryKey".toList] := by rw [← hn2]; unfold optItem; split <;> simp [Dict.keys]
  have k3 : (Dict.keys fks).Sublist ["foreignKeys".toList] := by
    unfold convertForeignKeys at hfks
    split at hfks
    · cases hfks; simp [Dict.keys]
    · obtain ⟨_, _, hfks⟩ := Datatype.bind_ok hfks
      obtain ⟨_, _, hfks⟩ := Datatype.bind_ok hfks
      cases hfks; simp [Dict.keys]
  have hsub : (Dict.keys (("columns".toList, J.arr cols) :: (m1 ++ (m2 ++ fks)))).Sublist
      ["columns".toList, "null".toList, "primaryKey".toList, "foreignKeys".toList] := by
    rw [Dict.keys_cons]
    refine List.Sublist.cons_cons _ ?_
    unfold Dict.keys at k1 k2 k3 ⊢
    rw [List.map_append, List.map_append]
    exact k1.append (k2.append k3)
  have hn := hsub.nodup (by decide)
  have g : ∀ k : String, OwnProperty k.toList → k.toList ∈ schemaFields →
      Dict.get k.toList p.own = Dict.get k.toList (("columns".toList, J.arr cols) :: (m1 ++ (m2 ++ fks))) := by
    intro k h1 h2
    exact own_get hn hp h1 (fun _ => h2)
  have nk : ∀ {k : Str} {l : List (Str × J)} {k' : Str}, (Dict.keys l).Sublist [k'] → k ≠ k' → Dict.get k l = none := by
    intro k l k' hs hk
    rw [Dict.get_eq_none_iff]
    intro hm
    have := hs.subset hm
    simp at this
    exact hk this
  have g1 : Dict.get "null".toList p.own = prop "missingValues" schema := by
    rw [g "null" (by decide) (by decide), get_cons_ne (by decide), Dict.get_append, Dict.get_append, nk k2 (by decide), nk k3 (by decide)]
    rw [← hn1]; unfold prop optItem
    cases Dict.get "missingValues".toList schema <;> rfl
  have g2 : Dict.get "primaryKey".toList p.own = prop "primaryKey" schema := by
    rw [g "primaryKey" (by decide) (by decide), get_cons_ne (by decide), Dict.get_append, Dict.get_append, nk k1 (by decide), nk k3 (by decide)]
    rw [← hn2]; unfold prop optItem
    cases Dict.get "primaryKey".toList schema <;> rfl
  have g3 : Dict.get "foreignKeys".toList p.own = Dict.get "foreignKeys".toList fks := by
    rw [g "foreignKeys" (by decide) (by decide), get_cons_ne (by decide), Dict.get_append, Dict.get_append, nk k1 (by decide), nk k2 (by decide)]
    rfl
  have g4 : argOf "columns" p.own = .arr cols := by
    unfold argOf; rw [g "columns" (by decide) (by decide)]; rfl
  have g5 : ∀ k ∈ ["required", "aboutUrl", "valueUrl", "propertyUrl", "datatype"], argOf k p.own = .null := by
    intro k hk
    have hno : OwnProperty k.toList ∧ k.toList ∈ schemaFields ∧
        k.toList ∉ ["columns".toList, "null".toList, "primaryKey".toList, "foreignKeys".toList] := by
      revert k
      decide
    unfold argOf
    rw [g k hno.1 hno.2.1, (Dict.get_eq_none_iff _ _).2 fun hm => hno.2.2 (hsub.subset hm)]
    rfl
  unfold Schema.ofParts at hs
  obtain ⟨props, hprops, hs⟩ := Datatype.bind_ok hs
  obtain ⟨columns, hcolumns, hs⟩ := Datatype.bind_ok hs
  obtain ⟨foreignKeys, hfk, hs⟩ := Datatype.bind_ok hs
  obtain ⟨primaryKey, hpk, hs⟩ := Datatype.bind_ok hs
  obtain ⟨s0, hs0, hs⟩ := Datatype.bind_ok hs
  cases hs
  rw [g4] at hcolumns
  unfold Schema.construct at hs0
  split at hs0
  · cases hs0
  next cs hcs =>
  cases hs0
  obtain ⟨c1, c2, c3⟩ := checkKey_columns { props, columns := cs, foreignKeys, primaryKey }
  simp only at c1 c2 c3
  have hall : All2 (fun j c => ∃ f, j = .obj f ∧ FieldColumn ext other f c ∧ BareCol f c.props) fields cs := by
    have a1 := forAll_all2 hcols
    have a2 := mapObjs_all2 (f := fun m => Column.fromvalue ext x other (.obj m)) (l := cols) (as := columns) (by
      intro j hj
      obtain ⟨a, -, ha⟩ := All2_mem_right a1 j hj
      obtain ⟨_, m, -, hm⟩ := convertColumn_obj ha
      exact ⟨m, hm⟩) (by
        unfold convColumns at hcolumns
        simp only at hcolumns
        split at hcolumns
        · cases hcolumns
        · exact hcolumns)
    refine All2_imp ?_ (All2_trans (All2_trans a1 a2) (number_all2 hcs))
    rintro a c' ⟨c, ⟨b, h1, m, rfl, h2⟩, n, rfl⟩
    obtain ⟨f, -, rfl, -⟩ := convertColumn_obj h1
    obtain ⟨fc, hr⟩ := column_of_field h1 h2
    exact ⟨f, rfl, ⟨fc.name, fc.virtual, fc.datatype, fc.title, fc.propertyUrl, fc.description⟩, hr⟩
  have hbare := bare_of hprops g5
  unfold Descr.ofParts at hprops
  obtain ⟨d0, hd0, rfl⟩ := Except.map_eq_ok.1 hprops
  unfold Descr.construct at hd0
  obtain ⟨dtv, hdtv, hd0⟩ := Datatype.bind_ok hd0
  cases hd0
  constructor
  · refine ⟨fields, item_ok h1, ?_⟩
    simp only [c1]
    exact hall
  · simp only [c3]; exact hbare
  · intro j l hj hl hnm
    simp only [c1] at hnm
    simp only
    rw [checkKey_named hnm]
    simp only
    have : argOf "primaryKey" p.own = j := by unfold argOf; rw [g2, hj]; rfl
    rw [this] at hpk
    cases hl with
    | one s => cases hpk; rfl
    | many l =>
      simp only [convKey] at hpk
      rw [convColref_strs] at hpk
      cases hpk; rfl
  · intro l hl
    simp only [c3]
    rw [g1, hl]
    exact convNull_strs l
  · intro hno
    simp only [c2]
    have : argOf "foreignKeys" p.own = .null := by
      unfold argOf
      rw [g3]
      unfold convertForeignKeys at hfks
      rw [show Dict.get "foreignKeys".toList schema = none from hno] at hfks
      cases hfks; rfl
    rw [this] at hfk
    cases hfk; rfl
  · intro l hl
    simp only [c2]
    unfold convertForeignKeys at hfks
    rw [show Dict.get "foreignKeys".toList schema = some (.arr l) from hl] at hfks
    simp only [asArr, bind, Except.bind] at hfks
    split at hfks
    · cases hfks
    next ks hks =>
    cases hfks
    have : argOf "foreignKeys" p.own = .arr ks := by unfold argOf; rw [g3]; rfl
    rw [this] at hfk
    have a1 := forAll_all2 hks
    have a2 := mapObjs_all2 (l := ks) (as := foreignKeys) (by
      intro j hj
      obtain ⟨a, -, ha⟩ := All2_mem_right a1 j hj
      exact convertForeignKey_obj ha) hfk
    refine All2_imp ?_ (All2_trans a1 a2)
    rintro a k ⟨b, h1, m, rfl, h2⟩
    exact key_same hrm h1 h2

end Csvw.Frictionless

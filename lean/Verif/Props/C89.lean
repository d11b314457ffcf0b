import Verif.Lemmas.Links
import Verif.Lemmas.Frictionless
import Verif.Lemmas.Clean3
import Verif.Lemmas.Table
import Verif.Props.C52_C55
/-!
# C89: a linked schema or dialect is read like one written out

A metadata document may give the schema of a table and the dialect of the group by links. A document read from a URL gives the same
description as the document in which the objects the links point to are written out.
-/

namespace Csvw.Props

open Csvw.Spec Csvw.Links

section
variable {ext : Ext} {x : MExt} {other : Base → Derived → J → Res Val} {lk : EncLookup} {fx : FExt} {d : Disk} {o : OpenExt}

theorem getJson_web {u : Str} {m : List (Str × J)} (h : WebDocument fx u m) : getJson fx d (.url u) = .ok (.obj m) := by
  obtain ⟨-, text, h1, h2⟩ := h
  simp only [getJson, h1, h2]

theorem schemaOf_web {u : Str} {m : List (Str × J)} (h : WebDocument fx u m) :
    schemaOf ext x other fx d (.str u) = schemaOf ext x other fx d (.obj m) := by
  simp only [schemaOf, h.1, if_true, getJson_web h]

theorem schemaOf_plain {j : J} (h : ∀ s, j ≠ .str s) : schemaOf ext x other fx d j = Schema.fromvalue ext x other j := by
  cases j with
  | str s => exact absurd rfl (h s)
  | _ => rfl

theorem dialectOf_plain {a : List (Str × J)} {j : J} (h : ∀ s, j ≠ .str s) : dialectOf lk x fx d a j = convDialect lk x j := by
  cases j with
  | str s => exact absurd rfl (h s)
  | _ => rfl

theorem argOf_set_self (k : String) (j : J) (l : List (Str × J)) : argOf k (Dict.set k.toList j l) = j := by simp [argOf]

theorem argOf_set_other {k : String} {k' : Str} (h : k' ≠ k.toList) (j : J) (l : List (Str × J)) : argOf k (Dict.set k' j l) = argOf k l := by
  simp only [argOf]; rw [Dict.get_set_ne h]

theorem likeOf_schema {p : Parts} {i j : J} (h : schemaOf ext x other fx d i = schemaOf ext x other fx d j) :
    likeOf ext x other lk fx d { p with own := Dict.set "tableSchema".toList i p.own } =
      likeOf ext x other lk fx d { p with own := Dict.set "tableSchema".toList j p.own } := by
  simp only [likeOf]
  rw [ofParts_set (by decide), ofParts_set (by decide), argOf_set_self, argOf_set_self, h, argOf_set_other (by decide), argOf_set_other (by decide),
    argOf_set_other (by decide), argOf_set_other (by decide), Dict.get_set_ne (by decide), Dict.get_set_ne (by decide), Dict.get_set_ne (by decide),
    Dict.get_set_ne (by decide), Dict.get_set_ne (by decide), Dict.get_set_ne (by decide)]

theorem tableOf_schema {p : Parts} {i j : J} (h : schemaOf ext x other fx d i = schemaOf ext x other fx d j) :
    tableOf ext x other lk fx d { p with own := Dict.set "tableSchema".toList i p.own } =
      tableOf ext x other lk fx d { p with own := Dict.set "tableSchema".toList j p.own } := by
  simp only [tableOf]
  rw [likeOf_schema h, Dict.get_set_ne (by decide), Dict.get_set_ne (by decide)]

theorem tableFrom_schema {m : List (Str × J)} (hn : (Dict.keys m).Nodup) (hk : "tableSchema".toList ∈ Dict.keys m) {i j : J}
    (h : schemaOf ext x other fx d i = schemaOf ext x other fx d j) :
    tableFrom ext x other lk fx d (.obj (Dict.set "tableSchema".toList i m)) =
      tableFrom ext x other lk fx d (.obj (Dict.set "tableSchema".toList j m)) := by
  unfold tableFrom
  rw [fromParts_set (g := fun p => tableOf ext x other lk fx d { p with own := Dict.set "tableSchema".toList i p.own }) hn hk (by decide) (by decide)
      (fun _ _ => rfl),
    fromParts_set (g := fun p => tableOf ext x other lk fx d { p with own := Dict.set "tableSchema".toList i p.own }) hn hk (by decide) (by decide)
      (fun p _ => (tableOf_schema h).symm)]

/-- The items of `tables` after `from_url` has resolved the links, and with the schemas written out. -/
theorem items_schema {b : Str} (hb : b ≠ []) {l l' : List J} (hd : ∀ t ∈ l, DistinctKeys t)
    (h : All2 (SchemaInlined fun s m => WebDocument fx (fx.urljoin b s) m) l l') :
    ∃ l1, mapRes (resolveSchema fx (.str b)) l = .ok l1 ∧ mapRes (resolveSchema fx (.str b)) l' = .ok l' ∧
      mapObjs (fun m => tableFrom ext x other lk fx d (.obj m)) l1 = mapObjs (fun m => tableFrom ext x other lk fx d (.obj m)) l' := by
  induction h with
  | nil => exact ⟨[], rfl, rfl, rfl⟩
  | @cons t t' r r' ht _ ih =>
    obtain ⟨l1, h1, h2, h3⟩ := ih fun t ht => hd t (List.mem_cons_of_mem _ ht)
    rcases ht with ⟨rfl, hno⟩ | ⟨m, s, sch, rfl, hs, hw, rfl⟩
    · have e : resolveSchema fx (.str b) t' = .ok t' := by
        cases t' with
        | obj m =>
          have := hno m rfl
          simp only [resolveSchema]
          split
          · next s hs => exact absurd hs (this s)
          · rfl
        | _ => rfl
      refine ⟨t' :: l1, ?_, ?_, ?_⟩
      · simp only [mapRes, e, h1]; rfl
      · simp only [mapRes, e, h2]; rfl
      · cases t' <;> simp only [mapObjs, h3]
    · have hn : (Dict.keys m).Nodup := (hd _ (List.mem_cons_self)).nodup
      have hk : "tableSchema".toList ∈ Dict.keys m := by rw [← Dict.get_isSome_iff_mem_keys, hs]; rfl
      refine ⟨.obj (Dict.set "tableSchema".toList (.str (fx.urljoin b s)) m) :: l1, ?_, ?_, ?_⟩
      · simp only [mapRes, resolveSchema, hs, if_neg hb, h1]; rfl
      · simp only [mapRes, resolveSchema, Dict.get_set_self, h2]; rfl
      · simp only [mapObjs, h3]
        rw [tableFrom_schema hn hk (schemaOf_web hw)]

theorem setdefault_base {loc : Str} {m : List (Str × J)} {b : Str} (h : DocumentBase loc m b) :
    Dict.get "@base".toList (Dict.setdefault "@base".toList (.str loc) m) = some (.str b) := by
  rw [Table.get_setdefault]
  rcases h with h | ⟨h, rfl⟩ <;> rw [h] <;> rfl

theorem setdefault_set {k k' : Str} (hk : k' ≠ k) {m : List (Str × J)} (hm : k' ∈ Dict.keys m) (v w : J) :
    Dict.setdefault k v (Dict.set k' w m) = Dict.set k' w (Dict.setdefault k v m) := by
  unfold Dict.setdefault
  have e : Dict.has k (Dict.set k' w m) = Dict.has k m := by
    rw [Bool.eq_iff_iff, Dict.has_iff_mem_keys, Dict.has_iff_mem_keys, Dict.mem_keys_set]
    exact ⟨fun h => h.resolve_left (Ne.symm hk), Or.inr⟩
  rw [e]
  split
  · rfl
  · next h =>
    have hn : k ∉ Dict.keys m := fun h' => h ((Dict.has_iff_mem_keys _ _).2 h')
    have hn' : k ∉ Dict.keys (Dict.set k' w m) := by
      rw [Dict.mem_keys_set]
      exact fun h' => hn (h'.resolve_left (Ne.symm hk))
    rw [← Dict.set_eq_append_of_not_mem hn, ← set_comm hk w v m hm, Dict.set_eq_append_of_not_mem hn']

theorem setdefault_nodup {k : Str} {v : J} {m : List (Str × J)} (h : (Dict.keys m).Nodup) : (Dict.keys (Dict.setdefault k v m)).Nodup := by
  unfold Dict.setdefault
  split
  · exact h
  · next hk =>
    rw [← Dict.set_eq_append_of_not_mem (fun h' => hk ((Dict.has_iff_mem_keys _ _).2 h'))]
    exact Dict.nodup_keys_set h

theorem setdefault_mem {k k' : Str} {v : J} {m : List (Str × J)} (h : k' ∈ Dict.keys m) : k' ∈ Dict.keys (Dict.setdefault k v m) := by
  unfold Dict.setdefault
  split
  · exact h
  · simp only [Dict.keys, List.map_append, List.mem_append]; exact Or.inl h

/-- The tables of a group. -/
theorem groupFrom_tables {m : List (Str × J)} (hn : (Dict.keys m).Nodup) (hk : "tables".toList ∈ Dict.keys m) {l l' : List J}
    (h : mapObjs (fun m => tableFrom ext x other lk fx d (.obj m)) l = mapObjs (fun m => tableFrom ext x other lk fx d (.obj m)) l') :
    groupFrom ext x other lk fx d (.obj (Dict.set "tables".toList (.arr l) m)) =
      groupFrom ext x other lk fx d (.obj (Dict.set "tables".toList (.arr l') m)) := by
  have key : ∀ p : Parts, groupOf ext x other lk fx d { p with own := Dict.set "tables".toList (.arr l) p.own } =
      groupOf ext x other lk fx d { p with own := Dict.set "tables".toList (.arr l') p.own } := by
    intro p
    simp only [groupOf, likeOf]
    rw [ofParts_set (by decide), ofParts_set (by decide), Dict.get_set_self, Dict.get_set_self]
    simp only [tablesFrom, h]
    rw [argOf_set_other (by decide), argOf_set_other (by decide), argOf_set_other (by decide), argOf_set_other (by decide), argOf_set_other (by decide),
      argOf_set_other (by decide), Dict.get_set_ne (by decide), Dict.get_set_ne (by decide), Dict.get_set_ne (by decide), Dict.get_set_ne (by decide),
      Dict.get_set_ne (by decide), Dict.get_set_ne (by decide)]
  unfold groupFrom
  rw [fromParts_set (g := fun p => groupOf ext x other lk fx d { p with own := Dict.set "tables".toList (.arr l) p.own }) hn hk (by decide) (by decide)
      (fun _ _ => rfl),
    fromParts_set (g := fun p => groupOf ext x other lk fx d { p with own := Dict.set "tables".toList (.arr l) p.own }) hn hk (by decide) (by decide)
      (fun p _ => (key p).symm)]

/-- **C89** (schemas): a document of a table group, read from a URL, in which tables give their schemas by links, relative or not, is read
like the document in which each link is replaced by the object it points to. -/
theorem C89_schema {url : Str} {m : List (Str × J)} (hd : DistinctKeys (.obj m)) {l l' : List J}
    (hl : Dict.get "tables".toList m = some (.arr l)) {b : Str} (hb : DocumentBase (o.baseUrl url) m b) (hne : b ≠ [])
    (h : All2 (SchemaInlined fun s sch => WebDocument fx (fx.urljoin b s) sch) l l') :
    fromUrl (groupFrom ext x other lk fx d) o fx url (.obj m) =
      fromUrl (groupFrom ext x other lk fx d) o fx url (.obj (Dict.set "tables".toList (.arr l') m)) := by
  have hk : "tables".toList ∈ Dict.keys m := by rw [← Dict.get_isSome_iff_mem_keys, hl]; rfl
  have hdl : ∀ t ∈ l, DistinctKeys t := by
    have := hd.arg "tables"
    simp only [argOf, hl, Option.getD_some] at this
    cases this with
    | arr h => exact h
  obtain ⟨l1, h1, h2, h3⟩ := items_schema (ext := ext) (x := x) (other := other) (lk := lk) (d := d) hne hdl h
  have hb' := setdefault_base hb
  simp only [fromUrl]
  rw [setdefault_set (by decide) hk, Dict.get_set_ne (by decide), hb']
  simp only [resolveSchemas, Option.getD_some, Dict.get_set_self, h2]
  rw [Table.get_setdefault, hl]
  simp only [Option.some_or]
  simp only [h1, set_set]
  exact groupFrom_tables (setdefault_nodup hd.nodup) (setdefault_mem hk) h3

/-! ## Documents without links -/

theorem noLink_arg {k : String} {m : List (Str × J)} (h : NoLink k m) : ∀ s, argOf k m ≠ .str s := by
  intro s hs
  apply h s
  unfold argOf at hs
  cases hg : Dict.get k.toList m with
  | none => rw [hg] at hs; cases hs
  | some v => rw [hg, Option.getD_some] at hs; rw [hs]

theorem likeOf_plain {p : Parts} (h1 : NoLink "tableSchema" p.own) (h2 : NoLink "dialect" p.own) :
    likeOf ext x other lk fx d p = TableLike.ofParts ext x other lk p := by
  simp only [likeOf, TableLike.ofParts, schemaOf_plain (noLink_arg h1), dialectOf_plain (noLink_arg h2)]

theorem fromParts_congr {α : Type} {fields : List Str} {tn : String} {f g : Parts → Res α} {j : J}
    (h : ∀ p, partitionProperties x fields tn.toList true j = .ok (some p) → f p = g p) : fromParts x fields tn f j = fromParts x fields tn g j := by
  unfold fromParts
  cases hp : partitionProperties x fields tn.toList true j with
  | error e => rfl
  | ok q =>
    cases q with
    | none => rfl
    | some p => simp only [h p hp]

theorem tableFrom_plain {m : List (Str × J)} (hn : (Dict.keys m).Nodup) (h1 : NoLink "tableSchema" m) (h2 : NoLink "dialect" m) :
    tableFrom ext x other lk fx d (.obj m) = TableD.fromvalue ext x other lk (.obj m) := by
  apply fromParts_congr
  intro p hp
  have e1 := own_get hn hp (k := "tableSchema".toList) (by decide) (fun _ => by decide)
  have e2 := own_get hn hp (k := "dialect".toList) (by decide) (fun _ => by decide)
  simp only [tableOf, TableD.ofParts]
  rw [likeOf_plain (fun s => by rw [e1]; exact h1 s) (fun s => by rw [e2]; exact h2 s)]

theorem groupFrom_plain {m : List (Str × J)} (hd : DistinctKeys (.obj m)) (h : WithoutLinks m) :
    groupFrom ext x other lk fx d (.obj m) = GroupD.fromvalue ext x other lk (.obj m) := by
  apply fromParts_congr
  intro p hp
  have hn := hd.nodup
  have e1 := own_get hn hp (k := "tableSchema".toList) (by decide) (fun _ => by decide)
  have e2 := own_get hn hp (k := "dialect".toList) (by decide) (fun _ => by decide)
  have e3 := own_get hn hp (k := "tables".toList) (by decide) (fun _ => by decide)
  simp only [groupOf, GroupD.ofParts]
  rw [likeOf_plain (fun s => by rw [e1]; exact h.1 s) (fun s => by rw [e2]; exact h.2.1 s), e3]
  have e : tablesFrom ext x other lk fx d (Dict.get "tables".toList m) = convTables ext x other lk (Dict.get "tables".toList m) := by
    cases hg : Dict.get "tables".toList m with
    | none => rfl
    | some j =>
      cases j with
      | arr l =>
        have hl := h.2.2 l hg
        have hdl : ∀ t ∈ l, DistinctKeys t := by
          have := hd.arg "tables"
          simp only [argOf, hg, Option.getD_some] at this
          cases this with
          | arr h => exact h
        simp only [tablesFrom, convTables]
        clear hg
        induction l with
        | nil => rfl
        | cons t r ih =>
          have ih := ih (fun t ht => hl t (List.mem_cons_of_mem _ ht)) (fun t ht => hdl t (List.mem_cons_of_mem _ ht))
          cases t with
          | obj m =>
            have hm := hl m List.mem_cons_self
            simp only [mapObjs, ih]
            rw [tableFrom_plain (hdl _ List.mem_cons_self).nodup hm.1 hm.2]
          | _ => simp only [mapObjs, ih]
      | _ => rfl
  rw [e]

theorem resolveSchema_plain {b : J} {t : J} (h : ∀ m, t = .obj m → NoLink "tableSchema" m) : resolveSchema fx b t = .ok t := by
  cases t with
  | obj m =>
    have := h m rfl
    simp only [resolveSchema]
    split
    · next s hs => exact absurd hs (this s)
    · rfl
  | _ => rfl

theorem setdefault_noLink {k : String} {v : J} {m : List (Str × J)} (hk : k ≠ "@base") (h : NoLink k m) :
    NoLink k (Dict.setdefault "@base".toList v m) := by
  intro s hs
  rw [Table.get_setdefault, if_neg (fun h => hk (String.toList_injective h.symm)), Option.or_none] at hs
  exact h s hs

/-- Documents without links are read, from a URL, as modelled before: only the `@base` is added. -/
theorem C89_plain {url : Str} {m : List (Str × J)} (hd : DistinctKeys (.obj m)) (h : WithoutLinks m)
    (ht : ∀ v, Dict.get "tables".toList m = some v → ∃ l, v = .arr l) :
    fromUrl (groupFrom ext x other lk fx d) o fx url (.obj m) =
      GroupD.fromvalue ext x other lk (.obj (Dict.setdefault "@base".toList (.str (o.baseUrl url)) m)) := by
  have hget : Dict.get "tables".toList (Dict.setdefault "@base".toList (.str (o.baseUrl url)) m) = Dict.get "tables".toList m := by
    rw [Table.get_setdefault, if_neg (by decide), Option.or_none]
  have hw : WithoutLinks (Dict.setdefault "@base".toList (.str (o.baseUrl url)) m) :=
    ⟨setdefault_noLink (by decide) h.1, setdefault_noLink (by decide) h.2.1, by rw [hget]; exact h.2.2⟩
  rw [← groupFrom_plain (fx := fx) (d := d) (distinct_setdefault (.str _) hd) hw]
  simp only [fromUrl, resolveSchemas]
  rw [hget]
  cases hg : Dict.get "tables".toList m with
  | none =>
    simp only
    rw [resolveSchema_plain (fun m' hm' => by
      simp only [J.obj.injEq] at hm'
      rw [← hm']
      exact hw.1)]
  | some v =>
    obtain ⟨l, rfl⟩ := ht v hg
    have hl := h.2.2 l hg
    have hm : ∀ b, mapRes (resolveSchema fx b) l = .ok l := by
      intro b
      clear hg
      induction l with
      | nil => rfl
      | cons t r ih =>
        have ih := ih (fun t ht => hl t (List.mem_cons_of_mem _ ht))
        simp only [mapRes, resolveSchema_plain (b := b) (t := t) (fun m hm => (hl m (hm ▸ List.mem_cons_self)).1), ih]
        rfl
    simp only [hm]
    have hs : Dict.set "tables".toList (.arr l) (Dict.setdefault "@base".toList (.str (o.baseUrl url)) m) =
        Dict.setdefault "@base".toList (.str (o.baseUrl url)) m := by
      have := hget.trans hg
      generalize Dict.setdefault "@base".toList (J.str (o.baseUrl url)) m = q at this
      induction q with
      | nil => cases this
      | cons e r ih =>
        obtain ⟨a, w⟩ := e
        simp only [Dict.get] at this
        split at this
        · next ha => simp only [Option.some.injEq] at this; rw [Dict.set, if_pos ha, ← this, ha]
        · next ha => rw [Dict.set, if_neg ha, ih this]
    rw [hs]

/-! ## Dialects -/

theorem at_value {fields : List Str} {tn : Str} {strict : Bool} {m : List (Str × J)} (hn : (Dict.keys m).Nodup) {p : Parts}
    (h : partitionProperties x fields tn strict (.obj m) = .ok (some p)) {k : Str} (hk : '@' :: k ≠ "@id".toList) :
    Dict.get k p.atProps = Dict.get ('@' :: k) m := by
  obtain ⟨-, -, q3, -⟩ := C52_partition x fields tn strict m p hn h
  rw [q3]
  clear q3 h hn p
  induction m with
  | nil => rfl
  | cons e r ih =>
    obtain ⟨a, w⟩ := e
    rw [List.filter_cons]
    split
    · next ha =>
      simp only [decide_eq_true_eq] at ha
      obtain ⟨k', rfl⟩ := ha
      simp only [List.map_cons, Dict.get, List.drop_succ_cons, List.drop_zero, List.cons.injEq, true_and]
      split
      · next e =>
        subst e
        simp only [atValue, if_neg hk]
      · exact ih
    · next ha =>
      simp only [decide_eq_true_eq] at ha
      rw [Dict.get, if_neg (fun e => ha ⟨k, e⟩)]
      exact ih

theorem baseOf_full {loc : Str} {m : List (Str × J)} {a : List (Str × J)} {b : Str} (hb : FullBase fx loc m b)
    (h1 : Dict.get "base".toList a = Dict.get "@base".toList (Dict.setdefault "@base".toList (.str loc) m))
    (h2 : Dict.get "context".toList a = Dict.get "@context".toList m) : baseOf fx a none none = .ok (.url b) := by
  obtain ⟨b0, c, hb0, hc, hne, rfl⟩ := hb
  rw [setdefault_base hb0] at h1
  unfold baseOf
  simp only [Option.getD_none, h1, h2]
  rcases hc with ⟨rfl, h | ⟨s, h⟩⟩ | ⟨s, ctx, h, h' | ⟨h', rfl⟩⟩
  · rw [h]; rfl
  · rw [h]; rfl
  · rw [h]
    simp only [contextBase, h', if_neg hne]
  · rw [h]
    simp only [contextBase, h']
    rfl

theorem groupOf_dialect {p : Parts} {s : Str} {dl : List (Str × J)}
    (h : dialectOf lk x fx d p.atProps (.str s) = dialectOf lk x fx d p.atProps (.obj dl)) (hs : argOf "dialect" p.own = .str s) :
    groupOf ext x other lk fx d { p with own := Dict.set "dialect".toList (.obj dl) p.own } = groupOf ext x other lk fx d p := by
  simp only [groupOf, likeOf]
  rw [ofParts_set (by decide), argOf_set_self, ← h, hs, argOf_set_other (by decide), argOf_set_other (by decide), Dict.get_set_ne (by decide),
    Dict.get_set_ne (by decide), Dict.get_set_ne (by decide), Dict.get_set_ne (by decide)]

/-- **C89** (dialects): a document of a table group, read from a URL, which gives the dialect of the group by a link is read like the
document in which the link is replaced by the object it points to. -/
theorem C89_dialect {url : Str} {m : List (Str × J)} (hd : DistinctKeys (.obj m)) (ht : "tables".toList ∈ Dict.keys m) {s : Str}
    (hs : Dict.get "dialect".toList m = some (.str s)) {b : Str} (hb : FullBase fx (o.baseUrl url) m b) (hne : b ≠ [])
    {dl : List (Str × J)} (h : WebDocument fx (fx.urljoin b s) dl) :
    fromUrl (groupFrom ext x other lk fx d) o fx url (.obj m) =
      fromUrl (groupFrom ext x other lk fx d) o fx url (.obj (Dict.set "dialect".toList (.obj dl) m)) := by
  have hk : "dialect".toList ∈ Dict.keys m := by rw [← Dict.get_isSome_iff_mem_keys, hs]; rfl
  have key : ∀ M : List (Str × J), (Dict.keys M).Nodup → Dict.get "dialect".toList M = some (.str s) →
      Dict.get "@base".toList M = Dict.get "@base".toList (Dict.setdefault "@base".toList (.str (o.baseUrl url)) m) →
      Dict.get "@context".toList M = Dict.get "@context".toList m →
      groupFrom ext x other lk fx d (.obj (Dict.set "dialect".toList (.obj dl) M)) = groupFrom ext x other lk fx d (.obj M) := by
    intro M hn hds hbs hcs
    unfold groupFrom
    apply fromParts_set hn (by rw [← Dict.get_isSome_iff_mem_keys, hds]; rfl) (by decide) (by decide)
    intro p hp
    apply groupOf_dialect (s := s)
    · have e := baseOf_full hb (a := p.atProps) ((at_value hn hp (k := "base".toList) (by decide)).trans hbs)
        ((at_value hn hp (k := "context".toList) (by decide)).trans hcs)
      simp only [dialectOf, e, resolveLink, if_neg hne, Loc.ofStr, h.1, if_true, getJson_web h]
    · rw [own_arg hn hp (by decide) (fun _ => by decide), argOf, hds]; rfl
  obtain ⟨v, hv⟩ : ∃ v, Dict.get "tables".toList m = some v := by
    have := (Dict.get_isSome_iff_mem_keys _ _).2 ht
    exact Option.isSome_iff_exists.1 this
  have hn := setdefault_nodup (k := "@base".toList) (v := .str (o.baseUrl url)) hd.nodup
  have hctx : Dict.get "@context".toList (Dict.setdefault "@base".toList (.str (o.baseUrl url)) m) = Dict.get "@context".toList m := by
    rw [Table.get_setdefault, if_neg (by decide), Option.or_none]
  have hdia : Dict.get "dialect".toList (Dict.setdefault "@base".toList (.str (o.baseUrl url)) m) = some (.str s) := by
    rw [Table.get_setdefault, if_neg (by decide), Option.or_none, hs]
  have hget : Dict.get "tables".toList (Dict.setdefault "@base".toList (.str (o.baseUrl url)) m) = some v := by
    rw [Table.get_setdefault, if_neg (by decide), Option.or_none, hv]
  simp only [fromUrl]
  rw [setdefault_set (by decide) hk, Dict.get_set_ne (by decide)]
  simp only [resolveSchemas]
  rw [Dict.get_set_ne (by decide), hget]
  cases v with
  | arr l =>
    simp only
    cases mapRes (resolveSchema fx ((Dict.get "@base".toList (Dict.setdefault "@base".toList (J.str (o.baseUrl url)) m)).getD J.null)) l with
    | error e => rfl
    | ok l' =>
      simp only
      rw [set_comm (by decide) _ _ _ (setdefault_mem hk), key _ (Dict.nodup_keys_set hn)]
      · rw [Dict.get_set_ne (by decide), hdia]
      · rw [Dict.get_set_ne (by decide)]
      · rw [Dict.get_set_ne (by decide), hctx]
  | obj q => exact (key _ hn hdia rfl hctx).symm
  | str q => exact (key _ hn hdia rfl hctx).symm
  | _ => rfl

/-! ## Tables -/

/-- **C89** (a single table): likewise for a document which describes a table. -/
theorem C89_table {url : Str} {m : List (Str × J)} (hd : DistinctKeys (.obj m)) (ht : Dict.get "tables".toList m = none) {s : Str}
    (hs : Dict.get "tableSchema".toList m = some (.str s)) {b : Str} (hb : DocumentBase (o.baseUrl url) m b) (hne : b ≠ [])
    {sch : List (Str × J)} (h : WebDocument fx (fx.urljoin b s) sch) :
    fromUrl (tableFrom ext x other lk fx d) o fx url (.obj m) =
      fromUrl (tableFrom ext x other lk fx d) o fx url (.obj (Dict.set "tableSchema".toList (.obj sch) m)) := by
  have hk : "tableSchema".toList ∈ Dict.keys m := by rw [← Dict.get_isSome_iff_mem_keys, hs]; rfl
  have hb' := setdefault_base hb
  have hget : Dict.get "tables".toList (Dict.setdefault "@base".toList (.str (o.baseUrl url)) m) = none := by
    rw [Table.get_setdefault, if_neg (by decide), Option.or_none, ht]
  have hsch : Dict.get "tableSchema".toList (Dict.setdefault "@base".toList (.str (o.baseUrl url)) m) = some (.str s) := by
    rw [Table.get_setdefault, if_neg (by decide), Option.or_none, hs]
  simp only [fromUrl]
  rw [setdefault_set (by decide) hk, Dict.get_set_ne (by decide), hb']
  simp only [resolveSchemas]
  rw [Dict.get_set_ne (by decide), hget]
  simp only [Option.getD_some, resolveSchema, hsch, Dict.get_set_self, if_neg hne]
  exact tableFrom_schema (setdefault_nodup hd.nodup) (setdefault_mem hk) (schemaOf_web h)

/-! ## Opening -/

theorem tableFromUrl_plain {url : Str} {m : List (Str × J)} (hd : DistinctKeys (.obj m)) (h : WithoutLinks m)
    (ht : Dict.get "tables".toList m = none) :
    fromUrl (tableFrom ext x other lk fx d) o fx url (.obj m) =
      TableD.fromvalue ext x other lk (.obj (Dict.setdefault "@base".toList (.str (o.baseUrl url)) m)) := by
  have hget : Dict.get "tables".toList (Dict.setdefault "@base".toList (.str (o.baseUrl url)) m) = none := by
    rw [Table.get_setdefault, if_neg (by decide), Option.or_none, ht]
  have h1 : NoLink "tableSchema" (Dict.setdefault "@base".toList (.str (o.baseUrl url)) m) := setdefault_noLink (by decide) h.1
  simp only [fromUrl, resolveSchemas]
  rw [hget]
  simp only
  rw [resolveSchema_plain (fun m' hm' => by
    simp only [J.obj.injEq] at hm'
    rw [← hm']
    exact h1)]
  exact tableFrom_plain (setdefault_nodup hd.nodup) h1 (setdefault_noLink (by decide) h.2.1)

/-- A document without links is opened as modelled before. -/
theorem C89_open_plain {w : Locate.World} {url : Str} {mdUrl : Option Str} {m : List (Str × J)} {nh : Bool}
    (hdoc : Opened.document w url mdUrl = .ok (.obj m, nh)) (hd : DistinctKeys (.obj m)) (h : WithoutLinks m) :
    openInit ext x other lk o fx d w url mdUrl = Opened.init ext x other lk o w url mdUrl := by
  have key : describe ext x other lk o fx d url nh m = Opened.describe ext x other lk o url nh m := by
    unfold describe Opened.describe
    cases hg : Dict.get "tables".toList m with
    | none =>
      simp only [openTable, Opened.table, tableFromUrl_plain hd h hg, tableFrom_plain hd.nodup h.1 h.2.1]
      rfl
    | some v =>
      cases v with
      | arr l =>
        cases l with
        | nil => rfl
        | cons t r =>
          simp only [openGroup, Opened.group, C89_plain hd h (fun v hv => ⟨t :: r, by rw [hg] at hv; cases hv; rfl⟩), groupFrom_plain hd h]
          rfl
      | _ => rfl
  unfold openInit Opened.init
  simp only [hdoc, key]
  rfl

/-- **C89** (opening): what `CSVW(url)` gives for a document in which tables link to their schemas is what it gives for the document in
which the schemas are written out. -/
theorem C89_open {w w' : Locate.World} {url : Str} {mdUrl : Option Str} {m : List (Str × J)} {nh : Bool} {l l' : List J} (hu : isUrl url = true)
    (hdoc : Opened.document w url mdUrl = .ok (.obj m, nh)) (hd : DistinctKeys (.obj m))
    (hl : Dict.get "tables".toList m = some (.arr l)) {b : Str} (hb : DocumentBase (o.baseUrl url) m b) (hne : b ≠ [])
    (h : All2 (SchemaInlined fun s sch => WebDocument fx (fx.urljoin b s) sch) l l')
    (hdoc' : Opened.document w' url mdUrl = .ok (.obj (Dict.set "tables".toList (.arr l') m), nh)) :
    openInit ext x other lk o fx d w url mdUrl = openInit ext x other lk o fx d w' url mdUrl := by
  have hk : "tables".toList ∈ Dict.keys m := by rw [← Dict.get_isSome_iff_mem_keys, hl]; rfl
  have hkeys : Dict.keys (Dict.set "tables".toList (.arr l') m) = Dict.keys m := by rw [Dict.keys_set, if_pos hk]
  have e1 : hasContext (Dict.set "tables".toList (.arr l') m) = hasContext m := by
    unfold hasContext
    rw [Dict.get_set_ne (by decide)]
  have e2 : isMinimal (Dict.set "tables".toList (.arr l') m) = isMinimal m := by
    unfold isMinimal
    rw [hkeys]
  have e3 : describe ext x other lk o fx d url nh m = describe ext x other lk o fx d url nh (Dict.set "tables".toList (.arr l') m) := by
    unfold describe
    rw [Dict.get_set_self, hl]
    cases h with
    | nil => rfl
    | cons ht hr =>
      simp only [openGroup, hu, if_true]
      rw [C89_schema hd hl hb hne (.cons ht hr)]
  unfold openInit
  simp only [hdoc, hdoc', e1, e2, e3]

end

end Csvw.Props

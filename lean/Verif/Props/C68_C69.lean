import Verif.Spec.Open
import Verif.Lemmas.Metadata4
import Verif.Lemmas.Frictionless
import Verif.Props.C54
/-!
# C68, C69: opening datasets, adding foreign keys
-/

namespace Csvw.Props
open Csvw.Spec Csvw.Datatypes

section
variable {ext : Ext} {x : MExt} {other : Base → Derived → J → Res Val} {lk : EncLookup} {o : OpenExt} {w : Locate.World}
  {url : Str} {mdUrl : Option Str}

theorem location_eq : (nonEmpty mdUrl).getD url = metadataLocation url mdUrl := by
  cases mdUrl with
  | none => rfl
  | some s => cases s with
    | nil => rfl
    | cons c s => simp [nonEmpty, Option.filter, metadataLocation]

/-- The document is the one of the specification. -/
theorem document_iff {md : J} {nh : Bool} : Opened.document w url mdUrl = .ok (md, nh) ↔ Source w url mdUrl md nh := by
  unfold Opened.document
  rw [location_eq]
  constructor
  · intro h
    split at h
    · next md' hm => cases h; exact .json _ hm
    · next hm =>
      obtain ⟨f, hf, hf'⟩ := Except.map_eq_ok.1 h
      cases hf'
      exact .located f hm hf
    · cases h
  · intro h
    cases h with
    | json md hm => rw [hm]
    | located f hm hf => rw [hm]; simp only [hf]; rfl

theorem hasContext_true {m : List (Str × J)} : hasContext m = .ok true ↔ DeclaresCsvw m := by
  unfold hasContext
  rw [show "http://www.w3.org/ns/csvw".toList = namespaceUrl from rfl]
  constructor
  · intro h
    split at h
    · cases h
    · next s hs =>
      obtain ⟨a, b, hab⟩ := (Py.contains_iff _ _).1 (Except.ok.inj h)
      exact .text a b (by rw [hs, hab])
    · next l hl => exact .item l hl (List.contains_iff_mem.1 (Except.ok.inj h))
    · next ob hob =>
      have := (List.contains_iff_mem).1 (Except.ok.inj h)
      obtain ⟨e, he, hk⟩ := List.mem_map.1 this
      exact .key ob hob e.2 (by rw [← hk]; exact he)
    · cases h
  · intro h
    cases h with
    | text a b h => rw [h]; simp only [Except.ok.injEq]; exact (Py.contains_iff _ _).2 ⟨a, b, rfl⟩
    | item l h hl => rw [h]; exact congrArg Except.ok (List.contains_iff_mem.2 hl)
    | key ob h v ho =>
      rw [h]; simp only [Except.ok.injEq]
      exact List.contains_iff_mem.2 (List.mem_map.2 ⟨_, ho, rfl⟩)

theorem setdefault_basedAt {m : List (Str × J)} (hu : isUrl url = true) :
    Dict.setdefault "@base".toList (.str (o.baseUrl url)) m = basedAt o url m := by
  unfold Dict.setdefault basedAt
  by_cases h : Dict.get "@base".toList m = none
  · rw [if_neg, if_pos ⟨hu, h⟩]
    intro hh
    obtain ⟨v, hv⟩ := (has_iff _).1 hh
    exact (Dict.get_eq_none_iff _ _).1 h (List.mem_map.2 ⟨_, hv, rfl⟩)
  · rw [if_pos, if_neg (fun hh => h hh.2)]
    cases hg : Dict.get "@base".toList m with
    | none => exact absurd hg h
    | some v => exact (has_iff _).2 ⟨v, Dict.get_mem hg⟩

theorem basedAt_file {m : List (Str × J)} (hu : isUrl url = false) : basedAt o url m = m := by
  unfold basedAt; simp [hu]

theorem usable_iff {n : Str} : UsableName n ↔ ¬ (n ≠ [] ∧ (n.any Py.isSpace ∨ n.head? = some '_')) := by
  unfold UsableName
  constructor
  · rintro ⟨h1, h2⟩ ⟨-, h | h⟩
    · obtain ⟨c, hc, hs⟩ := List.any_eq_true.1 h
      rw [h2 c hc] at hs; cases hs
    · cases n with
      | nil => cases h
      | cons c s => simp only [List.head?_cons, Option.some.injEq] at h; subst h; exact h1 s rfl
  · intro h
    cases n with
    | nil => exact ⟨fun s => by simp, fun c hc => by cases hc⟩
    | cons c s =>
      refine ⟨fun s' hs => h ⟨by simp, .inr (by rw [hs]; rfl)⟩, fun d hd => ?_⟩
      cases hds : Py.isSpace d with
      | false => rfl
      | true => exact absurd ⟨by simp, .inl (List.any_eq_true.2 ⟨d, hd, hds⟩)⟩ h

theorem fixName_checked (c : Column) : NameChecked c (fixName c) := by
  unfold fixName
  cases hn : c.name with
  | none => exact ⟨rfl, .inl ⟨rfl, fun n h => by rw [hn] at h; cases h⟩⟩
  | some n =>
    simp only
    by_cases h : n ≠ [] ∧ (n.any Py.isSpace ∨ n.head? = some '_')
    · rw [if_pos h]
      exact ⟨rfl, .inr ⟨rfl, n, hn, fun hu => usable_iff.1 hu h⟩⟩
    · rw [if_neg h]
      refine ⟨rfl, .inl ⟨rfl, fun n' hn' => ?_⟩⟩
      rw [hn] at hn'; cases hn'; exact usable_iff.2 h

theorem fixNames_checked (t : TableD) : NamesChecked t t.fixNames := by
  refine ⟨?_, rfl⟩
  show All2 NameChecked t.like.schema.columns (t.like.schema.columns.map fixName)
  generalize t.like.schema.columns = l
  induction l with
  | nil => exact .nil
  | cons c r ih => exact .cons (fixName_checked c) ih

theorem names_checked_list (l : List TableD) : All2 NamesChecked l (l.map TableD.fixNames) := by
  induction l with
  | nil => exact .nil
  | cons c r ih => exact .cons (fixNames_checked c) ih

/-- The table which a document without `tables` describes, before the names are checked. -/
def TableOf (ext : Ext) (x : MExt) (other : Base → Derived → J → Res Val) (lk : EncLookup) (o : OpenExt) (url : Str) (nh : Bool)
    (m : List (Str × J)) (t : TableD) : Prop :=
  ∃ t0, TableD.fromvalue ext x other lk (.obj (basedAt o url m)) = .ok t0 ∧
    t = if isUrl url ∧ nh then { t0 with like := { t0.like with dialect := some { t0.like.dialect.getD { commentPrefix := none } with header := false } } } else t0

theorem table_iff {nh : Bool} {m : List (Str × J)} {t : TableD} :
    Opened.table ext x other lk o url nh m = .ok t ↔ TableOf ext x other lk o url nh m t := by
  unfold Opened.table TableOf
  cases hu : isUrl url with
  | false => rw [basedAt_file hu]; simp
  | true =>
    rw [setdefault_basedAt hu]
    simp only [if_pos, true_and]
    constructor
    · intro h
      split at h
      · cases h
      · next t0 ht0 => cases h; exact ⟨t0, ht0, rfl⟩
    · rintro ⟨t0, ht0, rfl⟩; rw [ht0]; rfl

theorem group_iff {m : List (Str × J)} {g : GroupD} :
    Opened.group ext x other lk o url m = .ok g ↔
      GroupD.fromvalue ext x other lk (.obj (basedAt o url m)) = .ok g ∧ (isUrl url = true → g.group.validateSchema true = .ok ()) := by
  unfold Opened.group
  cases hu : isUrl url with
  | false => rw [basedAt_file hu]; simp
  | true =>
    rw [setdefault_basedAt hu]
    simp only [if_pos, forall_const]
    constructor
    · intro h
      split at h
      · cases h
      · next g0 hg0 =>
        split at h
        · cases h
        · next hv => cases h; exact ⟨hg0, hv⟩
    · rintro ⟨h1, h2⟩; rw [h1]; simp only [h2]

/-- **C68** When a dataset can be opened, and what is opened: the metadata must be an object which mentions the namespace in its `@context`.
Without `tables` it describes a table, otherwise `tables` must be a nonempty array and it describes a table group, whose schema must be
valid if it was given by URL. Names of columns which are not usable are removed. -/
theorem C68_init {d : Opened} : Opened.init ext x other lk o w url mdUrl = .ok d ↔
    ∃ m nh, Source w url mdUrl (.obj m) nh ∧ DeclaresCsvw m ∧ d.noMetadata = isMinimal m ∧
      ((Dict.get "tables".toList m = none ∧
          ∃ t, TableOf ext x other lk o url nh m t ∧ d.desc = .table t.fixNames) ∨
       (∃ v l, Dict.get "tables".toList m = some (.arr (v :: l)) ∧
          ∃ g, GroupD.fromvalue ext x other lk (.obj (basedAt o url m)) = .ok g ∧ (isUrl url = true → g.group.validateSchema true = .ok ()) ∧
            d.desc = .group { g with tables := g.tables.map TableD.fixNames })) := by
  unfold Opened.init
  constructor
  · intro h
    split at h
    · cases h
    · next m nh hd =>
      split at h
      · cases h
      · cases h
      · next hc =>
        obtain ⟨e, he, hde⟩ := Except.map_eq_ok.1 h
        cases hde
        refine ⟨m, nh, document_iff.1 hd, hasContext_true.1 hc, rfl, ?_⟩
        unfold Opened.describe at he
        split at he
        · next ht =>
          obtain ⟨t, h1, h2⟩ := Except.map_eq_ok.1 he
          exact .inl ⟨ht, t, table_iff.1 h1, h2.symm⟩
        · next v l ht =>
          obtain ⟨g, h1, h2⟩ := Except.map_eq_ok.1 he
          obtain ⟨h3, h4⟩ := group_iff.1 h1
          exact .inr ⟨v, l, ht, g, h3, h4, h2.symm⟩
        · cases he
    · cases h
  · rintro ⟨m, nh, h1, h2, h3, h4⟩
    obtain ⟨desc, nm⟩ := d
    simp only at h3 h4
    subst h3
    rw [document_iff.2 h1]
    simp only [hasContext_true.2 h2]
    refine Except.map_eq_ok.2 ⟨desc, ?_, rfl⟩
    unfold Opened.describe
    rcases h4 with ⟨ht, t, h5, rfl⟩ | ⟨v, l, ht, g, h5, h6, rfl⟩
    · simp only [ht]; exact Except.map_eq_ok.2 ⟨t, table_iff.2 h5, rfl⟩
    · simp only [ht]; exact Except.map_eq_ok.2 ⟨g, group_iff.2 ⟨h5, h6⟩, rfl⟩

/-- **C68** Metadata which does not mention the namespace is rejected with `ValueError` (where `@context` is not a number, `null` or the
like). -/
theorem C68_no_context {m : List (Str × J)} {nh : Bool} (hs : Source w url mdUrl (.obj m) nh) (hm : ¬ DeclaresCsvw m)
    (hv : ∀ v, Dict.get "@context".toList m = some v → (∃ s, v = .str s) ∨ (∃ l, v = .arr l) ∨ ∃ ob, v = .obj ob) :
    Opened.init ext x other lk o w url mdUrl = .error .valueError := by
  unfold Opened.init
  rw [document_iff.2 hs]
  simp only
  cases hc : hasContext m with
  | ok b => cases b with
    | false => rfl
    | true => exact absurd (hasContext_true.1 hc) hm
  | error e =>
    unfold hasContext at hc
    cases hg : Dict.get "@context".toList m with
    | none => rw [hg] at hc; cases hc
    | some v =>
      rw [hg] at hc
      rcases hv v hg with ⟨s, rfl⟩ | ⟨s, rfl⟩ | ⟨s, rfl⟩ <;> cases hc

/-- **C68** A `tables` property which is not a nonempty array is rejected with `ValueError`. -/
theorem C68_no_tables {m : List (Str × J)} {nh : Bool} {v : J} (hs : Source w url mdUrl (.obj m) nh) (hm : DeclaresCsvw m)
    (hv : Dict.get "tables".toList m = some v) (hl : ∀ a l, v ≠ .arr (a :: l)) :
    Opened.init ext x other lk o w url mdUrl = .error .valueError := by
  unfold Opened.init
  rw [document_iff.2 hs]
  simp only [hasContext_true.2 hm]
  unfold Opened.describe
  rw [hv]
  split
  · next h => cases h
  · next h => cases h; exact absurd rfl (hl _ _)
  · rfl

/-! ## The tables -/

theorem get_basedAt {m : List (Str × J)} {k : Str} (hk : k ≠ "@base".toList) : Dict.get k (basedAt o url m) = Dict.get k m := by
  unfold basedAt
  split
  · rw [Dict.get_append]; simp only [Dict.get]; rw [if_neg (Ne.symm hk)]; simp
  · rfl

theorem basedAt_nodup {m : List (Str × J)} (h : (Dict.keys m).Nodup) : (Dict.keys (basedAt o url m)).Nodup := by
  unfold basedAt
  split
  · next hb =>
    have := (Dict.get_eq_none_iff _ _).1 hb.2
    simp only [Dict.keys, List.map_append, List.map_cons, List.map_nil] at this h ⊢
    rw [List.nodup_append]
    refine ⟨h, by simp, fun a ha b hb => ?_⟩
    rw [List.mem_singleton] at hb
    subst hb
    exact fun he => this (he ▸ ha)
  · exact h

theorem mapObjs_objects {α : Type} {f : List (Str × J) → Res α} : ∀ {l : List J} {as : List α}, mapObjs f l = .ok as →
    All2 (fun m a => f m = .ok a) (objectsOf l) as
  | [], as, h => by cases h; exact .nil
  | .obj m :: r, as, h => by
    simp only [mapObjs] at h
    split at h
    · cases h
    · next a ha =>
      obtain ⟨bs, hbs, rfl⟩ := Except.map_eq_ok.1 h
      exact .cons ha (mapObjs_objects hbs)
  | .null :: r, as, h | .bool _ :: r, as, h | .int _ :: r, as, h | .flt _ :: r, as, h | .str _ :: r, as, h | .arr _ :: r, as, h =>
    mapObjs_objects (l := r) (by simpa only [mapObjs] using h)

/-- A table description has a URL. -/
theorem url_of_fromvalue {j : J} {t : TableD} (h : TableD.fromvalue ext x other lk j = .ok t) : t.like.url ≠ none := by
  obtain ⟨p, -, hp⟩ := fromParts_ok h
  unfold TableD.ofParts at hp
  obtain ⟨like, -, hp⟩ := Datatype.bind_ok hp
  split at hp
  · cases hp
  · next hu => cases hp; exact hu

theorem url_nonempty {j : J} {t : TableD} (h : TableD.fromvalue ext x other lk j = .ok t) : ∃ u, t.like.url = some u :=
  Option.ne_none_iff_exists'.1 (url_of_fromvalue h)

theorem tables_checked {ms : List (List (Str × J))} {tables : List TableD}
    (a1 : All2 (fun m a => TableD.fromvalue ext x other lk (.obj m) = .ok a) ms tables) :
    All2 (fun m t => ∃ t0 u, TableD.fromvalue ext x other lk (.obj m) = .ok t0 ∧ t0.like.url = some u ∧ NamesChecked t0 t) ms
      (tables.map TableD.fixNames) := by
  induction a1 with
  | nil => exact .nil
  | @cons a b as bs hab _ ih =>
    obtain ⟨u, hu⟩ := url_nonempty hab
    exact .cons ⟨b, u, hab, hu, fixNames_checked b⟩ ih

/-- **C68** The tables of an opened group are the objects in the `tables` property, in this order, each with a URL. -/
theorem C68_tables {d : Opened} (h : Opened.init ext x other lk o w url mdUrl = .ok d) {m : List (Str × J)} {nh : Bool}
    (hs : Source w url mdUrl (.obj m) nh) (hn : (Dict.keys m).Nodup) {l : List J} (ht : Dict.get "tables".toList m = some (.arr l)) :
    All2 (fun m t => ∃ t0 u, TableD.fromvalue ext x other lk (.obj m) = .ok t0 ∧ t0.like.url = some u ∧ NamesChecked t0 t) (objectsOf l) d.tables := by
  obtain ⟨m', nh', hs', -, -, h4⟩ := C68_init.1 h
  have hmm : m' = m := by
    have h1 := document_iff.2 hs
    rw [document_iff.2 hs'] at h1
    simp only [Except.ok.injEq, Prod.mk.injEq, J.obj.injEq] at h1
    exact h1.1
  subst hmm
  rcases h4 with ⟨h5, -⟩ | ⟨v, l', h5, g, h6, -, h7⟩
  · rw [h5] at ht; cases ht
  · rw [h5] at ht; cases ht
    obtain ⟨p, hp, hg⟩ := fromParts_ok h6
    unfold GroupD.ofParts at hg
    obtain ⟨like, -, hg⟩ := Datatype.bind_ok hg
    obtain ⟨tables, htab, hg⟩ := Datatype.bind_ok hg
    cases hg
    rw [own_get (basedAt_nodup hn) hp (k := "tables".toList) (by decide) (fun _ => by decide), get_basedAt (by decide), h5] at htab
    have a1 := mapObjs_objects htab
    have ht' : d.tables = tables.map TableD.fixNames := by unfold Opened.tables; rw [h7]
    rw [ht']
    exact tables_checked a1

/-- **C68** Without `tables`, there is one table; it has a URL. -/
theorem C68_table {d : Opened} (h : Opened.init ext x other lk o w url mdUrl = .ok d) {m : List (Str × J)} {nh : Bool}
    (hs : Source w url mdUrl (.obj m) nh) (ht : Dict.get "tables".toList m = none) :
    ∃ t0 t u, TableOf ext x other lk o url nh m t0 ∧ t0.like.url = some u ∧ NamesChecked t0 t ∧ d.tables = [t] := by
  obtain ⟨m', nh', hs', -, -, h4⟩ := C68_init.1 h
  have h1 := document_iff.2 hs
  rw [document_iff.2 hs'] at h1
  simp only [Except.ok.injEq, Prod.mk.injEq, J.obj.injEq] at h1
  obtain ⟨rfl, rfl⟩ := h1
  rcases h4 with ⟨-, t, h5, h6⟩ | ⟨v, l', h5, -⟩
  · have hu : ∃ u, t.like.url = some u := by
      obtain ⟨t0, h7, rfl⟩ := h5
      obtain ⟨u, hu⟩ := url_nonempty h7
      refine ⟨u, ?_⟩
      split <;> exact hu
    obtain ⟨u, hu⟩ := hu
    exact ⟨t, t.fixNames, u, h5, hu, fixNames_checked t, by unfold Opened.tables; rw [h6]⟩
  · rw [h5] at ht; cases ht

/-- **C68** All names of columns of an opened dataset are usable. -/
theorem C68_names {d : Opened} (h : Opened.init ext x other lk o w url mdUrl = .ok d) {t : TableD} (ht : t ∈ d.tables)
    {c : Column} (hc : c ∈ t.like.schema.columns) {n : Str} (hn : c.name = some n) : UsableName n := by
  have hfix : ∃ t0, t = TableD.fixNames t0 := by
    obtain ⟨m, nh, -, -, -, h4⟩ := C68_init.1 h
    unfold Opened.tables at ht
    rcases h4 with ⟨-, t0, -, h5⟩ | ⟨v, l', -, g, -, -, h5⟩ <;> rw [h5] at ht
    · exact ⟨t0, List.mem_singleton.1 ht⟩
    · obtain ⟨t0, -, rfl⟩ := List.mem_map.1 ht; exact ⟨t0, rfl⟩
  obtain ⟨t0, rfl⟩ := hfix
  obtain ⟨c0, -, hcc⟩ := All2_mem_right (fixNames_checked t0).columns c hc
  rcases hcc.name with ⟨h1, h2⟩ | ⟨h1, -⟩
  · exact h2 n (h1 ▸ hn)
  · rw [h1] at hn; cases hn

/-- **C68** A table description without URL is rejected; with `ValueError`, unless something else is wrong. -/
theorem C68_url_required {m : List (Str × J)} (hn : (Dict.keys m).Nodup) (hu : Dict.get "url".toList m = none) (t : TableD) :
    TableD.fromvalue ext x other lk (.obj m) ≠ .ok t := by
  intro h
  refine url_of_fromvalue h ?_
  obtain ⟨p, hp, ht⟩ := fromParts_ok h
  unfold TableD.ofParts TableLike.ofParts at ht
  obtain ⟨like, hl, ht⟩ := Datatype.bind_ok ht
  have key : like.url = none := by
    obtain ⟨_, -, hl⟩ := Datatype.bind_ok hl
    obtain ⟨_, -, hl⟩ := Datatype.bind_ok hl
    obtain ⟨_, -, hl⟩ := Datatype.bind_ok hl
    obtain ⟨_, -, hl⟩ := Datatype.bind_ok hl
    obtain ⟨_, -, hl⟩ := Datatype.bind_ok hl
    obtain ⟨url, hurl, hl⟩ := Datatype.bind_ok hl
    obtain ⟨_, -, hl⟩ := Datatype.bind_ok hl
    cases hl
    have : argOf "url" p.own = .null := by
      unfold argOf
      rw [own_get hn hp (by decide) (fun _ => by decide), hu]; rfl
    rw [this] at hurl
    cases hurl; rfl
  rw [key] at ht
  split at ht
  · cases ht
  · next hne => exact absurd rfl hne

/-- The simplest description without URL: `ValueError`. -/
theorem C68_url_error : TableD.fromvalue ext x other lk (.obj []) = .error .valueError := rfl

/-- **C68** `no_metadata` says that the metadata only has `@context` and `url`. -/
theorem C68_no_metadata {d : Opened} (h : Opened.init ext x other lk o w url mdUrl = .ok d) {m : List (Str × J)} {nh : Bool}
    (hs : Source w url mdUrl (.obj m) nh) :
    d.noMetadata = true ↔ ∀ k, k ∈ Dict.keys m ↔ k = "@context".toList ∨ k = "url".toList := by
  obtain ⟨m', nh', hs', -, hnm, -⟩ := C68_init.1 h
  have h1 := document_iff.2 hs
  rw [document_iff.2 hs'] at h1
  simp only [Except.ok.injEq, Prod.mk.injEq, J.obj.injEq] at h1
  obtain ⟨rfl, rfl⟩ := h1
  rw [hnm]
  unfold isMinimal
  rw [Bool.and_eq_true, Bool.and_eq_true, List.all_eq_true, List.contains_iff_mem, List.contains_iff_mem]
  constructor
  · rintro ⟨⟨ha, hb⟩, hc⟩ k
    constructor
    · intro hk; simpa only [Bool.or_eq_true, decide_eq_true_eq] using ha k hk
    · rintro (rfl | rfl) <;> assumption
  · intro hk
    refine ⟨⟨fun k h => ?_, (hk _).2 (.inl rfl)⟩, (hk _).2 (.inr rfl)⟩
    simpa only [Bool.or_eq_true, decide_eq_true_eq] using (hk k).1 h

/-! ## Foreign keys -/

/-- **C69** `add_foreign_key` appends the foreign key if all its columns are names of columns of the table. -/
theorem C69_added {t : Table} {cols : Sum Str (List Str)} {resource : Str} {ref : Sum Str (List Str)}
    (h : ∀ c ∈ colList cols, ∃ col ∈ t.schema.columns, col.name = some c) :
    ∃ t', t.addForeignKey cols resource ref = .ok t' ∧
      t'.schema.foreignKeys = t.schema.foreignKeys ++ [{ columnReference := colList cols, resource := some resource, schemaReference := none, refColumns := colList ref }] ∧
      { t' with schema := { t'.schema with foreignKeys := t.schema.foreignKeys } } = t := by
  have hc : ((colList cols).all fun c => (t.schema.columns.map Column.name).contains (some c)) = true := by
    rw [List.all_eq_true]
    intro c hc
    obtain ⟨col, h1, h2⟩ := h c hc
    exact List.contains_iff_mem.2 (List.mem_map.2 ⟨col, h1, h2⟩)
  have hcol : ∀ l : List Str, convColref (.arr (l.map .str)) = .ok l := by
    intro l
    simp only [convColref]
    rw [if_pos (by simp [J.isStr]), strsOf_map]
  have href : convColref (colJson ref) = .ok (colList ref) := by
    cases ref with
    | inl s => rfl
    | inr l => exact hcol l
  unfold Table.addForeignKey
  rw [if_pos hc]
  have hk : ForeignKey.fromdict [("columnReference".toList, .arr ((colList cols).map .str)),
        ("reference".toList, .obj [("resource".toList, .str resource), ("columnReference".toList, colJson ref)])] =
      .ok { columnReference := colList cols, resource := some resource, schemaReference := none, refColumns := colList ref } := by
    show (do
      let refColumns ← convColref (colJson ref)
      let columnReference ← convColref (.arr ((colList cols).map .str))
      return ({ columnReference, resource := some resource, schemaReference := none, refColumns } : ForeignKey)) = _
    rw [href, hcol]; rfl
  rw [hk]
  exact ⟨_, rfl, rfl, rfl⟩

/-- **C69** Otherwise it raises `ValueError` (and adds nothing). -/
theorem C69_unknown {t : Table} {cols : Sum Str (List Str)} {resource : Str} {ref : Sum Str (List Str)} {c : Str}
    (hc : c ∈ colList cols) (h : ∀ col ∈ t.schema.columns, col.name ≠ some c) : t.addForeignKey cols resource ref = .error .valueError := by
  unfold Table.addForeignKey
  rw [if_neg]
  intro ha
  have := List.all_eq_true.1 ha c hc
  obtain ⟨col, h1, h2⟩ := List.mem_map.1 (List.contains_iff_mem.1 this)
  exact h col h1 h2

end

/-! ## Examples -/

/-- Metadata of a single table, with a name which is not usable. -/
def openExample : List (Str × J) :=
  [("@context".toList, .str namespaceUrl), ("url".toList, .str "t.csv".toList),
   ("tableSchema".toList, .obj [("columns".toList, .arr [.obj [("name".toList, .str "_id".toList)], .obj [("name".toList, .str "b".toList)]]),
     ("primaryKey".toList, .str "_id".toList)])]

/-- A world with one document, in which no metadata is found elsewhere. -/
def openWorld (m : List (Str × J)) : Locate.World :=
  { head := fun _ => .error .osError, getJson := fun _ => .ok (.obj m), text := fun _ => .ok none, fetch := fun _ => .ok none,
    resolve := fun s _ => s, expand := fun s _ => .ok s, exists_ := fun _ => false, path := fun s => (s, s) }

/-- The example is opened: the first column loses its name, the second one keeps it. The primary key still refers to the lost name. -/
theorem C68_example (ext : Ext) (x : MExt) (other : Base → Derived → J → Res Val) (lk : EncLookup) (o : OpenExt) :
    ∃ d t, Opened.init ext x other lk o (openWorld openExample) "md.json".toList none = .ok d ∧ d.tables = [t] ∧
      t.like.schema.columns.map Column.name = [none, some "b".toList] ∧ d.noMetadata = false ∧
      t.like.schema.primaryKey = some ["_id".toList] ∧ t.like.schema.columns.map Column.header = ["_col.1".toList, "b".toList] :=
  ⟨_, _, rfl, rfl, rfl, rfl, rfl, by
    show ["_col.".toList ++ natText 1, "b".toList] = _
    rw [show natText 1 = ['1'] from by decide +kernel]; rfl⟩

/-- The same, with an empty `tables` property. -/
theorem C68_example_tables (ext : Ext) (x : MExt) (other : Base → Derived → J → Res Val) (lk : EncLookup) (o : OpenExt) :
    Opened.init ext x other lk o (openWorld (openExample ++ [("tables".toList, .arr [])])) "md.json".toList none = .error .valueError :=
  rfl

/-- A table group with two tables. -/
def openGroup : List (Str × J) :=
  [("@context".toList, .arr [.str namespaceUrl, .obj [("@base".toList, .str "x/".toList)]]),
   ("tables".toList, .arr [.obj [("url".toList, .str "t.csv".toList)], .null, .obj [("url".toList, .str "u.csv".toList)]])]

/-- It is opened at a URL; the item which is no object is dropped. -/
theorem C68_example_group (ext : Ext) (x : MExt) (other : Base → Derived → J → Res Val) (lk : EncLookup) (o : OpenExt) :
    ∃ d, Opened.init ext x other lk o (openWorld openGroup) "http://a.org/md.json".toList none = .ok d ∧
      d.tables.map (fun t => t.like.url) = [some "t.csv".toList, some "u.csv".toList] :=
  ⟨_, rfl, rfl⟩

/-- `add_foreign_key`. -/
theorem C69_example : ∃ t', ({ url := "t.csv".toList, schema := { columns := [{ name := some "a".toList }] } } : Table).addForeignKey (.inl "a".toList) "u.csv".toList
    (.inl "id".toList) = .ok t' ∧ t'.schema.foreignKeys = [{ columnReference := ["a".toList], resource := some "u.csv".toList, refColumns := ["id".toList] }] ∧
    ({ url := "t.csv".toList, schema := { columns := [{ name := some "a".toList }] } } : Table).addForeignKey (.inr ["a".toList, "b".toList]) "u.csv".toList
      (.inr ["id".toList, "x".toList]) = .error .valueError :=
  ⟨_, rfl, rfl, rfl⟩

end Csvw.Props

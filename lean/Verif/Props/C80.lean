import Verif.Props.C79
import Verif.Props.C57
/-!
# C80: validating data sets

`csvwvalidate` is the exit status of the command of this name: `0` (OK), `1` (FAIL) or `2` (FAIL, after a `ValueError`).
-/

namespace Csvw.Props
open Csvw Spec
open Csvw.Dataset

section
variable {ext : Ext} {x : MExt} {other : Base → Derived → J → Res Val} {lk : EncLookup} {o : OpenExt} {w : Locate.World} {eq : Table.PyEq}
  {data : Str → Str} {url : Str}

theorem get_base {k : String} (hk : k.toList ≠ "@base".toList) (v : J) (m : List (Str × J)) :
    Dict.get k.toList (Dict.setdefault "@base".toList v m) = Dict.get k.toList m := by
  unfold Dict.setdefault
  split
  · rfl
  · rw [Dict.get_append]
    have : Dict.get k.toList [("@base".toList, v)] = none := by
      simp only [Dict.get]
      rw [if_neg (Ne.symm hk)]
    rw [this, Option.or_none]

theorem arg_base {k : String} (hk : k.toList ≠ "@base".toList) (v : J) (m : List (Str × J)) :
    argOf k (Dict.setdefault "@base".toList v m) = argOf k m := by
  unfold argOf; rw [get_base hk]

theorem given_base {k : String} (hk : k.toList ≠ "@base".toList) (v : J) (m : List (Str × J)) (f : J → Bool) :
    Warn.given k f (Dict.setdefault "@base".toList v m) = Warn.given k f m := by
  unfold Warn.given; rw [get_base hk]

theorem setdefault_cases (v : J) (m : List (Str × J)) : Dict.setdefault "@base".toList v m = m ∨
    ("@base".toList ∉ Dict.keys m ∧ Dict.setdefault "@base".toList v m = m ++ [("@base".toList, v)]) := by
  unfold Dict.setdefault
  split
  · exact .inl rfl
  · next h =>
    have : "@base".toList ∉ Dict.keys m := by rwa [← Dict.has_iff_mem_keys]
    exact .inr ⟨this, rfl⟩

theorem parts_base (fields : List Str) (v : J) (m : List (Str × J)) :
    Warn.parts x fields true (Dict.setdefault "@base".toList v m) = Warn.parts x fields true m := by
  rcases setdefault_cases v m with h | ⟨-, h⟩
  · rw [h]
  · rw [h]
    unfold Warn.parts
    rw [List.any_append]
    have : ['@'].isPrefixOf "@base".toList = true := by decide
    simp only [List.any_cons, this, if_pos, List.any_nil, Bool.or_false]
    rw [show decide ("@base".toList = "@id".toList) = false by decide]
    simp

theorem descr_base (v : J) (m : List (Str × J)) : Warn.descr ext x (Dict.setdefault "@base".toList v m) = Warn.descr ext x m := by
  unfold Warn.descr
  rw [arg_base (k := "aboutUrl") (by decide), arg_base (k := "datatype") (by decide), given_base (k := "default") (by decide),
    given_base (k := "lang") (by decide), given_base (k := "null") (by decide), arg_base (k := "ordered") (by decide),
    arg_base (k := "propertyUrl") (by decide), arg_base (k := "separator") (by decide), arg_base (k := "textDirection") (by decide),
    arg_base (k := "valueUrl") (by decide)]

theorem like_base (v : J) (m : List (Str × J)) : Warn.like ext x other lk (Dict.setdefault "@base".toList v m) = Warn.like ext x other lk m := by
  unfold Warn.like
  rw [descr_base, arg_base (k := "dialect") (by decide), given_base (k := "tableDirection") (by decide), arg_base (k := "tableSchema") (by decide),
    given_base (k := "transformations") (by decide), arg_base (k := "@context") (by decide)]

theorem table_base (v : J) (m : List (Str × J)) : Warn.table ext x other lk (Dict.setdefault "@base".toList v m) = Warn.table ext x other lk m := by
  unfold Warn.table
  rw [parts_base, like_base]

theorem group_base (v : J) (m : List (Str × J)) : Warn.group ext x other lk (Dict.setdefault "@base".toList v m) = Warn.group ext x other lk m := by
  unfold Warn.group
  rw [parts_base, like_base, given_base (k := "tables") (by decide)]

/-! Clean descriptions do not depend on `@base`. -/

/-- All items except `@base`. -/
def SubBase (m' m : List (Str × J)) : Prop := ∀ k v, k ≠ "@base".toList → (k, v) ∈ m' → (k, v) ∈ m

theorem SubBase.has {m m' : List (Str × J)} (h : SubBase m' m) {n : String} (hn : n.toList ≠ "@base".toList) {v : J} (hv : Has m' n v) : Has m n v :=
  h _ _ hn hv

theorem SubBase.props {tag : Str → Prop} {names : List String} {m m' : List (Str × J)} (h : SubBase m' m) (hc : PropsClean tag names m) :
    PropsClean tag names m' := by
  refine ⟨⟨fun k v hm hk => hc.any.common k v (h k v ?_ hm) hk, fun v hv => hc.any.id v (h.has (by decide) hv)⟩, fun k v hm hk => hc.own k v (h k v ?_ hm) hk⟩
  · rintro rfl; exact hk.1 ⟨_, rfl⟩
  · rintro rfl; exact hk.1 ⟨_, rfl⟩

theorem SubBase.inherited {tag : Str → Prop} {m m' : List (Str × J)} (h : SubBase m' m) (hc : InheritedClean ext tag m) : InheritedClean ext tag m' := by
  refine ⟨fun n hn v hv => hc.urls n hn v (h.has ?_ hv), fun v hv => hc.datatype v (h.has (by decide) hv), fun v hv => hc.default v (h.has (by decide) hv),
    fun v hv => hc.lang v (h.has (by decide) hv), fun v hv => hc.null v (h.has (by decide) hv), fun v hv => hc.ordered v (h.has (by decide) hv),
    fun v hv => hc.separator v (h.has (by decide) hv), fun v hv => hc.textDirection v (h.has (by decide) hv)⟩
  have hall : ∀ n ∈ ["aboutUrl", "propertyUrl", "valueUrl"], n.toList ≠ "@base".toList := by decide +kernel
  exact hall n hn

theorem SubBase.like {tag : Str → Prop} {m m' : List (Str × J)} (h : SubBase m' m) (hc : TableLikeClean ext lk tag m) : TableLikeClean ext lk tag m' :=
  ⟨h.inherited hc.inherited, fun v hv => hc.dialect v (h.has (by decide) hv), fun v hv => hc.tableDirection v (h.has (by decide) hv),
    fun v hv => hc.tableSchema v (h.has (by decide) hv), fun v hv => hc.transformations v (h.has (by decide) hv),
    fun l hl => hc.context l (h.has (by decide) hl)⟩

theorem SubBase.table {tag : Str → Prop} {m m' : List (Str × J)} (h : SubBase m' m) (hc : TableClean ext lk tag m) : TableClean ext lk tag m' :=
  ⟨h.props hc.props, h.like hc.like⟩

theorem SubBase.group {tag : Str → Prop} {m m' : List (Str × J)} (h : SubBase m' m) (hc : GroupClean ext lk tag m) : GroupClean ext lk tag m' :=
  ⟨h.props hc.props, h.like hc.like, fun v hv => hc.tables v (h.has (by decide) hv)⟩

theorem subBase (v : J) (m : List (Str × J)) : SubBase (Dict.setdefault "@base".toList v m) m ∧ SubBase m (Dict.setdefault "@base".toList v m) := by
  rcases setdefault_cases v m with h | ⟨-, h⟩ <;> rw [h]
  · exact ⟨fun _ _ _ h => h, fun _ _ _ h => h⟩
  · refine ⟨fun k v' hk hm => ?_, fun k v' _ hm => List.mem_append_left _ hm⟩
    rcases List.mem_append.1 hm with h | h
    · exact h
    · simp only [List.mem_singleton, Prod.mk.injEq] at h
      exact absurd h.1 hk

theorem distinct_base {m : List (Str × J)} (h : DistinctKeys (.obj m)) (s : Str) : DistinctKeys (.obj (Dict.setdefault "@base".toList (.str s) m)) := by
  rcases setdefault_cases (.str s) m with e | ⟨hk, e⟩ <;> rw [e]
  · exact h
  · have hn := h.nodup
    refine .obj ?_ fun k v hm => ?_
    · rw [List.map_append, List.nodup_append]
      refine ⟨hn, by simp, ?_⟩
      intro a ha b hb
      simp only [List.map_cons, List.map_nil, List.mem_singleton] at hb
      rintro rfl
      exact hk (hb ▸ ha)
    · rcases List.mem_append.1 hm with hm | hm
      · cases h with
        | obj _ h => exact h k v hm
      · simp only [List.mem_singleton, Prod.mk.injEq] at hm
        rw [hm.2]
        exact .str s

/-! ## Opening -/

/-- The document describes a table or, if it has `tables`, a group of tables. -/
def DocClean (ext : Ext) (lk : EncLookup) (tag : Str → Prop) (m : List (Str × J)) : Prop :=
  ((∀ v, ¬ Has m "tables" v) → TableClean ext lk tag m) ∧ ((∃ v, Has m "tables" v) → GroupClean ext lk tag m)

theorem opened_warn (hlk : lk "utf-8".toList = .ok ()) {m : List (Str × J)} {nh : Bool} {mdUrl : Option Str} (hd : Opened.document w url mdUrl = .ok (.obj m, nh))
    (hj : DistinctKeys (.obj m)) {op : Opened} (h : Opened.init ext x other lk o w url mdUrl = .ok op) :
    Warn.init ext x other lk w url mdUrl = false ↔ Warn.document w url mdUrl = false ∧ DocClean ext lk (fun s => x.tagOk s = true) m := by
  unfold Opened.init at h
  rw [hd] at h
  simp only at h
  unfold Warn.init
  rw [hd, Bool.or_eq_false_iff]
  refine and_congr Iff.rfl ?_
  simp only
  split at h
  · cases h
  · cases h
  obtain ⟨d, hdesc, -⟩ := Except.map_eq_ok.1 h
  unfold Opened.describe at hdesc
  unfold DocClean
  cases hg : Dict.get "tables".toList m with
  | none =>
    rw [hg] at hdesc
    have hno : ∀ v, ¬ Has m "tables" v := fun v hv => by rw [Dict.get_of_mem_nodup hj.nodup hv] at hg; cases hg
    have e : (((∀ v, ¬ Has m "tables" v) → TableClean ext lk (fun s => x.tagOk s = true) m) ∧
        ((∃ v, Has m "tables" v) → GroupClean ext lk (fun s => x.tagOk s = true) m)) ↔ TableClean ext lk (fun s => x.tagOk s = true) m :=
      ⟨fun h => h.1 hno, fun h => ⟨fun _ => h, fun ⟨v, hv⟩ => absurd hv (hno v)⟩⟩
    rw [e]
    simp only at hdesc ⊢
    obtain ⟨t, ht, -⟩ := Except.map_eq_ok.1 hdesc
    unfold Opened.table at ht
    split at ht
    · split at ht
      · cases ht
      next t' ht' =>
      rw [← table_base (.str (o.baseUrl url)), C79_table hlk (distinct_base hj _) ht']
      exact ⟨(subBase _ m).2.table, (subBase _ m).1.table⟩
    · exact C79_table hlk hj ht
  | some v =>
    rw [hg] at hdesc
    have hyes : Has m "tables" v := Dict.get_mem hg
    have e : (((∀ v, ¬ Has m "tables" v) → TableClean ext lk (fun s => x.tagOk s = true) m) ∧
        ((∃ v, Has m "tables" v) → GroupClean ext lk (fun s => x.tagOk s = true) m)) ↔ GroupClean ext lk (fun s => x.tagOk s = true) m :=
      ⟨fun h => h.2 ⟨v, hyes⟩, fun h => ⟨fun hn => absurd hyes (hn v), fun _ => h⟩⟩
    rw [e]
    split at hdesc
    · next he => cases he
    · obtain ⟨g, hgr, -⟩ := Except.map_eq_ok.1 hdesc
      simp only
      unfold Opened.group at hgr
      split at hgr
      · split at hgr
        · cases hgr
        next g' hg' =>
        rw [← group_base (.str (o.baseUrl url)), C79_group hlk (distinct_base hj _) hg']
        exact ⟨(subBase _ m).2.group, (subBase _ m).1.group⟩
      · exact C79_group hlk hj hgr
    · cases hdesc

theorem init_document {mdUrl : Option Str} {op : Opened} (h : Opened.init ext x other lk o w url mdUrl = .ok op) :
    ∃ m nh, Opened.document w url mdUrl = .ok (.obj m, nh) := by
  unfold Opened.init at h
  split at h
  · cases h
  · next m nh hd => exact ⟨m, nh, hd⟩
  · cases h

/-- The data described by the tables is valid. -/
structure DataValid (ext : Ext) (x : MExt) (eq : Table.PyEq) (data : Str → Str) (d : Dataset) : Prop where
  tables : ∀ t, TableIn d t → TableValid ext x eq (data t.url) t
  references : ∃ g, GroupOf d g ∧ g.checkReferentialIntegrity eq (fileReader ext x data) false true = .ok true ∧
    ∀ t ∈ readTables g, (t.iterdicts ext x true false (data t.url)).warned = false

/-- **C80** The command reports OK if and only if the metadata is found without warning, the data set can be opened, the description has no problems
and the data is valid. -/
theorem C80_ok (hlk : lk "utf-8".toList = .ok ()) (hj : ∀ md nh, Opened.document w url none = .ok (md, nh) → DistinctKeys md) :
    csvwvalidate ext x other lk o w eq data url = .ok 0 ↔
    ∃ m nh op, Opened.document w url none = .ok (.obj m, nh) ∧ Warn.document w url none = false ∧
      Opened.init ext x other lk o w url none = .ok op ∧ DocClean ext lk (fun s => x.tagOk s = true) m ∧ DataValid ext x eq data (op.dataset false) := by
  unfold csvwvalidate
  constructor
  · intro h
    cases hi : Opened.init ext x other lk o w url none with
    | error e =>
      rw [hi] at h
      cases e <;> simp at h
    | ok op =>
      rw [hi] at h
      simp only at h
      have hv : ∃ d', (op.dataset (Warn.init ext x other lk w url none)).isValid ext x eq data = .ok (true, d') := by
        split at h
        · cases h
        · cases h
        · next d' hd => exact ⟨d', hd⟩
        · cases h
      rw [valid_iff] at hv
      obtain ⟨hw, ht, hr, hn⟩ := hv
      obtain ⟨m, nh, hd⟩ := init_document hi
      have hw' : Warn.init ext x other lk w url none = false := hw
      obtain ⟨h1, h2⟩ := (opened_warn hlk hd (hj _ _ hd) hi).1 hw'
      rw [hw'] at ht hr hn
      exact ⟨m, nh, op, hd, h1, rfl, h2, fun t h => ht t (mem_tables.2 h), _, groupOf_iff.2 rfl, hr, hn⟩
  · rintro ⟨m, nh, op, hd, h1, hi, h2, ht, g, hg, hr, hn⟩
    have hw : Warn.init ext x other lk w url none = false := (opened_warn hlk hd (hj _ _ hd) hi).2 ⟨h1, h2⟩
    rw [hi, hw]
    simp only
    obtain ⟨d', hv⟩ := (C57_iff (ext := ext) (x := x) (eq := eq) (data := data) hg).2 ⟨rfl, ht, hr, hn⟩
    rw [hv]

/-! ## The exit status -/

/-- **C80** The exit status is 0, 1 or 2. -/
theorem C80_status {n : Nat} (h : csvwvalidate ext x other lk o w eq data url = .ok n) : n = 0 ∨ n = 1 ∨ n = 2 := by
  unfold csvwvalidate at h
  split at h
  · cases h; simp
  · cases h
  · split at h <;> cases h <;> simp

/-- **C80** The exit status is 2 if and only if opening or validating the data set raises `ValueError`. -/
theorem C80_error : csvwvalidate ext x other lk o w eq data url = .ok 2 ↔
    Opened.init ext x other lk o w url none = .error .valueError ∨ ∃ op, Opened.init ext x other lk o w url none = .ok op ∧
      (op.dataset (Warn.init ext x other lk w url none)).isValid ext x eq data = .error .valueError := by
  unfold csvwvalidate
  cases hi : Opened.init ext x other lk o w url none with
  | error e => cases e <;> simp
  | ok op =>
    simp only [reduceCtorEq, false_or, Except.ok.injEq, exists_eq_left']
    split
    · next h => simp [h]
    · next e h1 h2 => rw [h2]; simp only [reduceCtorEq, false_iff, Except.error.injEq]; intro he; exact h1 he
    · next h => rw [h]; simp
    · next h => rw [h]; simp

/-- **C80** Problems of the description or with finding it are reported with status 1, whatever the data is; the data is not read. -/
theorem C80_problems (hlk : lk "utf-8".toList = .ok ()) {m : List (Str × J)} {nh : Bool} (hd : Opened.document w url none = .ok (.obj m, nh))
    (hj : DistinctKeys (.obj m)) {op : Opened} (h : Opened.init ext x other lk o w url none = .ok op)
    (hp : Warn.document w url none = true ∨ ¬ DocClean ext lk (fun s => x.tagOk s = true) m) :
    csvwvalidate ext x other lk o w eq data url = .ok 1 := by
  have hw : Warn.init ext x other lk w url none = true := by
    cases hw : Warn.init ext x other lk w url none with
    | true => rfl
    | false =>
      obtain ⟨h1, h2⟩ := (opened_warn hlk hd hj h).1 hw
      rcases hp with hp | hp
      · rw [h1] at hp; cases hp
      · exact absurd h2 hp
  unfold csvwvalidate
  rw [h, hw]
  simp only
  rw [C57_warned (d := op.dataset true) rfl]

/-- **C80** A document without the context of CSVW is reported with status 2, -/
theorem C80_no_context {m : List (Str × J)} {nh : Bool} (hd : Opened.document w url none = .ok (.obj m, nh)) (h : ∀ v, ¬ Has m "@context" v) :
    csvwvalidate ext x other lk o w eq data url = .ok 2 := by
  refine C80_error.2 (.inl ?_)
  have : Dict.get "@context".toList m = none := by
    cases hg : Dict.get "@context".toList m with
    | none => rfl
    | some v => exact absurd (Dict.get_mem hg) (h v)
  unfold Opened.init hasContext
  rw [hd]
  simp only
  rw [this]

/-- **C80** … as is one where `tables` is not a list with items. -/
theorem C80_no_tables {m : List (Str × J)} {nh : Bool} (hd : Opened.document w url none = .ok (.obj m, nh)) (hj : DistinctKeys (.obj m)) {v : J}
    (hc : Has m "@context" (.str "http://www.w3.org/ns/csvw".toList)) (hv : Has m "tables" v) (h : ∀ a l, v ≠ .arr (a :: l)) :
    csvwvalidate ext x other lk o w eq data url = .ok 2 := by
  refine C80_error.2 (.inl ?_)
  unfold Opened.init hasContext
  rw [hd]
  simp only
  rw [Dict.get_of_mem_nodup hj.nodup hc]
  simp only
  rw [show Py.contains "http://www.w3.org/ns/csvw".toList "http://www.w3.org/ns/csvw".toList = true by decide +kernel]
  simp only
  unfold Opened.describe
  rw [Dict.get_of_mem_nodup hj.nodup hv]
  split
  · next e => cases e
  · next a l e => cases e; exact absurd rfl (h a l)
  · rfl

/-! ## The description of valid data sets -/

theorem names_bad {v : Bool} : ∀ {cs : List Column} {seen : List Str}, Warn.names v seen cs = false → ∀ c ∈ cs, Warn.badName c = false := by
  intro cs
  induction cs generalizing v with
  | nil => intro _ _ c hc; cases hc
  | cons a r ih =>
    intro seen h c hc
    unfold Warn.names at h
    rw [Bool.or_eq_false_iff] at h
    rcases List.mem_cons.1 hc with rfl | hc
    · exact h.1
    · have h2 := h.2
      split at h2
      · exact ih h2 c hc
      · rw [Bool.or_eq_false_iff] at h2
        exact ih h2.2 c hc

theorem fixName_good {c : Column} (h : Warn.badName c = false) : fixName c = c := by
  unfold Warn.badName at h
  unfold fixName
  split
  · rfl
  · next n hn =>
    rw [hn] at h
    split
    · next hb =>
      unfold nonEmpty at h
      obtain ⟨h1, h2⟩ := hb
      simp only [Option.filter, decide_not] at h
      cases n with
      | nil => exact absurd rfl h1
      | cons a n =>
        simp at h
        rcases h2 with h2 | h2
        · simp [List.any_eq_true] at h2
          rcases h2 with h2 | ⟨b, hb, h2⟩
          · rw [h2] at h; simp at h
          · rw [h.2.2 b hb] at h2; cases h2
        · simp at h2
          exact absurd h2 h.1
    · rfl

theorem schema_key {m : List (Str × J)} (hj : DistinctKeys (.obj m)) {s : Schema} (h : Schema.fromvalue ext x other (.obj m) = .ok s) :
    ∃ k, convKey (argOf "primaryKey" m) = .ok k := by
  have hn := hj.nodup
  obtain ⟨p, hp, h, hpriv⟩ := fromParts_inv hn h
  unfold Schema.ofParts at h
  obtain ⟨d, hd, h⟩ := Datatype.bind_ok h
  obtain ⟨cols, hcols, h⟩ := Datatype.bind_ok h
  obtain ⟨fks, hfks, h⟩ := Datatype.bind_ok h
  obtain ⟨pk, hpk, h⟩ := Datatype.bind_ok h
  rw [own_arg hn hp (by decide) (by decide)] at hpk
  exact ⟨pk, hpk⟩

theorem schema_no_columns {j : J} {s : Schema} (hj : ∀ o, j ≠ .obj o) (hw : Warn.schema ext x other j = false) (h : Schema.fromvalue ext x other j = .ok s) :
    s.columns = [] := by
  cases j with
  | obj o => exact absurd rfl (hj o)
  | int i => cases hw
  | bool b => cases hw
  | str s' => unfold Schema.fromvalue at h; cases h
  | null =>
    have e : Schema.fromvalue ext x other .null = Schema.fromvalue ext x other (.obj []) := rfl
    rw [e] at h
    have : Schema.fromvalue ext x other (.obj []) = .ok {} := rfl
    rw [this] at h; cases h; rfl
  | flt f =>
    have : Schema.fromvalue ext x other (.flt f) = .ok {} := rfl
    rw [this] at h; cases h; rfl
  | arr l =>
    have : Schema.fromvalue ext x other (.arr l) = .ok {} := rfl
    rw [this] at h; cases h; rfl

theorem table_fix {m : List (Str × J)} (hj : DistinctKeys (.obj m)) {t : TableD}
    (h : TableD.fromvalue ext x other lk (.obj m) = .ok t) (hw : Warn.table ext x other lk m = false) : t.fixNames = t := by
  have hn := hj.nodup
  obtain ⟨p, hp, h, hpriv⟩ := fromParts_inv hn h
  unfold TableD.ofParts at h
  obtain ⟨l, hl, h⟩ := Datatype.bind_ok h
  split at h
  · cases h
  simp only [pure, Except.pure, Except.ok.injEq] at h
  have hs : Schema.fromvalue ext x other (argOf "tableSchema" m) = .ok l.schema := by
    unfold TableLike.ofParts at hl
    obtain ⟨d, hd, hl⟩ := Datatype.bind_ok hl
    obtain ⟨dia, hdia, hl⟩ := Datatype.bind_ok hl
    obtain ⟨dir, hdir, hl⟩ := Datatype.bind_ok hl
    obtain ⟨s, hs, hl⟩ := Datatype.bind_ok hl
    obtain ⟨tr, htr, hl⟩ := Datatype.bind_ok hl
    obtain ⟨url, hurl, hl⟩ := Datatype.bind_ok hl
    obtain ⟨at', hat', hl⟩ := Datatype.bind_ok hl
    simp only [pure, Except.pure, Except.ok.injEq] at hl
    rw [own_arg hn hp (by decide) (by decide +kernel)] at hs
    rw [hs, ← hl]
  have hw' : Warn.schema ext x other (argOf "tableSchema" m) = false := by
    unfold Warn.table Warn.like at hw
    simp only [Bool.or_eq_false_iff] at hw
    exact hw.2.1.1.2
  have hcol : ∀ c ∈ l.schema.columns, Warn.badName c = false := by
    cases hv : argOf "tableSchema" m with
    | obj o =>
      rw [hv] at hs hw'
      unfold Warn.schema Warn.schemaObj at hw'
      rw [Bool.or_eq_false_iff] at hw'
      rw [hs] at hw'
      obtain ⟨k, hk⟩ := schema_key (hv ▸ hj.arg _) hs
      rw [hk] at hw'
      simp only [Bool.or_eq_false_iff] at hw'
      exact names_bad hw'.2.1
    | _ => rw [hv] at hs hw'; rw [schema_no_columns (by rintro o ⟨⟩) hw' hs]; intro c hc; cases hc
  subst h
  unfold TableD.fixNames
  simp only
  have : l.schema.columns.map fixName = l.schema.columns := by
    conv => rhs; rw [← List.map_id l.schema.columns]
    exact List.map_congr_left fun c hc => fixName_good (hcol c hc)
  rw [this]

theorem DescrKept.sub {m m' : List (Str × J)} (hs : ∀ p ∈ m, p ∈ m') {d : Descr} (h : DescrKept ext x other m' d) : DescrKept ext x other m d :=
  ⟨fun k v hm => h.common k v (hs _ hm), fun k v hm => h.at_ k v (hs _ hm), fun s hm => h.aboutUrl s (hs _ hm), fun s hm => h.propertyUrl s (hs _ hm),
   fun s hm => h.valueUrl s (hs _ hm), fun v hm => h.datatype v (hs _ hm), fun s hm => h.default s (hs _ hm), fun s hm => h.lang s (hs _ hm),
   ⟨fun s hm => h.null.1 s (hs _ hm), fun s hm => h.null.2 s (hs _ hm)⟩, fun s hm => h.ordered s (hs _ hm), fun s hm => h.required s (hs _ hm),
   fun s hm => h.separator s (hs _ hm), fun s hm => h.textDirection s (hs _ hm)⟩

theorem LikeKept.sub {m m' : List (Str × J)} (hs : ∀ p ∈ m, p ∈ m') {t : TableLike} (h : LikeKept ext x other m' t) : LikeKept ext x other m t :=
  ⟨DescrKept.sub hs h.props, fun v hm => h.dialect v (hs _ hm), fun v hm => h.notes v (hs _ hm), fun v hm => h.tableDirection v (hs _ hm),
   fun v hm => h.schema v (hs _ hm), fun v hm => h.transformations v (hs _ hm), fun v hm => h.url v (hs _ hm)⟩

theorem TableKept.sub {m m' : List (Str × J)} (hs : ∀ p ∈ m, p ∈ m') {t : TableD} (h : TableKept ext x other m' t) : TableKept ext x other m t :=
  ⟨LikeKept.sub hs h.like, fun v hm => h.suppressOutput v (hs _ hm)⟩

theorem GroupKept.sub {m m' : List (Str × J)} (hs : ∀ p ∈ m, p ∈ m') {g : GroupD} (h : GroupKept ext x other m' g) : GroupKept ext x other m g :=
  ⟨LikeKept.sub hs h.like, fun v hm => h.tables v (hs _ hm)⟩

theorem base_sub (v : J) (m : List (Str × J)) : ∀ p ∈ m, p ∈ Dict.setdefault "@base".toList v m := by
  intro p hp
  rcases setdefault_cases v m with h | ⟨-, h⟩ <;> rw [h]
  · exact hp
  · exact List.mem_append_left _ hp

theorem group_fix (hlk : lk "utf-8".toList = .ok ()) {m : List (Str × J)} (hj : DistinctKeys (.obj m)) {g : GroupD}
    (h : GroupD.fromvalue ext x other lk (.obj m) = .ok g) (hw : Warn.group ext x other lk m = false) {v : J} (hv : Has m "tables" v)
    (hne : ∃ a l, v = .arr (a :: l)) : g.tables.map TableD.fixNames = g.tables := by
  have hn := hj.nodup
  have hc := (group_iff hlk hj h).1 hw
  obtain ⟨p, hp, h, hpriv⟩ := fromParts_inv hn h
  unfold GroupD.ofParts at h
  obtain ⟨l, hl, h⟩ := Datatype.bind_ok h
  obtain ⟨ts, hts, h⟩ := Datatype.bind_ok h
  simp only [pure, Except.pure, Except.ok.injEq] at h
  rw [own_get hn hp (by decide) (by decide)] at hts
  subst h
  simp only
  obtain ⟨a, l', rfl⟩ := hne
  rcases hc.tables _ hv with h | h | ⟨ts2, he, hcl⟩
  · cases h
  · cases h
  rw [he] at hv
  rw [Dict.get_of_mem_nodup hn hv] at hts
  simp only [convTables] at hts
  have h2 := all2_at (mapObjs_objs hts)
  conv => rhs; rw [← List.map_id ts]
  refine List.map_congr_left fun t ht => ?_
  obtain ⟨i, hi⟩ := List.getElem?_of_mem ht
  obtain ⟨hi', -⟩ := List.getElem?_eq_some_iff.1 hi
  have hi2 : ts2[i]? = some ts2[i] := List.getElem?_eq_getElem (by rw [h2.1]; exact hi')
  have hd := (hj.has hv).item (List.mem_map_of_mem (List.mem_of_getElem? hi2))
  have hfrom := h2.2 i _ t hi2 hi
  exact table_fix hd hfrom ((table_iff hlk hd hfrom).2 (hcl _ (List.mem_of_getElem? hi2)))

/-- **C80** If the data set is opened without warning, the object has all the properties which were given, with the given values. (If a table was
found via a content type which says that there is no header, its dialect says so, too.) -/
theorem C80_kept (hlk : lk "utf-8".toList = .ok ()) {mdUrl : Option Str} {m : List (Str × J)} (hd : Opened.document w url mdUrl = .ok (.obj m, false))
    (hj : DistinctKeys (.obj m)) {op : Opened} (h : Opened.init ext x other lk o w url mdUrl = .ok op)
    (hw : Warn.init ext x other lk w url mdUrl = false) :
    (∃ t, op.desc = .table t ∧ TableKept ext x other m t) ∨ ∃ g, op.desc = .group g ∧ GroupKept ext x other m g := by
  unfold Opened.init at h
  rw [hd] at h
  simp only at h
  unfold Warn.init at hw
  rw [hd, Bool.or_eq_false_iff] at hw
  have hw := hw.2
  simp only at hw
  split at h
  · cases h
  · cases h
  obtain ⟨d, hdesc, rfl⟩ := Except.map_eq_ok.1 h
  unfold Opened.describe at hdesc
  cases hg : Dict.get "tables".toList m with
  | none =>
    rw [hg] at hdesc hw
    simp only at hdesc hw
    obtain ⟨t, ht, rfl⟩ := Except.map_eq_ok.1 hdesc
    refine .inl ⟨_, rfl, ?_⟩
    unfold Opened.table at ht
    split at ht
    · split at ht
      · cases ht
      next t' ht' =>
      cases ht
      rw [← table_base (.str (o.baseUrl url))] at hw
      have hk := C79_kept_table hlk (distinct_base hj _) ht' hw
      rw [if_neg (by decide), table_fix (distinct_base hj _) ht' hw]
      exact TableKept.sub (base_sub _ _) hk
    · rw [table_fix hj ht hw]
      exact C79_kept_table hlk hj ht hw
  | some v =>
    rw [hg] at hdesc hw
    have hyes : Has m "tables" v := Dict.get_mem hg
    split at hdesc
    · next he => cases he
    · next a l he =>
      cases he
      obtain ⟨g, hgr, rfl⟩ := Except.map_eq_ok.1 hdesc
      refine .inr ⟨_, rfl, ?_⟩
      simp only at hw
      unfold Opened.group at hgr
      split at hgr
      · split at hgr
        · cases hgr
        next g' hg' =>
        split at hgr
        · cases hgr
        cases hgr
        rw [← group_base (.str (o.baseUrl url))] at hw
        have hk := C79_kept hlk (distinct_base hj _) hg' hw
        rw [group_fix hlk (distinct_base hj _) hg' hw (base_sub _ _ _ hyes) ⟨a, l, rfl⟩]
        exact GroupKept.sub (base_sub _ _) hk
      · rw [group_fix hlk hj hgr hw hyes ⟨a, l, rfl⟩]
        exact C79_kept hlk hj hgr hw
    · cases hdesc

end

/-! ## Examples -/

section
open Table TableGroup
variable (ext : Ext) (x : MExt) (other : Base → Derived → J → Res Val) (o : OpenExt) (eq : PyEq)

/-- A description of a table with a primary key. -/
def validateDoc (col : List (Str × J)) : List (Str × J) :=
  [("@context".toList, .str "http://www.w3.org/ns/csvw".toList), ("url".toList, .str "t.csv".toList),
   ("tableSchema".toList, .obj [("columns".toList, .arr [.obj (("name".toList, .str "a".toList) :: ("datatype".toList, .str "integer".toList) :: col)]),
     ("primaryKey".toList, .str "a".toList)])]

/-- There is only the description, as `t.json`. -/
def validateWorld (md : J) : Locate.World where
  head _ := .error .osError
  getJson u := if u = "t.json".toList then .ok md else .error .osError
  text _ := .error .osError
  fetch _ := .error .osError
  resolve u _ := u
  expand u _ := .ok u
  exists_ u := decide (u = "t.json".toList)
  path u := ([], u)

def validateTable : TableD :=
  { like := { props := { atProps := [("context".toList, .str "http://www.w3.org/ns/csvw".toList)] }, schema := keyedTable.schema, url := some "t.csv".toList } }

def validateData : Dataset := { desc := .inl validateTable.single }

theorem validate_init (col : List (Str × J)) : Opened.init ext x other (fun _ => .ok ()) o (validateWorld (.obj (validateDoc col))) "t.json".toList none =
    (Opened.describe ext x other (fun _ => .ok ()) o "t.json".toList false (validateDoc col)).map fun d => ⟨d, false⟩ := by
  have h1 : Opened.document (validateWorld (.obj (validateDoc col))) "t.json".toList none = .ok (.obj (validateDoc col), false) := by
    unfold Opened.document validateWorld; rfl
  unfold Opened.init
  rw [h1]
  simp only
  have h2 : hasContext (validateDoc col) = .ok true := by
    have : Dict.get "@context".toList (validateDoc col) = some (.str "http://www.w3.org/ns/csvw".toList) := rfl
    unfold hasContext
    rw [this]
    simp only
    rw [show Py.contains "http://www.w3.org/ns/csvw".toList "http://www.w3.org/ns/csvw".toList = true by decide +kernel]
  rw [h2]
  simp only
  rfl

theorem validate_opened : Opened.init ext x other (fun _ => .ok ()) o (validateWorld (.obj (validateDoc []))) "t.json".toList none =
    .ok ⟨.table validateTable, false⟩ := by
  rw [validate_init]
  have h3 : isUrl "t.json".toList = false := by decide +kernel
  have h4 : Opened.describe ext x other (fun _ => .ok ()) o "t.json".toList false (validateDoc []) = .ok (.table validateTable) := by
    unfold Opened.describe Opened.table
    rw [h3]
    rfl
  rw [h4]
  rfl

theorem validate_isValid (data : Str → Str) :
    validateData.isValid ext x eq data = match (generalizing := false) checkTable ext x eq data validateTable.single with
      | .error e => .error e
      | .ok w => .ok (!w, { validateData with warned := w }) := by
  have hr : validateData.tablegroup.checkReferentialIntegrity eq (reader ext x data) false true = .ok true := by
    have h1 : validateData.tablegroup.foreignKeys = .ok [] := rfl
    have h2 : validateData.tablegroup.schemaOk false = .ok true := rfl
    have h3 : (validateData.tablegroup.tables.flatMap fun t => t.schema.foreignKeys.map fun fk => (t, fk)) = [] := rfl
    unfold checkReferentialIntegrity
    rw [h1, h2, h3]
    simp [nullChecks, groupBy, tableGroups]
  unfold isValid
  rw [hr]
  have : validateData.tables = [validateTable.single] := rfl
  rw [this]
  unfold checkTables checkTables
  cases checkTable ext x eq data validateTable.single with
  | error e => rfl
  | ok w => cases w <;> rfl

theorem validate_check {text : Str} {rows : List (Int × List Str)} (h : DataRows validateTable.single text rows none) :
    checkTable ext x eq (fun _ => text) validateTable.single =
      match (generalizing := false) (iterEvents ext x validateTable.single false false rows none).err with
      | some e => .error e
      | none => match (generalizing := false) pkLoop eq false [['a']] (iterEvents ext x validateTable.single true true rows none).err [] true
            ((iterEvents ext x validateTable.single true true rows none).rows.map Prod.snd) with
        | .error e => .error e
        | .ok b => .ok ((iterEvents ext x validateTable.single false false rows none).warned || (iterEvents ext x validateTable.single true true rows none).warned || !b) := by
  unfold checkTable keyWarns Table.checkPrimaryKey
  simp only [iterdicts_eq h]
  rfl

/-- **C80** A data set with the cells `5` and `6` is valid, -/
theorem C80_example (heq : eq (.one (.int 5)) (.one (.int 6)) = false) :
    csvwvalidate ext x other (fun _ => .ok ()) o (validateWorld (.obj (validateDoc []))) eq (fun _ => "a\n5\n6\n".toList) "t.json".toList = .ok 0 := by
  have hw : Warn.init ext x other (fun _ => .ok ()) (validateWorld (.obj (validateDoc []))) "t.json".toList none = false := rfl
  unfold csvwvalidate
  rw [validate_opened, hw]
  have hd : (⟨.table validateTable, false⟩ : Opened).dataset false = validateData := rfl
  have hv : validateData.isValid ext x eq (fun _ => "a\n5\n6\n".toList) = .ok (true, validateData) := by
    rw [validate_isValid, validate_check (rows := [(1, [['a']]), (2, [['5']]), (3, [['6']])]) ext x eq ⟨_, rfl, by decide +kernel, by decide +kernel⟩]
    have h1 : iterEvents ext x validateTable.single true true [(1, [['a']]), (2, [['5']]), (3, [['6']])] none =
      { rows := [(2, [(['a'], .one (.int 5))]), (3, [(['a'], .one (.int 6))])] } := rfl
    have h2 : iterEvents ext x validateTable.single false false [(1, [['a']]), (2, [['5']]), (3, [['6']])] none =
      { rows := [(2, [(['a'], .one (.int 5))]), (3, [(['a'], .one (.int 6))])] } := rfl
    rw [h1, h2]
    simp [pkLoop, getKey, Dict.get, hashable, keyEq, heq, validateData]
  simp only
  rw [hd, hv]

/-- **C80** … with the cell `x` it is not, -/
theorem C80_example_cell :
    csvwvalidate ext x other (fun _ => .ok ()) o (validateWorld (.obj (validateDoc []))) eq (fun _ => "a\nx\n".toList) "t.json".toList = .ok 1 := by
  have hw : Warn.init ext x other (fun _ => .ok ()) (validateWorld (.obj (validateDoc []))) "t.json".toList none = false := rfl
  unfold csvwvalidate
  rw [validate_opened, hw]
  have hd : (⟨.table validateTable, false⟩ : Opened).dataset false = validateData := rfl
  have hv : ∃ d, validateData.isValid ext x eq (fun _ => "a\nx\n".toList) = .ok (false, d) := by
    rw [validate_isValid, validate_check (rows := [(1, [['a']]), (2, [['x']])]) ext x eq ⟨_, rfl, by decide +kernel, by decide +kernel⟩]
    have h1 : iterEvents ext x validateTable.single true true [(1, [['a']]), (2, [['x']])] none = {} := rfl
    have h2 : iterEvents ext x validateTable.single false false [(1, [['a']]), (2, [['x']])] none =
      { rows := [(2, [(['a'], .one (.str ['x']))])], warned := true } := rfl
    rw [h1, h2]
    simp [pkLoop]
  simp only
  rw [hd]
  obtain ⟨d, hv⟩ := hv
  rw [hv]

/-- **C80** … and with a duplicate key the status is 2, as for other errors, because `ValueError` is raised. -/
theorem C80_violated_duplicate (heq : eq (.one (.int 5)) (.one (.int 5)) = true) :
    csvwvalidate ext x other (fun _ => .ok ()) o (validateWorld (.obj (validateDoc []))) eq (fun _ => "a\n5\n5\n".toList) "t.json".toList = .ok 2 := by
  have hw : Warn.init ext x other (fun _ => .ok ()) (validateWorld (.obj (validateDoc []))) "t.json".toList none = false := rfl
  unfold csvwvalidate
  rw [validate_opened, hw]
  have hd : (⟨.table validateTable, false⟩ : Opened).dataset false = validateData := rfl
  have hv : validateData.isValid ext x eq (fun _ => "a\n5\n5\n".toList) = .error .valueError := by
    rw [validate_isValid, validate_check (rows := [(1, [['a']]), (2, [['5']]), (3, [['5']])]) ext x eq ⟨_, rfl, by decide +kernel, by decide +kernel⟩]
    have h1 : iterEvents ext x validateTable.single true true [(1, [['a']]), (2, [['5']]), (3, [['5']])] none =
      { rows := [(2, [(['a'], .one (.int 5))]), (3, [(['a'], .one (.int 5))])] } := rfl
    have h2 : iterEvents ext x validateTable.single false false [(1, [['a']]), (2, [['5']]), (3, [['5']])] none =
      { rows := [(2, [(['a'], .one (.int 5))]), (3, [(['a'], .one (.int 5))])] } := rfl
    rw [h1, h2]
    simp [pkLoop, getKey, Dict.get, hashable, keyEq, heq]
  simp only
  rw [hd, hv]

/-- An unknown property of the column is a problem. -/
theorem C80_example_problem (data : Str → Str) :
    csvwvalidate ext x other (fun _ => .ok ()) o (validateWorld (.obj (validateDoc [("title".toList, .str "A".toList)]))) eq data "t.json".toList = .ok 1 := by
  have h : ∃ op, Opened.init ext x other (fun _ => .ok ()) o (validateWorld (.obj (validateDoc [("title".toList, .str "A".toList)]))) "t.json".toList none = .ok op := by
    rw [validate_init]
    have h3 : isUrl "t.json".toList = false := by decide +kernel
    have h4 : Opened.describe ext x other (fun _ => .ok ()) o "t.json".toList false (validateDoc [("title".toList, .str "A".toList)]) = .ok (.table validateTable) := by
      unfold Opened.describe Opened.table
      rw [h3]
      rfl
    rw [h4]
    exact ⟨_, rfl⟩
  obtain ⟨op, h⟩ := h
  have hw : Warn.init ext x other (fun _ => .ok ()) (validateWorld (.obj (validateDoc [("title".toList, .str "A".toList)]))) "t.json".toList none = true := rfl
  unfold csvwvalidate
  rw [h, hw]
  simp only
  rw [C57_warned (d := op.dataset true) rfl]

/-- **C80 is violated** for JSON documents which are no objects: there is no report, but `AttributeError` is raised. -/
theorem C80_violated_list (lk : EncLookup) (l : List J) (data : Str → Str) :
    csvwvalidate ext x other lk o (validateWorld (.arr l)) eq data "t.json".toList = .error .attributeError := by
  have h1 : Opened.document (validateWorld (.arr l)) "t.json".toList none = .ok (.arr l, false) := by
    unfold Opened.document validateWorld; rfl
  unfold csvwvalidate Opened.init
  rw [h1]

/-- **C80 is violated** for foreign keys without `reference`: there is no report, but `KeyError` is raised. -/
theorem C80_violated_reference (data : Str → Str) :
    csvwvalidate ext x other (fun _ => .ok ()) o (validateWorld (.obj [("@context".toList, .str "http://www.w3.org/ns/csvw".toList), ("url".toList, .str "t.csv".toList),
      ("tableSchema".toList, .obj [("foreignKeys".toList, .arr [.obj [("columnReference".toList, .str "a".toList)]])])])) eq data "t.json".toList = .error .keyError := by
  have h1 : ∀ m, Opened.document (validateWorld (.obj m)) "t.json".toList none = .ok (.obj m, false) := by
    intro m
    unfold Opened.document validateWorld; rfl
  unfold csvwvalidate Opened.init
  rw [h1]
  simp only
  have h2 : ∀ m, hasContext (("@context".toList, .str "http://www.w3.org/ns/csvw".toList) :: m) = .ok true := by
    intro m
    have : Dict.get "@context".toList (("@context".toList, J.str "http://www.w3.org/ns/csvw".toList) :: m) = some (.str "http://www.w3.org/ns/csvw".toList) := rfl
    unfold hasContext
    rw [this]
    simp only
    rw [show Py.contains "http://www.w3.org/ns/csvw".toList "http://www.w3.org/ns/csvw".toList = true by decide +kernel]
  rw [h2]
  simp only
  have h3 : isUrl "t.json".toList = false := by decide +kernel
  unfold Opened.describe Opened.table
  rw [h3]
  rfl

end

end Csvw.Props

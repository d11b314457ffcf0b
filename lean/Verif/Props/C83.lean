import Verif.Model.Commands
import Verif.Lemmas.Commands
import Verif.Props.C49
import Verif.Props.C64
import Verif.Props.C81b
import Verif.Props.C84
/-!
# C83: the commands `csvwdescribe`, `csvw2json`, `csvw2datasette`

`csvwdescribe` prints metadata which can be opened as a dataset, with a table for each CSV file `frictionless` describes. A table group which
was written (`asdict`, `to_file`) can be opened again. `csvw2json` prints an object for each row of each table. `csvw2datasette` never
touches an existing database, and writes metadata only after the whole data was written.
-/

namespace Csvw.Props

open Csvw.Spec Csvw.Spec.Frictionless Csvw.Db Csvw.Table Csvw.Frictionless Csvw.Commands Csvw.ToJson

section
variable {ext : Ext} {x : MExt} {other : Base → Derived → J → Res Val} {lk : EncLookup} {o : OpenExt} {w : Locate.World} {url : Str}

/-! ## Opening what was written -/

/-- **C83** A table group which was read from a metadata file that mentions the CSVW namespace and has tables, and was written, can be opened with
`CSVW`: with the same tables. (The conditions on the written values are those of C54.) -/
theorem C83_reopen (hlk : lk "utf-8".toList = .ok ()) {md : List (Str × J)} (hd : DistinctKeys (.obj md)) {g : GroupD}
    (h : GroupD.fromvalue ext x other lk (.obj md) = .ok g) (hw : LikeWritable ext g.like) (hwt : ∀ t ∈ g.tables, LikeWritable ext t.like)
    (hc : DeclaresCsvw md) (hne : g.tables ≠ []) (omitDefaults : Bool) :
    ∃ m g', g.asdict ext omitDefaults = .ok (.obj m) ∧ SameGroup g g' ∧
      ∀ o w url, isUrl url = false → w.getJson url = .ok (.obj m) →
        ∃ b, Opened.init ext x other lk o w url none = .ok ⟨.group { g' with tables := g'.tables.map TableD.fixNames }, b⟩ := by
  obtain ⟨m, g', h1, h2, h3, h4, h5⟩ := group_reopen hlk hd h hw hwt omitDefaults
  refine ⟨m, g', h1, h3, ?_⟩
  intro o w url hu hj
  obtain ⟨v, l, hv⟩ := h5 hne
  refine ⟨isMinimal m, C68_init.2 ⟨m, false, .json _ hj, h4 hc, rfl, .inr ⟨v, l, hv, g', ?_, ?_, rfl⟩⟩⟩
  · unfold basedAt
    rw [if_neg (by simp [hu])]
    exact h2
  · rw [hu]; intro h; cases h

/-! ## `csvwdescribe` -/

/-- **C83** What `frictionless` is asked for: a single file (without wildcard) is described as CSV file, whatever its name is; otherwise all
files as a package; a delimiter is passed on. -/
theorem C83_describe_args (delimiter : Option Str) (csv : List Str) :
    ∃ ds, (∀ d, delimiter = some d → d ≠ [] → ds = ["--dialect".toList, "{\"delimiter\": \"".toList ++ d ++ "\"}".toList]) ∧
      (delimiter = none ∨ delimiter = some [] → ds = []) ∧
      (∀ f, csv = [f] → '*' ∉ f →
        describeArgs delimiter csv = ["describe".toList, "--json".toList] ++ ds ++ ["--format".toList, "csv".toList, f]) ∧
      ((∀ f, csv = [f] → '*' ∈ f) →
        describeArgs delimiter csv = ["describe".toList, "--json".toList] ++ ds ++ ["--type".toList, "package".toList] ++ csv) := by
  refine ⟨dialectArgs delimiter, ?_, ?_, ?_, ?_⟩
  · rintro (_ | ⟨c, s⟩) rfl h
    · exact absurd rfl h
    · rfl
  · rintro (rfl | rfl) <;> rfl
  · rintro f rfl hf
    unfold describeArgs
    rw [show oneFile [f] = true by simp [oneFile, hf]]
    simp
  · intro hf
    have : oneFile csv = false := by
      match csv, hf with
      | [], _ => rfl
      | [f], hf => simp [oneFile, hf f rfl]
      | _ :: _ :: _, _ => rfl
    unfold describeArgs
    rw [this]
    rfl

/-- The resources which `frictionless` describes: a single file, or those of a package. -/
inductive Described : List Str → J → List J → Prop where
  | file {f : Str} {dp : J} : '*' ∉ f → Described [f] dp [dp]
  | package {csv : List Str} {m : List (Str × J)} : (∀ f, csv = [f] → '*' ∈ f) → Described csv (.obj m) (resources m)

theorem described {csv : List Str} {dp : J} {m : List (Str × J)} (h : describePackage csv dp = .obj m) : Described csv dp (resources m) := by
  by_cases hf : ∃ f, csv = [f] ∧ '*' ∉ f
  · obtain ⟨f, rfl, hf⟩ := hf
    unfold describePackage at h
    rw [show oneFile [f] = true by simp [oneFile, hf]] at h
    cases h
    exact .file hf
  · have hf' : ∀ f, csv = [f] → '*' ∈ f := fun f h => Classical.not_not.1 fun hn => hf ⟨f, h, hn⟩
    have : oneFile csv = false := by
      match csv, hf' with
      | [], _ => rfl
      | [f], hf => simp [oneFile, hf f rfl]
      | _ :: _ :: _, _ => rfl
    unfold describePackage at h
    rw [this] at h
    cases h
    exact .package hf'

theorem packageFor_distinct {csv : List Str} {dp : J} (h : DistinctKeys dp) : DistinctKeys (describePackage csv dp) := by
  unfold describePackage
  split
  · refine dk_obj.1 (dk_two (by decide) (.arr ?_) (.str _))
    intro v hv
    rw [List.mem_singleton.1 hv]
    exact h
  · exact h

theorem package_declares {dumps : J → Str} {pkg : List (Str × J)} {md : J} (h : convertPackage dumps pkg = .ok md) :
    ∃ m, md = .obj m ∧ DeclaresCsvw m := by
  unfold convertPackage at h
  obtain ⟨rs, h1, h⟩ := Datatype.bind_ok h
  obtain ⟨rm, h2, h⟩ := Datatype.bind_ok h
  obtain ⟨ts, h3, h⟩ := Datatype.bind_ok h
  cases h
  refine ⟨_, rfl, .text [] [] ?_⟩
  have hfold : ∀ (l : List (String × String)), (∀ p ∈ l, p.2.toList ≠ "@context".toList) → ∀ {md : List (Str × J)},
      Dict.get "@context".toList (l.foldl (copyMeta pkg) md) = Dict.get "@context".toList md := by
    intro l
    induction l with
    | nil => intro _ _; rfl
    | cons p r ih =>
      intro hp md
      rw [List.foldl_cons, ih fun q hq => hp q (List.mem_cons_of_mem _ hq)]
      unfold copyMeta
      split
      · rw [Dict.get_set, if_neg (hp p (List.mem_cons_self ..))]
      · rfl
  rw [Dict.get_append]
  have : Dict.get "@context".toList (packageMeta dumps pkg) = some (.str namespaceUrl) := by
    unfold packageMeta nameMeta
    have h0 := hfold packageProps (by decide) (md := [("@context".toList, .str "http://www.w3.org/ns/csvw".toList), ("dc:replaces".toList, .str (dumps (.obj pkg)))])
    split
    · rw [h0]; rfl
    · split
      · rw [Dict.get_set, if_neg (by decide), h0]; rfl
      · split
        · rw [Dict.get_set, if_neg (by decide), h0]; rfl
        · rw [h0]; rfl
  rw [this]
  rfl

theorem tables_ne {α β : Type} {R : α → β → Prop} {l : List α} {m : List β} (h : All2 R l m) (hne : l ≠ []) : m ≠ [] := by
  cases h with
  | nil => exact absurd rfl hne
  | cons => simp

theorem describe_reopen (hlk : lk "utf-8".toList = .ok ()) {dumps : J → Str} {csv : List Str} {dp j : J} {m : List (Str × J)} {g : GroupD}
    (hm : describePackage csv dp = .obj m) (hg : toTablegroup ext x other lk dumps (.obj m) = .ok g) (h : g.asdict ext true = .ok j)
    (hd : DistinctKeys dp) (hw : LikeWritable ext g.like) (hwt : ∀ t ∈ g.tables, LikeWritable ext t.like) :
    ∃ g', GroupD.fromvalue ext x other lk j = .ok g' ∧ SameGroup g g' ∧ (g.tables ≠ [] → ∀ o w url, isUrl url = false → w.getJson url = .ok j →
      ∃ b, Opened.init ext x other lk o w url none = .ok ⟨.group { g' with tables := g'.tables.map TableD.fixNames }, b⟩) := by
  have hd' := packageFor_distinct (csv := csv) hd
  rw [hm] at hd'
  unfold toTablegroup at hg
  obtain ⟨m', hm', hg⟩ := Datatype.bind_ok hg
  cases hm'
  obtain ⟨md, hmd, hg⟩ := Datatype.bind_ok hg
  have hdm := convertPackage_dk hd' hmd
  obtain ⟨md', rfl, hdc⟩ := package_declares hmd
  obtain ⟨m2, g', h1, h2, h3, h4, h5⟩ := group_reopen hlk hdm hg hw hwt true
  rw [h1] at h
  cases h
  refine ⟨g', h2, h3, ?_⟩
  intro hne o w url hu hj
  obtain ⟨v, l, hv⟩ := h5 hne
  refine ⟨isMinimal m2, C68_init.2 ⟨m2, false, .json _ hj, h4 hdc, rfl, .inr ⟨v, l, hv, g', ?_, ?_, rfl⟩⟩⟩
  · unfold basedAt
    rw [if_neg (by simp [hu])]
    exact h2
  · rw [hu]; intro h; cases h

/-- **C83** What `csvwdescribe` prints: a description of a group with one table for each CSV file with a schema which `frictionless` describes.
If the values can be written (C54), the document describes the same group when it is read, and can be opened with `CSVW` if there is such a
file. -/
theorem C83_describe (hlk : lk "utf-8".toList = .ok ()) {dumps : J → Str} {run : List Str → Res J} {delimiter : Option Str} {csv : List Str}
    {j : J} (h : csvwdescribe ext x other lk dumps run delimiter csv = .ok j) :
    ∃ dp rs g, run (describeArgs delimiter csv) = .ok dp ∧ Described csv dp rs ∧
      All2 (fun rsc t => ResourceTable ext other lk rs rsc t) (tabular rs) g.tables ∧
      (DistinctKeys dp → LikeWritable ext g.like → (∀ t ∈ g.tables, LikeWritable ext t.like) →
        ∃ g', GroupD.fromvalue ext x other lk j = .ok g' ∧ SameGroup g g' ∧
          (tabular rs ≠ [] → ∀ o w url, isUrl url = false → w.getJson url = .ok j →
            ∃ b, Opened.init ext x other lk o w url none = .ok ⟨.group { g' with tables := g'.tables.map TableD.fixNames }, b⟩)) := by
  unfold csvwdescribe at h
  cases hr : run (describeArgs delimiter csv) with
  | error e => rw [hr] at h; cases h
  | ok dp =>
    rw [hr] at h
    simp only at h
    cases hg : toTablegroup ext x other lk dumps (describePackage csv dp) with
    | error e => rw [hg] at h; cases h
    | ok g =>
      rw [hg] at h
      simp only at h
      obtain ⟨m, hm, ht⟩ := C49_tables hlk hg
      refine ⟨dp, resources m, g, rfl, described hm, ht, ?_⟩
      intro hd hw hwt
      rw [hm] at hg
      obtain ⟨g', h1, h2, h3⟩ := describe_reopen hlk hm hg h hd hw hwt
      exact ⟨g', h1, h2, fun hne => h3 (tables_ne ht hne)⟩

/-- The field is described by its name, title, description, type and format: this is what `frictionless` finds out from the data. -/
structure PlainField (f : List (Str × J)) : Prop where
  absent : ∀ k ∈ ["constraints", "decimalChar", "groupChar", "trueValues", "falseValues"], prop k f = none
  rdfType : prop "rdfType" f = none ∨ ∃ u, prop "rdfType" f = some (.str u)

/-- The same for the fields of a resource; the quote character is a string or `null`. -/
structure PlainResource (rsc : List (Str × J)) : Prop where
  fields : ∀ schema l f, prop "schema" rsc = some (.obj schema) → prop "fields" schema = some (.arr l) → .obj f ∈ l → PlainField f
  quoteChar : prop "quoteChar" (csvDialect rsc) = none ∨ prop "quoteChar" (csvDialect rsc) = some .null ∨
    ∃ s, prop "quoteChar" (csvDialect rsc) = some (.str s)

theorem bound_none {dt : Datatype} {b : Base} {d : Derived} {o : Option Val} (h : Datatype.parseBound ext other b d .null = .ok o) :
    BoundSurvives ext dt o := by
  cases h
  intro v hv
  cases hv

theorem plain_datatype {f : List (Str × J)} (hf : PlainField f) {s : DatatypeSpec} {dt : Datatype}
    (h : Datatype.construct ext other s = .ok dt) (hs : Constrained f s) : DtWritable ext dt := by
  have hB := Datatype.built_of_construct h
  have hc : ∀ k, constraint k f = none := by
    intro k
    unfold constraint
    rw [hf.absent "constraints" (by simp)]
  have hfmt : s.format = .null := hs.noFormat (fun _ => .inl (hf.absent "trueValues" (by simp))) (hf.absent "decimalChar" (by simp))
    (hf.absent "groupChar" (by simp)) (hc _)
  obtain ⟨d, -, ⟨bad, -, h1⟩, h2, h3, h4, h5, h6, h7⟩ := hB.descr
  obtain ⟨o1, o2, o3, o4⟩ := hs.others
  rw [hs.minimum, hc] at h2
  rw [hs.maximum, hc] at h3
  rw [o1] at h4
  rw [o2] at h5
  rw [o3] at h6
  rw [o4] at h7
  refine ⟨bound_none h2, bound_none h3, bound_none h4, bound_none h5, bound_none h6, bound_none h7, ?_⟩
  rw [h1, hfmt]
  split <;> (rintro (h | h) <;> cases h)

theorem bareWritable {d : Descr} (h : Bare d) : DescrWritable ext d := plainWritable h.aboutUrl h.propertyUrl h.valueUrl h.datatype

/-- The tables for plain resources can be written. -/
theorem plain_writable (hlk : lk "utf-8".toList = .ok ()) {dumps : J → Str} {m : List (Str × J)} {g : GroupD}
    (h : toTablegroup ext x other lk dumps (.obj m) = .ok g) (hp : ∀ rsc ∈ tabular (resources m), PlainResource rsc) :
    LikeWritable ext g.like ∧ ∀ t ∈ g.tables, LikeWritable ext t.like := by
  obtain ⟨m', hm, h1, ⟨hg, hd, hs⟩, -⟩ := group_facts hlk h
  cases hm
  refine ⟨⟨bareWritable hg, ?_, ?_, ?_⟩, ?_⟩
  · rw [hs]; exact plainWritable rfl rfl rfl rfl
  · rw [hs]; intro c hc; cases hc
  · intro d h; rw [hd] at h; cases h
  · intro t ht
    obtain ⟨rsc, hr, -, hrt, hb, hbs, hcols⟩ := All2_mem_right h1 t ht
    have hp := hp rsc hr
    refine ⟨bareWritable hb, bareWritable hbs, ?_, ?_⟩
    · intro c hc
      obtain ⟨schema, fields, g1, g2, -⟩ := hrt.columns
      obtain ⟨_, hj, f, rfl, hfc, hbc⟩ := All2_mem_right (hcols schema fields g1 g2) c hc
      have hpf := hp.fields _ _ _ g1 g2 hj
      obtain ⟨s, dt, d1, d2, d3⟩ := hfc.datatype
      refine ⟨?_, ?_, ?_, ?_⟩
      · rw [hbc.aboutUrl]; intro h; cases h
      · rcases hpf.rdfType with h | ⟨u, h⟩
        · rw [hbc.propertyUrl h]; intro h; cases h
        · rw [hfc.propertyUrl u h]; intro h; cases h
      · rw [hbc.valueUrl]; intro h; cases h
      · intro dt' h
        rw [d1] at h
        cases h
        exact plain_datatype hpf d2 d3
    · intro d hd
      obtain ⟨d', h1, hsd⟩ := hrt.dialect
      rw [hd] at h1
      cases h1
      rcases hp.quoteChar with h | h | ⟨s, h⟩
      · exact .inr ⟨_, hsd.quoteChar.2.2 h⟩
      · exact .inl (hsd.quoteChar.2.1 h)
      · exact .inr ⟨s, hsd.quoteChar.1 s h⟩

/-- **C83** For files which are described by names, types and formats of fields, and the dialect (as `frictionless` does, unless it is
configured otherwise), no condition on the values is needed: the document which `csvwdescribe` prints can be read again, and opened with `CSVW`,
and has a table for each of the CSV files. -/
theorem C83_describe_plain (hlk : lk "utf-8".toList = .ok ()) {dumps : J → Str} {run : List Str → Res J} {delimiter : Option Str}
    {csv : List Str} {j : J} (h : csvwdescribe ext x other lk dumps run delimiter csv = .ok j) :
    ∃ dp rs, run (describeArgs delimiter csv) = .ok dp ∧ Described csv dp rs ∧
      (DistinctKeys dp → (∀ rsc ∈ tabular rs, PlainResource rsc) → tabular rs ≠ [] →
        ∃ g g', All2 (fun rsc t => ResourceTable ext other lk rs rsc t) (tabular rs) g.tables ∧ SameGroup g g' ∧
          ∀ o w url, isUrl url = false → w.getJson url = .ok j →
            ∃ b, Opened.init ext x other lk o w url none = .ok ⟨.group { g' with tables := g'.tables.map TableD.fixNames }, b⟩) := by
  unfold csvwdescribe at h
  cases hr : run (describeArgs delimiter csv) with
  | error e => rw [hr] at h; cases h
  | ok dp =>
    rw [hr] at h
    simp only at h
    cases hg : toTablegroup ext x other lk dumps (describePackage csv dp) with
    | error e => rw [hg] at h; cases h
    | ok g =>
      rw [hg] at h
      simp only at h
      obtain ⟨m, hm, ht⟩ := C49_tables hlk hg
      refine ⟨dp, resources m, rfl, described hm, ?_⟩
      intro hd hp hne
      rw [hm] at hg
      obtain ⟨hw, hwt⟩ := plain_writable hlk hg hp
      obtain ⟨g', -, h3, h4⟩ := describe_reopen hlk hm hg h hd hw hwt
      exact ⟨g, g', ht, h3, h4 (tables_ne ht hne)⟩

/-! ## `csvw2json` -/

theorem basedAt_distinct {m : List (Str × J)} (h : DistinctKeys (.obj m)) : DistinctKeys (.obj (basedAt o url m)) := by
  unfold basedAt
  split
  · next hb =>
    obtain ⟨hn, hv⟩ := dk_obj.2 h
    refine dk_obj.1 ⟨?_, vals_append hv (vals_cons (.str _) vals_nil)⟩
    unfold Dict.keys
    rw [List.map_append, List.nodup_append]
    refine ⟨hn, by simp, ?_⟩
    intro a ha b hb' he
    subst he
    simp only [List.map_cons, List.map_nil, List.mem_singleton] at hb'
    subst hb'
    exact (Dict.get_eq_none_iff _ _).1 hb.2 ha
  · exact h

/-- **C83** `csvw2json` prints an object for each table of the dataset which is not suppressed, in order, with an object for each row of its data
file (C64). -/
theorem C83_json {e : Env} {data : Str → Str} {out : JsonLd.Out} (h : csvw2json other lk o w e data url = .ok out)
    (hd : ∀ m nh, Source w url none (.obj m) nh → DistinctKeys (.obj m)) :
    ∃ d os, Opened.init e.ext e.x other lk o w url none = .ok d ∧ (dataOf d).tables.map Prod.fst = d.tables ∧
      Spec.ToJson.prop "tables" out = some (.list os) ∧
      All2 (fun p o => TableObject e d.noMetadata p.2 (data p.2.url) o) ((dataOf d).tables.filter fun p => !p.1.suppressOutput.truthy) os := by
  unfold csvw2json at h
  cases hi : Opened.init e.ext e.x other lk o w url none with
  | error err => rw [hi] at h; cases h
  | ok d =>
    rw [hi] at h
    simp only at h
    have hc : ∀ p ∈ (dataOf d).tables, CommonOnly p.1.like.props.common := by
      obtain ⟨m, nh, hs, -, -, ht⟩ := C68_init.1 hi
      have hdm := basedAt_distinct (o := o) (url := url) (hd m nh hs)
      rcases ht with ⟨-, t, ⟨t0, ht0, hte⟩, hdt⟩ | ⟨v, l, -, g, hg, -, hdg⟩
      · unfold dataOf
        rw [hdt]
        intro p hp
        simp only [Data.tables, List.mem_singleton] at hp
        subst hp
        show CommonOnly t.like.props.common
        have := table_common hdm ht0
        rw [hte]
        split <;> exact this
      · unfold dataOf
        rw [hdg]
        exact C64_described hdm hg
    obtain ⟨os, h1, h2⟩ := C64_tables hc h
    refine ⟨d, os, rfl, ?_, h1, h2⟩
    unfold dataOf Data.tables Opened.tables
    cases d.desc with
    | table t => rfl
    | group g => simp [Function.comp_def]

/-! ## `csvw2datasette` -/

/-- The metadata for datasette: the title, the description and the license of the dataset, as far as they are given. -/
structure DatasetteMeta (common md : List (Str × J)) : Prop where
  keys : (Dict.keys md).Nodup
  known : ∀ k ∈ Dict.keys md, k ∈ ["title".toList, "description".toList, "license".toList]
  title : Dict.get "title".toList md = Dict.get "dc:title".toList common
  description : Dict.get "description".toList md = Dict.get "dc:description".toList common
  license : Dict.get "license".toList md = Dict.get "dc:license".toList common

theorem datasetteMeta_spec (common : List (Str × J)) : DatasetteMeta common (datasetteMeta common) := by
  have n1 : "title".toList ≠ "description".toList := by decide
  have n2 : "title".toList ≠ "license".toList := by decide
  have n3 : "description".toList ≠ "license".toList := by decide
  unfold datasetteMeta optItem
  constructor
  all_goals
    generalize "title".toList = k1 at *
    generalize "description".toList = k2 at *
    generalize "license".toList = k3 at *
    cases Dict.get "dc:title".toList common <;> cases Dict.get "dc:description".toList common <;>
      cases Dict.get "dc:license".toList common <;> simp [Dict.keys, Dict.get, n1, n2, n3, n1.symm, n2.symm, n3.symm]

section
variable {fx : FExt} {sx : SqlExt} {d : Disk} {old new : Datasette}

theorem callWrite_some {tr : Translator} {skip force : Bool} {tables : List TableSpec} {items : List (Str × List RowDict)}
    {old db : Option Database} (h : callWrite ext sx tr skip force tables items old = (db, none)) :
    (∃ db', db = some db') ∧ (force = false → old = none) := by
  unfold callWrite at h
  split at h
  · simp at h
  unfold writeFile at h
  split at h
  · simp at h
  next hn =>
  constructor
  · exact ⟨_, (congrArg Prod.fst h).symm⟩
  · intro hf
    cases old with
    | none => rfl
    | some a => exact absurd ⟨by simp, hf⟩ hn

theorem callWrite_exists {tr : Translator} {skip : Bool} {tables : List TableSpec} {items : List (Str × List RowDict)} (db0 : Database) :
    ∃ e, callWrite ext sx tr skip false tables items (some db0) = (some db0, some e) := by
  unfold callWrite
  split
  · exact ⟨_, rfl⟩
  · unfold writeFile
    rw [if_pos ⟨by simp, rfl⟩]
    exact ⟨_, rfl⟩

theorem callWrite_failed {tr : Translator} {skip force : Bool} {tables : List TableSpec} {items : List (Str × List RowDict)}
    {old db : Option Database} {e : PyErr} (h : callWrite ext sx tr skip force tables items old = (db, some e)) :
    db = old ∨ ∃ db', db = some db' ∧ ∀ u ∈ db', u.rows = [] := by
  unfold callWrite at h
  split at h
  · exact .inl (Prod.mk.inj h).1.symm
  · by_cases ho : old = none ∨ force = true
    · exact .inr (C70_failed ho h)
    · left
      simp only [not_or, Bool.not_eq_true] at ho
      unfold writeFile at h
      rw [if_pos ho] at h
      exact (Prod.mk.inj h).1.symm

/-- Whatever is written: nothing happened, or there was no database, and the data was written. -/
theorem writeOpened_cases (desc : Desc) (old : Option Database) :
    (∃ e, writeOpened ext x fx sx d url old desc = (old, some e)) ∨
      ∃ tables items, writeOpened ext x fx sx d url old desc = callWrite ext sx nameTranslator false false tables items old := by
  cases desc with
  | table t =>
    unfold writeOpened writeSingle
    simp only
    split
    · exact .inl ⟨_, rfl⟩
    · split
      · exact .inl ⟨_, rfl⟩
      · split
        · exact .inl ⟨_, rfl⟩
        · exact .inr ⟨_, _, rfl⟩
  | group g =>
    unfold writeOpened writeFromTg
    simp only
    split
    · exact .inl ⟨_, rfl⟩
    · split
      · exact .inl ⟨_, rfl⟩
      · exact .inr ⟨_, _, rfl⟩

theorem datasette_inv (h : csvw2datasette ext x other lk o w fx sx d url old = (new, none)) :
    old.db = none ∧ ∃ ds db, Opened.init ext x other lk o w url none = .ok ds ∧ new.db = some db ∧
      new.metadata = some (fx.dumps (.obj (datasetteMeta (commonProps ds.desc)))) ∧
      writeOpened ext x fx sx d url old.db ds.desc = (some db, none) := by
  unfold csvw2datasette at h
  split at h
  · cases h
  next ds hi =>
  split at h
  · cases h
  next db hw =>
  cases h
  rcases writeOpened_cases (ext := ext) (x := x) (fx := fx) (sx := sx) (d := d) (url := url) ds.desc old.db with ⟨e, he⟩ | ⟨tables, items, he⟩
  · rw [he] at hw; cases hw
  · obtain ⟨⟨db', rfl⟩, hold⟩ := callWrite_some (he.symm.trans hw)
    exact ⟨hold rfl, ds, db', hi, rfl, rfl, hw⟩

/-- **C83** If `csvw2datasette` succeeds, there was no database before, and the metadata file has the title, description and license of the
dataset. -/
theorem C83_datasette_meta (h : csvw2datasette ext x other lk o w fx sx d url old = (new, none)) :
    old.db = none ∧ ∃ ds md, Opened.init ext x other lk o w url none = .ok ds ∧ new.metadata = some (fx.dumps (.obj md)) ∧
      (∀ g, ds.desc = .group g → DatasetteMeta g.like.props.common md) ∧ ∀ t, ds.desc = .table t → DatasetteMeta t.like.props.common md := by
  obtain ⟨h1, ds, db, hi, -, hm, -⟩ := datasette_inv h
  refine ⟨h1, ds, _, hi, hm, ?_, ?_⟩
  · intro g hg; rw [hg]; exact datasetteMeta_spec _
  · intro t ht; rw [ht]; exact datasetteMeta_spec _

/-- **C83** … and the new database holds the data of all tables (as for `csvw2sqlite`, C81). -/
theorem C83_datasette {g : GroupD} {b : Bool} (hi : Opened.init ext x other lk o w url none = .ok ⟨.group g, b⟩)
    (h : csvw2datasette ext x other lk o w fx sx d url old = (new, none)) :
    ∃ db, new.db = some db ∧
      ∀ fname, fname = (if isUrl url then none else some (PPath.ofStr url)) → FreshNames g.group →
      (∀ s s', IsSqlTable g.group true s → IsSqlTable g.group true s' → foldName s.name = foldName s'.name → s.name = s'.name) →
      ∀ t, TableNamed g.group t.url t → VirtualLast t.schema.columns → (∀ text, FileText fx d fname t text → Aligned t text) →
      ∃ spec rows, fromTable t true = .ok spec ∧ t.readRows ext x fx d fname = .ok rows ∧
        (∀ row ∈ rows, ∀ k ∈ Dict.keys row, (∃ c ∈ spec.columns, c.name = k) ∨ k ∈ Dict.keys spec.manyToMany) ∧
        ∃ u ∈ db, u.name = t.url ∧ All2 (StoresRow ext sx nameTranslator spec) rows u.rows := by
  obtain ⟨-, ds, db, hi', hdb, -, hw⟩ := datasette_inv h
  rw [hi] at hi'
  cases hi'
  refine ⟨db, hdb, ?_⟩
  rintro fname rfl hf hn t ht hv ha
  obtain ⟨spec, rows, h1, h2, h3⟩ := C81_stored (g := ⟨g, _⟩) ⟨hw, hf, hn⟩ ht hv ha
  obtain ⟨spec', rows', h1', h2', h3'⟩ := C81_complete (g := ⟨g, _⟩) hw hf ht
  rw [h1] at h1'
  rw [h2] at h2'
  cases h1'
  cases h2'
  exact ⟨spec, rows, h1, h2, h3', h3⟩

theorem base_str {own : List (Str × J)} {parent : Option (List (Str × J))} {fname : Option PPath} (hc : NoContextBase own) {s : Str}
    (h : Dict.get "base".toList (parent.getD own) = some (.str s)) : Csvw.baseOf fx own parent fname = .ok (.url s) := by
  unfold Csvw.baseOf
  rw [h]
  simp only
  cases hg : Dict.get "context".toList own with
  | none => rfl
  | some j =>
    rcases hc.kind j hg with ⟨s, rfl⟩ | ⟨m, rfl⟩ | ⟨l, rfl⟩
    · rfl
    · rfl
    · rcases contextBase_none (hc.items l · hg) with h1 | h1
      · simp only [h1]
      · simp only [h1, if_true]

theorem single_base {own : List (Str × J)} {fname : Option PPath} {b : LinkBase} (hc : NoContextBase own)
    (h : Csvw.baseOf fx own none fname = .ok b) : Csvw.baseOf fx own (some (groupProps b).atProps) fname = .ok b := by
  cases hb : Dict.get "base".toList own with
  | none =>
    unfold Csvw.baseOf at h
    simp only [Option.getD_none, hb] at h
    cases fname with
    | none => cases h; rfl
    | some f => cases h; rfl
  | some j =>
    cases j with
    | str s =>
      rw [base_str hc (by exact hb)] at h
      cases h
      exact base_str hc rfl
    | _ =>
      unfold Csvw.baseOf at h
      simp only [Option.getD_none, hb] at h
      cases h

theorem single_write {t : FTable} (hc : NoContextBase t.desc.like.props.atProps) {b : LinkBase} (hb : t.baseAfter fx d 0 = .ok b)
    {tr : Translator} {skip force drop : Bool} {old : Option Database} :
    writeSingle ext x fx sx tr skip force drop d t old = writeFromTg ext x fx sx tr skip force drop d ⟨t.groupAt b, t.fname⟩ old := by
  have hloc : ((t.groupAt b).table t.desc).readRows ext x fx d t.fname = t.readAfter ext x fx d 1 := by
    simp only [FTable.readAfter]
    rw [base_unchanged hc 1, hb]
    simp only
    unfold Table.readRows Table.location
    rw [show Csvw.baseOf fx ((t.groupAt b).table t.desc).props.atProps
      (((t.groupAt b).table t.desc).group.map fun g => g.1.atProps) t.fname = .ok b from single_base hc hb]
    rfl
  have hd : (t.groupAt b).group.tabledict = [(t.table.url, (t.groupAt b).table t.desc)] := rfl
  unfold writeSingle writeFromTg FGroup.read
  rw [hb]
  simp only
  rw [hd]
  simp only [mapRes, hloc]
  cases schema (t.groupAt b).group drop with
  | error e => rfl
  | ok tables =>
    simp only
    cases t.readAfter ext x fx d 1 <;> rfl

/-- **C83** The same for a table which is described on its own, if its context has no `@base` (see C84): the database holds the rows of the
table. It has the table of a group with this table only, from which it inherits nothing. -/
theorem C83_datasette_table {t : TableD} {b : Bool} (hi : Opened.init ext x other lk o w url none = .ok ⟨.table t, b⟩)
    (hc : NoContextBase t.like.props.atProps) (h : csvw2datasette ext x other lk o w fx sx d url old = (new, none)) :
    ∃ (g : GroupD) (db : Database) (fname : Option PPath), g.tables = [t] ∧ NoInherited g.like.props ∧ g.like.dialect = none ∧ new.db = some db ∧
      fname = (if isUrl url then none else some (PPath.ofStr url)) ∧ (FreshNames g.group →
      (∀ s s', IsSqlTable g.group true s → IsSqlTable g.group true s' → foldName s.name = foldName s'.name → s.name = s'.name) →
      VirtualLast t.like.schema.columns → (∀ text, FileText fx d fname (g.table t) text → Aligned (g.table t) text) →
      ∃ spec rows, fromTable (g.table t) true = .ok spec ∧ FTable.readAfter ext x fx d ⟨t, fname⟩ 0 = .ok rows ∧
        (∀ row ∈ rows, ∀ k ∈ Dict.keys row, (∃ c ∈ spec.columns, c.name = k) ∨ k ∈ Dict.keys spec.manyToMany) ∧
        ∃ u ∈ db, u.name = t.like.url.getD [] ∧ All2 (StoresRow ext sx nameTranslator spec) rows u.rows) := by
  obtain ⟨-, ds, db, hi', hdb, -, hw⟩ := datasette_inv h
  rw [hi] at hi'
  cases hi'
  have hw : writeSingle ext x fx sx nameTranslator false false true d ⟨t, fileOf url⟩ old.db = (some db, none) := hw
  cases hb : FTable.baseAfter fx d ⟨t, fileOf url⟩ 0 with
  | error e =>
    unfold writeSingle at hw
    rw [hb] at hw
    simp at hw
  | ok b' =>
    rw [single_write hc hb] at hw
    refine ⟨FTable.groupAt ⟨t, fileOf url⟩ b', db, fileOf url, rfl, groupProps_none b', rfl, hdb, rfl, ?_⟩
    intro hf hn hv ha
    have ht : TableNamed (FTable.groupAt ⟨t, fileOf url⟩ b').group ((FTable.groupAt ⟨t, fileOf url⟩ b').table t).url
        ((FTable.groupAt ⟨t, fileOf url⟩ b').table t) := ⟨[], [], rfl, rfl, by simp⟩
    obtain ⟨spec, rows, h1, h2, h3⟩ := C81_stored (g := ⟨FTable.groupAt ⟨t, fileOf url⟩ b', fileOf url⟩) ⟨hw, hf, hn⟩ ht hv ha
    obtain ⟨spec', rows', h1', h2', h3'⟩ := C81_complete (g := ⟨FTable.groupAt ⟨t, fileOf url⟩ b', fileOf url⟩) hw hf ht
    rw [h1] at h1'
    rw [h2] at h2'
    cases h1'
    cases h2'
    refine ⟨spec, rows, h1, ?_, h3', h3⟩
    rw [← C84_unchanged hc 1, ← h2]
    simp only [FTable.readAfter]
    rw [base_unchanged hc 1, hb]
    simp only
    unfold Table.readRows Table.location
    rw [show Csvw.baseOf fx ((FTable.groupAt ⟨t, fileOf url⟩ b').table t).props.atProps
      (((FTable.groupAt ⟨t, fileOf url⟩ b').table t).group.map fun g => g.1.atProps) (fileOf url) = .ok b' from single_base hc hb]
    rfl

/-- **C83** An existing database is never touched: there is an error. -/
theorem C83_datasette_exists {db0 : Database} (hold : old.db = some db0) :
    ∃ e, csvw2datasette ext x other lk o w fx sx d url old = (old, some e) := by
  unfold csvw2datasette
  split
  · exact ⟨_, rfl⟩
  next ds hi =>
  have : ∃ e, writeOpened ext x fx sx d url old.db ds.desc = (old.db, some e) := by
    rcases writeOpened_cases (ext := ext) (x := x) (fx := fx) (sx := sx) (d := d) (url := url) ds.desc old.db with h | ⟨tables, items, he⟩
    · exact h
    · rw [he, hold]
      exact callWrite_exists db0
  obtain ⟨e, he⟩ := this
  rw [he]
  exact ⟨e, rfl⟩

/-- **C83** After an error, the metadata file is as before, and so is the database, or else it is new and its tables are empty. -/
theorem C83_datasette_failed {e : PyErr} (h : csvw2datasette ext x other lk o w fx sx d url old = (new, some e)) :
    new.metadata = old.metadata ∧ (new.db = old.db ∨ old.db = none ∧ ∃ db, new.db = some db ∧ ∀ u ∈ db, u.rows = []) := by
  cases ho : old.db with
  | some db0 =>
    obtain ⟨e', he⟩ := C83_datasette_exists (ext := ext) (x := x) (other := other) (lk := lk) (o := o) (w := w) (url := url) (fx := fx) (sx := sx)
      (d := d) ho
    rw [h] at he
    cases he
    exact ⟨rfl, .inl ho⟩
  | none =>
    unfold csvw2datasette at h
    split at h
    · cases h; exact ⟨rfl, .inl ho⟩
    next ds hi =>
    split at h
    · next db e' hw =>
      cases h
      refine ⟨rfl, ?_⟩
      rcases writeOpened_cases (ext := ext) (x := x) (fx := fx) (sx := sx) (d := d) (url := url) ds.desc old.db with ⟨e, he⟩ | ⟨tables, items, he⟩
      · rw [he] at hw
        cases hw
        exact .inl ho
      · rcases callWrite_failed (he.symm.trans hw) with h | h
        · exact .inl (h.trans ho)
        · exact .inr ⟨rfl, h⟩
    · cases h

end

end

end Csvw.Props

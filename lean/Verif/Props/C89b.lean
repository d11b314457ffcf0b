import Verif.Props.C89
import Verif.Lemmas.Metadata3
/-!
# C89: an example; links which are not resolved
-/

namespace Csvw.Props

open Csvw.Spec Csvw.Links

section
variable {ext : Ext} {x : MExt} {other : Base → Derived → J → Res Val} {d : Disk}

/-- A web with a schema and a dialect in the directory `http://ex.org/`, and a schema in its subdirectory `s`. Links are relative to the
directory of the base. -/
def linkFx : FExt where
  dumps := fun _ => []
  cut := fun _ => []
  cutTable := fun _ => []
  urljoin := fun b s => if isUrl s then s else (b.reverse.dropWhile (fun c => c != '/')).reverse ++ s
  fetch := fun u =>
    if u = "http://ex.org/schema.json".toList then .ok "S".toList
    else if u = "http://ex.org/s/part.json".toList then .ok "P".toList
    else if u = "http://ex.org/dialect.json".toList then .ok "D".toList
    else .error .osError
  loads := fun s =>
    if s = "S".toList then .ok (.obj [("columns".toList, .arr [.obj [("name".toList, .str "a".toList)]])])
    else if s = "P".toList then .ok (.obj [("columns".toList, .arr [.obj [("name".toList, .str "p".toList)]])])
    else if s = "D".toList then .ok (.obj [("delimiter".toList, .str ";".toList)])
    else .error .valueError

/-- The base is the URL. -/
def linkOpen : OpenExt := ⟨id⟩

def linkUrl : Str := "http://ex.org/md.json".toList

/-- A table with a link to its schema, and one with a schema written out. -/
def linkTables (schema : J) : List J :=
  [.obj [("url".toList, .str "t.csv".toList), ("tableSchema".toList, schema)],
   .obj [("url".toList, .str "u.csv".toList), ("tableSchema".toList, .obj [("columns".toList, .arr [.obj [("name".toList, .str "b".toList)]])])]]

def linkDoc (schema dialect : J) : List (Str × J) :=
  [("@context".toList, .str "http://www.w3.org/ns/csvw".toList), ("dialect".toList, dialect), ("tables".toList, .arr (linkTables schema))]

/-- The names of the columns of the tables, and the delimiter. -/
def linkResult (g : Res GroupD) : Res (List (List (Option Str)) × Option J) :=
  g.map fun g => (g.tables.map fun t => t.like.schema.columns.map Column.name, g.like.dialect.map fun d => .str d.delimiter)

theorem linkDoc_distinct (s : Str) : DistinctKeys (.obj (linkDoc (.str s) (.str "dialect.json".toList))) := by
  refine .obj (by simp only [linkDoc, List.map]; decide) ?_
  intro k v h
  simp only [linkDoc, List.mem_cons, Prod.mk.injEq, List.not_mem_nil, or_false] at h
  rcases h with ⟨-, rfl⟩ | ⟨-, rfl⟩ | ⟨-, rfl⟩
  · exact .str _
  · exact .str _
  · refine .arr ?_
    intro t ht
    simp only [linkTables, List.mem_cons, List.not_mem_nil, or_false] at ht
    rcases ht with rfl | rfl
    · refine .obj (by simp only [List.map]; decide) ?_
      intro k v h
      simp only [List.mem_cons, Prod.mk.injEq, List.not_mem_nil, or_false] at h
      rcases h with ⟨-, rfl⟩ | ⟨-, rfl⟩ <;> exact .str _
    · refine .obj (by simp only [List.map]; decide) ?_
      intro k v h
      simp only [List.mem_cons, Prod.mk.injEq, List.not_mem_nil, or_false] at h
      rcases h with ⟨-, rfl⟩ | ⟨-, rfl⟩
      · exact .str _
      · refine .obj (by simp only [List.map]; decide) ?_
        intro k v h
        simp only [List.mem_cons, Prod.mk.injEq, List.not_mem_nil, or_false] at h
        obtain ⟨-, rfl⟩ := h
        refine .arr ?_
        intro t ht
        simp only [List.mem_cons, List.not_mem_nil, or_false] at ht
        subst ht
        refine .obj (by simp only [List.map]; decide) ?_
        intro k v h
        simp only [List.mem_cons, Prod.mk.injEq, List.not_mem_nil, or_false] at h
        obtain ⟨-, rfl⟩ := h
        exact .str _

/-- The hypotheses of `C89_schema` and `C89_dialect` are met by a document with a link to a schema in another directory and a link to a
dialect, and the schema and the dialect are those of the linked documents. -/
theorem C89_example :
    DistinctKeys (.obj (linkDoc (.str "s/part.json".toList) (.str "dialect.json".toList))) ∧
    DocumentBase (linkOpen.baseUrl linkUrl) (linkDoc (.str "s/part.json".toList) (.str "dialect.json".toList)) linkUrl ∧
    All2 (SchemaInlined fun s sch => WebDocument linkFx (linkFx.urljoin linkUrl s) sch) (linkTables (.str "s/part.json".toList))
      (linkTables (.obj [("columns".toList, .arr [.obj [("name".toList, .str "p".toList)]])])) ∧
    FullBase linkFx (linkOpen.baseUrl linkUrl) (linkDoc (.str "s/part.json".toList) (.str "dialect.json".toList)) linkUrl ∧
    WebDocument linkFx (linkFx.urljoin linkUrl "dialect.json".toList) [("delimiter".toList, .str ";".toList)] ∧
    linkResult (fromUrl (groupFrom ext x other (fun _ => .ok ()) linkFx d) linkOpen linkFx linkUrl
        (.obj (linkDoc (.str "s/part.json".toList) (.str "dialect.json".toList)))) =
      .ok ([[some "p".toList], [some "b".toList]], some (.str ";".toList)) := by
  refine ⟨linkDoc_distinct _, .inr ⟨by decide, rfl⟩, .cons (.inr ⟨_, "s/part.json".toList, _, rfl, by decide, ⟨by decide, "P".toList, by decide, by rfl⟩, by rfl⟩)
    (.cons (.inl ⟨rfl, ?_⟩) .nil), ⟨linkUrl, [], .inr ⟨by decide, rfl⟩, .inl ⟨rfl, .inr ⟨_, by rfl⟩⟩, by decide, rfl⟩,
    ⟨by decide, "D".toList, by decide, by rfl⟩, by rfl⟩
  intro m hm s hs
  cases hm
  revert hs
  simp [Dict.get]

/-! ## Deviations -/

/-- The schema is linked from a document whose context gives a `@base`: the link is resolved against the location of the document (1103), not
against the base URL (1120–1137). Here the schema is where the link points to, but it is not found. -/
theorem C89_violated_context :
    (∃ b, FullBase linkFx (linkOpen.baseUrl linkUrl)
        [("@context".toList, .arr [.str "http://www.w3.org/ns/csvw".toList, .obj [("@base".toList, .str "s/".toList)]]),
         ("tables".toList, .arr (linkTables (.str "part.json".toList)))] b ∧
      ∃ sch, WebDocument linkFx (linkFx.urljoin b "part.json".toList) sch) ∧
    linkResult (fromUrl (groupFrom ext x other (fun _ => .ok ()) linkFx d) linkOpen linkFx linkUrl
        (.obj [("@context".toList, .arr [.str "http://www.w3.org/ns/csvw".toList, .obj [("@base".toList, .str "s/".toList)]]),
         ("tables".toList, .arr (linkTables (.str "part.json".toList)))])) = .error .attributeError := by
  refine ⟨⟨"http://ex.org/s/".toList, ⟨linkUrl, "s/".toList, .inr ⟨by decide, rfl⟩, .inr ⟨_, _, by rfl, .inl (by decide)⟩, by decide, by decide⟩,
    _, by decide, "P".toList, by decide, by rfl⟩, by rfl⟩

/-- A link to the dialect of a table in a group is not resolved at all when the table is constructed (1055–1057, it has no parent yet): the
dialect is looked for in a local file relative to the working directory. Here the dialect is where the link points to, but it is not
found, although the same link in the group works. -/
theorem C89_violated_dialect (hd : d.files (.ofStr "dialect.json".toList) = none) :
    WebDocument linkFx (linkFx.urljoin linkUrl "dialect.json".toList) [("delimiter".toList, .str ";".toList)] ∧
    linkResult (fromUrl (groupFrom ext x other (fun _ => .ok ()) linkFx d) linkOpen linkFx linkUrl
        (.obj [("dialect".toList, .str "dialect.json".toList), ("tables".toList, .arr [.obj [("url".toList, .str "t.csv".toList)]])])) =
      .ok ([[]], some (.str ";".toList)) ∧
    linkResult (fromUrl (groupFrom ext x other (fun _ => .ok ()) linkFx d) linkOpen linkFx linkUrl
        (.obj [("tables".toList, .arr [.obj [("url".toList, .str "t.csv".toList), ("dialect".toList, .str "dialect.json".toList)]])])) =
      .error .osError := by
  refine ⟨⟨by decide, "D".toList, by decide, by rfl⟩, by rfl, ?_⟩
  have h : dialectOf (fun _ => .ok ()) x linkFx d [] (.str "dialect.json".toList) = .error .osError := by
    have e : getJson linkFx d (resolveLink linkFx d "dialect.json".toList .none) = .error .osError := by
      have : resolveLink linkFx d "dialect.json".toList .none = .file (.ofStr "dialect.json".toList) := by rfl
      rw [this]
      simp only [getJson, hd]
    have b : baseOf linkFx [] none none = .ok .none := by rfl
    simp only [dialectOf, b, e]
  have ht : tableFrom ext x other (fun _ => .ok ()) linkFx d
      (.obj [("url".toList, .str "t.csv".toList), ("dialect".toList, .str "dialect.json".toList)]) = .error .osError := by
    show tableOf ext x other (fun _ => .ok ()) linkFx d
      { own := [("url".toList, .str "t.csv".toList), ("dialect".toList, .str "dialect.json".toList)] } = _
    simp only [tableOf, likeOf]
    rw [show argOf "dialect" [("url".toList, J.str "t.csv".toList), ("dialect".toList, .str "dialect.json".toList)] = .str "dialect.json".toList by rfl, h]
    rfl
  show linkResult (groupOf ext x other (fun _ => .ok ()) linkFx d (Parts.mk [] [("base".toList, .str linkUrl)]
    [("tables".toList, .arr [.obj [("url".toList, .str "t.csv".toList), ("dialect".toList, .str "dialect.json".toList)]])] [])) = _
  simp only [groupOf]
  rw [show Dict.get "tables".toList [("tables".toList, J.arr [.obj [("url".toList, .str "t.csv".toList), ("dialect".toList, .str "dialect.json".toList)]])] =
    some (.arr [.obj [("url".toList, .str "t.csv".toList), ("dialect".toList, .str "dialect.json".toList)]]) by rfl]
  simp only [tablesFrom, mapObjs, ht]
  rfl

/-- A relative link to a schema in a local metadata file is not resolved (1088): it is requested like a URL, which fails, whatever is on
disk. -/
theorem C89_violated_local (s : Str) (hs : isUrl s = false) {lk : EncLookup} {m t : List (Str × J)} (hm : (Dict.keys m).Nodup)
    (ht : (Dict.keys t).Nodup) {r : List J} (hts : Dict.get "tables".toList m = some (.arr (.obj t :: r)))
    (h : Dict.get "tableSchema".toList t = some (.str s)) (fx : FExt) (g : GroupD) : groupFrom ext x other lk fx d (.obj m) ≠ .ok g := by
  intro hg
  obtain ⟨p, hp, hg⟩ := fromParts_ok hg
  simp only [groupOf, own_get hm hp (k := "tables".toList) (by decide) (fun _ => by decide), hts, tablesFrom, mapObjs] at hg
  cases hl : likeOf ext x other lk fx d p with
  | error e => rw [hl] at hg; cases hg
  | ok like =>
    cases htab : tableFrom ext x other lk fx d (.obj t) with
    | error e => rw [hl, htab] at hg; cases hg
    | ok td =>
      obtain ⟨q, hq, htab⟩ := fromParts_ok htab
      simp only [tableOf, likeOf] at htab
      rw [own_arg ht hq (k := "tableSchema") (by decide) (fun _ => by decide)] at htab
      have e : schemaOf ext x other fx d (argOf "tableSchema" t) = .error .attributeError := by
        simp only [argOf, h, Option.getD_some, schemaOf, hs]
        rfl
      rw [e] at htab
      cases h1 : Descr.ofParts ext x other q with
      | error e => rw [h1] at htab; cases htab
      | ok v1 =>
        cases h2 : dialectOf lk x fx d q.atProps (argOf "dialect" q.own) with
        | error e => rw [h1, h2] at htab; cases htab
        | ok v2 =>
          cases h3 : convDirection (Dict.get "tableDirection".toList q.own) with
          | error e => rw [h1, h2, h3] at htab; cases htab
          | ok v3 => rw [h1, h2, h3] at htab; cases htab

end

end Csvw.Props

import Verif.Model.Locate
import Verif.Spec.Locate
import Verif.Spec.Dsv
import Verif.Py.StrLemmas
import Verif.Lemmas.NumberPattern
/-!
# C56: locating metadata
-/

namespace Csvw.Props
open Csvw.Spec Csvw.Locate

theorem join_concat (sep : Str) (init : List Str) (last : Str) :
    Py.join sep (init ++ [last]) = if init = [] then last else Py.join sep init ++ sep ++ last := by
  induction init with
  | nil => rfl
  | cons a r ih =>
    cases r with
    | nil => simp [Py.join]
    | cons b r' =>
      have : Py.join sep (a :: b :: r' ++ [last]) = a ++ sep ++ Py.join sep (b :: r' ++ [last]) := rfl
      rw [this, ih]
      simp [Py.join]

theorem lastPart_component (u : Str) : LastComponent u (lastPart u) := by
  have hne : Py.split ['/'] u ≠ [] := Py.splitGo_ne_nil _ _ _ _
  have hj := Py.join_split ['/'] (by simp) u
  have hl : Py.split ['/'] u = (Py.split ['/'] u).dropLast ++ [lastPart u] := by
    unfold lastPart
    rw [List.getLast?_eq_some_getLast hne]
    exact (List.dropLast_concat_getLast hne).symm
  refine ⟨Py.not_mem_split_char '/' u _ (by rw [hl]; simp), ?_⟩
  rw [hl, join_concat] at hj
  split at hj
  · exact .inl hj.symm
  · exact .inr ⟨Py.join ['/'] (Py.split ['/'] u).dropLast, by simpa using hj.symm⟩

theorem append_slash_unique {p p' n n' : Str} (h : '/' ∉ n) (h' : '/' ∉ n') (he : p ++ '/' :: n = p' ++ '/' :: n') : n = n' := by
  have key : ∀ {p p' n n' : Str}, '/' ∉ n → p.length ≤ p'.length → p ++ '/' :: n = p' ++ '/' :: n' → n = n' := by
    intro p p' n n' h hle he
    obtain ⟨r, hr⟩ : p <+: p' :=
      List.prefix_of_prefix_length_le (List.prefix_append p ('/' :: n)) (by rw [he]; exact List.prefix_append _ _) hle
    rw [← hr, List.append_assoc, List.append_cancel_left_eq] at he
    cases r with
    | nil => simpa using he
    | cons c r => 
      exfalso; apply h
      simp only [List.cons_append, List.cons.injEq] at he
      rw [he.2]; simp
  rcases Nat.le_total p.length p'.length with hle | hle
  · exact key h hle he
  · exact (key h' hle he.symm).symm

theorem lastComponent_iff {u n : Str} : LastComponent u n ↔ n = lastPart u := by
  refine ⟨fun h => ?_, fun h => h ▸ lastPart_component u⟩
  obtain ⟨h1, h2⟩ := h
  obtain ⟨g1, g2⟩ := lastPart_component u
  rcases h2 with h2 | ⟨p, hp⟩
  · rcases g2 with g2 | ⟨p', hp'⟩
    · rw [← h2]; exact g2
    · exfalso; apply h1; rw [← h2, hp']; simp
  · rcases g2 with g2 | ⟨p', hp'⟩
    · exfalso; apply g1; rw [← g2, hp]; simp
    · exact append_slash_unique h1 g1 (hp.symm.trans hp')

theorem tableName_ok {t : J} {n : Str} (h : tableName t = .ok n) : ∃ u, Member t "url" (.str u) ∧ n = lastPart u := by
  unfold tableName at h
  split at h
  · rename_i m
    split at h
    · cases h
    · rename_i u hu
      cases h
      exact ⟨u, ⟨m, rfl, hu⟩, rfl⟩
    · cases h
  · cases h

theorem tableName_member {t : J} {u : Str} (h : Member t "url" (.str u)) : tableName t = .ok (lastPart u) := by
  obtain ⟨m, rfl, hm⟩ := h
  unfold tableName
  simp only
  rw [hm]

theorem tableDescribes_iff {t : J} {url : Str} : TableDescribes t url ↔ ∃ u, Member t "url" (.str u) ∧ lastPart u = lastPart url := by
  constructor
  · rintro ⟨u, n, h1, h2, h3⟩
    rw [lastComponent_iff] at h2 h3
    exact ⟨u, h1, h2.symm.trans h3⟩
  · rintro ⟨u, h1, h2⟩
    exact ⟨u, lastPart u, h1, lastPart_component u, h2 ▸ lastPart_component url⟩

theorem anyDescribes_true {url : Str} {l : List J} (h : anyDescribes url l = .ok true) : ∃ t ∈ l, TableDescribes t url := by
  induction l with
  | nil => cases h
  | cons t r ih =>
    unfold anyDescribes at h
    split at h
    · cases h
    · rename_i n hn
      split at h
      · rename_i he
        obtain ⟨u, h1, h2⟩ := tableName_ok hn
        exact ⟨t, by simp, tableDescribes_iff.2 ⟨u, h1, by rw [← h2, he]⟩⟩
      · obtain ⟨t', h1, h2⟩ := ih h
        exact ⟨t', by simp [h1], h2⟩

theorem anyDescribes_regular {url : Str} {l : List J} (hr : ∀ t ∈ l, ∃ u, Member t "url" (.str u)) :
    ∃ b, anyDescribes url l = .ok b ∧ (b = true ↔ ∃ t ∈ l, TableDescribes t url) := by
  induction l with
  | nil => exact ⟨false, rfl, by simp⟩
  | cons t r ih =>
    obtain ⟨u, hu⟩ := hr t (by simp)
    have hn := tableName_member hu
    obtain ⟨b, h1, h2⟩ := ih fun t ht => hr t (by simp [ht])
    unfold anyDescribes
    rw [hn]
    by_cases he : lastPart url = lastPart u
    · simp only [he, if_true]
      exact ⟨true, rfl, by simpa using .inl (tableDescribes_iff.2 ⟨u, hu, he.symm⟩)⟩
    · simp only [he, if_false]
      refine ⟨b, h1, h2.trans ?_⟩
      constructor
      · rintro ⟨t', a, b⟩; exact ⟨t', by simp [a], b⟩
      · rintro ⟨t', a, b⟩
        rcases List.mem_cons.1 a with rfl | a
        · exfalso
          obtain ⟨u', hu', he'⟩ := tableDescribes_iff.1 b
          obtain ⟨m, rfl, hm⟩ := hu
          obtain ⟨m', e, hm'⟩ := hu'
          cases e
          rw [hm] at hm'
          cases hm'
          exact he he'.symm
        · exact ⟨t', a, b⟩

/-- Metadata which the code takes as describing the data, does. -/
theorem describes_true {md : J} {url : Str} (h : describes md url = .ok true) : Describes md url := by
  unfold describes at h
  split at h
  · cases h
  · rename_i l hl
    obtain ⟨t, h1, h2⟩ := anyDescribes_true h
    refine ⟨t, ?_, h2⟩
    unfold tablesOf at hl
    split at hl
    · rename_i m
      split at hl
      · rename_i hn
        cases hl
        rw [List.mem_singleton] at h1
        exact .inr ⟨h1, m, rfl, hn⟩
      · rename_i l' hl'
        cases hl
        exact .inl ⟨_, ⟨m, rfl, hl'⟩, h1⟩
      · cases hl
        rw [List.mem_map] at h1
        obtain ⟨s, _, rfl⟩ := h1
        obtain ⟨u, ⟨m, e, _⟩, _⟩ := tableDescribes_iff.1 h2
        cases e
      · cases hl
        rw [List.mem_map] at h1
        obtain ⟨s, _, rfl⟩ := h1
        obtain ⟨u, ⟨m, e, _⟩, _⟩ := tableDescribes_iff.1 h2
        cases e
      · cases hl
    · cases hl

theorem describes_regular {md : J} {url : Str} (hr : Regular md) :
    ∃ b, describes md url = .ok b ∧ (b = true ↔ Describes md url) := by
  obtain ⟨m, rfl, hr⟩ := hr
  unfold describes tablesOf
  simp only
  rcases hr with ⟨hn, hu⟩ | ⟨l, hl, hr⟩
  · rw [hn]
    simp only
    obtain ⟨b, h1, h2⟩ := anyDescribes_regular (url := url) (l := [.obj m]) (by simpa using hu)
    refine ⟨b, h1, h2.trans ?_⟩
    constructor
    · rintro ⟨t, ht, h⟩
      rw [List.mem_singleton] at ht
      exact ⟨t, .inr ⟨ht, m, rfl, hn⟩, h⟩
    · rintro ⟨t, ht, h⟩
      rcases ht with ⟨l, ⟨m', e, hl⟩, ht⟩ | ⟨ht, _⟩
      · cases e; rw [hn] at hl; cases hl
      · exact ⟨t, by simp [ht], h⟩
  · rw [hl]
    simp only
    obtain ⟨b, h1, h2⟩ := anyDescribes_regular (url := url) hr
    refine ⟨b, h1, h2.trans ?_⟩
    constructor
    · rintro ⟨t, ht, h⟩
      exact ⟨t, .inl ⟨l, ⟨m, rfl, hl⟩, ht⟩, h⟩
    · rintro ⟨t, ht, h⟩
      rcases ht with ⟨l', ⟨m', e, hl'⟩, ht⟩ | ⟨ht, m', e, hn⟩
      · cases e; rw [hl] at hl'; cases hl'
        exact ⟨t, ht, h⟩
      · cases e; rw [hl] at hn; cases hn

/-! ## Which metadata are available -/

/-- The metadata the `Link` header leads to, if any. -/
inductive LinkDoc (w : World) (url : Str) : Option (Str × Option Str) → Option J → Prop where
  /-- There is no link with relation `describedby`. -/
  | none : LinkDoc w url none none
  /-- The link is not to JSON. -/
  | other {u ty : Str} (h : ty ∉ ["application/csvm+json".toList, "application/ld+json".toList, "application/json".toList]) :
      LinkDoc w url (some (u, some ty)) none
  /-- The link is to the JSON document `md`. -/
  | json {u ty : Str} {md : J} (h : ty ∈ ["application/csvm+json".toList, "application/ld+json".toList, "application/json".toList])
      (hj : w.getJson (w.resolve u url) = .ok md) : LinkDoc w url (some (u, some ty)) (some md)

/-- The lines of a text. -/
def IsLines (text : Str) (lines : List Str) : Prop :=
  lines ≠ [] ∧ Py.join ['\n'] lines = text ∧ ∀ l ∈ lines, '\n' ∉ l

/-- The locations to look at: those configured for the site, otherwise the default ones. -/
def Locations (w : World) (url : Str) (lines : List Str) : Prop :=
  ∃ site, w.text (w.resolve "/.well-known/csvm".toList url) = .ok site ∧
    match site with
    | none => lines = ["{+url}-metadata.json".toList, "csv-metadata.json".toList]
    | some t => IsLines t lines

/-- What is found at a location: nothing (`none`), or a JSON document. -/
def FoundAt (w : World) (url line : Str) (doc : Option J) : Prop :=
  ∃ s r, w.expand line url = .ok s ∧ w.fetch (w.resolve s url) = .ok r ∧ doc = r.join

variable {w : World} {url : Str}

theorem linked_eq {link : Option (Str × Option Str)} {d : Option J} (h : LinkDoc w url link d) : linked w url link = .ok d := by
  cases h with
  | none => rfl
  | other h => exact if_neg h
  | json h hj =>
    unfold linked jsonTypes
    simp only
    rw [if_pos h, hj]
    rfl

theorem locations_eq {lines : List Str} (h : Locations w url lines) : locations w url = .ok lines := by
  obtain ⟨site, hs, h⟩ := h
  unfold locations
  rw [hs]
  cases site with
  | none => rw [h]; rfl
  | some t =>
    obtain ⟨h1, h2, h3⟩ := h
    simp only [Option.getD_some]
    rw [← h2, Py.split_join ['\n'] (by simp) lines h1 fun p hp => Py.noEarly_char _ _ (h3 p hp)]

theorem searchLocs_eq {lines : List Str} {docs : List (Option J)} (ho : All2 (FoundAt w url) lines docs)
    (hr : ∀ md ∈ docs.filterMap id, Regular md) (warned : Bool) :
    (∃ before md after, docs.filterMap id = before ++ md :: after ∧ Describes md url ∧ (∀ d ∈ before, ¬ Describes d url) ∧
      searchLocs w url lines warned = .ok (some md, warned || decide (before ≠ []))) ∨
    ((∀ md ∈ docs.filterMap id, ¬ Describes md url) ∧
      searchLocs w url lines warned = .ok (none, warned || decide (docs.filterMap id ≠ []))) := by
  induction ho generalizing warned with
  | nil => exact .inr ⟨by simp, by simp [searchLocs]⟩
  | @cons line doc lines docs h ho ih =>
    have hdoc : docAt w url line = .ok doc := by
      obtain ⟨s, r, h1, h2, rfl⟩ := h
      unfold docAt
      rw [h1]
      simp only
      rw [h2]
    have hstep : searchLocs w url (line :: lines) warned = match (generalizing := false) doc with
        | none => searchLocs w url lines warned
        | some md => match describes md url with
          | .error e => .error e
          | .ok true => .ok (some md, warned)
          | .ok false => searchLocs w url lines true := by
      rw [searchLocs, hdoc]
      cases doc <;> rfl
    cases doc with
    | none =>
      rw [hstep]
      simpa using ih (by simpa using hr) warned
    | some md =>
      simp only at hstep
      have hfm : ((some md :: docs).filterMap id) = md :: docs.filterMap id := rfl
      rw [hfm] at hr ⊢
      obtain ⟨b, hb, hiff⟩ := describes_regular (url := url) (hr md (by simp))
      rw [hb] at hstep
      cases b with
      | true =>
        exact .inl ⟨[], md, _, rfl, hiff.1 rfl, by simp, by simpa using hstep⟩
      | false =>
        have hnd : ¬ Describes md url := fun h => by simpa using hiff.2 h
        simp only at hstep
        rw [hstep]
        rcases ih (fun m hm => hr m (by simp [hm])) true with ⟨before, m, after, e, g1, g2, g3⟩ | ⟨g1, g2⟩
        · refine .inl ⟨md :: before, m, after, by rw [e]; rfl, g1, ?_, by rw [g3]; simp⟩
          intro d hd'
          rcases List.mem_cons.1 hd' with rfl | hd'
          · exact hnd
          · exact g2 d hd'
        · refine .inr ⟨?_, by rw [g2]; simp⟩
          intro d hd'
          rcases List.mem_cons.1 hd' with rfl | hd'
          · exact hnd
          · exact g1 d hd'

/-- The description made up if there is no metadata: the URL alone. -/
def urlOnly (url : Str) : J := .obj [("@context".toList, .str "http://www.w3.org/ns/csvw".toList), ("url".toList, .str url)]

/-- **C56.** For a URL, the metadata found are the first which describe the data among: the document the `Link` header leads to,
then the documents at the locations configured for the site or else the default locations, in their order; if none of these
describes the data, it is the minimal description. A warning is issued exactly if other documents were passed over. -/
theorem C56_url {noHeader : Bool} {link : Option (Str × Option Str)} {lk : Option J} {lines : List Str} {docs : List (Option J)}
    (hu : isUrl url = true) (hh : w.head url = .ok (noHeader, link)) (hl : LinkDoc w url link lk) (hs : Locations w url lines)
    (ho : All2 (FoundAt w url) lines docs) (hr : ∀ md ∈ lk.toList ++ docs.filterMap id, Regular md) :
    (∃ before md after, lk.toList ++ docs.filterMap id = before ++ md :: after ∧ Describes md url ∧
      (∀ d ∈ before, ¬ Describes d url) ∧ locateMetadata w url = .ok ⟨md, noHeader, decide (before ≠ [])⟩) ∨
    ((∀ md ∈ lk.toList ++ docs.filterMap id, ¬ Describes md url) ∧
      locateMetadata w url = .ok ⟨urlOnly url, noHeader, decide (lk.toList ++ docs.filterMap id ≠ [])⟩) := by
  have hmin : minimal w url = urlOnly url := if_pos hu
  have h0 : locateMetadata w url = match (generalizing := false) lk with
      | none => fromLocations w url noHeader false
      | some md => match describes md url with
        | .error e => .error e
        | .ok true => .ok ⟨md, noHeader, false⟩
        | .ok false => fromLocations w url noHeader true := by
    unfold locateMetadata
    rw [if_pos hu]
    unfold locateUrl
    rw [hh]
    simp only
    rw [linked_eq hl]
    cases lk <;> rfl
  have h1 : ∀ warned, fromLocations w url noHeader warned = match (generalizing := false) searchLocs w url lines warned with
      | .error e => .error e
      | .ok (some md, b) => .ok ⟨md, noHeader, b⟩
      | .ok (none, b) => .ok ⟨minimal w url, noHeader, b⟩ := by
    intro warned
    unfold fromLocations
    rw [locations_eq hs]
    rfl
  have hs' := searchLocs_eq ho (fun md hm => hr md (List.mem_append_right _ hm))
  cases lk with
  | none =>
    rw [h0]
    simp only [h1, Option.toList_none, List.nil_append]
    rcases hs' false with ⟨before, md, after, e, g1, g2, g3⟩ | ⟨g1, g2⟩
    · exact .inl ⟨before, md, after, e, g1, g2, by rw [g3]; simp⟩
    · exact .inr ⟨g1, by rw [g2, hmin]; simp⟩
  | some md =>
    obtain ⟨b, hb, hiff⟩ := describes_regular (url := url) (hr md (by simp))
    rw [h0]
    simp only [h1, hb]
    cases b with
    | true => exact .inl ⟨[], md, _, rfl, hiff.1 rfl, by simp, by simp⟩
    | false =>
      have hnd : ¬ Describes md url := fun h => by simpa using hiff.2 h
      simp only
      rcases hs' true with ⟨before, m, after, e, g1, g2, g3⟩ | ⟨g1, g2⟩
      · refine .inl ⟨md :: before, m, after, by rw [e]; rfl, g1, ?_, by rw [g3]; simp⟩
        intro d hd'
        rcases List.mem_cons.1 hd' with rfl | hd'
        · exact hnd
        · exact g2 d hd'
      · refine .inr ⟨?_, by rw [g2, hmin]; simp⟩
        intro d hd'
        simp only [Option.toList_some, List.cons_append, List.nil_append] at hd'
        rcases List.mem_cons.1 hd' with rfl | hd'
        · exact hnd
        · exact g1 d hd'

theorem searchLocs_describes {lines : List Str} {warned b : Bool} {md : J} (h : searchLocs w url lines warned = .ok (some md, b)) :
    Describes md url := by
  induction lines generalizing warned with
  | nil => cases h
  | cons line r ih =>
    unfold searchLocs at h
    split at h
    · cases h
    · exact ih h
    · split at h
      · cases h
      · rename_i hd
        cases h
        exact describes_true hd
      · exact ih h

/-- **C56.** Metadata which do not describe the data are never used for a URL, whatever the servers answer. -/
theorem C56_sound {f : Found} (hu : isUrl url = true) (h : locateMetadata w url = .ok f) :
    f.md = urlOnly url ∨ Describes f.md url := by
  have hmin : minimal w url = urlOnly url := if_pos hu
  have key : ∀ nh wn, fromLocations w url nh wn = .ok f → f.md = urlOnly url ∨ Describes f.md url := by
    intro nh wn h
    unfold fromLocations at h
    split at h
    · cases h
    · split at h
      · cases h
      · rename_i hs; cases h; exact .inr (searchLocs_describes hs)
      · cases h; exact .inl hmin
  unfold locateMetadata at h
  rw [if_pos hu] at h
  unfold locateUrl at h
  split at h
  · cases h
  · split at h
    · cases h
    · exact key _ _ h
    · split at h
      · cases h
      · rename_i hd; cases h; exact .inr (describes_true hd)
      · exact key _ _ h

/-- **C56.** Linked metadata which describe the data are used, whatever else there is. -/
theorem C56_link {noHeader : Bool} {u ty : Str} {md : J} (hu : isUrl url = true) (hh : w.head url = .ok (noHeader, some (u, some ty)))
    (ht : ty ∈ ["application/csvm+json".toList, "application/ld+json".toList, "application/json".toList])
    (hj : w.getJson (w.resolve u url) = .ok md) (hr : Regular md) (hd : Describes md url) :
    locateMetadata w url = .ok ⟨md, noHeader, false⟩ := by
  obtain ⟨b, hb, hiff⟩ := describes_regular (url := url) hr
  rw [hiff.2 hd] at hb
  unfold locateMetadata
  rw [if_pos hu]
  unfold locateUrl
  rw [hh]
  simp only
  rw [linked_eq (.json ht hj)]
  simp only
  rw [hb]

/-- **C56.** For a local file, the file with `-metadata.json` appended to the name is used, if it exists; otherwise the minimal
description. -/
theorem C56_file (hu : isUrl url = false) (hne : url ≠ []) :
    (w.exists_ (url ++ "-metadata.json".toList) = true → ∀ md, w.getJson (url ++ "-metadata.json".toList) = .ok md →
      locateMetadata w url = .ok ⟨md, false, false⟩) ∧
    (w.exists_ (url ++ "-metadata.json".toList) = false →
      locateMetadata w url = .ok ⟨.obj [("@context".toList, .str "http://www.w3.org/ns/csvw".toList),
        ("url".toList, .str (w.path url).2), ("@base".toList, .str (w.path url).1)], false, false⟩) := by
  have h0 : locateMetadata w url = locateFile w url := by
    unfold locateMetadata
    rw [if_neg (by rw [hu]; simp)]
  rw [h0]
  unfold locateFile minimal
  constructor
  · intro he md hm
    rw [if_pos ⟨hne, he⟩, hm]
    rfl
  · intro he
    rw [if_neg (by rw [he]; simp), if_neg (by rw [hu]; simp)]

/-! ## Examples and violations -/

/-- A description of one table. -/
def descr1 (u : String) : J := .obj [("url".toList, .str u.toList)]

/-- A web with metadata at the first default location which do not describe the data, and such which do at the second. -/
def exampleWorld : World where
  head := fun _ => .ok (true, some ("m.html".toList, some "text/html".toList))
  getJson := fun _ => .error .osError
  text := fun _ => .ok none
  fetch := fun u => if u = "{+url}-metadata.json".toList then .ok (some (some (descr1 "http://x.org/other.csv")))
    else .ok (some (some (.obj [("tables".toList, .arr [descr1 "u.csv", descr1 "http://y.org/d/t.csv"])])))
  resolve := fun s _ => s
  expand := fun l _ => .ok l
  exists_ := fun _ => true
  path := fun p => (p, p)

example : locateMetadata exampleWorld "http://x.org/t.csv".toList =
    .ok ⟨.obj [("tables".toList, .arr [descr1 "u.csv", descr1 "http://y.org/d/t.csv"])], true, true⟩ := by decide +kernel

/-- The hypotheses of `C56_url` hold in the example. -/
example : (∃ before md after, [descr1 "http://x.org/other.csv",
      .obj [("tables".toList, .arr [descr1 "u.csv", descr1 "http://y.org/d/t.csv"])]] = before ++ md :: after ∧
      Describes md "http://x.org/t.csv".toList ∧ (∀ d ∈ before, ¬ Describes d "http://x.org/t.csv".toList) ∧
      locateMetadata exampleWorld "http://x.org/t.csv".toList = .ok ⟨md, true, decide (before ≠ [])⟩) ∨ ((∀ md ∈ [descr1 "http://x.org/other.csv", .obj [("tables".toList, .arr [descr1 "u.csv", descr1 "http://y.org/d/t.csv"])]],
        ¬ Describes md "http://x.org/t.csv".toList) ∧
      locateMetadata exampleWorld "http://x.org/t.csv".toList = .ok ⟨urlOnly "http://x.org/t.csv".toList, true, true⟩) :=
  C56_url (w := exampleWorld) (url := "http://x.org/t.csv".toList) (noHeader := true) (lk := none)
    (lines := ["{+url}-metadata.json".toList, "csv-metadata.json".toList])
    (docs := [some (descr1 "http://x.org/other.csv"),
      some (.obj [("tables".toList, .arr [descr1 "u.csv", descr1 "http://y.org/d/t.csv"])])])
    (by decide) rfl (.other (by decide)) ⟨none, rfl, rfl⟩
    (.cons ⟨_, _, rfl, rfl, rfl⟩ (.cons ⟨_, _, rfl, rfl, rfl⟩ .nil))
    (by
      intro md hm
      simp only [Option.toList_none, List.nil_append, List.filterMap_cons, id_eq, List.filterMap_nil, List.mem_cons,
        List.not_mem_nil, or_false] at hm
      rcases hm with rfl | rfl
      · exact ⟨_, rfl, .inl ⟨by decide, _, _, rfl, rfl⟩⟩
      · refine ⟨_, rfl, .inr ⟨_, rfl, ?_⟩⟩
        intro t ht
        simp only [List.mem_cons, List.not_mem_nil, or_false] at ht
        rcases ht with rfl | rfl <;> exact ⟨_, _, rfl, rfl⟩)

/-- **C56 is violated for local files**: the metadata file is used even if it describes another data file. -/
theorem C56_violated_file : ∃ w : World, ∃ md, locateMetadata w "d/t.csv".toList = .ok ⟨md, false, false⟩ ∧
    ¬ Describes md "d/t.csv".toList := by
  refine ⟨{ exampleWorld with getJson := fun _ => .ok (descr1 "other.csv") }, descr1 "other.csv", by decide +kernel, ?_⟩
  intro h
  obtain ⟨b, hb, hiff⟩ := describes_regular (md := descr1 "other.csv") (url := "d/t.csv".toList)
    ⟨_, rfl, .inl ⟨by decide, _, _, rfl, rfl⟩⟩
  rw [hiff.2 h] at hb
  revert hb
  decide +kernel

/-- **C56 is violated** if the linked document is no JSON or the link has no type: instead of looking at the other locations,
where describing metadata are available, an exception is raised. -/
theorem C56_violated_link : ∃ w w' : World,
    w.head "http://x.org/t.csv".toList = .ok (false, some ("m".toList, none)) ∧
    w'.head "http://x.org/t.csv".toList = .ok (false, some ("m".toList, some "application/json".toList)) ∧
    (∀ u, w.fetch u = .ok (some (some (descr1 "t.csv"))) ∧ w'.fetch u = .ok (some (some (descr1 "t.csv")))) ∧
    Describes (descr1 "t.csv") "http://x.org/t.csv".toList ∧
    locateMetadata w "http://x.org/t.csv".toList = .error .keyError ∧
    locateMetadata w' "http://x.org/t.csv".toList = .error .valueError := by
  refine ⟨{ exampleWorld with
      head := fun _ => .ok (false, some ("m".toList, none)), fetch := fun _ => .ok (some (some (descr1 "t.csv"))) },
    { exampleWorld with
      head := fun _ => .ok (false, some ("m".toList, some "application/json".toList)),
      getJson := fun _ => .error .valueError,
      fetch := fun _ => .ok (some (some (descr1 "t.csv"))) }, rfl, rfl, fun _ => ⟨rfl, rfl⟩, ?_, by decide +kernel, by decide +kernel⟩
  exact describes_true (by decide +kernel)

/-- **C56 is violated** if a location answers with JSON which is no object: an exception is raised, although describing metadata
are available at a later location. -/
theorem C56_violated_json : ∃ w : World,
    w.fetch "{+url}-metadata.json".toList = .ok (some (some (.arr []))) ∧
    w.fetch "csv-metadata.json".toList = .ok (some (some (descr1 "t.csv"))) ∧
    Describes (descr1 "t.csv") "http://x.org/t.csv".toList ∧
    locateMetadata w "http://x.org/t.csv".toList = .error .attributeError := by
  refine ⟨{ exampleWorld with
      fetch := fun u => if u = "{+url}-metadata.json".toList then .ok (some (some (.arr []))) else .ok (some (some (descr1 "t.csv"))) },
      by decide +kernel, by decide +kernel, describes_true (by decide +kernel), by decide +kernel⟩

end Csvw.Props

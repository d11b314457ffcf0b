import Verif.Spec.Templates
import Verif.Props.C65
import Verif.Props.C51
/-!
# C73: URI templates in JSON output
-/

namespace Csvw.Props
open Csvw.JsonLd Csvw.ToJson Csvw.Spec Csvw.Spec.ToJson

section
variable {e : Env} {t : Table} {nm : Bool} {row : RowDict} {n : Nat}

theorem says_iff {p : Prp} {ds : List Descr} {w : PVal} : Says p ds w ↔ w = inherit p ds := by
  induction ds with
  | nil => simp [Says, inherit]
  | cons d r ih =>
    by_cases hd : d.get p = .json .null
    · have h1 : inherit p (d :: r) = inherit p r := by
        cases r with
        | nil => simp [inherit, hd]
        | cons d' r' => simp [inherit, hd]
      rw [h1, ← ih]
      unfold Says
      constructor
      · rintro (⟨pre, d1, post, he, hpre, h2, h3⟩ | ⟨h2, h3⟩)
        · cases pre with
          | nil => cases he; exact absurd (h2.symm.trans hd) h3
          | cons a pre =>
            cases he
            exact .inl ⟨pre, d1, post, rfl, fun d' h' => hpre d' (List.mem_cons_of_mem _ h'), h2, h3⟩
        · exact .inr ⟨fun d' h' => h2 d' (List.mem_cons_of_mem _ h'), h3⟩
      · rintro (⟨pre, d1, post, he, hpre, h2, h3⟩ | ⟨h2, h3⟩)
        · refine .inl ⟨d :: pre, d1, post, by rw [he]; rfl, ?_, h2, h3⟩
          intro d' h'
          rcases List.mem_cons.1 h' with rfl | h'
          · exact hd
          · exact hpre d' h'
        · refine .inr ⟨?_, h3⟩
          intro d' h'
          rcases List.mem_cons.1 h' with rfl | h'
          · exact hd
          · exact h2 d' h'
    · have h1 : inherit p (d :: r) = d.get p := by
        cases r with
        | nil => simp [inherit]
        | cons d' r' => simp [inherit, hd]
      rw [h1]
      unfold Says
      constructor
      · rintro (⟨pre, d1, post, he, hpre, h2, h3⟩ | ⟨h2, h3⟩)
        · cases pre with
          | nil => cases he; exact h2.symm
          | cons a pre => cases he; exact absurd (hpre _ (List.mem_cons_self ..)) hd
        · exact absurd (h2 d (List.mem_cons_self ..)) hd
      · rintro rfl
        exact .inl ⟨[], d, r, rfl, by simp, rfl, hd⟩

theorem expand_iff {w : PVal} {name : Option Str} {q : Bool} {s : Option Str} :
    ToJson.expand e t w row n name q = .ok s ↔ Expands e t row n name q w s := by
  unfold ToJson.expand
  constructor
  · intro h
    split at h
    · cases h; exact .none
    · obtain ⟨s', h1, rfl⟩ := Except.map_eq_ok.1 h
      exact .some h1
    · obtain ⟨s', h1, rfl⟩ := Except.map_eq_ok.1 h
      exact .invalid h1
    · cases h
  · intro h
    cases h with
    | none => rfl
    | some h => simp only [h, Except.map]
    | invalid h => simp only [h, Except.map]

/-- The column is the one which is found by its header. -/
def Found (t : Table) : Option CCol → Prop
  | some c => columnOf t c.col.header = some c ∧ c.parents = t.parents
  | none => True

theorem cellUrl_eq {p : Prp} {col : Option CCol} (h : Found t col) : cellUrl t p col = inherit p (descriptions t col) := by
  cases col with
  | none => rfl
  | some c =>
    unfold cellUrl colUrl
    simp only
    rw [colsOf_get, if_pos h.1]
    unfold CCol.chain descriptions
    rw [h.2]

theorem fromCol_iff {col : Option CCol} (hf : Found t col) {name : Str} {val : CVal} {u : Triple} :
    fromCol e t col row name val n = .ok u ↔ TripleFor e t row n col name val u := by
  have ha : cellAbout col = ownAbout col := by cases col <;> rfl
  unfold fromCol
  rw [cellUrl_eq hf, cellUrl_eq hf, ha]
  constructor
  · intro h
    obtain ⟨p, hp, h1⟩ := Datatype.bind_ok h
    obtain ⟨v, hv, h2⟩ := Datatype.bind_ok h1
    obtain ⟨w, hw, h3⟩ := Datatype.bind_ok h2
    obtain ⟨s, hs, h4⟩ := Datatype.bind_ok h3
    cases h4
    refine ⟨⟨_, p, says_iff.2 rfl, expand_iff.1 hp, rfl⟩, ⟨_, v, says_iff.2 rfl, expand_iff.1 hv, ?_⟩, ⟨s, expand_iff.1 hs, ?_⟩⟩
    · rw [← hw]
      cases v <;> rfl
    · cases s with
      | none => rfl
      | some s => simp only [nonEmpty, Option.filter, Option.some.injEq]; by_cases h : s = [] <;> simp [h]
  · rintro ⟨⟨w1, p, h1, h2, h3⟩, ⟨w2, v, h4, h5, h6⟩, ⟨s, h7, h8⟩⟩
    rw [says_iff] at h1 h4
    subst h1 h4
    show ((ToJson.expand e t _ row n _ _).bind _) = _
    rw [expand_iff.2 h2]
    obtain ⟨ua, up, uv⟩ := u
    simp only at h3 h5 h6 h8
    subst h3
    show ((ToJson.expand e t _ row n _ _).bind _) = _
    rw [expand_iff.2 h5]
    show ((formatValue e.ext e.jx col _).bind _) = _
    have : ((v.map fun s => CVal.one (.str s)).getD val) = orValue v val := by cases v <;> rfl
    rw [this, h6]
    show ((ToJson.expand e t _ row n _ _).bind _) = _
    rw [expand_iff.2 h7]
    subst h8
    show Except.ok _ = Except.ok _
    congr 2
    cases s with
    | none => rfl
    | some s => simp only [nonEmpty, Option.filter, Option.some.injEq]; by_cases h : s = [] <;> simp [h]

theorem hidden_iff (heq : ∀ v s, e.eq v (.one (.str s)) = decide (v = .one (.str s))) (k : Str) (v : CVal) :
    skipped e t (Dict.get k (colsOf t)) v = true ↔ Hidden t k v := by
  rw [colsOf_get]
  unfold Hidden
  cases hc : columnOf t k with
  | none =>
    simp [skipped, Omitted, hc, nullOf, nullFor, Null, emptyList, heq]
    constructor
    · rintro ((h | h) | h)
      · exact .inr (.inr h)
      · exact .inr (.inl h)
      · exact .inl h
    · rintro (h | h | h)
      · exact .inr h
      · exact .inl (.inr h)
      · exact .inl (.inl h)
  | some c =>
    simp [skipped, Omitted, hc, nullOf, nullFor, Null, emptyList, heq]
    constructor
    · rintro (((((h | h) | h) | h) | h) | h)
      · exact .inl (.inl (.inl h))
      · exact .inr h
      · exact .inl (.inr (.inr (.inr h)))
      · exact .inl (.inr (.inr (.inl h)))
      · exact .inl (.inr (.inl h))
      · exact .inl (.inl (.inr h))
    · rintro (((h | h) | h | h | h) | h)
      · exact .inl (.inl (.inl (.inl (.inl h))))
      · exact .inr h
      · exact .inl (.inr h)
      · exact .inl (.inl (.inr h))
      · exact .inl (.inl (.inl (.inr h)))
      · exact .inl (.inl (.inl (.inl (.inr h))))

theorem found_columnOf (k : Str) : Found t (columnOf t k) := by
  cases hc : columnOf t k with
  | none => trivial
  | some c =>
    obtain ⟨h1, h2⟩ := columnOf_mem hc
    refine ⟨by rw [h2]; exact hc, ?_⟩
    unfold Table.ccols at h1
    obtain ⟨c0, -, rfl⟩ := List.mem_map.1 h1
    rfl

theorem cellTriples_iff (heq : ∀ v s, e.eq v (.one (.str s)) = decide (v = .one (.str s)))
    (shown : (Str × CVal) × Nat → Bool) (hs : ∀ k v i, shown ((k, v), i) = true ↔ ¬ Hidden t k v) :
    ∀ (items : RowDict) (i : Nat) (us : List Triple), cellTriples e t nm row n i items = .ok us ↔
      All2 (fun p u => TripleFor e t row n (columnOf t p.1.1) (cellName t nm p.2 p.1.1) p.1.2 u) ((items.zipIdx i).filter shown) us
  | [], i, us => by
    constructor
    · intro h; cases h; exact .nil
    · intro h; cases h; rfl
  | (k, v) :: r, i, us => by
    have hp : propName t nm i k = cellName t nm i k := by
      unfold propName cellName
      cases nm <;> simp [colNumber, natText]
    unfold cellTriples
    rw [List.zipIdx_cons]
    by_cases hk : skipped e t (Dict.get k (colsOf t)) v = true
    · rw [if_pos hk, List.filter_cons_of_neg (by rw [hs]; exact fun h => h ((hidden_iff heq k v).1 hk))]
      exact cellTriples_iff heq shown hs r (i + 1) us
    · rw [if_neg hk, List.filter_cons_of_pos ((hs k v i).2 fun h => hk ((hidden_iff heq k v).2 h)), hp, colsOf_get]
      constructor
      · intro h
        obtain ⟨a, ha, h'⟩ := Datatype.bind_ok h
        obtain ⟨as, has, h''⟩ := Datatype.bind_ok h'
        cases h''
        exact .cons ((fromCol_iff (found_columnOf k)).1 ha) ((cellTriples_iff heq shown hs r (i + 1) as).1 has)
      · intro h
        cases h with
        | cons h1 h2 =>
          rw [(fromCol_iff (found_columnOf k)).2 h1]
          show (cellTriples e t nm row n (i + 1) r).bind _ = _
          rw [(cellTriples_iff heq shown hs r (i + 1) _).2 h2]
          rfl

theorem virtualTriples_iff : ∀ (cs : List CCol) (us : List Triple), (∀ c ∈ cs, Found t (some c)) →
    (virtualTriples e t row n cs = .ok us ↔
      All2 (fun col u => TripleFor e t row n (some col) col.col.header (.one .none) u) (cs.filter fun c => c.col.virtual) us)
  | [], us, _ => by
    constructor
    · intro h; cases h; exact .nil
    · intro h; cases h; rfl
  | c :: r, us, hf => by
    have hr := fun us => virtualTriples_iff r us fun c' h' => hf c' (List.mem_cons_of_mem _ h')
    unfold virtualTriples
    cases hv : c.col.virtual with
    | false =>
      rw [List.filter_cons_of_neg (by simp [hv])]
      simpa using hr us
    | true =>
      rw [List.filter_cons_of_pos (by simp [hv])]
      simp only [if_true]
      constructor
      · intro h
        obtain ⟨a, ha, h'⟩ := Datatype.bind_ok h
        obtain ⟨as, has, h''⟩ := Datatype.bind_ok h'
        cases h''
        exact .cons ((fromCol_iff (hf c (List.mem_cons_self ..))).1 ha) ((hr as).1 has)
      · intro h
        cases h with
        | cons h1 h2 =>
          rw [(fromCol_iff (hf c (List.mem_cons_self ..))).2 h1]
          show (virtualTriples e t row n r).bind _ = _
          rw [(hr _).2 h2]
          rfl

theorem found_ccols (hn : (t.schema.columns.map Column.header).Nodup) {c : CCol} (hc : c ∈ t.ccols) : Found t (some c) := by
  unfold Table.ccols at hc
  obtain ⟨c0, h0, rfl⟩ := List.mem_map.1 hc
  refine ⟨?_, rfl⟩
  unfold columnOf Table.ccols
  have : ∀ l : List Column, (l.map Column.header).Nodup → c0 ∈ l →
      (l.map fun c => (⟨c, t.parents⟩ : CCol)).find? (fun c => decide (c.col.header = c0.header)) = some ⟨c0, t.parents⟩ := by
    intro l
    induction l with
    | nil => simp
    | cons a r ih =>
      intro hn hm
      rw [List.map_cons, List.nodup_cons] at hn
      rw [List.map_cons, List.find?_cons]
      rcases List.mem_cons.1 hm with rfl | hm
      · simp
      · have : a.header ≠ c0.header := fun he => hn.1 (by rw [he]; exact List.mem_map_of_mem hm)
        simp only [this, decide_false]
        exact ih hn.2 hm
  rw [← List.map_reverse]
  refine this _ ?_ (by simpa using h0)
  rw [List.map_reverse]
  rw [List.Nodup, List.pairwise_reverse]
  exact hn.imp fun h => h.symm

/-- **C73**: the objects for a row are made from these triples: the subject of the row by its `aboutUrl`; one for each cell which is shown and
one for each virtual column, with the templates of the column or its ancestors. -/
theorem C73_triples (heq : ∀ v s, e.eq v (.one (.str s)) = decide (v = .one (.str s))) (hn : (t.schema.columns.map Column.header).Nodup)
    (os : List (List (Str × Out))) :
    describes e t nm row n = .ok os ↔ ∃ us, TriplesFor e t nm row n us ∧ groupTriples e.jx us = .ok os := by
  have hvirt := fun us => virtualTriples_iff (e := e) (row := row) (n := n) t.ccols us fun c hc => found_ccols hn hc
  have hrow : ∀ us, rowTriples e t row n = .ok us ↔ RowSubject e t row n us := by
    intro us
    unfold rowTriples RowSubject
    constructor
    · intro h
      obtain ⟨s, hs, h'⟩ := Datatype.bind_ok h
      cases h'
      refine ⟨_, s, says_iff.2 rfl, expand_iff.1 hs, ?_⟩
      cases s <;> rfl
    · rintro ⟨w, s, h1, h2, rfl⟩
      rw [says_iff] at h1
      subst h1
      show (ToJson.expand e t _ row n none false).bind _ = _
      rw [expand_iff.2 h2]
      cases s <;> rfl
  unfold describes
  constructor
  · intro h
    obtain ⟨a, ha, h1⟩ := Datatype.bind_ok h
    obtain ⟨b, hb, h2⟩ := Datatype.bind_ok h1
    obtain ⟨c, hc, h3⟩ := Datatype.bind_ok h2
    refine ⟨a ++ b ++ c, ⟨a, b, c, rfl, (hrow a).1 ha, ?_, (hvirt c).1 hc⟩, by rw [List.append_assoc]; exact h3⟩
    intro shown hs
    exact (cellTriples_iff heq shown hs row 1 b).1 hb
  · rintro ⟨us, ⟨a, b, c, rfl, h1, h2, h3⟩, h4⟩
    classical
    have hb := (cellTriples_iff (e := e) (nm := nm) (row := row) (n := n) heq (fun p => decide (¬ Hidden t p.1.1 p.1.2)) (by simp) row 1 b).2
      (h2 _ (by simp))
    show (rowTriples e t row n).bind _ = _
    rw [(hrow a).2 h1]
    show (cellTriples e t nm row n 1 row).bind _ = _
    rw [hb]
    show (virtualTriples e t row n t.ccols).bind _ = _
    rw [(hvirt c).2 h3]
    show groupTriples e.jx _ = _
    rw [← List.append_assoc]
    exact h4

end

section
variable {jx : JExt}

theorem merge_single {acc ts : List Triple} (h : ∀ t ∈ ts, isList t.value = false) : merge acc ts = acc ++ ts := by
  induction ts generalizing acc with
  | nil => simp [merge]
  | cons t r ih =>
    unfold merge
    rw [if_neg (by simp [h t (List.mem_cons_self ..)]), ih fun t' h' => h t' (List.mem_cons_of_mem _ h')]
    simp

theorem top_iff (u : Triple) : top u = decide (AboutRow u) := by
  unfold top AboutRow
  by_cases h1 : u.about = none <;> by_cases h2 : u.about = some [] <;> simp [h1, h2]

theorem foldl_addTop {us : List (Triple × Val)} (hv : ∀ u ∈ us, u.1.value = .one u.2) (hp : ∀ u ∈ us, u.1.property ≠ "@id".toList)
    (g : List (Str × PropVal)) (hn : (Dict.keys g ++ us.map fun u => u.1.property).Nodup) :
    (us.map Prod.fst).foldl addTop g = g ++ us.map fun u => (u.1.property, .one u.2) := by
  induction us generalizing g with
  | nil => simp
  | cons u r ih =>
    rw [List.map_cons, List.foldl_cons]
    have hg : u.1.property ∉ Dict.keys g := by
      rw [List.map_cons, List.nodup_append] at hn
      exact fun h => hn.2.2 _ h _ (List.mem_cons_self ..) rfl
    have h1 : addTop g u.1 = g ++ [(u.1.property, .one u.2)] := by
      unfold addTop addValue
      rw [if_neg (by rw [Bool.and_eq_true, decide_eq_true_eq, decide_eq_true_eq]; exact fun h => hp u (List.mem_cons_self ..) h.2), (Dict.get_eq_none_iff _ _).2 hg, hv u (List.mem_cons_self ..)]
      simp only [PropVal.of]
      exact Dict.set_eq_append_of_not_mem hg
    rw [h1, ih (fun u' h' => hv u' (List.mem_cons_of_mem _ h')) (fun u' h' => hp u' (List.mem_cons_of_mem _ h')), List.append_assoc]
    · rfl
    · simpa [Dict.keys] using hn

theorem simplifyAll_ok {ms res : List (List (Str × J))} (h : simplifyAll ms = .ok res) :
    All2 (fun m r => JsonLd.toJson true (.obj m) = .ok (.obj r)) ms res := by
  induction ms generalizing res with
  | nil => cases h; exact .nil
  | cons m r ih =>
    unfold simplifyAll at h
    cases hm : JsonLd.toJson true (.obj m) with
    | error e => rw [hm] at h; cases h
    | ok j =>
      rw [hm] at h
      cases j with
      | obj m' =>
        simp only at h
        obtain ⟨r', hr, rfl⟩ := Except.map_eq_ok.1 h
        exact .cons hm (ih hr)
      | _ =>
        simp only at h
        cases hs : simplifyAll r with
        | error e => rw [hs] at h; cases h
        | ok x => rw [hs] at h; cases h

theorem nodeOf_eq (v : Val) : nodeOf (.one v) = rdfObject v := by
  cases v with
  | str s =>
    unfold nodeOf rdfObject isUrl
    simp only [List.isPrefixOf_iff_prefix, Bool.or_eq_true]
  | _ => rfl

theorem get_foldl_set {d : List (Str × Out)} {m : List (Str × J)} (k : Str) :
    Dict.get k ((outJson m).foldl (fun d p => Dict.set p.1 p.2 d) d) =
      match Dict.get k m.reverse with
      | some j => some (.json j)
      | none => Dict.get k d := by
  induction m generalizing d with
  | nil => rfl
  | cons p r ih =>
    show Dict.get k ((outJson r).foldl _ (Dict.set p.1 (.json p.2) d)) = _
    rw [ih, List.reverse_cons, Dict.get_append]
    cases Dict.get k r.reverse with
    | some j => rfl
    | none =>
      obtain ⟨a, b⟩ := p
      simp only [Option.none_or]
      by_cases h : k = a
      · subst h
        rw [Dict.get_set_self]
        simp [Dict.get]
      · rw [Dict.get_set, if_neg (by first | exact h | exact Ne.symm h)]
        simp [Dict.get, Ne.symm h]

/-- **C73**: if there are cells with a subject of their own, the graph contains their triples, and those about the row, if it has a subject; and
the output is the framed and simplified objects of the graph, with the one of the row first; if the row has no subject and there is just one
object, this is merged with the properties of the row. -/
theorem C73_graph {id : Option Str} {us : List (Triple × Val)} (hv : ∀ u ∈ us, u.1.value = .one u.2)
    (hp : ∀ u ∈ us, AboutRow u.1 → u.1.property ≠ "@id".toList)
    (hn : ((us.filter fun u => AboutRow u.1).map fun u => u.1.property).Nodup) (hex : ∃ u ∈ us, ¬ AboutRow u.1)
    {os : List (List (Str × Out))}
    (h : groupTriples jx ((id.toList.map fun i => { about := none, property := "@id".toList, value := .one (.str i) }) ++ us.map Prod.fst) = .ok os) :
    ∃ data objects, jx.graph (rdfTriples id us) = .ok data ∧
      All2 (fun m r => JsonLd.toJson true (.obj m) = .ok (.obj r)) (frame data) objects ∧
      Arranged id ((us.filter fun u => AboutRow u.1).map fun u => (u.1.property, u.2)) objects os := by
  have hmerge : merge [] ((id.toList.map fun i => { about := none, property := "@id".toList, value := .one (.str i) }) ++ us.map Prod.fst) =
      (id.toList.map fun i => { about := none, property := "@id".toList, value := .one (.str i) }) ++ us.map Prod.fst := by
    rw [merge_single]
    · rfl
    · intro t ht
      rcases List.mem_append.1 ht with ht | ht
      · obtain ⟨i, -, rfl⟩ := List.mem_map.1 ht
        rfl
      · obtain ⟨u, hu, rfl⟩ := List.mem_map.1 ht
        rw [hv u hu]
        rfl
  have hfil : ∀ p : Triple → Bool, (us.map Prod.fst).filter p = (us.filter fun u => p u.1).map Prod.fst := by
    intro p
    rw [List.filter_map]
    rfl
  have hfoth : (us.filter fun u : Triple × Val => !top u.1) = us.filter fun u => ¬ AboutRow u.1 :=
    List.filter_congr fun u _ => by rw [top_iff]; simp
  have hftop : (us.filter fun u : Triple × Val => top u.1) = us.filter fun u => AboutRow u.1 :=
    List.filter_congr fun u _ => top_iff u.1
  have hothers : others ((id.toList.map fun i => { about := none, property := "@id".toList, value := .one (.str i) }) ++ us.map Prod.fst) =
      (us.filter fun u => ¬ AboutRow u.1).map Prod.fst := by
    unfold others
    rw [hmerge, List.filter_append, hfil, hfoth]
    have : (id.toList.map fun i => ({ about := none, property := "@id".toList, value := .one (.str i) } : Triple)).filter (fun t => !top t) = [] := by
      rw [List.filter_eq_nil_iff]
      intro t ht
      obtain ⟨i, -, rfl⟩ := List.mem_map.1 ht
      simp [top]
    rw [this, List.nil_append]
  generalize hown : (us.filter fun u => AboutRow u.1) = own at *
  have hownv : ∀ u ∈ own, u.1.value = .one u.2 := by
    rw [← hown]
    exact fun u hu => hv u (List.mem_filter.1 hu).1
  have hownp : ∀ u ∈ own, u.1.property ≠ "@id".toList := by
    rw [← hown]
    exact fun u hu => hp u (List.mem_filter.1 hu).1 (by simpa using (List.mem_filter.1 hu).2)
  have hgrouped : grouped ((id.toList.map fun i => { about := none, property := "@id".toList, value := .one (.str i) }) ++ us.map Prod.fst) =
      (id.toList.map fun i => ("@id".toList, .one (.str i))) ++ own.map fun u => (u.1.property, .one u.2) := by
    unfold grouped
    rw [hmerge, List.filter_append, hfil, hftop, List.foldl_append]
    have : (id.toList.map fun i => ({ about := none, property := "@id".toList, value := .one (.str i) } : Triple)).filter top =
        (id.toList.map fun i => ({ about := none, property := "@id".toList, value := .one (.str i) } : Triple)) := by
      rw [List.filter_eq_self]
      intro t ht
      obtain ⟨i, -, rfl⟩ := List.mem_map.1 ht
      rfl
    rw [this]
    have : (id.toList.map fun i => ({ about := none, property := "@id".toList, value := .one (.str i) } : Triple)).foldl addTop [] =
        id.toList.map fun i => ("@id".toList, .one (.str i)) := by
      cases id <;> rfl
    rw [this]
    refine foldl_addTop hownv hownp _ ?_
    cases id with
    | none => simpa [Dict.keys] using hn
    | some i =>
      refine List.nodup_cons.2 ⟨?_, hn⟩
      intro hmem
      obtain ⟨u, hu, he⟩ := List.mem_map.1 hmem
      exact hownp u hu he
  unfold groupTriples at h
  rw [hothers, hgrouped] at h
  rw [if_neg] at h
  · cases hd : jx.graph (graphTriples ((id.toList.map fun i => ("@id".toList, PropVal.one (.str i))) ++
        own.map fun u => (u.1.property, PropVal.one u.2)) ((us.filter fun u => ¬ AboutRow u.1).map Prod.fst)) with
    | error e => rw [hd] at h; cases h
    | ok data =>
      rw [hd] at h
      simp only at h
      obtain ⟨objects, hobj, rfl⟩ := Except.map_eq_ok.1 h
      have hid : Dict.get "@id".toList ((id.toList.map fun i => ("@id".toList, PropVal.one (.str i))) ++
          own.map fun u => (u.1.property, PropVal.one u.2)) = id.map fun i => .one (.str i) := by
        cases id with
        | some i => rfl
        | none =>
          refine (Dict.get_eq_none_iff _ _).2 ?_
          intro hmem
          obtain ⟨q, hq, he⟩ := List.mem_map.1 hmem
          obtain ⟨u, hu, rfl⟩ := List.mem_map.1 hq
          exact hownp u hu he
      have hgraph : graphTriples ((id.toList.map fun i => ("@id".toList, PropVal.one (.str i))) ++
          own.map fun u => (u.1.property, PropVal.one u.2)) ((us.filter fun u => ¬ AboutRow u.1).map Prod.fst) = rdfTriples id us := by
        unfold graphTriples rdfTriples
        rw [hid, hown]
        congr 1
        · rw [List.map_map]
          refine List.map_congr_left fun u hu => ?_
          simp only [Function.comp_apply, hv u (List.mem_filter.1 hu).1, PropVal.of, nodeOf_eq]
        · cases id with
          | none => rfl
          | some i =>
            simp only [Option.map_some, Option.toList_some, List.map_cons, List.map_nil]
            rw [List.filter_append, List.filter_cons_of_neg (by simp), List.filter_nil, List.nil_append,
              List.filter_eq_self.2, List.map_map]
            · refine List.map_congr_left fun u hu => ?_
              simp only [Function.comp_apply, nodeOf_eq]
            · intro q hq
              obtain ⟨u, hu, rfl⟩ := List.mem_map.1 hq
              simpa using hownp u hu
      rw [hgraph] at hd
      refine ⟨data, objects, hd, simplifyAll_ok hobj, ?_, ?_, ?_⟩
      · rintro i rfl
        have hrow : isRow ((Option.toList (some i)).map (fun i => ("@id".toList, PropVal.one (.str i))) ++
            own.map fun u => (u.1.property, PropVal.one u.2)) = hasId i := by
          funext m
          unfold isRow hasId
          rw [hid]
          simp only [Option.map_some]
          cases hm : Dict.get "@id".toList m with
          | none => simp
          | some j => cases j <;> simp [eq_comm]
        have hhas : Dict.has "@id".toList ((Option.toList (some i)).map (fun i => ("@id".toList, PropVal.one (.str i))) ++
            own.map fun u => (u.1.property, PropVal.one u.2)) = true := by simp [Dict.has]
        unfold finish
        rw [hrow, hhas]
        split
        · rename_i m hm
          rw [if_neg (by simp), hm]
          rfl
        · rfl
      · rintro rfl hne m rfl
        have hhas : Dict.has "@id".toList ((Option.toList none).map (fun i => ("@id".toList, PropVal.one (.str i))) ++
            own.map fun u => (u.1.property, PropVal.one u.2)) = false := by
          rw [Bool.eq_false_iff]
          intro hh
          have := (Dict.get_eq_none_iff _ _).1 hid
          exact this ((Dict.has_iff_mem_keys _ _).1 hh)
        unfold finish
        have hone : ∀ p : List (Str × J) → Bool, [m].filter p ++ [m].filter (fun m => !p m) = [m] := by
          intro p
          cases hpm : p m <;> simp [hpm]
        rw [hone, hhas]
        simp only
        rw [if_pos ⟨by simpa using hne, trivial⟩]
        refine ⟨_, rfl, ?_⟩
        intro k
        rw [get_foldl_set]
        cases Dict.get k m.reverse with
        | some j => rfl
        | none =>
          simp only [Option.toList_none, List.map_nil, List.nil_append]
          unfold outGroup
          rw [List.map_map]
          have : ∀ l : List (Triple × Val), Dict.get k (l.map ((fun p : Str × PropVal => (p.1, Out.prop p.2)) ∘ fun u => (u.1.property, PropVal.one u.2))) =
              (Dict.get k (l.map fun u => (u.1.property, u.2))).map fun v => .prop (.one v) := by
            intro l
            induction l with
            | nil => rfl
            | cons a r ih =>
              simp only [List.map_cons, Dict.get, Function.comp_apply]
              by_cases hk : a.1.property = k
              · simp [hk]
              · simp only [hk, if_false]
                exact ih
          exact this own
      · rintro rfl hor
        have hperm : ∀ p : List (Str × J) → Bool, (objects.filter p ++ objects.filter (fun m => !p m)).Perm objects :=
          fun p => List.filter_append_perm p objects
        unfold finish
        split
        · rename_i m hm
          have hlen := (hperm (isRow ((Option.toList none).map (fun i => ("@id".toList, PropVal.one (.str i))) ++
              own.map fun u => (u.1.property, PropVal.one u.2)))).length_eq
          rw [hm] at hlen
          rw [if_neg]
          · have := (hperm (isRow ((Option.toList none).map (fun i => ("@id".toList, PropVal.one (.str i))) ++
              own.map fun u => (u.1.property, PropVal.one u.2)))).map asOut
            rw [hm] at this
            exact this
          · rintro ⟨h1, -⟩
            rcases hor with hor | hor
            · exact h1 (by simpa using hor)
            · exact hor (by simpa using hlen.symm)
        · exact (hperm _).map asOut
  · obtain ⟨u, hu, hnot⟩ := hex
    intro hnil
    have : u.1 ∈ (us.filter fun u => ¬ AboutRow u.1).map Prod.fst := List.mem_map.2 ⟨u, List.mem_filter.2 ⟨hu, by simpa using hnot⟩, rfl⟩
    rw [hnil] at this
    simp at this

/-- **Defect**: if a row has no subject and there are several objects, the properties of the row are lost: here the property `p`, in a graph with
two other subjects. -/
theorem C73_lost_violated (hg : jx.graph [("http://a".toList, ['q'], .lit (.one (.int 1))), ("http://b".toList, ['q'], .lit (.one (.int 2)))] =
      .ok [[("@id".toList, .str "http://a".toList), (['q'], .arr [.obj [("@value".toList, .str ['1'])]])],
           [("@id".toList, .str "http://b".toList), (['q'], .arr [.obj [("@value".toList, .str ['2'])]])]]) :
    groupTriples jx [⟨none, ['p'], .one (.str ['x'])⟩, ⟨some "http://a".toList, ['q'], .one (.int 1)⟩,
        ⟨some "http://b".toList, ['q'], .one (.int 2)⟩] =
      .ok [[("@id".toList, .json (.str "http://a".toList)), (['q'], .json (.str ['1']))],
           [("@id".toList, .json (.str "http://b".toList)), (['q'], .json (.str ['2']))]] := by
  show (match jx.graph [("http://a".toList, ['q'], .lit (.one (.int 1))), ("http://b".toList, ['q'], .lit (.one (.int 2)))] with
    | .error e => Except.error e
    | .ok data => (simplifyAll (frame data)).map (finish [(['p'], .one (.str ['x']))])) = _
  rw [hg]
  have h1 : ∀ d, d = [[("@id".toList, .str "http://a".toList), (['q'], .arr [.obj [("@value".toList, .str ['1'])]])],
           [("@id".toList, .str "http://b".toList), (['q'], .arr [.obj [("@value".toList, .str ['2'])]])]] → simplifyAll (frame d) =
           .ok [[("@id".toList, .str "http://a".toList), (['q'], .str ['1'])], [("@id".toList, .str "http://b".toList), (['q'], .str ['2'])]] := by
    rintro d rfl
    have : frame [[("@id".toList, .str "http://a".toList), (['q'], .arr [.obj [("@value".toList, .str ['1'])]])],
           [("@id".toList, .str "http://b".toList), (['q'], .arr [.obj [("@value".toList, .str ['2'])]])]] =
        [[("@id".toList, .str "http://a".toList), (['q'], .arr [.obj [("@value".toList, .str ['1'])]])],
           [("@id".toList, .str "http://b".toList), (['q'], .arr [.obj [("@value".toList, .str ['2'])]])]] := by decide +kernel
    rw [this]
    rfl
  simp only [h1 _ rfl]
  rfl

/-- The same row with a subject: the first object has the property. The hypotheses of `C73_graph` are met. -/
theorem C73_example : ∃ us : List (Triple × Val), (∀ u ∈ us, u.1.value = .one u.2) ∧ (∀ u ∈ us, AboutRow u.1 → u.1.property ≠ "@id".toList) ∧
    ((us.filter fun u => AboutRow u.1).map fun u => u.1.property).Nodup ∧ (∃ u ∈ us, ¬ AboutRow u.1) ∧
    rdfTriples (some "http://r".toList) us =
      [("http://a".toList, ['q'], .lit (.one (.int 1))), ("http://r".toList, ['p'], .uri "http://x".toList)] :=
  ⟨[(⟨none, ['p'], .one (.str "http://x".toList)⟩, .str "http://x".toList), (⟨some "http://a".toList, ['q'], .one (.int 1)⟩, .int 1)],
    by decide, by decide, by decide, by decide, by decide⟩

end
end Csvw.Props

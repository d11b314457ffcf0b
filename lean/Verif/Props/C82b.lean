import Verif.Props.C82
/-!
# C82: links, rows and properties in the documentation; defects
-/

namespace Csvw.Props
open Csvw Spec Markdown

section
variable {ext : Ext} {m : MdExt} {d : Disk} {linkFiles : Bool}

/-! ## Parts of texts -/

theorem join_sep (sep : Str) : ∀ {l : List Str}, l ≠ [] → Py.join sep l ++ sep = l.flatMap (· ++ sep)
  | [a], _ => by simp [Py.join]
  | a :: b :: r, _ => by
    rw [Py.join_cons_cons, List.append_assoc, join_sep sep (by simp)]
    simp only [List.flatMap_cons]

theorem infix_flatMap {α : Type} {f : α → Str} {l : List α} {a : α} (h : a ∈ l) : f a <:+: l.flatMap f := by
  obtain ⟨b, c, rfl⟩ := List.append_of_mem h
  exact ⟨b.flatMap f, c.flatMap f, by simp⟩

theorem infix_join {sep : Str} : ∀ {l : List Str} {a : Str}, a ∈ l → a <:+: Py.join sep l
  | [x], a, h => by rw [List.mem_singleton.1 h]; exact List.infix_rfl
  | x :: y :: r, a, h => by
    rw [Py.join_cons_cons]
    rcases List.mem_cons.1 h with rfl | h
    · exact ⟨[], sep ++ Py.join sep (y :: r), by simp⟩
    · exact (infix_join (sep := sep) h).trans ⟨x ++ sep, [], by simp⟩

theorem infix_append_left {a b c : Str} (h : a <:+: b) : a <:+: b ++ c := h.trans ⟨[], c, by simp⟩
theorem infix_append_right {a b c : Str} (h : a <:+: b) : a <:+: c ++ b := h.trans ⟨c, [], by simp⟩

/-- A line of a section of a table is a part of the text. -/
theorem line_infix {text : Str} {head : List Str} {sections : List (List Str)} (ht : text = Py.join ['\n'] (head ++ sections.flatten))
    {lines : List Str} (hs : lines ∈ sections) {line : Str} (hl : line ∈ lines) : line <:+: text := by
  rw [ht]
  exact infix_join (List.mem_append_right _ (List.mem_flatten.2 ⟨lines, hs, hl⟩))

theorem md_all2_left {α β : Type} {R : α → β → Prop} {as : List α} {bs : List β} (h : All2 R as bs) {a : α} (ha : a ∈ as) : ∃ b ∈ bs, R a b := by
  induction h with
  | nil => cases ha
  | cons h1 _ ih =>
    rcases List.mem_cons.1 ha with rfl | ha
    · exact ⟨_, List.mem_cons_self .., h1⟩
    · obtain ⟨b, hb, hr⟩ := ih ha
      exact ⟨b, List.mem_cons_of_mem _ hb, hr⟩

/-- **C82** Links lead to a section: if a column references a column of a table of the dataset, its row has a link to an anchor, and this is
the anchor in the heading for this table. -/
theorem C82_links {g : FGroup} {text : Str} (h : metadata2markdown ext m d linkFiles g = .ok text) {t u : TableD} (ht : t ∈ g.desc.tables)
    (hu : u ∈ g.desc.tables) {c : Column} (hc : c ∈ t.like.schema.columns) {n : Str} (hn : c.name = some n) {fk : ForeignKey}
    (hk : ColumnKey t.like.schema.foreignKeys n fk) {rc : Str} {rcs : List Str} (hrc : fk.refColumns = rc :: rcs) {url : Str}
    (hr : fk.resource = some url) (hurl : u.like.url = some url) :
    ∃ a, ("References [".toList ++ url ++ "::".toList ++ rc ++ "](#".toList ++ a ++ [')']) <:+: text ∧
      ("<a name=\"".toList ++ a ++ "\"></a>Table ".toList) <:+: text := by
  obtain ⟨head, sections, -, h2, h3⟩ := C82_sections h
  refine ⟨"table-".toList ++ mdAnchor m url, ?_, ?_⟩
  · obtain ⟨lines, hl1, url', name, props, dl, dialect, rows, -, -, -, -, -, hrows, hlines⟩ := md_all2_left h2 ht
    obtain ⟨line, hl2, nc, tc, dc, -, -, ⟨desc, key, ref, -, href, -, hdc⟩, hline⟩ := md_all2_left hrows hc
    refine List.IsInfix.trans ?_ (line_infix h3 hl1 (by rw [hlines]; exact List.mem_append_right _ hl2))
    have href' : ref = "References [".toList ++ url ++ "::".toList ++ rc ++ "](#".toList ++ ("table-".toList ++ mdAnchor m url) ++ [')'] := by
      rcases href with ⟨n', fk', rc', rcs', r', e1, e2, e3, e4, e5⟩ | ⟨e1, -⟩
      · rw [hn] at e1
        cases e1
        rw [← columnKey_unique hk e2] at e3 e4
        rw [hrc] at e3
        rw [hr] at e4
        cases e3
        cases e4
        rw [e5]
        simp [mdLink]
      · obtain ⟨b, a, hb, hcr, -⟩ := hk
        exact absurd hcr (e1 n hn fk (by rw [hb]; simp))
    rw [← href', hline]
    refine List.IsInfix.trans ?_ (infix_join (by simp : dc ∈ [nc, tc, dc]))
    rw [hdc]
    refine infix_join (List.mem_filter.2 ⟨by simp, ?_⟩)
    rw [href']
    simp
  · obtain ⟨lines, hl1, url', name, props, dl, dialect, rows, hu', -, -, -, -, -, hlines⟩ := md_all2_left h2 hu
    rw [hurl] at hu'
    simp only [Option.getD_some] at hu'
    subst hu'
    refine List.IsInfix.trans ?_ (line_infix h3 hl1 (by rw [hlines]; exact List.mem_append_left _ (List.mem_append_left _ (List.mem_append_left _ (List.mem_cons_self ..)))))
    exact ⟨"\n## ".toList, name ++ ['\n'], by simp⟩

/-! ## Properties -/

/-- How the key of a property is written: with a link, if it has a known prefix. -/
def KeyText (k text : Str) : Prop := (qname2url k = none ∧ text = k) ∨ ∃ u, qname2url k = some u ∧ text = mdLink k u

theorem qname2link_key (k : Str) : KeyText k (qname2link false k) := by
  unfold KeyText qname2link
  cases h : qname2url k with
  | none => exact .inl ⟨rfl, rfl⟩
  | some u => exact .inr ⟨u, rfl, rfl⟩

/-- A row after the first line is a line of its own. -/
theorem row_infix (pre : List Str) (hd : Str) {rest : List Str} {x : Str} (hx : x ∈ rest) :
    (['\n'] ++ x ++ ['\n']) <:+: Py.join ['\n'] (pre ++ hd :: rest) ++ ['\n'] := by
  obtain ⟨b, a, rfl⟩ := List.append_of_mem hx
  rw [join_sep ['\n'] (by simp)]
  have key : ∀ (b : List Str) (y : Str), ['\n'] ++ (b.flatMap (· ++ ['\n']) ++ y) = b.flatMap (['\n'] ++ ·) ++ (['\n'] ++ y) := by
    intro b y
    induction b with
    | nil => simp
    | cons p b ih =>
      simp only [List.flatMap_cons, List.append_assoc] at ih ⊢
      rw [ih]
  refine ⟨pre.flatMap (· ++ ['\n']) ++ hd ++ b.flatMap (['\n'] ++ ·), a.flatMap (· ++ ['\n']), ?_⟩
  have := key b ((x ++ ['\n']) ++ a.flatMap (· ++ ['\n']))
  simp only [List.flatMap_append, List.flatMap_cons, List.append_assoc] at this ⊢
  rw [this]

theorem property_infix {common : List (Str × J)} {text : Str} (h : PropertiesText m common text) {k : Str} {v : J} (hm : (k, v) ∈ common)
    (hv : v.truthy = true) (h1 : k ≠ "dc:description".toList) (h2 : k ≠ "https://schema.org/image".toList) :
    ∃ key, KeyText k key ∧ ("\n".toList ++ key ++ " | ".toList ++ htmlify m v ++ "\n".toList) <:+: text := by
  obtain ⟨desc, img, table, ht, -, -, htab⟩ := h
  refine ⟨qname2link false k, qname2link_key k, ?_⟩
  have hmem : (k, v) ∈ (common.filter fun p => p.2.truthy).filter
      fun p => decide (p.1 ≠ "dc:description".toList) && decide (p.1 ≠ "https://schema.org/image".toList) :=
    List.mem_filter.2 ⟨List.mem_filter.2 ⟨hm, hv⟩, by rw [decide_eq_true h1, decide_eq_true h2]; rfl⟩
  rcases htab with ⟨he, -⟩ | ⟨-, htab⟩
  · rw [he] at hmem
    cases hmem
  · rw [ht, htab]
    have := row_infix (desc ++ img) "property | value\n --- | ---".toList
      (List.mem_map_of_mem (f := fun p : Str × J => qname2link false p.1 ++ " | ".toList ++ htmlify m p.2) hmem)
    rw [show "\n".toList = ['\n'] from rfl]
    simp only [List.append_assoc] at this ⊢
    exact this

/-- **C82** Every common property of a table which is not empty has a row in the documentation, with its name and value (the description and
image are given elsewhere). -/
theorem C82_property {g : FGroup} {text : Str} (h : metadata2markdown ext m d linkFiles g = .ok text) {t : TableD} (ht : t ∈ g.desc.tables)
    {k : Str} {v : J} (hm : (k, v) ∈ t.like.props.common)
    (hv : v.truthy = true) (h1 : k ≠ "dc:description".toList) (h2 : k ≠ "https://schema.org/image".toList) :
    ∃ key, KeyText k key ∧ ("\n".toList ++ key ++ " | ".toList ++ htmlify m v ++ "\n".toList) <:+: text := by
  obtain ⟨head, sections, -, hs, h3⟩ := C82_sections h
  obtain ⟨lines, hl1, url', name, props, dl, dialect, rows, -, -, hp, -, -, -, hlines⟩ := md_all2_left hs ht
  obtain ⟨key, hk, hi⟩ := property_infix hp hm hv h1 h2
  exact ⟨key, hk, hi.trans (line_infix h3 hl1 (by rw [hlines]; simp))⟩

/-- **C82** … and also every common property of the dataset, except for the title, which is given as heading. -/
theorem C82_property_group {g : FGroup} {text : Str} (h : metadata2markdown ext m d linkFiles g = .ok text)
    {k : Str} {v : J} (hm : (k, v) ∈ g.desc.like.props.common) (h0 : k ≠ "dc:title".toList)
    (hv : v.truthy = true) (h1 : k ≠ "dc:description".toList) (h2 : k ≠ "https://schema.org/image".toList) :
    ∃ key, KeyText k key ∧ ("\n".toList ++ key ++ " | ".toList ++ htmlify m v ++ "\n".toList) <:+: text := by
  obtain ⟨head, sections, ⟨title, note, props, -, -, hp, hlines⟩, -, h3⟩ := C82_sections h
  obtain ⟨key, hk, hi⟩ := property_infix hp (List.mem_filter.2 ⟨hm, decide_eq_true h0⟩) hv h1 h2
  refine ⟨key, hk, hi.trans ?_⟩
  rw [h3]
  exact infix_join (List.mem_append_left _ (by rw [hlines]; simp))

end
end Csvw.Props

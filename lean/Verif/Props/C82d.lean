import Verif.Props.C82c
/-!
# C82: values as HTML; the command; defects
-/

namespace Csvw.Props
open Csvw Spec Markdown

section
variable {ext : Ext} {m : MdExt} {d : Disk} {linkFiles : Bool}

theorem qname2link_html (k : Str) : HtmlName k (qname2link true k) := by
  unfold HtmlName qname2link
  cases h : qname2url k with
  | none => exact .inr ⟨rfl, rfl⟩
  | some u => exact .inl ⟨u, rfl, rfl⟩

theorem all2_map_of {α β : Type} {R : α → β → Prop} {f : α → β} (h : ∀ a, R a (f a)) : ∀ l : List α, All2 R l (l.map f)
  | [] => .nil
  | a :: l => .cons (h a) (all2_map_of h l)

mutual
theorem htmlify_spec : ∀ j : J, HtmlText m j (htmlify m j)
  | .arr l => by
    obtain ⟨ts, h1, h2⟩ := htmlifyItems_spec l
    unfold htmlify
    rw [h2]
    exact .list h1
  | .obj o => by
    unfold htmlify
    rw [List.flatMap_def]
    exact .object (all2_map_of (fun p => ⟨_, qname2link_html p.1, rfl⟩) o)
  | .null => by rw [show htmlify m .null = pyStr m .null by simp [htmlify]]; exact .plain nofun nofun
  | .bool b => by rw [show htmlify m (.bool b) = pyStr m (.bool b) by simp [htmlify]]; exact .plain nofun nofun
  | .int i => by rw [show htmlify m (.int i) = pyStr m (.int i) by simp [htmlify]]; exact .plain nofun nofun
  | .flt i => by rw [show htmlify m (.flt i) = pyStr m (.flt i) by simp [htmlify]]; exact .plain nofun nofun
  | .str i => by rw [show htmlify m (.str i) = pyStr m (.str i) by simp [htmlify]]; exact .plain nofun nofun
theorem htmlifyItems_spec : ∀ l : List J, ∃ ts, HtmlItems m l ts ∧
    htmlifyItems m l = ts.flatMap fun t => "<li>".toList ++ t ++ "</li>".toList
  | [] => ⟨[], .nil, rfl⟩
  | j :: r => by
    obtain ⟨ts, h1, h2⟩ := htmlifyItems_spec r
    refine ⟨htmlify m j :: ts, .cons (htmlify_spec j) h1, ?_⟩
    unfold htmlifyItems
    rw [h2]
    simp
end

/-- **C82** Values of properties are rendered as HTML: lists as lists, objects as lists of definitions, at every depth of lists. -/
theorem C82_html (j : J) : HtmlText m j (htmlify m j) := htmlify_spec j

theorem escapeChar_plain {c : Char} (h1 : c ≠ '&') (h2 : c ≠ '<') (h3 : c ≠ '>') (h4 : c ≠ '"') (h5 : c ≠ '\'') : escapeChar c = [c] := by
  unfold escapeChar
  split <;> first | contradiction | rfl

theorem escapeChar_cases (c : Char) : (escapeChar c = [c] ∧ c ∉ ['&', '<', '>', '"', '\'']) ∨
    ∃ r, r ∈ ["amp;".toList, "lt;".toList, "gt;".toList, "quot;".toList, "#x27;".toList] ∧ escapeChar c = '&' :: r := by
  by_cases h1 : c = '&'
  · subst h1; exact .inr ⟨_, by decide, rfl⟩
  by_cases h2 : c = '<'
  · subst h2; exact .inr ⟨_, by decide, rfl⟩
  by_cases h3 : c = '>'
  · subst h3; exact .inr ⟨_, by decide, rfl⟩
  by_cases h4 : c = '"'
  · subst h4; exact .inr ⟨_, by decide, rfl⟩
  by_cases h5 : c = '\''
  · subst h5; exact .inr ⟨_, by decide, rfl⟩
  exact .inl ⟨escapeChar_plain h1 h2 h3 h4 h5, by simp [h1, h2, h3, h4, h5]⟩

/-- Whether the character is escaped. -/
def special (c : Char) : Bool := c == '&' || c == '<' || c == '>' || c == '"' || c == '\''

theorem escapeChar_code {c c' : Char} {x y : Str} (h : escapeChar c ++ x = escapeChar c' ++ y) : c = c' ∧ x = y := by
  have hs : ∀ c, special c = true → c = '&' ∨ c = '<' ∨ c = '>' ∨ c = '"' ∨ c = '\'' := by
    intro c h; simpa [special, or_assoc] using h
  have hn : ∀ c, special c = false → escapeChar c = [c] ∧ c ≠ '&' := by
    intro c h
    simp only [special, Bool.or_eq_false_iff, beq_eq_false_iff_ne] at h
    exact ⟨escapeChar_plain h.1.1.1.1 h.1.1.1.2 h.1.1.2 h.1.2 h.2, h.1.1.1.1⟩
  have hh : ∀ c, special c = true → ∃ r, escapeChar c = '&' :: r := by
    intro c h
    rcases hs c h with rfl | rfl | rfl | rfl | rfl <;> exact ⟨_, rfl⟩
  cases h1 : special c <;> cases h2 : special c'
  · rw [(hn c h1).1, (hn c' h2).1] at h
    simpa using h
  · obtain ⟨r, hr⟩ := hh c' h2
    rw [(hn c h1).1, hr] at h
    simp only [List.cons_append, List.nil_append, List.cons.injEq] at h
    exact absurd h.1 (hn c h1).2
  · obtain ⟨r, hr⟩ := hh c h1
    rw [(hn c' h2).1, hr] at h
    simp only [List.cons_append, List.nil_append, List.cons.injEq] at h
    exact absurd h.1.symm (hn c' h2).2
  · rcases hs c h1 with rfl | rfl | rfl | rfl | rfl <;> rcases hs c' h2 with rfl | rfl | rfl | rfl | rfl <;>
      simp_all [escapeChar]

/-- **C82** In an escaped text no character has a meaning in HTML, except for `&`, and no information is lost. -/
theorem C82_escape (s t : Str) :
    (∀ ch ∈ ['<', '>', '"', '\''], ch ∉ escape s) ∧ (escape s = escape t → s = t) := by
  constructor
  · intro ch hch hin
    obtain ⟨c, hc, hin⟩ := List.mem_flatMap.1 hin
    rcases escapeChar_cases c with ⟨h1, h2⟩ | ⟨r, hr, h1⟩
    · rw [h1] at hin
      simp only [List.mem_singleton] at hin
      subst hin
      exact h2 (List.mem_cons_of_mem _ hch)
    · rw [h1] at hin
      have key : ∀ ch ∈ ['<', '>', '"', '\''], ∀ r ∈ ["amp;".toList, "lt;".toList, "gt;".toList, "quot;".toList, "#x27;".toList],
        ch ∉ '&' :: r := by decide
      exact key ch hch r hr hin
  · induction s generalizing t with
    | nil =>
      cases t with
      | nil => intro; rfl
      | cons c t =>
        intro h
        rcases escapeChar_cases c with ⟨h1, -⟩ | ⟨r, -, h1⟩ <;> simp [escape, h1] at h
    | cons a s ih =>
      cases t with
      | nil =>
        intro h
        rcases escapeChar_cases a with ⟨h1, -⟩ | ⟨r, -, h1⟩ <;> simp [escape, h1] at h
      | cons c t =>
        intro h
        obtain ⟨h1, h2⟩ := escapeChar_code (c := a) (c' := c) (x := escape s) (y := escape t) (by simpa [escape] using h)
        rw [h1, ih t h2]

example : escape "a < 'b'".toList = "a &lt; &#x27;b&#x27;".toList := by decide

/-! ## The command -/

/-- **C82** The command `csvw2markdown` prints the documentation for the dataset which a metadata file describes, with links to this file
and to all data files which exist, seen from its folder; and it fails if the metadata cannot be loaded. -/
theorem C82_command {x : MExt} {other : Base → Derived → J → Res Val} {lk : EncLookup} {fx : FExt} {p : PPath} {text : Str}
    (h : csvw2markdown ext x other lk fx m d p = .ok text) :
    ∃ g, FGroup.fromFile ext x other lk fx d p = .ok g ∧
      ∃ head sections, GroupSection m true (some p) g.desc head ∧
        All2 (TableSection ext m
          (fun url => d.isDir (p.parent.join url) = true ∨ ∃ f, d.files (p.parent.join url) = some f) g.desc) g.desc.tables sections ∧
        text = Py.join ['\n'] (head ++ sections.flatten) := by
  unfold csvw2markdown at h
  cases hg : FGroup.fromFile ext x other lk fx d p with
  | error e => rw [hg] at h; cases h
  | ok g =>
    rw [hg] at h
    have hf : g.fname = some p := by
      revert hg
      unfold FGroup.fromFile
      intro hg
      repeat' split at hg
      all_goals first | cases hg | skip
      rfl
    refine ⟨g, rfl, ?_⟩
    obtain ⟨head, sections, h1, h2, h3⟩ := C82_sections h
    rw [hf] at h1 h2
    refine ⟨head, sections, h1, ?_, h3⟩
    have hl : Linked d true (some p) = fun url => d.isDir (p.parent.join url) = true ∨ ∃ f, d.files (p.parent.join url) = some f := by
      funext url
      unfold Linked
      simp
    rw [hl] at h2
    exact h2

end
end Csvw.Props

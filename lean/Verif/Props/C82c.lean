import Verif.Props.C82b
import Verif.Props.C78
/-!
# C82: qualified names, cells and escaped texts in the documentation
-/

namespace Csvw.Props
open Csvw Spec Markdown

section
variable {ext : Ext} {m : MdExt} {d : Disk} {linkFiles : Bool}

/-! ## Qualified names -/

theorem mem_prefixes {p : Str × Str} : p ∈ prefixes ↔ ∃ q ∈ mdNamespaces, q.1.toList = p.1 ∧ q.2.toList = p.2 := by
  show p ∈ mdNamespaces.map (fun q => (q.1.toList, q.2.toList)) ↔ _
  rw [List.mem_map]
  constructor
  · rintro ⟨q, hq, rfl⟩; exact ⟨q, hq, rfl, rfl⟩
  · rintro ⟨q, hq, h1, h2⟩; exact ⟨q, hq, Prod.ext h1 h2⟩

theorem prefixes_colon : ∀ p ∈ prefixes, ':' ∉ p.1 := by decide

theorem prefixes_nodup : (prefixes.map (·.1)).Nodup := by decide

theorem before_colon : ∀ {a b x y : Str}, ':' ∉ a → ':' ∉ b → a ++ ':' :: x = b ++ ':' :: y → a = b ∧ x = y
  | [], [], _, _, _, _, h => by simpa using h
  | [], c :: b, _, _, _, hb, h => by
    simp only [List.nil_append, List.cons_append, List.cons.injEq] at h
    exact absurd (by rw [← h.1]; simp) hb
  | c :: a, [], _, _, ha, _, h => by
    simp only [List.nil_append, List.cons_append, List.cons.injEq] at h
    exact absurd (by rw [h.1]; simp) ha
  | c :: a, c' :: b, _, _, ha, hb, h => by
    simp only [List.cons_append, List.cons.injEq] at h
    obtain ⟨h1, h2⟩ := before_colon (fun e => ha (by simp [e])) (fun e => hb (by simp [e])) h.2
    exact ⟨by rw [h.1, h1], h2⟩

theorem prefix_unique {p p' : Str × Str} (hp : p ∈ prefixes) (hp' : p' ∈ prefixes) (h : p.1 = p'.1) : p = p' := by
  have key : ∀ p ∈ prefixes, ∀ p' ∈ prefixes, p.1 = p'.1 → p = p' := by decide
  exact key p hp p' hp' h

theorem replace_front {old new x : Str} (ho : old ≠ []) : Py.replace old new (old ++ x) = new ++ Py.replace old new x := by
  obtain ⟨c, cs, rfl⟩ := List.exists_cons_of_ne_nil ho
  unfold Py.replace
  show Py.replaceGo (c :: cs) new 0 (c :: (cs ++ x)) = _
  have h1 : (c :: cs).isPrefixOf (c :: (cs ++ x)) = true := by simp
  simp only [Py.replaceGo, h1]
  simp [replaceGo_past]

/-- **C82** A name of which the prefix is known is abbreviated from the URL which it stands for (if the prefix does not occur a second time);
no other text gets a URL. -/
theorem C82_qname {q : Str} :
    (∀ u, qname2url q = some u ↔ ∃ pre uri name, QName q pre uri name ∧ u = uri ++ Py.replace (pre ++ [':']) uri name) ∧
    (∀ pre uri name, QName q pre uri name → Py.contains (pre ++ [':']) name = false → qname2url q = some (uri ++ name)) := by
  have hfind : ∀ pre uri name, QName q pre uri name → qname2url q = some (uri ++ Py.replace (pre ++ [':']) uri name) := by
    rintro pre uri name ⟨hm, rfl⟩
    have hm' : (pre, uri) ∈ prefixes := mem_prefixes.2 hm
    unfold qname2url
    cases hf : prefixes.find? fun p => (p.1 ++ [':']).isPrefixOf (pre ++ [':'] ++ name) with
    | none =>
      have := List.find?_eq_none.1 hf _ hm'
      exact absurd (List.isPrefixOf_iff_prefix.2 ⟨name, rfl⟩) this
    | some p =>
      have h1 := List.mem_of_find?_eq_some hf
      have h2 := List.find?_some hf
      obtain ⟨t, ht⟩ := List.isPrefixOf_iff_prefix.1 h2
      simp only [List.append_assoc, List.singleton_append] at ht
      obtain ⟨h3, -⟩ := before_colon (prefixes_colon p h1) (prefixes_colon _ hm') ht
      have := prefix_unique h1 hm' h3
      subst this
      simp only [Option.some.injEq]
      exact replace_front (by simp)
  refine ⟨fun u => ⟨fun h => ?_, ?_⟩, ?_⟩
  · unfold qname2url at h
    cases hf : prefixes.find? fun p => (p.1 ++ [':']).isPrefixOf q with
    | none => rw [hf] at h; cases h
    | some p =>
      have h2 := List.find?_some hf
      obtain ⟨t, ht⟩ := List.isPrefixOf_iff_prefix.1 h2
      have hq : QName q p.1 p.2 t := ⟨mem_prefixes.1 (List.mem_of_find?_eq_some hf), ht.symm⟩
      refine ⟨p.1, p.2, t, hq, ?_⟩
      have h' := hfind _ _ _ hq
      unfold qname2url at h'
      rw [h] at h'
      exact Option.some.inj h'
  · rintro ⟨pre, uri, name, hq, rfl⟩
    exact hfind _ _ _ hq
  · intro pre uri name hq hn
    rw [hfind _ _ _ hq, Py.replace, replaceGo_absent hn]

example : QName "dc:title".toList "dc".toList "http://purl.org/dc/terms/".toList "title".toList :=
  ⟨⟨("dc", "http://purl.org/dc/terms/"), by decide, rfl, rfl⟩, by decide⟩

/-- **C82 (violated)** The prefix is replaced everywhere in the name. -/
theorem C82_violated_qname : QName "dc:adc:b".toList "dc".toList "http://purl.org/dc/terms/".toList "adc:b".toList ∧
    qname2url "dc:adc:b".toList = some "http://purl.org/dc/terms/ahttp://purl.org/dc/terms/b".toList :=
  ⟨⟨⟨("dc", "http://purl.org/dc/terms/"), by decide, rfl, rfl⟩, by decide⟩, by decide⟩

/-! ## Cells -/

theorem cellText_append {a b : Str} (ha : CellText a) (hb : CellText b) : CellText (a ++ b) :=
  ⟨by simp [ha.1, hb.1], by simp [ha.2, hb.2]⟩

theorem cellText_flatMap {α : Type} {f : α → Str} {l : List α} (h : ∀ a ∈ l, CellText (f a)) : CellText (l.flatMap f) := by
  constructor
  · intro hc; obtain ⟨a, ha, hc⟩ := List.mem_flatMap.1 hc; exact (h a ha).1 hc
  · intro hc; obtain ⟨a, ha, hc⟩ := List.mem_flatMap.1 hc; exact (h a ha).2 hc

theorem cellText_code {s : Str} (h : CellText s) : CellText (mdCode s) :=
  cellText_append (cellText_append (by unfold CellText; decide) h) (by unfold CellText; decide)

theorem cellText_link {s t : Str} (h : CellText s) (h' : CellText t) : CellText (mdLink s t) :=
  cellText_append (cellText_append (cellText_append (cellText_append (by unfold CellText; decide) h) (by unfold CellText; decide)) h')
    (by unfold CellText; decide)

theorem cellText_base (b : Base) : CellText b.name.toList := by
  unfold CellText
  cases b <;> decide

theorem cellText_anchor (s : Str) : CellText (mdAnchor m s) := by
  constructor
  · intro h
    have := (List.mem_filter.1 h).2
    revert this; decide
  · intro h
    have := (List.mem_filter.1 h).2
    revert this; decide

theorem cellText_join {sep : Str} (hs : CellText sep) : ∀ {l : List Str}, (∀ a ∈ l, CellText a) → CellText (Py.join sep l)
  | [], _ => ⟨by simp [Py.join], by simp [Py.join]⟩
  | [a], h => by simpa [Py.join] using h a (by simp)
  | a :: b :: r, h => by
    show CellText (a ++ sep ++ Py.join sep (b :: r))
    exact cellText_append (cellText_append (h a (by simp)) hs) (cellText_join hs fun x hx => h x (by simp [hx]))

theorem name_text {s : Schema} {c : Column} (hr : RowTexts ext m s c) {cell : Str} (h : NameCell m c cell) : CellText cell := by
  rcases h with ⟨u, hu, rfl⟩ | ⟨-, rfl⟩ | ⟨-, rfl⟩
  · exact cellText_link hr.name (hr.url u hu)
  · exact cellText_link hr.name hr.invalid
  · exact cellText_code hr.name

theorem bound_text {label : String} (hl : CellText label.toList) {b : Option Val} (hb : ∀ v, b = some v → CellText (m.strVal v)) {text : Str}
    (h : BoundText ext m label b text) : CellText text := by
  rcases h with ⟨v, hv, -, rfl⟩ | ⟨-, rfl⟩
  · exact cellText_append hl (hb v hv)
  · unfold CellText; decide

theorem format_text {s : Schema} {c : Column} (hr : RowTexts ext m s c) {dt : Datatype} (hd : c.props.datatype = .dtype dt) {text : Str}
    (h : FormatText m dt text) : CellText text := by
  cases h with
  | none => unfold CellText; decide
  | other => unfold CellText; decide
  | @choices f ws hf hc =>
    refine cellText_append (by unfold CellText; decide) (cellText_flatMap fun w hw => cellText_append (by unfold CellText; decide) (cellText_code ?_))
    obtain ⟨h1, h2, h3⟩ := hc
    refine ⟨fun hb => ((h3 w hw).2 _ hb).2 rfl, fun hn => (hr.format dt f hd hf).1 ?_⟩
    rw [h1]
    exact (infix_join hw).subset hn
  | @regex f hf _ hn _ =>
    refine cellText_append (by unfold CellText; decide) (cellText_code ⟨fun hb => ?_, (hr.format dt f hd hf).1⟩)
    obtain ⟨ws, hw⟩ := (hr.format dt f hd hf).2 hb
    exact hn ws hw

theorem type_text {s : Schema} {c : Column} (hr : RowTexts ext m s c) {cell : Str} (h : TypeCell ext m c cell) : CellText cell := by
  obtain ⟨dt, h1, h2⟩ := h
  have hdt : CellText dt := by
    rcases h1 with ⟨-, rfl⟩ | ⟨d, f, lo, hi, hd, hf, hlo, hhi, rfl⟩
    · exact cellText_code (by unfold CellText; decide)
    · exact cellText_append (cellText_append (cellText_append (cellText_code (cellText_base _)) (format_text hr hd hf))
        (bound_text (by unfold CellText; decide) (fun v hv => hr.minimum d v hd hv) hlo))
        (bound_text (by unfold CellText; decide) (fun v hv => hr.maximum d v hd hv) hhi)
  rcases h2 with ⟨-, rfl⟩ | ⟨hs, rfl⟩
  · exact hdt
  · exact cellText_append (cellText_append (cellText_append (cellText_append (by unfold CellText; decide) hdt) (by unfold CellText; decide))
      (cellText_code (hr.separator hs))) (by unfold CellText; decide)

theorem desc_text {s : Schema} {c : Column} (hr : RowTexts ext m s c) {cell : Str} (h : DescCell m s c cell) : CellText cell := by
  obtain ⟨desc, key, ref, h1, h2, h3, rfl⟩ := h
  refine cellText_join (by unfold CellText; decide) fun a ha => ?_
  have ha := (List.mem_filter.1 ha).1
  simp only [List.mem_cons, List.not_mem_nil, or_false] at ha
  rcases ha with rfl | rfl | rfl
  · rcases h1 with ⟨t, ht, rfl⟩ | ⟨-, rfl⟩
    · constructor
      · intro hb
        obtain ⟨ch, hch, he⟩ := List.mem_map.1 hb
        by_cases hc : ch = '\n'
        · rw [if_pos hc] at he; exact absurd he (by decide)
        · rw [if_neg hc] at he; subst he; exact hr.desc t ht hch
      · intro hb
        obtain ⟨ch, hch, he⟩ := List.mem_map.1 hb
        by_cases hc : ch = '\n'
        · rw [if_pos hc] at he; exact absurd he (by decide)
        · rw [if_neg hc] at he; exact hc he
    · unfold CellText; decide
  · rcases h3 with ⟨-, rfl⟩ | ⟨-, rfl⟩ <;> (unfold CellText; decide)
  · rcases h2 with ⟨n, fk, rc, rcs, r, hn, ⟨b, af, hk, -, -⟩, hrc, hre, rfl⟩ | ⟨-, rfl⟩
    · have hfk := hr.keys fk (by rw [hk]; simp)
      refine cellText_append (by unfold CellText; decide) (cellText_link ?_ (cellText_append (by unfold CellText; decide) (cellText_anchor r)))
      exact cellText_append (cellText_append (hfk.2 r hre) (by unfold CellText; decide)) (hfk.1 rc (by rw [hrc]; simp))
    · unfold CellText; decide

/-- **C82** The row of a column is one line with exactly three cells, whatever the description of the column is, provided that the texts in
it have no bars or newlines. -/
theorem C82_row {s : Schema} {c : Column} {line : Str} (h : ColumnLine ext m s c line) (hr : RowTexts ext m s c) :
    line.count '|' = 2 ∧ '\n' ∉ line ∧
      ∃ name type desc, NameCell m c name ∧ TypeCell ext m c type ∧ DescCell m s c desc ∧
        Py.split ['|'] line = [name ++ [' '], [' '] ++ type ++ [' '], [' '] ++ desc] := by
  obtain ⟨name, type, desc, h1, h2, h3, rfl⟩ := h
  have t1 := name_text hr h1
  have t2 := type_text hr h2
  have t3 := desc_text hr h3
  have hj : Py.join " | ".toList [name, type, desc] = Py.join ['|'] [name ++ [' '], [' '] ++ type ++ [' '], [' '] ++ desc] := by
    simp [Py.join]
  refine ⟨?_, ?_, name, type, desc, h1, h2, h3, ?_⟩
  · simp [Py.join, List.count_append, List.count_eq_zero.2 t1.1, List.count_eq_zero.2 t2.1, List.count_eq_zero.2 t3.1]
  · simp [Py.join, t1.2, t2.2, t3.2]
  · rw [hj]
    refine Py.split_join _ (by simp) _ (by simp) fun p hp => Py.noEarly_char _ _ ?_
    simp only [List.mem_cons, List.not_mem_nil, or_false] at hp
    rcases hp with rfl | rfl | rfl <;> simp [t1.1, t2.1, t3.1]

end
end Csvw.Props

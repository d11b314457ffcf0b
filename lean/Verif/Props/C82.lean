import Verif.Spec.Markdown
import Verif.Lemmas.Datatype
import Verif.Lemmas.Common
import Verif.Py.StrLemmas
import Verif.Props.C16b
/-!
# C82: the documentation of a dataset in Markdown
-/

namespace Csvw.Props
open Csvw Spec Markdown

section
variable {ext : Ext} {m : MdExt} {d : Disk} {linkFiles : Bool}

theorem mapRes_all2 {α β : Type} {f : α → Res β} : ∀ {l : List α} {bs : List β}, mapRes f l = .ok bs → All2 (fun a b => f a = .ok b) l bs
  | [], bs, h => by cases h; exact .nil
  | a :: l, bs, h => by
    unfold mapRes at h
    cases hf : f a with
    | error e => rw [hf] at h; cases h
    | ok b =>
      rw [hf] at h
      cases hr : mapRes f l with
      | error e => rw [hr] at h; cases h
      | ok r =>
        rw [hr] at h
        cases h
        exact .cons hf (mapRes_all2 hr)

theorem md_all2_imp {α β : Type} {R S : α → β → Prop} (h : ∀ a b, R a b → S a b) {as : List α} {bs : List β} (h2 : All2 R as bs) : All2 S as bs := by
  induction h2 with
  | nil => exact .nil
  | cons hc _ ih => exact .cons (h _ _ hc) ih

theorem erase_eq {α : Type} (k : Str) (l : List (Str × α)) : Dict.erase k l = l.filter fun p => decide (p.1 ≠ k) := by
  unfold Dict.erase
  simp

theorem map_exists {α β : Type} {f : α → β} {r : Res α} : (∃ b, r.map f = .ok b) ↔ ∃ a, r = .ok a := by
  cases r <;> simp [Except.map]

theorem mapRes_exists {α β : Type} {f : α → Res β} : ∀ {l : List α}, (∃ bs, mapRes f l = .ok bs) ↔ ∀ a ∈ l, ∃ b, f a = .ok b
  | [] => by simp [mapRes]
  | a :: l => by
    unfold mapRes
    cases hf : f a with
    | error e => simp [hf]
    | ok b =>
      have := mapRes_exists (f := f) (l := l)
      simp only [List.mem_cons, forall_eq_or_imp, hf, Except.ok.injEq, exists_eq', true_and]
      rw [← this]
      cases hr : mapRes f l <;> simp [Except.map]

theorem md_anchor (s : Str) : anchor m s = if (unmarked m.unicode true s).any control then .error .assertionError else .ok (mdAnchor m s) :=
  C16_slug m.unicode s true

theorem md_anchor_ok {s a : Str} (h : anchor m s = .ok a) : AnchorOk m s ∧ a = mdAnchor m s := by
  rw [md_anchor] at h
  split at h
  · cases h
  · next hn => exact ⟨by simpa [AnchorOk] using hn, (Except.ok.inj h).symm⟩

theorem md_anchor_iff {s : Str} : (∃ a, anchor m s = .ok a) ↔ AnchorOk m s := by
  constructor
  · rintro ⟨a, h⟩
    exact (md_anchor_ok h).1
  · intro h
    rw [md_anchor, if_neg (by rw [show _ = false from h]; simp)]
    exact ⟨_, rfl⟩

/-! ## Cells -/

theorem isChoices_iff {s : Str} : isChoices m s = true ↔ ∃ ws, Choices m s ws := by
  unfold isChoices
  rw [List.all_eq_true]
  constructor
  · intro h
    refine ⟨Py.split ['|'] s, (Py.join_split _ (by simp) s).symm, Py.splitGo_ne_nil _ _ _ _, ?_⟩
    intro w hw
    have := h w hw
    simp only [Bool.and_eq_true, Bool.not_eq_true', List.isEmpty_eq_false_iff, List.all_eq_true] at this
    refine ⟨this.1, fun c hc => ⟨this.2 c hc, ?_⟩⟩
    rintro rfl
    exact Py.not_mem_split_char _ _ w hw hc
  · rintro ⟨ws, h1, h2, h3⟩ w hw
    rw [h1, Py.split_join _ (by simp) ws h2 (fun p hp => Py.noEarly_char _ _ fun hc => ((h3 p hp).2 _ hc).2 rfl)] at hw
    simp only [Bool.and_eq_true, Bool.not_eq_true', List.isEmpty_eq_false_iff, List.all_eq_true]
    exact ⟨(h3 w hw).1, fun c hc => ((h3 w hw).2 c hc).1⟩

theorem choices_split {s : Str} (h : isChoices m s = true) : Choices m s (Py.split ['|'] s) := by
  obtain ⟨ws, hws⟩ := isChoices_iff.1 h
  rw [hws.1, Py.split_join _ (by simp) ws hws.2.1 (fun p hp => Py.noEarly_char _ _ fun hc => ((hws.2.2 p hp).2 _ hc).2 rfl), ← hws.1]
  exact hws

theorem formatText_spec {dt : Datatype} {f : Str} (h : Markdown.formatText m dt = .ok f) : FormatText m dt f := by
  unfold Markdown.formatText at h
  split at h
  · next ht => cases h; exact .none (by simpa using ht)
  · next ht =>
    split at h
    · next s hs =>
      have hne : s ≠ [] := by
        rintro rfl
        rw [hs] at ht
        simp [J.truthy] at ht
      split at h
      · next hc =>
        cases h
        exact .choices hs (choices_split hc)
      · next hc =>
        have hno : ∀ ws, ¬ Choices m s ws := fun ws hw => hc (isChoices_iff.2 ⟨ws, hw⟩)
        split at h
        · next hb => cases h; exact .regex hs hne hno hb
        · next hb => cases h; exact .other hs hne hno hb
    · cases h

theorem boundText_spec {label : String} {b : Option Val} : BoundText ext m label b (Markdown.boundText ext m label b) := by
  unfold Markdown.boundText
  cases b with
  | none => exact .inr ⟨by simp, rfl⟩
  | some v =>
    simp only
    split
    · next h => exact .inl ⟨v, rfl, h, rfl⟩
    · next h => exact .inr ⟨by simpa using h, rfl⟩

theorem typeCell_spec {c : Column} {cell : Str} (h : Markdown.typeCell ext m c = .ok cell) : TypeCell ext m c cell := by
  unfold Markdown.typeCell at h
  obtain ⟨dt, h1, h2⟩ := Datatype.bind_ok h
  refine ⟨dt, ?_, ?_⟩
  · unfold ownDatatype at h1
    cases hd : c.props.datatype with
    | dtype d =>
      rw [hd] at h1
      obtain ⟨f, h3, rfl⟩ := Except.map_eq_ok.1 h1
      exact .inr ⟨d, f, _, _, rfl, formatText_spec h3, boundText_spec, boundText_spec, by simp [mdCode]⟩
    | json j => rw [hd] at h1; cases h1; exact .inl ⟨by simp, rfl⟩
    | tmpl u => rw [hd] at h1; cases h1; exact .inl ⟨by simp, rfl⟩
    | invalid => rw [hd] at h1; cases h1; exact .inl ⟨by simp, rfl⟩
  · cases h2
    cases hs : c.props.separator.truthy with
    | false => exact .inl ⟨rfl, by simp⟩
    | true => exact .inr ⟨rfl, by simp [mdCode]⟩

theorem nameCell_spec (c : Column) : NameCell m c (Markdown.nameCell m c) := by
  unfold NameCell Markdown.nameCell nameText
  simp only
  cases c.props.propertyUrl with
  | tmpl u => exact .inl ⟨u, rfl, rfl⟩
  | invalid => exact .inr (.inl ⟨rfl, rfl⟩)
  | json j => exact .inr (.inr ⟨⟨j, .inl rfl⟩, rfl⟩)
  | dtype d => exact .inr (.inr ⟨⟨.null, .inr ⟨d, rfl⟩⟩, rfl⟩)

/-! ## References -/

/-- What is known about the foreign key of a column. -/
def KeyEntry (l : List ForeignKey) (n : Str) : Option (Str × Str) → Prop
  | some (rc, r) => ∃ fk rcs, ColumnKey l n fk ∧ fk.refColumns = rc :: rcs ∧ fk.resource = some r
  | none => ∀ fk ∈ l, fk.columnReference ≠ [n]

theorem columnKey_cons {l : List ForeignKey} {n : Str} {fk fk0 : ForeignKey} (h : ColumnKey l n fk) : ColumnKey (fk0 :: l) n fk := by
  obtain ⟨b, a, rfl, h2, h3⟩ := h
  exact ⟨fk0 :: b, a, rfl, h2, h3⟩

theorem fkItems_get {n : Str} : ∀ {l : List ForeignKey} {items : List (Str × Str × Str)}, fkItems l = .ok items →
    KeyEntry l n (Dict.get n items.reverse)
  | [], items, h => by
    cases h
    simp [KeyEntry, Dict.get]
  | fk :: l, items, h => by
    have skip : ∀ {items}, fk.columnReference ≠ [n] → fkItems l = .ok items → KeyEntry (fk :: l) n (Dict.get n items.reverse) := by
      intro items hne hr
      have ih := fkItems_get (n := n) hr
      cases hg : Dict.get n items.reverse with
      | none =>
        rw [hg] at ih
        intro fk' hfk'
        rcases List.mem_cons.1 hfk' with rfl | hfk'
        · exact hne
        · exact ih fk' hfk'
      | some v =>
        rw [hg] at ih
        obtain ⟨fk', rcs, a1, a2⟩ := ih
        exact ⟨fk', rcs, columnKey_cons a1, a2⟩
    unfold fkItems at h
    split at h
    · next c hc =>
      split at h
      · cases h
      · next rc rcs hrc =>
        split at h
        · cases h
        · next t ht =>
          obtain ⟨items', hi, rfl⟩ := Except.map_eq_ok.1 h
          have ih := fkItems_get (n := n) hi
          rw [List.reverse_cons, Dict.get_append]
          cases hg : Dict.get n items'.reverse with
          | some v =>
            rw [hg] at ih
            obtain ⟨fk', rcs', a1, a2⟩ := ih
            exact ⟨fk', rcs', columnKey_cons a1, a2⟩
          | none =>
            rw [hg] at ih
            by_cases hcn : c = n
            · subst hcn
              simp only [Option.none_or, Dict.get, if_true]
              exact ⟨fk, rcs, ⟨[], l, rfl, hc, ih⟩, hrc, ht⟩
            · simp only [Option.none_or, Dict.get, if_neg hcn]
              have := skip (by rw [hc]; simpa using hcn) hi
              rw [hg] at this
              exact this
    · next hc => exact skip (hc n) h

theorem columnKey_unique {l : List ForeignKey} {n : Str} {fk fk' : ForeignKey} (h : ColumnKey l n fk) (h' : ColumnKey l n fk') : fk = fk' := by
  obtain ⟨b, a, rfl, h2, h3⟩ := h
  obtain ⟨b', a', he, h2', h3'⟩ := h'
  rcases List.append_eq_append_iff.1 he with ⟨c, rfl, hc⟩ | ⟨c, rfl, hc⟩
  · cases c with
    | nil => exact (List.cons.inj hc).1
    | cons x c =>
      obtain ⟨rfl, rfl⟩ := List.cons.inj hc
      exact absurd h2' (h3 fk' (by simp))
  · cases c with
    | nil => exact (List.cons.inj hc).1.symm
    | cons x c =>
      obtain ⟨rfl, rfl⟩ := List.cons.inj hc
      exact absurd h2 (h3' fk (by simp))

theorem fkItems_iff : ∀ {l : List ForeignKey}, (∃ items, fkItems l = .ok items) ↔
    ∀ fk ∈ l, fk.columnReference.length = 1 → fk.refColumns ≠ [] ∧ fk.resource ≠ none
  | [] => by simp [fkItems]
  | fk :: l => by
    have ih := fkItems_iff (l := l)
    unfold fkItems
    simp only [List.mem_cons, forall_eq_or_imp]
    rw [← ih]
    split
    · next c hc =>
      rw [hc]
      split
      · next hrc => simp [hrc]
      · next rc rcs hrc =>
        split
        · next ht => simp [ht]
        · next t ht =>
          simp only [hrc, ht, List.length_singleton, ne_eq, reduceCtorEq, not_false_eq_true, and_self, imp_self, true_and]
          cases hf : fkItems l <;> simp [Except.map]
    · next hc =>
      have : ¬ fk.columnReference.length = 1 := by
        intro hl
        obtain ⟨c, hc'⟩ := List.length_eq_one_iff.1 hl
        exact hc c hc'
      simp [this]

/-! ## Descriptions of columns -/

theorem columnDesc_spec {c : Column} {desc : Str} (h : columnDesc (Dict.get descKey c.props.common) = .ok desc) : DescText c desc := by
  unfold DescText
  rw [show "dc:description".toList = descKey from rfl]
  cases hg : Dict.get descKey c.props.common with
  | none => rw [hg] at h; cases h; exact .inr ⟨rfl, rfl⟩
  | some j =>
    rw [hg] at h
    cases j with
    | str s =>
      refine .inl ⟨s, rfl, ?_⟩
      rw [← Except.ok.inj h, Py.replace_char]
      clear h hg
      induction s with
      | nil => rfl
      | cons a r ih => by_cases ha : a = '\n' <;> simp [ha, ih]
    | _ => cases h

/-- The text which is added for a reference. -/
theorem refText_eq (r : Option (Str × Str)) (desc : Str) : refText m r desc = match r with
    | none => .ok desc
    | some (col, table) => (anchor m table).map fun a =>
      addText desc ("References ".toList ++ mdLink (table ++ "::".toList ++ col) ("#table-".toList ++ a)) := by
  cases r with
  | none => rfl
  | some v =>
    unfold refText
    simp [mdLink]

theorem join_br (desc key ref : Str) :
    Py.join "<br>".toList ([desc, key, ref].filter fun t => !t.isEmpty) =
      (if ref = [] then (if key = [] then desc else addText desc key) else addText (if key = [] then desc else addText desc key) ref) := by
  unfold addText
  rcases desc with _ | ⟨a, desc⟩ <;> rcases key with _ | ⟨b, key⟩ <;> rcases ref with _ | ⟨c, ref⟩ <;> simp [Py.join]

theorem descCell_spec {sc : Schema} {c : Column} {items : List (Str × Str × Str)} (hi : fkItems sc.foreignKeys = .ok items) {cell : Str}
    (h : Markdown.descCell m c (Dict.ofPairs items) sc.primaryKey = .ok cell) : DescCell m sc c cell := by
  unfold Markdown.descCell at h
  obtain ⟨desc, h1, h2⟩ := Datatype.bind_ok h
  have hkey : ∃ key, (((∃ n ∈ sc.primaryKey.getD [], c.name = some n) ∧ key = "Primary key".toList) ∨
      ((∀ n ∈ sc.primaryKey.getD [], c.name ≠ some n) ∧ key = [])) ∧
      (if c.name.any fun n => (sc.primaryKey.getD []).contains n then addText desc "Primary key".toList else desc) =
        if key = [] then desc else addText desc key := by
    cases hk : c.name.any fun n => (sc.primaryKey.getD []).contains n with
    | true =>
      refine ⟨_, .inl ⟨?_, rfl⟩, ?_⟩
      · rw [Option.any_eq_true] at hk
        obtain ⟨n, hn, hc⟩ := hk
        exact ⟨n, by simpa using hc, hn⟩
      · rw [if_pos rfl, if_neg (by simp)]
    | false =>
      refine ⟨_, .inr ⟨?_, rfl⟩, by simp⟩
      intro n hn hc
      rw [hc] at hk
      simp [hn] at hk
  obtain ⟨key, hk1, hk2⟩ := hkey
  rw [hk2, refText_eq] at h2
  refine ⟨desc, key, ?_⟩
  have hget : ∀ n, KeyEntry sc.foreignKeys n (Dict.get n (Dict.ofPairs items)) := by
    intro n
    have := fkItems_get (n := n) hi
    rw [Dict.ofPairs, Dict.get_update]
    simpa [Dict.get] using this
  cases hn : c.name with
  | none =>
    rw [hn] at h2
    simp only [Option.bind_none] at h2
    cases h2
    exact ⟨[], columnDesc_spec h1, .inr ⟨by simp [hn], rfl⟩, by rw [← hn]; exact hk1, by rw [join_br]; simp⟩
  | some n =>
    rw [hn] at h2
    simp only [Option.bind_some] at h2
    have hke := hget n
    cases hg : Dict.get n (Dict.ofPairs items) with
    | none =>
      rw [hg] at h2 hke
      cases h2
      refine ⟨[], columnDesc_spec h1, .inr ⟨?_, rfl⟩, by rw [← hn]; exact hk1, by rw [join_br]; simp⟩
      intro n' hn'
      rw [hn] at hn'
      cases hn'
      exact hke
    | some v =>
      obtain ⟨rc, r⟩ := v
      rw [hg] at h2 hke
      obtain ⟨fk, rcs, k1, k2, k3⟩ := hke
      simp only at h2
      obtain ⟨a, ha, rfl⟩ := Except.map_eq_ok.1 h2
      obtain ⟨-, rfl⟩ := md_anchor_ok ha
      refine ⟨_, columnDesc_spec h1, .inl ⟨n, fk, rc, rcs, r, hn, k1, k2, k3, rfl⟩, by rw [← hn]; exact hk1, ?_⟩
      rw [join_br, if_neg (List.append_ne_nil_of_left_ne_nil (by decide) _)]

theorem colrow_spec {sc : Schema} {c : Column} {items : List (Str × Str × Str)} (hi : fkItems sc.foreignKeys = .ok items) {line : Str}
    (h : colrow ext m (Dict.ofPairs items) sc.primaryKey c = .ok line) : ColumnLine ext m sc c line := by
  unfold colrow at h
  obtain ⟨dt, h1, h2⟩ := Datatype.bind_ok h
  obtain ⟨desc, h3, h4⟩ := Datatype.bind_ok h2
  refine ⟨_, dt, desc, nameCell_spec c, typeCell_spec h1, descCell_spec hi h3, ?_⟩
  rw [← Except.ok.inj h4]
  simp [Py.join]

theorem formatText_iff {dt : Datatype} : (∃ f, Markdown.formatText m dt = .ok f) ↔ (dt.format.truthy = true → ∃ s, dt.format = .str s) := by
  unfold Markdown.formatText
  cases ht : dt.format.truthy with
  | false => simp
  | true =>
    simp only [Bool.not_true, Bool.false_eq_true, if_false, forall_const]
    cases hf : dt.format with
    | str s =>
      simp only [J.str.injEq, exists_eq', iff_true]
      split
      · exact ⟨_, rfl⟩
      · split <;> exact ⟨_, rfl⟩
    | _ => simp

theorem typeCell_iff {c : Column} : (∃ cell, Markdown.typeCell ext m c = .ok cell) ↔
    ∀ d, c.props.datatype = .dtype d → d.format.truthy = true → ∃ s, d.format = .str s := by
  have h0 : (∃ cell, Markdown.typeCell ext m c = .ok cell) ↔ ∃ dt, datatypeText ext m (ownDatatype c) = .ok dt := by
    unfold Markdown.typeCell
    cases datatypeText ext m (ownDatatype c) <;> simp [bind, Except.bind, pure, Except.pure]
  rw [h0]
  unfold ownDatatype
  cases hd : c.props.datatype with
  | dtype d =>
    simp only [PVal.dtype.injEq, forall_eq']
    rw [← formatText_iff (m := m)]
    exact map_exists
  | _ => simp [datatypeText]

theorem colrow_iff {sc : Schema} {c : Column} {items : List (Str × Str × Str)} (hi : fkItems sc.foreignKeys = .ok items) :
    (∃ line, colrow ext m (Dict.ofPairs items) sc.primaryKey c = .ok line) ↔ ColumnOk m sc.foreignKeys c := by
  have hget : ∀ n, KeyEntry sc.foreignKeys n (Dict.get n (Dict.ofPairs items)) := by
    intro n
    have := fkItems_get (n := n) hi
    rw [Dict.ofPairs, Dict.get_update]
    simpa [Dict.get] using this
  have hdesc : (∃ cell, Markdown.descCell m c (Dict.ofPairs items) sc.primaryKey = .ok cell) ↔
      (∀ j, Dict.get "dc:description".toList c.props.common = some j → ∃ s, j = .str s) ∧
      ∀ n fk r, c.name = some n → ColumnKey sc.foreignKeys n fk → fk.resource = some r → AnchorOk m r := by
    rw [show "dc:description".toList = descKey from rfl]
    unfold Markdown.descCell
    have hcd : (∃ s, columnDesc (Dict.get descKey c.props.common) = .ok s) ↔
        ∀ j, Dict.get descKey c.props.common = some j → ∃ s, j = .str s := by
      cases Dict.get descKey c.props.common with
      | none => simp [columnDesc]
      | some j => cases j <;> simp [columnDesc]
    rw [← hcd]
    have href : ∀ desc, (∃ cell, refText m (c.name.bind fun n => Dict.get n (Dict.ofPairs items)) desc = .ok cell) ↔
        ∀ n fk r, c.name = some n → ColumnKey sc.foreignKeys n fk → fk.resource = some r → AnchorOk m r := by
      intro desc
      cases hn : c.name with
      | none => simp [refText]
      | some n =>
        have hke := hget n
        simp only [Option.bind_some, Option.some.injEq]
        cases hg : Dict.get n (Dict.ofPairs items) with
        | none =>
          rw [hg] at hke
          simp only [refText, Except.ok.injEq, exists_eq', true_iff]
          rintro n' fk r rfl ⟨b, a, hb, hc, -⟩ -
          exact absurd hc (hke fk (by rw [hb]; simp))
        | some v =>
          obtain ⟨rc, r⟩ := v
          rw [hg] at hke
          obtain ⟨fk, rcs, k1, k2, k3⟩ := hke
          have : (∃ cell, refText m (some (rc, r)) desc = .ok cell) ↔ AnchorOk m r := by
            rw [← md_anchor_iff, refText_eq]
            simp only
            generalize (fun a => addText desc _) = f
            exact map_exists
          rw [this]
          constructor
          · rintro ha n' fk' r' rfl hk hr
            rw [← columnKey_unique k1 hk, k3] at hr
            cases hr
            exact ha
          · intro ha
            exact ha n fk r rfl k1 k3
    cases hc : columnDesc (Dict.get descKey c.props.common) with
    | error e => simp [bind, Except.bind]
    | ok desc =>
      simp only [Except.ok.injEq, exists_eq', true_and]
      exact href _
  unfold ColumnOk
  rw [← hdesc, ← typeCell_iff (ext := ext)]
  unfold colrow
  cases Markdown.typeCell ext m c with
  | error e => simp [bind, Except.bind]
  | ok dt =>
    cases Markdown.descCell m c (Dict.ofPairs items) sc.primaryKey <;> simp [bind, Except.bind, pure, Except.pure]

/-! ## Common properties -/

theorem get_erase_other {α : Type} {k k' : Str} (hne : k ≠ k') (l : List (Str × α)) : Dict.get k (Dict.erase k' l) = Dict.get k l := by
  induction l with
  | nil => rfl
  | cons p l ih =>
    unfold Dict.erase at ih ⊢
    by_cases hp : p.1 = k'
    · rw [List.filter_cons_of_neg (by simp [hp]), ih]
      obtain ⟨a, b⟩ := p
      simp only at hp
      subst hp
      simp [Dict.get, Ne.symm hne]
    · rw [List.filter_cons_of_pos (by simp [hp])]
      obtain ⟨a, b⟩ := p
      simp only [Dict.get, ih]

theorem erase_erase {α : Type} (k k' : Str) (l : List (Str × α)) :
    Dict.erase k' (Dict.erase k l) = l.filter fun p => decide (p.1 ≠ k) && decide (p.1 ≠ k') := by
  unfold Dict.erase
  rw [List.filter_filter]
  apply List.filter_congr
  intro p _
  simp [Bool.and_comm]

theorem image_ne_desc : imageKey ≠ descKey := by decide

theorem properties_spec {common : List (Str × J)} {text : Str} (h : properties m common = .ok text) : PropertiesText m common text := by
  unfold properties at h
  obtain ⟨desc, h1, h2⟩ := Datatype.bind_ok h
  obtain ⟨img, h3, h4⟩ := Datatype.bind_ok h2
  rw [get_erase_other image_ne_desc] at h3
  simp only [erase_erase] at h4
  unfold PropertiesText
  refine ⟨desc, img, _, (Except.ok.inj h4).symm, ?_, ?_, ?_⟩
  · rw [show "dc:description".toList = descKey from rfl]
    cases hg : Dict.get descKey (common.filter fun p => p.2.truthy) with
    | none => rw [hg] at h1; cases h1; exact .inr ⟨rfl, rfl⟩
    | some j =>
      rw [hg] at h1
      cases j with
      | str s => cases h1; exact .inl ⟨s, rfl, rfl⟩
      | _ => cases h1
  · rw [show "https://schema.org/image".toList = imageKey from rfl]
    cases hg : Dict.get imageKey (common.filter fun p => p.2.truthy) with
    | none => rw [hg] at h3; cases h3; exact .inr ⟨rfl, rfl⟩
    | some j =>
      rw [hg] at h3
      obtain ⟨l, hl, rfl⟩ := Except.map_eq_ok.1 h3
      exact .inl ⟨j, l, rfl, hl, rfl⟩
  · rw [show "dc:description".toList = descKey from rfl, show "https://schema.org/image".toList = imageKey from rfl]
    split
    · next he => exact .inl ⟨List.isEmpty_iff.1 he, rfl⟩
    · next he => exact .inr ⟨fun hn => he (by rw [hn]; rfl), rfl⟩

theorem imageLine_iff {j : J} : (∃ l, imageLine m j = .ok l) ↔ (∃ s, j = .str s) ∨ ∃ o, j = .obj o := by
  cases j with
  | str s => exact ⟨fun _ => .inl ⟨s, rfl⟩, fun _ => ⟨_, rfl⟩⟩
  | obj o => exact ⟨fun _ => .inr ⟨o, rfl⟩, fun _ => ⟨_, rfl⟩⟩
  | _ =>
    constructor
    · rintro ⟨l, h⟩
      cases h
    · rintro (⟨_, h⟩ | ⟨_, h⟩) <;> cases h

theorem properties_iff {common : List (Str × J)} : (∃ text, properties m common = .ok text) ↔ PropertiesOk common := by
  constructor
  · rintro ⟨text, h⟩
    unfold properties at h
    obtain ⟨desc, h1, h2⟩ := Datatype.bind_ok h
    obtain ⟨img, h3, h4⟩ := Datatype.bind_ok h2
    rw [get_erase_other image_ne_desc] at h3
    constructor
    · intro j hj
      have hj : Dict.get descKey (common.filter fun p => p.2.truthy) = some j := hj
      rw [hj] at h1
      cases j with
      | str s => exact ⟨s, rfl⟩
      | _ => cases h1
    · intro j hj
      have hj : Dict.get imageKey (common.filter fun p => p.2.truthy) = some j := hj
      rw [hj] at h3
      obtain ⟨l, hl, -⟩ := Except.map_eq_ok.1 h3
      exact imageLine_iff.1 ⟨l, hl⟩
  · rintro ⟨h1, h2⟩
    unfold properties
    obtain ⟨desc, hd⟩ : ∃ desc, descLines (Dict.get descKey (common.filter fun p => p.2.truthy)) = .ok desc := by
      cases hg : Dict.get descKey (common.filter fun p => p.2.truthy) with
      | none => exact ⟨_, rfl⟩
      | some j =>
        obtain ⟨s, rfl⟩ := h1 j hg
        exact ⟨_, rfl⟩
    obtain ⟨img, hi⟩ : ∃ img, imageLines m (Dict.get imageKey (common.filter fun p => p.2.truthy)) = .ok img := by
      cases hg : Dict.get imageKey (common.filter fun p => p.2.truthy) with
      | none => exact ⟨_, rfl⟩
      | some j =>
        obtain ⟨l, hl⟩ := imageLine_iff (m := m).2 (h2 j hg)
        exact ⟨[l], Except.map_eq_ok.2 ⟨l, hl, rfl⟩⟩
    simp only [hd, get_erase_other image_ne_desc, hi, bind, Except.bind, pure, Except.pure]
    exact ⟨_, rfl⟩

/-! ## Sections -/

/-- The data file of a table is linked if this is requested and the file exists (relative to the metadata file). -/
def Linked (d : Disk) (linkFiles : Bool) (fname : Option PPath) (url : Str) : Prop :=
  linkFiles = true ∧ ∃ p, fname = some p ∧ (d.isDir (p.parent.join url) = true ∨ ∃ f, d.files (p.parent.join url) = some f)

theorem linked_iff {fname : Option PPath} {url : Str} :
    (linkFiles && fname.any fun p => exists' d (p.parent.join url)) = true ↔ Linked d linkFiles fname url := by
  unfold Linked exists'
  rw [Bool.and_eq_true, Option.any_eq_true]
  simp only [Bool.or_eq_true, Option.isSome_iff_exists]

theorem tableLines_spec {fname : Option PPath} {g : GroupD} {t : TableD} {lines : List Str}
    (h : tableLines ext m d linkFiles fname g t = .ok lines) : TableSection ext m (Linked d linkFiles fname) g t lines := by
  unfold tableLines at h
  obtain ⟨fks, h1, h⟩ := Datatype.bind_ok h
  obtain ⟨a, h2, h⟩ := Datatype.bind_ok h
  obtain ⟨props, h3, h⟩ := Datatype.bind_ok h
  obtain ⟨dialect, h4, h⟩ := Datatype.bind_ok h
  obtain ⟨rows, h5, h⟩ := Datatype.bind_ok h
  obtain ⟨-, rfl⟩ := md_anchor_ok h2
  have hrows : All2 (ColumnLine ext m t.like.schema) t.like.schema.columns rows := by
    exact md_all2_imp (fun c line hc => colrow_spec h1 hc) (mapRes_all2 h5)
  cases hd : t.like.dialect.or g.like.dialect with
  | none => rw [hd] at h4; cases h4
  | some dl =>
    rw [hd] at h4
    refine ⟨_, if (linkFiles && fname.any fun p => exists' d (p.parent.join (t.like.url.getD []))) then
        mdLink (t.like.url.getD []) (t.like.url.getD []) ++ ['\n'] else t.like.url.getD [], props, dl, dialect, rows, rfl, ?_,
        properties_spec h3, ?_, ?_, hrows, ?_⟩
    · by_cases hl : (linkFiles && fname.any fun p => exists' d (p.parent.join (t.like.url.getD []))) = true
      · exact .inl ⟨linked_iff.1 hl, by rw [if_pos hl]⟩
      · exact .inr ⟨fun h => hl (linked_iff.2 h), by rw [if_neg hl]⟩
    · cases ht : t.like.dialect with
      | some d' => rw [ht] at hd; exact .inl (by simpa using hd)
      | none => rw [ht] at hd; exact .inr ⟨rfl, by simpa using hd⟩
    · rw [← Except.ok.inj h4]
      split
      · next he => exact .inl ⟨List.isEmpty_iff.1 he, rfl⟩
      · next he => exact .inr ⟨fun hn => he (by rw [hn]; rfl), by simp [mdCode]⟩
    · rw [← Except.ok.inj h]
      cases (linkFiles && fname.any fun p => exists' d (p.parent.join (t.like.url.getD []))) <;> simp [mdLink]

theorem tableLines_iff {fname : Option PPath} {g : GroupD} {t : TableD} :
    (∃ lines, tableLines ext m d linkFiles fname g t = .ok lines) ↔ TableOk m g t := by
  constructor
  · rintro ⟨lines, h⟩
    unfold tableLines at h
    obtain ⟨fks, h1, h⟩ := Datatype.bind_ok h
    obtain ⟨a, h2, h⟩ := Datatype.bind_ok h
    obtain ⟨props, h3, h⟩ := Datatype.bind_ok h
    obtain ⟨dialect, h4, h⟩ := Datatype.bind_ok h
    obtain ⟨rows, h5, h⟩ := Datatype.bind_ok h
    refine ⟨?_, md_anchor_iff.1 ⟨a, h2⟩, properties_iff.1 ⟨props, h3⟩, fkItems_iff.1 ⟨fks, h1⟩, ?_⟩
    · cases hd : t.like.dialect with
      | some x => exact .inl (by simp)
      | none =>
        right
        intro hg
        rw [hd, hg] at h4
        cases h4
    · intro c hc
      obtain ⟨line, hl⟩ := mapRes_exists.1 ⟨rows, h5⟩ c hc
      exact (colrow_iff h1).1 ⟨line, hl⟩
  · rintro ⟨h1, h2, h3, h4, h5⟩
    obtain ⟨fks, h4⟩ := fkItems_iff.2 h4
    obtain ⟨a, h2⟩ := md_anchor_iff.2 h2
    obtain ⟨props, h3⟩ := (properties_iff (m := m)).2 h3
    obtain ⟨rows, h5⟩ := mapRes_exists.2 fun c hc => (colrow_iff (ext := ext) h4).2 (h5 c hc)
    obtain ⟨dl, hd⟩ : ∃ dl, t.like.dialect.or g.like.dialect = some dl := by
      cases hd : t.like.dialect with
      | some x => exact ⟨x, rfl⟩
      | none =>
        rw [hd] at h1
        cases hg : g.like.dialect with
        | some x => exact ⟨x, rfl⟩
        | none => rw [hg] at h1; simp at h1
    unfold tableLines
    simp only [h4, h2, h3, hd, dialectLines, h5, bind, Except.bind, pure, Except.pure]
    exact ⟨_, rfl⟩

theorem groupLines_spec {fname : Option PPath} {g : GroupD} {lines : List Str}
    (h : groupLines m linkFiles fname g = .ok lines) : GroupSection m linkFiles fname g lines := by
  unfold groupLines at h
  obtain ⟨props, h1, h2⟩ := Datatype.bind_ok h
  refine ⟨_, _, props, ?_, ?_, ?_, (Except.ok.inj h2).symm⟩
  · rw [show "dc:title".toList = titleKey from rfl]
    cases Dict.get titleKey g.like.props.common with
    | none => exact .inr ⟨rfl, rfl⟩
    | some j => exact .inl ⟨j, rfl, rfl⟩
  · cases fname with
    | none => exact .inr ⟨.inl rfl, rfl⟩
    | some p =>
      cases linkFiles with
      | true => exact .inl ⟨p, rfl, rfl, by simp [mdLink]⟩
      | false => exact .inr ⟨.inr rfl, rfl⟩
  · have := properties_spec h1
    rw [erase_eq] at this
    exact this

/-- **C82** The documentation consists of what is said about the dataset, followed by a section for each table of the dataset, in order: its
name with an anchor, its properties, its dialect, and one row for each of its columns, in order, with name, datatype and description. -/
theorem C82_sections {g : FGroup} {text : Str} (h : metadata2markdown ext m d linkFiles g = .ok text) :
    ∃ head sections, GroupSection m linkFiles g.fname g.desc head ∧
      All2 (TableSection ext m (Linked d linkFiles g.fname) g.desc) g.desc.tables sections ∧
      text = Py.join ['\n'] (head ++ sections.flatten) := by
  unfold metadata2markdown at h
  obtain ⟨head, h1, h⟩ := Datatype.bind_ok h
  obtain ⟨sections, h2, h⟩ := Datatype.bind_ok h
  refine ⟨head, sections, groupLines_spec h1, ?_, (Except.ok.inj h).symm⟩
  exact md_all2_imp (fun t lines ht => tableLines_spec ht) (mapRes_all2 h2)

theorem groupLines_iff {fname : Option PPath} {g : GroupD} :
    (∃ lines, groupLines m linkFiles fname g = .ok lines) ↔
      PropertiesOk (g.like.props.common.filter fun p => decide (p.1 ≠ "dc:title".toList)) := by
  rw [← properties_iff (m := m)]
  rw [show (g.like.props.common.filter fun p => decide (p.1 ≠ "dc:title".toList)) = Dict.erase titleKey g.like.props.common from
    (erase_eq _ _).symm]
  constructor
  · rintro ⟨lines, h⟩
    obtain ⟨props, h1, h2⟩ := Datatype.bind_ok h
    exact ⟨props, h1⟩
  · rintro ⟨text, h⟩
    unfold groupLines
    simp only [h, bind, Except.bind, pure, Except.pure]
    exact ⟨_, rfl⟩

/-- **C82** `metadata2markdown` succeeds iff all tables have a dialect (or the dataset has one), descriptions are texts, images texts or
objects, formats of datatypes texts, foreign keys of one column reference a column of a table, and the names of tables have no control
characters. -/
theorem C82_succeeds {g : FGroup} : (∃ text, metadata2markdown ext m d linkFiles g = .ok text) ↔
    PropertiesOk (g.desc.like.props.common.filter fun p => decide (p.1 ≠ "dc:title".toList)) ∧ ∀ t ∈ g.desc.tables, TableOk m g.desc t := by
  rw [← groupLines_iff (m := m) (linkFiles := linkFiles) (fname := g.fname)]
  have h2 : (∀ t ∈ g.desc.tables, TableOk m g.desc t) ↔
      ∃ ls, mapRes (tableLines ext m d linkFiles g.fname g.desc) g.desc.tables = .ok ls := by
    rw [mapRes_exists]
    exact ⟨fun h t ht => tableLines_iff.2 (h t ht), fun h t ht => tableLines_iff.1 (h t ht)⟩
  rw [h2]
  constructor
  · rintro ⟨text, h⟩
    obtain ⟨head, h1, h⟩ := Datatype.bind_ok h
    obtain ⟨sections, h2, h⟩ := Datatype.bind_ok h
    exact ⟨⟨_, h1⟩, _, h2⟩
  · rintro ⟨⟨head, h1⟩, ls, h2⟩
    unfold metadata2markdown
    simp only [h1, h2, bind, Except.bind, pure, Except.pure]
    exact ⟨_, rfl⟩

end
end Csvw.Props

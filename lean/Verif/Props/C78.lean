import Verif.Model.Expand
import Verif.Lemmas.Files
import Verif.Lemmas.DateTimes
/-!
# C78: expanding URI templates
-/

namespace Csvw.Props
open Csvw Spec

/-! ## Namespaces -/

theorem ns_separate : ∀ p ∈ namespaces, ∀ q ∈ namespaces, p ≠ q → q.2.toList.isPrefixOf p.2.toList = false ∧ p.2.toList.isPrefixOf q.2.toList = false ∧
    (p.1.toList ++ [':']).isPrefixOf (q.1.toList ++ [':']) = false := by
  decide +kernel

theorem ns_prefix_chars : ∀ p ∈ namespaces, ':' ∉ p.1.toList ∧ p.2.toList ≠ [] := by decide +kernel

theorem isPrefixOf_append_of_not {a b c : Str} (h1 : a.isPrefixOf b = false) (h2 : b.isPrefixOf a = false) : a.isPrefixOf (b ++ c) = false := by
  induction a generalizing b with
  | nil => cases b <;> simp at h1
  | cons x xs ih =>
    cases b with
    | nil => simp at h2
    | cons y ys =>
      simp only [List.cons_append, List.isPrefixOf_cons₂, Bool.and_eq_false_iff] at *
      rcases h1 with h1 | h1
      · exact .inl h1
      · rcases h2 with h2 | h2
        · left
          cases hxy : x == y with
          | false => rfl
          | true => rw [beq_iff_eq] at hxy; subst hxy; simp at h2
        · exact .inr (ih h1 h2)

theorem isPrefixOf_self_append (a b : Str) : a.isPrefixOf (a ++ b) = true := by
  induction a with
  | nil => simp
  | cons x xs ih => simpa using ih

theorem find_only {α : Type} {f : α → Bool} {p : α} : ∀ {l : List α}, p ∈ l → f p = true → (∀ q ∈ l, q ≠ p → f q = false) → l.find? f = some p := by
  intro l
  induction l with
  | nil => intro h; cases h
  | cons a r ih =>
    intro hm hp ho
    by_cases ha : f a = true
    · have : a = p := by
        apply Classical.byContradiction
        intro hne
        rw [ho a List.mem_cons_self hne] at ha
        cases ha
      rw [List.find?_cons_of_pos ha, this]
    · rw [List.find?_cons_of_neg ha]
      have hne : a ≠ p := by rintro rfl; exact ha hp
      rcases List.mem_cons.1 hm with h | h
      · exact absurd h.symm hne
      · exact ih h hp fun q hq => ho q (List.mem_cons_of_mem _ hq)

theorem find_prefix {p : String × String} (hp : p ∈ namespaces) (x : Str) :
    (namespaces.find? fun q => (q.1.toList ++ [':']).isPrefixOf (p.1.toList ++ ':' :: x)) = some p := by
  have e : p.1.toList ++ ':' :: x = (p.1.toList ++ [':']) ++ x := by simp
  refine find_only hp (by rw [e]; exact isPrefixOf_self_append _ _) ?_
  intro q hq hne
  rw [e]
  exact isPrefixOf_append_of_not (ns_separate q hq p hp hne).2.2 (ns_separate p hp q hq (Ne.symm hne)).2.2

theorem find_url {p : String × String} (hp : p ∈ namespaces) (x : Str) :
    (namespaces.find? fun q => q.2.toList.isPrefixOf (p.2.toList ++ x)) = some p := by
  refine find_only hp (isPrefixOf_self_append _ _) ?_
  intro q hq hne
  exact isPrefixOf_append_of_not (ns_separate q hq p hp hne).2.1 (ns_separate q hq p hp hne).1

theorem replaceGo_absent {old new : Str} : ∀ {s : Str}, Py.contains old s = false → Py.replaceGo old new 0 s = s := by
  intro s
  induction s with
  | nil => intro _; rfl
  | cons c cs ih =>
    intro h
    unfold Py.contains at h
    rw [Bool.or_eq_false_iff] at h
    unfold Py.replaceGo
    rw [if_neg (by rw [h.1]; simp), ih h.2]

theorem replaceGo_past {old new : Str} (a b : Str) : Py.replaceGo old new a.length (a ++ b) = Py.replaceGo old new 0 b := by
  induction a with
  | nil => rfl
  | cons c cs ih => simpa [Py.replaceGo] using ih

theorem replace_prefix {old new x : Str} (ho : old ≠ []) (h : Py.contains old x = false) : Py.replace old new (old ++ x) = new ++ x := by
  unfold Py.replace
  cases old with
  | nil => exact absurd rfl ho
  | cons c cs =>
    rw [List.cons_append]
    unfold Py.replaceGo
    have hp := isPrefixOf_self_append (c :: cs) x
    rw [List.cons_append] at hp
    rw [if_pos hp]
    have : (c :: cs).length - 1 = cs.length := rfl
    rw [this, replaceGo_past, replaceGo_absent h]

/-- **C78** A URL which begins with the URL of a namespace, abbreviated. -/
theorem C78_abbreviated {p : String × String} (hp : p ∈ namespaces) {x : Str} (hx : Py.contains p.2.toList x = false) :
    abbreviate (p.2.toList ++ x) = p.1.toList ++ ':' :: x := by
  unfold abbreviate
  rw [find_url hp]
  simp only
  rw [replace_prefix (ns_prefix_chars p hp).2 hx]
  simp

/-- **C78** Other strings are not changed. -/
theorem C78_not_abbreviated {s : Str} (hs : ∀ p ∈ namespaces, ¬ p.2.toList <+: s) : abbreviate s = s := by
  unfold abbreviate
  have : (namespaces.find? fun p => p.2.toList.isPrefixOf s) = none := by
    rw [List.find?_eq_none]
    intro p hp h
    exact hs p hp (List.isPrefixOf_iff_prefix.1 h)
  rw [this]

section
variable {fx : FExt} {tx : TmplExpand} {d : Disk} {base : LinkBase} {url : Option Str} {row : RowDict} {n : Nat} {name : Option Str}

/-- **C78** A template which is a QName: the URL, or, if wanted, the QName, whatever the row and the location of the table. -/
theorem C78_qname {p : String × String} (hp : p ∈ namespaces) {x : Str} (hx : ':' ∉ x) :
    expandX fx tx d base url (some (p.1.toList ++ ':' :: x)) row n name false = .ok (.str (p.2.toList ++ x)) ∧
    (Py.contains p.2.toList x = false →
      expandX fx tx d base url (some (p.1.toList ++ ':' :: x)) row n name true = .ok (.str (p.1.toList ++ ':' :: x))) := by
  have hs : (Py.split [':'] (p.1.toList ++ ':' :: x)).getD 1 [] = x := by
    rw [DateFmt.split_two (ns_prefix_chars p hp).1 hx]; rfl
  have key : ∀ q, expandX fx tx d base url (some (p.1.toList ++ ':' :: x)) row n name q =
      .ok (.str (if q then abbreviate (p.2.toList ++ x) else p.2.toList ++ x)) := by
    intro q
    unfold expandX
    simp only [find_prefix hp, hs]
  refine ⟨key false, fun hc => ?_⟩
  rw [key true, if_pos rfl, C78_abbreviated hp hc]

/-- Not a QName. -/
def NoQName (u : Str) : Prop := ∀ p ∈ namespaces, ¬ (p.1.toList ++ [':']) <+: u

theorem expandX_other {u : Str} (hu : NoQName u) {q : Bool} : expandX fx tx d base url (some u) row n name q =
    if (Dict.keys row).any takenNames.contains then .error .typeError
    else match tx u row n name with
      | .error e => .error e
      | .ok s => match resolveX fx d s (locationX fx d base url) with
        | .str s => .ok (.str (if q then abbreviate s else s))
        | r => .ok r := by
  have : (namespaces.find? fun p => (p.1.toList ++ [':']).isPrefixOf u) = none := by
    rw [List.find?_eq_none]
    intro p hp h
    exact hu p hp (List.isPrefixOf_iff_prefix.1 h)
  unfold expandX
  simp only [this]
  by_cases hk : (Dict.keys row).any takenNames.contains = true
  · rw [if_pos hk, if_pos hk]
  · rw [if_neg hk, if_neg hk]
    cases tx u row n name with
    | error e => rfl
    | ok s =>
      simp only
      cases resolveX fx d s (locationX fx d base url) <;> rfl

/-- The names of columns do not clash with arguments of `uritemplate`. -/
def NamesFree (row : RowDict) : Prop := ∀ k ∈ Dict.keys row, k ≠ "self".toList ∧ k ≠ "_row".toList ∧ k ≠ "_name".toList

theorem free_iff : (Dict.keys row).any takenNames.contains = false ↔ NamesFree row := by
  unfold NamesFree takenNames
  rw [List.any_eq_false]
  constructor
  · intro h k hk
    have := h k hk
    simp only [List.contains_cons, List.contains_nil, Bool.or_false, Bool.or_eq_true, beq_iff_eq, not_or] at this
    exact this
  · intro h k hk
    simp only [List.contains_cons, List.contains_nil, Bool.or_false, Bool.or_eq_true, beq_iff_eq, not_or]
    exact h k hk

/-- **C78** Other templates, for a table the data of which are in a file `p`: if the expanded template is a URL, this is the result; otherwise
it is taken for a path relative to the directory of the data file. -/
theorem C78_file {u s p : Str} (hu : NoQName u) (hf : NamesFree row) (hs : tx u row n name = .ok s) {dir : PPath} (hdir : d.isDir dir = true)
    (hp : isUrl p = false) (hnd : d.isDir (dir.join p) = false) (q : Bool) :
    expandX fx tx d (.dir dir) (some p) (some u) row n name q =
      .ok (if isUrl s then .str (if q then abbreviate s else s) else .path ((dir.join p).parent.join s)) := by
  rw [expandX_other hu, if_neg (by rw [free_iff.2 hf]; simp), hs]
  simp only [locationX, LinkBase.val, resolveX, hp, hdir, Bool.false_eq_true, if_false, if_true, hnd]
  cases isUrl s <;> rfl

/-- **C78** … for a table with a URL (resolved against the base URL): the expanded template is resolved against the URL of the table. -/
theorem C78_url {u s p b : Str} (hu : NoQName u) (hf : NamesFree row) (hs : tx u row n name = .ok s) (hb : b ≠ []) (hj : fx.urljoin b p ≠ []) (q : Bool) :
    expandX fx tx d (.url b) (some p) (some u) row n name q =
      .ok (.str (if q then abbreviate (fx.urljoin (fx.urljoin b p) s) else fx.urljoin (fx.urljoin b p) s)) := by
  rw [expandX_other hu, if_neg (by rw [free_iff.2 hf]; simp), hs]
  simp only [locationX, LinkBase.val, resolveX, if_neg hb, if_neg hj]

/-- **C78** … for a description without a URL (a table group): the expanded template is resolved against the base. -/
theorem C78_group {u s : Str} (hu : NoQName u) (hf : NamesFree row) (hs : tx u row n name = .ok s) (q : Bool) :
    (∀ dir, d.isDir dir = true → expandX fx tx d (.dir dir) none (some u) row n name q =
      .ok (if isUrl s then .str (if q then abbreviate s else s) else .path (dir.join s))) ∧
    (∀ b, b ≠ [] → expandX fx tx d (.url b) none (some u) row n name q =
      .ok (.str (if q then abbreviate (fx.urljoin b s) else fx.urljoin b s))) ∧
    expandX fx tx d .none none (some u) row n name q = .ok (.str (if q then abbreviate s else s)) := by
  refine ⟨fun dir hdir => ?_, fun b hb => ?_, ?_⟩ <;> rw [expandX_other hu, if_neg (by rw [free_iff.2 hf]; simp), hs]
  · simp only [locationX, LinkBase.val, resolveX, hdir, if_true]
    cases isUrl s <;> rfl
  · simp only [locationX, LinkBase.val, resolveX, if_neg hb]
  · rfl

/-- **C78 is violated** for invalid templates if there is no URL: an exception. -/
theorem C78_violated_no_url (q : Bool) : expandX fx tx d base none none row n name q = .error .attributeError := rfl

/-- What `open` makes of the result of `expand`. -/
def XVal.loc : XVal → Loc
  | .str s => Loc.ofStr s
  | .path p => .file p

/-- **C78** An invalid template gives the location from which the data are read, if the table has one (`Table.location`, C75). -/
theorem C78_invalid {t : Table} {fname : Option PPath} {b : LinkBase} (hb : baseOf fx t.props.atProps (t.group.map fun g => g.1.atProps) fname = .ok b)
    (q : Bool) : ∃ v, expandX fx tx d b (some t.url) none row n name q = .ok v ∧ t.location fx d fname = .ok (XVal.loc v) := by
  refine ⟨resolveX fx d t.url b.val, rfl, ?_⟩
  unfold Table.location
  rw [hb]
  simp only
  cases b with
  | none => rfl
  | url s => rfl
  | dir p =>
    simp only [resolveLink, LinkBase.val, resolveX]
    by_cases h : isUrl t.url = true
    · rw [if_pos h, if_pos h, XVal.loc, Loc.ofStr, if_pos h]
    · rw [if_neg h, if_neg h, XVal.loc]

/-- **C78 is violated** for QNames with variables: they are not expanded. -/
theorem C78_violated_variables (q : Bool) :
    expandX fx tx d base url (some "schema:{a}".toList) row n name q = .ok (.str (if q then "schema:{a}".toList else "http://schema.org/{a}".toList)) := by
  have h := C78_qname (fx := fx) (tx := tx) (d := d) (base := base) (url := url) (row := row) (n := n) (name := name)
    (p := ("schema", "http://schema.org/")) (by decide +kernel) (x := "{a}".toList) (by decide)
  cases q
  · exact h.1
  · exact h.2 (by decide)

/-- **C78 is violated** for QNames with a second colon: the rest is lost. -/
theorem C78_violated_colon : expandX fx tx d base url (some "schema:a:b".toList) row n name false = .ok (.str "http://schema.org/a".toList) := by
  unfold expandX
  have := find_prefix (p := ("schema", "http://schema.org/")) (by decide +kernel) "a:b".toList
  have e : ("schema", "http://schema.org/").1.toList ++ ':' :: "a:b".toList = "schema:a:b".toList := by decide
  rw [e] at this
  simp only [this]
  rfl

/-- **C78 is violated** for tables with a column called `self`, `_row` or `_name`: no template which is not a QName can be expanded. -/
theorem C78_violated_names {u : Str} (hu : NoQName u) (h : ¬ NamesFree row) (q : Bool) :
    expandX fx tx d base url (some u) row n name q = .error .typeError := by
  rw [expandX_other hu, if_pos]
  cases hk : (Dict.keys row).any takenNames.contains with
  | true => rfl
  | false => exact absurd (free_iff.1 hk) h

/-- **C78 is violated** for `@base` in the `@context` of a group: the tables of the group, which have no `@context` of their own, are located
without it, although the group itself is. -/
theorem C78_violated_context {at_ : List (Str × J)} {b c : Str} {f : Option PPath} (h1 : Dict.get "base".toList at_ = some (.str b))
    (h2 : Dict.get "context".toList at_ = some (.arr [.str "http://www.w3.org/ns/csvw".toList, .obj [("@base".toList, .str c)]]))
    (hb : b ≠ []) (hc : c ≠ []) : baseOf fx at_ none f = .ok (.url (fx.urljoin b c)) ∧ baseOf fx [] (some at_) f = .ok (.url b) := by
  constructor
  · unfold baseOf
    simp only [Option.getD_none, h1, h2]
    have : contextBase [.str "http://www.w3.org/ns/csvw".toList, .obj [("@base".toList, .str c)]] = some (.str c) := by
      simp [contextBase, Dict.get]
    rw [this]
    simp only [if_neg hb, if_neg hc]
  · unfold baseOf
    simp only [Option.getD_some, h1, Dict.get]

/-! ## Examples -/

example : NoQName "#{a}".toList ∧ NoQName "http://example.org/{a}".toList ∧ ¬ NoQName "schema:{a}".toList := by
  unfold NoQName; decide +kernel

/-- **C78** For example, `#{a}` for the row `a = 1` of the table `t.csv`, which is described in the directory `/d`. -/
theorem C78_example (hs : tx "#{a}".toList [("a".toList, .one (.str "1".toList))] 1 none = .ok "#1".toList)
    (hd : d.isDir (.ofStr "/d".toList) = true) (hf : d.isDir (.ofStr "/d/t.csv".toList) = false) (q : Bool) :
    expandX fx tx d (.dir (.ofStr "/d".toList)) (some "t.csv".toList) (some "#{a}".toList) [("a".toList, .one (.str "1".toList))] 1 none q =
      .ok (.path (.ofStr "/d/#1".toList)) := by
  rw [C78_file (by unfold NoQName; decide +kernel) (by unfold NamesFree; decide) hs hd (by decide +kernel) (by
    have : (PPath.ofStr "/d".toList).join "t.csv".toList = .ofStr "/d/t.csv".toList := by decide +kernel
    rw [this]; exact hf) q]
  have h1 : isUrl "#1".toList = false := by decide +kernel
  have h2 : ((PPath.ofStr "/d".toList).join "t.csv".toList).parent.join "#1".toList = .ofStr "/d/#1".toList := by decide +kernel
  rw [h1, h2]
  rfl

end
end Csvw.Props

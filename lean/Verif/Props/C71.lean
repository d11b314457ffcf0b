import Verif.Model.NamedTuple
import Verif.Props.C08_C09
import Verif.Props.C16
/-!
# C71: reading rows as named tuples

A tuple is the list of its fields with their values.
-/

namespace Csvw.Props
open Dsv Names CsvLib

/-- A header is admissible for named tuples: the normalized names of the fields, which are `names`, begin with a letter, are not
keywords, and are pairwise different. -/
structure TupleNames (u : Unicode) (header names : List Str) : Prop where
  normalized : Spec.All2 (fun h n => normalizeName u h = .ok n) header names
  letter : ∀ n ∈ names, ∃ c cs, n = c :: cs ∧ (('a' ≤ c ∧ c ≤ 'z') ∨ ('A' ≤ c ∧ c ≤ 'Z'))
  notKeyword : ∀ n ∈ names, n ∉ kwlist
  distinct : names.Nodup

theorem normalizeAll_iff (u : Unicode) (h ns : List Str) :
    normalizeAll u h = .ok ns ↔ Spec.All2 (fun h n => normalizeName u h = .ok n) h ns := by
  induction h generalizing ns with
  | nil =>
    constructor
    · intro e; cases e; exact .nil
    · intro e; cases e; rfl
  | cons a as ih =>
    simp only [normalizeAll]
    constructor
    · intro e
      split at e
      · cases e
      · next b hb =>
        split at e
        · cases e
        · next bs hbs => cases e; exact .cons hb ((ih _).1 hbs)
    · intro e
      cases e with
      | cons hb hbs => simp only [hb, (ih _).2 hbs]

theorem all2_mem {α β : Type} {R : α → β → Prop} {as : List α} {bs : List β} (h : Spec.All2 R as bs) {b : β} (hb : b ∈ bs) :
    ∃ a ∈ as, R a b := by
  induction h with
  | nil => cases hb
  | cons h _ ih =>
    rcases List.mem_cons.1 hb with rfl | hb
    · exact ⟨_, by simp, h⟩
    · obtain ⟨a, h1, h2⟩ := ih hb; exact ⟨a, by simp [h1], h2⟩

/-- For normalized names the checks of `namedtuple` are those of `TupleNames`. -/
theorem check_iff {u : Unicode} {h ns : List Str} (hn : Spec.All2 (fun h n => normalizeName u h = .ok n) h ns) :
    namedtupleCheck ns = .ok () ↔ TupleNames u h ns := by
  have hid : ∀ n ∈ ns, Identifier n := by
    intro n hm
    obtain ⟨a, _, ha⟩ := all2_mem hn hm
    exact C16_normalized_is_identifier u a n ha
  unfold namedtupleCheck
  have hchars : ∀ n ∈ ns, n.all (fun c => isLetter c || isDigit c || c == '_') = true := by
    intro n hm
    obtain ⟨c, cs, _, _, h⟩ := hid n hm
    rw [List.all_eq_true]
    intro x hx
    simp only [Bool.or_eq_true, beq_iff_eq, isLetter_iff, isDigit_iff]
    rcases h x hx with h | h | h | h <;> simp [h]
  constructor
  · intro h1
    split at h1
    · next hc =>
      simp only [Bool.and_eq_true, List.all_eq_true, decide_eq_true_eq] at hc
      refine ⟨hn, ?_, ?_, hc.2⟩
      · intro n hm
        obtain ⟨c, cs, rfl, h3, h4⟩ := hid n hm
        have := (hc.1 _ hm).2
        simp only [List.headD_cons, Bool.not_eq_true', beq_eq_false_iff_ne] at this
        refine ⟨c, cs, rfl, ?_⟩
        rcases h4 c (by simp) with h | h | h | h
        · exact .inl h
        · exact .inr h
        · exact absurd h h3
        · exact absurd h this
      · intro n hm
        have := (hc.1 _ hm).1.2
        simpa using this
    · cases h1
  · intro t
    rw [if_pos]
    simp only [Bool.and_eq_true, decide_eq_true_eq]
    refine ⟨?_, t.distinct⟩
    rw [List.all_eq_true]
    intro n hm
    obtain ⟨c, cs, e, h1⟩ := t.letter n hm
    have h2 := hchars n hm
    have h3 := t.notKeyword n hm
    obtain ⟨c', cs', e', h4, _⟩ := hid n hm
    rw [e] at e'
    cases e'
    have hl : isLetter c = true := (isLetter_iff c).2 h1
    have hu : (c == '_') = false := by
      rw [beq_eq_false_iff_ne]
      rintro rfl
      exact absurd hl (by decide)
    have hd : isDigit c = false := by
      cases hd : isDigit c with
      | false => rfl
      | true => exact absurd ((isDigit_iff c).1 hd) h4
    simp only [h2, Bool.and_true]
    subst e
    simp [hd, hu, h3]

theorem namedtupleCheck_error {ns : List Str} (h : namedtupleCheck ns ≠ .ok ()) : namedtupleCheck ns = .error .valueError := by
  unfold namedtupleCheck at h ⊢
  split
  · next hc => rw [if_pos hc] at h; exact absurd rfl h
  · rfl

theorem setdefault_all {κ α : Type} [DecidableEq κ] (ks : List κ) (f : κ → α) (d : List (κ × α)) (h : ∀ k ∈ ks, k ∈ Dict.keys d) :
    ks.foldl (fun d k => Dict.setdefault k (f k) d) d = d := by
  induction ks with
  | nil => rfl
  | cons k ks ih =>
    have : Dict.setdefault k (f k) d = d := by
      unfold Dict.setdefault
      rw [if_pos ((Dict.has_iff_mem_keys k d).2 (h k (by simp)))]
    simp only [List.foldl_cons, this]
    exact ih (fun k hk => h k (by simp [hk]))

/-- The values of the fields: cell by cell, then `restval`. -/
def fieldValues (n : Nat) (rv : DVal) (row : List Str) : List DVal :=
  (List.range n).map fun j => if h : j < row.length then .cell row[j] else rv

theorem fieldValues_succ (n : Nat) (rv : DVal) (row : List Str) :
    fieldValues (n + 1) rv row = (match row with | [] => rv | s :: _ => .cell s) :: fieldValues n rv row.tail := by
  unfold fieldValues
  rw [List.range_succ_eq_map, List.map_cons, List.map_map]
  cases row with
  | nil => simp [Function.comp_def]
  | cons s ss =>
    simp [Function.comp_def]
    intro a _; rfl

theorem dict_fieldValues (fn : List Str) (rv : DVal) (row : List Str) :
    (fn.zip row).map (fun p => ((some p.1 : DKey), DVal.cell p.2)) ++ (fn.drop row.length).map (fun k => (some k, rv)) =
      (fn.zip (fieldValues fn.length rv row)).map (fun p => (some p.1, p.2)) := by
  induction fn generalizing row with
  | nil => simp
  | cons k ks ih =>
    rw [List.length_cons, fieldValues_succ]
    cases row with
    | nil =>
      have := ih []
      simp only [List.zip_nil_right, List.map_nil, List.nil_append, List.length_nil, List.drop_zero] at this
      simp only [List.zip_nil_right, List.map_nil, List.nil_append, List.length_nil, List.drop_zero, List.map_cons,
        List.zip_cons_cons, List.tail_nil, this]
    | cons s ss =>
      simp only [List.zip_cons_cons, List.map_cons, List.cons_append, List.length_cons, List.drop_succ_cons, List.tail_cons, ih]

theorem namedKw_zip {u : Unicode} {fn : List Str} {l ns : List Str} {vs : List DVal}
    (h : Spec.All2 (fun h n => normalizeName u h = .ok n) l ns) (hl : ∀ k ∈ l, k ∈ fn) (hlen : vs.length = l.length)
    (tail : List (DKey × DVal)) (ht : ∀ p ∈ tail, ∀ k, p.1 = some k → k ∉ fn) :
    namedKw u fn ((l.zip vs).map (fun p => (some p.1, p.2)) ++ tail) = .ok (ns.zip vs) := by
  induction h generalizing vs with
  | nil =>
    simp only [List.zip_nil_left, List.map_nil, List.nil_append]
    induction tail with
    | nil => rfl
    | cons p ps ih =>
      have ih' := ih (fun q hq => ht q (by simp [hq]))
      obtain ⟨k, v⟩ := p
      cases k with
      | none => simpa only [namedKw] using ih'
      | some k =>
        simp only [namedKw]
        rw [if_neg (by simpa using ht (some k, v) (by simp) k rfl)]
        exact ih'
  | @cons a b as bs hab _ ih =>
    cases vs with
    | nil => simp at hlen
    | cons v vs =>
      simp only [List.zip_cons_cons, List.map_cons, List.cons_append, namedKw]
      rw [if_pos (by simpa using hl a (by simp)), hab]
      simp only [ih (fun k hk => hl k (by simp [hk])) (by simpa using hlen)]

theorem all2_length {α β : Type} {R : α → β → Prop} {as : List α} {bs : List β} (h : Spec.All2 R as bs) : as.length = bs.length := by
  induction h with
  | nil => rfl
  | cons _ _ ih => simp [ih]

theorem all2_nodup {u : Unicode} {h ns : List Str} (hn : Spec.All2 (fun h n => normalizeName u h = .ok n) h ns)
    (hd : ns.Nodup) : h.Nodup := by
  induction hn with
  | nil => exact List.nodup_nil
  | @cons a b as bs hab habs ih =>
    rw [List.nodup_cons] at hd ⊢
    refine ⟨fun hm => hd.1 ?_, ih hd.2⟩
    clear ih hd
    induction habs with
    | nil => cases hm
    | @cons x y xs ys hxy _ ih =>
      rcases List.mem_cons.1 hm with rfl | hm
      · rw [hab] at hxy; cases hxy; simp
      · simp [ih hm]

theorem filterMap_congr' {α β : Type} {f g : α → Option β} {l : List α} (h : ∀ a ∈ l, f a = g a) :
    l.filterMap f = l.filterMap g := by
  induction l with
  | nil => rfl
  | cons a l ih => rw [List.filterMap_cons, List.filterMap_cons, h a (by simp), ih (fun a ha => h a (by simp [ha]))]

theorem new_zip (ns : List Str) (vs : List DVal) (hn : ns.Nodup) (hlen : vs.length = ns.length) :
    namedtupleNew ns (Dict.ofPairs (ns.zip vs)) = .ok (ns.zip vs) := by
  have hk : Dict.keys (ns.zip vs) = ns := by
    simp only [Dict.keys]
    exact List.map_fst_zip (by omega)
  rw [Dict.ofPairs_of_nodup (by rw [hk]; exact hn)]
  unfold namedtupleNew
  rw [if_pos]
  · congr 1
    have : ∀ d : List (Str × DVal), (Dict.keys d).Nodup →
        ((Dict.keys d).filterMap fun n => (Dict.get n d).map fun v => (n, v)) = d := by
      intro d
      induction d with
      | nil => intro _; rfl
      | cons p d ih =>
        intro hnd
        rw [Dict.keys_cons, List.nodup_cons] at hnd
        rw [Dict.keys_cons, List.filterMap_cons]
        have : Dict.get p.1 (p :: d) = some p.2 := by obtain ⟨a, b⟩ := p; simp [Dict.get]
        rw [this]
        simp only [Option.map_some]
        congr 1
        refine Eq.trans ?_ (ih hnd.2)
        apply filterMap_congr'
        intro n hm
        have hne : n ≠ p.1 := by rintro rfl; exact hnd.1 hm
        obtain ⟨a, b⟩ := p
        simp [Dict.get, Ne.symm hne]
    have h2 := this (ns.zip vs) (by rw [hk]; exact hn)
    rw [hk] at h2
    exact h2
  · simp only [Bool.and_eq_true, List.all_eq_true]
    refine ⟨fun n hm => (Dict.has_iff_mem_keys n _).2 (by rw [hk]; exact hm), fun p hp => ?_⟩
    have : p.1 ∈ Dict.keys (ns.zip vs) := List.mem_map.2 ⟨p, hp, rfl⟩
    rw [hk] at this
    simpa using this

/-- One row. -/
theorem namedItem_ok {u : Unicode} {fn ns : List Str} (t : TupleNames u fn ns) (rk : DKey) (rv : DVal) (row : List Str)
    (hr : rk ∉ fn.map some) :
    namedItem u fn rk rv row = .ok (ns.zip (fieldValues fn.length rv row)) := by
  have hn := all2_nodup t.normalized t.distinct
  have hlen := all2_length t.normalized
  unfold namedItem
  simp only
  have hf := setdefault_all (fn.map some) (fun _ => DVal.none) (dictItem fn rk rv row) (by
    intro k hk
    obtain ⟨k', hk', rfl⟩ := List.mem_map.1 hk
    exact C08_all_fieldnames_are_keys fn rk rv row k' hk')
  rw [List.foldl_map] at hf
  rw [hf, (normalizeAll_iff u fn ns).2 t.normalized]
  simp only [(check_iff t.normalized).2 t]
  rw [dictItem_eq fn rk rv row hn hr, ← List.append_assoc, dict_fieldValues,
    namedKw_zip t.normalized (fun _ h => h) (by simp [fieldValues])]
  · exact new_zip ns _ t.distinct (by simp [fieldValues, hlen])
  · intro p hp k hk
    split at hp
    · simp only [List.mem_singleton] at hp
      subst hp
      simp only at hk
      subst hk
      simpa using hr
    · cases hp

theorem namedItems_ok {u : Unicode} {fn ns : List Str} (t : TupleNames u fn ns) (rk : DKey) (rv : DVal)
    (hr : rk ∉ fn.map some) (rows : List (List Str)) :
    namedItems u fn rk rv rows = (rows.map fun row => ns.zip (fieldValues fn.length rv row), none) := by
  induction rows with
  | nil => rfl
  | cons r rs ih => simp only [namedItems, namedItem_ok t rk rv r hr, ih, List.map_cons]

/-- **C71** With an admissible header, a `NamedTupleReader` yields one tuple for each non-blank row, in order; the fields of the
tuples are the normalized field names, in order, and the value of the `j`-th field is the `j`-th cell, or `restval` if the row
is too short; surplus cells are ignored. Reading ends as `csv.reader` does. -/
theorem C71_tuples (u : Unicode) (cfg : Cfg) (rk : DKey) (rv : DVal) (text : Str) (header : List Str)
    (rows : List (List Str)) (e : Option PyErr) (hread : readFile cfg text = (header :: rows, e))
    (names : List Str) (t : TupleNames u header names) (hr : rk ∉ header.map some) :
    readNamed u cfg none rk rv text =
      ((rows.filter (fun r => decide (r ≠ []))).map fun row =>
        names.zip ((List.range header.length).map fun j => if h : j < row.length then DVal.cell row[j] else rv), e) := by
  have ef : ∀ l : List (List Str), l.filter (fun r => !r.isEmpty) = l.filter (fun r => decide (r ≠ [])) := by
    intro l; congr 1; funext r; cases r <;> simp
  simp only [readNamed, hread, ef, namedItems_ok t rk rv hr]
  rfl

/-- **C71** With given field names it is the same, for all rows of the file. -/
theorem C71_tuples_fieldnames (u : Unicode) (cfg : Cfg) (rk : DKey) (rv : DVal) (text : Str) (header : List Str)
    (rows : List (List Str)) (e : Option PyErr) (hread : readFile cfg text = (rows, e))
    (names : List Str) (t : TupleNames u header names) (hr : rk ∉ header.map some) :
    readNamed u cfg (some header) rk rv text =
      ((rows.filter (fun r => decide (r ≠ []))).map fun row =>
        names.zip ((List.range header.length).map fun j => if h : j < row.length then DVal.cell row[j] else rv), e) := by
  have ef : ∀ l : List (List Str), l.filter (fun r => !r.isEmpty) = l.filter (fun r => decide (r ≠ [])) := by
    intro l; congr 1; funext r; cases r <;> simp
  simp only [readNamed, hread, ef, namedItems_ok t rk rv hr]
  rfl

/-- **C71** With any other header no tuple is ever yielded: the first non-blank row raises an exception, which is `ValueError`
if the names can be normalized. (A file without such rows is read without exception.) -/
theorem C71_bad_header (u : Unicode) (cfg : Cfg) (rk : DKey) (rv : DVal) (text : Str) (header : List Str)
    (rows : List (List Str)) (e : Option PyErr) (hread : readFile cfg text = (header :: rows, e))
    (hbad : ¬ ∃ names, TupleNames u header names) :
    ((∀ r ∈ rows, r = []) → readNamed u cfg none rk rv text = ([], e)) ∧
    ((∃ r ∈ rows, r ≠ []) → ∃ err, readNamed u cfg none rk rv text = ([], some err) ∧
      ((∃ names, Spec.All2 (fun h n => normalizeName u h = .ok n) header names) → err = .valueError)) := by
  have ef : ∀ l : List (List Str), l.filter (fun r => !r.isEmpty) = l.filter (fun r => decide (r ≠ [])) := by
    intro l; congr 1; funext r; cases r <;> simp
  have hitem : ∀ row, ∃ err, namedItem u header rk rv row = .error err ∧
      ((∃ names, Spec.All2 (fun h n => normalizeName u h = .ok n) header names) → err = .valueError) := by
    intro row
    unfold namedItem
    simp only
    cases hn : normalizeAll u header with
    | error e =>
      refine ⟨e, rfl, ?_⟩
      rintro ⟨names, h⟩
      rw [(normalizeAll_iff u header names).2 h] at hn
      cases hn
    | ok names =>
      simp only
      have h2 := (normalizeAll_iff u header names).1 hn
      rw [namedtupleCheck_error (fun h => hbad ⟨names, (check_iff h2).1 h⟩)]
      exact ⟨_, rfl, fun _ => rfl⟩
  simp only [readNamed, hread, ef]
  refine ⟨fun h => ?_, ?_⟩
  · rw [List.filter_eq_nil_iff.2 (by simpa using h)]; rfl
  · rintro ⟨r, hr, hne⟩
    cases hf : rows.filter (fun r => decide (r ≠ [])) with
    | nil =>
      have : r ∈ rows.filter (fun r => decide (r ≠ [])) := List.mem_filter.2 ⟨hr, by simpa using hne⟩
      rw [hf] at this
      cases this
    | cons r' rs =>
      obtain ⟨err, h1, h2⟩ := hitem r'
      exact ⟨err, by simp only [namedItems, h1], h2⟩

/-- **C71** A field name whose normalized name begins with an underscore makes the header inadmissible: so do an empty name, and
names beginning with a digit (`normalize_name` puts the underscore there itself). -/
theorem C71_underscore (u : Unicode) (hu : AsciiStable u) (header : List Str) (s : Str) (hs : s ∈ header)
    (hd : s = [] ∨ (∃ c cs, s = c :: cs ∧ ('0' ≤ c ∧ c ≤ '9') ∧ ∀ x ∈ cs, AlNum x)) :
    ¬ ∃ names, TupleNames u header names := by
  rintro ⟨names, t⟩
  have hnorm : normalizeName u s = .ok ('_' :: s) := by
    have hal : ∀ c ∈ s, AlNum c := by
      rcases hd with rfl | ⟨c, cs, rfl, h1, h2⟩
      · simp
      · intro x hx
        rcases List.mem_cons.1 hx with rfl | hx
        · exact .inr (.inr h1)
        · exact h2 x hx
    have hns : ∀ c ∈ s, c ≠ '-' ∧ c ≠ '.' ∧ c ≠ ' ' ∧ Spec.control c = false ∧ Spec.letterOrDigit c = true := by
      intro c hc
      have h := hal c hc
      have hp := alnum_not_punct h
      have hsp := alnum_not_space h
      have hld : Spec.letterOrDigit c = true := by
        rw [(ascii_classes c (alnum_ascii h)).2.2.1]
        rcases h with h | h | h <;> simp [isLetter, isDigit, h]
      refine ⟨?_, ?_, ?_, ?_, hld⟩
      · rintro rfl; exact hp (by decide)
      · rintro rfl; exact hp (by decide)
      · rintro rfl; exact absurd hsp (by decide)
      · have := (ascii_classes c (alnum_ascii h)).1
        rw [hld] at this
        cases h' : Spec.control c with
        | false => rfl
        | true => rw [h'] at this; simp at this
    have hund : Spec.underscored s = s := by
      unfold Spec.underscored
      conv => rhs; rw [← List.map_id s]
      apply List.map_congr_left
      intro c hc
      obtain ⟨a, b, d, _⟩ := hns c hc
      simp [a, b, d]
    have hkept : Spec.keptOfName s = s := by
      unfold Spec.keptOfName
      rw [hund, List.filter_eq_self]
      intro c hc
      simp [(hns c hc).2.2.2.2]
    have hkw : Spec.underscored s ∉ kwlist := by
      rw [hund]
      rcases hd with rfl | ⟨c, cs, rfl, h1, _⟩
      · decide
      · intro hm
        obtain ⟨c', cs', e, h2, _⟩ := kwlist_ident _ hm
        cases e
        exact h2 h1
    rw [(C16_ascii u hu s (fun c hc => alnum_ascii (hal c hc))).2.2 hkw (fun c hc => (hns c hc).2.2.2.1), hkept]
    rcases hd with rfl | ⟨c, cs, rfl, h1, _⟩
    · rfl
    · have hl : (Spec.letter c || c == '_') = false := by
        have : ∀ n : Fin 128, let c := Char.ofNat n.val; ('0' ≤ c ∧ c ≤ '9') → (Spec.letter c || c == '_') = false := by
          decide +kernel
        have := this ⟨c.toNat, alnum_ascii (.inr (.inr h1))⟩
        simp only [Char.ofNat_toNat] at this
        exact this h1
      simp only [Spec.startedName, hl, Bool.false_eq_true, if_false]
  obtain ⟨n, hn, e⟩ : ∃ n ∈ names, normalizeName u s = .ok n := by
    have h := t.normalized
    clear t
    induction h with
    | nil => cases hs
    | cons h _ ih =>
      rcases List.mem_cons.1 hs with rfl | hs
      · exact ⟨_, by simp, h⟩
      · obtain ⟨n, h1, h2⟩ := ih hs; exact ⟨n, by simp [h1], h2⟩
  rw [hnorm] at e
  cases e
  obtain ⟨c, cs, e, h⟩ := t.letter _ hn
  cases e
  exact absurd h (by decide)

/-- **C71** `iterrows` yields what the reader chosen by its arguments yields, and refuses to yield tuples and dicts at once. -/
theorem C71_iterrows (u : Unicode) (cfg : Cfg) (text : Str) :
    iterrows u cfg true true text = ([], some .valueError) ∧
    iterrows u cfg true false text =
      ((readNamed u cfg none none .none text).1.map .named, (readNamed u cfg none none .none text).2) ∧
    iterrows u cfg false true text =
      ((readDicts cfg none none .none text).1.map .dict, (readDicts cfg none none .none text).2) ∧
    iterrows u cfg false false text = ((readFile cfg text).1.map .row, (readFile cfg text).2) :=
  ⟨rfl, rfl, rfl, rfl⟩

/-- Non-vacuity: an admissible header. -/
theorem C71_example_names : TupleNames asciiDb ["a-name".toList, "class".toList] ["a_name".toList, "class_".toList] :=
  ⟨.cons (by decide +kernel) (.cons (by decide +kernel) .nil),
    by
      intro n hn
      simp only [List.mem_cons, List.not_mem_nil, or_false] at hn
      rcases hn with rfl | rfl
      · exact ⟨'a', "_name".toList, by decide, .inl (by decide)⟩
      · exact ⟨'c', "lass_".toList, by decide, .inl (by decide)⟩,
    by decide +kernel, by decide⟩

example : readNamed asciiDb Cfg.default none none .none "a-name,class\r\n1,2,3\r\n\r\n4\r\n".toList =
    ([[("a_name".toList, .cell ['1']), ("class_".toList, .cell ['2'])],
      [("a_name".toList, .cell ['4']), ("class_".toList, .none)]], none) := by decide +kernel

example : readNamed asciiDb Cfg.default none none .none "a,1\r\nx,y\r\n".toList = ([], some .valueError) := by decide +kernel

end Csvw.Props

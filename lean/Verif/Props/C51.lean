import Verif.Lemmas.JsonLd
/-!
# C51: grouping the triples of a row
-/

namespace Csvw.Props
open Csvw.JsonLd Csvw.Spec.Triples

section
variable {jx : JExt} {ts : List Triple}

/-- **C51** Triples about the row (without a subject of their own) give one object; its properties are the properties of the triples, in the
order in which they occur first. -/
theorem C51_properties (h : ∀ t ∈ ts, t.about = none) :
    ∃ g : List (Str × PropVal), groupTriples jx ts = .ok [g.map fun p => (p.1, .prop p.2)] ∧ g.map Prod.fst = firsts (ts.map Triple.property) ∧
      g = grouped ts := by
  refine ⟨grouped ts, ?_, keys_grouped h, rfl⟩
  unfold groupTriples
  rw [others_nil h, if_pos rfl]
  rfl

/-- **C51** (no loss) The value of each property (other than `@id`) consists of exactly the values of its triples: nothing is lost, nothing is
added. -/
theorem C51_no_loss (h : ∀ t ∈ ts, t.about = none) {p : Str} (hp : p ≠ "@id".toList) (hex : ∃ t ∈ ts, t.property = p) :
    ∃ w, Dict.get p (grouped ts) = some w ∧ (flatP w).Perm ((valuesOf p ts).flatMap flatC) := by
  rw [get_grouped h hp]
  have hperm := mergeV_perm (valuesOf p ts) []
  rw [List.nil_append] at hperm
  have hne : mergeV [] (valuesOf p ts) ≠ [] := by
    have hv : valuesOf p ts ≠ [] := by
      obtain ⟨t, ht, he⟩ := hex
      intro hnil
      have : t.value ∈ valuesOf p ts := List.mem_map.2 ⟨t, List.mem_filter.2 ⟨ht, by simpa using he⟩, rfl⟩
      rw [hnil] at this
      cases this
    have grow : ∀ (vs acc : List CVal), acc ≠ [] → mergeV acc vs ≠ [] := by
      intro vs
      induction vs with
      | nil => exact fun acc h => h
      | cons v r ih =>
        intro acc hacc
        rw [mergeV]
        apply ih
        split
        · cases acc with
          | nil => simp [extendV]
          | cons a b => simp only [extendV]; split <;> simp
        · simp
    cases hvs : valuesOf p ts with
    | nil => exact absurd hvs hv
    | cons v r =>
      rw [mergeV]
      apply grow
      split <;> simp [extendV]
  cases hm : mergeV [] (valuesOf p ts) with
  | nil => exact absurd hm hne
  | cons v r =>
    rw [hm] at hperm
    obtain ⟨w, h1, h2⟩ := foldl_addV_flat r (.of v)
    refine ⟨w, h1, ?_⟩
    rw [h2, flatP_of]
    exact hperm

/-- **C51** (order, single values) A property with one value has this value; a property with several values which are no lists has the list of
them, in order. -/
theorem C51_single_values (h : ∀ t ∈ ts, t.about = none) {p : Str} (hp : p ≠ "@id".toList) {v : Val} {vs : List Val}
    (hv : valuesOf p ts = (v :: vs).map .one) :
    Dict.get p (grouped ts) = some (if vs = [] then .one v else .many ((v :: vs).map .one)) := by
  rw [get_grouped h hp, hv, mergeV_single (by simp [isList]), List.nil_append, List.map_cons, List.foldl_cons]
  cases vs with
  | nil => rfl
  | cons a r =>
    rw [if_neg (by simp), List.map_cons, List.foldl_cons]
    show ((r.map CVal.one).foldl addV (some (.many [.one v, .one a]))) = _
    rw [addV_many]
    rfl

/-- **C51** (order, lists) A property whose values are lists has the concatenation of the lists, in order. -/
theorem C51_lists (h : ∀ t ∈ ts, t.about = none) {p : Str} (hp : p ≠ "@id".toList) {l : List Val} {ls : List (List Val)}
    (hv : valuesOf p ts = (l :: ls).map .many) : Dict.get p (grouped ts) = some (.many ((l ++ ls.flatten).map .one)) := by
  rw [get_grouped h hp, hv, List.map_cons, mergeV, if_pos (show isList (.many l) = true from rfl)]
  show ((mergeV [.many l] (ls.map .many)).foldl addV none) = _
  rw [mergeV_lists (by simp [isList])]
  have : (ls.map CVal.many).flatMap flatC = ls.flatten := by
    clear hv
    induction ls with
    | nil => rfl
    | cons a r ih =>
      rw [List.map_cons, List.flatMap_cons, List.flatten_cons, ih]
      rfl
  rw [this]
  rfl

/-- The identifier of the row is the value of the last triple with the property `@id`. -/
theorem C51_id (h : ∀ t ∈ ts, t.about = none) {t : Triple} {pre post : List Triple} (hts : ts = pre ++ t :: post) (ht : t.property = "@id".toList)
    (hs : ∀ u ∈ ts, u.property = "@id".toList → isList u.value = false) (hpost : ∀ u ∈ post, u.property ≠ "@id".toList) :
    Dict.get "@id".toList (grouped ts) = some (.of t.value) := by
  have step : ∀ (us : List Triple) (g : List (Str × PropVal)), (∀ u ∈ us, u.about = none) →
      Dict.get "@id".toList (us.foldl addTop g) =
        (valuesOf "@id".toList us).foldl (fun _ v => some (.of v)) (Dict.get "@id".toList g) := by
    intro us
    induction us with
    | nil => intro g _; rfl
    | cons u r ih =>
      intro g hu
      rw [List.foldl_cons, ih _ fun u h => hu u (by simp [h]), valuesOf_cons]
      by_cases hp : u.property = "@id".toList
      · rw [if_pos hp, List.foldl_cons]
        congr 1
        unfold addTop
        rw [if_pos (by rw [hp, hu u (by simp)]; rfl), Dict.get_set_self]
      · rw [if_neg hp]
        congr 1
        unfold addTop
        rw [if_neg (by intro hh; rw [Bool.and_eq_true, decide_eq_true_eq, decide_eq_true_eq] at hh; exact hp hh.2)]
        unfold addValue
        split <;> rw [Dict.get_set_ne hp]
  unfold grouped
  rw [filter_top (merge_about (by simp) h), step _ _ (merge_about (by simp) h), valuesOf_merge]
  have hl : ∀ v ∈ valuesOf "@id".toList ts, isList v = false := by
    intro v hv
    obtain ⟨u, hu, rfl⟩ := List.mem_map.1 hv
    obtain ⟨h1, h2⟩ := List.mem_filter.1 hu
    exact hs u h1 (by simpa using h2)
  rw [mergeV_single hl, hts, valuesOf_append, valuesOf_cons, if_pos ht]
  have : valuesOf "@id".toList post = [] := by
    unfold valuesOf
    rw [List.map_eq_nil_iff, List.filter_eq_nil_iff]
    intro u hu
    simpa using hpost u hu
  rw [this]
  simp

/-- **C51 does not hold** as to order if single values and lists are mixed: the values `[1]`, `2`, `[3]` become `[1, 3, 2]`. -/
theorem C51_order_violated (jx : JExt) :
    groupTriples jx [⟨none, "p".toList, .many [.int 1]⟩, ⟨none, "p".toList, .one (.int 2)⟩, ⟨none, "p".toList, .many [.int 3]⟩] =
      .ok [[("p".toList, .prop (.many [.one (.int 1), .one (.int 3), .one (.int 2)]))]] := rfl

/-- Lists of other subjects are merged too: the list `[2]` of the subject `b` becomes part of the list of the subject `a`, and nothing is said
about `b`. -/
theorem C51_subject_violated (jx : JExt) :
    groupTriples jx [⟨some "a".toList, "p".toList, .many [.int 1]⟩, ⟨some "b".toList, "p".toList, .many [.int 2]⟩] =
      (match jx.graph [("a".toList, "p".toList, .lit (.many [.one (.int 1), .one (.int 2)]))] with
      | .error e => .error e
      | .ok data => (simplifyAll (frame data)).map (finish [])) := rfl

/-- The hypotheses are met by a row with an identifier, a repeated property and a list. -/
example (jx : JExt) :
    groupTriples jx [⟨none, "@id".toList, .one (.str "x".toList)⟩, ⟨none, "p".toList, .one (.int 1)⟩, ⟨none, "q".toList, .many [.int 1, .int 2]⟩,
      ⟨none, "p".toList, .one (.int 3)⟩] =
      .ok [[("@id".toList, .prop (.one (.str "x".toList))), ("p".toList, .prop (.many [.one (.int 1), .one (.int 3)])),
        ("q".toList, .prop (.many [.one (.int 1), .one (.int 2)]))]] := rfl

end
end Csvw.Props

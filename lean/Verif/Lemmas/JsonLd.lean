import Verif.Spec.Triples
import Verif.Lemmas.Metadata
/-!
# Lemmas: grouping of triples
-/

namespace Csvw.JsonLd
open Spec.Triples

/-! ## Merging lists -/

/-- `extend` on the values of a property. -/
def extendV (v : CVal) : List CVal → List CVal
  | [] => [v]
  | u :: r => if isList u then .many (items u ++ items v) :: r else u :: extendV v r

def mergeV : List CVal → List CVal → List CVal
  | acc, [] => acc
  | acc, v :: r => mergeV (if isList v then extendV v acc else acc ++ [v]) r

theorem valuesOf_cons (p : Str) (t : Triple) (ts : List Triple) :
    valuesOf p (t :: ts) = if t.property = p then t.value :: valuesOf p ts else valuesOf p ts := by
  unfold valuesOf
  by_cases h : t.property = p <;> simp [h]

theorem valuesOf_append (p : Str) (a b : List Triple) : valuesOf p (a ++ b) = valuesOf p a ++ valuesOf p b := by
  simp [valuesOf]

theorem valuesOf_extend (p : Str) (t : Triple) (acc : List Triple) :
    valuesOf p (extend t acc) = if t.property = p then extendV t.value (valuesOf p acc) else valuesOf p acc := by
  induction acc with
  | nil =>
    simp only [extend, valuesOf_cons]
    split <;> simp [valuesOf, extendV]
  | cons u r ih =>
    simp only [extend]
    by_cases h1 : u.property = t.property
    · by_cases h2 : isList u.value = true
      · rw [if_pos (by simp [h1, h2]), valuesOf_cons, valuesOf_cons]
        simp only
        by_cases hp : t.property = p
        · rw [if_pos (h1.trans hp), if_pos hp, if_pos (h1.trans hp), extendV, if_pos h2]
        · rw [if_neg (fun h => hp (h1.symm.trans h)), if_neg hp, if_neg (fun h => hp (h1.symm.trans h))]
      · rw [if_neg (by simp [h2]), valuesOf_cons, valuesOf_cons, ih]
        by_cases hp : t.property = p
        · rw [if_pos (h1.trans hp), if_pos hp, if_pos (h1.trans hp), if_pos hp, extendV, if_neg h2]
        · rw [if_neg (fun h => hp (h1.symm.trans h)), if_neg hp, if_neg hp, if_neg (fun h => hp (h1.symm.trans h))]
    · rw [if_neg (by simp [h1]), valuesOf_cons, valuesOf_cons, ih]
      by_cases hp : t.property = p
      · have hu : ¬ u.property = p := fun h => h1 (h.trans hp.symm)
        rw [if_neg hu, if_neg hu]
      · rw [if_neg hp, if_neg hp]

theorem valuesOf_merge (p : Str) : ∀ (ts acc : List Triple), valuesOf p (merge acc ts) = mergeV (valuesOf p acc) (valuesOf p ts)
  | [], acc => rfl
  | t :: r, acc => by
    rw [merge, valuesOf_merge p r, valuesOf_cons]
    by_cases hl : isList t.value = true
    · rw [if_pos hl, valuesOf_extend]
      by_cases hp : t.property = p
      · rw [if_pos hp, if_pos hp, mergeV, if_pos hl]
      · rw [if_neg hp, if_neg hp]
    · rw [if_neg hl, valuesOf_append, valuesOf_cons]
      by_cases hp : t.property = p
      · rw [if_pos hp, if_pos hp, mergeV, if_neg hl]; rfl
      · rw [if_neg hp, if_neg hp]; simp [valuesOf]

theorem extend_about {t : Triple} {acc : List Triple} (h : ∀ u ∈ acc, u.about = none) (ht : t.about = none) :
    ∀ u ∈ extend t acc, u.about = none := by
  induction acc with
  | nil => intro u hu; rcases List.mem_singleton.1 hu with rfl; exact ht
  | cons a r ih =>
    intro u hu
    simp only [extend] at hu
    split at hu
    · rcases List.mem_cons.1 hu with rfl | hu
      · exact h a (by simp)
      · exact h u (by simp [hu])
    · rcases List.mem_cons.1 hu with rfl | hu
      · exact h _ (by simp)
      · exact ih (fun u hu => h u (by simp [hu])) u hu

theorem merge_about : ∀ {ts acc : List Triple}, (∀ u ∈ acc, u.about = none) → (∀ t ∈ ts, t.about = none) →
    ∀ u ∈ merge acc ts, u.about = none
  | [], acc, h, _ => h
  | t :: r, acc, h, hts => by
    rw [merge]
    refine merge_about ?_ fun t ht => hts t (by simp [ht])
    split
    · exact extend_about h (hts t (by simp))
    · intro u hu
      rcases List.mem_append.1 hu with hu | hu
      · exact h u hu
      · rcases List.mem_singleton.1 hu with rfl; exact hts _ (by simp)

/-! ## Grouping -/

/-- Adding a value. -/
def addV (w : Option PropVal) (v : CVal) : Option PropVal :=
  match w with
  | some w => some (.many (w.asList ++ [v]))
  | none => some (.of v)

theorem get_addTop {g : List (Str × PropVal)} {t : Triple} {p : Str} (hp : p ≠ "@id".toList) :
    Dict.get p (addTop g t) = if t.property = p then addV (Dict.get p g) t.value else Dict.get p g := by
  unfold addTop
  split
  · next h =>
    simp only [Bool.and_eq_true, decide_eq_true_eq] at h
    rw [Dict.get_set_ne (Ne.symm hp), if_neg fun he => hp (he.symm.trans h.2)]
  · unfold addValue
    by_cases h : t.property = p
    · subst h
      rw [if_pos rfl]
      cases hg : Dict.get t.property g with
      | none => simp only [addV, Dict.get_set_self]
      | some w => simp only [addV, Dict.get_set_self]
    · rw [if_neg h]
      split <;> rw [Dict.get_set_ne h]

theorem get_foldl_addTop {p : Str} (hp : p ≠ "@id".toList) : ∀ (ts : List Triple) (g : List (Str × PropVal)),
    Dict.get p (ts.foldl addTop g) = (valuesOf p ts).foldl addV (Dict.get p g)
  | [], g => rfl
  | t :: r, g => by
    rw [List.foldl_cons, get_foldl_addTop hp r, get_addTop hp, valuesOf_cons]
    split <;> rfl

theorem keys_addTop (g : List (Str × PropVal)) (t : Triple) :
    Dict.keys (addTop g t) = if t.property ∈ Dict.keys g then Dict.keys g else Dict.keys g ++ [t.property] := by
  unfold addTop
  split
  · next h =>
    simp only [Bool.and_eq_true, decide_eq_true_eq] at h
    rw [Dict.keys_set, h.2]
    by_cases hm : "@id".toList ∈ Dict.keys g
    · rw [if_pos hm, if_pos hm]
    · rw [if_neg hm, if_neg hm]
  · unfold addValue
    by_cases hm : t.property ∈ Dict.keys g
    · split <;> rw [Dict.keys_set, if_pos hm, if_pos hm]
    · split <;> rw [Dict.keys_set, if_neg hm, if_neg hm]

/-- Adding a key. -/
def addKey (ks : List Str) (k : Str) : List Str := if k ∈ ks then ks else ks ++ [k]

theorem keys_foldl_addTop : ∀ (ts : List Triple) (g : List (Str × PropVal)),
    Dict.keys (ts.foldl addTop g) = (ts.map Triple.property).foldl addKey (Dict.keys g)
  | [], g => rfl
  | t :: r, g => by
    rw [List.foldl_cons, keys_foldl_addTop r, keys_addTop, List.map_cons, List.foldl_cons]
    rfl

theorem filter_top {ts : List Triple} (h : ∀ t ∈ ts, t.about = none) : ts.filter top = ts := by
  rw [List.filter_eq_self]
  intro t ht
  simp [top, h t ht]

theorem addKey_mono {ks : List Str} {l : List Str} {k : Str} (h : k ∈ ks) : k ∈ l.foldl addKey ks := by
  induction l generalizing ks with
  | nil => exact h
  | cons a r ih =>
    rw [List.foldl_cons]
    refine ih ?_
    unfold addKey
    split
    · exact h
    · simp [h]

theorem mem_foldl_addKey {ks : List Str} {l : List Str} {k : Str} (h : k ∈ l) : k ∈ l.foldl addKey ks := by
  induction l generalizing ks with
  | nil => cases h
  | cons a r ih =>
    rw [List.foldl_cons]
    rcases List.mem_cons.1 h with rfl | h
    · apply addKey_mono
      unfold addKey
      split <;> simp_all
    · exact ih h

theorem foldl_addKey_skip {l : List Str} {k : Str} {ks : List Str} (r : List Str) (h : k ∈ l) :
    (l ++ k :: r).foldl addKey ks = (l ++ r).foldl addKey ks := by
  rw [List.foldl_append, List.foldl_append, List.foldl_cons]
  congr 1
  unfold addKey
  exact if_pos (mem_foldl_addKey h)

theorem extend_props (t : Triple) (acc : List Triple) :
    (extend t acc).map Triple.property = acc.map Triple.property ∧ t.property ∈ acc.map Triple.property ∨
    (extend t acc).map Triple.property = acc.map Triple.property ++ [t.property] := by
  induction acc with
  | nil => exact .inr rfl
  | cons u r ih =>
    simp only [extend]
    split
    · next h =>
      simp only [Bool.and_eq_true, decide_eq_true_eq] at h
      exact .inl ⟨rfl, by simp [h.1]⟩
    · rcases ih with ⟨h1, h2⟩ | h
      · exact .inl ⟨by simp [h1], by simp only [List.map_cons, List.mem_cons]; exact .inr h2⟩
      · exact .inr (by simp [h])

theorem merge_keys : ∀ (ts acc : List Triple) (ks : List Str),
    ((merge acc ts).map Triple.property).foldl addKey ks = ((acc ++ ts).map Triple.property).foldl addKey ks
  | [], acc, ks => by simp [merge]
  | t :: r, acc, ks => by
    rw [merge, merge_keys r]
    split
    · rcases extend_props t acc with ⟨h1, h2⟩ | h
      · rw [List.map_append, h1, List.map_append, List.map_cons, foldl_addKey_skip _ h2]
      · rw [List.map_append, h, List.map_append, List.map_cons, List.append_assoc, List.singleton_append]
    · rw [List.append_assoc, List.singleton_append]

theorem firsts_filter (f : Str → Bool) (l : List Str) : (firsts l).filter f = firsts (l.filter f) := by
  induction l with
  | nil => rfl
  | cons a r ih =>
    simp only [firsts]
    by_cases ha : f a = true
    · rw [List.filter_cons_of_pos ha, List.filter_cons_of_pos ha, firsts, ← ih, List.filter_filter, List.filter_filter]
      congr 1
      apply List.filter_congr
      intro q _
      exact Bool.and_comm _ _
    · rw [List.filter_cons_of_neg ha, List.filter_cons_of_neg ha, ← ih, List.filter_filter]
      apply List.filter_congr
      intro q _
      by_cases hq : q = a
      · subst hq; simpa using ha
      · simp [hq]

theorem firsts_cons (p : Str) (r : List Str) : firsts (p :: r) = p :: firsts (r.filter fun q => q ≠ p) := by
  rw [firsts, firsts_filter]

theorem foldl_addKey_firsts : ∀ (n : Nat) (l ks : List Str), l.length ≤ n →
    l.foldl addKey ks = ks ++ firsts (l.filter fun q => q ∉ ks)
  | _, [], ks, _ => by simp [firsts]
  | n + 1, a :: r, ks, h => by
    have hr : r.length ≤ n := by simpa using h
    rw [List.foldl_cons, foldl_addKey_firsts n r _ hr]
    unfold addKey
    by_cases ha : a ∈ ks
    · rw [if_pos ha, List.filter_cons_of_neg (by simpa using ha)]
    · rw [if_neg ha, List.filter_cons_of_pos (by simpa using ha), firsts_cons, List.append_assoc, List.singleton_append, List.filter_filter]
      congr 3
      apply List.filter_congr
      intro q _
      simp [and_comm]

/-- The keys of the object are the properties, in the order of their first occurrence. -/
theorem keys_grouped {ts : List Triple} (h : ∀ t ∈ ts, t.about = none) : Dict.keys (grouped ts) = firsts (ts.map Triple.property) := by
  unfold grouped
  rw [filter_top (merge_about (by simp) h), keys_foldl_addTop, merge_keys, List.nil_append, foldl_addKey_firsts _ _ _ (Nat.le_refl _)]
  rw [List.filter_eq_self.2 (by simp [Dict.keys])]
  rfl

theorem get_grouped {ts : List Triple} (h : ∀ t ∈ ts, t.about = none) {p : Str} (hp : p ≠ "@id".toList) :
    Dict.get p (grouped ts) = (mergeV [] (valuesOf p ts)).foldl addV none := by
  unfold grouped
  rw [filter_top (merge_about (by simp) h), get_foldl_addTop hp, valuesOf_merge]
  rfl

theorem others_nil {ts : List Triple} (h : ∀ t ∈ ts, t.about = none) : others ts = [] := by
  unfold others
  rw [List.filter_eq_nil_iff]
  intro t ht
  simp [top, merge_about (by simp) h t ht]

/-! ### The values -/

theorem mergeV_single : ∀ {vs acc : List CVal}, (∀ v ∈ vs, isList v = false) → mergeV acc vs = acc ++ vs
  | [], acc, _ => by simp [mergeV]
  | v :: r, acc, h => by
    rw [mergeV, if_neg (by simp [h v (by simp)]), mergeV_single fun v hv => h v (by simp [hv])]
    simp

theorem mergeV_lists : ∀ {vs : List CVal} {l : List Val}, (∀ v ∈ vs, isList v = true) →
    mergeV [.many l] vs = [.many (l ++ vs.flatMap flatC)]
  | [], l, _ => by simp [mergeV]
  | v :: r, l, h => by
    obtain ⟨m, rfl⟩ : ∃ m, v = .many m := by
      have := h v (by simp)
      cases v with
      | one v => simp [isList] at this
      | many m => exact ⟨m, rfl⟩
    rw [mergeV, if_pos (show isList (.many m) = true from rfl)]
    show mergeV [.many (l ++ m)] r = _
    rw [mergeV_lists fun v hv => h v (by simp [hv])]
    simp [flatC]

theorem addV_many (l : List CVal) : ∀ (vs : List CVal), vs.foldl addV (some (.many l)) = some (.many (l ++ vs))
  | [] => by simp
  | v :: r => by
    rw [List.foldl_cons]
    simp only [addV, PropVal.asList]
    rw [addV_many (l ++ [v]) r]
    simp

theorem extendV_perm {v : CVal} (hv : isList v = true) (acc : List CVal) :
    ((extendV v acc).flatMap flatC).Perm (acc.flatMap flatC ++ flatC v) := by
  induction acc with
  | nil => simp [extendV]
  | cons u r ih =>
    simp only [extendV]
    split
    · next h =>
      cases u with
      | one u => simp [isList] at h
      | many l =>
        cases v with
        | one v => simp [isList] at hv
        | many m =>
          simp only [List.flatMap_cons, flatC, items, List.append_assoc]
          exact List.Perm.append_left l List.perm_append_comm
    · simp only [List.flatMap_cons, List.append_assoc]
      exact List.Perm.append_left _ ih

theorem mergeV_perm : ∀ (vs acc : List CVal), ((mergeV acc vs).flatMap flatC).Perm ((acc ++ vs).flatMap flatC)
  | [], acc => by simp [mergeV]
  | v :: r, acc => by
    rw [mergeV]
    refine (mergeV_perm r _).trans ?_
    rw [List.flatMap_append, List.flatMap_append, List.flatMap_cons, ← List.append_assoc]
    refine List.Perm.append_right _ ?_
    split
    · next h => exact extendV_perm h acc
    · simp

theorem flatP_of (v : CVal) : flatP (.of v) = flatC v := by
  cases v with
  | one v => rfl
  | many l =>
    simp only [PropVal.of, flatP, flatC]
    induction l with
    | nil => rfl
    | cons a r ih => simpa [flatC] using ih

theorem flatP_asList (w : PropVal) : w.asList.flatMap flatC = flatP w := by
  cases w with
  | one v => rfl
  | many l => rfl

theorem foldl_addV_flat : ∀ (vs : List CVal) (w : PropVal), ∃ w', vs.foldl addV (some w) = some w' ∧ flatP w' = flatP w ++ vs.flatMap flatC
  | [], w => ⟨w, rfl, by simp⟩
  | v :: r, w => by
    obtain ⟨w', h1, h2⟩ := foldl_addV_flat r (.many (w.asList ++ [v]))
    refine ⟨w', h1, ?_⟩
    rw [h2]
    simp only [flatP, List.flatMap_append, flatP_asList, List.flatMap_cons, List.flatMap_nil, List.append_nil, List.append_assoc]

end Csvw.JsonLd

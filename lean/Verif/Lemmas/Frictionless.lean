import Verif.Model.Frictionless
import Verif.Spec.Frictionless
import Verif.Lemmas.Metadata6
/-!
# Lemmas about the conversion of frictionless data packages
-/

namespace Csvw
open Spec Datatypes

section
variable {ext : Ext} {x : MExt} {other : Base → Derived → J → Res Val} {lk : EncLookup}

theorem own_get {fields : List Str} {tn : Str} {strict : Bool} {m : List (Str × J)} (hn : (Dict.keys m).Nodup) {p : Parts}
    (h : partitionProperties x fields tn strict (.obj m) = .ok (some p)) {k : Str} (hk : OwnProperty k) (hf : strict = true → k ∈ fields) :
    Dict.get k p.own = Dict.get k m := by
  obtain ⟨q1, -⟩ := Props.C52_partition x fields tn strict m p hn h
  rw [q1, Dict.get_filter _ _ _ hn]
  cases Dict.get k m with
  | none => rfl
  | some v =>
    rw [Option.filter, if_pos]
    simp only [decide_eq_true_eq]
    exact ⟨hk, hf⟩

theorem own_arg {fields : List Str} {tn : Str} {strict : Bool} {m : List (Str × J)} (hn : (Dict.keys m).Nodup) {p : Parts}
    (h : partitionProperties x fields tn strict (.obj m) = .ok (some p)) {k : String} (hk : OwnProperty k.toList) (hf : strict = true → k.toList ∈ fields) :
    argOf k p.own = argOf k m := by
  unfold argOf; rw [own_get hn h hk hf]

theorem All2_get {R : Str × J → Str × J → Prop} (hR : ∀ e e', R e e' → e'.1 = e.1) {l l' : List (Str × J)} (h : All2 R l l') {k : Str} {v : J}
    (hg : Dict.get k l = some v) : ∃ v', Dict.get k l' = some v' ∧ R (k, v) (k, v') := by
  induction h with
  | nil => cases hg
  | @cons a b _ _ hab _ ih =>
    obtain ⟨k1, v1⟩ := a
    obtain ⟨k2, v2⟩ := b
    have := hR _ _ hab
    simp only at this
    subst this
    simp only [Dict.get] at hg ⊢
    split at hg
    · next he =>
      simp only [Option.some.injEq] at hg
      subst hg he
      exact ⟨v2, by simp, hab⟩
    · next he => rw [if_neg he]; exact ih hg

theorem common_get {fields : List Str} {tn : Str} {strict : Bool} {m : List (Str × J)} (hn : (Dict.keys m).Nodup) {p : Parts}
    (h : partitionProperties x fields tn strict (.obj m) = .ok (some p)) {k : Str} (hk : CommonProperty k) {v : J} (hv : Dict.get k m = some v) :
    ∃ v', Dict.get k p.common = some v' ∧ validCommon x v = .ok v' := by
  simp only [partitionProperties] at h
  split at h
  · cases h
  · next q hq =>
    split at h
    · cases h
    · cases h
      obtain ⟨-, -, -, l, h1, h2⟩ := Props.partitionLoop_spec x fields tn strict m {} p hn (fun k _ => ⟨by simp [Dict.keys], by simp [Dict.keys], by simp [Dict.keys]⟩) hq
      simp only [List.nil_append] at h1
      rw [h1]
      obtain ⟨v', g1, g2⟩ := All2_get (fun e e' h => h.1) h2 (k := k) (v := v)
        (by rw [Dict.get_filter _ _ _ hn, hv]; simp [hk])
      exact ⟨v', g1, g2.2⟩

end

namespace Frictionless
open Csvw.Spec.Frictionless

/-! ## The datatype of a field -/

/-- What is known about the datatype before constraints are added. -/
structure TypeFacts (spec dt : List (Str × J)) : Prop where
  nodup : (Dict.keys dt).Nodup
  base : Dict.get "base".toList dt = some (.str (baseOf (prop "type" spec) (prop "format" spec)).toList)
  keys : ∀ k ∈ Dict.keys dt, k = "base".toList ∨ k = "format".toList ∨ k = "dc:format".toList
  format : baseOf (prop "type" spec) (prop "format" spec) = "string" → Dict.get "format".toList dt = none
  noFormat : (baseOf (prop "type" spec) (prop "format" spec) = "boolean" → prop "trueValues" spec = none ∨ prop "falseValues" spec = none) →
    prop "decimalChar" spec = none → prop "groupChar" spec = none →
    Dict.get "format".toList dt = none
  boolean : ∀ t f r r', baseOf (prop "type" spec) (prop "format" spec) = "boolean" → prop "trueValues" spec = some (.arr (.str t :: r)) →
    prop "falseValues" spec = some (.arr (.str f :: r')) → Dict.get "format".toList dt = some (.str (t ++ '|' :: f))
  number : ∀ k d, baseOf (prop "type" spec) (prop "format" spec) ∈ ["number", "integer"] → k ∈ ["decimalChar", "groupChar"] →
    prop k spec = some (.str d) → d ≠ [] → ∃ m, Dict.get "format".toList dt = some (.obj m) ∧ prop k m = some (.str d)

theorem baseOf_other {t : Str} {f : Option J} (h : ∀ p ∈ typeTable, t ≠ p.1.toList) : baseOf (some (.str t)) f = "string" := by
  have h0 : t ≠ "string".toList := h ("string", "string") (by decide)
  have hf : typeTable.find? (fun p => decide (some (J.str t) = some (J.str p.1.toList))) = none := by
    rw [List.find?_eq_none]
    intro p hp
    simp [h p hp]
  unfold baseOf
  have h1 : some (J.str t) ≠ some (.str "string".toList) := fun h => h0 (by simpa only [Option.some.injEq, J.str.injEq] using h)
  rw [if_neg (fun h => h1 h.1), if_neg (fun h => h1 h.1), hf]

theorem baseOf_not_str {t : Option J} {f : Option J} (h : ∀ s, t ≠ some (.str s)) : baseOf t f = "string" := by
  have hf : typeTable.find? (fun p => decide (t = some (J.str p.1.toList))) = none := by
    rw [List.find?_eq_none]
    intro p hp
    simp [h p.1.toList]
  unfold baseOf
  rw [if_neg (by simp [h]), if_neg (by simp [h]), hf]

theorem arg_prop {k : String} {m : List (Str × J)} {s : Str} : argOf k m = .str s ↔ prop k m = some (.str s) := by
  unfold argOf prop
  cases Dict.get k.toList m <;> simp

theorem baseOnly_facts {spec : List (Str × J)} {b : String} (h : baseOf (prop "type" spec) (prop "format" spec) = b)
    (hb : b ∉ ["boolean", "number", "integer"]) : TypeFacts spec (baseOnly b) := by
  refine ⟨by simp [baseOnly, Dict.keys], ?_, ?_, fun _ => rfl, fun _ _ _ => rfl, ?_, ?_⟩
  · rw [h]; rfl
  · intro k hk; simp [baseOnly, Dict.keys] at hk; exact .inl (by simpa using hk)
  · intro t f r r' h' _ _
    rw [h] at h'; subst h'; exact absurd hb (by decide)
  · intro k d h' _ _ _
    rw [h] at h'
    exact absurd (List.mem_cons_of_mem _ h') hb

theorem baseDc_facts {spec : List (Str × J)} {b : String} {v : J} (h : baseOf (prop "type" spec) (prop "format" spec) = b)
    (hb : b ∉ ["boolean", "number", "integer"]) : TypeFacts spec (baseOnly b ++ [("dc:format".toList, v)]) := by
  refine ⟨?_, ?_, ?_, fun _ => rfl, fun _ _ _ => rfl, ?_, ?_⟩
  · have : Dict.keys (baseOnly b ++ [("dc:format".toList, v)]) = ["base".toList, "dc:format".toList] := rfl
    rw [this]; decide
  · rw [h]; rfl
  · intro k hk; simp [baseOnly, Dict.keys] at hk
    rcases hk with hk | hk
    · exact .inl (by simpa using hk)
    · exact .inr (.inr (by simpa using hk))
  · intro t f r r' h' _ _
    rw [h] at h'; subst h'; exact absurd hb (by decide)
  · intro k d h' _ _ _
    rw [h] at h'
    exact absurd (List.mem_cons_of_mem _ h') hb

theorem numberType_facts {spec dt : List (Str × J)} {b : String} (h : baseOf (prop "type" spec) (prop "format" spec) = b)
    (hb : b ∈ ["number", "integer"]) (hd : numberType b spec = .ok dt) : TypeFacts spec dt := by
  have hns : b ≠ "string" := by intro h; subst h; exact absurd hb (by decide)
  have hnb : b ≠ "boolean" := by intro h; subst h; exact absurd hb (by decide)
  unfold numberType at hd
  split at hd
  · cases hd
  · split at hd
    · next hh =>
      cases hd
      refine ⟨?_, ?_, ?_, ?_, ?_, ?_, ?_⟩
      · have : Dict.keys (baseOnly b ++ [("format".toList, J.obj (numberFormat spec))]) = ["base".toList, "format".toList] := rfl
        rw [this]; decide
      · rw [h]; rfl
      · intro k hk; simp [baseOnly, Dict.keys] at hk
        rcases hk with hk | hk
        · exact .inl (by simpa using hk)
        · exact .inr (.inl (by simpa using hk))
      · intro h'; exact absurd (h ▸ h') hns
      · intro _ h1 h2
        simp only [Bool.or_eq_true, Dict.has_iff_mem_keys] at hh
        unfold prop at h1 h2
        rw [Dict.get_eq_none_iff] at h1 h2
        rcases hh with hh | hh
        · exact absurd hh h1
        · exact absurd hh h2
      · intro t f r r' h' _ _; exact absurd (h ▸ h') hnb
      · intro k d _ hk hd hne
        refine ⟨numberFormat spec, rfl, ?_⟩
        have ha : argOf k spec = .str d := arg_prop.2 hd
        have ht : (J.str d).truthy = true := by cases d with | nil => exact absurd rfl hne | cons => rfl
        simp only [List.mem_cons, List.not_mem_nil, or_false] at hk
        unfold numberFormat prop
        rcases hk with rfl | rfl
        · simp only [List.filter_cons, ha, ht, if_true, List.map_cons]
          rfl
        · simp only [List.filter_cons, List.filter_nil, ha, ht, if_true]
          split
          · simp only [List.map_cons, List.map_nil, ha]; rfl
          · simp only [List.map_cons, List.map_nil, ha]; rfl
    · next hh =>
      cases hd
      refine ⟨by simp [baseOnly, Dict.keys], ?_, ?_, fun _ => rfl, fun _ _ _ => rfl, ?_, ?_⟩
      · rw [h]; rfl
      · intro k hk; simp [baseOnly, Dict.keys] at hk; exact .inl (by simpa using hk)
      · intro t f r r' h' _ _; exact absurd (h ▸ h') hnb
      · intro k d _ hk hd _
        simp only [Bool.or_eq_true, Dict.has_iff_mem_keys, not_or, ← Dict.get_eq_none_iff] at hh
        simp only [List.mem_cons, List.not_mem_nil, or_false] at hk
        rcases hk with rfl | rfl
        · exact absurd (hh.1.symm.trans hd) (by simp)
        · exact absurd (hh.2.symm.trans hd) (by simp)

theorem booleanType_facts {spec dt : List (Str × J)} (h : baseOf (prop "type" spec) (prop "format" spec) = "boolean")
    (hd : booleanType spec = .ok dt) : TypeFacts spec dt := by
  unfold booleanType at hd
  split at hd
  · next hh =>
    obtain ⟨t, ht, hd⟩ := Datatype.bind_ok hd
    obtain ⟨f, hf, hd⟩ := Datatype.bind_ok hd
    cases hd
    refine ⟨?_, ?_, ?_, ?_, ?_, ?_, ?_⟩
    · have : Dict.keys (baseOnly "boolean" ++ [("format".toList, J.str (t ++ '|' :: f))]) = ["base".toList, "format".toList] := rfl
      rw [this]; decide
    · rw [h]; rfl
    · intro k hk; simp [baseOnly, Dict.keys] at hk
      rcases hk with hk | hk
      · exact .inl (by simpa using hk)
      · exact .inr (.inl (by simpa using hk))
    · intro h'; exact absurd (h ▸ h') (by decide)
    · intro h'
      simp only [argOf, Bool.and_eq_true] at hh
      rcases h' h with h' | h'
      · rw [show Dict.get "trueValues".toList spec = none from h'] at hh; exact absurd hh.1 (by decide)
      · rw [show Dict.get "falseValues".toList spec = none from h'] at hh; exact absurd hh.2 (by decide)
    · intro t' f' r r' _ h1 h2
      have e1 : argOf "trueValues" spec = .arr (.str t' :: r) := by unfold argOf; rw [show Dict.get "trueValues".toList spec = _ from h1]; rfl
      have e2 : argOf "falseValues" spec = .arr (.str f' :: r') := by unfold argOf; rw [show Dict.get "falseValues".toList spec = _ from h2]; rfl
      rw [e1] at ht
      rw [e2] at hf
      cases ht; cases hf; rfl
    · intro k d h' _ _ _
      rw [h] at h'; exact absurd h' (by decide)
  · next hc =>
    cases hd
    refine ⟨by simp [baseOnly, Dict.keys], ?_, ?_, fun _ => rfl, fun _ _ _ => rfl, ?_, ?_⟩
    · rw [h]; rfl
    · intro k hk; simp [baseOnly, Dict.keys] at hk; exact .inl (by simpa using hk)
    · intro t' f' r r' _ h1 h2
      have e1 : argOf "trueValues" spec = .arr (.str t' :: r) := by unfold argOf; rw [show Dict.get "trueValues".toList spec = _ from h1]; rfl
      have e2 : argOf "falseValues" spec = .arr (.str f' :: r') := by unfold argOf; rw [show Dict.get "falseValues".toList spec = _ from h2]; rfl
      rw [e1, e2] at hc
      exact absurd rfl hc
    · intro k d h' _ _ _
      rw [h] at h'; exact absurd h' (by decide)

theorem fieldType_facts {spec dt : List (Str × J)} (h : fieldType spec = .ok dt) : TypeFacts spec dt := by
  unfold fieldType at h
  split at h
  · next ht => cases h; exact baseOnly_facts (by rw [show prop "type" spec = none from ht]; exact baseOf_not_str (by simp)) (by decide)
  · next t ht =>
    have ht : prop "type" spec = some (.str t) := ht
    by_cases n1 : t = "string".toList
    · rw [if_pos n1] at h
      subst n1
      split at h
      · next hf => cases h; exact baseOnly_facts (by rw [ht, arg_prop.1 hf]; decide) (by decide)
      · next hf =>
        split at h
        · next hf' => cases h; exact baseOnly_facts (by rw [ht, arg_prop.1 hf']; decide) (by decide)
        · next hf' =>
          cases h
          have hb : baseOf (prop "type" spec) (prop "format" spec) = "string" := by
            rw [arg_prop] at hf hf'
            unfold baseOf
            rw [ht, if_neg (fun h => hf h.2), if_neg (fun h => hf' h.2)]
            decide
          unfold stringType
          split
          · exact baseDc_facts hb (by decide)
          · exact baseOnly_facts hb (by decide)
    rw [if_neg n1] at h
    by_cases n2 : t = "year".toList
    · rw [if_pos n2] at h
      subst n2; cases h; exact baseOnly_facts (by rw [ht]; rfl) (by decide)
    rw [if_neg n2] at h
    by_cases n3 : t = "yearmonth".toList
    · rw [if_pos n3] at h
      subst n3; cases h; exact baseOnly_facts (by rw [ht]; rfl) (by decide)
    rw [if_neg n3] at h
    by_cases n4 : t = "boolean".toList
    · rw [if_pos n4] at h
      subst n4; exact booleanType_facts (by rw [ht]; rfl) h
    rw [if_neg n4] at h
    by_cases n5 : t = "number".toList
    · rw [if_pos n5] at h
      subst n5; exact numberType_facts (by rw [ht]; rfl) (by decide) h
    rw [if_neg n5] at h
    by_cases n6 : t = "integer".toList
    · rw [if_pos n6] at h
      subst n6; exact numberType_facts (by rw [ht]; rfl) (by decide) h
    rw [if_neg n6] at h
    by_cases n7 : t = "date".toList
    · rw [if_pos n7] at h
      subst n7; cases h; exact baseOnly_facts (by rw [ht]; rfl) (by decide)
    rw [if_neg n7] at h
    by_cases n8 : t = "time".toList
    · rw [if_pos n8] at h
      subst n8; cases h; exact baseOnly_facts (by rw [ht]; rfl) (by decide)
    rw [if_neg n8] at h
    by_cases n9 : t = "datetime".toList
    · rw [if_pos n9] at h
      subst n9; cases h; exact baseOnly_facts (by rw [ht]; rfl) (by decide)
    rw [if_neg n9] at h
    by_cases n10 : t = "duration".toList
    · rw [if_pos n10] at h
      subst n10; cases h; exact baseOnly_facts (by rw [ht]; rfl) (by decide)
    rw [if_neg n10] at h
    by_cases n11 : t = "object".toList ∨ t = "array".toList
    · rw [if_pos (by simpa only [Bool.or_eq_true, decide_eq_true_eq] using n11)] at h
      cases h
      rcases n11 with e | e
      · subst e; exact baseDc_facts (by rw [ht]; rfl) (by decide)
      · subst e; exact baseDc_facts (by rw [ht]; rfl) (by decide)
    rw [if_neg (by simpa only [Bool.or_eq_true, decide_eq_true_eq] using n11)] at h
    by_cases n12 : t = "geojson".toList
    · rw [if_pos n12] at h
      subst n12; cases h; exact baseDc_facts (by rw [ht]; rfl) (by decide)
    rw [if_neg n12] at h
    · cases h
      rw [not_or] at n11
      refine baseOnly_facts ?_ (by decide)
      rw [ht]
      refine baseOf_other ?_
      intro p hp
      simp only [typeTable, List.mem_cons, List.not_mem_nil, or_false] at hp
      rcases hp with rfl | rfl | rfl | rfl | rfl | rfl | rfl | rfl | rfl | rfl | rfl | rfl | rfl
      · exact n1
      · exact n5
      · exact n6
      · exact n4
      · exact n11.1
      · exact n11.2
      · exact n7
      · exact n8
      · exact n9
      · exact n2
      · exact n3
      · exact n10
      · exact n12
  · cases h
  · cases h
  · next j hj1 hj2 hj3 hj =>
    cases h
    refine baseOnly_facts ?_ (by decide)
    rw [show prop "type" spec = some _ from hj]
    refine baseOf_not_str ?_
    intro s hs
    simp only [Option.some.injEq] at hs
    exact hj1 s hs

/-! ## Constraints -/

theorem addPattern_get {cs dt : List (Str × J)} {k : Str} (hk : k ≠ "format".toList) : Dict.get k (addPattern cs dt) = Dict.get k dt := by
  unfold addPattern
  split
  · split
    · rfl
    · rw [Dict.get_set_ne (Ne.symm hk)]
  · rfl

theorem has_eq (k : Str) (m : List (Str × J)) : Dict.has k m = (Dict.get k m).isSome := by
  rw [Bool.eq_iff_iff, Dict.has_iff_mem_keys, Dict.get_isSome_iff_mem_keys]

theorem addPattern_format {cs dt : List (Str × J)} :
    Dict.get "format".toList (addPattern cs dt) = (Dict.get "format".toList dt).or (Dict.get "pattern".toList cs) := by
  unfold addPattern
  split
  · next v hv =>
    rw [has_eq, hv]
    split
    · next hs =>
      obtain ⟨w, hw⟩ := Option.isSome_iff_exists.1 hs
      rw [hw]; rfl
    · next hs =>
      rw [Dict.get_set_self]
      cases hg : Dict.get "format".toList dt with
      | none => rfl
      | some w => rw [hg] at hs; simp at hs
  · next hv => rw [hv]; simp

theorem addConstraint_get {cs dt : List (Str × J)} {p : String} {k : Str} :
    Dict.get k (addConstraint cs dt p) = if k = p.toList then (Dict.get k cs).or (Dict.get k dt) else Dict.get k dt := by
  unfold addConstraint
  split
  · next v hv =>
    by_cases he : k = p.toList
    · rw [if_pos he, he, Dict.get_set_self, hv]; rfl
    · rw [if_neg he, Dict.get_set_ne (Ne.symm he)]
  · next hv =>
    split
    · next he => rw [he, hv]; rfl
    · rfl

theorem constrain_get {cs dt : List (Str × J)} {p : String} {k : Str} (hk : k ≠ "format".toList) :
    Dict.get k (constrain cs dt p) = if k = p.toList then (Dict.get k cs).or (Dict.get k dt) else Dict.get k dt := by
  unfold constrain
  rw [addPattern_get hk, addConstraint_get]

theorem constrain_nodup {cs dt : List (Str × J)} {p : String} (h : (Dict.keys dt).Nodup) : (Dict.keys (constrain cs dt p)).Nodup := by
  have h1 : (Dict.keys (addConstraint cs dt p)).Nodup := by
    unfold addConstraint
    split
    · exact Dict.nodup_keys_set h
    · exact h
  unfold constrain addPattern
  split
  · split
    · exact h1
    · exact Dict.nodup_keys_set h1
  · exact h1

theorem constrain_format {cs dt : List (Str × J)} {p : String} (hp : "format".toList ≠ p.toList) :
    Dict.get "format".toList (constrain cs dt p) = (Dict.get "format".toList dt).or (Dict.get "pattern".toList cs) := by
  unfold constrain
  rw [addPattern_format, addConstraint_get, if_neg hp]

/-- The datatype with the constraints. -/
theorem constraints_get {cs dt : List (Str × J)} {k : Str} (hk : k ≠ "format".toList) :
    Dict.get k (constraintNames.foldl (constrain cs) dt) =
      if k ∈ constraintNames.map String.toList then (Dict.get k cs).or (Dict.get k dt) else Dict.get k dt := by
  have gen : ∀ (ns : List String) (dt : List (Str × J)), Dict.get k (ns.foldl (constrain cs) dt) =
      if k ∈ ns.map String.toList then (Dict.get k cs).or (Dict.get k dt) else Dict.get k dt := by
    intro ns
    induction ns with
    | nil => intro dt; simp
    | cons n ns ih =>
      intro dt
      rw [List.foldl_cons, ih, constrain_get hk]
      by_cases h1 : k = n.toList
      · simp only [h1, if_true, List.map_cons, List.mem_cons, true_or]
        split
        · cases Dict.get n.toList cs <;> simp
        · rfl
      · simp [h1]
  exact gen _ _

theorem constraints_nodup {cs dt : List (Str × J)} (h : (Dict.keys dt).Nodup) : (Dict.keys (constraintNames.foldl (constrain cs) dt)).Nodup := by
  generalize constraintNames = ns
  induction ns generalizing dt with
  | nil => exact h
  | cons n ns ih => exact ih (constrain_nodup h)

theorem constraints_format {cs dt : List (Str × J)} :
    Dict.get "format".toList (constraintNames.foldl (constrain cs) dt) = (Dict.get "format".toList dt).or (Dict.get "pattern".toList cs) := by
  simp only [constraintNames, List.foldl_cons, List.foldl_nil]
  rw [constrain_format (by decide), constrain_format (by decide), constrain_format (by decide), constrain_format (by decide),
    constrain_format (by decide)]
  cases Dict.get "format".toList dt <;> cases Dict.get "pattern".toList cs <;> rfl

end Frictionless
end Csvw

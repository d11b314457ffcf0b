import Verif.Lemmas.Clean2
import Verif.Lemmas.Frictionless2
/-!
# Warnings about datatypes and inherited properties
-/

namespace Csvw
open Csvw.Spec Datatypes

section
variable {ext : Ext} {x : MExt} {other : Base → Derived → J → Res Val}

/-- The special values. -/
theorem special_iff {s : Str} : (special s).isSome = true ↔ ∃ n ∈ ["INF", "-INF", "NaN"], s = n.toList := by
  unfold special
  by_cases h1 : s = "INF".toList
  · simp [h1]
  · by_cases h2 : s = "-INF".toList
    · simp [h2]
    · by_cases h3 : s = "NaN".toList
      · simp [h3]
      · rw [if_neg h1, if_neg h2, if_neg h3]
        refine ⟨fun h => absurd h (by simp), ?_⟩
        rintro ⟨n, hn, rfl⟩
        simp only [List.mem_cons, List.not_mem_nil, or_false] at hn
        rcases hn with rfl | rfl | rfl
        · exact absurd rfl h1
        · exact absurd rfl h2
        · exact absurd rfl h3

/-- A bound which was parsed is special exactly if a warning is issued. -/
theorem bound_iff {b : Base} {d : Derived} {j : J} {v : Option Val} (h : Datatype.parseBound ext other b d j = .ok v) :
    Warn.bound b d j = false ↔ (b.name ∈ decimalBases → ∀ n ∈ ["INF", "-INF", "NaN"], j ≠ .str n.toList) := by
  rw [decimal_bases]
  by_cases hk : b.kind ∈ [Base.Kind.decimal, .integer]
  · simp only [hk, true_imp_iff]
    cases j with
    | str s =>
      simp only [Datatype.parseBound, Datatype.parseJ] at h
      cases ht : toPython ext b d s with
      | error e => rw [ht] at h; simp [Except.map] at h
      | ok w =>
        simp only [List.mem_cons, List.not_mem_nil, or_false] at hk
        have hw : ∃ f, numFmtOf d = .ok f ∧ ∃ w', decToPython f s = .ok w' := by
          unfold toPython at ht
          rcases hk with hk | hk <;> simp only [hk] at ht
          · cases hf : numFmtOf d with
            | error e => simp [hf] at ht
            | ok f =>
              refine ⟨f, rfl, ?_⟩
              simp only [hf] at ht
              cases hd : decToPython f s with
              | error e => rw [hd] at ht; simp [Except.map] at ht
              | ok w' => exact ⟨w', rfl⟩
          · cases hf : numFmtOf d with
            | error e => simp [hf] at ht
            | ok f =>
              refine ⟨f, rfl, ?_⟩
              simp only [hf] at ht
              unfold intToPython at ht
              cases hd : decToPython f s with
              | error e => rw [hd] at ht; simp [Except.map] at ht
              | ok w' => exact ⟨w', rfl⟩
        obtain ⟨f, hf, w', hd⟩ := hw
        have e : Warn.bound b d (.str s) = (special s).isSome := by
          unfold Warn.bound
          rcases hk with hk | hk <;> simp only [hk, hf, decWarns, hd] <;> cases special s <;> rfl
        rw [e, ← Bool.not_eq_true, special_iff]
        simp
    | _ => simp [Warn.bound]
  · simp only [hk, false_imp_iff, iff_true]
    simp only [List.mem_cons, List.not_mem_nil, or_false, not_or] at hk
    unfold Warn.bound
    split
    · split
      · next h _ => exact absurd h hk.1
      · next h _ => exact absurd h hk.2
      · rfl
    · rfl

/-- The bounds of a datatype. -/
def boundsOf (s : DatatypeSpec) : List J := [s.minimum, s.maximum, s.minInclusive, s.maxInclusive, s.minExclusive, s.maxExclusive]

theorem datatypeSpec_iff {s : DatatypeSpec} {dt : Datatype} (h : Datatype.Built ext other s dt) (hj : DistinctKeys s.format) :
    Warn.datatypeSpec ext s = false ↔ ∃ b ∈ allBases, s.base = .str b.toList ∧ FormatClean ext b s.format ∧
      (b ∈ decimalBases → ∀ j ∈ boundsOf s, ∀ n ∈ ["INF", "-INF", "NaN"], j ≠ .str n.toList) := by
  obtain ⟨d, hd, ⟨bad, hb, -⟩, h1, h2, h3, h4, h5, h6⟩ := h.descr
  have hbase := h.base
  have e : Warn.datatypeSpec ext s = (Warn.conv Warn.isBase true s.base || (derivedWarns ext dt.base s.format || ((boundsOf s).any (Warn.bound dt.base d) || bad))) := by
    unfold Warn.datatypeSpec
    rw [hbase]
    simp only [hd, hb]
    rfl
  have hbounds : (boundsOf s).any (Warn.bound dt.base d) = false ↔
      (dt.base.name ∈ decimalBases → ∀ j ∈ boundsOf s, ∀ n ∈ ["INF", "-INF", "NaN"], j ≠ .str n.toList) := by
    rw [List.any_eq_false]
    have : ∀ j ∈ boundsOf s, ∃ v, Datatype.parseBound ext other dt.base d j = .ok v := by
      intro j hj
      simp only [boundsOf, List.mem_cons, List.not_mem_nil, or_false] at hj
      rcases hj with rfl | rfl | rfl | rfl | rfl | rfl
      · exact ⟨_, h1⟩
      · exact ⟨_, h2⟩
      · exact ⟨_, h3⟩
      · exact ⟨_, h4⟩
      · exact ⟨_, h5⟩
      · exact ⟨_, h6⟩
    constructor
    · intro h hm j hj
      obtain ⟨v, hv⟩ := this j hj
      exact (bound_iff hv).1 (by simpa using h j hj) hm
    · intro h j hj
      obtain ⟨v, hv⟩ := this j hj
      simpa using (bound_iff hv).2 fun hm => h hm j hj
  have hf := format_iff hj hd hb
  rw [e, Bool.or_eq_false_iff, Bool.or_eq_false_iff, Bool.or_eq_false_iff, hbounds]
  constructor
  · rintro ⟨hc, hw, hs, hp⟩
    have : ∃ t b, s.base = .str t ∧ Base.ofName t = some b := by
      cases hsb : s.base with
      | null => rw [hsb] at hbase; simp [Datatype.convBase] at hbase
      | arr l => rw [hsb] at hbase; simp [Datatype.convBase] at hbase
      | str t =>
        rw [hsb] at hc
        simp only [Warn.conv, Warn.isBase, Bool.not_eq_false', Option.isSome_iff_exists] at hc
        obtain ⟨b, hb⟩ := hc
        exact ⟨t, b, rfl, hb⟩
      | _ => rw [hsb] at hc; simp [Warn.conv, Warn.isBase] at hc
    obtain ⟨t, b, ht, hn⟩ := this
    have hb' : dt.base = b := by
      rw [ht] at hbase
      simp only [Datatype.convBase, hn, Except.ok.injEq] at hbase
      exact hbase.symm
    rw [hb'] at hf hs hw
    exact ⟨b.name, all_bases b, by rw [ht, ofName_eq hn], hf.1 ⟨hw, hp⟩, hs⟩
  · rintro ⟨n, hn, hsb, hc, hs⟩
    obtain ⟨b, rfl, ho⟩ := ofName_all hn
    have hb' : dt.base = b := by
      rw [hsb] at hbase
      simp only [Datatype.convBase, ho, Except.ok.injEq] at hbase
      exact hbase.symm
    rw [hb'] at hf ⊢
    have := hf.2 hc
    refine ⟨?_, this.1, hs, this.2⟩
    rw [hsb]
    simp [Warn.conv, Warn.isBase, ho]

/-- The datatype of an object. -/
theorem object_built {m : List (Str × J)} (hn : (Dict.keys m).Nodup) {dt : Datatype} (h : Datatype.fromvalue ext x other (.obj m) = .ok dt) :
    (∃ s, Datatype.Built ext other s dt ∧ s.base = (Dict.get "base".toList m).getD (.str "string".toList) ∧ s.format = argOf "format" m ∧
      boundsOf s = ["minimum", "maximum", "minInclusive", "maxInclusive", "minExclusive", "maxExclusive"].map fun n => argOf n m) ∧
    ∀ k v, (k, v) ∈ m → k ∈ datatypeFields → k ∉ partNames := by
  unfold Datatype.fromvalue at h
  simp only at h
  obtain ⟨o, hp, h⟩ := Datatype.bind_ok h
  cases o with
  | none => cases h
  | some p =>
    simp only at h
    obtain ⟨length, -, h⟩ := Datatype.bind_ok h
    obtain ⟨minLength, -, h⟩ := Datatype.bind_ok h
    obtain ⟨maxLength, -, h⟩ := Datatype.bind_ok h
    have hb := Datatype.built_of_construct h
    have hget : ∀ k : Str, Dict.get k (Dict.setdefault "base".toList (.str "string".toList) m) =
        if k = "base".toList then some ((Dict.get "base".toList m).getD (.str "string".toList)) else Dict.get k m := by
      intro k
      unfold Dict.setdefault
      rw [Frictionless.has_eq]
      cases hg : Dict.get "base".toList m with
      | some w =>
        simp only [Option.isSome_some, if_true, Option.getD_some]
        split
        · next h => rw [h, hg]
        · rfl
      | none =>
        simp only [Option.isSome_none, Bool.false_eq_true, if_false, Option.getD_none]
        rw [Dict.get_append]
        by_cases hk : k = "base".toList
        · rw [if_pos hk, hk, hg]; simp [Dict.get]
        · rw [if_neg hk]
          have : Dict.get k [("base".toList, J.str "string".toList)] = none := by simp only [Dict.get]; rw [if_neg (fun h => hk h.symm)]
          rw [this, Option.or_none]
    have hn' : (Dict.keys (Dict.setdefault "base".toList (.str "string".toList) m)).Nodup := by
      unfold Dict.setdefault
      split
      · exact hn
      · next hh =>
        rw [Dict.has_iff_mem_keys] at hh
        simp only [Dict.keys, List.map_append, List.map_cons, List.map_nil] at hn hh ⊢
        rw [List.nodup_append]
        refine ⟨hn, by simp, ?_⟩
        intro a ha b hb hab
        simp only [List.mem_cons, List.not_mem_nil, or_false] at hb
        subst hab; subst hb
        exact hh ha
    have ga : ∀ k : String, OwnProperty k.toList → k.toList ∈ datatypeFields → k ≠ "base" → argOf k p.own = argOf k m := by
      intro k h1 h2 h3
      rw [own_arg hn' hp h1 (fun _ => h2)]
      unfold argOf
      rw [hget, if_neg (by intro h; exact h3 (String.toList_inj.1 h))]
    refine ⟨⟨_, hb, ?_, ?_, ?_⟩, ?_⟩
    · simp only
      rw [own_arg hn' hp (by decide) (by decide)]
      unfold argOf
      rw [hget, if_pos rfl]; rfl
    · exact ga "format" (by decide) (by decide) (by decide)
    · simp only [boundsOf, List.map_cons, List.map_nil]
      rw [ga "minimum" (by decide) (by decide) (by decide), ga "maximum" (by decide) (by decide) (by decide),
        ga "minInclusive" (by decide) (by decide) (by decide), ga "maxInclusive" (by decide) (by decide) (by decide),
        ga "minExclusive" (by decide) (by decide) (by decide), ga "maxExclusive" (by decide) (by decide) (by decide)]
    · intro k v hm hk hpn
      have hmem : (k, v) ∈ Dict.setdefault "base".toList (.str "string".toList) m := by
        unfold Dict.setdefault
        split
        · exact hm
        · exact List.mem_append_left _ hm
      have := (Props.C52_partition x _ _ _ _ p hn' hp).1
      unfold partitionProperties at hp
      simp only at hp
      split at hp
      · cases hp
      split at hp
      · cases hp
      next hany =>
      cases hp
      apply hany
      rw [List.any_eq_true]
      refine ⟨(k, v), ?_, by simpa using hpn⟩
      rw [this, List.mem_filter]
      refine ⟨hmem, ?_⟩
      have : OwnProperty k := by
        revert hpn; revert k; intro k _ _ _ h; revert h; simp only [partNames, List.mem_cons, List.not_mem_nil, or_false]
        rintro (rfl | rfl) <;> decide
      simp [this, hk]

theorem datatypeSpec_congr {s s' : DatatypeSpec} (h1 : s.base = s'.base) (h2 : s.format = s'.format) (h3 : boundsOf s = boundsOf s') :
    Warn.datatypeSpec ext s = Warn.datatypeSpec ext s' := by
  unfold Warn.datatypeSpec
  unfold boundsOf at h3
  rw [h1, h2, h3]

theorem formatClean_null (b : String) : FormatClean ext b .null :=
  ⟨fun _ => .inl (.inl rfl), fun _ => .inl (.inl rfl), fun _ => .inl (.inl rfl), fun _ => .inl (.inl rfl), fun _ => .inl (.inl rfl)⟩

theorem Spec.DistinctKeys.arg {m : List (Str × J)} (h : DistinctKeys (.obj m)) (k : String) : DistinctKeys (argOf k m) := by
  cases h with
  | obj hn hv =>
    unfold argOf
    cases hg : Dict.get k.toList m with
    | none => exact .null
    | some v => exact hv _ _ (Dict.get_mem hg)

theorem Spec.DistinctKeys.nodup {m : List (Str × J)} (h : DistinctKeys (.obj m)) : (Dict.keys m).Nodup := by
  cases h with | obj hn _ => exact hn

theorem Spec.DistinctKeys.has {m : List (Str × J)} (h : DistinctKeys (.obj m)) {k : String} {v : J} (hv : Has m k v) : DistinctKeys v := by
  cases h with | obj _ hv' => exact hv' _ _ hv

theorem baseOf_iff {m : List (Str × J)} (hn : (Dict.keys m).Nodup) {b : String} :
    (Dict.get "base".toList m).getD (.str "string".toList) = .str b.toList ↔ BaseOf m b := by
  unfold BaseOf Has
  cases hg : Dict.get "base".toList m with
  | some v =>
    have hm := Dict.get_mem hg
    simp only [Option.getD_some]
    constructor
    · rintro rfl; exact .inl hm
    · rintro (h | ⟨-, h⟩)
      · rw [Dict.get_of_mem_nodup hn h] at hg; cases hg; rfl
      · exact absurd hm (h v)
  | none =>
    simp only [Option.getD_none, J.str.injEq]
    constructor
    · intro h
      refine .inr ⟨(String.toList_inj.1 h).symm, fun v hv => ?_⟩
      rw [Dict.get_of_mem_nodup hn hv] at hg; cases hg
    · rintro (h | ⟨rfl, -⟩)
      · rw [Dict.get_of_mem_nodup hn h] at hg; cases hg
      · rfl

theorem datatypeNames_fields : (∀ n ∈ datatypeNames, n.toList ∈ datatypeFields) ∧
    ∀ k ∈ datatypeFields, (∃ n ∈ datatypeNames, k = n.toList) ∨ k ∈ partNames := by
  constructor <;> decide +kernel

theorem object_iff {m : List (Str × J)} (hj : DistinctKeys (.obj m)) {dt : Datatype} (h : Datatype.fromvalue ext x other (.obj m) = .ok dt) :
    Warn.datatype ext x (.obj m) = false ↔ DatatypeClean ext (tagOf x) m := by
  have hn := hj.nodup
  obtain ⟨⟨s, hb, e1, e2, e3⟩, hpriv⟩ := object_built hn h
  have hs : Warn.datatype ext x (.obj m) = (Warn.parts x datatypeFields true m || Warn.datatypeSpec ext s) := by
    unfold Warn.datatype
    simp only
    congr 1
    exact datatypeSpec_congr e1.symm e2.symm e3.symm
  rw [hs, Bool.or_eq_false_iff, parts_iff datatypeNames_fields.1 datatypeNames_fields.2 hpriv,
    datatypeSpec_iff hb (by rw [e2]; exact hj.arg _), e1, e2, e3]
  constructor
  · rintro ⟨hp, b, hba, hbase, hf, hbo⟩
    rw [baseOf_iff hn] at hbase
    have huniq : ∀ b', BaseOf m b' → b' = b := by
      intro b' hb'
      have h1 := (baseOf_iff hn).2 hbase
      rw [(baseOf_iff hn).2 hb'] at h1
      simp only [J.str.injEq] at h1
      exact String.toList_inj.1 h1
    refine ⟨hp, ?_, ?_, ?_⟩
    · intro v hv
      refine ⟨b, hba, ?_⟩
      have h1 := (baseOf_iff hn).2 hbase
      rw [Dict.get_of_mem_nodup hn hv] at h1
      exact h1
    · intro b' f hb' hfm
      rw [huniq b' hb']
      have : argOf "format" m = f := by unfold argOf; rw [Dict.get_of_mem_nodup hn hfm]; rfl
      rwa [this] at hf
    · intro b' hd hb' n hnm s hsm hh
      rw [huniq b' hb'] at hd
      have : argOf n m = .str s.toList := by unfold argOf; rw [Dict.get_of_mem_nodup hn hh]; rfl
      exact hbo hd _ (List.mem_map_of_mem (f := fun n => argOf n m) hnm) s hsm this
  · rintro ⟨hp, h1, h2, h3⟩
    refine ⟨hp, ?_⟩
    obtain ⟨b, hba, hb⟩ : ∃ b ∈ allBases, BaseOf m b := by
      cases hg : Dict.get "base".toList m with
      | none =>
        refine ⟨"string", by decide, .inr ⟨rfl, fun v hv => ?_⟩⟩
        rw [Dict.get_of_mem_nodup hn hv] at hg; cases hg
      | some v =>
        obtain ⟨b, hba, rfl⟩ := h1 v (Dict.get_mem hg)
        exact ⟨b, hba, .inl (Dict.get_mem hg)⟩
    refine ⟨b, hba, (baseOf_iff hn).2 hb, ?_, ?_⟩
    · unfold argOf
      cases hg : Dict.get "format".toList m with
      | none => exact formatClean_null b
      | some f => exact h2 b f hb (Dict.get_mem hg)
    · intro hd j hjm s hsm hjs
      rw [List.mem_map] at hjm
      obtain ⟨n, hnm, rfl⟩ := hjm
      exact h3 b hd hb n hnm s hsm ((arg_eq_iff hn n (by simp)).1 hjs)

theorem datatype_iff {j : J} (hj : DistinctKeys j) {dt : Datatype} (h : Datatype.fromvalue ext x other j = .ok dt) :
    Warn.datatype ext x j = false ↔ (∃ b ∈ allBases, j = .str b.toList) ∨ ∃ d, j = .obj d ∧ DatatypeClean ext (tagOf x) d := by
  cases j with
  | str s =>
    have hb := Datatype.built_of_construct h
    rw [Warn.datatype, datatypeSpec_iff hb .null]
    simp only [reduceCtorEq, false_and, exists_false, or_false]
    constructor
    · rintro ⟨b, hb, h1, -⟩; exact ⟨b, hb, h1⟩
    · rintro ⟨b, hb, h1⟩
      refine ⟨b, hb, h1, formatClean_null b, fun _ j hj n hn => ?_⟩
      simp only [boundsOf, List.mem_cons, List.not_mem_nil, or_false] at hj
      rcases hj with rfl | rfl | rfl | rfl | rfl | rfl <;> simp
  | obj m =>
    rw [object_iff hj h]
    simp
  | _ => simp [Datatype.fromvalue] at h

/-! ## Inherited properties -/

theorem tmpl_iff {j : J} : Warn.tmpl j = false ↔ IsTextOrNull j := by
  cases j <;> simp [Warn.tmpl, J.isStr, IsTextOrNull, IsText]

theorem null_iff {j : J} : Warn.null j = false ↔ IsTextOrNull j ∨ IsTexts j := by
  cases j with
  | arr l =>
    simp only [Warn.null, Bool.not_eq_false', all_isStr_iff, IsTextOrNull, IsText, reduceCtorEq, exists_false, false_or]
  | _ => simp [Warn.null, IsTextOrNull, IsText, IsTexts]

theorem textDirection_iff {j : J} : isTextDirection j = true ↔ ∃ d ∈ ["ltr", "rtl", "auto", "inherit"], j = .str d.toList := by
  cases j <;> simp [isTextDirection]

theorem conv_null_iff {ok : J → Bool} {P : J → Prop} (hP : ∀ j, ok j = true ↔ P j) (h : ∀ l, ok (.arr l) = false) (h0 : ok .null = false) (j : J) :
    Warn.conv ok true j = false ↔ j = .null ∨ Listed P j := by
  rw [conv_iff h h0, Listed.congr hP]; simp

/-- The warnings about inherited properties. -/
theorem descr_iff {m : List (Str × J)} (hj : DistinctKeys (.obj m))
    (h : (argOf "datatype" m).truthy = true → ∃ dt, Datatype.fromvalue ext x other (argOf "datatype" m) = .ok dt) :
    Warn.descr ext x m = false ↔ InheritedClean ext (tagOf x) m := by
  have hn := hj.nodup
  have hdt : ((argOf "datatype" m).truthy && Warn.datatype ext x (argOf "datatype" m)) = false ↔
      ∀ v, Has m "datatype" v → Falsy v ∨ (∃ b ∈ allBases, v = .str b.toList) ∨ ∃ d, v = .obj d ∧ DatatypeClean ext (tagOf x) d := by
    rw [arg_iff (f := fun j => j.truthy && Warn.datatype ext x j) hn "datatype" rfl]
    refine forall_congr' fun v => ⟨fun hv hm => ?_, fun hv hm => ?_⟩
    · have := hv hm
      rw [Bool.and_eq_false_iff] at this
      by_cases ht : v.truthy = true
      · have ha : argOf "datatype" m = v := by unfold argOf; rw [Dict.get_of_mem_nodup hn hm]; rfl
        rw [ha] at h
        obtain ⟨dt, hdt⟩ := h ht
        exact .inr ((datatype_iff (hj.has hm) hdt).1 (this.resolve_left (by simp [ht])))
      · exact .inl (truthy_iff.1 (by simpa using ht))
    · rw [Bool.and_eq_false_iff]
      by_cases ht : v.truthy = true
      · have ha : argOf "datatype" m = v := by unfold argOf; rw [Dict.get_of_mem_nodup hn hm]; rfl
        rw [ha] at h
        obtain ⟨dt, hdt⟩ := h ht
        refine .inr ((datatype_iff (hj.has hm) hdt).2 ((hv hm).resolve_left ?_))
        rw [← truthy_iff]; simp [ht]
      · exact .inl (by simpa using ht)
  unfold Warn.descr
  simp only [Bool.or_eq_false_iff]
  rw [arg_iff hn "aboutUrl" (f := Warn.tmpl) rfl, hdt, given_iff hn, given_iff hn, given_iff hn,
    arg_iff hn "ordered" (f := Warn.conv J.isBool true) rfl, arg_iff hn "propertyUrl" (f := Warn.tmpl) rfl,
    arg_iff hn "separator" (f := Warn.conv J.isStr true) rfl, arg_iff hn "textDirection" (f := Warn.conv isTextDirection true) rfl,
    arg_iff hn "valueUrl" (f := Warn.tmpl) rfl]
  simp only [tmpl_iff, Bool.not_eq_false', isStr_iff, langKept_iff, null_iff, conv_null_iff (ok := J.isBool) (fun j => isBool_iff) (fun _ => rfl) rfl,
    conv_null_iff (ok := J.isStr) (fun j => isStr_iff) (fun _ => rfl) rfl, conv_null_iff (ok := isTextDirection) (fun j => textDirection_iff) (fun _ => rfl) rfl]
  constructor
  · rintro ⟨⟨⟨⟨⟨⟨⟨⟨⟨a, b⟩, c⟩, d⟩, e⟩, f⟩, g⟩, h⟩, i⟩, k⟩
    refine ⟨?_, b, c, d, e, f, h, i⟩
    intro n hn
    simp only [List.mem_cons, List.not_mem_nil, or_false] at hn
    rcases hn with rfl | rfl | rfl
    · exact a
    · exact g
    · exact k
  · rintro ⟨u, b, c, d, e, f, h, i⟩
    exact ⟨⟨⟨⟨⟨⟨⟨⟨⟨u _ (by simp), b⟩, c⟩, d⟩, e⟩, f⟩, u _ (by simp)⟩, h⟩, i⟩, u _ (by simp)⟩

end

end Csvw

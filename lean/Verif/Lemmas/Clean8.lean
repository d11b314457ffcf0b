import Verif.Lemmas.Clean7
/-!
# Warnings about tables and groups of tables
-/

namespace Csvw
open Csvw.Spec

section
variable {ext : Ext} {x : MExt} {other : Base → Derived → J → Res Val} {lk : EncLookup}

theorem isDirection_iff {j : J} : Warn.isDirection j = true ↔ ∃ d ∈ ["rtl", "ltr", "auto"], j = .str d.toList := by
  simp [Warn.isDirection, or_assoc]

theorem direction_iff {m : List (Str × J)} (hn : (Dict.keys m).Nodup) {s : Str} (h : convDirection (Dict.get "tableDirection".toList m) = .ok s) :
    Warn.given "tableDirection" (Warn.conv Warn.isDirection false) m = false ↔
      ∀ v, Has m "tableDirection" v → ∃ d ∈ ["rtl", "ltr", "auto"], v = .str d.toList := by
  rw [given_iff hn]
  refine forall_congr' fun v => forall_congr' fun hv => ?_
  rw [conv_iff (fun _ => rfl) rfl, Listed.congr (fun j => isDirection_iff), listed_noArr]
  · simp
  · rintro l rfl
    rw [Dict.get_of_mem_nodup hn hv] at h
    simp [convDirection, converter] at h

theorem schema_iff {j : J} (hj : DistinctKeys j) {s : Schema} (h : Schema.fromvalue ext x other j = .ok s) :
    Warn.schema ext x other j = false ↔ (∀ o, j = .obj o → SchemaClean ext (tagOf x) o) ∧ (∀ i, j ≠ .int i) ∧ ∀ b, j ≠ .bool b := by
  cases j with
  | obj m => simp [Warn.schema, schemaObj_iff hj h]
  | _ => simp [Warn.schema]

theorem dialect_iff (hlk : lk "utf-8".toList = .ok ()) {j : J} (hj : DistinctKeys j) {d : Option Dialect} (h : convDialect lk x j = .ok d) :
    Warn.dialect lk x j = false ↔ IsTextOrNull j ∨ ∃ d, j = .obj d ∧ DialectClean lk (tagOf x) d := by
  cases j with
  | obj m => simp [dialectObj_iff hlk hj h, IsTextOrNull, IsText]
  | _ => simp [Warn.dialect, IsTextOrNull, IsText]

theorem partition_priv {fields : List Str} {tn : Str} {strict : Bool} {m : List (Str × J)} (hn : (Dict.keys m).Nodup) {p : Parts}
    (hp : partitionProperties x fields tn strict (.obj m) = .ok (some p)) : ∀ k v, (k, v) ∈ m → k ∈ fields → k ∉ partNames := by
  intro k v hm hk hkp
  have hown : OwnProperty k := by
    revert hkp
    have : ∀ k ∈ partNames, OwnProperty k := by decide +kernel
    exact this k
  have hmem : (k, v) ∈ p.own := by
    rw [(Props.C52_partition x _ _ _ _ p hn hp).1, List.mem_filter]
    exact ⟨hm, by simp [hown, hk]⟩
  unfold partitionProperties at hp
  simp only at hp
  split at hp
  · cases hp
  split at hp
  · cases hp
  next hany =>
  cases hp
  exact hany (List.any_eq_true.2 ⟨(k, v), hmem, by simpa using hkp⟩)

theorem templateNames_fields : (∀ n ∈ "_parent" :: inheritedNames, n.toList ∈ descriptionFields) ∧
    ∀ k ∈ descriptionFields, (∃ n ∈ "_parent" :: inheritedNames, k = n.toList) ∨ k ∈ partNames := by
  constructor <;> decide +kernel

theorem mapRes_item {α β : Type} {f : α → Res β} : ∀ {l : List α} {bs : List β}, mapRes f l = .ok bs → ∀ a ∈ l, ∃ b, f a = .ok b
  | [], _, _, a, ha => by cases ha
  | a0 :: l, bs, h, a, ha => by
    simp only [mapRes] at h
    split at h
    · cases h
    next b hb =>
    obtain ⟨bs', h', -⟩ := Except.map_eq_ok.1 h
    rcases List.mem_cons.1 ha with rfl | ha
    · exact ⟨b, hb⟩
    · exact mapRes_item h' a ha

theorem transformations_iff {m : List (Str × J)} (hj : DistinctKeys (.obj m)) {v' : J}
    (h : convTransformations x (Dict.get "transformations".toList m) = .ok v') :
    Warn.given "transformations" (Warn.transformations x) m = false ↔
      ∀ v, Has m "transformations" v → ∃ l, v = .arr l ∧ ∀ o, .obj o ∈ l → PropsClean (tagOf x) ("_parent" :: inheritedNames) o := by
  have hn := hj.nodup
  rw [given_iff hn]
  refine forall_congr' fun v => forall_congr' fun hv => ?_
  rw [Dict.get_of_mem_nodup hn hv] at h
  cases v with
  | arr l =>
    have hl := hj.has hv
    simp only [convTransformations] at h
    obtain ⟨bs, h, -⟩ := Except.map_eq_ok.1 h
    simp only [Warn.transformations, List.any_eq_false, J.arr.injEq, exists_eq_left', Bool.not_eq_true]
    have key : ∀ o, .obj o ∈ l → (Warn.parts x descriptionFields true o = false ↔ PropsClean (tagOf x) ("_parent" :: inheritedNames) o) := by
      intro o ho
      obtain ⟨b, hb⟩ := mapRes_item h _ ho
      unfold checkTransformation at hb
      split at hb
      · cases hb
      · next p hp =>
        exact parts_iff templateNames_fields.1 templateNames_fields.2 (partition_priv (hl.item ho).nodup hp)
      · next hp => simp [partitionProperties] at hp; split at hp <;> (try cases hp) <;> split at hp <;> cases hp
    constructor
    · intro h' o ho
      exact (key o ho).1 (h' _ ho)
    · intro h' j hm
      cases j with
      | obj o => exact (key o hm).2 (h' o hm)
      | _ => rfl
  | _ => simp [Warn.transformations]

theorem context_iff {j : J} (hj : DistinctKeys j) :
    Warn.context x j = false ↔ ∀ l, j = .arr l → ∀ o, .obj o ∈ l → ∀ v, Has o "@language" v → IsTag (tagOf x) v := by
  cases j with
  | arr l =>
    simp only [Warn.context, List.any_eq_false, J.arr.injEq, forall_eq', Bool.not_eq_true]
    have key : ∀ o, .obj o ∈ l → (Warn.given "@language" (fun v => !langKept x v) o = false ↔ ∀ v, Has o "@language" v → IsTag (tagOf x) v) := by
      intro o ho
      rw [given_iff (hj.item ho).nodup]
      simp only [Bool.not_eq_false', langKept_iff]
    constructor
    · intro h' o ho
      exact (key o ho).1 (h' _ ho)
    · intro h' j hm
      cases j with
      | obj o => exact (key o hm).2 (h' o hm)
      | _ => rfl
  | _ => simp [Warn.context]

theorem like_iff (hlk : lk "utf-8".toList = .ok ()) {fields : List Str} {tn : String} {m : List (Str × J)} (hj : DistinctKeys (.obj m)) {p : Parts}
    (hp : partitionProperties x fields tn.toList true (.obj m) = .ok (some p)) (hf : ∀ k ∈ likeFields, k ∈ fields) {t : TableLike}
    (h : TableLike.ofParts ext x other lk p = .ok t) : Warn.like ext x other lk m = false ↔ TableLikeClean ext lk (tagOf x) m := by
  have hn := hj.nodup
  unfold TableLike.ofParts at h
  obtain ⟨d, hd, h⟩ := Datatype.bind_ok h
  obtain ⟨dia, hdia, h⟩ := Datatype.bind_ok h
  obtain ⟨dir, hdir, h⟩ := Datatype.bind_ok h
  obtain ⟨s, hs, h⟩ := Datatype.bind_ok h
  obtain ⟨tr, htr, h⟩ := Datatype.bind_ok h
  clear h
  rw [own_arg hn hp (by decide) fun _ => hf _ (by decide)] at hdia hs
  rw [own_get hn hp (by decide) fun _ => hf _ (by decide)] at hdir htr
  have at_ : ∀ {k : String} {v : J}, Has m k v → argOf k m = v := by
    intro k v hv
    unfold argOf; rw [Dict.get_of_mem_nodup hn hv]; rfl
  have e1 : Warn.dialect lk x (argOf "dialect" m) = false ↔ ∀ v, Has m "dialect" v → IsTextOrNull v ∨ ∃ d, v = .obj d ∧ DialectClean lk (tagOf x) d := by
    rw [arg_iff hn "dialect" (f := Warn.dialect lk x) rfl]
    refine forall_congr' fun v => forall_congr' fun hv => ?_
    rw [at_ hv] at hdia
    exact dialect_iff hlk (hj.has hv) hdia
  have e2 : Warn.schema ext x other (argOf "tableSchema" m) = false ↔
      ∀ v, Has m "tableSchema" v → (∀ o, v = .obj o → SchemaClean ext (tagOf x) o) ∧ (∀ i, v ≠ .int i) ∧ ∀ b, v ≠ .bool b := by
    rw [arg_iff hn "tableSchema" (f := Warn.schema ext x other) rfl]
    refine forall_congr' fun v => forall_congr' fun hv => ?_
    rw [at_ hv] at hs
    exact schema_iff (hj.has hv) hs
  have e3 : Warn.context x (argOf "@context" m) = false ↔
      ∀ l, Has m "@context" (.arr l) → ∀ o, .obj o ∈ l → ∀ v, Has o "@language" v → IsTag (tagOf x) v := by
    rw [context_iff (hj.arg "@context")]
    exact forall_congr' fun l => by rw [arg_eq_iff hn "@context" (by simp)]
  unfold Warn.like
  simp only [Bool.or_eq_false_iff]
  rw [descr_iff' hj hp (hf _ (by decide)) hd, e1, e2, e3, direction_iff hn hdir, transformations_iff hj htr]
  constructor
  · rintro ⟨⟨⟨⟨⟨a, b⟩, c⟩, d⟩, e⟩, f⟩
    exact ⟨a, b, c, d, e, f⟩
  · rintro ⟨a, b, c, d, e, f⟩
    exact ⟨⟨⟨⟨⟨a, b⟩, c⟩, d⟩, e⟩, f⟩

theorem tableNames_fields : (∀ n ∈ Spec.tableNames, n.toList ∈ tableFields) ∧
    ∀ k ∈ tableFields, (∃ n ∈ Spec.tableNames, k = n.toList) ∨ k ∈ privNames := by
  constructor <;> decide +kernel

theorem groupNames_fields : (∀ n ∈ Spec.groupNames, n.toList ∈ groupFields) ∧
    ∀ k ∈ groupFields, (∃ n ∈ Spec.groupNames, k = n.toList) ∨ k ∈ privNames := by
  constructor <;> decide +kernel

theorem table_iff (hlk : lk "utf-8".toList = .ok ()) {m : List (Str × J)} (hj : DistinctKeys (.obj m)) {t : TableD}
    (h : TableD.fromvalue ext x other lk (.obj m) = .ok t) : Warn.table ext x other lk m = false ↔ TableClean ext lk (tagOf x) m := by
  obtain ⟨p, hp, h, hpriv⟩ := fromParts_inv hj.nodup h
  unfold TableD.ofParts at h
  obtain ⟨l, hl, -⟩ := Datatype.bind_ok h
  unfold Warn.table
  rw [Bool.or_eq_false_iff, parts_iff tableNames_fields.1 tableNames_fields.2 hpriv, like_iff hlk hj hp (by decide +kernel) hl]
  exact ⟨fun ⟨a, b⟩ => ⟨a, b⟩, fun ⟨a, b⟩ => ⟨a, b⟩⟩

theorem tables_iff (hlk : lk "utf-8".toList = .ok ()) {j : J} (hj : DistinctKeys j) {ts : List TableD} (h : convTables ext x other lk (some j) = .ok ts) :
    Warn.tables ext x other lk j = false ↔ j = .obj [] ∨ j = .str [] ∨
      ∃ ts : List (List (Str × J)), j = .arr (ts.map .obj) ∧ ∀ t ∈ ts, TableClean ext lk (tagOf x) t := by
  cases j with
  | arr l =>
    simp only [convTables] at h
    simp only [Warn.tables, List.any_eq_false, J.arr.injEq, Bool.not_eq_true, reduceCtorEq, false_or]
    rw [← objs_iff]
    refine forall_congr' fun j => forall_congr' fun hm => ?_
    cases j with
    | obj m =>
      obtain ⟨c, hc⟩ := mapObjs_left h m hm
      simp [table_iff hlk (hj.item hm) hc]
    | _ => simp
  | obj m => simp [Warn.tables]
  | str s => simp [Warn.tables]
  | _ => simp [convTables] at h

theorem group_iff (hlk : lk "utf-8".toList = .ok ()) {m : List (Str × J)} (hj : DistinctKeys (.obj m)) {g : GroupD}
    (h : GroupD.fromvalue ext x other lk (.obj m) = .ok g) : Warn.group ext x other lk m = false ↔ GroupClean ext lk (tagOf x) m := by
  have hn := hj.nodup
  obtain ⟨p, hp, h, hpriv⟩ := fromParts_inv hn h
  unfold GroupD.ofParts at h
  obtain ⟨l, hl, h⟩ := Datatype.bind_ok h
  obtain ⟨ts, hts, -⟩ := Datatype.bind_ok h
  rw [own_get hn hp (by decide) fun _ => by decide] at hts
  have e1 : Warn.given "tables" (Warn.tables ext x other lk) m = false ↔ ∀ v, Has m "tables" v → v = .obj [] ∨ v = .str [] ∨
      ∃ ts : List (List (Str × J)), v = .arr (ts.map .obj) ∧ ∀ t ∈ ts, TableClean ext lk (tagOf x) t := by
    rw [given_iff hn]
    refine forall_congr' fun v => forall_congr' fun hv => ?_
    rw [Dict.get_of_mem_nodup hn hv] at hts
    exact tables_iff hlk (hj.has hv) hts
  unfold Warn.group
  rw [Bool.or_eq_false_iff, Bool.or_eq_false_iff, parts_iff groupNames_fields.1 groupNames_fields.2 hpriv, like_iff hlk hj hp (by decide +kernel) hl, e1]
  exact ⟨fun ⟨⟨a, b⟩, c⟩ => ⟨a, b, c⟩, fun ⟨a, b, c⟩ => ⟨⟨a, b⟩, c⟩⟩

end

end Csvw

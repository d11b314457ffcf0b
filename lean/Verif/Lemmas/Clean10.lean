import Verif.Lemmas.Clean9
/-!
# What is kept of tables and groups
-/

namespace Csvw
open Csvw.Spec

section
variable {ext : Ext} {x : MExt} {other : Base → Derived → J → Res Val} {lk : EncLookup}

theorem atProps_nodup {fields : List Str} {tn : Str} {strict : Bool} {m : List (Str × J)} {p : Parts} (hn : (Dict.keys m).Nodup)
    (hp : partitionProperties x fields tn strict (.obj m) = .ok (some p)) : (Dict.keys p.atProps).Nodup := by
  obtain ⟨-, -, hat, -⟩ := Props.C52_partition x fields tn strict m p hn hp
  rw [hat]
  unfold Dict.keys at hn ⊢
  rw [List.map_map, List.Nodup, List.pairwise_map]
  rw [List.Nodup, List.pairwise_map] at hn
  refine List.Pairwise.imp_of_mem ?_ (hn.filter _)
  intro a b ha hb h he
  obtain ⟨-, ha⟩ := List.mem_filter.1 ha
  obtain ⟨-, hb⟩ := List.mem_filter.1 hb
  obtain ⟨r, hr⟩ : AtProperty a.1 := by simpa using ha
  obtain ⟨r', hr'⟩ : AtProperty b.1 := by simpa using hb
  simp only [Function.comp_apply, hr, hr', List.drop_succ_cons, List.drop_zero] at he
  exact h (by rw [hr, hr', he])

theorem atProps_get {fields : List Str} {tn : Str} {strict : Bool} {m : List (Str × J)} {p : Parts} (hn : (Dict.keys m).Nodup)
    (hp : partitionProperties x fields tn strict (.obj m) = .ok (some p)) {l : List J}
    (h : Dict.get "context".toList p.atProps = some (.arr l)) : Has m "@context" (.arr l) := by
  obtain ⟨-, -, hat, -⟩ := Props.C52_partition x fields tn strict m p hn hp
  have h := Dict.get_mem h
  rw [hat] at h
  obtain ⟨⟨k, v⟩, hm, he⟩ := List.mem_map.1 h
  obtain ⟨hm, ha⟩ := List.mem_filter.1 hm
  obtain ⟨r, hr⟩ : AtProperty k := by simpa using ha
  simp only [hr, List.drop_succ_cons, List.drop_zero, Prod.mk.injEq] at he
  obtain ⟨h1, he⟩ := he
  subst h1
  have : Props.atValue ('@' :: "context".toList) v = v := by
    unfold Props.atValue
    rw [if_neg (by decide)]
  rw [this] at he
  rw [he, hr] at hm
  exact hm

theorem descrKept_at {m : List (Str × J)} {d : Descr} (h : DescrKept ext x other m d) {a : List (Str × J)}
    (ha : ∀ k v, (k, v) ∈ d.atProps → (k, v) ∈ a) : DescrKept ext x other m { d with atProps := a } :=
  ⟨h.common, fun k v hm => ha k v (h.at_ k v hm), h.aboutUrl, h.propertyUrl, h.valueUrl, h.datatype, h.default, h.lang, h.null, h.ordered, h.required,
    h.separator, h.textDirection⟩

theorem like_kept (hlk : lk "utf-8".toList = .ok ()) {fields : List Str} {tn : String} {m : List (Str × J)} (hj : DistinctKeys (.obj m)) {p : Parts}
    (hp : partitionProperties x fields tn.toList true (.obj m) = .ok (some p)) (hf : ∀ k ∈ likeFields, k ∈ fields) {t : TableLike}
    (h : TableLike.ofParts ext x other lk p = .ok t) (ha : AnyClean (tagOf x) m) (hc : TableLikeClean ext lk (tagOf x) m) :
    LikeKept ext x other m t := by
  have hn := hj.nodup
  unfold TableLike.ofParts at h
  obtain ⟨d, hd, h⟩ := Datatype.bind_ok h
  obtain ⟨dia, hdia, h⟩ := Datatype.bind_ok h
  obtain ⟨dir, hdir, h⟩ := Datatype.bind_ok h
  obtain ⟨s, hs, h⟩ := Datatype.bind_ok h
  obtain ⟨tr, htr, h⟩ := Datatype.bind_ok h
  obtain ⟨url, hurl, h⟩ := Datatype.bind_ok h
  obtain ⟨at', hat', h⟩ := Datatype.bind_ok h
  simp only [pure, Except.pure, Except.ok.injEq] at h
  rw [own_arg hn hp (by decide) fun _ => hf _ (by decide)] at hdia hs hurl
  rw [own_get hn hp (by decide) fun _ => hf _ (by decide)] at hdir htr h
  have sub : ∀ {k : String} {v : J}, Has m k v → argOf k m = v := by
    intro k v hv
    unfold argOf; rw [Dict.get_of_mem_nodup hn hv]; rfl
  have hat0 : d.atProps = p.atProps := by
    unfold Descr.ofParts at hd
    obtain ⟨d', -, rfl⟩ := Except.map_eq_ok.1 hd
    rfl
  rw [hat0] at hat'
  subst h
  refine ⟨?_, ?_, ?_, ?_, ?_, ?_, ?_⟩
  · refine descrKept_at (descr_kept hj hp (fun k hk => hf k (by unfold likeFields; exact List.mem_append_left _ hk)) hd ha hc.inherited) ?_
    rw [hat0]
    exact postInit_kept (atProps_nodup hn hp) hat' fun l hl => hc.context l (atProps_get hn hp hl)
  · intro o ho
    rw [sub ho] at hdia
    rcases hc.dialect _ ho with h | ⟨d, hd, hdc⟩
    · rcases h with h | ⟨s, h⟩ <;> cases h
    · cases hd
      exact dialect_kept hlk (hj.has ho) hdia hdc
  · intro v hv; simp only; rw [Dict.get_of_mem_nodup hn hv]; rfl
  · intro s hs'
    rw [Dict.get_of_mem_nodup hn hs'] at hdir
    have hcl := hc.tableDirection _ hs'
    unfold convDirection at hdir
    simp only at hdir
    rw [converter_silent] at hdir
    · cases hdir; rfl
    · simp only [Warn.conv, Bool.not_eq_false']
      exact isDirection_iff.2 hcl
  · intro o ho
    rw [sub ho] at hs
    exact schema_kept (hj.has ho) hs ((hc.tableSchema _ ho).1 o rfl)
  · intro v hv
    obtain ⟨l, rfl, -⟩ := hc.transformations v hv
    rw [Dict.get_of_mem_nodup hn hv] at htr
    simp only [convTransformations] at htr
    obtain ⟨_, -, rfl⟩ := Except.map_eq_ok.1 htr
    rfl
  · intro s hs'
    rw [sub hs'] at hurl
    cases hurl; rfl

theorem table_kept (hlk : lk "utf-8".toList = .ok ()) {m : List (Str × J)} (hj : DistinctKeys (.obj m)) {t : TableD}
    (h : TableD.fromvalue ext x other lk (.obj m) = .ok t) (hc : TableClean ext lk (tagOf x) m) : TableKept ext x other m t := by
  have hn := hj.nodup
  obtain ⟨p, hp, h, hpriv⟩ := fromParts_inv hn h
  unfold TableD.ofParts at h
  obtain ⟨l, hl, h⟩ := Datatype.bind_ok h
  split at h
  · cases h
  simp only [pure, Except.pure, Except.ok.injEq] at h
  rw [own_get hn hp (by decide) (by decide)] at h
  subst h
  refine ⟨like_kept hlk hj hp (by decide +kernel) hl hc.props.any hc.like, ?_⟩
  intro v hv; simp only; rw [Dict.get_of_mem_nodup hn hv]; rfl

theorem group_kept (hlk : lk "utf-8".toList = .ok ()) {m : List (Str × J)} (hj : DistinctKeys (.obj m)) {g : GroupD}
    (h : GroupD.fromvalue ext x other lk (.obj m) = .ok g) (hc : GroupClean ext lk (tagOf x) m) : GroupKept ext x other m g := by
  have hn := hj.nodup
  obtain ⟨p, hp, h, hpriv⟩ := fromParts_inv hn h
  unfold GroupD.ofParts at h
  obtain ⟨l, hl, h⟩ := Datatype.bind_ok h
  obtain ⟨ts, hts, h⟩ := Datatype.bind_ok h
  simp only [pure, Except.pure, Except.ok.injEq] at h
  rw [own_get hn hp (by decide) (by decide)] at hts
  subst h
  refine ⟨like_kept hlk hj hp (by decide +kernel) hl hc.props.any hc.like, ?_⟩
  intro ts' hv
  rw [Dict.get_of_mem_nodup hn hv] at hts
  simp only [convTables] at hts
  have h2 := all2_at (mapObjs_objs hts)
  refine all2_of h2.1 fun i t td ht htd => ?_
  have hm := List.mem_of_getElem? ht
  refine table_kept hlk ((hj.has hv).item (List.mem_map_of_mem hm)) (h2.2 i t td ht htd) ?_
  rcases hc.tables _ hv with h | h | ⟨ts2, he, hcl⟩
  · cases h
  · cases h
  · rw [J.arr.injEq, List.map_inj_right (fun _ _ h => by cases h; rfl)] at he
    subst he
    exact hcl t hm

end

end Csvw

import Verif.Props.C65
/-!
# C64: titles of rows and `@id` of tables; C65: literals
-/

namespace Csvw.Props
open Csvw.JsonLd Csvw.ToJson Csvw.Spec Csvw.Spec.ToJson

section
variable {e : Env}

theorem truthy_iff {ext : Ext} {v : CVal} : ToJson.truthy ext v = true ↔ ¬ NoTitle ext v := by
  cases v with
  | many l => cases l <;> simp [ToJson.truthy, NoTitle]
  | one v =>
    cases v with
    | none => simp [ToJson.truthy, NoTitle, Val.truthy]
    | str s => simp [ToJson.truthy, NoTitle, Val.truthy]
    | bool b => simp [ToJson.truthy, NoTitle, Val.truthy]
    | int i => simp [ToJson.truthy, NoTitle, Val.truthy]
    | dec d => cases d <;> simp [ToJson.truthy, NoTitle, Val.truthy, Dec.truthy]
    | bytes b => simp [ToJson.truthy, NoTitle, Val.truthy]
    | dt b => simp [ToJson.truthy, NoTitle, Val.truthy]
    | flt b => simp [ToJson.truthy, NoTitle, Val.truthy]
    | dur b => simp [ToJson.truthy, NoTitle, Val.truthy]
    | uri b => simp [ToJson.truthy, NoTitle, Val.truthy]
    | json j => cases j <;> simp [ToJson.truthy, NoTitle, Val.truthy]

/-- **C64**: the titles of a row are the non-empty values of the cells given by `rowTitles`. -/
theorem C64_titles {t : Table} {nm : Bool} {n : Nat} {line : Int} {row : RowDict} {o : Out} (h : rowToJson e t nm n line row = .ok o)
    {names : List Str} (hn : t.schema.rowTitles = names.map .str) : TitlesOf e.ext names row (prop "titles" o) := by
  unfold rowToJson at h
  obtain ⟨d, hd, h⟩ := Datatype.bind_ok h
  cases h
  have hp : prop "titles" (.obj ([("url".toList, .json (.str (e.jx.resolve t.url ++ "#row=".toList ++ intStr line))),
      ("rownum".toList, .json (.int n))] ++ (rowTitles e t row ++ [("describes".toList, .list (d.map .obj))]))) =
      Dict.get "titles".toList (rowTitles e t row ++ [("describes".toList, .list (d.map .obj))]) := by
    show Dict.get _ _ = _
    rw [Dict.get_append]
    rfl
  rw [hp]
  have hv : (t.schema.rowTitles.filterMap fun j => match j with | .str n => Dict.get n row | _ => none) =
      names.flatMap fun k => (Dict.get k row).toList := by
    rw [hn]
    clear hn hp
    induction names with
    | nil => rfl
    | cons k r ih =>
      rw [List.map_cons, List.flatMap_cons, ← ih]
      cases hk : Dict.get k row <;> simp [hk]
  unfold rowTitles
  constructor
  · rintro rfl
    rw [if_pos (by simpa using hn)]
    rfl
  · intro hne
    rw [if_neg (by simpa [hn] using hne)]
    refine ⟨(names.flatMap fun k => (Dict.get k row).toList).filter (ToJson.truthy e.ext), fun has hh => ?_, ?_⟩
    · refine List.filter_congr fun v _ => ?_
      have h1 := hh v
      rw [← truthy_iff] at h1
      rw [Bool.eq_iff_iff]
      exact h1.symm
    · have hf : ∀ vs : List CVal, (match vs with
          | [v] => outVal v
          | vs => Out.list (vs.map outVal)) = (match vs with
          | [v] => .prop (.of v)
          | vs => .list (vs.map fun v => .prop (.of v))) := by
        intro vs
        match vs with
        | [] => rfl
        | [v] => rfl
        | v :: w :: r => rfl
      refine Eq.trans ?_ (congrArg some (hf _))
      rw [← hv]
      rfl

/-- The hypothesis is met: with `rowTitles` of a schema document given as names. -/
theorem C64_titles_example (ext : Ext) : TitlesOf ext [['a'], ['b'], ['c']] [(['c'], .one (.str ['x'])), (['a'], .one (.str [])), (['b'], .one .none)]
    (some (.prop (.one (.str ['x'])))) :=
by
  refine ⟨fun h => absurd h (by simp), fun _ => ⟨[.one (.str ['x'])], fun has hh => ?_, rfl⟩⟩
  have h1 : has (.one (.str [])) = false := by
    cases h : has (.one (.str [])) with
    | false => rfl
    | true => exact absurd rfl ((hh _).1 h)
  have h2 : has (.one .none) = false := by
    cases h : has (.one .none) with
    | false => rfl
    | true => exact absurd trivial ((hh _).1 h)
  have h3 : has (.one (.str ['x'])) = true := (hh _).2 (by simp [NoTitle])
  show _ = List.filter has [.one (.str []), .one .none, .one (.str ['x'])]
  simp [h1, h2, h3]

/-- **C64**: the object for a table has the `@id` and the notes of the description, if any. -/
theorem C64_id {nm : Bool} {d : TableD} {t : Table} {text : Str} {o : Out} (hc : CommonOnly d.like.props.common)
    (h : tableToJson e nm d t text = .ok o) :
    prop "@id" o = (Dict.get "id".toList d.like.props.atProps).map .json ∧
    (d.like.notes.truthy = false → prop "notes" o = none) ∧
    (d.like.notes.truthy = true → ∃ n, JsonLd.toJson false d.like.notes = .ok n ∧ prop "notes" o = some (.json n)) := by
  unfold tableToJson at h
  obtain ⟨head, hh, h'⟩ := Datatype.bind_ok h
  obtain ⟨rows, hr, h''⟩ := Datatype.bind_ok h'
  cases herr : (t.iterdicts e.ext e.x false false text).err with
  | some err => simp only [herr] at h''; cases h''
  | none =>
    simp only [herr] at h''
    cases h''
    have hget : ∀ k : String, k.toList ≠ "row".toList → k.toList ≠ "rdfs:comment".toList →
        prop k (.obj (Dict.set "row".toList (.list rows) (withComments (commentsOf t text) head))) = Dict.get k.toList head := by
      intro k h1 h2
      show Dict.get k.toList _ = _
      rw [Dict.get_set_ne (Ne.symm h1)]
      unfold withComments
      split
      · rfl
      · rw [Dict.get_set_ne (Ne.symm h2)]
    rw [hget "@id" (by decide) (by decide), hget "notes" (by decide) (by decide)]
    unfold tableHead at hh
    obtain ⟨notes, hnotes, hh⟩ := Datatype.bind_ok hh
    obtain ⟨c, hcj, hh⟩ := Datatype.bind_ok hh
    obtain ⟨cm, hcm, hh⟩ := Datatype.bind_ok hh
    cases hh
    have hk : ∀ k : Str, ':' ∉ k → k ≠ "@type".toList → k ∉ Dict.keys (outJson cm) := by
      intro k h1 h2
      cases c with
      | obj m' =>
        injection hcm with hcm
        subst hcm
        intro hk
        have : k ∈ Dict.keys m' := by simpa [outJson, Dict.keys] using hk
        rcases toJson_common_keys hc hcj _ this with h | h
        · exact h1 (by simpa using h)
        · exact h2 h
      | _ => cases hcm
    rw [get_update_ne (hk _ (by decide) (by decide)), get_update_ne (hk _ (by decide) (by decide))]
    have hfront : ∀ k : Str, k ≠ "url".toList → ∀ l, Dict.get k ((("url".toList, Out.json (.str (e.jx.resolve t.url))) :: l)) = Dict.get k l := by
      intro k h1 l
      simp only [Dict.get]
      rw [if_neg (Ne.symm h1)]
    rw [hfront _ (by decide), hfront _ (by decide), Dict.get_append, Dict.get_append]
    unfold notesOf at hnotes
    refine ⟨?_, ?_, ?_⟩
    · cases Dict.get "id".toList d.like.props.atProps <;> cases notes <;> rfl
    · intro ht
      rw [if_neg (by simp [ht])] at hnotes
      cases hnotes
      cases Dict.get "id".toList d.like.props.atProps <;> rfl
    · intro ht
      rw [if_pos ht] at hnotes
      obtain ⟨n, h1, h2⟩ := Except.map_eq_ok.1 hnotes
      refine ⟨n, h1, ?_⟩
      subst h2
      cases Dict.get "id".toList d.like.props.atProps <;> rfl

/-- **C65**: values which are neither dates nor times are given as literals; the values of lists are not changed. -/
theorem C65_literal {ext : Ext} {jx : JExt} {col : Option CCol} {v : Val} (hv : ∀ d, v ≠ .dt d) (w : CVal) :
    formatValue ext jx col (.one v) = .ok w ↔ ∃ x, w = .one x ∧ Literal ext jx (datatypeOf col) v x := by
  have hd : ownDatatype col = datatypeOf col := rfl
  have hfl : ∀ t x, x = floatValue jx t ↔ FloatLiteral jx t x := by
    intro t x
    unfold floatValue
    constructor
    · rintro rfl
      constructor
      · intro h; rw [if_pos h]; rfl
      · intro h1 h2 h3; rw [if_neg (by simp [h1]), if_pos h2, if_neg (by simp [h3])]; rfl
      · intro h1 h2 h3; rw [if_neg (by simp [h1]), if_pos h2, if_pos h3]; rfl
      · intro h1 h2; rw [if_neg (by simp [h1]), if_neg (by simp [h2])]
    · intro h
      cases h1 : jx.isNan t with
      | true => rw [if_pos rfl]; exact h.nan h1
      | false =>
        rw [if_neg (by simp)]
        cases h2 : jx.isInf t with
        | false => rw [if_neg (by simp)]; exact h.finite h1 h2
        | true =>
          rw [if_pos rfl]
          cases h3 : jx.isNeg t with
          | true => rw [if_pos rfl]; exact h.negInf h1 h2 h3
          | false => rw [if_neg (by simp)]; exact h.posInf h1 h2 h3
  have hfb : ∀ v' w, formattedBy ext col v' = .ok w ↔ ∃ d s, datatypeOf col = some d ∧ d.formatted ext v' = .ok s ∧ w = .one (.str s) := by
    intro v' w
    unfold formattedBy
    rw [hd]
    cases datatypeOf col with
    | none => simp
    | some d =>
      cases hf : d.formatted ext v' with
      | error er => simp [hf, Except.map]
      | ok s => simp [hf, Except.map, eq_comm]
  have hok : ∀ v', (.ok (.one v') : Res CVal) = .ok w ↔ w = .one v' := fun v' => by rw [Except.ok.injEq, eq_comm]
  cases v with
  | dt d => exact absurd rfl (hv d)
  | none => exact (hok _).trans ⟨fun h => ⟨_, h, .none⟩, fun ⟨x, h, hl⟩ => by cases hl; exact h⟩
  | str s => exact (hok _).trans ⟨fun h => ⟨_, h, .str _⟩, fun ⟨x, h, hl⟩ => by cases hl; exact h⟩
  | bool s => exact (hok _).trans ⟨fun h => ⟨_, h, .bool _⟩, fun ⟨x, h, hl⟩ => by cases hl; exact h⟩
  | int s => exact (hok _).trans ⟨fun h => ⟨_, h, .int _⟩, fun ⟨x, h, hl⟩ => by cases hl; exact h⟩
  | json s => exact (hok _).trans ⟨fun h => ⟨_, h, .json _⟩, fun ⟨x, h, hl⟩ => by cases hl; exact h⟩
  | uri s => exact (hok _).trans ⟨fun h => ⟨_, h, .uri _⟩, fun ⟨x, h, hl⟩ => by cases hl; exact h⟩
  | flt s => exact (hok _).trans ⟨fun h => ⟨_, h, .flt ((hfl _ _).1 rfl)⟩, fun ⟨x, h, hl⟩ => by cases hl with | flt hl => rw [h, (hfl _ _).2 hl]⟩
  | dec s => exact (hok _).trans ⟨fun h => ⟨_, h, .dec ((hfl _ _).1 rfl)⟩, fun ⟨x, h, hl⟩ => by cases hl with | dec hl => rw [h, (hfl _ _).2 hl]⟩
  | bytes b =>
    refine (hfb _ _).trans ⟨fun ⟨d, s, h1, h2, h3⟩ => ⟨_, h3, .bytes h1 h2⟩, fun ⟨x, h, hl⟩ => ?_⟩
    cases hl with
    | bytes h1 h2 => exact ⟨_, _, h1, h2, h⟩
  | dur b =>
    refine (hfb _ _).trans ⟨fun ⟨d, s, h1, h2, h3⟩ => ⟨_, h3, .dur h1 h2⟩, fun ⟨x, h, hl⟩ => ?_⟩
    cases hl with
    | dur h1 h2 => exact ⟨_, _, h1, h2, h⟩

theorem C65_list {ext : Ext} {jx : JExt} {col : Option CCol} {l : List Val} : formatValue ext jx col (.many l) = .ok (.many l) := rfl

end
end Csvw.Props

import Verif.Spec.SqlConstraints
import Verif.Props.C47
import Verif.Lemmas.Decimal
/-!
# Loading valid data: lemmas
-/

namespace Csvw.Db
open Csvw.Datatypes Csvw.Py Csvw.Spec Csvw.Props

section
variable {ext : Ext} {sx : SqlExt} {tr : Translator} {skip : Bool}

/-- The value stored for a valid value. -/
def image (ext : Ext) (sx : SqlExt) (c : ColSpec) (v : CVal) : Sql :=
  match stored ext sx c v with
  | .ok q => q
  | .error _ => .null

theorem plainText_int {b : Base} {i : Int} (hk : b.kind = .integer) (h1 : -(2 ^ 63) ≤ i) (h2 : i < 2 ^ 63) :
    ∃ x, plainText ext b (.int i) = .ok x := by
  unfold plainText
  rw [hk]
  simp only
  unfold toText
  rw [hk]
  have hl : tooLong (.int i) = false := by
    simp only [tooLong, decide_eq_false_iff_not, Nat.not_lt]
    have h : Dec.ndigits i.natAbs ≤ 20 := (Dec.ndigits_le (by decide)).2 (by
      have h3 : i.natAbs ≤ 2 ^ 63 := by omega
      exact Nat.lt_of_le_of_lt h3 (by decide))
    exact Nat.le_trans h (by decide)
  have hn : noArgs b = .num {} := by
    unfold noArgs
    rw [hk]
  rw [hn]
  simp only [numFmtOf, decToString, hl, Bool.false_eq_true, if_false, numNeg]
  split
  · exact ⟨_, rfl⟩
  · exact ⟨_, rfl⟩

theorem stored_value {c : ColSpec} (hs : c.separator = none) {w : Val} (hv : ValueOf c.base w) :
    ∃ q, stored ext sx c (.one w) = .ok q ∧ affinity sx c.dbType q = q ∧ q ≠ .null := by
  obtain ⟨n, b, s, r, d⟩ := c
  simp only at hs hv
  subst hs
  cases w with
  | none => exact absurd hv (by simp [ValueOf])
  | json j => exact absurd hv (by simp [ValueOf])
  | str x =>
    refine ⟨.text x, ?_, ?_, by simp⟩
    · obtain ⟨h, -⟩ := hv
      cases b <;> first
        | (exfalso; revert h; simp [TextBase, Base.kind]; done)
        | simp [stored, asList, convert, plainText, toText, Base.kind, bind, Except.map]
    · obtain ⟨h, -⟩ := hv
      cases b <;> first
        | (exfalso; revert h; simp [TextBase, Base.kind]; done)
        | simp [affinity, ColSpec.dbType]
  | int i =>
    obtain ⟨hk, h1, h2⟩ := hv
    by_cases hb : b = .integer
    · subst hb
      refine ⟨.int i, ?_, ?_, by simp⟩
      · simp only [stored, asList, convert, bind]
        exact if_pos ⟨h1, h2⟩
      · simp [affinity, ColSpec.dbType]
    · obtain ⟨x, hx⟩ := plainText_int (ext := ext) hk h1 h2
      have hc : convert ext sx b (.int i) = .ok (.str x) := by
        cases b <;> first
          | (exfalso; revert hk; simp [Base.kind]; done)
          | (exact absurd rfl hb)
          | (simp only [convert, hx, Except.map])
      refine ⟨.text x, ?_, ?_, by simp⟩
      · simp only [stored, asList, hc, bind]
      · cases b <;> first
          | (exfalso; revert hk; simp [Base.kind]; done)
          | (exact absurd rfl hb)
          | simp [affinity, ColSpec.dbType]
  | bool x =>
    simp only [ValueOf] at hv
    subst hv
    refine ⟨.int (if x then 1 else 0), ?_, ?_, by simp⟩
    · simp only [stored, asList, convert, bind]
      cases x <;> simp
    · simp [affinity, ColSpec.dbType]
  | bytes x =>
    by_cases hb : b = .hexBinary
    · subst hb
      exact ⟨.blob x, by simp [stored, asList, convert, bind], by simp [affinity, ColSpec.dbType], by simp⟩
    · refine ⟨.text (strip (Bin.encodebytes x)), ?_, ?_, by simp⟩ <;> simp only [ValueOf] at hv <;>
      cases b <;> first
        | (exfalso; revert hv; simp [Base.kind]; done)
        | (exact absurd rfl hb)
        | simp [stored, asList, convert, plainText, toText, Base.kind, bind, Except.map, affinity, ColSpec.dbType]
  | dt x =>
    refine ⟨.text (isoformat x), ?_, ?_, by simp⟩ <;> simp only [ValueOf] at hv <;>
      cases b <;> first
        | (exfalso; revert hv; simp [Base.kind]; done)
        | simp [stored, asList, convert, plainText, toText, Base.kind, bind, Except.map, affinity, ColSpec.dbType, noArgs]
  | dur x =>
    refine ⟨.text (ext.durStr x), ?_, ?_, by simp⟩ <;> simp only [ValueOf] at hv <;>
      cases b <;> first
        | (exfalso; revert hv; simp [Base.kind]; done)
        | simp [stored, asList, convert, plainText, toText, Base.kind, bind, Except.map, affinity, ColSpec.dbType, noArgs]
  | uri x =>
    refine ⟨.text (ext.uriStr x), ?_, ?_, by simp⟩ <;> simp only [ValueOf] at hv <;>
      cases b <;> first
        | (exfalso; revert hv; simp [Base.kind]; done)
        | simp [stored, asList, convert, plainText, toText, Base.kind, bind, Except.map, affinity, ColSpec.dbType, noArgs]
  | flt x =>
    refine ⟨.text (ext.floatStr x), ?_, ?_, by simp⟩ <;> simp only [ValueOf] at hv <;>
      cases b <;> first
        | (exfalso; revert hv; simp [Base.kind]; done)
        | simp [stored, asList, convert, plainText, toText, Base.kind, bind, Except.map, affinity, ColSpec.dbType, noArgs]
  | dec x =>
    obtain ⟨rfl, hx⟩ := hv
    refine ⟨.real (sx.floatOfDec x), ?_, by simp [affinity, ColSpec.dbType], by simp⟩
    cases x with
    | nan a b n => exact absurd rfl (hx a b n)
    | _ => simp [stored, asList, convert, bind]

theorem stored_null (c : ColSpec) : stored ext sx c (.one .none) = .ok .null := by
  simp [stored, asList]

theorem affinity_null (ty : DbType) : affinity sx ty .null = .null := by
  cases ty <;> rfl

theorem joinItems_ok {l : List Val} (h : ∀ w ∈ l, w = .none ∨ ∃ s, w = .str s) : ∃ ss, joinItems ext l = .ok ss := by
  induction l with
  | nil => exact ⟨_, rfl⟩
  | cons w r ih =>
    obtain ⟨ss, hs⟩ := ih fun w hw => h w (List.mem_cons_of_mem _ hw)
    have : ∃ s, joinItem ext w = .ok s := by
      rcases h w (List.mem_cons_self ..) with rfl | ⟨s, rfl⟩
      · exact ⟨[], rfl⟩
      · exact ⟨s, rfl⟩
    obtain ⟨s, h1⟩ := this
    unfold joinItems
    rw [h1, hs]
    exact ⟨_, rfl⟩

theorem mapM_some {α β : Type} {f : α → Option β} {l : List α} (h : ∀ a ∈ l, (f a).isSome = true) : ∃ bs, l.mapM f = some bs := by
  induction l with
  | nil => exact ⟨[], rfl⟩
  | cons a r ih =>
    obtain ⟨bs, hb⟩ := ih fun a ha => h a (List.mem_cons_of_mem _ ha)
    obtain ⟨b, h1⟩ := Option.isSome_iff_exists.1 (h a (List.mem_cons_self ..))
    exact ⟨b :: bs, by simp [h1, hb]⟩

theorem stored_list {c : ColSpec} {l : List Val} (h : ∀ w ∈ l, ItemOf c.base w) : ∃ s, stored ext sx c (.many l) = .ok (.text s) := by
  unfold stored
  simp only [asList]
  by_cases hb : c.base = .string
  · rw [if_pos hb]
    obtain ⟨ss, hs⟩ := joinItems_ok (ext := ext) (l := l) fun w hw => by simpa [ItemOf, hb] using h w hw
    rw [hs]
    exact ⟨_, rfl⟩
  · rw [if_neg hb]
    obtain ⟨js, hj⟩ := mapM_some (f := toJson) (l := l) fun w hw => by simpa [ItemOf, hb] using h w hw
    unfold dumps
    rw [hj]
    exact ⟨_, rfl⟩

theorem stored_valid {c : ColSpec} {v : CVal} (hv : CellValid ext c v) :
    stored ext sx c v = .ok (image ext sx c v) ∧ affinity sx c.dbType (image ext sx c v) = image ext sx c v ∧
      (image ext sx c v = .null → v = .one .none ∧ c.required = false) := by
  rcases hv with ⟨rfl, hr⟩ | ⟨hs, w, rfl, hw, -⟩ | ⟨hs, l, rfl, hl⟩
  · rw [image, stored_null]
    exact ⟨rfl, affinity_null _, fun _ => ⟨rfl, hr⟩⟩
  · obtain ⟨q, h1, h2, h3⟩ := stored_value (ext := ext) (sx := sx) hs hw
    rw [image, h1]
    exact ⟨rfl, h2, fun h => absurd h h3⟩
  · obtain ⟨s, h1⟩ := stored_list (ext := ext) (sx := sx) hl
    rw [image, h1]
    refine ⟨rfl, ?_, fun h => by cases h⟩
    unfold ColSpec.dbType
    rw [if_pos hs]
    rfl

/-- Different values of exact datatypes are stored as different values. -/
theorem image_inj {c : ColSpec} (hs : c.separator = none) (hb : ExactBase c.base) {v v' : Val} (hv : ValueOf c.base v)
    (hv' : ValueOf c.base v') (h : image ext sx c (.one v) = image ext sx c (.one v')) : v = v' := by
  obtain ⟨n, b, s, r, d⟩ := c
  simp only at hs hv hb hv'
  subst hs
  have hstr : ∀ x, ValueOf b (.str x) → image ext sx ⟨n, b, none, r, d⟩ (.one (.str x)) = .text x := by
    rintro x ⟨h, -⟩
    cases b <;> first
        | (exfalso; revert h; simp [TextBase, Base.kind]; done)
        | simp [image, stored, asList, convert, plainText, toText, Base.kind, bind, Except.map]
  have hint : ∀ i, ValueOf b (.int i) → image ext sx ⟨n, b, none, r, d⟩ (.one (.int i)) = .int i := by
    rintro i ⟨hk, h1, h2⟩
    have : b = .integer := by
      rcases hb with h | h | h | h
      · exfalso; simp [TextBase, hk] at h
      · exact h
      · subst h; simp [Base.kind] at hk
      · subst h; simp [Base.kind] at hk
    subst this
    simp only [image, stored, asList, convert, bind]
    rw [if_pos ⟨h1, h2⟩]
  have hbool : ∀ x, ValueOf b (.bool x) → image ext sx ⟨n, b, none, r, d⟩ (.one (.bool x)) = .int (if x then 1 else 0) := by
    intro x hx
    simp only [ValueOf] at hx
    subst hx
    simp only [image, stored, asList, convert, bind]
    cases x <;> simp
  have hbytes : ∀ x, ValueOf b (.bytes x) → image ext sx ⟨n, b, none, r, d⟩ (.one (.bytes x)) = .blob x := by
    intro x hx
    have : b = .hexBinary := by
      simp only [ValueOf] at hx
      cases b <;> first
        | rfl
        | (exfalso; revert hx; simp [Base.kind]; done)
        | (exfalso; revert hb; simp [ExactBase, TextBase, Base.kind]; done)
    subst this
    simp [image, stored, asList, convert, bind]
  have hno : ∀ w, ValueOf b w → (∃ x, w = .str x) ∨ (∃ x, w = .int x) ∨ (∃ x, w = .bool x) ∨ ∃ x, w = .bytes x := by
    intro w hw
    cases w with
    | str x => exact .inl ⟨x, rfl⟩
    | int x => exact .inr (.inl ⟨x, rfl⟩)
    | bool x => exact .inr (.inr (.inl ⟨x, rfl⟩))
    | bytes x => exact .inr (.inr (.inr ⟨x, rfl⟩))
    | _ =>
      exfalso
      simp only [ValueOf] at hw <;>
      cases b <;> first
        | (revert hw; simp [Base.kind]; done)
        | (revert hb; simp [ExactBase, TextBase, Base.kind]; done)
  have hib : ∀ i x, ValueOf b (.int i) → ValueOf b (.bool x) → False := by
    rintro i x ⟨hk, -⟩ hx
    simp only [ValueOf] at hx
    subst hx
    simp [Base.kind] at hk
  rcases hno v hv with ⟨x, rfl⟩ | ⟨x, rfl⟩ | ⟨x, rfl⟩ | ⟨x, rfl⟩ <;> rcases hno v' hv' with ⟨y, rfl⟩ | ⟨y, rfl⟩ | ⟨y, rfl⟩ | ⟨y, rfl⟩ <;>
    simp only [hstr, hint, hbool, hbytes, hv, hv'] at h <;> first
    | (cases h; rfl)
    | (exact (hib _ _ hv hv').elim)
    | (exact (hib _ _ hv' hv).elim)
    | (cases x <;> cases y <;> first | rfl | (simp at h; done))
    | simp at h

theorem takeWhile_noNul {s : Str} (h : '\x00' ∉ s) : s.takeWhile (· ≠ '\x00') = s := by
  induction s with
  | nil => rfl
  | cons a r ih =>
    simp only [List.mem_cons, not_or] at h
    rw [List.takeWhile_cons, if_pos (by simpa using fun e => h.1 e.symm), ih h.2]

theorem lenCond_mem {mk : Int → ColSpec.Cond} {n : Option Int} {cond : ColSpec.Cond} (h : cond ∈ ColSpec.lenCond mk n) :
    ∃ m, n = some m ∧ cond = mk m := by
  unfold ColSpec.lenCond at h
  split at h
  · split at h
    · simp at h
    · exact ⟨_, rfl, by simpa using h⟩
  · simp at h

/-- Nothing to check. -/
theorem check_unlimited {c : ColSpec} (h : ∀ d, c.csvw = some d → Unlimited d) : c.check = [] := by
  unfold ColSpec.check
  cases hcs : c.csvw with
  | none => rfl
  | some d =>
    obtain ⟨h1, h2, h3, h4, h5⟩ := h d hcs
    simp [h1, h2, h3, h4, h5, ColSpec.lenCond]

/-- `CHECK` constraints are met by valid values. -/
theorem check_valid {cmp : SqlCmp} {c : ColSpec} (hf : ColumnFits c) (hsep : c.separator = none) {w : Val} (hw : ValueOf c.base w)
    (hd : ∀ d, c.csvw = some d → d.validate ext w = .ok w) {cond : ColSpec.Cond} (hc : cond ∈ c.check) :
    cmp.Holds c.dbType (image ext sx c (.one w)) cond := by
  unfold ColSpec.check at hc
  cases hcs : c.csvw with
  | none => rw [hcs] at hc; simp at hc
  | some d =>
    rw [hcs] at hc
    simp only at hc
    have hf := hf d hcs
    have hval := hd d hcs
    have hwn : w ≠ .none := by rintro rfl; simp [ValueOf] at hw
    unfold Datatype.validate at hval
    rw [if_neg hwn] at hval
    rcases hf with ⟨h1, h2, h3, h4, h5⟩ | ⟨-, hbase, ⟨hb, h1, h2, h3, h4, h5⟩ | ⟨hb, h1, h2⟩⟩
    · rw [h1, h2, h3, h4, h5] at hc
      simp [ColSpec.lenCond] at hc
    · rw [hb] at hw
      obtain ⟨i, rfl⟩ : ∃ i, w = .int i := by
        cases w with
        | int i => exact ⟨i, rfl⟩
        | _ => simp [ValueOf, TextBase, Base.kind] at hw
      have himg : image ext sx c (.one (.int i)) = .int i := by
        simp only [image, stored, asList, convert, hb, bind]
        rw [if_pos hw.2]
      have hty : c.dbType = .integer := by simp [ColSpec.dbType, hsep, hb]
      have hfn : c.func = none := by simp [ColSpec.func, hb]
      rw [himg, hty]
      split at hval
      · rw [if_pos (by rw [hbase, hb]; rfl)] at hval
        cases hbo : Datatype.boundsOk ext d (.int i) with
        | error e => rw [hbo] at hval; cases hval
        | ok u =>
          have hmin : ∀ n, d.minimum = some (.int n) → n ≤ i := by
            intro n hn
            unfold Datatype.boundsOk at hbo
            rw [hn] at hbo
            simp only [Datatype.check, Val.lt] at hbo
            by_cases hlt : i < n
            · simp [hlt, Bind.bind, Except.bind] at hbo
            · omega
          have hmax : ∀ n, d.maximum = some (.int n) → i ≤ n := by
            intro n hn
            by_cases hlt : n < i
            · exfalso
              unfold Datatype.boundsOk at hbo
              rw [hn] at hbo
              simp only [Datatype.check, Val.lt, hlt, decide_true, Bind.bind, Except.bind] at hbo
              repeat' (split at hbo)
              all_goals first | (cases hbo; done) | simp_all
            · omega
          split at hc
          · rw [hfn] at hc
            rcases List.mem_append.1 hc with hc | hc
            · obtain ⟨b, hb', rfl⟩ := List.mem_map.1 hc
              obtain ⟨n, rfl⟩ := h1 b (by simpa using hb')
              exact hmin n (by simpa using hb')
            · obtain ⟨b, hb', rfl⟩ := List.mem_map.1 hc
              obtain ⟨n, rfl⟩ := h2 b (by simpa using hb')
              exact hmax n (by simpa using hb')
          · rw [h3, h4, h5] at hc
            simp [ColSpec.lenCond] at hc
      · cases hval
    · rw [if_neg (by simp [h1, h2])] at hc
      have hlen : ∃ n : Nat, cmp.length (image ext sx c (.one w)) = (n : Int) ∧ (if w.truthy ext then w.len? else some 0) = some n := by
        have htext : TextBase c.base → ∃ s, w = .str s := by
          intro ht
          cases w with
          | str s => exact ⟨s, rfl⟩
          | _ =>
            exfalso
            simp only [ValueOf] at hw <;>
            (revert ht hw; cases c.base <;> simp [TextBase, Base.kind])
        rcases hb with hb | hb
        · obtain ⟨s, rfl⟩ := htext hb
          have himg : image ext sx c (.one (.str s)) = .text s := by
            revert hb
            cases hcb : c.base <;> intro hb <;> first
              | (exfalso; revert hb; simp [TextBase, Base.kind]; done)
              | simp [image, stored, asList, convert, plainText, toText, Base.kind, bind, Except.map, hcb]
          refine ⟨s.length, ?_, ?_⟩
          · rw [himg, SqlCmp.length, takeWhile_noNul hw.2]
          · simp only [Val.truthy, Val.len?]
            cases s <;> simp
        · rw [hb] at hw
          obtain ⟨bs, rfl⟩ : ∃ bs, w = .bytes bs := by
            cases w with
            | bytes bs => exact ⟨bs, rfl⟩
            | _ => simp [ValueOf, TextBase, Base.kind] at hw
          refine ⟨bs.length, ?_, ?_⟩
          · simp [image, stored, asList, convert, hb, bind, SqlCmp.length]
          · simp only [Val.truthy, Val.len?]
            cases bs <;> simp
      obtain ⟨n, hn1, hn2⟩ := hlen
      split at hval
      · rename_i hlo
        unfold Datatype.lengthOk at hlo
        rw [hn2] at hlo
        simp only [Bool.and_eq_true] at hlo
        rcases List.mem_append.1 hc with hc | hc
        · rcases List.mem_append.1 hc with hc | hc
          · obtain ⟨m, hm, rfl⟩ := lenCond_mem hc
            rw [hm] at hlo
            show cmp.length _ = m
            rw [hn1]
            simpa using hlo.1.1
          · obtain ⟨m, hm, rfl⟩ := lenCond_mem hc
            rw [hm] at hlo
            show m ≤ cmp.length _
            rw [hn1]
            simpa using hlo.1.2
        · obtain ⟨m, hm, rfl⟩ := lenCond_mem hc
          rw [hm] at hlo
          show cmp.length _ ≤ m
          rw [hn1]
          simpa using hlo.2
      · cases hval

/-- What is stored for an item of a row. -/
def itemImage (ext : Ext) (sx : SqlExt) (t : TableSpec) (p : Str × CVal) : Sql :=
  match t.columns.reverse.find? (fun c => c.name = p.1) with
  | some c => image ext sx c p.2
  | none => .null

/-- The row stored for a row dict. -/
def rowImage (ext : Ext) (sx : SqlExt) (tr : Translator) (t : TableSpec) (row : RowDict) : Row :=
  newRow sx (sqlColumns tr t) ((Dict.keys row).map fun k => tr t.name (some k)) (row.map (itemImage ext sx t))

theorem has_isSome {α : Type} (k : Str) (d : List (Str × α)) : Dict.has k d = (Dict.get k d).isSome := by
  rw [Bool.eq_iff_iff, Dict.has_iff_mem_keys, Dict.get_isSome_iff_mem_keys]

/-- The rows for association tables. -/
def linksOf (t : TableSpec) (pk : CVal) (row : RowDict) : Refs :=
  row.flatMap fun p => match Dict.get p.1 t.manyToMany with
    | none => []
    | some a => match p.2 with
      | .many l => l.map fun i => (a, [pk, .one i, .one (.str p.1)])
      | .one _ => []

theorem itemLoop_valid {t : TableSpec} {pk : CVal} {row : RowDict}
    (hk : ∀ k ∈ Dict.keys (ownItems t row), ∃ c ∈ t.columns, c.name = k)
    (hv : ∀ p ∈ ownItems t row, ∀ c ∈ t.columns, c.name = p.1 → stored ext sx c p.2 = .ok (image ext sx c p.2))
    (hl : ∀ p ∈ row, ∀ a, Dict.get p.1 t.manyToMany = some a → cellTruthy ext pk = true ∧ (p.2 = .one .none ∨ ∃ l, p.2 = .many l))
    (st : RowState) :
    itemLoop ext sx t skip pk st row =
      .ok { keys := st.keys ++ Dict.keys (ownItems t row), values := st.values ++ (ownItems t row).map (itemImage ext sx t),
            refs := st.refs ++ linksOf t pk row } := by
  induction row generalizing st with
  | nil => simp [itemLoop, Dict.keys, ownItems, linksOf]
  | cons p r ih =>
    obtain ⟨k, v⟩ := p
    have hsub : ∀ q ∈ ownItems t r, q ∈ ownItems t ((k, v) :: r) := fun q hq => by
      unfold ownItems at hq ⊢
      rw [List.mem_filter] at hq ⊢
      exact ⟨List.mem_cons_of_mem _ hq.1, hq.2⟩
    have ih' := ih (fun k' hk' => by
        obtain ⟨q, hq, rfl⟩ := List.mem_map.1 hk'
        exact hk q.1 (List.mem_map_of_mem (hsub q hq)))
      (fun q hq => hv q (hsub q hq)) (fun q hq => hl q (List.mem_cons_of_mem _ hq))
    unfold itemLoop itemStep
    cases hm : Dict.get k t.manyToMany with
    | some a =>
      have hown : ownItems t ((k, v) :: r) = ownItems t r := by
        unfold ownItems
        rw [List.filter_cons, if_neg (by simp [has_isSome, hm])]
      obtain ⟨h1, h2⟩ := hl (k, v) (List.mem_cons_self ..) a hm
      simp only [h1, Bool.not_true, Bool.false_eq_true, if_false]
      rw [hown]
      rcases h2 with h2 | ⟨l, h2⟩
      · cases h2
        have h0 : refItems ext (.one .none) = .ok [] := rfl
        simp only [h0]
        rw [ih']
        simp [linksOf, hm]
      · cases h2
        have h0 : refItems ext (.many l) = .ok (l.map .one) := rfl
        simp only [h0]
        rw [ih']
        simp [linksOf, hm, Function.comp_def]
    | none =>
      have hown : ownItems t ((k, v) :: r) = (k, v) :: ownItems t r := by
        unfold ownItems
        rw [List.filter_cons, if_pos (by simp [has_isSome, hm])]
      rw [hown] at hk hv
      simp only
      cases hf : t.columns.reverse.find? (fun c => c.name = k) with
      | none =>
        obtain ⟨c, hc, hn⟩ := hk k (by simp [Dict.keys])
        exact absurd hn (find_col_none hf c hc)
      | some c =>
        obtain ⟨hc, hn⟩ := find_col hf
        simp only
        rw [hv (k, v) (List.mem_cons_self ..) c hc hn]
        simp only
        rw [ih', hown]
        simp [Dict.keys, itemImage, hf, hn, linksOf, hm]

/-- The state after a row. -/
def rowState (ext : Ext) (sx : SqlExt) (t : TableSpec) (row : RowDict) : RowState :=
  { keys := Dict.keys (ownItems t row), values := (ownItems t row).map (itemImage ext sx t)
    refs := linksOf t (match pkOf t row with | .ok v => v | .error _ => .one .none) row }

theorem rowStep_valid {t : TableSpec} {row : RowDict}
    (hk : ∀ k ∈ Dict.keys (ownItems t row), ∃ c ∈ t.columns, c.name = k)
    (hv : ∀ p ∈ ownItems t row, ∀ c ∈ t.columns, c.name = p.1 → stored ext sx c p.2 = .ok (image ext sx c p.2))
    (hpk : ∀ pk, t.primaryKey = some pk → ∀ k ∈ pk, ∃ v, Dict.get k row = some v)
    (hl : ∀ p ∈ row, ∀ a, Dict.get p.1 t.manyToMany = some a →
      (∀ pk, pkOf t row = .ok pk → cellTruthy ext pk = true) ∧ (p.2 = .one .none ∨ ∃ l, p.2 = .many l)) :
    rowStep ext sx t skip row = .ok (rowState ext sx t row) := by
  unfold rowStep rowState
  have : ∃ v, pkOf t row = .ok v := by
    unfold pkOf
    split
    · rename_i k he
      obtain ⟨v, hg⟩ := hpk [k] he k (by simp)
      rw [hg]
      exact ⟨v, rfl⟩
    · exact ⟨_, rfl⟩
  obtain ⟨v, hp⟩ := this
  rw [hp]
  simp only
  rw [itemLoop_valid hk hv fun p hp' a ha => ⟨(hl p hp' a ha).1 v hp, (hl p hp' a ha).2⟩]
  simp

theorem rowLoop_valid {t : TableSpec} {rows : List RowDict}
    (h : ∀ row ∈ rows, rowStep ext sx t skip row = .ok (rowState ext sx t row)) :
    rowLoop ext sx t skip rows = .ok (rows.map (rowState ext sx t)) := by
  induction rows with
  | nil => rfl
  | cons row r ih =>
    unfold rowLoop
    rw [h row (List.mem_cons_self ..), ih fun r' hr' => h r' (List.mem_cons_of_mem _ hr')]
    rfl

/-- The cell of the row stored. -/
theorem sqlCell_image {t : TableSpec} (hn : (t.columns.map fun c => tr t.name (some c.name)).Nodup) {row : RowDict}
    (hk : ∀ k ∈ Dict.keys row, ∃ c ∈ t.columns, c.name = k) (hnd : (Dict.keys row).Nodup) {c : ColSpec} (hc : c ∈ t.columns) :
    sqlCell tr t (rowImage ext sx tr t row) c.name =
      some (match Dict.get c.name row with
        | some v => affinity sx c.dbType (image ext sx c v)
        | none => .null) := by
  have hkeys : Dict.keys (sqlColumns tr t) = t.columns.map fun c => tr t.name (some c.name) := by
    simp [Dict.keys, sqlColumns, List.map_map, Function.comp_def]
  have hn' : (Dict.keys (sqlColumns tr t)).Nodup := by rw [hkeys]; exact hn
  have huniq := columns_names_nodup hn'
  unfold sqlCell rowImage
  rw [get_newRow (ty := c.dbType) hn' (by unfold sqlColumns; exact List.mem_map.2 ⟨c, hc, rfl⟩)]
  let new : List (Str × Sql) := row.map fun p => (p.1, itemImage ext sx t p)
  have h1 : new.map Prod.fst = Dict.keys row := by simp [new, Dict.keys, Function.comp_def]
  have h2 : new.map Prod.snd = row.map (itemImage ext sx t) := by simp [new, Function.comp_def]
  have hnm : ((Dict.keys row).map fun k => tr t.name (some k)).Nodup := by
    rw [List.Nodup, List.pairwise_map]
    refine List.Pairwise.imp_of_mem ?_ hnd
    intro a b ha hb hab he
    obtain ⟨ca, hca, rfl⟩ := hk a ha
    obtain ⟨cb, hcb, rfl⟩ := hk b hb
    exact hab (by rw [huniq ca hca cb hcb he])
  congr 1
  cases hg : Dict.get c.name row with
  | some v =>
    have hmem : (c.name, itemImage ext sx t (c.name, v)) ∈ new := List.mem_map.2 ⟨(c.name, v), Dict.get_mem hg, rfl⟩
    have := get_zip_map (f := fun k => tr t.name (some k)) (new := new) (by rw [h1]; exact hnm) hmem
    rw [h1, h2] at this
    rw [this]
    simp only [Option.getD_some]
    have himg : itemImage ext sx t (c.name, v) = image ext sx c v := by
      unfold itemImage
      simp only
      cases hf : t.columns.reverse.find? (fun c' => c'.name = c.name) with
      | none => exact absurd rfl (find_col_none hf c hc)
      | some c' =>
        obtain ⟨hc', he⟩ := find_col hf
        rw [huniq c' hc' c hc (by rw [he])]
    rw [himg]
  | none =>
    have : Dict.get (tr t.name (some c.name)) (((Dict.keys row).map fun k => tr t.name (some k)).zip (row.map (itemImage ext sx t))) = none := by
      rw [Dict.get_eq_none_iff]
      intro hmem
      unfold Dict.keys at hmem
      rw [List.map_fst_zip (by simp)] at hmem
      obtain ⟨k, hk1, he⟩ := List.mem_map.1 hmem
      obtain ⟨c', hc', rfl⟩ := hk k hk1
      have : c' = c := huniq c' hc' c hc he
      subst this
      exact (Dict.get_eq_none_iff _ _).1 hg hk1
    rw [this]
    simp only [Option.getD_none]
    exact affinity_null _

theorem insertIn_exists {all : Database} {n : Str} {keys : List Str} {rows : List (List Sql)} {db : Database} {t t' : DbTable}
    (ht : lookup n db = some t) (hi : insertRows sx all keys rows t = .ok t') : ∃ db', insertIn sx all n keys rows db = .ok db' := by
  induction db with
  | nil => simp [lookup] at ht
  | cons t0 r ih =>
    unfold insertIn
    rw [lookup_cons] at ht
    split
    · rename_i hn
      rw [if_pos hn] at ht
      cases ht
      rw [hi]
      exact ⟨_, rfl⟩
    · rename_i hn
      rw [if_neg hn] at ht
      obtain ⟨db', h⟩ := ih ht
      rw [h]
      exact ⟨_, rfl⟩

end
end Csvw.Db

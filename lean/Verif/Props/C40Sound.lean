import Verif.Props.C40
/-!
# C40: if the check says `True`, referential integrity holds

Without the hypothesis that the foreign keys can be checked: if not, the check does not return `True`.
-/

namespace Csvw.Props
open Csvw.Spec Csvw.Table Csvw.TableGroup

section
variable {eq : PyEq} {read : Reader} {log strict : Bool} {g : TableGroup}

theorem getKey_inv {row : RowDict} {cols : List Str} {vs : List CVal} (h : getKey row cols = .ok vs) :
    (∀ c ∈ cols, c ∈ Dict.keys row) ∧ vs = cols.map (valueOf row) := by
  induction cols generalizing vs with
  | nil => unfold getKey at h; cases h; exact ⟨fun _ h => by simp at h, rfl⟩
  | cons c cs ih =>
    unfold getKey at h
    cases hg : Dict.get c row with
    | none => rw [hg] at h; simp at h
    | some v =>
      rw [hg] at h
      simp only at h
      cases hr : getKey row cs with
      | error e => rw [hr] at h; simp at h
      | ok ws =>
        rw [hr] at h
        cases h
        obtain ⟨h1, h2⟩ := ih hr
        refine ⟨?_, by simp [valueOf, hg, h2]⟩
        intro k hk
        rcases List.mem_cons.1 hk with rfl | hk
        · exact (Dict.get_isSome_iff_mem_keys _ _).1 (by rw [hg]; rfl)
        · exact h1 k hk

theorem lookupRefs_inv {seen refs : List (List CVal)} {ok b : Bool} (h : lookupRefs eq log seen refs ok = .ok b) :
    ∀ k ∈ refs, k.all hashable = true := by
  induction refs generalizing ok with
  | nil => intro k hk; simp at hk
  | cons k r ih =>
    unfold lookupRefs at h
    unfold inSeen at h
    cases hh : k.all hashable with
    | false => rw [hh] at h; simp at h
    | true =>
      rw [hh] at h
      simp only [Bool.not_true, Bool.false_eq_true, if_false] at h
      intro k' hk'
      rcases List.mem_cons.1 hk' with rfl | hk'
      · exact hh
      · cases hs : seen.any fun s => keyEq eq s k with
        | true => rw [hs] at h; exact ih h k' hk'
        | false =>
          rw [hs] at h
          cases log with
          | true => exact ih h k' hk'
          | false => simp at h

theorem childRows_inv {seen : List (List CVal)} {tc : List Str} (hne : tc ≠ []) {err : Option PyErr} {rows : List RowDict}
    {ok b : Bool} (h : childRows eq log (decide (tc.length = 1)) seen tc err rows ok = .ok b) :
    err = none ∧ ∀ r ∈ rows, (∀ c ∈ tc, c ∈ Dict.keys r) ∧ ∀ key, Reference tc r key → ∀ v ∈ key, hashable v = true := by
  induction rows generalizing ok with
  | nil =>
    unfold childRows at h
    cases err with
    | none => exact ⟨rfl, fun _ h => by simp at h⟩
    | some e => simp at h
  | cons r rs ih =>
    unfold childRows at h
    cases hk : getKey r tc with
    | error e => rw [hk] at h; simp at h
    | ok vs =>
      obtain ⟨h1, h2⟩ := getKey_inv hk
      rw [hk, h2] at h
      simp only [colrefs_eq] at h
      cases hl : lookupRefs eq log seen (refsOf tc r) ok with
      | error e => rw [hl] at h; simp at h
      | ok ok' =>
        rw [hl] at h
        obtain ⟨i1, i2⟩ := ih h
        refine ⟨i1, ?_⟩
        intro q hq
        rcases List.mem_cons.1 hq with rfl | hq
        · refine ⟨h1, fun key hkey v hv => ?_⟩
          exact List.all_eq_true.1 (lookupRefs_inv hl key ((mem_refsOf hne).2 hkey)) v hv
        · exact i2 q hq

theorem children_inv {ks : List FKey} {n : Nat} {seen : List (List CVal)} (hlen : ∀ k ∈ ks, k.tc.length = n) {ok b : Bool}
    (h : children eq read log (decide (n = 1)) seen ks ok = .ok b) :
    ∀ k ∈ ks, k.tc ≠ [] ∧ (read k.tt log).err = none ∧
      ∀ r ∈ rowsOf (read k.tt log), (∀ c ∈ k.tc, c ∈ Dict.keys r) ∧ ∀ key, Reference k.tc r key → ∀ v ∈ key, hashable v = true := by
  induction ks generalizing ok with
  | nil => intro k hk; simp at hk
  | cons k r ih =>
    unfold children at h
    by_cases hne : k.tc = []
    · rw [if_pos hne] at h; simp at h
    · rw [if_neg hne, ← hlen k (List.mem_cons_self ..)] at h
      cases hc : childRows eq log (decide (k.tc.length = 1)) seen k.tc (read k.tt log).err (rowsOf (read k.tt log)) ok with
      | error e => rw [hc] at h; simp at h
      | ok ok' =>
        rw [hc, hlen k (List.mem_cons_self ..)] at h
        intro q hq
        rcases List.mem_cons.1 hq with rfl | hq
        · exact ⟨hne, childRows_inv hne hc⟩
        · exact ih (fun k hk => hlen k (List.mem_cons_of_mem _ hk)) h q hq

theorem seenKeys_inv {key : List Str} {rows : List RowDict} {seen : List (List CVal)} {dup : Bool}
    {p : List (List CVal) × Bool} (h : seenKeys eq key seen dup rows = .ok p) : ∀ r ∈ rows, HasKey key r := by
  induction rows generalizing seen dup with
  | nil => intro r hr; simp at hr
  | cons r rs ih =>
    unfold seenKeys at h
    cases hk : getKey r key with
    | error e => rw [hk] at h; simp at h
    | ok vs =>
      obtain ⟨h1, h2⟩ := getKey_inv hk
      rw [hk] at h
      simp only at h
      unfold inSeen at h
      cases hh : vs.all hashable with
      | false => rw [hh] at h; simp at h
      | true =>
        rw [hh] at h
        intro q hq
        rcases List.mem_cons.1 hq with rfl | hq
        · intro c hc
          cases hg : Dict.get c q with
          | none =>
            have := h1 c hc
            rw [Dict.get_eq_none_iff] at hg
            exact absurd this hg
          | some v =>
            refine ⟨v, rfl, ?_⟩
            rw [h2] at hh
            have := List.all_eq_true.1 hh (valueOf q c) (List.mem_map_of_mem hc)
            simpa [valueOf, hg] using this
        · exact ih h q hq

theorem allSeen_inv {out : IterOut} {gs : List (List FKey)} {ok : Bool} {p : List (List (List CVal)) × Bool}
    (h : allSeen eq strict out gs ok = .ok p) (hg : ∀ grp ∈ gs, grp ≠ []) :
    out.err = none ∧ p.1.length = gs.length ∧ ∀ grp ∈ gs, ∀ k r, grp = k :: r → k.sc ≠ [] ∧ ∀ row ∈ rowsOf out, HasKey k.sc row := by
  induction gs generalizing ok p with
  | nil =>
    unfold allSeen at h
    cases he : out.err with
    | none => rw [he] at h; cases h; exact ⟨rfl, rfl, fun _ h => by simp at h⟩
    | some e => rw [he] at h; simp at h
  | cons grp r ih =>
    cases grp with
    | nil => exact absurd rfl (hg [] (List.mem_cons_self ..))
    | cons k ks =>
      unfold allSeen at h
      by_cases hs : k.sc = []
      · rw [if_pos hs] at h; simp at h
      · rw [if_neg hs] at h
        cases hk : seenKeys eq k.sc [] false (rowsOf out) with
        | error e => rw [hk] at h; simp at h
        | ok sd =>
          obtain ⟨seen, dup⟩ := sd
          rw [hk] at h
          simp only at h
          cases ha : allSeen eq strict out r (ok && !(strict && dup)) with
          | error e => rw [ha] at h; simp at h
          | ok q =>
            rw [ha] at h
            cases h
            obtain ⟨i1, i2, i3⟩ := ih ha fun grp hgrp => hg grp (List.mem_cons_of_mem _ hgrp)
            refine ⟨i1, by simp [i2], ?_⟩
            intro grp hgrp k' r' he
            rcases List.mem_cons.1 hgrp with rfl | hgrp
            · cases he; exact ⟨hs, seenKeys_inv hk⟩
            · exact i3 grp hgrp k' r' he

theorem keyGroups_inv {gs : List (List FKey)} {ss : List (List (List CVal))} (hl : ss.length = gs.length)
    (hg : ∀ grp ∈ gs, grp ≠ [] ∧ ∃ sc, ∀ k ∈ grp, k.sc = sc) (hlen : ∀ grp ∈ gs, ∀ k ∈ grp, k.sc.length = k.tc.length) {ok b : Bool}
    (h : keyGroups eq read log gs ss ok = .ok b) :
    ∀ grp ∈ gs, ∀ k ∈ grp, k.tc ≠ [] ∧ (read k.tt log).err = none ∧
      ∀ r ∈ rowsOf (read k.tt log), (∀ c ∈ k.tc, c ∈ Dict.keys r) ∧ ∀ key, Reference k.tc r key → ∀ v ∈ key, hashable v = true := by
  induction gs generalizing ss ok with
  | nil => intro grp hgrp; simp at hgrp
  | cons grp r ih =>
    cases ss with
    | nil => simp at hl
    | cons seen ss =>
      cases grp with
      | nil => exact absurd rfl (hg [] (List.mem_cons_self ..)).1
      | cons k ks =>
        unfold keyGroups at h
        cases hc : children eq read log (decide (k.sc.length = 1)) seen (k :: ks) ok with
        | error e => rw [hc] at h; simp at h
        | ok ok' =>
          rw [hc] at h
          intro grp hgrp
          rcases List.mem_cons.1 hgrp with rfl | hgrp
          · refine children_inv ?_ hc
            intro q hq
            obtain ⟨_, sc, hsc⟩ := hg (k :: ks) (List.mem_cons_self ..)
            rw [← hlen (k :: ks) (List.mem_cons_self ..) q hq, hsc q hq, hsc k (List.mem_cons_self ..)]
          · exact ih (by simpa using hl) (fun grp hgrp => hg grp (List.mem_cons_of_mem _ hgrp))
              (fun grp hgrp => hlen grp (List.mem_cons_of_mem _ hgrp)) h grp hgrp

theorem tableGroup_inv {st : Table} {grp : List FKey} (hne : grp ≠ []) (hst : ∀ k ∈ grp, k.st = st)
    (hlen : ∀ k ∈ grp, k.sc.length = k.tc.length) {ok b : Bool} (h : tableGroup eq read log strict grp ok = .ok b) :
    ∀ k ∈ grp, KeyCheckable read log k := by
  cases grp with
  | nil => exact absurd rfl hne
  | cons k0 r =>
    unfold tableGroup at h
    simp only at h
    obtain ⟨g1, g2'⟩ := groupBy_spec FKey.sc (k0 :: r)
    have g2 : ∀ grp ∈ groupBy FKey.sc (k0 :: r), grp ≠ [] ∧ ∃ sc, ∀ k ∈ grp, k.sc = sc := by
      intro grp hgrp
      obtain ⟨a, q, h1, h2⟩ := g2' grp hgrp
      exact ⟨by rw [h1]; simp, a.sc, h2⟩
    have hmem : ∀ grp ∈ groupBy FKey.sc (k0 :: r), ∀ k ∈ grp, k ∈ k0 :: r := by
      intro grp hgrp k hk
      rw [← g1]
      exact List.mem_flatten.2 ⟨grp, hgrp, hk⟩
    cases ha : allSeen eq strict (read k0.st log) (groupBy FKey.sc (k0 :: r)) ok with
    | error e => rw [ha] at h; simp at h
    | ok p =>
      obtain ⟨ss, ok'⟩ := p
      rw [ha] at h
      obtain ⟨a1, a2, a3⟩ := allSeen_inv ha fun grp hgrp => (g2 grp hgrp).1
      have hk := keyGroups_inv a2 g2 (fun grp hgrp k hk => hlen k (hmem grp hgrp k hk)) h
      intro k hkm
      rw [← g1] at hkm
      obtain ⟨grp, hgrp, hkg⟩ := List.mem_flatten.1 hkm
      obtain ⟨b1, b2, b3⟩ := hk grp hgrp k hkg
      cases grp with
      | nil => simp at hkg
      | cons k1 r1 =>
        obtain ⟨c1, c2⟩ := a3 _ hgrp k1 r1 rfl
        obtain ⟨_, sc, hsc⟩ := g2 _ hgrp
        have hs : k.sc = k1.sc := by rw [hsc k hkg, hsc k1 (List.mem_cons_self ..)]
        have hm := hmem _ hgrp k hkg
        have hst' : k.st = k0.st := by rw [hst k hm, hst k0 (List.mem_cons_self ..)]
        refine ⟨by rw [hs]; exact c1, b1, hlen k hm, by rw [hst']; exact a1, b2, ?_, fun r hr => (b3 r hr).1, fun r hr => (b3 r hr).2⟩
        rw [hst', hs]
        exact c2

theorem tableGroups_inv {gs : List (List FKey)} (hg : ∀ grp ∈ gs, grp ≠ [] ∧ ∃ st, ∀ k ∈ grp, k.st = st)
    (hlen : ∀ grp ∈ gs, ∀ k ∈ grp, k.sc.length = k.tc.length) {ok b : Bool} (h : tableGroups eq read log strict gs ok = .ok b) :
    ∀ grp ∈ gs, ∀ k ∈ grp, KeyCheckable read log k := by
  induction gs generalizing ok with
  | nil => intro grp hgrp; simp at hgrp
  | cons grp r ih =>
    unfold tableGroups at h
    cases ht : tableGroup eq read log strict grp ok with
    | error e => rw [ht] at h; simp at h
    | ok ok' =>
      rw [ht] at h
      intro q hq
      rcases List.mem_cons.1 hq with rfl | hq
      · obtain ⟨h1, st, h2⟩ := hg q (List.mem_cons_self ..)
        exact tableGroup_inv h1 h2 (hlen q (List.mem_cons_self ..)) ht
      · exact ih (fun grp hgrp => hg grp (List.mem_cons_of_mem _ hgrp)) (fun grp hgrp => hlen grp (List.mem_cons_of_mem _ hgrp)) h q hq

theorem checkFkeys_len {ks : List FKey} (h : checkFkeys strict ks = .ok ()) : ∀ k ∈ ks, k.sc.length = k.tc.length := by
  induction ks with
  | nil => intro k hk; simp at hk
  | cons k r ih =>
    unfold checkFkeys at h
    by_cases hl : k.sc.length = k.tc.length
    · rw [if_neg (by simp [hl])] at h
      cases hp : checkPairs k.st.schema k.tt.schema strict (k.sc.zip k.tc) with
      | error e => rw [hp] at h; simp at h
      | ok u =>
        rw [hp] at h
        intro q hq
        rcases List.mem_cons.1 hq with rfl | hq
        · exact hl
        · exact ih h q hq
    · rw [if_pos hl] at h; simp at h

theorem validateSchema_inv (h : g.validateSchema strict = .ok ()) :
    ∃ ks, g.foreignKeys = .ok ks ∧ ∀ k ∈ ks, k.sc.length = k.tc.length := by
  unfold validateSchema at h
  cases hk : g.foreignKeys with
  | error e => rw [hk] at h; cases e <;> simp [asForeignKeyError] at h
  | ok ks =>
    rw [hk] at h
    refine ⟨ks, rfl, ?_⟩
    cases hc : checkFkeys strict ks with
    | error e => simp only [hc] at h; cases e <;> simp [asForeignKeyError] at h
    | ok u => exact checkFkeys_len hc

theorem fkeysOf_inv {ps : List (Table × ForeignKey)} {ks : List FKey} (h : fkeysOf g ps = .ok ks) :
    All2 (fun p k => fkeyOf g p.1 p.2 = .ok k) ps ks := by
  induction ps generalizing ks with
  | nil => unfold fkeysOf at h; cases h; exact .nil
  | cons p r ih =>
    obtain ⟨t, fk⟩ := p
    unfold fkeysOf at h
    cases hk : fkeyOf g t fk with
    | error e => rw [hk] at h; simp at h
    | ok k =>
      rw [hk] at h
      simp only at h
      cases hr : fkeysOf g r with
      | error e => rw [hr] at h; simp at h
      | ok ks' => rw [hr] at h; cases h; exact .cons hk (ih hr)

/-- If the check of the foreign keys ends without exception, after the schema was found valid, then they could be checked. -/
theorem checkable_of_ok (hv : g.validateSchema false = .ok ()) {ks : List FKey} (hks : g.foreignKeys = .ok ks) {ok b : Bool}
    (h : tableGroups eq read log strict (groupBy (fun k => k.st.url) (ks.mergeSort fkeyLe)) ok = .ok b) :
    ∀ t fk, IsForeignKey g t fk → Checkable read log g t fk := by
  obtain ⟨ks', h1, hlen⟩ := validateSchema_inv hv
  rw [hks] at h1
  cases h1
  have h2 := fkeysOf_inv hks
  obtain ⟨g1, g2⟩ := groupBy_spec (fun k : FKey => k.st.url) (ks.mergeSort fkeyLe)
  have hmem : ∀ k, k ∈ ks.mergeSort fkeyLe ↔ k ∈ ks := fun k => (List.mergeSort_perm ks fkeyLe).mem_iff
  have hsub : ∀ grp ∈ groupBy (fun k : FKey => k.st.url) (ks.mergeSort fkeyLe), ∀ k ∈ grp, k ∈ ks := by
    intro grp hgrp k hk
    rw [← hmem, ← g1]
    exact List.mem_flatten.2 ⟨grp, hgrp, hk⟩
  have hof : ∀ k ∈ ks, ∃ t fk, fkeyOf g t fk = .ok k := by
    intro k hk
    obtain ⟨p, _, hp⟩ := all2_mem_right h2 hk
    exact ⟨p.1, p.2, hp⟩
  have hall := tableGroups_inv (fun grp hgrp => group_same_table hof (g2 grp hgrp) (hsub grp hgrp))
    (fun grp hgrp k hk => hlen k (hsub grp hgrp k hk)) h
  intro t fk hfk
  obtain ⟨k, hk, hpk⟩ := all2_mem_left h2 (mem_fkPairs.2 hfk)
  obtain ⟨r, hr, hst, hk'⟩ := fkeyOf_ok hpk
  have hkm : k ∈ (groupBy (fun k : FKey => k.st.url) (ks.mergeSort fkeyLe)).flatten := by rw [g1]; exact (hmem k).2 hk
  obtain ⟨grp, hgrp, hkg⟩ := List.mem_flatten.1 hkm
  have hc := hall grp hgrp k hkg
  have e1 : k.sc = fk.refColumns := by rw [hk']
  have e2 : k.tc = fk.columnReference := by rw [hk']
  have e3 : k.tt = t := by rw [hk']
  exact ⟨⟨r, k.st, hr, hst, hc.serr, e1 ▸ hc.skeys⟩, ⟨e2 ▸ hc.tcNe, by rw [← e1, ← e2]; exact hc.len⟩, e3 ▸ hc.terr,
    by rw [← e2, ← e3]; exact hc.tkeys, by rw [← e2, ← e3]; exact hc.hash⟩

/-! `success` is never set to `True` again. -/

theorem lookupRefs_true {seen refs : List (List CVal)} {ok : Bool} (h : lookupRefs eq log seen refs ok = .ok true) : ok = true := by
  induction refs generalizing ok with
  | nil => unfold lookupRefs at h; cases h; rfl
  | cons k r ih =>
    unfold lookupRefs at h
    cases hs : inSeen eq seen k with
    | error e => rw [hs] at h; simp at h
    | ok b =>
      rw [hs] at h
      cases b with
      | true => exact ih h
      | false =>
        cases log with
        | true => exact absurd (ih h) (by decide)
        | false => simp at h

theorem childRows_true {single : Bool} {seen : List (List CVal)} {tc : List Str} {err : Option PyErr} {rows : List RowDict}
    {ok : Bool} (h : childRows eq log single seen tc err rows ok = .ok true) : ok = true := by
  induction rows generalizing ok with
  | nil =>
    unfold childRows at h
    cases err with
    | none => cases h; rfl
    | some e => simp at h
  | cons r rs ih =>
    unfold childRows at h
    cases hk : getKey r tc with
    | error e => rw [hk] at h; simp at h
    | ok vs =>
      rw [hk] at h
      simp only at h
      cases hc : colrefs single vs with
      | error e => rw [hc] at h; simp at h
      | ok refs =>
        rw [hc] at h
        simp only at h
        cases hl : lookupRefs eq log seen refs ok with
        | error e => rw [hl] at h; simp at h
        | ok ok' =>
          rw [hl] at h
          have := ih h
          subst this
          exact lookupRefs_true hl

theorem children_true {single : Bool} {ks : List FKey} {seen : List (List CVal)} {ok : Bool}
    (h : children eq read log single seen ks ok = .ok true) : ok = true := by
  induction ks generalizing ok with
  | nil => unfold children at h; cases h; rfl
  | cons k r ih =>
    unfold children at h
    by_cases hne : k.tc = []
    · rw [if_pos hne] at h; simp at h
    · rw [if_neg hne] at h
      cases hc : childRows eq log single seen k.tc (read k.tt log).err (rowsOf (read k.tt log)) ok with
      | error e => rw [hc] at h; simp at h
      | ok ok' =>
        rw [hc] at h
        have := ih h
        subst this
        exact childRows_true hc

theorem keyGroups_true {gs : List (List FKey)} {ss : List (List (List CVal))} {ok : Bool}
    (h : keyGroups eq read log gs ss ok = .ok true) : ok = true := by
  induction gs generalizing ss ok with
  | nil => unfold keyGroups at h; cases h; rfl
  | cons grp r ih =>
    cases grp with
    | nil => unfold keyGroups at h; cases h; rfl
    | cons k ks =>
      cases ss with
      | nil => unfold keyGroups at h; cases h; rfl
      | cons seen ss =>
        unfold keyGroups at h
        cases hc : children eq read log (decide (k.sc.length = 1)) seen (k :: ks) ok with
        | error e => rw [hc] at h; simp at h
        | ok ok' =>
          rw [hc] at h
          have := ih h
          subst this
          exact children_true hc

theorem allSeen_true {out : IterOut} {gs : List (List FKey)} {ok : Bool} {ss : List (List (List CVal))}
    (h : allSeen eq strict out gs ok = .ok (ss, true)) : ok = true := by
  induction gs generalizing ok ss with
  | nil =>
    unfold allSeen at h
    cases he : out.err with
    | none => rw [he] at h; cases h; rfl
    | some e => rw [he] at h; simp at h
  | cons grp r ih =>
    cases grp with
    | nil => unfold allSeen at h; exact ih h
    | cons k ks =>
      unfold allSeen at h
      by_cases hs : k.sc = []
      · rw [if_pos hs] at h; simp at h
      · rw [if_neg hs] at h
        cases hk : seenKeys eq k.sc [] false (rowsOf out) with
        | error e => rw [hk] at h; simp at h
        | ok sd =>
          obtain ⟨seen, dup⟩ := sd
          rw [hk] at h
          simp only at h
          cases ha : allSeen eq strict out r (ok && !(strict && dup)) with
          | error e => rw [ha] at h; simp at h
          | ok q =>
            obtain ⟨q1, q2⟩ := q
            rw [ha] at h
            cases h
            exact (Bool.and_eq_true_iff.1 (ih ha)).1

theorem tableGroups_true {gs : List (List FKey)} {ok : Bool} (h : tableGroups eq read log strict gs ok = .ok true) : ok = true := by
  induction gs generalizing ok with
  | nil => unfold tableGroups at h; cases h; rfl
  | cons grp r ih =>
    unfold tableGroups at h
    cases ht : tableGroup eq read log strict grp ok with
    | error e => rw [ht] at h; simp at h
    | ok ok' =>
      rw [ht] at h
      have := ih h
      subst this
      unfold tableGroup at ht
      cases grp with
      | nil => cases ht; rfl
      | cons k q =>
        simp only at ht
        cases ha : allSeen eq strict (read k.st log) (groupBy FKey.sc (k :: q)) ok with
        | error e => rw [ha] at ht; simp at ht
        | ok p =>
          obtain ⟨ss, ok'⟩ := p
          rw [ha] at ht
          have := keyGroups_true ht
          subst this
          exact allSeen_true ha

theorem nullChecks_inv {ps : List (Table × ForeignKey)} (h : nullChecks read ps = .ok ()) :
    ∀ p ∈ ps, (read p.1 false).err = none ∧ ¬ NullInKey read p.1 p.2 := by
  induction ps with
  | nil => intro p hp; simp at hp
  | cons p r ih =>
    obtain ⟨t, fk⟩ := p
    unfold nullChecks at h
    cases hc : nullCheck (read t false) fk.columnReference with
    | error e => rw [hc] at h; simp at h
    | ok u =>
      rw [hc] at h
      intro p hp
      rcases List.mem_cons.1 hp with rfl | hp
      · have herr : (read t false).err = none := by
          unfold nullCheck at hc
          split at hc
          · simp at hc
          · cases he : (read t false).err with
            | none => rfl
            | some e => rw [he] at hc; simp at hc
        refine ⟨herr, fun hn => ?_⟩
        rw [(nullCheck_eq herr).1 hn] at hc
        simp at hc
      · exact ih h p hp

/-- What `check_referential_integrity` returning a value says about the schema and the checks. -/
theorem integrity_inv {b : Bool} (h : g.checkReferentialIntegrity eq read log strict = .ok b) (hb : log = false ∨ b = true) :
    (strict = true → ∀ t ∈ g.tables, ∀ fk ∈ t.schema.foreignKeys, (read t false).err = none ∧ ¬ NullInKey read t fk) ∧
    g.validateSchema false = .ok () ∧
    (∀ t fk, IsForeignKey g t fk → Checkable read log g t fk) ∧
    AllSatisfied eq (fun t => rowsOf (read t log)) g ∧
    (b = true ↔ (strict = true → AllUnique eq (fun t => rowsOf (read t log)) g)) := by
  unfold checkReferentialIntegrity at h
  obtain ⟨hn, h⟩ : (strict = true → ∀ t ∈ g.tables, ∀ fk ∈ t.schema.foreignKeys, (read t false).err = none ∧ ¬ NullInKey read t fk) ∧
      (match g.schemaOk log with
        | .error e => .error e
        | .ok ok => match g.foreignKeys with
          | .error e => .error e
          | .ok ks => tableGroups eq read log strict (groupBy (fun k => k.st.url) (ks.mergeSort fkeyLe)) ok) = (.ok b : Res Bool) := by
    cases strict with
    | false => exact ⟨fun h => by simp at h, h⟩
    | true =>
      simp only [if_true] at h
      cases hc : nullChecks read (g.tables.flatMap fun t => t.schema.foreignKeys.map fun fk => (t, fk)) with
      | error e => simp only [hc] at h; simp at h
      | ok u =>
        simp only [hc] at h
        exact ⟨fun _ t ht fk hfk => nullChecks_inv hc (t, fk) (mem_allPairs.2 ⟨ht, hfk⟩), h⟩
  cases hs : g.schemaOk log with
  | error e => rw [hs] at h; simp at h
  | ok ok =>
    rw [hs] at h
    simp only at h
    cases hks : g.foreignKeys with
    | error e => rw [hks] at h; simp at h
    | ok ks =>
      rw [hks] at h
      simp only at h
      obtain ⟨hok, hv⟩ : ok = true ∧ g.validateSchema false = .ok () := by
        unfold schemaOk at hs
        cases hv : g.validateSchema false with
        | ok u => rw [hv] at hs; cases hs; exact ⟨rfl, rfl⟩
        | error e =>
          rw [hv] at hs
          exfalso
          cases log with
          | false => cases e <;> simp at hs
          | true =>
            rcases hb with hb | rfl
            · simp at hb
            · have := tableGroups_true h
              subst this
              cases e <;> simp at hs
      subst hok
      have hch := checkable_of_ok hv hks h
      obtain ⟨d, c, h1, h2, h3⟩ := integrity_eq (eq := eq) (strict := strict) hch hks true
      rw [h1] at h
      have hc : c = true := by
        cases c with
        | true => rfl
        | false =>
          unfold judge at h
          cases log with
          | false => simp at h
          | true => rcases hb with hb | hb <;> simp_all
      subst hc
      have hd : d = b := by
        unfold judge at h
        simpa using h
      subst hd
      exact ⟨hn, hv, hch, h2.1 rfl, h3⟩

/-- **C40** (no hypotheses on the tables and data) If `check_referential_integrity` returns `True`, then the schema is valid, every
foreign key references a table of the group, the data of the tables can be read, and all references are found; in strict mode, moreover,
the keys of the referenced tables are unique and no foreign key column is `None`. -/
theorem C40_sound (h : g.checkReferentialIntegrity eq read log strict = .ok true) :
    g.validateSchema false = .ok () ∧
    (∀ t fk, IsForeignKey g t fk → Checkable read log g t fk) ∧
    AllSatisfied eq (fun t => rowsOf (read t log)) g ∧
    (strict = true → AllUnique eq (fun t => rowsOf (read t log)) g ∧
      ∀ t ∈ g.tables, ∀ fk ∈ t.schema.foreignKeys, ¬ NullInKey read t fk) := by
  obtain ⟨h1, h2, h3, h4, h5⟩ := integrity_inv h (.inr rfl)
  exact ⟨h2, h3, h4, fun hs => ⟨h5.1 rfl hs, fun t ht fk hfk => (h1 hs t ht fk hfk).2⟩⟩

/-- **C40** (exact, no hypotheses) `check_referential_integrity` (with or without log, non-strict) returns `True` if and only if the schema is
valid, the foreign keys can be checked (their tables exist and can be read, and the rows have hashable values in the columns of the
key) and all references of all foreign keys are found. -/
theorem C40_iff : g.checkReferentialIntegrity eq read log false = .ok true ↔ g.validateSchema false = .ok () ∧
    (∀ t fk, IsForeignKey g t fk → Checkable read log g t fk) ∧ AllSatisfied eq (fun t => rowsOf (read t log)) g := by
  constructor
  · intro h
    obtain ⟨h1, h2, h3, _⟩ := C40_sound h
    exact ⟨h1, h2, h3⟩
  · rintro ⟨h1, h2, h3⟩
    cases log with
    | true =>
      obtain ⟨b, hb, hiff⟩ := C40_log (eq := eq) h2 (.inl h1)
      rw [hb, hiff.2 ⟨h1, h3⟩]
    | false => exact (C40_nolog h2 (.inl h1)).1 ⟨h1, h3⟩

/-- **C40** Without a log, only duplicate keys (in strict mode) make the check return `False`; everything else is an exception. -/
theorem C40_nolog_false (h : g.checkReferentialIntegrity eq read false strict = .ok false) :
    AllSatisfied eq (fun t => rowsOf (read t false)) g ∧ strict = true ∧ ¬ AllUnique eq (fun t => rowsOf (read t false)) g := by
  obtain ⟨_, _, _, h4, h5⟩ := integrity_inv h (.inl rfl)
  refine ⟨h4, ?_, fun hu => by simpa using h5.2 fun _ => hu⟩
  cases strict with
  | true => rfl
  | false => simpa using h5.2 (by simp)

end

/-- Non-vacuity: the check returns `True` for the list-valued references `x` and `y` of `listGroup`. -/
theorem C40_sound_example (ext : Ext) (x : MExt) :
    listGroup.checkReferentialIntegrity (fun a b => decide (a = b)) (fileReader ext x (listData "x;y".toList)) true false = .ok true := by
  have h : DataRows listGroup.tables[1] "a\nx;y\n".toList [(1, [['a']]), (2, ["x;y".toList])] none :=
    ⟨_, rfl, by decide +kernel, by decide +kernel⟩
  have hc : fileReader ext x (listData "x;y".toList) listGroup.tables[1] true =
      { rows := [(2, [(['a'], .many [.str ['x'], .str ['y']])])] } := (iterdicts_eq h).trans rfl
  have h1 : listGroup.validateSchema false = .ok () := by decide +kernel
  unfold checkReferentialIntegrity schemaOk
  rw [h1, listGroup_keys]
  simp only [List.mergeSort_singleton, groupBy, tableGroups, tableGroup, listGroup_p, allSeen, keyGroups, children, hc]
  rfl

end Csvw.Props

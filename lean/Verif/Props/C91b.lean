import Verif.Props.C91
/-!
# C91: an example
-/

namespace Csvw.Props
open Csvw Spec Table

/-- The files on a disk can be served, whatever they contain: `getJson` reads the metadata file and the data are read from the directory of it. -/
theorem C91_served (fx : FExt) (d : Disk) (p : PPath) (ts : List Table) (w : Locate.World) (url : Str) :
    Served fx d p ts { w with getJson := fun _ => match d.read fx (.file p) with | .ok s => fx.loads s | .error e => .error e } url
      (fun u => match d.read fx (.file (p.parent.join u)) with | .ok s => s | .error _ => []) := by
  constructor
  · intro text h
    unfold Holds at h
    simp only [h]
  · intro t _ text h
    unfold Holds dataFile at h
    simp only [h]

/-- Two rows for the table of C74. -/
def rereadRows : List RowDict :=
  [[("ID".toList, .one (.int 5)), ("L".toList, .many [.str ['u'], .str ['v', ';']])], [("ID".toList, .one (.int 6)), ("L".toList, .many [.str ['u']])]]

/-- The hypotheses of `C91_validate` are met: the table group of C74 is written to `d/md.json`, and found to be valid. -/
theorem C91_example {ext : Ext} {x : MExt} {other : Base → Derived → J → Res Val} {fx : FExt} {ver : CsvLib.CsvVer} {buf : Dsv.Buffering} {eq : PyEq}
    (heq : eq (.one (.int 5)) (.one (.int 6)) = false)
    (hjson : ∀ j, rereadGroup.asdict ext true = .ok j → fx.loads (fx.dumps j) = .ok j) (zipped : Bool) :
    ∃ ops, rereadGroup.writeOps ext x fx ver buf oneDir ⟨false, [['d'], "md.json".toList]⟩ true zipped
      [("t.csv".toList, rereadRows.map .dict)] = (ops, none) ∧
      ∀ (o : OpenExt) (w : Locate.World) (url : Str) (data : Str → Str), isUrl url = false →
        Served fx (oneDir.run ops) ⟨false, [['d'], "md.json".toList]⟩ rereadGroup.group.tables w url data →
        csvwvalidate ext x other (fun _ => .ok ()) o w eq data url = .ok 0 := by
  obtain ⟨h1, h2, h3, h4, h5, h6, h7⟩ := C74_example (ext := ext) (x := x) (other := other)
  obtain ⟨m, e, k1, k2, -, -, k5, k6, k7⟩ := C90_example (ext := ext) (x := x) (other := other)
  have hctx : DeclaresCsvw m := by
    have : Dict.get "@context".toList m = some (.str ([] ++ namespaceUrl ++ [])) := by
      unfold rereadExample at e
      cases e
      rfl
    exact .text [] [] this
  have hcells : All2 (RowRoundTrips ext x (rereadGroup.table rereadGroup.tables[0])) rereadRows [["5".toList, "u,v;".toList], ["6".toList, "u".toList]] :=
    .cons (.cons ⟨⟨_, rfl, rfl⟩, rfl⟩ (.cons ⟨⟨_, rfl, rfl⟩, rfl⟩ .nil)) (.cons (.cons ⟨⟨_, rfl, rfl⟩, rfl⟩ (.cons ⟨⟨_, rfl, rfl⟩, rfl⟩ .nil)) .nil)
  have hq : QuoteDialect ver (rereadGroup.table rereadGroup.tables[0]).getDialect ';' '"' ['\r', '\n'] :=
    ⟨rfl, rfl, ⟨_, rfl⟩, .inl rfl, by decide, by decide, by decide, by decide, .inr rfl⟩
  have hs : Storable (rereadGroup.table rereadGroup.tables[0]).getDialect (fileRows (rereadGroup.table rereadGroup.tables[0]) [["5".toList, "u,v;".toList], ["6".toList, "u".toList]]) := by
    unfold Storable; decide
  have hb : ¬ Spec.StartsWithBom (fileRows (rereadGroup.table rereadGroup.tables[0]) [["5".toList, "u,v;".toList], ["6".toList, "u".toList]]) := by
    rintro ⟨s, cells, rest, h⟩
    have h2 : (some 'I' : Option Char) = some Spec.bom := congrArg (fun l => (l.head?.bind List.head?).bind List.head?) h
    revert h2
    decide
  refine C91_validate (rows := fun _ => rereadRows) rfl k1 k2 ⟨⟨_, h1, h2⟩, ⟨h3, h5⟩, fun t ht => ⟨h4 t ht, h6 t ht⟩, h7⟩ k5 k6 k7 hctx
    (by simp [rereadGroup]) hjson (by decide) ?_ ?_ ?_ ?_ ?_
  · exact ⟨by decide, by decide, by decide, fun _ => by decide⟩
  · unfold AllDifferent; cases zipped <;> decide
  · intro t ht
    have ht : t ∈ [rereadGroup.table rereadGroup.tables[0]] := ht
    rw [List.mem_singleton] at ht
    subst ht
    refine ⟨⟨?_, by decide, by decide, by decide, ⟨';', '"', ['\r', '\n'], hq⟩,
      [["5".toList, "u,v;".toList], ["6".toList, "u".toList]], hcells, ?_, .inl rfl, ⟨rfl, rfl, rfl, by decide, by decide⟩, hs, hb⟩, ?_⟩
    · intro c hc
      have hc : c ∈ rereadGroup.tables[0].like.schema.columns := hc
      simp only [rereadGroup, List.getElem_cons_zero, List.mem_cons, List.not_mem_nil, or_false] at hc
      rcases hc with rfl | rfl <;> exact ⟨rfl, _, _, rfl⟩
    · intro row hrow p hp
      rcases List.mem_cons.1 hrow with rfl | hrow
      · rcases List.mem_cons.1 hp with rfl | hp
        · rfl
        · rcases List.mem_cons.1 hp with rfl | hp
          · rfl
          · cases hp
      · rcases List.mem_cons.1 hrow with rfl | hrow
        · rcases List.mem_cons.1 hp with rfl | hp
          · rfl
          · rcases List.mem_cons.1 hp with rfl | hp
            · rfl
            · cases hp
        · cases hrow
    · intro key hk
      have hk : some ["ID".toList] = some key := hk
      cases hk
      refine ⟨?_, ?_⟩
      · intro d hd k hk
        rw [List.mem_singleton] at hk
        subst hk
        rcases List.mem_cons.1 hd with rfl | hd
        · exact ⟨_, rfl, rfl⟩
        · rcases List.mem_cons.1 hd with rfl | hd
          · exact ⟨_, rfl, rfl⟩
          · cases hd
      · refine .cons ?_ (.cons (by rintro _ ⟨⟩) .nil)
        intro r hr
        rw [List.mem_singleton] at hr
        subst hr
        intro h
        have h2 : eq (.one (.int 5)) (.one (.int 6)) = true := h "ID".toList (by simp)
        rw [heq] at h2
        cases h2
  · have hno : ∀ t fk, ¬ IsForeignKey rereadGroup.group t fk := by
      rintro t fk ⟨ht, hfk, -⟩
      have ht : t ∈ [rereadGroup.table rereadGroup.tables[0]] := ht
      rw [List.mem_singleton] at ht
      subst ht
      cases hfk
    refine ⟨by rfl, fun t fk h => absurd h (hno t fk), fun t fk h => absurd h (hno t fk), fun t fk h => absurd h (hno t fk), ?_,
      fun t fk h => absurd h (hno t fk), fun t fk h => absurd h (hno t fk)⟩
    intro t ht fk hfk
    have ht : t ∈ [rereadGroup.table rereadGroup.tables[0]] := ht
    rw [List.mem_singleton] at ht
    subst ht
    cases hfk
  · intro _ t ht text hw
    have ht : t ∈ [rereadGroup.table rereadGroup.tables[0]] := ht
    rw [List.mem_singleton] at ht
    subst ht
    exact written_noReturns hcells (by decide) hq (.inl rfl) hs hb hw (by decide)

end Csvw.Props

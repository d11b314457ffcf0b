import Verif.Props.C83
import Verif.Props.C54
/-!
# C83: examples for the commands
-/

namespace Csvw.Props

open Csvw.Spec Csvw.Spec.Frictionless Csvw.Db Csvw.Table Csvw.Frictionless Csvw.Commands Csvw.ToJson

section
variable {ext : Ext} {x : MExt} {other : Base → Derived → J → Res Val}

/-! ## `csvwdescribe` -/

/-- What `frictionless` says about a file. -/
def describedFile : List (Str × J) :=
  [("name".toList, .str "a".toList), ("path".toList, .str "a.txt".toList), ("scheme".toList, .str "file".toList),
   ("format".toList, .str "csv".toList), ("encoding".toList, .str "utf-8".toList),
   ("dialect".toList, .obj [("csv".toList, .obj [("delimiter".toList, .str ";".toList)])]),
   ("schema".toList, .obj [("fields".toList, .arr
     [.obj [("name".toList, .str "id".toList), ("type".toList, .str "string".toList)],
      .obj [("name".toList, .str "n".toList), ("type".toList, .str "integer".toList)],
      .obj [("name".toList, .str "ok".toList), ("type".toList, .str "boolean".toList)]])])]

theorem described_tabular : tabular [.obj describedFile] = [describedFile] := by
  have : Tabular describedFile := ⟨by decide, ⟨_, rfl, rfl⟩, rfl, rfl⟩
  simp [tabular, this]

theorem described_plain : PlainResource describedFile := by
  refine ⟨?_, .inl (by decide +kernel)⟩
  intro schema l f h1 h2 hf
  cases h1
  cases h2
  simp only [List.mem_cons, J.obj.injEq, List.not_mem_nil, or_false] at hf
  rcases hf with rfl | rfl | rfl
  · exact ⟨by decide, .inl (by decide)⟩
  · exact ⟨by decide, .inl (by decide)⟩
  · exact ⟨by decide, .inl (by decide)⟩

/-- The hypotheses of `C83_describe_plain` are met by the example. -/
theorem C83_example_describe (dumps : J → Str) (run : List Str → Res J)
    (hr : run ["describe".toList, "--json".toList, "--dialect".toList, "{\"delimiter\": \";\"}".toList, "--format".toList, "csv".toList,
      "a.txt".toList] = .ok (.obj describedFile)) :
    (∃ j, csvwdescribe ext x other (fun _ => .ok ()) dumps run (some ";".toList) ["a.txt".toList] = .ok j) ∧
      Described ["a.txt".toList] (.obj describedFile) [.obj describedFile] ∧ DistinctKeys (.obj describedFile) ∧
      (∀ rsc ∈ tabular [.obj describedFile], PlainResource rsc) ∧ tabular [.obj describedFile] ≠ [] := by
  refine ⟨?_, .file (by decide), distinct_of_bool (by decide +kernel), ?_, ?_⟩
  · unfold csvwdescribe
    rw [show describeArgs (some ";".toList) ["a.txt".toList] = _ from rfl]
    rw [show run (describeArgs (some ";".toList) ["a.txt".toList]) = _ from hr]
    exact ⟨_, rfl⟩
  · rw [described_tabular]
    intro rsc h
    rw [List.mem_singleton.1 h]
    exact described_plain
  · rw [described_tabular]; simp

/-- The group for a package without resources, and its JSON. -/
def noTables : GroupD :=
  { like := { props := { common := [("dc:replaces".toList, .str "{}".toList)],
                         atProps := [("context".toList, .str "http://www.w3.org/ns/csvw".toList)] } } }
def noTablesJson : List (Str × J) :=
  [("@context".toList, .str "http://www.w3.org/ns/csvw".toList), ("dc:replaces".toList, .str "{}".toList)]

/-- **C83 does not hold if there is no CSV file with a schema**: the document has no tables, and cannot be opened. -/
theorem C83_violated_no_tables (run : List Str → Res J) (hr : ∀ a, run a = .ok (.obj [("resources".toList, .arr [])])) :
    ∃ j, csvwdescribe ext x other (fun _ => .ok ()) (fun _ => "{}".toList) run none ["a.pdf".toList, "b.pdf".toList] = .ok j ∧
      ∀ o w url, isUrl url = false → w.getJson url = .ok j →
        Opened.init ext x other (fun _ => .ok ()) o w url none = .error .valueError := by
  have h1 : toTablegroup ext x other (fun _ => .ok ()) (fun _ => "{}".toList)
    (describePackage ["a.pdf".toList, "b.pdf".toList] (.obj [("resources".toList, .arr [])])) = .ok noTables := rfl
  have h2 : noTables.asdict ext true = .ok (.obj noTablesJson) := rfl
  have h3 : TableD.fromvalue ext x other (fun _ => .ok ()) (.obj noTablesJson) = .error .valueError := rfl
  refine ⟨.obj noTablesJson, ?_, ?_⟩
  · unfold csvwdescribe
    rw [hr]
    simp only [h1, h2]
  · intro o w url hu hj
    have hd : Opened.document w url none = .ok (.obj noTablesJson, false) := by
      unfold Opened.document
      rw [show (nonEmpty (none : Option Str)).getD url = url from rfl, hj]
    have hc : hasContext noTablesJson = .ok true := by decide +kernel
    have ht : Dict.get "tables".toList noTablesJson = none := by decide +kernel
    unfold Opened.init
    simp only [hd, hc, Opened.describe, ht, Opened.table, hu, Bool.false_eq_true, if_false, h3]
    rfl

/-! ## Opening what was written -/

/-- The example of C54 meets the hypotheses of `C83_reopen`. -/
theorem C83_example_reopen : ∃ md, groupExample = .obj md ∧ DistinctKeys (.obj md) ∧
    GroupD.fromvalue ext x other (fun _ => .ok ()) (.obj md) = .ok groupRead ∧ LikeWritable ext groupRead.like ∧
    (∀ t ∈ groupRead.tables, LikeWritable ext t.like) ∧ DeclaresCsvw md ∧ groupRead.tables ≠ [] := by
  refine ⟨_, rfl, distinct_of_bool (by decide +kernel), rfl, ?_, ?_, ?_, by simp [groupRead]⟩
  · refine ⟨plainWritable rfl rfl rfl rfl, plainWritable rfl rfl rfl rfl, (by intro c hc; cases hc), ?_⟩
    intro d hd; cases hd; exact .inr ⟨_, rfl⟩
  · intro t ht
    rcases List.mem_cons.1 ht with rfl | ht
    · refine ⟨plainWritable rfl rfl rfl rfl, plainWritable rfl rfl rfl rfl, ?_, ?_⟩
      · intro c hc
        rcases List.mem_cons.1 hc with rfl | hc
        · exact plainWritable rfl rfl rfl rfl
        · cases hc
      · intro d hd; cases hd; exact .inr ⟨_, rfl⟩
    · cases ht
  · exact .item _ rfl (List.mem_cons_self ..)

end

end Csvw.Props

import Verif.Model.CsvLib
/-!
# The lines of a text
-/

namespace Csvw.Spec

/-- No line break in `s`. -/
def OneLine (s : Str) : Prop := '\n' ∉ s ∧ '\r' ∉ s

instance (s : Str) : Decidable (OneLine s) := by unfold OneLine; infer_instance

/-- The lines of a text: without and with the characters which end them. -/
inductive LinesOf : Str → List Str → List Str → Prop where
  | nil : LinesOf [] [] []
  /-- a last line which is not ended -/
  | last {l : Str} : l ≠ [] → OneLine l → LinesOf l [l] [l]
  | lf {l text : Str} {ls ks : List Str} : OneLine l → LinesOf text ls ks → LinesOf (l ++ '\n' :: text) (l :: ls) ((l ++ ['\n']) :: ks)
  | crlf {l text : Str} {ls ks : List Str} : OneLine l → LinesOf text ls ks → LinesOf (l ++ '\r' :: '\n' :: text) (l :: ls) ((l ++ ['\r', '\n']) :: ks)
  | cr {l text : Str} {ls ks : List Str} : OneLine l → text.head? ≠ some '\n' → LinesOf text ls ks →
      LinesOf (l ++ '\r' :: text) (l :: ls) ((l ++ ['\r']) :: ks)

/-- A cell without its line breaks. -/
def withoutBreaks (s : Str) : Str := s.filter fun c => c ≠ '\n' && c ≠ '\r'

end Csvw.Spec

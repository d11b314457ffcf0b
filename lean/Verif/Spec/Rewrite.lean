import Verif.Py.Basic
/-! # Specification vocabulary for rewriting files -/

namespace Csvw.Spec

/-- A (stateful, possibly failing) visitor `vis` turns the rows, numbered from `i`, into the rows `out`. -/
inductive Visits {σ : Type} (vis : σ → Nat → List Str → Res (σ × Option (List (Option Str)))) :
    σ → Nat → List (List Str) → σ → List (List Str) → Prop where
  | nil {st : σ} {i : Nat} : Visits vis st i [] st []
  | drop {st st' st'' : σ} {i : Nat} {r : List Str} {rs out : List (List Str)} :
      vis st i r = .ok (st', none) → Visits vis st' (i + 1) rs st'' out → Visits vis st i (r :: rs) st'' out
  | keep {st st' st'' : σ} {i : Nat} {r : List Str} {cells : List (Option Str)} {rs out : List (List Str)} :
      vis st i r = .ok (st', some cells) → Visits vis st' (i + 1) rs st'' out →
      Visits vis st i (r :: rs) st'' (cells.map (·.getD []) :: out)

end Csvw.Spec

import Verif.Py.Basic
/-!
# JSON values

Python objects as produced by `json.load`: what the metadata classes of `/repo` are constructed from.
Floats are opaque (only their textual form is kept); objects are association lists in insertion order.
-/

namespace Csvw

/-- A JSON value. -/
inductive J where
  | null
  | bool (b : Bool)
  | int (i : Int)
  | flt (r : Str)
  | str (s : Str)
  | arr (l : List J)
  | obj (m : List (Str × J))
  deriving Repr, Inhabited

namespace J

mutual
/-- Decision procedure for equality (`==` on values of the same Python type). -/
def decEq : (a b : J) → Decidable (a = b)
  | .null, .null => isTrue rfl
  | .bool a, .bool b => if h : a = b then isTrue (by rw [h]) else isFalse (by simpa using h)
  | .int a, .int b => if h : a = b then isTrue (by rw [h]) else isFalse (by simpa using h)
  | .flt a, .flt b => if h : a = b then isTrue (by rw [h]) else isFalse (by simpa using h)
  | .str a, .str b => if h : a = b then isTrue (by rw [h]) else isFalse (by simpa using h)
  | .arr a, .arr b => match decEqList a b with
    | isTrue h => isTrue (by rw [h])
    | isFalse h => isFalse (by simpa using h)
  | .obj a, .obj b => match decEqObj a b with
    | isTrue h => isTrue (by rw [h])
    | isFalse h => isFalse (by simpa using h)
  | .null, .bool _ | .null, .int _ | .null, .flt _ | .null, .str _ | .null, .arr _ | .null, .obj _
  | .bool _, .null | .bool _, .int _ | .bool _, .flt _ | .bool _, .str _ | .bool _, .arr _ | .bool _, .obj _
  | .int _, .null | .int _, .bool _ | .int _, .flt _ | .int _, .str _ | .int _, .arr _ | .int _, .obj _
  | .flt _, .null | .flt _, .bool _ | .flt _, .int _ | .flt _, .str _ | .flt _, .arr _ | .flt _, .obj _
  | .str _, .null | .str _, .bool _ | .str _, .int _ | .str _, .flt _ | .str _, .arr _ | .str _, .obj _
  | .arr _, .null | .arr _, .bool _ | .arr _, .int _ | .arr _, .flt _ | .arr _, .str _ | .arr _, .obj _
  | .obj _, .null | .obj _, .bool _ | .obj _, .int _ | .obj _, .flt _ | .obj _, .str _ | .obj _, .arr _ =>
    isFalse (by simp)
def decEqList : (a b : List J) → Decidable (a = b)
  | [], [] => isTrue rfl
  | [], _ :: _ => isFalse (by simp)
  | _ :: _, [] => isFalse (by simp)
  | x :: xs, y :: ys => match decEq x y, decEqList xs ys with
    | isTrue h, isTrue h' => isTrue (by rw [h, h'])
    | isFalse h, _ => isFalse (by simp [h])
    | _, isFalse h => isFalse (by simp [h])
def decEqObj : (a b : List (Str × J)) → Decidable (a = b)
  | [], [] => isTrue rfl
  | [], _ :: _ => isFalse (by simp)
  | _ :: _, [] => isFalse (by simp)
  | (k, x) :: xs, (l, y) :: ys =>
    if hk : k = l then
      match decEq x y, decEqObj xs ys with
      | isTrue h, isTrue h' => isTrue (by rw [hk, h, h'])
      | isFalse h, _ => isFalse (by simp [h])
      | _, isFalse h => isFalse (by simp [h])
    else isFalse (by simp [hk])
end

instance : DecidableEq J := decEq

end J
end Csvw

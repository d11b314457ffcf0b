import Verif.Py.Basic
/-!
# hexadecimal and base64 encoding

Not part of `/repo`: `binascii.hexlify/unhexlify/b2a_base64/a2b_base64` and `base64.encodebytes/decodebytes`
(CPython 3.11, non-strict mode), which `datatypes.hexBinary` and `datatypes.base64Binary` use.
-/

namespace Csvw.Bin

/-- An upper case hexadecimal digit. -/
def hexChar (n : Nat) : Char := if n < 10 then Char.ofNat (48 + n) else Char.ofNat (55 + n)

/-- `binascii.hexlify(b).decode().upper()`. -/
def hexlify : List UInt8 → Str
  | [] => []
  | b :: bs => hexChar (b.toNat / 16) :: hexChar (b.toNat % 16) :: hexlify bs

/-- The value of a hexadecimal digit. -/
def hexVal (c : Char) : Option Nat :=
  let n := c.toNat
  if 48 ≤ n ∧ n ≤ 57 then some (n - 48)
  else if 65 ≤ n ∧ n ≤ 70 then some (n - 55)
  else if 97 ≤ n ∧ n ≤ 102 then some (n - 87)
  else none

/-- `binascii.unhexlify`; `none`: `binascii.Error` (odd length or non-hexadecimal digit). -/
def unhexlify : Str → Option (List UInt8)
  | [] => some []
  | [_] => none
  | a :: b :: r => match hexVal a, hexVal b, unhexlify r with
    | some x, some y, some bs => some (UInt8.ofNat (16 * x + y) :: bs)
    | _, _, _ => none

/-- The base64 alphabet. -/
def b64Char (n : Nat) : Char :=
  if n < 26 then Char.ofNat (65 + n) else if n < 52 then Char.ofNat (71 + n) else if n < 62 then Char.ofNat (n - 4)
  else if n = 62 then '+' else '/'

/-- Position in the base64 alphabet. -/
def b64Val (c : Char) : Option Nat :=
  let n := c.toNat
  if 65 ≤ n ∧ n ≤ 90 then some (n - 65)
  else if 97 ≤ n ∧ n ≤ 122 then some (n - 71)
  else if 48 ≤ n ∧ n ≤ 57 then some (n + 4)
  else if c = '+' then some 62
  else if c = '/' then some 63
  else none

/-- `binascii.b2a_base64` without the newline. -/
def b2a : List UInt8 → Str
  | [] => []
  | [a] => [b64Char (a.toNat / 4), b64Char (a.toNat % 4 * 16), '=', '=']
  | [a, b] => [b64Char (a.toNat / 4), b64Char (a.toNat % 4 * 16 + b.toNat / 16), b64Char (b.toNat % 16 * 4), '=']
  | a :: b :: c :: r =>
    b64Char (a.toNat / 4) :: b64Char (a.toNat % 4 * 16 + b.toNat / 16) ::
    b64Char (b.toNat % 16 * 4 + c.toNat / 64) :: b64Char (c.toNat % 64) :: b2a r

/-- Chunks of `n` elements (fuel: the length). -/
def chunks {α : Type} (n : Nat) : Nat → List α → List (List α)
  | _, [] => []
  | 0, _ => []
  | k + 1, l => l.take n :: chunks n k (l.drop n)

/-- `base64.encodebytes(b).decode()`: lines of 57 bytes, each ended by a newline. -/
def encodebytes (b : List UInt8) : Str := ((chunks 57 b.length b).map fun c => b2a c ++ ['\n']).flatten

/-- State of `binascii.a2b_base64`: position in the quad, left over bits, number of pads. -/
structure A2b where
  quad : Nat := 0
  left : Nat := 0
  pads : Nat := 0
  deriving Repr, DecidableEq

/-- The loop of `binascii.a2b_base64` (non-strict); `none`: `binascii.Error`. -/
def a2bGo : A2b → Str → Option (List UInt8)
  | st, [] => if st.quad = 0 then some [] else none
  | st, c :: cs =>
    if c = '=' then
      if 2 ≤ st.quad then
        if 4 ≤ st.quad + (st.pads + 1) then some [] else a2bGo { st with pads := st.pads + 1 } cs
      else a2bGo st cs
    else match b64Val c with
      | none => a2bGo st cs
      | some v =>
        match st.quad with
        | 0 => a2bGo ⟨1, v, 0⟩ cs
        | 1 => (a2bGo ⟨2, v % 16, 0⟩ cs).map (UInt8.ofNat (st.left * 4 + v / 16) :: ·)
        | 2 => (a2bGo ⟨3, v % 4, 0⟩ cs).map (UInt8.ofNat (st.left * 16 + v / 4) :: ·)
        | _ => (a2bGo ⟨0, 0, 0⟩ cs).map (UInt8.ofNat (st.left * 64 + v) :: ·)

/-- `base64.decodebytes`. -/
def decodebytes (s : Str) : Option (List UInt8) := a2bGo {} s

/-- `bytes(s, encoding='ascii')` raises `UnicodeEncodeError`? -/
def isAscii (s : Str) : Bool := s.all fun c => c.toNat < 128

end Csvw.Bin

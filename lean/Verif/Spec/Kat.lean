import Mathlib.Data.List.Infix
import Verif.C.Types

/-! # Texts with hexadecimal numbers

The specification of what the functions of the known answer tests (/repo/tests/PQCtestKAT_kem640.c and
the five programs like it) are to read: independent of the model. -/

namespace Frodo.Spec

/-- A text as bytes. -/
def txt (l : List Char) : List U8 := l.map fun c => BitVec.ofNat 8 c.toNat

/-- The value of a hexadecimal digit. -/
def hexVal (c : U8) : Option Nat :=
  if 48 ≤ c.toNat ∧ c.toNat ≤ 57 then some (c.toNat - 48)
  else if 65 ≤ c.toNat ∧ c.toNat ≤ 70 then some (c.toNat - 55)
  else if 97 ≤ c.toNat ∧ c.toNat ≤ 102 then some (c.toNat - 87)
  else none

/-- Is the byte a hexadecimal digit? -/
def isHex (c : U8) : Bool := (hexVal c).isSome

/-- The number that hexadecimal digits denote. -/
def hexNum (l : List U8) : Nat := l.foldl (fun v c => 16 * v + (hexVal c).getD 0) 0

/-- The number that bytes represent, the first one with the highest weight. -/
def beVal (l : List U8) : Nat := l.foldl (fun v b => 256 * v + b.toNat) 0

/-- A decimal digit. -/
def isDigit (c : U8) : Bool := decide (48 ≤ c.toNat ∧ c.toNat ≤ 57)

/-- The number that decimal digits denote. -/
def decNum (l : List U8) : Nat := l.foldl (fun v c => 10 * v + (c.toNat - 48)) 0

/-- The two capital hexadecimal digits of a byte. -/
def hexByte (b : U8) : List U8 :=
  let d := fun n => nthDigit n
  [d (b.toNat / 16), d (b.toNat % 16)]
where
  /-- A capital hexadecimal digit. -/
  nthDigit (n : Nat) : U8 := if n < 10 then BitVec.ofNat 8 (48 + n) else BitVec.ofNat 8 (55 + n)

/-- Bytes in hexadecimal. -/
def hexText (l : List U8) : List U8 := l.flatMap hexByte

/-- What comes after the first occurrence of `m` in a text. -/
def after (m : List U8) (f : List U8) : Option (List U8) :=
  if m <+: f then some (f.drop m.length)
  else match f with
    | [] => none
    | _ :: f => after m f

/-- The number that follows: characters other than hexadecimal digits are skipped, up to the end of the
line at most. -/
def skipTo (t : List U8) : List U8 := t.dropWhile fun c => !isHex c && c != 10

end Frodo.Spec

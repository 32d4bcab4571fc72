import Verif.C.Types

/-! # Bit string specification of packing (FrodoKEM specification, section 2.2.3 "Matrix packing")

Independent of the C code: elements are written most significant bit first, one after the other. -/

namespace Frodo.Spec

/-- The `d` low bits of `x`, most significant first. -/
def bitsOf (d x : Nat) : List Bool := (List.range d).map fun i => x.testBit (d - 1 - i)

/-- The number with the given bits, most significant first. -/
def natOf (bs : List Bool) : Nat := bs.foldl (fun a b => 2 * a + b.toNat) 0

/-- `len` numbers of `d` bits each read from a bit string, missing bits being zero. -/
def chunks (d len : Nat) (s : List Bool) : List Nat :=
  (List.range len).map fun i => natOf ((List.range d).map fun l => s.getD (d * i + l) false)

/-- The bit string of a vector of 16-bit words, `d` bits each. -/
def stream16 (d : Nat) (v : List U16) : List Bool := v.flatMap fun x => bitsOf d x.toNat

/-- The bit string of a byte string. -/
def stream8 (v : List U8) : List Bool := v.flatMap fun x => bitsOf 8 x.toNat

/-- Packing with `d` bits per element into `outlen` bytes. -/
def pack (d outlen : Nat) (v : List U16) : List U8 :=
  (chunks 8 outlen (stream16 d v)).map (BitVec.ofNat 8)

/-- Unpacking `outlen` elements of `d` bits. -/
def unpack (d outlen : Nat) (v : List U8) : List U16 :=
  (chunks d outlen (stream8 v)).map (BitVec.ofNat 16)

end Frodo.Spec

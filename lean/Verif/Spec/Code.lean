import Verif.Spec.Keccak
import Verif.Spec.Matrix
import Mathlib.Data.Rat.Floor
import Mathlib.Algebra.BigOperators.Group.Finset.Basic

/-! # Encoding of messages (FrodoKEM specification, section 2.2.1 "Matrix encoding of bit strings")

`q = 2^D`, `B` bits per entry. -/

namespace Frodo.Spec

/-- `ec(k) = k * q / 2^B`. -/
def ec (D B k : Nat) : Nat := k * 2 ^ D / 2 ^ B

/-- `dc(c) = ⌊c * 2^B / q + 1/2⌋ mod 2^B`. -/
def dc (D B c : Nat) : Nat := (⌊(c : ℚ) * 2 ^ B / 2 ^ D + 1 / 2⌋ % 2 ^ B).toNat

/-- The number `∑ f(l) 2^l`, `l < B`. -/
def bitsVal (B : Nat) (f : Nat → Bool) : Nat := ∑ l ∈ Finset.range B, (f l).toNat * 2 ^ l

/-- The `t`-th group of `B` bits of a message, as a number. -/
def msgPart (B : Nat) (mu : List U8) (t : Nat) : Nat :=
  bitsVal B fun l => (bytesToBits mu).getD (t * B + l) false

/-- Frodo.Encode: the `m × n` matrix whose entries in row-major order are `ec` of the successive
groups of `B` bits of the message. -/
def encode (D B m n : Nat) (mu : List U8) : Matrix (Fin m) (Fin n) (ZMod (2 ^ D)) :=
  Matrix.of fun i j => (ec D B (msgPart B mu (i * n + j)) : ZMod (2 ^ D))

/-- Frodo.Decode: `B` bits for each entry in row-major order, least significant first. -/
def decode {D m n : Nat} (B : Nat) (K : Matrix (Fin m) (Fin n) (ZMod (2 ^ D))) : List U8 :=
  bitsToBytes (B * (m * n) / 8) ((List.finRange m).flatMap fun i => (List.finRange n).flatMap fun j =>
    (List.range B).map fun l => (dc D B (K i j).val).testBit l)

/-- `z` is represented by an integer of the half-open interval `[-q/2^(B+1), q/2^(B+1))`. -/
def tolerable (D B : Nat) (z : ZMod (2 ^ D)) : Prop :=
  ∃ e : ℤ, -(2 ^ D : ℤ) ≤ 2 ^ (B + 1) * e ∧ 2 ^ (B + 1) * e < 2 ^ D ∧ (e : ZMod (2 ^ D)) = z

end Frodo.Spec

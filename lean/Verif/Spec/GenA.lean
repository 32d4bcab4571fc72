import Verif.Spec.Aes
import Verif.Spec.Keccak
import Mathlib.Data.Matrix.Mul
import Mathlib.Data.ZMod.Basic

/-! # Generation of the matrix A (FrodoKEM specification, Frodo.Gen) -/

namespace Frodo.Spec

/-- The two ways to generate `A`. -/
inductive MatGen where
  | aes | shake
  deriving DecidableEq, Repr

/-- The 16-bit little-endian encoding of an integer. -/
def le16 (x : Nat) : List U8 := [BitVec.ofNat 8 x, BitVec.ofNat 8 (x / 256)]

/-- The integer at position `k` of a string of 16-bit little-endian integers. -/
def word16 (c : List U8) (k : Nat) : Nat := (nth c (2 * k)).toNat + 256 * (nth c (2 * k + 1)).toNat

/-- Row `i` of `A` as integers before reduction modulo `q`, entry `j`.
* AES128: the block `⟨i⟩ || ⟨8⌊j/8⌋⟩ || 0^96` is encrypted with key `seedA` to the eight entries
  `8⌊j/8⌋, …, 8⌊j/8⌋ + 7`.
* SHAKE128: row `i` is the output of SHAKE128 on `⟨i⟩ || seedA`. -/
def genWord (g : MatGen) (n : Nat) (seedA : List U8) (i j : Nat) : Nat :=
  match g with
  | .aes => word16 (AES128 seedA (le16 i ++ le16 (8 * (j / 8)) ++ List.replicate 12 0)) (j % 8)
  | .shake => word16 (SHAKE128 (le16 i ++ seedA) (2 * n)) j

/-- Frodo.Gen: the matrix `A` modulo `q = 2^D`. -/
def genA (g : MatGen) (D n : Nat) (seedA : List U8) : Matrix (Fin n) (Fin n) (ZMod (2 ^ D)) :=
  Matrix.of fun i j => (genWord g n seedA i j : ZMod (2 ^ D))

end Frodo.Spec

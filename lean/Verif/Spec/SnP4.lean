import Verif.C.Nth
import Verif.C.Types
import Verif.Spec.Keccak

/-! # Four Keccak states in one array: what the byte and lane interface means

Specification of the interface of /repo/src/sha3/keccak4x/KeccakP-1600-times4-SnP.h (functionality
"PlSnP" of the Keccak code package): four independent states of 200 bytes, permuted in parallel. -/

namespace Frodo.Spec

/-- Byte `o` of state `k` in the array of the four interleaved states: lane `o / 8` of state `k` is word
`4 * (o / 8) + k`, and lanes are little-endian (/repo/src/sha3/keccak4x/KeccakP-1600-times4-SnP.h:34-35). -/
def stByte (ss : List U64) (k o : Nat) : U8 := (nth ss (4 * (o / 8) + k)).extractLsb' (8 * (o % 8)) 8

/-- State `k` as a string of 200 bytes (/repo/src/sha3/keccak4x/KeccakP-1600-times4-SnP.h:27). -/
def instBytes (ss : List U64) (k : Nat) : List U8 := (List.range 200).map (stByte ss k)

/-- Keccak-p[1600, nr] (FIPS 202, 3.3): the last `nr` of the 24 rounds of Keccak-f[1600]. -/
def keccakPn (nr : Nat) (A : KState) : KState := (List.range nr).foldl (fun A i => Rnd A (24 - nr + i)) A

/-- Keccak-p[1600, nr] on strings of 1600 bits. -/
def keccakPbits (nr : Nat) (S : List Bool) : List Bool := bitsOfState (keccakPn nr (stateOfBits S))

/-- Absorb one block of bytes: exclusive or into the beginning of the state, then Keccak-p[1600, nr]
(FIPS 202, algorithm 8, step 6). -/
def absorbBlock (nr : Nat) (S : List Bool) (B : List U8) : List Bool :=
  keccakPbits nr (xorBits S (bytesToBits B ++ List.replicate (1600 - 8 * B.length) false))

/-- Absorb blocks, one after the other. -/
def absorbBlocks (nr : Nat) (S : List Bool) (Bs : List (List U8)) : List Bool :=
  Bs.foldl (absorbBlock nr) S

/-- The number of blocks absorbed by the fast loop: block `j` needs `need` bytes from `j * step` on
(/repo/src/sha3/keccak4x/KeccakP-1600-times4-SIMD256.c:880, 910). -/
def fastBlocks (need step len : Nat) : Nat := if len < need then 0 else (len - need) / step + 1

end Frodo.Spec

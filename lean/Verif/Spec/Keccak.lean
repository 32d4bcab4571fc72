import Verif.C.Types

/-! # FIPS 202 (SHA-3 standard): Keccak-p[1600, 24], sponge, SHAKE

Bit-level transcription of the standard, independent of the C code. -/

namespace Frodo.Spec

/-- State array `A[x, y, z]` (FIPS 202, 3.1). -/
abbrev KState := Fin 5 → Fin 5 → Fin 64 → Bool

/-- Algorithm 1, step 1 and 2: parities `C[x, z]`. -/
def thetaC (A : KState) (x : Fin 5) (z : Fin 64) : Bool :=
  A x 0 z ^^ A x 1 z ^^ A x 2 z ^^ A x 3 z ^^ A x 4 z

/-- Algorithm 1: theta. -/
def theta (A : KState) : KState := fun x y z =>
  A x y z ^^ (thetaC A (x - 1) z ^^ thetaC A (x + 1) (z - 1))

/-- Algorithm 2: rho.  The lanes `(x, y)` are visited along the walk `(x, y) := (y, 2x + 3y)`
starting from `(1, 0)`. -/
def rho (A : KState) : KState :=
  ((List.range 24).foldl (fun (st : KState × Fin 5 × Fin 5) t =>
      let (A', x, y) := st
      (fun x' y' z => if x' = x ∧ y' = y then A x y (z - Fin.ofNat 64 ((t + 1) * (t + 2) / 2))
        else A' x' y' z,
       y, 2 * x + 3 * y)) (A, 1, 0)).1

/-- Algorithm 3: pi. -/
def pi (A : KState) : KState := fun x y z => A (x + 3 * y) x z

/-- Algorithm 4: chi. -/
def chi (A : KState) : KState := fun x y z => A x y z ^^ ((A (x + 1) y z ^^ true) && A (x + 2) y z)

/-- Algorithm 5: rc, a linear feedback shift register on eight bits. -/
def rc (t : Nat) : Bool :=
  let step (R : List Bool) : List Bool :=
    let R := false :: R
    let b := R.getD 8 false
    let R := R.set 0 (R.getD 0 false ^^ b)
    let R := R.set 4 (R.getD 4 false ^^ b)
    let R := R.set 5 (R.getD 5 false ^^ b)
    let R := R.set 6 (R.getD 6 false ^^ b)
    R.take 8
  (Nat.repeat step (t % 255) [true, false, false, false, false, false, false, false]).getD 0 false

/-- Algorithm 6, steps 2 and 3: the round constant of round `ir`. -/
def RC (ir : Nat) : List Bool :=
  (List.range 7).foldl (fun R j => R.set (2 ^ j - 1) (rc (j + 7 * ir))) (List.replicate 64 false)

/-- Algorithm 6: iota. -/
def iota (A : KState) (ir : Nat) : KState := fun x y z =>
  if x = 0 ∧ y = 0 then A x y z ^^ (RC ir).getD z false else A x y z

/-- A round (FIPS 202, 3.3). -/
def Rnd (A : KState) (ir : Nat) : KState := iota (chi (pi (rho (theta A)))) ir

/-- Keccak-p[1600, 24] on state arrays (Algorithm 7). -/
def keccakP (A : KState) : KState := (List.range 24).foldl Rnd A

/-- From a string to a state array (FIPS 202, 3.1.2). -/
def stateOfBits (S : List Bool) : KState := fun x y z => S.getD (64 * (5 * y + x) + z) false

/-- From a state array to a string (FIPS 202, 3.1.3). -/
def bitsOfState (A : KState) : List Bool :=
  (List.range 1600).map fun i =>
    A (Fin.ofNat 5 (i / 64)) (Fin.ofNat 5 (i / 64 / 5)) (Fin.ofNat 64 i)

/-- Keccak-p[1600, 24] on strings of 1600 bits (Algorithm 7) = KECCAK-f[1600]. -/
def keccakF (S : List Bool) : List Bool := bitsOfState (keccakP (stateOfBits S))

/-- Bitwise exclusive or of strings. -/
def xorBits (a b : List Bool) : List Bool := List.zipWith (· ^^ ·) a b

/-- Algorithm 9: pad10*1(x, m). -/
def pad101 (x m : Nat) : List Bool :=
  [true] ++ List.replicate ((-(m : Int) - 2) % (x : Int)).toNat false ++ [true]

/-- Algorithm 8, step 6, on the remaining string `P` (whose length is a multiple of `r`). -/
def absorb (f : List Bool → List Bool) (r : Nat) (S P : List Bool) : List Bool :=
  if h : P.length < r ∨ r = 0 then S
  else absorb f r (f (xorBits S (P.take r ++ List.replicate (1600 - r) false))) (P.drop r)
  termination_by P.length
  decreasing_by simp only [List.length_drop]; omega

/-- Algorithm 8, steps 7 to 10: `d` output bits. -/
def squeeze (f : List Bool → List Bool) (r : Nat) (S : List Bool) (d : Nat) : List Bool :=
  if h : d ≤ r ∨ r = 0 then (S.take r).take d
  else S.take r ++ squeeze f r (f S) (d - r)
  termination_by d
  decreasing_by omega

/-- Algorithm 8: SPONGE[f, pad10*1, r](N, d). -/
def sponge (f : List Bool → List Bool) (r : Nat) (N : List Bool) (d : Nat) : List Bool :=
  squeeze f r (absorb f r (List.replicate 1600 false) (N ++ pad101 r N.length)) d

/-- KECCAK[c](N, d) (FIPS 202, 5.2). -/
def keccak (c : Nat) (N : List Bool) (d : Nat) : List Bool := sponge keccakF (1600 - c) N d

/-- The bits of a byte string, least significant bit of each byte first (FIPS 202, B.1). -/
def bytesToBits (M : List U8) : List Bool :=
  M.flatMap fun b => (List.range 8).map fun i => b.getLsbD i

/-- The byte with the given bits, least significant first. -/
def byteOfBits (bs : List Bool) : U8 :=
  BitVec.ofNat 8 ((List.range 8).foldl (fun a i => a + (bs.getD i false).toNat * 2 ^ i) 0)

/-- A byte string of length `n` from its bits (FIPS 202, B.1). -/
def bitsToBytes (n : Nat) (S : List Bool) : List U8 :=
  (List.range n).map fun k => byteOfBits (S.drop (8 * k))

/-- SHAKE128(M, 8n) (FIPS 202, 6.2). -/
def SHAKE128 (M : List U8) (n : Nat) : List U8 :=
  bitsToBytes n (keccak 256 (bytesToBits M ++ [true, true] ++ [true, true]) (8 * n))

/-- SHAKE256(M, 8n) (FIPS 202, 6.2). -/
def SHAKE256 (M : List U8) (n : Nat) : List U8 :=
  bitsToBytes n (keccak 512 (bytesToBits M ++ [true, true] ++ [true, true]) (8 * n))

end Frodo.Spec

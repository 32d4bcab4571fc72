import Verif.Spec.Kem

/-! # Decryption failures (FrodoKEM specification, section 2.2.7 "Correctness of IND-CPA PKE") -/

namespace Frodo.Spec

variable (K : KemParams)

/-- Bytes of the string from which key generation samples `Sᵀ` and `E`. -/
def KemParams.lenR : Nat := 2 * K.n * K.nbar * 2

/-- Bytes of the string from which encryption samples `S'`, `E'` and `E''`. -/
def KemParams.lenR' : Nat := (2 * K.n + K.nbar) * K.nbar * 2

/-- The accumulated noise `S'E + E'' - E'S` for the strings `r` of key generation and `r'` of
encryption. -/
def noiseOf (r r' : List U8) : Matrix (Fin K.nbar) (Fin K.nbar) ℤ :=
  sampleMatrix K.T K.nbar K.n r' 0 * sampleMatrix K.T K.n K.nbar r (K.n * K.nbar)
    + sampleMatrix K.T K.nbar K.nbar r' (2 * K.n * K.nbar)
    - sampleMatrix K.T K.nbar K.n r' (K.n * K.nbar) * (sampleMatrix K.T K.nbar K.n r 0).transpose

/-- Every entry lies in `[-q/2^(B+1), q/2^(B+1))`. -/
def Within {m n : Nat} (N : Matrix (Fin m) (Fin n) ℤ) : Prop :=
  ∀ i j, -(2 ^ K.D : ℤ) ≤ 2 ^ (K.B + 1) * N i j ∧ 2 ^ (K.B + 1) * N i j < 2 ^ K.D

/-- What the holder of the secret key decodes from an encryption of `mu` (Algorithms 9 to 11 of the
specification, without packing) for the matrix `A` and the strings `r` and `r'`. -/
def transmit (A : Matrix (Fin K.n) (Fin K.n) (ZMod (2 ^ K.D))) (r r' mu : List U8) : List U8 :=
  let S := (modQ K.D (sampleMatrix K.T K.nbar K.n r 0)).transpose
  let E := modQ K.D (sampleMatrix K.T K.n K.nbar r (K.n * K.nbar))
  let S' := modQ K.D (sampleMatrix K.T K.nbar K.n r' 0)
  let E' := modQ K.D (sampleMatrix K.T K.nbar K.n r' (K.n * K.nbar))
  let E'' := modQ K.D (sampleMatrix K.T K.nbar K.nbar r' (2 * K.n * K.nbar))
  let B := A * S + E
  let B' := S' * A + E'
  let C := S' * B + E'' + encode K.D K.B K.nbar K.nbar mu
  decode K.B (C - B' * S)

end Frodo.Spec

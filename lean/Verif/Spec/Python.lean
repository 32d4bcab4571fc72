import Verif.Spec.Kem

/-! # Decapsulation with another rounding

`round` of Python rounds halves to the even neighbour, where the specification rounds them up. -/

namespace Frodo.Spec

/-- `c * 2^B / q` rounded to the nearest integer, halves to the even neighbour, modulo `2^B`. -/
def dcEven (D B c : Nat) : Nat :=
  let x : ℚ := (c : ℚ) * 2 ^ B / 2 ^ D
  let k := ⌊x + 1 / 2⌋
  ((if x + 1 / 2 = k ∧ k % 2 = 1 then k - 1 else k) % 2 ^ B).toNat

/-- Frodo.Decode with `dcEven` in place of `dc`. -/
def decodeEven {D m n : Nat} (B : Nat) (K : Matrix (Fin m) (Fin n) (ZMod (2 ^ D))) : List U8 :=
  bitsToBytes (B * (m * n) / 8) ((List.finRange m).flatMap fun i => (List.finRange n).flatMap fun j =>
    (List.range B).map fun l => (dcEven D B (K i j).val).testBit l)

/-- `c * 2^B / q` lies half-way between an even integer and the next one. -/
def halfAboveEven (D B c : Nat) : Prop := ∃ k : Nat, c * 2 ^ (B + 1) = (4 * k + 1) * 2 ^ D

/-- `z` is represented by an integer of the closed interval `[-q/2^(B+1), q/2^(B+1)]` if `k` is even and
of the open interval if `k` is odd. -/
def tolerableEven (D B k : Nat) (z : ZMod (2 ^ D)) : Prop :=
  ∃ e : ℤ, (e : ZMod (2 ^ D)) = z ∧
    (k % 2 = 0 → -(2 ^ D : ℤ) ≤ 2 ^ (B + 1) * e ∧ 2 ^ (B + 1) * e ≤ 2 ^ D) ∧
    (k % 2 = 1 → -(2 ^ D : ℤ) < 2 ^ (B + 1) * e ∧ 2 ^ (B + 1) * e < 2 ^ D)

variable (K : KemParams)

/-- The matrix `M = C - B'S` of decapsulation (Algorithm 14, step 3). -/
def decapsM (ct : List U8) (St : Matrix (Fin K.nbar) (Fin K.n) (ZMod (2 ^ K.D))) :
    Matrix (Fin K.nbar) (Fin K.nbar) (ZMod (2 ^ K.D)) :=
  (parseCt K ct).2 - (parseCt K ct).1 * St.transpose

/-- Algorithm 14 with the decoder `dec`. -/
def decapsWith (dec : Matrix (Fin K.nbar) (Fin K.nbar) (ZMod (2 ^ K.D)) → List U8)
    (ct sk : List U8) : List U8 :=
  let sk := parseSk K sk
  let mu' := dec (decapsM K ct sk.St)
  let (seedSE', k') := deriveSeeds K sk.pkh mu'
  if parseCt K ct = encrypt K sk.pk mu' seedSE' then K.shake (ct ++ k') K.len
  else K.shake (ct ++ sk.s) K.len

end Frodo.Spec

import Verif.Spec.Aes

/-! # FIPS 197 (AES), decryption

Transcription of section 5.3 of the standard (2001 edition), independent of the C code, which has no decryption. -/

namespace Frodo.Spec

/-- The inverse of the affine transformation (FIPS 197, 5.3.2). -/
def invAffine (b : U8) : U8 :=
  BitVec.ofNat 8 ((List.range 8).foldl (fun s i =>
    s + (b.getLsbD ((i + 2) % 8) ^^ b.getLsbD ((i + 5) % 8) ^^ b.getLsbD ((i + 7) % 8) ^^
      (0x05#8).getLsbD i).toNat * 2 ^ i) 0)

/-- The inverse S-box (FIPS 197, 5.3.2). -/
def InvSBox (b : U8) : U8 := ginv (invAffine b)

/-- `InvShiftRows` (5.3.1): `s'[r, (c + shift(r)) mod 4] = s[r, c]`. -/
def InvShiftRows (s : AState) : AState := fun r c => s r (c - r)

/-- `InvSubBytes` (5.3.2). -/
def InvSubBytes (s : AState) : AState := fun r c => InvSBox (s r c)

/-- `InvMixColumns` (5.3.3, equation 5.10). -/
def InvMixColumns (s : AState) : AState := fun r c =>
  match r with
  | 0 => gmul 0x0e (s 0 c) ^^^ gmul 0x0b (s 1 c) ^^^ gmul 0x0d (s 2 c) ^^^ gmul 0x09 (s 3 c)
  | 1 => gmul 0x09 (s 0 c) ^^^ gmul 0x0e (s 1 c) ^^^ gmul 0x0b (s 2 c) ^^^ gmul 0x0d (s 3 c)
  | 2 => gmul 0x0d (s 0 c) ^^^ gmul 0x09 (s 1 c) ^^^ gmul 0x0e (s 2 c) ^^^ gmul 0x0b (s 3 c)
  | 3 => gmul 0x0b (s 0 c) ^^^ gmul 0x0d (s 1 c) ^^^ gmul 0x09 (s 2 c) ^^^ gmul 0x0e (s 3 c)

/-- `InvCipher` (Figure 12). -/
def InvCipher (Nr : Nat) (s : AState) (w : Nat → AWord) : AState :=
  let s := AddRoundKey s w Nr
  let s := (List.range (Nr - 1)).reverse.foldl
    (fun s k => InvMixColumns (AddRoundKey (InvSubBytes (InvShiftRows s)) w (k + 1))) s
  AddRoundKey (InvSubBytes (InvShiftRows s)) w 0

/-- Decryption with a key of `Nk` words. -/
def aesInv (Nk : Nat) (key block : List U8) : List U8 :=
  bytesOfState (InvCipher (Nk + 6) (stateOfBytes block) (keyWord Nk key))

end Frodo.Spec

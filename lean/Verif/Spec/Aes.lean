import Verif.C.Types
import Verif.C.Nth

/-! # FIPS 197 (AES), encryption, for 128 and 256 bit keys

Transcription of the standard (2001 edition, sections 3 to 5), independent of the C code. -/

namespace Frodo.Spec

/-- `xtime()` (FIPS 197, 4.2.1): multiplication by `{02}` in GF(2^8). -/
def xtime (b : U8) : U8 := (b <<< 1) ^^^ (if b.getLsbD 7 then 0x1b else 0)

/-- Multiplication in GF(2^8) (FIPS 197, 4.2): the sum of `x^i * a` over the bits `i` of `b`. -/
def gmul (a b : U8) : U8 :=
  (List.range 8).foldl (fun s i => if b.getLsbD i then s ^^^ Nat.repeat xtime i a else s) 0

/-- Powers in GF(2^8). -/
def gpow (a : U8) : Nat → U8
  | 0 => 1
  | n + 1 => gmul (gpow a n) a

/-- Multiplicative inverse in GF(2^8), with `{00}` mapped to itself (FIPS 197, 5.1.1), computed as
`b^254 = b^2 b^4 ... b^128`; that it is the inverse is proved as `gmul_ginv` in Verif.Proof.Aes. -/
def ginv (b : U8) : U8 :=
  let b2 := gmul b b
  let b4 := gmul b2 b2
  let b8 := gmul b4 b4
  let b16 := gmul b8 b8
  let b32 := gmul b16 b16
  let b64 := gmul b32 b32
  let b128 := gmul b64 b64
  gmul b2 (gmul b4 (gmul b8 (gmul b16 (gmul b32 (gmul b64 b128)))))

/-- The affine transformation of the S-box (FIPS 197, equation 5.1), with `c = {63}`. -/
def affine (b : U8) : U8 :=
  BitVec.ofNat 8 ((List.range 8).foldl (fun s i =>
    s + (b.getLsbD i ^^ b.getLsbD ((i + 4) % 8) ^^ b.getLsbD ((i + 5) % 8) ^^
      b.getLsbD ((i + 6) % 8) ^^ b.getLsbD ((i + 7) % 8) ^^ (0x63#8).getLsbD i).toNat * 2 ^ i) 0)

/-- The S-box (FIPS 197, 5.1.1). -/
def SBox (b : U8) : U8 := affine (ginv b)

/-- The State `s[r, c]`: row, column (FIPS 197, 3.4). -/
abbrev AState := Fin 4 → Fin 4 → U8

/-- A word of four bytes (FIPS 197, 3.5). -/
abbrev AWord := Fin 4 → U8

/-- `SubBytes` (5.1.1). -/
def SubBytes (s : AState) : AState := fun r c => SBox (s r c)

/-- `ShiftRows` (5.1.2): `s'[r, c] = s[r, (c + shift(r)) mod 4]`. -/
def ShiftRows (s : AState) : AState := fun r c => s r (c + r)

/-- `MixColumns` (5.1.3, equation 5.6). -/
def MixColumns (s : AState) : AState := fun r c =>
  match r with
  | 0 => gmul 2 (s 0 c) ^^^ gmul 3 (s 1 c) ^^^ s 2 c ^^^ s 3 c
  | 1 => s 0 c ^^^ gmul 2 (s 1 c) ^^^ gmul 3 (s 2 c) ^^^ s 3 c
  | 2 => s 0 c ^^^ s 1 c ^^^ gmul 2 (s 2 c) ^^^ gmul 3 (s 3 c)
  | 3 => gmul 3 (s 0 c) ^^^ s 1 c ^^^ s 2 c ^^^ gmul 2 (s 3 c)

/-- `AddRoundKey` (5.1.4), with the key schedule `w` and the round number. -/
def AddRoundKey (s : AState) (w : Nat → AWord) (round : Nat) : AState := fun r c =>
  s r c ^^^ w (4 * round + c) r

/-- `Cipher` (Figure 5). -/
def Cipher (Nr : Nat) (s : AState) (w : Nat → AWord) : AState :=
  let s := AddRoundKey s w 0
  let s := (List.range (Nr - 1)).foldl
    (fun s k => AddRoundKey (MixColumns (ShiftRows (SubBytes s))) w (k + 1)) s
  AddRoundKey (ShiftRows (SubBytes s)) w Nr

/-- `SubWord` (5.2). -/
def SubWord (w : AWord) : AWord := fun i => SBox (w i)

/-- `RotWord` (5.2): `[a0,a1,a2,a3]` becomes `[a1,a2,a3,a0]`. -/
def RotWord (w : AWord) : AWord := fun i => w (i + 1)

/-- `Rcon[i] = [x^(i-1), {00}, {00}, {00}]` (5.2). -/
def Rcon (i : Nat) : AWord := fun j => if j = 0 then gpow 2 (i - 1) else 0

/-- Exclusive or of words. -/
def xorWord (a b : AWord) : AWord := fun i => a i ^^^ b i

/-- `KeyExpansion` (Figure 11): word `i` of the schedule, for a key of `Nk` words. -/
def keyWord (Nk : Nat) (key : List U8) (i : Nat) : AWord :=
  if h : i < Nk ∨ Nk = 0 then fun j => nth key (4 * i + j)
  else
    let temp := keyWord Nk key (i - 1)
    let temp :=
      if i % Nk = 0 then xorWord (SubWord (RotWord temp)) (Rcon (i / Nk))
      else if 6 < Nk ∧ i % Nk = 4 then SubWord temp
      else temp
    xorWord (keyWord Nk key (i - Nk)) temp
  termination_by i
  decreasing_by all_goals omega

/-- Input to State (3.4): `s[r, c] = in[r + 4c]`. -/
def stateOfBytes (l : List U8) : AState := fun r c => nth l (4 * c + r)

/-- State to output (3.4): `out[r + 4c] = s[r, c]`. -/
def bytesOfState (s : AState) : List U8 :=
  (List.range 16).map fun i => s (Fin.ofNat 4 i) (Fin.ofNat 4 (i / 4))

/-- AES with a key of `Nk` words: `Nr = Nk + 6` rounds (Figure 4). -/
def aes (Nk : Nat) (key block : List U8) : List U8 :=
  bytesOfState (Cipher (Nk + 6) (stateOfBytes block) (keyWord Nk key))

/-- AES-128. -/
def AES128 (key block : List U8) : List U8 := aes 4 key block

/-- AES-256. -/
def AES256 (key block : List U8) : List U8 := aes 8 key block

/-- Electronic codebook mode (NIST SP 800-38A, 6.1): `n` blocks of 16 bytes, each encrypted with the
block cipher `E`. -/
def ecb (E : List U8 → List U8) (n : Nat) (pt : List U8) : List U8 :=
  (List.range n).flatMap fun b => E ((pt.drop (16 * b)).take 16)

end Frodo.Spec

import Verif.Spec.Aes

/-! # CTR_DRBG with AES-256, without derivation function (NIST SP 800-90A, 10.2.1)

`blocklen` = `ctr_len` = 128 bits, `keylen` = 256 bits, `seedlen` = 384 bits. -/

namespace Frodo.Spec

/-- The number of which `l` is the big-endian representation. -/
def beNat (l : List U8) : Nat := l.foldl (fun a b => 256 * a + b.toNat) 0

/-- Big-endian representation with `len` bytes. -/
def beBytes (len n : Nat) : List U8 :=
  (List.range len).map fun i => BitVec.ofNat 8 (n / 256 ^ (len - 1 - i))

/-- `V = (V + c) mod 2^blocklen`. -/
def addV (V : List U8) (c : Nat) : List U8 := beBytes 16 ((beNat V + c) % 2 ^ 128)

/-- Blocks `Block_Encrypt(Key, V+1) || … || Block_Encrypt(Key, V+m)`. -/
def ctrBlocks (key V : List U8) (m : Nat) : List U8 :=
  (List.range m).flatMap fun i => AES256 key (addV V (i + 1))

/-- `CTR_DRBG_Update` (10.2.1.2): the new `Key` and `V`. -/
def drbgUpdate (data key V : List U8) : List U8 × List U8 :=
  let temp := List.zipWith (· ^^^ ·) (ctrBlocks key V 3) data
  (temp.take 32, temp.drop 32)

/-- `CTR_DRBG_Instantiate_algorithm` (10.2.1.3.1). -/
def drbgInit (entropy pers : List U8) : List U8 × List U8 :=
  drbgUpdate (List.zipWith (· ^^^ ·) entropy pers) (List.replicate 32 0) (List.replicate 16 0)

/-- `CTR_DRBG_Generate_algorithm` (10.2.1.5.1) without additional input: the returned bytes, the new
`Key` and `V`. -/
def drbgGenerate (key V : List U8) (len : Nat) : List U8 × List U8 × List U8 :=
  let m := (len + 15) / 16
  let out := (ctrBlocks key V m).take len
  (out, drbgUpdate (List.replicate 48 0) key (addV V m))

end Frodo.Spec

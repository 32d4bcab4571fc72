import Verif.Spec.Bits
import Verif.Spec.Noise
import Verif.Spec.Code
import Verif.Spec.GenA
import Mathlib.Data.Matrix.Basic

/-! # FrodoKEM (specification, section 2.2, Algorithms 12 to 14)

Matrices over `ZMod q` with `q = 2^D`, byte strings as lists.  Independent of the C code. -/

namespace Frodo.Spec

/-- The parameters of FrodoKEM (specification, section 2.4 and Table 1).  All bit lengths
`len_s = len_seedSE = len_k = len_pkh = len_ss = len_mu` are `8 * len`. -/
structure KemParams where
  /-- `q = 2^D` -/
  D : Nat
  n : Nat
  nbar : Nat
  /-- bits per entry of a message matrix -/
  B : Nat
  /-- bytes of `seedA` (and of `z`) -/
  lenA : Nat
  /-- bytes of `s`, `seedSE`, `k`, `pkh`, `ss` and `mu` -/
  len : Nat
  /-- the cumulative distribution table `T_χ` -/
  T : List Nat
  /-- Frodo.Gen -/
  A : List U8 → Matrix (Fin n) (Fin n) (ZMod (2 ^ D))
  /-- the extendable output function -/
  shake : List U8 → Nat → List U8

/-- FrodoKEM-640. -/
def Frodo640 (g : MatGen) : KemParams where
  D := 15
  n := 640
  nbar := 8
  B := 2
  lenA := 16
  len := 16
  T := [4643, 13363, 20579, 25843, 29227, 31145, 32103, 32525, 32689, 32745, 32762, 32766, 32767]
  A := genA g 15 640
  shake := SHAKE128

/-- FrodoKEM-976. -/
def Frodo976 (g : MatGen) : KemParams where
  D := 16
  n := 976
  nbar := 8
  B := 3
  lenA := 16
  len := 24
  T := [5638, 15915, 23689, 28571, 31116, 32217, 32613, 32731, 32760, 32766, 32767]
  A := genA g 16 976
  shake := SHAKE256

/-- FrodoKEM-1344. -/
def Frodo1344 (g : MatGen) : KemParams where
  D := 16
  n := 1344
  nbar := 8
  B := 4
  lenA := 16
  len := 32
  T := [9142, 23462, 30338, 32361, 32725, 32765, 32767]
  A := genA g 16 1344
  shake := SHAKE256

/-- Frodo.Pack: the entries row by row, `D` bits each, most significant bit first. -/
def packMat {D r c : Nat} (M : Matrix (Fin r) (Fin c) (ZMod (2 ^ D))) : List U8 :=
  pack D (D * r * c / 8) (ofMat M)

/-- Frodo.Unpack. -/
def unpackMat (D r c : Nat) (b : List U8) : Matrix (Fin r) (Fin c) (ZMod (2 ^ D)) :=
  toMat D r c (unpack D (r * c) b)

/-- Frodo.SampleMatrix on the 16-bit little-endian integers of `r` from position `off` on. -/
def sampleMatrix (T : List Nat) (m n : Nat) (r : List U8) (off : Nat) :
    Matrix (Fin m) (Fin n) ℤ :=
  Matrix.of fun i j => sample T (word16 r (off + (i * n + j)))

/-- An integer matrix modulo `q`. -/
def modQ (D : Nat) {m n : Nat} (M : Matrix (Fin m) (Fin n) ℤ) : Matrix (Fin m) (Fin n) (ZMod (2 ^ D)) :=
  M.map (Int.cast : ℤ → ZMod (2 ^ D))

/-- The entries row by row as 16-bit little-endian two's complement integers. -/
def encodeS {m n : Nat} (M : Matrix (Fin m) (Fin n) ℤ) : List U8 :=
  (List.finRange m).flatMap fun i => (List.finRange n).flatMap fun j =>
    le16 (M i j % 2 ^ 16).toNat

/-- The matrix modulo `q` stored as 16-bit little-endian integers. -/
def decodeS (D m n : Nat) (b : List U8) : Matrix (Fin m) (Fin n) (ZMod (2 ^ D)) :=
  Matrix.of fun i j => (word16 b (i * n + j) : ZMod (2 ^ D))

variable (K : KemParams)

/-- Bytes of a packed `n × nbar` matrix. -/
def KemParams.lenB : Nat := K.D * K.n * K.nbar / 8

/-- Bytes of a packed `nbar × nbar` matrix. -/
def KemParams.lenC : Nat := K.D * K.nbar * K.nbar / 8

/-- The noise matrices of key generation, `Sᵀ` and `E` (Algorithm 12, steps 4 to 6). -/
def keygenNoise (seedSE : List U8) : Matrix (Fin K.nbar) (Fin K.n) ℤ × Matrix (Fin K.n) (Fin K.nbar) ℤ :=
  let r := K.shake (0x5F :: seedSE) (2 * K.n * K.nbar * 2)
  (sampleMatrix K.T K.nbar K.n r 0, sampleMatrix K.T K.n K.nbar r (K.n * K.nbar))

/-- Algorithm 12, FrodoKEM.KeyGen, for the random strings `s`, `seedSE` and `z`:
the public key `seedA || b` and the secret key `s || seedA || b || Sᵀ || pkh`. -/
def keygen (s seedSE z : List U8) : List U8 × List U8 :=
  let seedA := K.shake z K.lenA
  let A := K.A seedA
  let (St, E) := keygenNoise K seedSE
  let B := A * (modQ K.D St).transpose + modQ K.D E
  let b := packMat B
  let pkh := K.shake (seedA ++ b) K.len
  (seedA ++ b, s ++ (seedA ++ b) ++ encodeS St ++ pkh)

/-- The noise matrices of encryption, `S'`, `E'` and `E''` (Algorithm 13, steps 3 to 5 and 8). -/
def encapsNoise (seedSE : List U8) :
    Matrix (Fin K.nbar) (Fin K.n) ℤ × Matrix (Fin K.nbar) (Fin K.n) ℤ ×
      Matrix (Fin K.nbar) (Fin K.nbar) ℤ :=
  let r := K.shake (0x96 :: seedSE) ((2 * K.n + K.nbar) * K.nbar * 2)
  (sampleMatrix K.T K.nbar K.n r 0, sampleMatrix K.T K.nbar K.n r (K.n * K.nbar),
    sampleMatrix K.T K.nbar K.nbar r (2 * K.n * K.nbar))

/-- The matrices `B'` and `C` of an encryption of `mu` (Algorithm 13, steps 3 to 11). -/
def encrypt (pk mu seedSE : List U8) :
    Matrix (Fin K.nbar) (Fin K.n) (ZMod (2 ^ K.D)) ×
      Matrix (Fin K.nbar) (Fin K.nbar) (ZMod (2 ^ K.D)) :=
  let seedA := pk.take K.lenA
  let b := pk.drop K.lenA
  let (S', E', E'') := encapsNoise K seedSE
  let A := K.A seedA
  let B' := modQ K.D S' * A + modQ K.D E'
  let B := unpackMat K.D K.n K.nbar b
  let V := modQ K.D S' * B + modQ K.D E''
  (B', V + encode K.D K.B K.nbar K.nbar mu)

/-- `seedSE || k = SHAKE(pkh || mu)` (Algorithm 13, step 2). -/
def deriveSeeds (pkh mu : List U8) : List U8 × List U8 :=
  let g := K.shake (pkh ++ mu) (2 * K.len)
  (g.take K.len, g.drop K.len)

/-- Algorithm 13, FrodoKEM.Encaps, for the random message `mu`: ciphertext and shared secret. -/
def encaps (pk mu : List U8) : List U8 × List U8 :=
  let pkh := K.shake pk K.len
  let (seedSE, k) := deriveSeeds K pkh mu
  let (B', C) := encrypt K pk mu seedSE
  let c := packMat B' ++ packMat C
  (c, K.shake (c ++ k) K.len)

/-- The parts `s`, `pk = seedA || b`, `Sᵀ` and `pkh` of a secret key. -/
structure SecretKey where
  s : List U8
  pk : List U8
  St : Matrix (Fin K.nbar) (Fin K.n) (ZMod (2 ^ K.D))
  pkh : List U8

/-- Parsing of a secret key (Algorithm 14, input). -/
def parseSk (sk : List U8) : SecretKey K where
  s := sk.take K.len
  pk := (sk.drop K.len).take (K.lenA + K.lenB)
  St := decodeS K.D K.nbar K.n (sk.drop (K.len + (K.lenA + K.lenB)))
  pkh := (sk.drop (K.len + (K.lenA + K.lenB) + 2 * K.n * K.nbar)).take K.len

/-- The matrices `B'` and `C` of a ciphertext (Algorithm 14, steps 1 and 2). -/
def parseCt (ct : List U8) : Matrix (Fin K.nbar) (Fin K.n) (ZMod (2 ^ K.D)) ×
    Matrix (Fin K.nbar) (Fin K.nbar) (ZMod (2 ^ K.D)) :=
  (unpackMat K.D K.nbar K.n (ct.take K.lenB), unpackMat K.D K.nbar K.nbar (ct.drop K.lenB))

/-- Decryption (Algorithm 14, steps 1 to 4). -/
def decrypt (ct : List U8) (St : Matrix (Fin K.nbar) (Fin K.n) (ZMod (2 ^ K.D))) : List U8 :=
  let (B', C) := parseCt K ct
  decode K.B (C - B' * St.transpose)

/-- Algorithm 14, FrodoKEM.Decaps. -/
def decaps (ct sk : List U8) : List U8 :=
  let sk := parseSk K sk
  let mu' := decrypt K ct sk.St
  let (seedSE', k') := deriveSeeds K sk.pkh mu'
  if parseCt K ct = encrypt K sk.pk mu' seedSE' then K.shake (ct ++ k') K.len
  else K.shake (ct ++ sk.s) K.len

/-- The re-encryption of what `ct` decrypts to under `sk`, as bytes, and the secret `k'`. -/
def reencrypt (ct sk : List U8) : List U8 × List U8 :=
  let k := parseSk K sk
  let mu := decrypt K ct k.St
  let sd := deriveSeeds K k.pkh mu
  let M := encrypt K k.pk mu sd.1
  (packMat M.1 ++ packMat M.2, sd.2)

/-- The accumulated noise `S'E + E'' - E'S` of an encryption (the integers, not modulo `q`). -/
def totalNoise (seedSE seedSE' : List U8) : Matrix (Fin K.nbar) (Fin K.nbar) ℤ :=
  (encapsNoise K seedSE').1 * (keygenNoise K seedSE).2 + (encapsNoise K seedSE').2.2 -
    (encapsNoise K seedSE').2.1 * (keygenNoise K seedSE).1.transpose

end Frodo.Spec

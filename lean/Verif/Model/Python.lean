import Verif.C.Monad
import Verif.C.Types
import Verif.Spec.Aes
import Verif.Spec.Keccak
import Verif.Spec.Bits
import Verif.Spec.GenA
import Mathlib.Data.Int.Bitwise
import Mathlib.Data.Rat.Floor

/-! # The Python reference implementation (/repo/python3/frodokem.py)

Programs are written in the monad of the C model; here `ub` stands for a Python exception (`IndexError`
for an access out of range, `AssertionError`, `struct.error`, ...) and the trace has no meaning.
Integers are unbounded.  The libraries are modelled by what they implement: `hashes.SHAKE128/256` by
FIPS 202, `AES` in ECB mode on one block by FIPS 197, `bitstring` by bit lists.  Divisions `a / b`
between integers that are converted back by `int` are exact in binary64 for the values that occur and
are modelled by exact division; intermediate printing is not modelled. -/

namespace Frodo.Py

open C Spec

/-- A matrix of Python integers (a list of lists, e.g. `R` in /repo/python3/frodokem.py:221). -/
abbrev Mat := List (List Int)

/-- The attributes of a `FrodoKEM` object (/repo/python3/frodokem.py:19-157; `mbar` is `nbar` in all
parameter sets but a separate attribute).  `gen` selects the method `self.gen` (lines 26-43). -/
structure Obj where
  T_chi : List Int
  D : Nat
  q : Nat
  n : Nat
  nbar : Nat
  mbar : Nat
  B : Nat
  len_seedA_bytes : Nat
  len_z_bytes : Nat
  len_mu_bytes : Nat
  len_seedSE_bytes : Nat
  len_s_bytes : Nat
  len_k_bytes : Nat
  len_pkh_bytes : Nat
  len_chi_bytes : Nat
  len_sk_bytes : Nat
  len_pk_bytes : Nat
  len_ct_bytes : Nat
  len_ss_bytes : Nat
  shake : List U8 → Nat → List U8
  gen : MatGen

/-- `X[i][j]` on a list of lists (language base of /repo/python3/frodokem.py). -/
def get2 (X : Mat) (i j : Nat) : C Int := do
  let r ← rd X i
  rd r j

/-- `X[i][j] = v` (language base of /repo/python3/frodokem.py). -/
def set2 (X : Mat) (i j : Nat) (v : Int) : C Mat := do
  let r ← rd X i
  let r ← wr r j v
  wr X i r

/-- `[f(i) for i in range(n)]` (language base of /repo/python3/frodokem.py). -/
def comp (n : Nat) (f : Nat → C α) : C (List α) :=
  forC 0 n 1 [] fun i l => do
    let v ← f i
    pure (l ++ [v])

/-- `[[0 for j in range(c)] for i in range(r)]`, also for lists that are filled with `None` first and
then overwritten (e.g. /repo/python3/frodokem.py:221, 292, 394). -/
def zeros (r c : Nat) : Mat := List.replicate r (List.replicate c 0)

/-- `l[a:b]` (language base of /repo/python3/frodokem.py). -/
def slice (l : List α) (a b : Nat) : List α := (l.drop a).take (b - a)

/-- `struct.unpack_from('<H', b, off)[0]` (used at /repo/python3/frodokem.py:419, 433, 457). -/
def unpackH (b : List U8) (off : Nat) : C Int := do
  let x ← rd b off
  let y ← rd b (off + 1)
  pure (x.toNat + 256 * y.toNat : Nat)

/-- `struct.pack_into('<H', b, off, v)` (used at /repo/python3/frodokem.py:412-413, 429). -/
def packH (b : List U8) (off : Nat) (v : Nat) : C (List U8) := do
  C.require (v < 65536) .overflow
  let b ← wr b off (BitVec.ofNat 8 v)
  wr b (off + 1) (BitVec.ofNat 8 (v / 256))

/-- `__cdf_zero_centred_symmetric` (/repo/python3/frodokem.py:203-212). -/
def cdf_zero_centred_symmetric (chi : List Int) : C (List Int) := do
  let T := (List.range chi.length).map fun i => (i : Int)
  let c0 ← rd chi 0
  let T ← wr T 0 (c0 / 2 - 1)
  forC 1 chi.length 1 T fun z T => do
    let t0 ← rd T 0
    wr T z (t0 + (slice chi 1 (z + 1)).sum)

/-- `__matrix_mul` (/repo/python3/frodokem.py:214-227). -/
def matrix_mul (q : Nat) (X Y : Mat) : C Mat := do
  let x0 ← rd X 0
  let y0 ← rd Y 0
  C.require (x0.length = Y.length) .assertFailed
  forC 0 X.length 1 (zeros X.length y0.length) fun i R =>
    forC 0 y0.length 1 R fun j R => do
      let R ← forC 0 x0.length 1 R fun k R => do
        let r ← get2 R i j
        let x ← get2 X i k
        let y ← get2 Y k j
        set2 R i j (r + x * y)
      let r ← get2 R i j
      set2 R i j (r % q)

/-- `__matrix_add` (/repo/python3/frodokem.py:229-236). -/
def matrix_add (q : Nat) (X Y : Mat) : C Mat := do
  let x0 ← rd X 0
  let y0 ← rd Y 0
  C.require (x0.length = y0.length ∧ X.length = Y.length) .assertFailed
  comp X.length fun i => comp x0.length fun j => do
    let x ← get2 X i j
    let y ← get2 Y i j
    pure ((x + y) % q)

/-- `__matrix_sub` (/repo/python3/frodokem.py:238-245). -/
def matrix_sub (q : Nat) (X Y : Mat) : C Mat := do
  let x0 ← rd X 0
  let y0 ← rd Y 0
  C.require (x0.length = y0.length ∧ X.length = Y.length) .assertFailed
  comp X.length fun i => comp x0.length fun j => do
    let x ← get2 X i j
    let y ← get2 Y i j
    pure ((x - y) % q)

/-- `__matrix_transpose` (/repo/python3/frodokem.py:247-251). -/
def matrix_transpose (X : Mat) : C Mat := do
  let x0 ← rd X 0
  comp x0.length fun i => comp X.length fun j => get2 X j i

/-- `__bytes_to_bit_array` (/repo/python3/frodokem.py:254-261). -/
def bytes_to_bit_array (B : List U8) : C (List Bool) :=
  forC 0 B.length 1 (List.replicate (8 * B.length) false) fun i b =>
    forC 0 8 1 b fun l b => do
      let x ← rd B i
      wr b (8 * i + l) (decide ((x.toNat >>> l) % 2 ≠ 0))

/-- `__ctverify` (/repo/python3/frodokem.py:264-275). -/
def ctverify (a b : Mat) : C Bool := do
  let r ← forC 0 a.length 1 (0 : Int) fun i r => do
    let ai ← rd a i
    forC 0 ai.length 1 r fun j r => do
      let x ← get2 a i j
      let y ← get2 b i j
      pure (Int.lor r (Int.xor x y))
  pure (decide (r = 0))

/-- `__ctselect` (/repo/python3/frodokem.py:278-286); `bytearray.append` fails outside 0..255. -/
def ctselect (a b : List U8) (selector : Bool) : C (List U8) := do
  let mask ← forC 0 8 1 (0 : Int) fun i mask => pure (Int.lor mask ((selector.toNat * 2 ^ i : Nat) : Int))
  forC 0 a.length 1 [] fun i r => do
    let x ← rd a i
    let y ← rd b i
    let v := Int.lor (Int.land x.toNat mask) (Int.land y.toNat (Int.lnot mask))
    C.require (0 ≤ v ∧ v < 256) .overflow
    pure (r ++ [BitVec.ofInt 8 v])

/-- `encode` (/repo/python3/frodokem.py:288-304). -/
def encode (o : Obj) (k : List U8) : C Mat := do
  let kbits ← bytes_to_bit_array k
  forC 0 o.mbar 1 (zeros o.mbar o.nbar) fun i K =>
    forC 0 o.nbar 1 K fun j K => do
      let tmp ← forC 0 o.B 1 (0 : Int) fun l tmp => do
        let bit ← rd kbits ((i * o.nbar + j) * o.B + l)
        pure (if bit then tmp + 2 ^ l else tmp)
      set2 K i j (tmp * ((o.q / 2 ^ o.B : Nat) : Int))

/-- `__bit_array_to_bytes` (/repo/python3/frodokem.py:307-313). -/
def bit_array_to_bytes (b : List Bool) : C (List U8) :=
  forC 0 (b.length / 8) 1 (List.replicate (b.length / 8) 0) fun i B =>
    forC 0 8 1 B fun l B => do
      let bit ← rd b (8 * i + l)
      if bit then do
        let x ← rd B i
        wr B i (x ||| BitVec.ofNat 8 (1 <<< l))
      else pure B

/-- `round` of Python 3 on a number: to the nearest integer, ties to the even one (the language base of
/repo/python3/frodokem.py:324). -/
def round (x : ℚ) : Int :=
  if x - ⌊x⌋ < 1 / 2 then ⌊x⌋
  else if 1 / 2 < x - ⌊x⌋ then ⌊x⌋ + 1
  else if ⌊x⌋ % 2 = 0 then ⌊x⌋ else ⌊x⌋ + 1

/-- The loop that splits an integer into bits, least significant first
(/repo/python3/frodokem.py:326-329, 348-351): the bits, and what is left of the integer. -/
def splitBits (d : Nat) (tmp : Int) : C (List Int × Int) :=
  forC 0 d 1 (List.replicate d (0 : Int), tmp) fun l (bits, tmp) => do
    let bits ← wr bits l (tmp % 2)
    pure (bits, tmp / 2)

/-- `decode` (/repo/python3/frodokem.py:315-334).  The quotient at line 324 is exact in binary64: the
dividend is an integer below `2^53` and `q` is a power of two. -/
def decode (o : Obj) (K : Mat) : C (List U8) := do
  let k ← forC 0 o.mbar 1 (List.replicate (o.B * o.mbar * o.nbar) false) fun i k =>
    forC 0 o.nbar 1 k fun j k => do
      let x ← get2 K i j
      let tmp := round ((x : ℚ) * 2 ^ o.B / o.q) % 2 ^ o.B
      let (tmpbits, _) ← splitBits o.B tmp
      forC 0 o.B 1 k fun l k => do
        let t ← rd tmpbits l
        wr k ((i * o.nbar + j) * o.B + l) (decide (t ≠ 0))
  bit_array_to_bytes k

/-- `pack` (/repo/python3/frodokem.py:336-356).  The property `bytes` of a `BitArray` takes eight bits
at a time, most significant first. -/
def pack (o : Obj) (M : Mat) : C (List U8) := do
  let m0 ← rd M 0
  let n1 := M.length
  let n2 := m0.length
  let b ← forC 0 n1 1 (List.replicate (o.D * n1 * n2) false) fun i b =>
    forC 0 n2 1 b fun j b => do
      let tmp ← get2 M i j
      let (c, _) ← splitBits o.D tmp
      forC 0 o.D 1 b fun l b => do
        let t ← rd c (o.D - 1 - l)
        wr b ((i * n2 + j) * o.D + l) (decide (t ≠ 0))
  C.require (b.length % 8 = 0) .assertFailed
  pure ((chunks 8 (b.length / 8) b).map (BitVec.ofNat 8))

/-- `unpack` (/repo/python3/frodokem.py:358-370).  `bitstring.Bits` of bytes lists the bits of every
byte most significant first. -/
def unpack (o : Obj) (b : List U8) (n1 n2 : Nat) : C Mat := do
  let bbits := stream8 b
  forC 0 n1 1 (zeros n1 n2) fun i M =>
    forC 0 n2 1 M fun j M =>
      forC 0 o.D 1 M fun l M => do
        let bit ← rd bbits ((i * n2 + j) * o.D + l)
        if bit then do
          let x ← get2 M i j
          set2 M i j (x + 2 ^ (o.D - 1 - l))
        else pure M

/-- `sample` (/repo/python3/frodokem.py:372-389). -/
def sample (o : Obj) (r : Int) : C Int := do
  let t := r / 2
  let e ← forC 0 (o.T_chi.length - 1) 1 (0 : Int) fun z e => do
    let x ← rd o.T_chi z
    pure (if t > x then e + 1 else e)
  let r0 := r % 2
  pure ((-1) ^ r0.toNat * e)

/-- `sample_matrix` (/repo/python3/frodokem.py:391-401). -/
def sample_matrix (o : Obj) (r : List Int) (n1 n2 : Nat) : C Mat :=
  forC 0 n1 1 (zeros n1 n2) fun i E =>
    forC 0 n2 1 E fun j E => do
      let x ← rd r (i * n2 + j)
      let e ← sample o x
      set2 E i j e

/-- `genAES128` (/repo/python3/frodokem.py:403-420).  Keys of 24 or 32 bytes, which the library would
use for AES-192 and AES-256, are excluded: `seedA` always has 16 bytes. -/
def genAES128 (o : Obj) (seedA : List U8) : C Mat := do
  C.require (seedA.length = 16) .assertFailed
  forC 0 o.n 1 (zeros o.n o.n) fun i A =>
    forC 0 o.n 8 A fun j A => do
      let b := List.replicate 16 (0 : U8)
      let b ← packH b 0 i
      let b ← packH b 2 j
      let c := AES128 seedA b
      forC 0 8 1 A fun k A => do
        let x ← unpackH c (2 * k)
        set2 A i (j + k) (x % o.q)

/-- `genSHAKE128` (/repo/python3/frodokem.py:422-438). -/
def genSHAKE128 (o : Obj) (seedA : List U8) : C Mat :=
  forC 0 o.n 1 (zeros o.n o.n) fun i A => do
    let tmp ← packH (List.replicate 2 (0 : U8)) 0 i
    let b := tmp ++ seedA
    let tmp := SHAKE128 b (16 * o.n / 8)
    let c ← comp o.n fun j => unpackH tmp (2 * j)
    forC 0 o.n 1 A fun j A => do
      let x ← rd c j
      set2 A i j (x % o.q)

/-- `self.gen` (/repo/python3/frodokem.py:26-43). -/
def gen (o : Obj) (seedA : List U8) : C Mat :=
  match o.gen with
  | .aes => genAES128 o seedA
  | .shake => genSHAKE128 o seedA

/-- `bitstring.BitArray(intle = v, length = 16)` as bytes (used at /repo/python3/frodokem.py:482). -/
def intle16 (v : Int) : C (List U8) := do
  C.require (-32768 ≤ v ∧ v < 32768) .overflow
  pure (le16 (v % 65536).toNat)

/-- `kem_keygen` (/repo/python3/frodokem.py:440-486) for the result `rnd` of `self.randombytes`.  The
`BitArray` `sk` always holds whole bytes and is modelled as bytes. -/
def kem_keygen (o : Obj) (rnd : List U8) : C (List U8 × List U8) := do
  let s := slice rnd 0 o.len_s_bytes
  let seedSE := slice rnd o.len_s_bytes (o.len_s_bytes + o.len_seedSE_bytes)
  let z := slice rnd (o.len_s_bytes + o.len_seedSE_bytes)
    (o.len_s_bytes + o.len_seedSE_bytes + o.len_z_bytes)
  let seedA := o.shake z o.len_seedA_bytes
  let A ← gen o seedA
  let rbytes := o.shake (0x5F :: seedSE) (2 * o.n * o.nbar * o.len_chi_bytes)
  let r ← comp (2 * o.n * o.nbar) fun i => unpackH rbytes (2 * i)
  let Stransposed ← sample_matrix o (slice r 0 (o.n * o.nbar)) o.nbar o.n
  let S ← matrix_transpose Stransposed
  let E ← sample_matrix o (slice r (o.n * o.nbar) (2 * o.n * o.nbar)) o.n o.nbar
  let AS ← matrix_mul o.q A S
  let B ← matrix_add o.q AS E
  let b ← pack o B
  let pkh := o.shake (seedA ++ b) o.len_pkh_bytes
  let pk := seedA ++ b
  C.require (pk.length = o.len_pk_bytes) .assertFailed
  let sk := s ++ seedA ++ b
  let sk ← forC 0 o.nbar 1 sk fun i sk =>
    forC 0 o.n 1 sk fun j sk => do
      let v ← get2 Stransposed i j
      let w ← intle16 v
      pure (sk ++ w)
  let sk := sk ++ pkh
  C.require (sk.length = o.len_sk_bytes) .assertFailed
  pure (pk, sk)

/-- `kem_encaps` (/repo/python3/frodokem.py:488-546) for the result `mu` of `self.randombytes`. -/
def kem_encaps (o : Obj) (pk mu : List U8) : C (List U8 × List U8) := do
  C.require (8 * pk.length = 8 * o.len_seedA_bytes + o.D * o.n * o.nbar) .assertFailed
  let seedA := slice pk 0 o.len_seedA_bytes
  let b := pk.drop o.len_seedA_bytes
  let pkh := o.shake pk o.len_pkh_bytes
  let seedSE_k := o.shake (pkh ++ mu) (o.len_seedSE_bytes + o.len_k_bytes)
  let seedSE := slice seedSE_k 0 o.len_seedSE_bytes
  let k := slice seedSE_k o.len_seedSE_bytes (o.len_seedSE_bytes + o.len_k_bytes)
  let rbytes := o.shake (0x96 :: seedSE) ((2 * o.mbar * o.n + o.mbar * o.mbar) * o.len_chi_bytes)
  let r ← comp (2 * o.mbar * o.n + o.mbar * o.nbar) fun i => unpackH rbytes (2 * i)
  let Sprime ← sample_matrix o (slice r 0 (o.mbar * o.n)) o.mbar o.n
  let Eprime ← sample_matrix o (slice r (o.mbar * o.n) (2 * o.mbar * o.n)) o.mbar o.n
  let A ← gen o seedA
  let SA ← matrix_mul o.q Sprime A
  let Bprime ← matrix_add o.q SA Eprime
  let c1 ← pack o Bprime
  let Eprimeprime ← sample_matrix o
    (slice r (2 * o.mbar * o.n) (2 * o.mbar * o.n + o.mbar * o.nbar)) o.mbar o.nbar
  let B ← unpack o b o.n o.nbar
  let SB ← matrix_mul o.q Sprime B
  let V ← matrix_add o.q SB Eprimeprime
  let M ← encode o mu
  let C' ← matrix_add o.q V M
  let c2 ← pack o C'
  let ss := o.shake (c1 ++ c2 ++ k) o.len_ss_bytes
  let ct := c1 ++ c2
  C.require (ct.length = o.len_ct_bytes) .assertFailed
  C.require (ss.length = o.len_ss_bytes) .assertFailed
  pure (ct, ss)

/-- `Sbytes.read('intle:16')` at bit position `8 * pos` of a stream of bytes (used at
/repo/python3/frodokem.py:575): the value, and the new position in bytes. -/
def readIntle16 (b : List U8) (pos : Nat) : C (Int × Nat) := do
  let x ← unpackH b pos
  pure (if x < 32768 then x else x - 65536, pos + 2)

/-- `kem_decaps` (/repo/python3/frodokem.py:548-639). -/
def kem_decaps (o : Obj) (sk ct : List U8) : C (List U8) := do
  C.require (ct.length = o.len_ct_bytes) .assertFailed
  let offset := 0
  let length := o.mbar * o.n * o.D / 8
  let c1 := slice ct offset (offset + length)
  let offset := offset + length
  let length := o.mbar * o.nbar * o.D / 8
  let c2 := slice ct offset (offset + length)
  C.require (sk.length = o.len_sk_bytes) .assertFailed
  let offset := 0
  let length := o.len_s_bytes
  let s := slice sk offset (offset + length)
  let offset := offset + length
  let length := o.len_seedA_bytes
  let seedA := slice sk offset (offset + length)
  let offset := offset + length
  let length := o.D * o.n * o.nbar / 8
  let b := slice sk offset (offset + length)
  let offset := offset + length
  let length := o.n * o.nbar * 16 / 8
  let Sbytes := slice sk offset (offset + length)
  let (Stransposed, _) ← forC 0 o.nbar 1 (zeros o.nbar o.n, 0) fun i (St, pos) =>
    forC 0 o.n 1 (St, pos) fun j (St, pos) => do
      let (v, pos) ← readIntle16 Sbytes pos
      let St ← set2 St i j v
      pure (St, pos)
  let S ← matrix_transpose Stransposed
  let offset := offset + length
  let length := o.len_pkh_bytes
  let pkh := slice sk offset (offset + length)
  let Bprime ← unpack o c1 o.mbar o.n
  let C' ← unpack o c2 o.mbar o.nbar
  let BprimeS ← matrix_mul o.q Bprime S
  let M ← matrix_sub o.q C' BprimeS
  let muprime ← decode o M
  let seedSEprime_kprime := o.shake (pkh ++ muprime) (o.len_seedSE_bytes + o.len_k_bytes)
  let seedSEprime := slice seedSEprime_kprime 0 o.len_seedSE_bytes
  let kprime := slice seedSEprime_kprime o.len_seedSE_bytes (o.len_seedSE_bytes + o.len_k_bytes)
  let rbytes := o.shake (0x96 :: seedSEprime) ((2 * o.mbar * o.n + o.mbar * o.mbar) * o.len_chi_bytes)
  let r ← comp (2 * o.mbar * o.n + o.mbar * o.nbar) fun i => unpackH rbytes (2 * i)
  let Sprime ← sample_matrix o (slice r 0 (o.mbar * o.n)) o.mbar o.n
  let Eprime ← sample_matrix o (slice r (o.mbar * o.n) (2 * o.mbar * o.n)) o.mbar o.n
  let A ← gen o seedA
  let SA ← matrix_mul o.q Sprime A
  let Bprimeprime ← matrix_add o.q SA Eprime
  let Eprimeprime ← sample_matrix o
    (slice r (2 * o.mbar * o.n) (2 * o.mbar * o.n + o.mbar * o.nbar)) o.mbar o.nbar
  let B ← unpack o b o.n o.nbar
  let SB ← matrix_mul o.q Sprime B
  let V ← matrix_add o.q SB Eprimeprime
  let Mu ← encode o muprime
  let Cprime ← matrix_add o.q V Mu
  let use_kprime ← ctverify (Bprime ++ C') (Bprimeprime ++ Cprime)
  let kbar ← ctselect kprime s use_kprime
  let ss := o.shake (c1 ++ c2 ++ kbar) o.len_ss_bytes
  C.require (ss.length = o.len_ss_bytes) .assertFailed
  pure ss

/-- `setParamsFrodo640` (/repo/python3/frodokem.py:48-83) with the generator `g`. -/
def frodo640 (g : MatGen) : C Obj := do
  let T ← cdf_zero_centred_symmetric [9288, 8720, 7216, 5264, 3384, 1918, 958, 422, 164, 56, 17, 4, 1]
  pure {
    T_chi := T, D := 15, q := 32768, n := 640, nbar := 8, mbar := 8, B := 2,
    len_seedA_bytes := 128 / 8, len_z_bytes := 128 / 8, len_mu_bytes := 128 / 8,
    len_seedSE_bytes := 128 / 8, len_s_bytes := 128 / 8, len_k_bytes := 128 / 8,
    len_pkh_bytes := 128 / 8, len_chi_bytes := 16 / 8,
    len_sk_bytes := 19888, len_pk_bytes := 9616, len_ct_bytes := 9720, len_ss_bytes := 16,
    shake := SHAKE128, gen := g }

/-- `setParamsFrodo976` (/repo/python3/frodokem.py:85-120). -/
def frodo976 (g : MatGen) : C Obj := do
  let T ← cdf_zero_centred_symmetric [11278, 10277, 7774, 4882, 2545, 1101, 396, 118, 29, 6, 1]
  pure {
    T_chi := T, D := 16, q := 65536, n := 976, nbar := 8, mbar := 8, B := 3,
    len_seedA_bytes := 128 / 8, len_z_bytes := 128 / 8, len_mu_bytes := 192 / 8,
    len_seedSE_bytes := 192 / 8, len_s_bytes := 192 / 8, len_k_bytes := 192 / 8,
    len_pkh_bytes := 192 / 8, len_chi_bytes := 16 / 8,
    len_sk_bytes := 31296, len_pk_bytes := 15632, len_ct_bytes := 15744, len_ss_bytes := 24,
    shake := SHAKE256, gen := g }

/-- `setParamsFrodo1344` (/repo/python3/frodokem.py:122-157). -/
def frodo1344 (g : MatGen) : C Obj := do
  let T ← cdf_zero_centred_symmetric [18286, 14320, 6876, 2023, 364, 40, 2]
  pure {
    T_chi := T, D := 16, q := 65536, n := 1344, nbar := 8, mbar := 8, B := 4,
    len_seedA_bytes := 128 / 8, len_z_bytes := 128 / 8, len_mu_bytes := 256 / 8,
    len_seedSE_bytes := 256 / 8, len_s_bytes := 256 / 8, len_k_bytes := 256 / 8,
    len_pkh_bytes := 256 / 8, len_chi_bytes := 16 / 8,
    len_sk_bytes := 43088, len_pk_bytes := 21520, len_ct_bytes := 21632, len_ss_bytes := 32,
    shake := SHAKE256, gen := g }

end Frodo.Py

import Verif.Model.MatrixA
import Verif.Model.Make

/-! # The types of the accesses to memory

The rule of C11 6.5p6-7 (effective types, "strict aliasing"): the other models have arrays of one type and
forget through which type an element is accessed.  Here every function of the library is the list of its accesses to arrays, each
with the type of the lvalue.  Simplifications: the values are left out; the caller's buffers are four objects
that do not overlap; where an access to bytes or its number depends on the progress of a loop (`frodo_pack`,
`frodo_unpack`, the portable AES), every access of the loop is listed, but not in its order.  Objects that are not
arrays are left out (only `y` of /repo/src/config.h:108 is accessed through a pointer). -/

namespace Frodo.Eff

open Spec (MatGen)
open Make (Order)

/-- The types of lvalues in /repo/src and /repo/tests: `uint8_t` and `unsigned char`, `int16_t`, `uint16_t`, `uint32_t`, `uint64_t`,
`unsigned long long` (/repo/src/sha3/fips202x4.c:45, /repo/src/sha3/keccak4x/KeccakP-1600-times4-SIMD256.c:33), `double`
(KeccakP-1600-times4-SIMD256.c:42), `__m128i` and `__m256i`. -/
inductive Ty where
  | u8 | i16 | u16 | u32 | u64 | ull | dbl | v128 | v256
  deriving DecidableEq, Repr

/-- `sizeof` (C11 6.5.3.4; 8 for `unsigned long long` and `double` on the targets of /repo/src/config.h:39-51). -/
def Ty.size : Ty → Nat
  | .u8 => 1
  | .i16 => 2
  | .u16 => 2
  | .u32 => 4
  | .u64 => 8
  | .ull => 8
  | .dbl => 8
  | .v128 => 16
  | .v256 => 32

/-- Through these types every object may be accessed: character types (C11 6.5p7), and the vector types, which the headers
of the compilers declare with the attribute `may_alias` (used in /repo/src/aes/aes_ni.c:33 and /repo/src/frodo_macrify.c:255). -/
def Ty.any : Ty → Bool
  | .u8 => true
  | .v128 => true
  | .v256 => true
  | _ => false

/-- An object of the first type may be accessed through the second: the same type, or the signed and the unsigned one (C11 6.5p7). -/
def Ty.same : Ty → Ty → Bool
  | .i16, .u16 => true
  | .u16, .i16 => true
  | a, b => a == b

/-- The components of a vector: `long long`, signed or unsigned.  The C standard has no vectors; gcc and clang let their components be
accessed as objects of their own (/repo/src/sha3/fips202x4.c:45 relies on it). -/
def Ty.component : Ty → Ty → Bool
  | .v128, .ull => true
  | .v256, .ull => true
  | _, _ => false

/-- The buffers of the caller (/repo/src/kem.c:15, 78, 153). -/
inductive Buf where
  | pk | sk | ct | ss
  deriving DecidableEq, Repr

/-- An array: one that the library declares, with the type of its elements, or a buffer of the caller (/repo/src/kem.c:15, 78, 153). -/
inductive Obj where
  | loc (name : String) (t : Ty)
  | buf (b : Buf)
  deriving DecidableEq, Repr

/-- The effective types in an object, byte by byte: the type of the element to which the byte belongs, and its place
in the element; nothing for a byte that no type is known of (C11 6.5p6; the objects of /repo/src/kem.c:15, 78, 153). -/
abbrev Types := Nat → Option (Ty × Nat)

/-- A buffer of the caller: declared with a type, which then never changes, or allocated (C11 6.5p6, note 87). -/
structure Storage where
  declared : Bool
  types : Types

/-- An array declared with elements of this type (for example /repo/tests/test_kem.c:24-27). -/
def ofDecl (t : Ty) : Storage := ⟨true, fun b => some (t, b % t.size)⟩

/-- Memory from `malloc` (C11 7.22.3.4). -/
def ofMalloc : Storage := ⟨false, fun _ => none⟩

/-- The buffers of the caller (/repo/src/kem.c:15, 78, 153). -/
abbrev State := Buf → Storage

/-- An access: through an lvalue of a type to read or to modify, or `memcpy` (C11 6.5p6-7). -/
inductive Ev where
  | rd (o : Obj) (off : Nat) (t : Ty)
  | wr (o : Obj) (off : Nat) (t : Ty)
  | cpy (d : Obj) (doff : Nat) (s : Obj) (soff len : Nat)
  deriving DecidableEq, Repr

/-- The effective types of an object (C11 6.5p6). -/
def typesOf (σ : State) : Obj → Types
  | .loc _ t => fun b => some (t, b % t.size)
  | .buf b => (σ b).types

/-- One byte of an access (C11 6.5p7): the `i`-th of an lvalue of type `t`. -/
def byteOk (t : Ty) (i : Nat) : Option (Ty × Nat) → Bool
  | none => true
  | some (T, k) => T.same t && k == i || T.component t && k % t.size == i

/-- The bytes from `off` on may be accessed through the type `t` (C11 6.5p7). -/
def fits (e : Types) (off : Nat) (t : Ty) : Bool :=
  t.any || (List.range t.size).all fun i => byteOk t i (e (off + i))

/-- The type of the object does not change (C11 6.5p6: an object with a declared type). -/
def isDeclared (σ : State) : Obj → Bool
  | .loc _ _ => true
  | .buf b => (σ b).declared

/-- The access respects the rule: reading wants a type that fits, and so does modifying an object with a declared type;
modifying another gives it the type (C11 6.5p6-7). -/
def ok (σ : State) : Ev → Bool
  | .rd o off t => fits (typesOf σ o) off t
  | .wr o off t => !isDeclared σ o || fits (typesOf σ o) off t
  | .cpy .. => true

/-- Give the bytes of the interval new types (C11 6.5p6). -/
def retype (σ : State) (o : Obj) (off len : Nat) (f : Nat → Option (Ty × Nat)) : State :=
  match o with
  | .loc _ _ => σ
  | .buf b => if (σ b).declared then σ else
      fun c => if c = b then ⟨false, fun k => if off ≤ k ∧ k < off + len then f (k - off) else (σ b).types k⟩ else σ c

/-- What an access changes of the effective types: modifying through a type that is not a character type gives the type, `memcpy`
copies the types, modifying bytes removes them (C11 6.5p6). -/
def step (σ : State) : Ev → State
  | .rd .. => σ
  | .wr o off t => retype σ o off t.size fun i => if t = .u8 then none else some (t, i)
  | .cpy d doff s soff len => retype σ d doff len fun i => typesOf σ s (soff + i)

/-- The accesses that break the rule, in order: each is undefined behaviour (C11 6.5p7; for /repo/src and /repo/tests). -/
def bad (σ : State) : List Ev → List Ev
  | [] => []
  | e :: l => (if ok σ e then [] else [e]) ++ bad (step σ e) l

/-- The effective types afterwards (C11 6.5p6). -/
def final (σ : State) (l : List Ev) : State := l.foldl step σ

/-! ## Building blocks -/

/-- A pointer: an object and a number of bytes (the parameters of the functions of /repo/src). -/
structure Ptr where
  o : Obj
  off : Nat

/-- The beginning of an array that the library declares (declarations cited at the functions of /repo/src below). -/
def loc (name : String) (t : Ty) : Ptr := ⟨.loc name t, 0⟩

/-- The beginning of a buffer (/repo/src/kem.c:15, 78, 153). -/
def buf (b : Buf) : Ptr := ⟨.buf b, 0⟩

/-- Add bytes to a pointer (as /repo/src/kem.c:19-24). -/
def Ptr.add (p : Ptr) (n : Nat) : Ptr := ⟨p.o, p.off + n⟩

/-- Read element `i` of an array of type `t` (as /repo/src/util.c:117). -/
def rdE (p : Ptr) (t : Ty) (i : Nat) : Ev := .rd p.o (p.off + t.size * i) t

/-- Modify element `i` of an array of type `t` (as /repo/src/util.c:141). -/
def wrE (p : Ptr) (t : Ty) (i : Nat) : Ev := .wr p.o (p.off + t.size * i) t

/-- Read `n` elements (as /repo/src/util.c:116-118). -/
def rds (p : Ptr) (t : Ty) (n : Nat) : List Ev := (List.range n).map (rdE p t)

/-- Modify `n` elements: `memset`, `= {0}`, loops like /repo/src/util.c:140-142. -/
def wrs (p : Ptr) (t : Ty) (n : Nat) : List Ev := (List.range n).map (wrE p t)

/-- Read and modify `n` elements, as `out[i] += sum` in a loop (/repo/src/frodo_macrify_reference.c:61). -/
def rws (p : Ptr) (t : Ty) (n : Nat) : List Ev := (List.range n).flatMap fun i => [rdE p t i, wrE p t i]

/-- `memcpy` (for example /repo/src/kem.c:43). -/
def memcpy (d s : Ptr) (len : Nat) : List Ev := [.cpy d.o d.off s.o s.off len]

/-- A build: code path, AES, generator of `A`, definitions for the byte order (/repo/src/config.h:59-114). -/
inductive Aes where
  | c | ni | openssl
  deriving DecidableEq, Repr

@[inherit_doc Aes] structure Cfg where
  impl : Impl
  aes : Aes
  gen : MatGen
  order : Order
  deriving DecidableEq

/-- `LE_TO_UINT16(x[i])` (/repo/src/config.h:100, 103, 106): the first definition evaluates its argument twice, the third reads bytes. -/
def leToUint16 (o : Order) (p : Ptr) (t : Ty) (i : Nat) : List Ev :=
  match o with
  | .swap => [rdE p t i, rdE p t i]
  | .same => [rdE p t i]
  | .bytes => [.rd p.o (p.off + t.size * i) .u8, .rd p.o (p.off + t.size * i + 1) .u8]

/-- What `UINT16_TO_LE` does besides evaluating its argument (/repo/src/config.h:101, 104, 107-113): the third definition
goes through the bytes of `y`. -/
def uint16ToLe : Order → List Ev
  | .swap => []
  | .same => []
  | .bytes => wrs (loc "y" .u16) .u8 2 ++ [rdE (loc "y" .u16) .u16 0]

/-- `X[i] = LE_TO_UINT16(X[i])` in a loop (/repo/src/kem.c:45-47, /repo/src/frodo_macrify.c:99-101). -/
def leLoop (o : Order) (p : Ptr) (t : Ty) (n : Nat) : List Ev :=
  (List.range n).flatMap fun i => leToUint16 o p t i ++ [wrE p t i]

/-! ## SHAKE -/

/-- `KeccakF1600_StatePermute` (/repo/src/sha3/fips202.c:73-338). -/
def keccakF (s : Ptr) : List Ev :=
  rds s .u64 25 ++ rds (loc "KeccakF_RoundConstants" .u64) .u64 24 ++ wrs s .u64 25

/-- `s[i] ^= load64(m)` (/repo/src/sha3/fips202.c:22-30, 351-352). -/
def xorLane (s : Ptr) (i : Nat) (m : Ptr) : List Ev := rds m .u8 8 ++ [rdE s .u64 i, wrE s .u64 i]

/-- `keccak_absorb` (/repo/src/sha3/fips202.c:344-367). -/
def keccak_absorb (s : Ptr) (r : Nat) (m : Ptr) (mlen : Nat) : List Ev :=
  let t := loc "t" .u8
  ((List.range (mlen / r)).flatMap fun k =>
    ((List.range (r / 8)).flatMap fun i => xorLane s i (m.add (k * r + 8 * i))) ++ keccakF s) ++
  wrs t .u8 r ++
  ((List.range (mlen % r)).flatMap fun i => [rdE (m.add (mlen / r * r)) .u8 i, wrE t .u8 i]) ++
  [wrE t .u8 (mlen % r), rdE t .u8 (r - 1), wrE t .u8 (r - 1)] ++
  (List.range (r / 8)).flatMap fun i => xorLane s i (t.add (8 * i))

/-- `keccak_squeezeblocks` (/repo/src/sha3/fips202.c:370-384) with `store64` (/repo/src/sha3/fips202.c:33-41). -/
def keccak_squeezeblocks (h : Ptr) (n : Nat) (s : Ptr) (r : Nat) : List Ev :=
  (List.range n).flatMap fun k => keccakF s ++
    (List.range (r / 8)).flatMap fun i => rdE s .u64 i :: wrs (h.add (k * r + 8 * i)) .u8 8

/-- `shake128` and `shake256` (/repo/src/sha3/fips202.c:401-423, 440-465), of rate `r`. -/
def shakeR (r : Nat) (out : Ptr) (outlen : Nat) (inp : Ptr) (inlen : Nat) : List Ev :=
  let s := loc "s" .u64
  let t := loc "t" .u8
  wrs s .u64 25 ++ keccak_absorb s r inp inlen ++ keccak_squeezeblocks out (outlen / r) s r ++
  if outlen % r = 0 then [] else
    keccak_squeezeblocks t 1 s r ++
      (List.range (outlen % r)).flatMap fun i => [rdE t .u8 i, wrE (out.add (outlen / r * r)) .u8 i]

/-- The macro `shake` (/repo/src/frodo640.c:29, frodo976.c:29, frodo1344.c:29). -/
def shake (P : Params) : Ptr → Nat → Ptr → Nat → List Ev :=
  match P.shake with
  | .shake128 => shakeR 168
  | .shake256 => shakeR 136

/-- `KeccakP1600times4_PermuteAll_24rounds` (/repo/src/sha3/keccak4x/KeccakP-1600-times4-SIMD256.c:802-813): the state through
`V256`, in every round `rho8` and `rho56` through `V256` (lines 47-48) and a constant through `double` (lines 42, 492). -/
def permute4 (s : Ptr) : List Ev :=
  rds s .v256 25 ++
  ((List.range 24).flatMap fun i => [rdE (loc "rho8" .ull) .v256 0, rdE (loc "rho56" .ull) .v256 0,
    rdE (loc "KeccakF1600RoundConstants" .ull) .dbl i]) ++
  wrs s .v256 25

/-- `ss[4*i+0] ^= load64(m0 + 8 * i)` to `ss[4*i+3] ^= load64(m3 + 8 * i)` (/repo/src/sha3/fips202x4.c:45, 51-54): the state of type
`__m256i` through `unsigned long long`. -/
def xorLane4 (s : Ptr) (i : Nat) (m : Fin 4 → Ptr) : List Ev :=
  (List.finRange 4).flatMap fun j => rds (m j) .u8 8 ++ [rdE s .ull (4 * i + j), wrE s .ull (4 * i + j)]

/-- The arrays `t0` to `t3` (/repo/src/sha3/fips202x4.c:41-44, 149-152). -/
def t4 (j : Fin 4) : Ptr := loc (["t0", "t1", "t2", "t3"].getD j "") .u8

/-- `keccak_absorb4x` (/repo/src/sha3/fips202x4.c:37-97). -/
def keccak_absorb4x (s : Ptr) (r : Nat) (m : Fin 4 → Ptr) (mlen : Nat) : List Ev :=
  ((List.range (mlen / r)).flatMap fun k =>
    ((List.range (r / 8)).flatMap fun i => xorLane4 s i fun j => (m j).add (k * r + 8 * i)) ++ permute4 s) ++
  ((List.finRange 4).flatMap fun j => wrs (t4 j) .u8 r ++
    ((List.range (mlen % r)).flatMap fun i => [rdE ((m j).add (mlen / r * r)) .u8 i, wrE (t4 j) .u8 i]) ++
    [wrE (t4 j) .u8 (mlen % r), rdE (t4 j) .u8 (r - 1), wrE (t4 j) .u8 (r - 1)]) ++
  (List.range (r / 8)).flatMap fun i => xorLane4 s i fun j => (t4 j).add (8 * i)

/-- `keccak_squeezeblocks4x` (/repo/src/sha3/fips202x4.c:100-121). -/
def keccak_squeezeblocks4x (h : Fin 4 → Ptr) (n : Nat) (s : Ptr) (r : Nat) : List Ev :=
  (List.range n).flatMap fun k => permute4 s ++
    (List.range (r / 8)).flatMap fun i => (List.finRange 4).flatMap fun j : Fin 4 =>
      rdE s .ull (4 * i + j) :: wrs ((h j).add (k * r + 8 * i)) .u8 8

/-- `shake128_4x` (/repo/src/sha3/fips202x4.c:145-175), with the zeroing of `shake128_absorb4x` (lines 126-135). -/
def shake128_4x (out : Fin 4 → Ptr) (outlen : Nat) (inp : Fin 4 → Ptr) (inlen : Nat) : List Ev :=
  let s := loc "s" .v256
  rws s .v256 25 ++ keccak_absorb4x s 168 inp inlen ++ keccak_squeezeblocks4x out (outlen / 168) s 168 ++
  if outlen % 168 = 0 then [] else
    keccak_squeezeblocks4x t4 1 s 168 ++
      (List.range (outlen % 168)).flatMap fun i => (List.finRange 4).flatMap fun j =>
        [rdE (t4 j) .u8 i, wrE ((out j).add (outlen / 168 * 168)) .u8 i]

/-! ## AES -/

/-- `AES128_load_schedule` (/repo/src/aes/aes.c:17-23): bytes in /repo/src/aes/aes_c.c:58-124, `__m128i` in /repo/src/aes/aes_ni.c:32-45.
OpenSSL takes the key as bytes (/repo/src/frodo_macrify.c:40). -/
def aes_load (a : Aes) (key sch : Ptr) : List Ev :=
  match a with
  | .c => rds key .u8 16 ++ wrs sch .u8 16 ++ (List.range 160).flatMap fun i =>
      [rdE sch .u8 (12 + i), wrE (loc "tempa" .u8) .u8 (i % 4), rdE (loc "tempa" .u8) .u8 (i % 4), rdE (loc "sbox" .u8) .u8 0,
        rdE (loc "Rcon" .u8) .u8 (i / 16), rdE sch .u8 i, wrE sch .u8 (16 + i)]
  | .ni => rdE key .v128 0 :: wrE sch .v128 0 :: (List.range 10).flatMap fun i => [rdE sch .v128 i, wrE sch .v128 (i + 1)]
  | .openssl => rds key .u8 16

/-- `aes128_enc` (/repo/src/aes/aes.c:26-32): `aes128_enc_c` copies the block and works on its bytes (/repo/src/aes/aes_c.c:343-350),
`aes128_enc_ni` uses `__m128i` (/repo/src/aes/aes_ni.c:68-79), OpenSSL takes bytes (/repo/src/frodo_macrify.c:62). -/
def aes_enc (a : Aes) (inp sch out : Ptr) : List Ev :=
  match a with
  | .c => memcpy out inp 16 ++ (List.range 11).flatMap fun r => rds (sch.add (16 * r)) .u8 16 ++ rws out .u8 16 ++
      rds (loc "sbox" .u8) .u8 256
  | .ni => rdE inp .v128 0 :: rds sch .v128 11 ++ [wrE out .v128 0]
  | .openssl => rds inp .u8 16 ++ wrs out .u8 16

/-- `AES128_ECB_enc_sch` (/repo/src/aes/aes.c:35-40). -/
def aes_ecb (a : Aes) (inp : Ptr) (len : Nat) (sch out : Ptr) : List Ev :=
  (List.range (len / 16)).flatMap fun b => aes_enc a (inp.add (16 * b)) sch (out.add (16 * b))

/-- `AES128_free_schedule` (/repo/src/aes/aes.c:43-45, 90-92). -/
def aes_free (a : Aes) (sch : Ptr) : List Ev :=
  match a with
  | .openssl => []
  | _ => wrs sch .u8 (16 * 11)

/-- `aes_key_schedule` (/repo/src/frodo_macrify.c:35, 137; /repo/src/frodo_macrify_reference.c:31, 89). -/
def schedule : Ptr := loc "aes_key_schedule" .u8

/-! ## Matrices -/

/-- `seed_A_separated` and its copies (/repo/src/frodo_macrify.c:66, 79-82, 176, 199-202; /repo/src/frodo_macrify_reference.c:42, 100). -/
def seedSep (j : Fin 4) : Ptr :=
  loc (["seed_A_separated_0", "seed_A_separated_1", "seed_A_separated_2", "seed_A_separated_3"].getD j "") .u8

@[inherit_doc seedSep] def seedSep1 : Ptr := loc "seed_A_separated" .u8

/-- `seed_A_origin[0] = UINT16_TO_LE(i)` (/repo/src/frodo_macrify.c:67, 70; /repo/src/frodo_macrify_reference.c:43, 46): an array of
`uint8_t` through `uint16_t`. -/
def seedWrite (B : Cfg) (seed : Ptr) : List Ev := uint16ToLe B.order ++ [wrE seed .u16 0]

/-- One row of `A` with SHAKE (/repo/src/frodo_macrify.c:70-71, 182-183; /repo/src/frodo_macrify_reference.c:46-47, 104-105). -/
def shakeRow (B : Cfg) (P : Params) (out : Ptr) : List Ev :=
  seedWrite B seedSep1 ++ shakeR 168 out (2 * P.n) seedSep1 (2 + P.seedA)

/-- Four rows of `A` at once (/repo/src/frodo_macrify.c:92-97, 216-221, 223-228). -/
def shakeRows4 (B : Cfg) (P : Params) (out : Ptr) : List Ev :=
  ((List.finRange 4).flatMap fun j => seedWrite B (seedSep j)) ++
  shake128_4x (fun j => out.add (2 * (j * P.n))) (2 * P.n) seedSep (2 + P.seedA)

/-- The matrix `A` of the reference code (/repo/src/frodo_macrify_reference.c:18-52, 76-110), of type `int16_t`. -/
def genAReference (B : Cfg) (P : Params) (seed : Ptr) : List Ev :=
  let A := loc "A" .i16
  wrs A .i16 (P.n * P.n) ++
  (match B.gen with
  | .aes =>
    ((List.range P.n).flatMap fun i => (List.range (P.n / P.stripe)).flatMap fun j =>
      uint16ToLe B.order ++ [wrE A .i16 (i * P.n + P.stripe * j)] ++
        uint16ToLe B.order ++ [wrE A .i16 (i * P.n + P.stripe * j + 1)]) ++
    aes_load B.aes seed schedule ++ aes_ecb B.aes A (2 * (P.n * P.n)) schedule A
  | .shake => memcpy (seedSep1.add 2) seed P.seedA ++ (List.range P.n).flatMap fun i => shakeRow B P (A.add (2 * (i * P.n)))) ++
  leLoop B.order A .i16 (P.n * P.n)

/-- The end of the two functions (/repo/src/frodo_macrify.c:119-121, 268-270; /repo/src/frodo_macrify_reference.c:65-67, 123-125). -/
def freeSchedule (B : Cfg) : List Ev :=
  match B.gen with
  | .aes => aes_free B.aes schedule
  | .shake => []

/-- `frodo_mul_add_as_plus_e` of the reference code (/repo/src/frodo_macrify_reference.c:14-69). -/
def asReference (B : Cfg) (P : Params) (out s e seed : Ptr) : List Ev :=
  genAReference B P seed ++ memcpy out e (P.nbar * P.n * 2) ++
  ((List.range P.n).flatMap fun i => (List.range P.nbar).flatMap fun k =>
    ((List.range P.n).flatMap fun j => [rdE (loc "A" .i16) .i16 (i * P.n + j), rdE s .u16 (k * P.n + j)]) ++
      [rdE out .u16 (i * P.nbar + k), wrE out .u16 (i * P.nbar + k)]) ++
  freeSchedule B

/-- `frodo_mul_add_sa_plus_e` of the reference code (/repo/src/frodo_macrify_reference.c:72-127). -/
def saReference (B : Cfg) (P : Params) (out s e seed : Ptr) : List Ev :=
  genAReference B P seed ++ memcpy out e (P.nbar * P.n * 2) ++
  ((List.range P.n).flatMap fun i => (List.range P.nbar).flatMap fun k =>
    ((List.range P.n).flatMap fun j => [rdE (loc "A" .i16) .i16 (j * P.n + i), rdE s .u16 (k * P.n + j)]) ++
      [rdE out .u16 (k * P.n + i), wrE out .u16 (k * P.n + i)]) ++
  freeSchedule B

/-- `*((uint32_t*)&out[i]) = *((uint32_t*)&e[i])` (/repo/src/frodo_macrify.c:28-30): arrays of `uint16_t` through `uint32_t`. -/
def copyE (P : Params) (out e : Ptr) : List Ev :=
  (List.range (P.n * P.nbar / 2)).flatMap fun i => [rdE e .u32 i, wrE out .u32 i]

/-- Four rows of `A` (/repo/src/frodo_macrify.c:51-98): `a_row` and `a_row_temp` of type `int16_t`. -/
def fourRows (B : Cfg) (P : Params) : List Ev :=
  let a_row := loc "a_row" .i16
  match B.gen with
  | .aes =>
    ((List.range (P.n / P.stripe)).flatMap fun j => (List.range 4).flatMap fun k =>
      uint16ToLe B.order ++ [wrE (loc "a_row_temp" .i16) .i16 (P.stripe * j + k * P.n)]) ++
    aes_ecb B.aes (loc "a_row_temp" .i16) (4 * P.n * 2) schedule a_row
  | .shake =>
    match B.impl with
    | .avx2 => shakeRows4 B P a_row
    | _ => (List.range 4).flatMap fun k => shakeRow B P (a_row.add (2 * (k * P.n)))

/-- What comes before the loop over `A` in `frodo_mul_add_as_plus_e` (/repo/src/frodo_macrify.c:32-49, 66-68, 79-90). -/
def asSetup (B : Cfg) (P : Params) (seed : Ptr) : List Ev :=
  match B.gen with
  | .aes =>
    wrs (loc "a_row_temp" .i16) .i16 (4 * P.n) ++ aes_load B.aes seed schedule ++
    (List.range (P.n / P.stripe)).flatMap fun j => (List.range 4).flatMap fun k =>
      uint16ToLe B.order ++ [wrE (loc "a_row_temp" .i16) .i16 (P.stripe * j + 1 + k * P.n)]
  | .shake =>
    match B.impl with
    | .avx2 => (List.finRange 4).flatMap fun j => memcpy ((seedSep j).add 2) seed P.seedA
    | _ => memcpy (seedSep1.add 2) seed P.seedA

/-- `frodo_mul_add_as_plus_e` (/repo/src/frodo_macrify.c:21-123). -/
def as_plus_e (B : Cfg) (P : Params) (out s e seed : Ptr) : List Ev :=
  match B.impl with
  | .reference => asReference B P out s e seed
  | _ =>
    let a_row := loc "a_row" .i16
    wrs a_row .i16 (4 * P.n) ++ copyE P out e ++ asSetup B P seed ++
    ((List.range (P.n / 4)).flatMap fun i => fourRows B P ++ leLoop B.order a_row .i16 (4 * P.n) ++
      (List.range P.nbar).flatMap fun k =>
        wrs (loc "sum" .u16) .u16 4 ++
        ((List.range P.n).flatMap fun j => rdE s .u16 (k * P.n + j) :: (List.range 4).flatMap fun m =>
          [rdE (loc "sum" .u16) .u16 m, rdE a_row .i16 (m * P.n + j), wrE (loc "sum" .u16) .u16 m]) ++
        (List.range 4).flatMap fun m =>
          [rdE (loc "sum" .u16) .u16 m, rdE out .u16 ((4 * i + m) * P.nbar + k), wrE out .u16 ((4 * i + m) * P.nbar + k)]) ++
    freeSchedule B

/-- What comes before the loop over `A` in `frodo_mul_add_sa_plus_e` (/repo/src/frodo_macrify.c:135-157, 176-178, 199-210). -/
def saSetup (B : Cfg) (P : Params) (seed : Ptr) : List Ev :=
  match B.gen with
  | .aes =>
    aes_load B.aes seed schedule ++ wrs (loc "Ainit" .u16) .u16 (P.n * 8) ++
    (List.range (P.n / 8)).flatMap fun j => (List.range 8).flatMap fun k =>
      uint16ToLe B.order ++ [wrE (loc "Ainit" .u16) .u16 (k * P.n + 8 * j + 1)]
  | .shake =>
    match B.impl with
    | .avx2 => (List.finRange 4).flatMap fun j => memcpy ((seedSep j).add 2) seed P.seedA
    | _ => memcpy (seedSep1.add 2) seed P.seedA

/-- Eight rows of `A` (/repo/src/frodo_macrify.c:160-230), of type `uint16_t`. -/
def eightRows (B : Cfg) (P : Params) : List Ev :=
  let A := loc "A" .u16
  match B.gen with
  | .aes =>
    ((List.range 8).flatMap fun q => (List.range (P.n / 8)).flatMap fun p =>
      uint16ToLe B.order ++ [wrE (loc "Ainit" .u16) .u16 (q * P.n + 8 * p)]) ++
    aes_ecb B.aes (loc "Ainit" .u16) (8 * P.n * 2) schedule A
  | .shake =>
    match B.impl with
    | .avx2 => shakeRows4 B P A ++ shakeRows4 B P (A.add (2 * (4 * P.n)))
    | _ => (List.range 8).flatMap fun k => shakeRow B P (A.add (2 * (k * P.n)))

/-- The multiplication in `frodo_mul_add_sa_plus_e` (/repo/src/frodo_macrify.c:232-248 without, 250-265 with vectors). -/
def saMul (B : Cfg) (P : Params) (s e : Ptr) (i : Nat) : List Ev :=
  let A := loc "A" .u16
  (List.range P.nbar).flatMap fun j =>
    match B.impl with
    | .avx2 =>
      ((List.range 8).flatMap fun p => [rdE s .u16 (j * P.n + 8 * i + p), wrE (loc "sp" .v256) .v256 p]) ++
      (List.range (P.n / 16)).flatMap fun q => rdE (e.add (2 * (j * P.n))) .v256 q ::
        ((List.range 8).flatMap fun p => [rdE (A.add (2 * (p * P.n))) .v256 q, rdE (loc "sp" .v256) .v256 p]) ++
        [wrE (e.add (2 * (j * P.n))) .v256 q]
    | _ =>
      ((List.range 8).flatMap fun p => [rdE s .u16 (j * P.n + 8 * i + p), wrE (loc "sp" .i16) .i16 p]) ++
      (List.range P.n).flatMap fun q => rdE e .u16 (j * P.n + q) ::
        ((List.range 8).flatMap fun p => [rdE (loc "sp" .i16) .i16 p, rdE A .u16 (p * P.n + q)]) ++
        [wrE e .u16 (j * P.n + q)]

/-- `frodo_mul_add_sa_plus_e` (/repo/src/frodo_macrify.c:126-272). -/
def sa_plus_e (B : Cfg) (P : Params) (out s e seed : Ptr) : List Ev :=
  match B.impl with
  | .reference => saReference B P out s e seed
  | _ =>
    wrs (loc "A" .u16) .u16 (P.n * 8) ++ saSetup B P seed ++
    ((List.range (P.n / 8)).flatMap fun i => eightRows B P ++ saMul B P s e i) ++
    memcpy out e (2 * P.n * P.nbar) ++ freeSchedule B

/-- `frodo_mul_bs` (/repo/src/frodo_macrify.c:275-290). -/
def mul_bs (P : Params) (out b s : Ptr) : List Ev :=
  (List.range P.nbar).flatMap fun i => (List.range P.nbar).flatMap fun j => wrE out .u16 (i * P.nbar + j) ::
    ((List.range P.n).flatMap fun k => [rdE b .u16 (i * P.n + k), rdE s .u16 (j * P.n + k), rdE out .u16 (i * P.nbar + j),
      wrE out .u16 (i * P.nbar + j)]) ++ [rdE out .u16 (i * P.nbar + j), wrE out .u16 (i * P.nbar + j)]

/-- `frodo_mul_add_sb_plus_e` (/repo/src/frodo_macrify.c:293-308). -/
def mul_add_sb (P : Params) (out b s e : Ptr) : List Ev :=
  (List.range P.nbar).flatMap fun k => (List.range P.nbar).flatMap fun i =>
    rdE e .u16 (k * P.nbar + i) :: wrE out .u16 (k * P.nbar + i) ::
    ((List.range P.n).flatMap fun j => [rdE s .u16 (k * P.n + j), rdE b .u16 (j * P.nbar + i), rdE out .u16 (k * P.nbar + i),
      wrE out .u16 (k * P.nbar + i)]) ++ [rdE out .u16 (k * P.nbar + i), wrE out .u16 (k * P.nbar + i)]

/-- `frodo_add` and `frodo_sub` (/repo/src/frodo_macrify.c:311-330). -/
def addSub (P : Params) (out a b : Ptr) : List Ev :=
  (List.range (P.nbar * P.nbar)).flatMap fun i => [rdE a .u16 i, rdE b .u16 i, wrE out .u16 i]

/-- `frodo_key_encode` (/repo/src/frodo_macrify.c:333-350): the message through `uint8_t`. -/
def key_encode (P : Params) (out inp : Ptr) : List Ev :=
  (List.range (P.nbar * P.nbar / 8)).flatMap fun i =>
    ((List.range P.B).map fun j => rdE inp .u8 (i * P.B + j)) ++ (List.range 8).map fun j => wrE out .u16 (8 * i + j)

/-- `frodo_key_decode` (/repo/src/frodo_macrify.c:353-371): the message through `uint8_t`. -/
def key_decode (P : Params) (out inp : Ptr) : List Ev :=
  (List.range (P.nbar * P.nbar / 8)).flatMap fun i =>
    ((List.range 8).map fun j => rdE inp .u16 (8 * i + j)) ++ (List.range P.B).map fun j => wrE out .u8 (i * P.B + j)

/-- `frodo_pack` (/repo/src/util.c:13-59). -/
def pack (out : Ptr) (outlen : Nat) (inp : Ptr) (inlen : Nat) : List Ev :=
  wrs out .u8 outlen ++ rds inp .u16 inlen ++ rws out .u8 outlen

/-- `frodo_unpack` (/repo/src/util.c:62-108). -/
def unpack (out : Ptr) (outlen : Nat) (inp : Ptr) (inlen : Nat) : List Ev :=
  wrs out .u8 (outlen * 2) ++ rds inp .u8 inlen ++ rws out .u16 outlen

/-- `frodo_sample_n` (/repo/src/noise.c:10-29). -/
def sample_n (P : Params) (s : Ptr) (n : Nat) : List Ev :=
  (List.range n).flatMap fun i => rdE s .u16 i :: rdE s .u16 i :: rds (loc "CDF_TABLE" .u16) .u16 (P.cdf.length - 1) ++ [wrE s .u16 i]

/-- `clear_bytes` (/repo/src/util.c:135-143). -/
def clear (p : Ptr) (n : Nat) : List Ev := wrs p .u8 n

/-- `randombytes` (/repo/src/random/random.c:28-65; /repo/tests/rng.c:32-63): bytes. -/
def randombytes (p : Ptr) (n : Nat) : List Ev := wrs p .u8 n

/-! ## The KEM -/

/-- `crypto_kem_keypair` (/repo/src/kem.c:15-75). -/
def keypair (B : Cfg) (P : Params) : List Ev :=
  let pk := buf .pk
  let sk := buf .sk
  let Bm := loc "B" .u16
  let S := loc "S" .u16
  let E := S.add (2 * (P.n * P.nbar))
  let rnd := loc "randomness" .u8
  let sse := loc "shake_input_seedSE" .u8
  wrs Bm .u16 (P.n * P.nbar) ++ wrs S .u16 (2 * P.n * P.nbar) ++
  randombytes rnd (2 * P.bytes + P.seedA) ++
  shake P pk P.seedA (rnd.add (2 * P.bytes)) P.seedA ++
  wrE sse .u8 0 :: memcpy (sse.add 1) (rnd.add P.bytes) P.bytes ++
  shake P S (2 * P.n * P.nbar * 2) sse (1 + P.bytes) ++
  leLoop B.order S .u16 (2 * P.n * P.nbar) ++
  sample_n P S (P.n * P.nbar) ++ sample_n P E (P.n * P.nbar) ++
  as_plus_e B P Bm S E pk ++
  pack (pk.add P.seedA) (P.pkBytes - P.seedA) Bm (P.n * P.nbar) ++
  memcpy sk rnd P.bytes ++ memcpy (sk.add P.bytes) pk P.pkBytes ++
  ((List.range (P.n * P.nbar)).flatMap fun i =>
    (if B.order = .swap then [rdE S .u16 i] else []) ++ rdE S .u16 i :: uint16ToLe B.order ++ [wrE S .u16 i]) ++
  memcpy (sk.add (P.bytes + P.pkBytes)) S (2 * P.n * P.nbar) ++
  shake P (sk.add (P.bytes + P.pkBytes + 2 * P.n * P.nbar)) P.bytes pk P.pkBytes ++
  clear S (P.n * P.nbar * 2) ++ clear E (P.n * P.nbar * 2) ++ clear rnd (2 * P.bytes) ++ clear sse (1 + P.bytes)

/-- What `crypto_kem_enc` and `crypto_kem_dec` share (/repo/src/kem.c:108-129 except 120, 201-221): `Sp`, `Ep` and `Bp`, `Epp` and `V`,
the encoded message. -/
def encrypt (B : Cfg) (P : Params) (Bm Bp V C mu seedSE seedA b : Ptr) (out1 : List Ev) : List Ev :=
  let Sp := loc "Sp" .u16
  let Ep := Sp.add (2 * (P.n * P.nbar))
  let Epp := Sp.add (2 * (2 * P.n * P.nbar))
  let sse := loc "shake_input_seedSE" .u8
  wrE sse .u8 0 :: memcpy (sse.add 1) seedSE P.bytes ++
  shake P Sp ((2 * P.n + P.nbar) * P.nbar * 2) sse (1 + P.bytes) ++
  leLoop B.order Sp .u16 ((2 * P.n + P.nbar) * P.nbar) ++
  sample_n P Sp (P.n * P.nbar) ++ sample_n P Ep (P.n * P.nbar) ++
  sa_plus_e B P Bp Sp Ep seedA ++ out1 ++
  sample_n P Epp (P.nbar * P.nbar) ++
  unpack Bm (P.n * P.nbar) b (P.pkBytes - P.seedA) ++
  mul_add_sb P V Bm Sp Epp ++ key_encode P C mu ++ addSub P C V C

/-- `crypto_kem_enc` (/repo/src/kem.c:78-150). -/
def enc (B : Cfg) (P : Params) : List Ev :=
  let pk := buf .pk
  let ct := buf .ct
  let Bm := loc "B" .u16
  let V := loc "V" .u16
  let C := loc "C" .u16
  let Bp := loc "Bp" .u16
  let Sp := loc "Sp" .u16
  let G2in := loc "G2in" .u8
  let G2out := loc "G2out" .u8
  let fin := loc "Fin" .u8
  let c1 := P.logq * P.n * P.nbar / 8
  let c2 := P.logq * P.nbar * P.nbar / 8
  wrs Bm .u16 (P.n * P.nbar) ++ wrs V .u16 (P.nbar * P.nbar) ++ wrs C .u16 (P.nbar * P.nbar) ++ wrs Bp .u16 (P.n * P.nbar) ++
  wrs Sp .u16 ((2 * P.n + P.nbar) * P.nbar) ++
  shake P G2in P.bytes pk P.pkBytes ++ randombytes (G2in.add P.bytes) P.bytesMu ++
  shake P G2out (2 * P.bytes) G2in (P.bytes + P.bytesMu) ++
  encrypt B P Bm Bp V C (G2in.add P.bytes) G2out pk (pk.add P.seedA) (pack ct c1 Bp (P.n * P.nbar)) ++
  pack (ct.add c1) c2 C (P.nbar * P.nbar) ++
  memcpy fin ct P.ctBytes ++ memcpy (fin.add P.ctBytes) (G2out.add P.bytes) P.bytes ++
  shake P (buf .ss) P.bytes fin (P.ctBytes + P.bytes) ++
  clear V (P.nbar * P.nbar * 2) ++ clear Sp (P.n * P.nbar * 2) ++ clear (Sp.add (2 * (P.n * P.nbar))) (P.n * P.nbar * 2) ++
  clear (Sp.add (2 * (2 * P.n * P.nbar))) (P.nbar * P.nbar * 2) ++ clear (G2in.add P.bytes) P.bytesMu ++ clear G2out (2 * P.bytes) ++
  clear (fin.add P.ctBytes) P.bytes ++ clear (loc "shake_input_seedSE" .u8) (1 + P.bytes)

/-- `S[i] = LE_TO_UINT16(sk_S[i])` (/repo/src/kem.c:168, 188-190): the secret key through `uint16_t`. -/
def loadS (B : Cfg) (P : Params) : List Ev :=
  (List.range (P.n * P.nbar)).flatMap fun i =>
    leToUint16 B.order ((buf .sk).add (P.bytes + P.pkBytes)) .u16 i ++ [wrE (loc "S" .u16) .u16 i]

/-- What `crypto_kem_dec` does after that (/repo/src/kem.c:192-252). -/
def decRest (B : Cfg) (P : Params) : List Ev :=
  let sk := buf .sk
  let ct := buf .ct
  let Bm := loc "B" .u16
  let Bp := loc "Bp" .u16
  let W := loc "W" .u16
  let C := loc "C" .u16
  let CC := loc "CC" .u16
  let BBp := loc "BBp" .u16
  let Sp := loc "Sp" .u16
  let S := loc "S" .u16
  let G2in := loc "G2in" .u8
  let G2out := loc "G2out" .u8
  let fin := loc "Fin" .u8
  let c1 := P.logq * P.n * P.nbar / 8
  let c2 := P.logq * P.nbar * P.nbar / 8
  unpack Bp (P.n * P.nbar) ct c1 ++ unpack C (P.nbar * P.nbar) (ct.add c1) c2 ++
  mul_bs P W Bp S ++ addSub P W C W ++ key_decode P (G2in.add P.bytes) W ++
  memcpy G2in (sk.add (P.bytes + P.pkBytes + 2 * P.n * P.nbar)) P.bytes ++
  shake P G2out (2 * P.bytes) G2in (P.bytes + P.bytesMu) ++
  encrypt B P Bm BBp W CC (G2in.add P.bytes) G2out (sk.add P.bytes) (sk.add (P.bytes + P.seedA)) [] ++
  memcpy fin ct P.ctBytes ++ rws BBp .u16 (P.n * P.nbar) ++
  ((List.range (P.n * P.nbar)).flatMap fun i => [rdE Bp .u16 i, rdE BBp .u16 i]) ++
  ((List.range (P.nbar * P.nbar)).flatMap fun i => [rdE C .u16 i, rdE CC .u16 i]) ++
  ((List.range P.bytes).flatMap fun i => [rdE (G2out.add P.bytes) .u8 i, rdE sk .u8 i, wrE (fin.add P.ctBytes) .u8 i]) ++
  shake P (buf .ss) P.bytes fin (P.ctBytes + P.bytes) ++
  clear W (P.nbar * P.nbar * 2) ++ clear Sp (P.n * P.nbar * 2) ++ clear S (P.n * P.nbar * 2) ++
  clear (Sp.add (2 * (P.n * P.nbar))) (P.n * P.nbar * 2) ++ clear (Sp.add (2 * (2 * P.n * P.nbar))) (P.nbar * P.nbar * 2) ++
  clear (G2in.add P.bytes) P.bytesMu ++ clear G2out (2 * P.bytes) ++ clear (fin.add P.ctBytes) P.bytes ++
  clear (loc "shake_input_seedSE" .u8) (1 + P.bytes)

/-- `crypto_kem_dec` (/repo/src/kem.c:153-252). -/
def dec (B : Cfg) (P : Params) : List Ev :=
  wrs (loc "B" .u16) .u16 (P.n * P.nbar) ++ wrs (loc "Bp" .u16) .u16 (P.n * P.nbar) ++ wrs (loc "W" .u16) .u16 (P.nbar * P.nbar) ++
  wrs (loc "C" .u16) .u16 (P.nbar * P.nbar) ++ wrs (loc "CC" .u16) .u16 (P.nbar * P.nbar) ++
  wrs (loc "BBp" .u16) .u16 (P.n * P.nbar) ++ wrs (loc "Sp" .u16) .u16 ((2 * P.n + P.nbar) * P.nbar) ++
  loadS B P ++ decRest B P

/-! ## The self test -/

/-- The changed digit in `kem_test` (/repo/tests/test_kem.c:28-29, 60-64): `bytes` through `uint32_t`, once more modified if it
is 0, and `ct` through `uint16_t`, at any place `pos`. -/
def tamper (zero : Bool) (pos : Nat) : List Ev :=
  let bytes := loc "bytes" .u8
  randombytes bytes 4 ++ [rdE bytes .u32 0, wrE bytes .u32 0, rdE bytes .u32 0] ++ (if zero then [wrE bytes .u32 0] else []) ++
  [rdE bytes .u32 0, rdE bytes .u32 0, rdE (buf .ct) .u16 pos, wrE (buf .ct) .u16 pos]

end Frodo.Eff

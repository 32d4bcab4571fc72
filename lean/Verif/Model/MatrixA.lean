import Verif.Model.Matrix
import Verif.Model.Ossl
import Verif.Model.Keccak4x
import Verif.Model.Mem
import Verif.Spec.GenA

/-! # Model of `frodo_mul_add_as_plus_e` and `frodo_mul_add_sa_plus_e`

/repo/src/frodo_macrify_reference.c:14-127 (reference) and /repo/src/frodo_macrify.c:21-272
(optimised, with and without AVX2). -/

namespace Frodo

open Spec (MatGen)

/-- The three code paths selected by the build (/repo/Makefile, variable `OPT_LEVEL`;
/repo/src/config.h:69-80 and the `USE_AVX2` conditionals of /repo/src/frodo_macrify.c). -/
inductive Impl where
  | reference | generic | avx2
  deriving DecidableEq, Repr

/-- A build of the library: byte order of the target, code path, AES back end and generator of `A`
(/repo/Makefile, /repo/src/config.h:69-117). -/
structure Build where
  arch : Arch
  impl : Impl
  aes : AesBackend
  gen : MatGen

/-! ## Reference code -/

/-- One row by SHAKE128: `seed_A_origin[0] = UINT16_TO_LE(i); shake128((unsigned char*)(A + r*N), …)`
(/repo/src/frodo_macrify_reference.c:46-47, 104-105;
/repo/src/frodo_macrify.c:70-71 and the like in 72-77, 182-197). -/
def shakeRow (B : Build) (E : Env) (P : Params) (i r : Nat) (st : List U16 × List U8) :
    C (List U16 × List U8) := do
  let (A, sep) := st
  let sep ← store16 B.arch sep (UINT16_TO_LE B.arch (u16 i))
  let A ← asBytes B.arch A (r * P.n) fun b => shake128 E.junk b (2 * P.n) sep (2 + P.seedA)
  pure (A, sep)

/-- Generation of the whole matrix `A` into an array, in memory order, and the AES key schedule that
remains (/repo/src/frodo_macrify_reference.c:19-49, and again the same text in lines 77-107).  The
conversion of the pointer in line 43 requires an even address (C11 6.3.2.3p7). -/
def genA_memory (B : Build) (E : Env) (P : Params) (seed : List U8) : C (List U16 × Sched) :=
  let A : List U16 := List.replicate (P.n * P.n) 0
  match B.gen with
  | .aes => do
    let A ← forC 0 P.n 1 A fun i A =>
      forC 0 P.n P.stripe A fun j A => do
        let A ← wr A (i * P.n + j) (UINT16_TO_LE B.arch (u16 i))
        wr A (i * P.n + j + 1) (UINT16_TO_LE B.arch (u16 j))
    let sched ← setup128 B.aes E seed
    let A ← asBytes B.arch A 0 fun b =>
      encrypt128_inplace B.aes E (P.n * P.n * 2) sched b
    pure (A, sched)
  | .shake => do
    C.require (E.addr (.sep 0) % 2 = 0) .misaligned
    let sep ← memcpy (uninit E.junk 31 8 (2 + P.seedA)) 2 seed 0 P.seedA
    let (A, _) ← forC 0 P.n 1 (A, sep) fun i st => shakeRow B E P i i st
    pure (A, .gone)

/-- Generation of the whole matrix `A`
(/repo/src/frodo_macrify_reference.c:19-52, and again the same text in lines 77-110). -/
def genA_reference (B : Build) (E : Env) (P : Params) (seed : List U8) :
    C (List U16 × Sched) := do
  let (A, sched) ← genA_memory B E P seed
  let A ← forC 0 (P.n * P.n) 1 A fun i A => do
    let x ← rd A i
    wr A i (LE_TO_UINT16 B.arch x)
  pure (A, sched)

/-- `#if defined(USE_AES128_FOR_A) AES128_free_schedule(aes_key_schedule)`
(/repo/src/frodo_macrify_reference.c:65-67, 123-125; /repo/src/frodo_macrify.c:119-121, 268-270). -/
def freeSched (B : Build) (sched : Sched) : C Sched :=
  match B.gen with
  | .aes => free128 B.aes sched
  | .shake => pure sched

/-- `frodo_mul_add_as_plus_e` (/repo/src/frodo_macrify_reference.c:14-69): `out`, and the object
`aes_key_schedule` when the function returns. -/
def as_plus_e_reference_full (B : Build) (E : Env) (P : Params) (out s e : List U16)
    (seed : List U8) : C (List U16 × Sched) := do
  let (A, sched) ← genA_reference B E P seed
  let out ← memcpy out 0 e 0 (P.nbar * P.n)
  let out ← forC 0 P.n 1 out fun i out =>
    forC 0 P.nbar 1 out fun k out => do
      let sum ← forC 0 P.n 1 (0 : U16) fun j sum => do
        let x ← rd A (i * P.n + j)
        let y ← rd s (k * P.n + j)
        let p ← int (i16 (x : Int) * (y : Int))
        let r ← int ((sum : Int) + p)
        pure (u16 r)
      let x ← rd out (i * P.nbar + k)
      let r ← int ((x : Int) + (sum : Int))
      wr out (i * P.nbar + k) (u16 r)
  let sched ← freeSched B sched
  pure (out, sched)

/-- `frodo_mul_add_as_plus_e` as its callers see it (/repo/src/frodo_macrify_reference.c:14-69). -/
def as_plus_e_reference (B : Build) (E : Env) (P : Params) (out s e : List U16) (seed : List U8) :
    C (List U16) := do
  let (out, _) ← as_plus_e_reference_full B E P out s e seed
  pure out

/-- `frodo_mul_add_sa_plus_e` (/repo/src/frodo_macrify_reference.c:72-127): `out`, and the object
`aes_key_schedule` when the function returns. -/
def sa_plus_e_reference_full (B : Build) (E : Env) (P : Params) (out s e : List U16)
    (seed : List U8) : C (List U16 × Sched) := do
  let (A, sched) ← genA_reference B E P seed
  let out ← memcpy out 0 e 0 (P.nbar * P.n)
  let out ← forC 0 P.n 1 out fun i out =>
    forC 0 P.nbar 1 out fun k out => do
      let sum ← forC 0 P.n 1 (0 : U16) fun j sum => do
        let x ← rd A (j * P.n + i)
        let y ← rd s (k * P.n + j)
        let p ← int (i16 (x : Int) * (y : Int))
        let r ← int ((sum : Int) + p)
        pure (u16 r)
      let x ← rd out (k * P.n + i)
      let r ← int ((x : Int) + (sum : Int))
      wr out (k * P.n + i) (u16 r)
  let sched ← freeSched B sched
  pure (out, sched)

/-- `frodo_mul_add_sa_plus_e` as its callers see it (/repo/src/frodo_macrify_reference.c:72-127). -/
def sa_plus_e_reference (B : Build) (E : Env) (P : Params) (out s e : List U16) (seed : List U8) :
    C (List U16) := do
  let (out, _) ← sa_plus_e_reference_full B E P out s e seed
  pure out

/-! ## Optimised code: rows of `A` -/

/-- Row `r` of a buffer as bytes (/repo/src/frodo_macrify.c:96-97). -/
def rowBytes (a : Arch) (n : Nat) (A : List U16) (r : Nat) : List U8 :=
  toBytes a ((A.drop (r * n)).take n)

/-- Four rows by `shake128_4x` (/repo/src/frodo_macrify.c:92-97, 216-221, 223-228): the row numbers
`i, …, i+3` go to the rows `r, …, r+3` of the buffer, which are disjoint. -/
def shakeRows4 (B : Build) (E : Env) (P : Params) (i r : Nat) (st : List U16 × Four (List U8)) :
    C (List U16 × Four (List U8)) := do
  let (A, sep) := st
  let s0 ← store16 B.arch sep.x0 (UINT16_TO_LE B.arch (u16 (i + 0)))
  let s1 ← store16 B.arch sep.x1 (UINT16_TO_LE B.arch (u16 (i + 1)))
  let s2 ← store16 B.arch sep.x2 (UINT16_TO_LE B.arch (u16 (i + 2)))
  let s3 ← store16 B.arch sep.x3 (UINT16_TO_LE B.arch (u16 (i + 3)))
  C.require ((r + 4) * P.n ≤ A.length) .oobWrite
  let o ← shake128_4x E ⟨rowBytes B.arch P.n A (r + 0), rowBytes B.arch P.n A (r + 1),
    rowBytes B.arch P.n A (r + 2), rowBytes B.arch P.n A (r + 3)⟩ (2 * P.n) ⟨s0, s1, s2, s3⟩
    (2 + P.seedA)
  pure (A.take (r * P.n) ++ ofBytes B.arch o.x0 ++ ofBytes B.arch o.x1 ++ ofBytes B.arch o.x2 ++
    ofBytes B.arch o.x3 ++ A.drop ((r + 4) * P.n), ⟨s0, s1, s2, s3⟩)

/-- The four copies of the seed (/repo/src/frodo_macrify.c:79-90, 199-210).  The conversions of the
pointers in lines 83-86 require even addresses (C11 6.3.2.3p7). -/
def seeds4 (E : Env) (P : Params) (seed : List U8) : C (Four (List U8)) := do
  C.require (∀ k, E.addr (.sep k) % 2 = 0) .misaligned
  let s0 ← memcpy (uninit E.junk 32 8 (2 + P.seedA)) 2 seed 0 P.seedA
  let s1 ← memcpy (uninit E.junk 33 8 (2 + P.seedA)) 2 seed 0 P.seedA
  let s2 ← memcpy (uninit E.junk 34 8 (2 + P.seedA)) 2 seed 0 P.seedA
  let s3 ← memcpy (uninit E.junk 35 8 (2 + P.seedA)) 2 seed 0 P.seedA
  pure ⟨s0, s1, s2, s3⟩

/-! ## Optimised code: `A*s + e` -/

/-- The part of the loop body that does not depend on how rows are generated
(/repo/src/frodo_macrify.c:100-116): `a_row` holds the rows `i, …, i+3`. -/
def as_accumulate (B : Build) (P : Params) (s : List U16) (i : Nat) (a_row out : List U16) :
    C (List U16 × List U16) := do
  let a_row ← forC 0 (4 * P.n) 1 a_row fun k a_row => do
    let x ← rd a_row k
    wr a_row k (LE_TO_UINT16 B.arch x)
  let out ← forC 0 P.nbar 1 out fun k out => do
    let sum ← forC 0 P.n 1 (List.replicate 4 (0 : U16)) fun j sum => do
      let sp ← rd s (k * P.n + j)
      let c ← rd sum 0
      let x ← rd a_row (0 * P.n + j)
      let p ← int (i16 (x : Int) * (sp : Int))
      let r ← int ((c : Int) + p)
      let sum ← wr sum 0 (u16 r)
      let c ← rd sum 1
      let x ← rd a_row (1 * P.n + j)
      let p ← int (i16 (x : Int) * (sp : Int))
      let r ← int ((c : Int) + p)
      let sum ← wr sum 1 (u16 r)
      let c ← rd sum 2
      let x ← rd a_row (2 * P.n + j)
      let p ← int (i16 (x : Int) * (sp : Int))
      let r ← int ((c : Int) + p)
      let sum ← wr sum 2 (u16 r)
      let c ← rd sum 3
      let x ← rd a_row (3 * P.n + j)
      let p ← int (i16 (x : Int) * (sp : Int))
      let r ← int ((c : Int) + p)
      wr sum 3 (u16 r)
    let x ← rd out ((i + 0) * P.nbar + k)
    let c ← rd sum 0
    let r ← int ((x : Int) + (c : Int))
    let out ← wr out ((i + 0) * P.nbar + k) (u16 r)
    let x ← rd out ((i + 2) * P.nbar + k)
    let c ← rd sum 2
    let r ← int ((x : Int) + (c : Int))
    let out ← wr out ((i + 2) * P.nbar + k) (u16 r)
    let x ← rd out ((i + 1) * P.nbar + k)
    let c ← rd sum 1
    let r ← int ((x : Int) + (c : Int))
    let out ← wr out ((i + 1) * P.nbar + k) (u16 r)
    let x ← rd out ((i + 3) * P.nbar + k)
    let c ← rd sum 3
    let r ← int ((x : Int) + (c : Int))
    wr out ((i + 3) * P.nbar + k) (u16 r)
  pure (a_row, out)

/-- The loop `for (i = 0; i < PARAMS_N; i += 4)` (/repo/src/frodo_macrify.c:51-117, 69-117, 91-117)
with the generator of four rows `gen i`, whose own variables are the state `γ`. -/
def as_loop {γ : Type} (B : Build) (P : Params) (s : List U16)
    (gen : Nat → List U16 × γ → C (List U16 × γ)) (a_row : List U16) (g : γ) (out : List U16) :
    C (List U16) := do
  let (_, _, out) ← forC 0 P.n 4 (a_row, g, out) fun i (a_row, g, out) => do
    let (a_row, g) ← gen i (a_row, g)
    let (a_row, out) ← as_accumulate B P s i a_row out
    pure (a_row, g, out)
  pure out

/-- Rows by AES (/repo/src/frodo_macrify.c:52-60). -/
def as_gen_aes (B : Build) (E : Env) (P : Params) (sched : Sched) (i : Nat)
    (st : List U16 × List U16) : C (List U16 × List U16) := do
  let (a_row, temp) := st
  let temp ← forC 0 P.n P.stripe temp fun j temp => do
    let temp ← wr temp (j + 0 * P.n) (UINT16_TO_LE B.arch (u16 (i + 0)))
    let temp ← wr temp (j + 1 * P.n) (UINT16_TO_LE B.arch (u16 (i + 1)))
    let temp ← wr temp (j + 2 * P.n) (UINT16_TO_LE B.arch (u16 (i + 2)))
    wr temp (j + 3 * P.n) (UINT16_TO_LE B.arch (u16 (i + 3)))
  let a_row ← asBytes B.arch a_row 0 fun b =>
    encrypt128 B.aes E (toBytes B.arch temp) (4 * P.n * 2) sched b
  pure (a_row, temp)

/-- Rows by SHAKE128, one at a time (/repo/src/frodo_macrify.c:70-77). -/
def as_gen_shake (B : Build) (E : Env) (P : Params) (i : Nat) (st : List U16 × List U8) :
    C (List U16 × List U8) := do
  let st ← shakeRow B E P (i + 0) 0 st
  let st ← shakeRow B E P (i + 1) 1 st
  let st ← shakeRow B E P (i + 2) 2 st
  shakeRow B E P (i + 3) 3 st

/-- `frodo_mul_add_as_plus_e` (/repo/src/frodo_macrify.c:21-123): `out`, and the object
`aes_key_schedule` when the function returns.  `outAddr` and `eAddr` are the addresses of `out` and `e`.
The copy of `e` in pieces of 32 bits (lines 28-30) is a copy of two words; the conversions of the pointers
require addresses that are multiples of 4 (C11 6.3.2.3p7). -/
def as_plus_e_optimized_full (B : Build) (E : Env) (P : Params) (outAddr eAddr : Nat)
    (out s e : List U16) (seed : List U8) : C (List U16 × Sched) := do
  let a_row : List U16 := List.replicate (4 * P.n) 0
  let out ← forC 0 (P.n * P.nbar) 2 out fun i out => do
    C.require ((outAddr + 2 * i) % 4 = 0 ∧ (eAddr + 2 * i) % 4 = 0) .misaligned
    let x ← rd e i
    let y ← rd e (i + 1)
    let out ← wr out i x
    wr out (i + 1) y
  match B.gen with
  | .aes => do
    let temp : List U16 := List.replicate (4 * P.n) 0
    let sched ← setup128 B.aes E seed
    let temp ← forC 0 P.n P.stripe temp fun j temp => do
      let temp ← wr temp (j + 1 + 0 * P.n) (UINT16_TO_LE B.arch (u16 j))
      let temp ← wr temp (j + 1 + 1 * P.n) (UINT16_TO_LE B.arch (u16 j))
      let temp ← wr temp (j + 1 + 2 * P.n) (UINT16_TO_LE B.arch (u16 j))
      wr temp (j + 1 + 3 * P.n) (UINT16_TO_LE B.arch (u16 j))
    let out ← as_loop B P s (as_gen_aes B E P sched) a_row temp out
    let sched ← free128 B.aes sched
    pure (out, sched)
  | .shake =>
    match B.impl with
    | .avx2 => do
      let sep ← seeds4 E P seed
      let out ← as_loop B P s (fun i => shakeRows4 B E P i 0) a_row sep out
      pure (out, .gone)
    | _ => do
      C.require (E.addr (.sep 0) % 2 = 0) .misaligned
      let sep ← memcpy (uninit E.junk 31 8 (2 + P.seedA)) 2 seed 0 P.seedA
      let out ← as_loop B P s (as_gen_shake B E P) a_row sep out
      pure (out, .gone)

/-- `frodo_mul_add_as_plus_e` as its callers see it (/repo/src/frodo_macrify.c:21-123). -/
def as_plus_e_optimized (B : Build) (E : Env) (P : Params) (outAddr eAddr : Nat)
    (out s e : List U16) (seed : List U8) : C (List U16) := do
  let (out, _) ← as_plus_e_optimized_full B E P outAddr eAddr out s e seed
  pure out

/-! ## Optimised code: `s*A + e` -/

/-- Multiplication of eight rows, portable (/repo/src/frodo_macrify.c:233-246): `A` holds the rows
`i, …, i+7`. -/
def sa_accumulate_generic (E : Env) (P : Params) (s : List U16) (i : Nat) (A e : List U16) :
    C (List U16) :=
  forC 0 P.nbar 1 e fun j e => do
    let sp := uninit E.junk 36 16 8
    let sp ← forC 0 8 1 sp fun p sp => do
      let x ← rd s (j * P.n + i + p)
      wr sp p x
    forC 0 P.n 1 e fun q e => do
      let sum ← rd e (j * P.n + q)
      let sum ← forC 0 8 1 sum fun p sum => do
        let x ← rd sp p
        let y ← rd A (p * P.n + q)
        let m ← int (i16 (x : Int) * (y : Int))
        let r ← int ((sum : Int) + m)
        pure (u16 r)
      wr e (j * P.n + q) sum

/-- A vector register of sixteen 16-bit words (`__m256i` as used in
/repo/src/frodo_macrify.c:250-262). -/
abbrev V16 := Fin 16 → U16

/-- `_mm256_load_si256((__m256i*)&l[off])` on an array of words at address `addr`
(/repo/src/frodo_macrify.c:255, 257). -/
def mm256_load (addr : Nat) (l : List U16) (off : Nat) : C V16 := do
  C.require (off + 16 ≤ l.length) .oobRead
  C.require ((addr + 2 * off) % 32 = 0) .misaligned
  C.emit (.block off 16)
  pure fun t => nth l (off + t)

/-- `_mm256_store_si256((__m256i*)&l[off], v)` (/repo/src/frodo_macrify.c:261). -/
def mm256_store (addr : Nat) (l : List U16) (off : Nat) (v : V16) : C (List U16) := do
  C.require (off + 16 ≤ l.length) .oobWrite
  C.require ((addr + 2 * off) % 32 = 0) .misaligned
  C.emit (.block off 16)
  pure (l.take off ++ (List.finRange 16).map v ++ l.drop (off + 16))

/-- `_mm256_mullo_epi16` (/repo/src/frodo_macrify.c:258). -/
def mm256_mullo (a b : V16) : V16 := fun t => a t * b t

/-- `_mm256_add_epi16` (/repo/src/frodo_macrify.c:259). -/
def mm256_add (a b : V16) : V16 := fun t => a t + b t

/-- Multiplication of eight rows with AVX2 (/repo/src/frodo_macrify.c:249-263; `_mm256_set1_epi16` at line 252
is the constant function). -/
def sa_accumulate_avx2 (E : Env) (P : Params) (eAddr : Nat) (s : List U16) (i : Nat)
    (A e : List U16) : C (List U16) :=
  forC 0 P.nbar 1 e fun j e => do
    let sp : List V16 := List.replicate 8 fun _ => BitVec.ofNat 16 (E.junk 36 0)
    let sp ← forC 0 8 1 sp fun p sp => do
      let x ← rd s (j * P.n + i + p)
      wr sp p fun _ => x
    forC 0 P.n 16 e fun q e => do
      let acc ← mm256_load eAddr e (j * P.n + q)
      let acc ← forC 0 8 1 acc fun p acc => do
        let b ← mm256_load (E.addr .A) A (p * P.n + q)
        let x ← rd sp p
        pure (mm256_add (mm256_mullo b x) acc)
      mm256_store eAddr e (j * P.n + q) acc

/-- Multiplication of eight rows (the conditional of /repo/src/frodo_macrify.c:232-265). -/
def sa_accumulate (B : Build) (E : Env) (P : Params) (eAddr : Nat) (s : List U16) (i : Nat)
    (A e : List U16) : C (List U16) :=
  match B.impl with
  | .avx2 => sa_accumulate_avx2 E P eAddr s i A e
  | _ => sa_accumulate_generic E P s i A e

/-- The loop `for (i = 0; i < PARAMS_N; i += 8)` (/repo/src/frodo_macrify.c:160-264) with the
generator of eight rows `gen i`, whose own variables are the state `γ`. -/
def sa_loop {γ : Type} (B : Build) (E : Env) (P : Params) (eAddr : Nat) (s : List U16)
    (gen : Nat → List U16 × γ → C (List U16 × γ)) (A : List U16) (g : γ) (e : List U16) :
    C (List U16) := do
  let (_, _, e) ← forC 0 P.n 8 (A, g, e) fun i (A, g, e) => do
    let (A, g) ← gen i (A, g)
    let e ← sa_accumulate B E P eAddr s i A e
    pure (A, g, e)
  pure e

/-- Rows by AES (/repo/src/frodo_macrify.c:162-170). -/
def sa_gen_aes (B : Build) (E : Env) (P : Params) (sched : Sched) (i : Nat)
    (st : List U16 × List U16) : C (List U16 × List U16) := do
  let (A, Ainit) := st
  let Ainit ← forC 0 8 1 Ainit fun q Ainit =>
    forC 0 P.n 8 Ainit fun p Ainit => wr Ainit (q * P.n + p) (UINT16_TO_LE B.arch (u16 (i + q)))
  let A ← asBytes B.arch A 0 fun b =>
    encrypt128 B.aes E (toBytes B.arch Ainit) (8 * P.n * 2) sched b
  pure (A, Ainit)

/-- Rows by SHAKE128, one at a time (/repo/src/frodo_macrify.c:182-197). -/
def sa_gen_shake (B : Build) (E : Env) (P : Params) (i : Nat) (st : List U16 × List U8) :
    C (List U16 × List U8) := do
  let st ← shakeRow B E P (i + 0) 0 st
  let st ← shakeRow B E P (i + 1) 1 st
  let st ← shakeRow B E P (i + 2) 2 st
  let st ← shakeRow B E P (i + 3) 3 st
  let st ← shakeRow B E P (i + 4) 4 st
  let st ← shakeRow B E P (i + 5) 5 st
  let st ← shakeRow B E P (i + 6) 6 st
  shakeRow B E P (i + 7) 7 st

/-- Rows by SHAKE128, four at a time (/repo/src/frodo_macrify.c:216-228). -/
def sa_gen_shake4 (B : Build) (E : Env) (P : Params) (i : Nat) (st : List U16 × Four (List U8)) :
    C (List U16 × Four (List U8)) := do
  let st ← shakeRows4 B E P i 0 st
  shakeRows4 B E P (i + 4) 4 st

/-- `frodo_mul_add_sa_plus_e` (/repo/src/frodo_macrify.c:126-272), without the final copy: the result
accumulates in `e`. -/
def sa_plus_e_core (B : Build) (E : Env) (P : Params) (eAddr : Nat) (s e : List U16)
    (seed : List U8) : C (List U16 × Sched) := do
  let A : List U16 := List.replicate (P.n * 8) 0
  match B.gen with
  | .aes => do
    let sched ← setup128 B.aes E seed
    let Ainit : List U16 := List.replicate (P.n * 8) 0
    let Ainit ← forC 0 P.n 8 Ainit fun j Ainit => do
      let Ainit ← wr Ainit (0 * P.n + j + 1) (UINT16_TO_LE B.arch (u16 j))
      let Ainit ← wr Ainit (1 * P.n + j + 1) (UINT16_TO_LE B.arch (u16 j))
      let Ainit ← wr Ainit (2 * P.n + j + 1) (UINT16_TO_LE B.arch (u16 j))
      let Ainit ← wr Ainit (3 * P.n + j + 1) (UINT16_TO_LE B.arch (u16 j))
      let Ainit ← wr Ainit (4 * P.n + j + 1) (UINT16_TO_LE B.arch (u16 j))
      let Ainit ← wr Ainit (5 * P.n + j + 1) (UINT16_TO_LE B.arch (u16 j))
      let Ainit ← wr Ainit (6 * P.n + j + 1) (UINT16_TO_LE B.arch (u16 j))
      wr Ainit (7 * P.n + j + 1) (UINT16_TO_LE B.arch (u16 j))
    let e ← sa_loop B E P eAddr s (sa_gen_aes B E P sched) A Ainit e
    pure (e, sched)
  | .shake =>
    match B.impl with
    | .avx2 => do
      let sep ← seeds4 E P seed
      let e ← sa_loop B E P eAddr s (sa_gen_shake4 B E P) A sep e
      pure (e, .gone)
    | _ => do
      C.require (E.addr (.sep 0) % 2 = 0) .misaligned
      let sep ← memcpy (uninit E.junk 31 8 (2 + P.seedA)) 2 seed 0 P.seedA
      let e ← sa_loop B E P eAddr s (sa_gen_shake B E P) A sep e
      pure (e, .gone)

/-- `frodo_mul_add_sa_plus_e` (/repo/src/frodo_macrify.c:126-272): `out`, `e`, in which the result is
also left, and the object `aes_key_schedule` when the function returns. -/
def sa_plus_e_optimized_full (B : Build) (E : Env) (P : Params) (eAddr : Nat) (out s e : List U16)
    (seed : List U8) : C ((List U16 × List U16) × Sched) := do
  let (e, sched) ← sa_plus_e_core B E P eAddr s e seed
  let out ← memcpy out 0 e 0 (P.n * P.nbar)
  let sched ← freeSched B sched
  pure ((out, e), sched)

/-- `frodo_mul_add_sa_plus_e` as its callers see it (/repo/src/frodo_macrify.c:126-272). -/
def sa_plus_e_optimized (B : Build) (E : Env) (P : Params) (eAddr : Nat) (out s e : List U16)
    (seed : List U8) : C (List U16 × List U16) := do
  let (r, _) ← sa_plus_e_optimized_full B E P eAddr out s e seed
  pure r

/-! ## Selection by build -/

/-- `frodo_mul_add_as_plus_e` of the build (file included by /repo/src/frodo640.c:41-45); `outAddr` and
`eAddr` are the addresses of `out` and `e`. -/
def frodo_mul_add_as_plus_e (B : Build) (E : Env) (P : Params) (outAddr eAddr : Nat)
    (out s e : List U16) (seed : List U8) : C (List U16) :=
  match B.impl with
  | .reference => as_plus_e_reference B E P out s e seed
  | _ => as_plus_e_optimized B E P outAddr eAddr out s e seed

/-- `frodo_mul_add_sa_plus_e` of the build (file included by /repo/src/frodo640.c:41-45); `eAddr` is
the address of `e`; returns `out` and `e`. -/
def frodo_mul_add_sa_plus_e (B : Build) (E : Env) (P : Params) (eAddr : Nat) (out s e : List U16)
    (seed : List U8) : C (List U16 × List U16) :=
  match B.impl with
  | .reference => do
    let out ← sa_plus_e_reference B E P out s e seed
    pure (out, e)
  | _ => sa_plus_e_optimized B E P eAddr out s e seed

end Frodo

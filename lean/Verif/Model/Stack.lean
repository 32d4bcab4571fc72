import Verif.Model.MatrixA

/-! # The arrays on the stack

Every function of the library is reduced here to the scopes it opens, the arrays with automatic storage
duration that these declare, and the functions it calls.  Objects that are not arrays (counters, pointers, the
lanes of Keccak) are left out, and so are functions of other libraries.  Conditions are not evaluated: of a
branch either side may run, and a loop may run any number of times, or any positive number of times where
its first round does not depend on data. -/

namespace Frodo.Stack

open Spec (MatGen)

/-- Control flow and scopes (C11 6.2.4p6: an object of automatic storage duration lives from entry into its
block to the end of the block; calls are scopes of their arrays) of the functions in /repo/src and
/repo/tests. -/
inductive Code where
  /-- nothing that declares arrays -/
  | skip
  /-- one after the other -/
  | seq (a b : Code)
  /-- one of the two -/
  | branch (a b : Code)
  /-- any number of times -/
  | loop (a : Code)
  /-- at least once -/
  | loop1 (a : Code)
  /-- a block that declares arrays of these sizes in bytes -/
  | scope (arrays : List (String × Nat)) (body : Code)

@[inherit_doc] infixr:60 " ⨟ " => Code.seq

/-- The bytes that the arrays of a block occupy (C11 6.5.3.4p3, for the declarations cited below). -/
def bytes (l : List (String × Nat)) : Nat := (l.map (·.2)).sum

/-- What of the build matters here: code path, AES and generator of `A` (/repo/src/config.h:69-117,
/repo/Makefile:56-92). -/
inductive Aes where
  | c | ni | openssl
  deriving DecidableEq, Repr

@[inherit_doc Aes] structure Cfg where
  impl : Impl
  aes : Aes
  gen : MatGen

/-! ## SHAKE -/

/-- `keccak_absorb` (/repo/src/sha3/fips202.c:344-367); the permutation declares no array
(/repo/src/sha3/fips202.c:73-338). -/
def keccak_absorb : Code := .scope [("t", 200)] (.loop .skip)

/-- `shake128` (/repo/src/sha3/fips202.c:401-423; `SHAKE128_RATE` is 168). -/
def shake128 : Code := .scope [("s", 8 * 25), ("t", 168)] (keccak_absorb ⨟ .loop .skip)

/-- `shake256` (/repo/src/sha3/fips202.c:440-465; `SHAKE256_RATE` is 136). -/
def shake256 : Code := .scope [("s", 8 * 25), ("t", 136)] (keccak_absorb ⨟ .loop .skip)

/-- `keccak_absorb4x` (/repo/src/sha3/fips202x4.c:37-97). -/
def keccak_absorb4x : Code := .scope [("t0", 200), ("t1", 200), ("t2", 200), ("t3", 200)] (.loop .skip)

/-- `shake128_4x` (/repo/src/sha3/fips202x4.c:145-175). -/
def shake128_4x : Code :=
  .scope [("s", 32 * 25), ("t0", 168), ("t1", 168), ("t2", 168), ("t3", 168)] (keccak_absorb4x ⨟ .loop .skip)

/-- The macro `shake` (/repo/src/frodo640.c:29, frodo976.c:29, frodo1344.c:29). -/
def shake (P : Params) : Code :=
  match P.shake with
  | .shake128 => shake128
  | .shake256 => shake256

/-! ## AES -/

/-- `AES128_load_schedule` (/repo/src/aes/aes.c:17-23): `tempa` in the portable code
(/repo/src/aes/aes_c.c:58-61), no array with AES-NI (/repo/src/aes/aes_ni.c:32-45). -/
def aes_load : Aes → Code
  | .c => .scope [("tempa", 4)] (.loop1 .skip)
  | .ni => .skip
  | .openssl => .skip

/-- `aes_key_schedule` (/repo/src/frodo_macrify.c:35, 137; /repo/src/frodo_macrify_reference.c:31, 89): with
OpenSSL a pointer. -/
def schedule : Aes → List (String × Nat)
  | .openssl => []
  | _ => [("aes_key_schedule", 16 * 11)]

/-! ## Matrix A -/

/-- `frodo_mul_add_as_plus_e` (/repo/src/frodo_macrify_reference.c:14-69) and, with the same declarations,
`frodo_mul_add_sa_plus_e` (/repo/src/frodo_macrify_reference.c:72-127). -/
def macrifyReference (B : Cfg) (P : Params) : Code :=
  match B.gen with
  | .aes => .scope ([("A", 2 * (P.n * P.n))] ++ schedule B.aes) (aes_load B.aes ⨟ .loop1 .skip)
  | .shake => .scope [("A", 2 * (P.n * P.n)), ("seed_A_separated", 2 + P.seedA)] (.loop1 shake128)

/-- The four copies of the seed (/repo/src/frodo_macrify.c:79-82, 199-202). -/
def seeds4 (P : Params) : List (String × Nat) :=
  [("seed_A_separated_0", 2 + P.seedA), ("seed_A_separated_1", 2 + P.seedA), ("seed_A_separated_2", 2 + P.seedA),
    ("seed_A_separated_3", 2 + P.seedA)]

/-- `frodo_mul_add_as_plus_e` (/repo/src/frodo_macrify.c:21-123). -/
def as_plus_e (B : Cfg) (P : Params) : Code :=
  let mul : Code := .loop1 (.scope [("sum", 2 * 4)] .skip)
  match B.impl with
  | .reference => macrifyReference B P
  | impl =>
    match B.gen with
    | .aes =>
      .scope ([("a_row", 2 * (4 * P.n)), ("a_row_temp", 2 * (4 * P.n))] ++ schedule B.aes)
        (aes_load B.aes ⨟ .loop1 mul)
    | .shake =>
      match impl with
      | .avx2 => .scope ([("a_row", 2 * (4 * P.n))] ++ seeds4 P) (.loop1 (shake128_4x ⨟ mul))
      | _ =>
        .scope [("a_row", 2 * (4 * P.n)), ("seed_A_separated", 2 + P.seedA)]
          (.loop1 (shake128 ⨟ shake128 ⨟ shake128 ⨟ shake128 ⨟ mul))

/-- `frodo_mul_add_sa_plus_e` (/repo/src/frodo_macrify.c:126-272). -/
def sa_plus_e (B : Cfg) (P : Params) : Code :=
  let mul : Code := .loop1 (.scope [("sp", if B.impl = .avx2 then 32 * 8 else 2 * 8)] .skip)
  match B.impl with
  | .reference => macrifyReference B P
  | impl =>
    match B.gen with
    | .aes =>
      .scope ([("A", 2 * (P.n * 8)), ("Ainit", 2 * (P.n * 8))] ++ schedule B.aes) (aes_load B.aes ⨟ .loop1 mul)
    | .shake =>
      match impl with
      | .avx2 => .scope ([("A", 2 * (P.n * 8))] ++ seeds4 P) (.loop1 (shake128_4x ⨟ shake128_4x ⨟ mul))
      | _ =>
        .scope [("A", 2 * (P.n * 8)), ("seed_A_separated", 2 + P.seedA)]
          (.loop1 (shake128 ⨟ shake128 ⨟ shake128 ⨟ shake128 ⨟ shake128 ⨟ shake128 ⨟ shake128 ⨟ shake128 ⨟ mul))

/-! ## The KEM

The functions of /repo/src/util.c and /repo/src/noise.c and the small matrix functions declare no arrays. -/

/-- `crypto_kem_keypair` (/repo/src/kem.c:15-75); `rb` is `randombytes`. -/
def keypair (B : Cfg) (P : Params) (rb : Code) : Code :=
  .scope [("B", 2 * (P.n * P.nbar)), ("S", 2 * (2 * P.n * P.nbar)), ("randomness", 2 * P.bytes + P.seedA),
      ("shake_input_seedSE", 1 + P.bytes)]
    (rb ⨟ shake P ⨟ shake P ⨟ as_plus_e B P ⨟ shake P)

/-- `crypto_kem_enc` (/repo/src/kem.c:78-150). -/
def enc (B : Cfg) (P : Params) (rb : Code) : Code :=
  .scope [("B", 2 * (P.n * P.nbar)), ("V", 2 * (P.nbar * P.nbar)), ("C", 2 * (P.nbar * P.nbar)),
      ("Bp", 2 * (P.n * P.nbar)), ("Sp", 2 * ((2 * P.n + P.nbar) * P.nbar)), ("G2in", P.bytes + P.bytesMu),
      ("G2out", 2 * P.bytes), ("Fin", P.ctBytes + P.bytes), ("shake_input_seedSE", 1 + P.bytes)]
    (shake P ⨟ rb ⨟ shake P ⨟ shake P ⨟ sa_plus_e B P ⨟ shake P)

/-- `crypto_kem_dec` (/repo/src/kem.c:153-252). -/
def dec (B : Cfg) (P : Params) : Code :=
  .scope [("B", 2 * (P.n * P.nbar)), ("Bp", 2 * (P.n * P.nbar)), ("W", 2 * (P.nbar * P.nbar)),
      ("C", 2 * (P.nbar * P.nbar)), ("CC", 2 * (P.nbar * P.nbar)), ("BBp", 2 * (P.n * P.nbar)),
      ("Sp", 2 * ((2 * P.n + P.nbar) * P.nbar)), ("S", 2 * (P.n * P.nbar)), ("G2in", P.bytes + P.bytesMu),
      ("G2out", 2 * P.bytes), ("Fin", P.ctBytes + P.bytes), ("shake_input_seedSEprime", 1 + P.bytes)]
    (shake P ⨟ shake P ⨟ sa_plus_e B P ⨟ shake P)

/-! ## The programs -/

/-- `kem_test` (/repo/tests/test_kem.c:22-86); `randombytes` of /repo/src/random/random.c declares no
array.  It returns early if a test fails. -/
def kem_test (B : Cfg) (P : Params) : Code :=
  .scope [("pk", P.pkBytes), ("sk", P.skBytes), ("ss_encap", P.bytes), ("ss_decap", P.bytes), ("ct", P.ctBytes),
      ("bytes", 4), ("Fin", P.ctBytes + P.bytes)]
    (.loop1 (keypair B P .skip ⨟ enc B P .skip ⨟ dec B P ⨟ .branch .skip (dec B P ⨟ shake P)))

/-- `kem_bench` (/repo/tests/test_kem.c:89-105). -/
def kem_bench (B : Cfg) (P : Params) : Code :=
  .scope [("pk", P.pkBytes), ("sk", P.skBytes), ("ss_encap", P.bytes), ("ss_decap", P.bytes), ("ct", P.ctBytes)]
    (.loop (keypair B P .skip) ⨟ keypair B P .skip ⨟ .loop (enc B P .skip) ⨟ enc B P .skip ⨟ .loop (dec B P))

/-- `main` of the self test (/repo/tests/test_kem.c:108-126). -/
def testMain (B : Cfg) (P : Params) : Code := kem_test B P ⨟ .branch .skip (kem_bench B P)

/-- `AES256_ECB` (/repo/tests/rng.h:20-37) with its schedule of 240 bytes; with OpenSSL no array. -/
def aes256_ecb : Aes → Code
  | .c => .scope [("schedule", 16 * 15)] (.scope [("tempa", 4)] (.loop1 .skip))
  | .ni => .scope [("schedule", 16 * 15)] .skip
  | .openssl => .skip

/-- `AES256_CTR_DRBG_Update` (/repo/tests/rng.c:65-90). -/
def drbgUpdate (a : Aes) : Code := .scope [("temp", 48)] (.loop1 (aes256_ecb a))

/-- `randombytes` of the known answer tests (/repo/tests/rng.c:32-63). -/
def katRandombytes (a : Aes) : Code := .scope [("block", 16)] (.loop (aes256_ecb a) ⨟ drbgUpdate a)

/-- `FindMarker` (/repo/tests/PQCtestKAT_kem640.c:137-172); `ReadHex` calls it once
(/repo/tests/PQCtestKAT_kem640.c:177-219). -/
def findMarker : Code := .scope [("line", 50)] .skip

/-- `randombytes_init` (/repo/tests/rng.c:14-30). -/
def katInit (a : Aes) : Code := .scope [("seed_material", 48)] (drbgUpdate a)

/-- `main` of the known answer tests (/repo/tests/PQCtestKAT_kem640.c:29-126): it stops at the first thing that is wrong. -/
def katMain (B : Cfg) (P : Params) : Code :=
  .scope [("fn_rsp", 32), ("seed", 48), ("ct", P.ctBytes), ("ss", P.bytes), ("ss1", P.bytes), ("ct_rsp", P.ctBytes),
      ("ss_rsp", P.bytes), ("pk", P.pkBytes), ("sk", P.skBytes), ("pk_rsp", P.pkBytes), ("sk_rsp", P.skBytes)]
    (.loop (findMarker ⨟ .branch .skip (findMarker ⨟ .branch .skip (katInit B.aes ⨟
      keypair B P (katRandombytes B.aes) ⨟ findMarker ⨟ .branch .skip (findMarker ⨟ .branch .skip
        (enc B P (katRandombytes B.aes) ⨟ findMarker ⨟ .branch .skip (findMarker ⨟ .branch .skip (dec B P))))))))

end Frodo.Stack

import Verif.C.Junk

/-! # What the C abstract machine leaves open: initial contents of locals, addresses, byte order -/

namespace Frodo

/-- Objects of /repo that are accessed through pointers requiring more alignment than the type of the
object.  With vector loads and stores: the AES key schedule (`aes_key_schedule`, /repo/src/frodo_macrify.c:35, 137 and
/repo/src/frodo_macrify_reference.c:31, 89), the tables `rho8`, `rho56`
(/repo/src/sha3/keccak4x/KeccakP-1600-times4-SIMD256.c:49-50), the array `A`
(/repo/src/frodo_macrify.c:133) and the array `Sp` of the callers (/repo/src/kem.c:88, 161).  As
`uint16_t`: the byte arrays `seed_A_separated` (`sep 0`; /repo/src/frodo_macrify.c:66, 176 and
/repo/src/frodo_macrify_reference.c:42, 100), `seed_A_separated_0` to `_3` (`sep 0` to `sep 3`;
/repo/src/frodo_macrify.c:79-82, 199-202) and `G2in` (/repo/src/kem.c:91, 173).  As `uint32_t`: the arrays
`B` and `S` of `uint16_t` in `crypto_kem_keypair` (/repo/src/kem.c:25-26). -/
inductive Obj where
  | aesSched | rho8 | rho56 | A | Sp | sep (k : Fin 4) | G2in | B | S
  deriving DecidableEq, Repr

/-- The ciphers that the library asks OpenSSL for: `EVP_aes_128_ecb()`
(/repo/src/frodo_macrify.c:41, 143; /repo/src/frodo_macrify_reference.c:38, 96) and `EVP_aes_256_ecb()`
(/repo/tests/rng.h:33). -/
inductive EvpCipher where
  | aes_128_ecb | aes_256_ecb
  deriving DecidableEq, Repr

/-- Which calls of OpenSSL succeed in an execution (the tests of
/repo/src/frodo_macrify.c:40-41, 62 and the like): `EVP_CIPHER_CTX_new` may run out of memory, the other
functions may fail for reasons of their own.  The outcome is an arbitrary function of the data of the
call (for `EVP_CIPHER_CTX_new`, which has no argument, of the data for which the caller wants the
context), so that it may differ from call to call. -/
structure OsslRun where
  new : List U8 → Bool
  init : EvpCipher → List U8 → Bool
  update : EvpCipher → List U8 → List U8 → Bool

/-- All calls succeed (see `OsslRun`; /repo/src/frodo_macrify.c:40-41, 62). -/
def OsslRun.ok : OsslRun := ⟨fun _ => true, fun _ _ => true, fun _ _ _ => true⟩

/-- An execution environment (C11 6.7.9p10 and 6.2.8): the initial contents of uninitialised local
variables, the addresses of the objects on which alignment is required, and the outcome of the calls
of OpenSSL. -/
structure Env where
  junk : Junk
  addr : Obj → Nat
  ossl : OsslRun

end Frodo

import Verif.Model.Aes
import Verif.Model.Env
import Verif.Spec.Aes

/-! # AES by OpenSSL, and the choice between the back ends

`USE_OPENSSL` (/repo/src/config.h:93-95), the default of /repo/Makefile, replaces the calls of
/repo/src/aes/aes.c by calls of the EVP interface of OpenSSL.  The library itself is not a part of
/repo: its functions are modelled by their documented behaviour, with arbitrary failures (`OsslRun`) and
arbitrary leakage (`OsslCode`). -/

namespace Frodo

/-- The leakage of the OpenSSL in use, an arbitrary function of key and data (the calls are at
/repo/src/frodo_macrify.c:41, 62 and the like). -/
structure OsslCode where
  init : EvpCipher → List U8 → List Event
  update : EvpCipher → List U8 → List U8 → List Event

/-- Length of the key in bytes (OpenSSL, `EVP_aes_128_ecb` and `EVP_aes_256_ecb`;
/repo/src/frodo_macrify.c:41, /repo/tests/rng.h:33). -/
def EvpCipher.keyLen : EvpCipher → Nat
  | .aes_128_ecb => 16
  | .aes_256_ecb => 32

/-- The block cipher (FIPS 197; /repo/src/frodo_macrify.c:41, /repo/tests/rng.h:33). -/
def EvpCipher.block : EvpCipher → List U8 → List U8 → List U8
  | .aes_128_ecb => Spec.AES128
  | .aes_256_ecb => Spec.AES256

/-- `EVP_CIPHER_CTX` (/repo/src/frodo_macrify.c:38): the cipher and the key, once they are set. -/
structure EvpCtx where
  key : Option (EvpCipher × List U8)

/-- `handleErrors` (/repo/src/aes/aes.c:79-83); the output to `stderr` is left out. -/
def handleErrors {α : Type} : C α := .ub .aborted

/-- `EVP_CIPHER_CTX_new` (called at /repo/src/frodo_macrify.c:40); `none` is the null pointer. -/
def EVP_CIPHER_CTX_new (O : OsslRun) (data : List U8) : C (Option EvpCtx) :=
  pure (if O.new data then some ⟨none⟩ else none)

/-- `EVP_EncryptInit_ex` (called at /repo/src/frodo_macrify.c:41): the context, and the result. -/
def EVP_EncryptInit_ex (L : OsslCode) (O : OsslRun) (ctx : EvpCtx) (c : EvpCipher) (key : List U8) :
    C (EvpCtx × Int) := do
  C.require (c.keyLen ≤ key.length) .oobRead
  C.ok () (L.init c (key.take c.keyLen))
  pure (if O.init c (key.take c.keyLen) then (⟨some (c, key.take c.keyLen)⟩, 1) else (ctx, 0))

/-- `EVP_EncryptUpdate` (called at /repo/src/frodo_macrify.c:62): the output buffer and the result; the
number of bytes written (`&len`) is not used by the callers and left out.  The parameter `inl` is an
`int`: the callers pass a `size_t`, and the conversion is only considered where it keeps the value
(otherwise C11 6.3.1.3p3).  OpenSSL keeps an incomplete last block for the next call; the callers have
whole blocks, and only this case is considered.  The buffers may be equal. -/
def EVP_EncryptUpdate (L : OsslCode) (O : OsslRun) (ctx : EvpCtx) (out inp : List U8) (inl : Nat) :
    C (List U8 × Int) := do
  C.require (inl < 2 ^ 31) .overflow
  C.require (inl % 16 = 0) .assertFailed
  match ctx.key with
  | none => pure (out, 0)
  | some (c, key) => do
    C.require (inl ≤ inp.length) .oobRead
    C.require (inl ≤ out.length) .oobWrite
    C.ok () (L.update c key (inp.take inl))
    pure (if O.update c key (inp.take inl) then
      (Spec.ecb (c.block key) (inl / 16) inp ++ out.drop inl, 1) else (out, 0))

/-- `if (!(ctx = EVP_CIPHER_CTX_new())) handleErrors();`
`if (1 != EVP_EncryptInit_ex(ctx, c, NULL, key, NULL)) handleErrors();`
(/repo/src/frodo_macrify.c:40-41, 142-143; /repo/src/frodo_macrify_reference.c:37-38, 95-96;
/repo/tests/rng.h:31-34). -/
def evpSetup (L : OsslCode) (O : OsslRun) (c : EvpCipher) (key data : List U8) : C EvpCtx := do
  let ctx ← EVP_CIPHER_CTX_new O data
  let ctx ← match ctx with
    | some ctx => do C.emit (.branch false); pure ctx
    | none => do C.emit (.branch true); handleErrors
  let (ctx, r) ← EVP_EncryptInit_ex L O ctx c key
  ifC (r != 1) handleErrors (pure ctx)

/-- `if (1 != EVP_EncryptUpdate(ctx, out, &len, inp, inl)) handleErrors();`
(/repo/src/frodo_macrify.c:62, 172; /repo/src/frodo_macrify_reference.c:39, 97; /repo/tests/rng.h:36-37). -/
def evpUpdate (L : OsslCode) (O : OsslRun) (ctx : EvpCtx) (out inp : List U8) (inl : Nat) :
    C (List U8) := do
  let (out, r) ← EVP_EncryptUpdate L O ctx out inp inl
  ifC (r != 1) handleErrors (pure out)

/-! ## The choice of the back end -/

/-- The AES back end of a build: a standalone one, or OpenSSL (`USE_OPENSSL`,
/repo/src/config.h:93-95, /repo/src/aes/aes.h:16). -/
inductive AesBackend where
  | standalone (I : AesImpl)
  | openssl (L : OsslCode)

/-- The portable code (/repo/src/aes/aes_c.c). -/
abbrev AesBackend.c : AesBackend := .standalone .c

/-- The code with AES instructions (/repo/src/aes/aes_ni.c). -/
abbrev AesBackend.ni : AesBackend := .standalone .ni

/-- The object that `aes_key_schedule` (/repo/src/frodo_macrify.c:35, 38) or `schedule`, `ctx`
(/repo/tests/rng.h:22, 27) names: an array of bytes, a context of OpenSSL, or nothing, if the generator is
SHAKE128 or the context has been freed. -/
inductive Sched where
  | bytes (l : List U8)
  | evp (ctx : EvpCtx)
  | gone

/-- Set up of the key for AES128 (/repo/src/frodo_macrify.c:34-42, 136-144;
/repo/src/frodo_macrify_reference.c:30-32, 35-38, 88-90, 93-96). -/
def setup128 (A : AesBackend) (E : Env) (seed : List U8) : C Sched :=
  match A with
  | .standalone I => do
    let sched ← AES128_load_schedule I E.junk (E.addr .aesSched) seed (uninit E.junk 30 8 176)
    pure (.bytes sched)
  | .openssl L => do
    let ctx ← evpSetup L E.ossl .aes_128_ecb seed seed
    pure (.evp ctx)

/-- Encryption with AES128 (/repo/src/frodo_macrify.c:59-63, 169-173).  The last case cannot occur
in C, where the type of `aes_key_schedule` is fixed by the build. -/
def encrypt128 (A : AesBackend) (E : Env) (pt : List U8) (len : Nat) (sched : Sched)
    (ct : List U8) : C (List U8) :=
  match A, sched with
  | .standalone I, .bytes rk => AES128_ECB_enc_sch I (E.addr .aesSched) pt len rk ct
  | .openssl L, .evp ctx => evpUpdate L E.ossl ctx ct pt len
  | _, _ => .ub .assertFailed

/-- Encryption with AES128 in place (/repo/src/frodo_macrify_reference.c:33, 39, 91, 97); see
`encrypt128` for the last case. -/
def encrypt128_inplace (A : AesBackend) (E : Env) (len : Nat) (sched : Sched)
    (buf : List U8) : C (List U8) :=
  match A, sched with
  | .standalone I, .bytes rk => AES128_ECB_enc_sch_inplace I (E.addr .aesSched) len rk buf
  | .openssl L, .evp ctx => evpUpdate L E.ossl ctx buf buf len
  | _, _ => .ub .assertFailed

/-- `AES128_free_schedule` (/repo/src/aes/aes.c:42-44, 86-88); see `encrypt128` for the last case. -/
def free128 (A : AesBackend) (sched : Sched) : C Sched :=
  match A, sched with
  | .standalone _, .bytes rk => do
    let rk ← AES128_free_schedule rk
    pure (.bytes rk)
  | .openssl _, .evp _ => pure .gone
  | _, _ => .ub .assertFailed

end Frodo

import Verif.Model.Kem

/-! # Model of the generator of the known answer tests

/repo/tests/rng.c and /repo/tests/rng.h.  `schedAddr` is the address of the array `schedule`. -/

namespace Frodo

/-- `AES256_CTR_DRBG_struct` (/repo/tests/rng.h:52-56). -/
structure Drbg where
  key : List U8
  V : List U8
  reseed : Int

/-- `AES256_ECB` (/repo/tests/rng.h:20-42); the second component is the object `schedule` or `ctx` when the
function returns. -/
def AES256_ECB (A : AesBackend) (E : Env) (schedAddr : Nat) (key ctr buffer : List U8) :
    C (List U8 × Sched) :=
  match A with
  | .standalone I => do
    let schedule ← AES256_load_schedule I E.junk schedAddr key (uninit E.junk 50 8 (16 * 15))
    let buffer ← AES256_ECB_enc_sch I schedAddr ctr 16 schedule buffer
    let schedule ← AES256_free_schedule schedule
    pure (buffer, .bytes schedule)
  | .openssl L => do
    let ctx ← evpSetup L E.ossl .aes_256_ecb key ctr
    let buffer ← evpUpdate L E.ossl ctx buffer ctr 16
    pure (buffer, .gone)

/-- State of the loop that increments `V` (/repo/tests/rng.c:40-47, 74-81): the array, the index, and
whether `break` was reached. -/
structure IncSt where
  V : List U8
  j : Int
  brk : Bool

/-- Body of that loop (/repo/tests/rng.c:41-46, 75-80). -/
def incStep (s : IncSt) : C IncSt := do
  let v ← rd s.V s.j.toNat
  ifC (v == 0xff)
    (do
      let V ← wr s.V s.j.toNat 0x00
      pure { s with V := V, j := s.j - 1 })
    (do
      let v ← rd s.V s.j.toNat
      let V ← wr s.V s.j.toNat (v + 1)
      pure { s with V := V, brk := true })

/-- `for (int j=15; j>=0; j--) { … }` (/repo/tests/rng.c:40-47, 74-81). -/
def incV (V : List U8) : C (List U8) := do
  let s ← whileC (fun s : IncSt => !s.brk && decide (s.j ≥ 0)) incStep ⟨V, 15, false⟩
  pure s.V

/-- `if (data) for (int i=0; i<48; i++) t[i] ^= data[i];` (/repo/tests/rng.c:23-25, 85-87); `none` is the
null pointer. -/
def xor48 (t : List U8) (data : Option (List U8)) : C (List U8) :=
  ifC data.isSome
    (forC 0 48 1 t fun i t => do
      let x ← rd t i
      let y ← rd (data.getD []) i
      wr t i (x ^^^ y))
    (pure t)

/-- `AES256_CTR_DRBG_Update` (/repo/tests/rng.c:65-90): the new `Key` and `V`. -/
def AES256_CTR_DRBG_Update (A : AesBackend) (E : Env) (schedAddr : Nat) (provided : Option (List U8))
    (key V : List U8) : C (List U8 × List U8) := do
  let temp := uninit E.junk 51 8 48
  let (V, temp) ← forC 0 3 1 (V, temp) fun i (V, temp) => do
    let V ← incV V
    let temp ← atPtr temp (16 * i) fun p => do
      let (p, _) ← AES256_ECB A E schedAddr key V p
      pure p
    pure (V, temp)
  let temp ← xor48 temp provided
  let key ← memcpy key 0 temp 0 32
  let V ← memcpy V 0 temp 32 16
  pure (key, V)

/-- `randombytes_init` (/repo/tests/rng.c:14-30): the new context. -/
def randombytes_init (A : AesBackend) (E : Env) (schedAddr : Nat) (ctx : Drbg) (entropy : List U8)
    (pers : Option (List U8)) : C Drbg := do
  let seed ← memcpy (uninit E.junk 52 8 48) 0 entropy 0 48
  let seed ← xor48 seed pers
  let key ← memset ctx.key 0x00 32
  let V ← memset ctx.V 0x00 16
  let (key, V) ← AES256_CTR_DRBG_Update A E schedAddr (some seed) key V
  pure ⟨key, V, 1⟩

/-- State of the loop of `randombytes` (/repo/tests/rng.c:35-38). -/
structure GenSt where
  V : List U8
  x : List U8
  block : List U8
  i : Int
  xlen : Nat

/-- Body of the loop of `randombytes` (/repo/tests/rng.c:39-58). -/
def genStep (A : AesBackend) (E : Env) (schedAddr : Nat) (key : List U8) (s : GenSt) : C GenSt := do
  let V ← incV s.V
  let (block, _) ← AES256_ECB A E schedAddr key V s.block
  ifC (decide (s.xlen > 15))
    (do
      let x ← memcpy s.x s.i.toNat block 0 16
      let i ← int (s.i + 16)
      pure ⟨V, x, block, i, s.xlen - 16⟩)
    (do
      let x ← memcpy s.x s.i.toNat block 0 s.xlen
      pure ⟨V, x, block, s.i, 0⟩)

/-- `randombytes` of the tests (/repo/tests/rng.c:32-63): the new context, the buffer, the result. -/
def randombytes_drbg (A : AesBackend) (E : Env) (schedAddr : Nat) (ctx : Drbg) (x : List U8)
    (xlen : Nat) : C (Drbg × List U8 × Int) := do
  let s ← whileC (fun s : GenSt => decide (s.xlen > 0)) (genStep A E schedAddr ctx.key)
    ⟨ctx.V, x, uninit E.junk 53 8 16, 0, xlen⟩
  let (key, V) ← AES256_CTR_DRBG_Update A E schedAddr none ctx.key s.V
  let reseed ← int (ctx.reseed + 1)
  pure (⟨key, V, reseed⟩, s.x, 0)

/-- `randombytes` of the tests as the library calls it, from the context `ctx`
(/repo/src/kem.c:35, 104). -/
def rbDrbg (A : AesBackend) (E : Env) (schedAddr : Nat) (ctx : Drbg) : RandomBytes := fun x n => do
  let (_, x, r) ← randombytes_drbg A E schedAddr ctx x n
  pure (x, r)

/-- What one round of the known answer test produces (/repo/tests/PQCtestKAT_kem640.c:65-92). -/
structure Kat where
  pk : List U8
  sk : List U8
  ct : List U8
  ss : List U8

/-- One round of the known answer test (/repo/tests/PQCtestKAT_kem640.c:65-92 and the like in the other
five programs): seeding, key generation, encapsulation.  Reading the expected values and comparing is not
modelled.  The context is a global variable in C; here it is passed on, and its value after the only
call of `randombytes` in `crypto_kem_keypair` is computed from that call. -/
def katRound (B : Build) (E : Env) (P : Params) (A : AesBackend) (schedAddr : Nat) (ctx : Drbg)
    (seed pk sk ct ss : List U8) : C Kat := do
  let ctx ← randombytes_init A E schedAddr ctx seed none
  let kp ← crypto_kem_keypair B E P (rbDrbg A E schedAddr ctx) pk sk
  let n := 2 * P.bytes + P.seedA
  let (ctx, _, _) ← randombytes_drbg A E schedAddr ctx (uninit E.junk 41 8 n) n
  let en ← crypto_kem_enc B E P (rbDrbg A E schedAddr ctx) ct ss kp.pk
  pure ⟨kp.pk, kp.sk, en.ct, en.ss⟩

end Frodo

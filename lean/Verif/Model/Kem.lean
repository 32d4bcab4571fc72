import Verif.Model.Util
import Verif.Model.MatrixA

/-! # Model of /repo/src/kem.c

A function returns the final contents of the buffers it was given and of all its local arrays, so
that also what remains on the stack can be stated.  The parameters `pk`, `sk`, `ct`, `ss` are
distinct objects (the callers in /repo/tests pass distinct buffers).  Pieces of text that occur twice
in kem.c with the same variables up to renaming are modelled once, with both places cited. -/

namespace Frodo

/-- An implementation of `randombytes(buf, n)` (/repo/src/random/random.h:9): the new contents of the
buffer and the return value. -/
def RandomBytes := List U8 → Nat → C (List U8 × Int)

/-- The macro `shake` (/repo/src/frodo640.c:29, frodo976.c:29, frodo1344.c:29). -/
def shake (P : Params) (J : Junk) (out : List U8) (outlen : Nat) (inp : List U8) (inlen : Nat) :
    C (List U8) :=
  match P.shake with
  | .shake128 => shake128 J out outlen inp inlen
  | .shake256 => shake256 J out outlen inp inlen

/-- `for (i = 0; i < len; i++) X[i] = LE_TO_UINT16(X[i])` (/repo/src/kem.c:45-47, 114-116, 207-209). -/
def leLoop (a : Arch) (l : List U16) (len : Nat) : C (List U16) :=
  forC 0 len 1 l fun i l => do
    let x ← rd l i
    wr l i (LE_TO_UINT16 a x)

/-- `for (i = 0; i < len; i++) X[i] = UINT16_TO_LE(X[i])` (/repo/src/kem.c:58-60). -/
def toLeLoop (a : Arch) (l : List U16) (len : Nat) : C (List U16) :=
  forC 0 len 1 l fun i l => do
    let x ← rd l i
    wr l i (UINT16_TO_LE a x)

/-- Expansion of a seed to `len` words and sampling of the first `2*n*nbar` of them
(/repo/src/kem.c:42-49, 111-118, 204-211); `src` is the buffer starting at the seed.
The results are `shake_input_seedSE` and `S` resp. `Sp`. -/
def expandNoise (B : Build) (E : Env) (P : Params) (dom : U8) (src : List U8) (len : Nat) :
    C (List U8 × List U16) := do
  let inp ← wr (uninit E.junk 40 8 (1 + P.bytes)) 0 dom
  let inp ← memcpy inp 1 src 0 P.bytes
  let S ← asBytes B.arch (List.replicate len 0) 0 fun b =>
    shake P E.junk b (len * 2) inp (1 + P.bytes)
  let S ← leLoop B.arch S len
  let S ← frodo_sample_n P.cdf S (P.n * P.nbar)
  let S ← atPtr S (P.n * P.nbar) fun b => frodo_sample_n P.cdf b (P.n * P.nbar)
  pure (inp, S)

/-- `clear_bytes((uint8_t *)&X[off], len*sizeof(uint16_t))` (/repo/src/kem.c:67-68, 138-141,
239-243). -/
def clearWords (a : Arch) (l : List U16) (off len : Nat) : C (List U16) :=
  asBytes a l off fun b => clear_bytes b (len * 2)

/-- What `crypto_kem_keypair` leaves behind: its output buffers, its local arrays and the return
value (/repo/src/kem.c:15-33). -/
structure KeypairOut where
  pk : List U8
  sk : List U8
  B : List U16
  S : List U16
  randomness : List U8
  shake_input_seedSE : List U8
  ret : Int

/-- `crypto_kem_keypair` (/repo/src/kem.c:15-75). -/
def crypto_kem_keypair (B : Build) (E : Env) (P : Params) (rb : RandomBytes) (pk sk : List U8) :
    C KeypairOut := do
  let (randomness, _) ← rb (uninit E.junk 41 8 (2 * P.bytes + P.seedA))
    (P.bytes + P.bytes + P.seedA)
  let randomness_z ← ptr randomness (2 * P.bytes)
  let pk ← shake P E.junk pk P.seedA randomness_z P.seedA
  let randomness_seedSE ← ptr randomness P.bytes
  let (inp, S) ← expandNoise B E P 0x5F randomness_seedSE (2 * P.n * P.nbar)
  let Ep ← ptr S (P.n * P.nbar)
  let Bm ← frodo_mul_add_as_plus_e B E P (E.addr .B) (E.addr .S + 2 * (P.n * P.nbar))
    (List.replicate (P.n * P.nbar) 0) S Ep pk
  let pk ← atPtr pk P.seedA fun b =>
    frodo_pack b (P.pkBytes - P.seedA) Bm (P.n * P.nbar) P.logq
  let sk ← memcpy sk 0 randomness 0 P.bytes
  let sk ← memcpy sk P.bytes pk 0 P.pkBytes
  let S ← toLeLoop B.arch S (P.n * P.nbar)
  let sk ← memcpy sk (P.bytes + P.pkBytes) (toBytes B.arch S) 0 (2 * P.n * P.nbar)
  let sk ← atPtr sk (P.bytes + P.pkBytes + 2 * P.n * P.nbar) fun b =>
    shake P E.junk b P.bytes pk P.pkBytes
  let S ← clearWords B.arch S 0 (P.n * P.nbar)
  let S ← clearWords B.arch S (P.n * P.nbar) (P.n * P.nbar)
  let randomness ← clear_bytes randomness (2 * P.bytes)
  let inp ← clear_bytes inp (1 + P.bytes)
  pure ⟨pk, sk, Bm, S, randomness, inp, 0⟩

/-- `frodo_mul_add_sa_plus_e(Bp, Sp, Ep, pk_seedA)` with `Ep = &Sp[N*NBAR]`
(/repo/src/kem.c:119, 212): `Bp` and `Sp` afterwards. -/
def mulSA (B : Build) (E : Env) (P : Params) (Bp Sp : List U16) (seedA : List U8) :
    C (List U16 × List U16) := do
  let Ep ← ptr Sp (P.n * P.nbar)
  let (Bp, Ep) ← frodo_mul_add_sa_plus_e B E P (E.addr .Sp + 2 * (P.n * P.nbar)) Bp
    (Sp.take (P.n * P.nbar)) Ep seedA
  pure (Bp, Sp.take (P.n * P.nbar) ++ Ep)

/-- The arrays that `encryptMu` changes (/repo/src/kem.c:84-90, 155-163): `Sp`, `B`, `V` (in
`crypto_kem_dec` called `W`) and `C` (in `crypto_kem_dec` called `CC`). -/
structure EncryptOut where
  Sp : List U16
  B : List U16
  V : List U16
  C : List U16

/-- Sampling of `Epp`, `V = Sp*B + Epp` and `C = V + enc(mu)` (/repo/src/kem.c:123-129, 215-221).  The
pointer `mu` into the byte array `G2in` is converted to `uint16_t *` (lines 128, 220), so that its address
`muAddr` must be even (C11 6.3.2.3p7). -/
def encryptMu (P : Params) (muAddr : Nat) (Sp Bm V Cm : List U16) (pkb mu : List U8) : C EncryptOut := do
  let Sp ← atPtr Sp (2 * P.n * P.nbar) fun b => frodo_sample_n P.cdf b (P.nbar * P.nbar)
  let Bm ← frodo_unpack Bm (P.n * P.nbar) pkb (P.pkBytes - P.seedA) P.logq
  let Epp ← ptr Sp (2 * P.n * P.nbar)
  let V ← frodo_mul_add_sb_plus_e P V Bm Sp Epp
  C.require (muAddr % 2 = 0) .misaligned
  let Cm ← frodo_key_encode P Cm mu
  let Cm ← frodo_add P Cm (.buf V) .out
  pure ⟨Sp, Bm, V, Cm⟩

/-- What `crypto_kem_enc` leaves behind (/repo/src/kem.c:78-100). -/
structure EncOut where
  ct : List U8
  ss : List U8
  B : List U16
  V : List U16
  C : List U16
  Bp : List U16
  Sp : List U16
  G2in : List U8
  G2out : List U8
  Fin : List U8
  shake_input_seedSE : List U8
  ret : Int

/-- `crypto_kem_enc` (/repo/src/kem.c:78-150). -/
def crypto_kem_enc (B : Build) (E : Env) (P : Params) (rb : RandomBytes) (ct ss pk : List U8) :
    C EncOut := do
  let G2in ← shake P E.junk (uninit E.junk 42 8 (P.bytes + P.bytesMu)) P.bytes pk P.pkBytes
  let mu ← ptr G2in P.bytes
  let (mu, _) ← rb mu P.bytesMu
  let G2in := G2in.take P.bytes ++ mu
  let G2out ← shake P E.junk (uninit E.junk 43 8 (2 * P.bytes)) (P.bytes + P.bytes) G2in
    (P.bytes + P.bytesMu)
  let (inp, Sp) ← expandNoise B E P 0x96 G2out ((2 * P.n + P.nbar) * P.nbar)
  let (Bp, Sp) ← mulSA B E P (List.replicate (P.n * P.nbar) 0) Sp pk
  let ct ← frodo_pack ct (P.logq * P.n * P.nbar / 8) Bp (P.n * P.nbar) P.logq
  let pkb ← ptr pk P.seedA
  let mu ← ptr G2in P.bytes
  let r ← encryptMu P (E.addr .G2in + P.bytes) Sp (List.replicate (P.n * P.nbar) 0) (List.replicate (P.nbar * P.nbar) 0)
    (List.replicate (P.nbar * P.nbar) 0) pkb mu
  let ct ← atPtr ct (P.logq * P.n * P.nbar / 8) fun b =>
    frodo_pack b (P.logq * P.nbar * P.nbar / 8) r.C (P.nbar * P.nbar) P.logq
  let Fin ← memcpy (uninit E.junk 44 8 (P.ctBytes + P.bytes)) 0 ct 0 P.ctBytes
  let Fin ← memcpy Fin P.ctBytes G2out P.bytes P.bytes
  let ss ← shake P E.junk ss P.bytes Fin (P.ctBytes + P.bytes)
  let V ← clearWords B.arch r.V 0 (P.nbar * P.nbar)
  let Sp ← clearWords B.arch r.Sp 0 (P.n * P.nbar)
  let Sp ← clearWords B.arch Sp (P.n * P.nbar) (P.n * P.nbar)
  let Sp ← clearWords B.arch Sp (2 * P.n * P.nbar) (P.nbar * P.nbar)
  let G2in ← atPtr G2in P.bytes fun b => clear_bytes b P.bytesMu
  let G2out ← clear_bytes G2out (2 * P.bytes)
  let Fin ← atPtr Fin P.ctBytes fun b => clear_bytes b P.bytes
  let inp ← clear_bytes inp (1 + P.bytes)
  pure ⟨ct, ss, r.B, V, r.C, Bp, Sp, G2in, G2out, Fin, inp, 0⟩

/-- What `crypto_kem_dec` leaves behind (/repo/src/kem.c:153-182). -/
structure DecOut where
  ss : List U8
  B : List U16
  Bp : List U16
  W : List U16
  C : List U16
  CC : List U16
  BBp : List U16
  Sp : List U16
  S : List U16
  G2in : List U8
  G2out : List U8
  Fin : List U8
  shake_input_seedSEprime : List U8
  ret : Int

/-- `for (int i = 0; i < N*NBAR; i++) BBp[i] = BBp[i] & ((1 << LOGQ)-1)` (/repo/src/kem.c:227). -/
def reduceLoop (P : Params) (BBp : List U16) : C (List U16) :=
  forC 0 (P.n * P.nbar) 1 BBp fun i BBp => do
    let x ← rd BBp i
    let m ← qMask P
    wr BBp i (u16 (iand (x : Int) m))

/-- `S[i] = LE_TO_UINT16(sk_S[i])` (/repo/src/kem.c:168-169, 188-190).  The pointer `sk_S` of type
`uint16_t *` points into the byte array `sk`; it must be a multiple of 2 (C11 6.3.2.3p7), where
`skAddr` is the address of `sk`. -/
def loadS (B : Build) (E : Env) (P : Params) (skAddr : Nat) (sk : List U8) : C (List U16) := do
  C.require ((skAddr + (P.bytes + P.pkBytes)) % 2 = 0) .misaligned
  let skS ← ptr sk (P.bytes + P.pkBytes)
  forC 0 (P.n * P.nbar) 1 (uninit E.junk 45 16 (P.n * P.nbar)) fun i S => do
    let x ← rd (ofBytes B.arch skS) i
    wr S i (LE_TO_UINT16 B.arch x)

/-- `W = C - Bp*S` and decoding (/repo/src/kem.c:193-197): `Bp`, `C`, `W` and `G2in`.  The address `muAddr`
of `muprime`, a pointer into a byte array, must be even for the conversion in line 197. -/
def decryptMu (P : Params) (muAddr : Nat) (S : List U16) (G2in ct : List U8) :
    C (List U16 × List U16 × List U16 × List U8) := do
  let Bp ← frodo_unpack (List.replicate (P.n * P.nbar) 0) (P.n * P.nbar) ct
    (P.logq * P.n * P.nbar / 8) P.logq
  let ct2 ← ptr ct (P.logq * P.n * P.nbar / 8)
  let Cm ← frodo_unpack (List.replicate (P.nbar * P.nbar) 0) (P.nbar * P.nbar) ct2
    (P.logq * P.nbar * P.nbar / 8) P.logq
  let W ← frodo_mul_bs P (List.replicate (P.nbar * P.nbar) 0) Bp S
  let W ← frodo_sub P W (.buf Cm) .out
  C.require (muAddr % 2 = 0) .misaligned
  let G2in ← atPtr G2in P.bytes fun b => frodo_key_decode P b W
  pure (Bp, Cm, W, G2in)

/-- `crypto_kem_dec` (/repo/src/kem.c:153-252).  The two calls of `ct_verify` in line 233 are made
from left to right; the order is unspecified in C but does not matter as they have no effect. -/
def crypto_kem_dec (B : Build) (E : Env) (P : Params) (skAddr : Nat) (ss ct sk : List U8) :
    C DecOut := do
  let S ← loadS B E P skAddr sk
  let (Bp, Cm, W, G2in) ← decryptMu P (E.addr .G2in + P.bytes) S (uninit E.junk 42 8 (P.bytes + P.bytesMu)) ct
  let G2in ← memcpy G2in 0 sk (P.bytes + P.pkBytes + 2 * P.n * P.nbar) P.bytes
  let G2out ← shake P E.junk (uninit E.junk 43 8 (2 * P.bytes)) (P.bytes + P.bytes) G2in
    (P.bytes + P.bytesMu)
  let (inp, Sp) ← expandNoise B E P 0x96 G2out ((2 * P.n + P.nbar) * P.nbar)
  let skPk ← ptr sk P.bytes
  let (BBp, Sp) ← mulSA B E P (List.replicate (P.n * P.nbar) 0) Sp skPk
  let pkb ← ptr skPk P.seedA
  let muprime ← ptr G2in P.bytes
  let r ← encryptMu P (E.addr .G2in + P.bytes) Sp (List.replicate (P.n * P.nbar) 0) W
    (List.replicate (P.nbar * P.nbar) 0) pkb muprime
  let Fin ← memcpy (uninit E.junk 44 8 (P.ctBytes + P.bytes)) 0 ct 0 P.ctBytes
  let BBp ← reduceLoop P BBp
  let v1 ← ct_verify Bp BBp (P.n * P.nbar)
  let v2 ← ct_verify Cm r.C (P.nbar * P.nbar)
  let selector := i8 (ior v1 v2)
  let kprime ← ptr G2out P.bytes
  let Fin ← atPtr Fin P.ctBytes fun b => ct_select b kprime sk P.bytes selector
  let ss ← shake P E.junk ss P.bytes Fin (P.ctBytes + P.bytes)
  let W ← clearWords B.arch r.V 0 (P.nbar * P.nbar)
  let Sp ← clearWords B.arch r.Sp 0 (P.n * P.nbar)
  let S ← clearWords B.arch S 0 (P.n * P.nbar)
  let Sp ← clearWords B.arch Sp (P.n * P.nbar) (P.n * P.nbar)
  let Sp ← clearWords B.arch Sp (2 * P.n * P.nbar) (P.nbar * P.nbar)
  let G2in ← atPtr G2in P.bytes fun b => clear_bytes b P.bytesMu
  let G2out ← clear_bytes G2out (2 * P.bytes)
  let Fin ← atPtr Fin P.ctBytes fun b => clear_bytes b P.bytes
  let inp ← clear_bytes inp (1 + P.bytes)
  pure ⟨ss, r.B, Bp, W, Cm, r.C, BBp, Sp, S, G2in, G2out, Fin, inp, 0⟩

end Frodo

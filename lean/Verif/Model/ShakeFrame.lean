import Verif.Model.Kem

/-! # What `shake128` and `shake256` leave in their stack frames

The functions of /repo/src/sha3/fips202.c clear none of their local arrays before they return.  The definitions
below are those of `Verif.Model.Keccak` with these arrays among the results: the state `s` and the block `t` of
`shake128` and `shake256`, and the block `t` of the call to `keccak_absorb`.  These are the contents when the
function that owns the array returns; whatever is called next may overwrite them, nothing in the library does so
on purpose. -/

namespace Frodo

/-- The local array of `keccak_absorb` and the state that it was given, when it returns
(/repo/src/sha3/fips202.c:345-367). -/
structure AbsorbFrame where
  s : List U64
  t : List U8

/-- `keccak_absorb` (/repo/src/sha3/fips202.c:345-367) with its local array `t` (line 348). -/
def keccak_absorb_frame (J : Junk) (s : List U64) (r : Nat) (m : List U8) (mlen : Nat) (p : U8) :
    C AbsorbFrame := do
  let t := uninit J 1 8 200
  let st ← whileC (fun st : AbsorbSt => decide (st.mlen ≥ r)) (fun st => do
      let s ← xorBlock st.s r st.m
      let s ← KeccakF1600_StatePermute s
      let m ← ptr st.m r
      pure { s := s, m := m, mlen := st.mlen - r }) { s := s, m := m, mlen := mlen }
  let t ← forC 0 r 1 t fun i t => wr t i 0
  let t ← forC 0 st.mlen 1 t fun i t => do
    let x ← rd st.m i
    wr t i x
  let t ← wr t st.mlen p
  let x ← rd t (r - 1)
  let t ← wr t (r - 1) (x ||| 128)
  let s ← xorBlock st.s r t
  pure ⟨s, t⟩

/-- What `shake128` and `shake256` leave behind: the output buffer, their arrays `s` and `t`, and the array `t` of
`keccak_absorb` (/repo/src/sha3/fips202.c:348, 403-404, 442-443). -/
structure ShakeFrame where
  output : List U8
  s : List U64
  t : List U8
  absorbT : List U8

/-- The part of `shake128` and `shake256` that squeezes (/repo/src/sha3/fips202.c:411-422, 453-464), with the rate
as parameter. -/
def squeezeFrame (r : Nat) (J : Junk) (output : List U8) (outlen : Nat) (f : AbsorbFrame) : C ShakeFrame := do
  let t := uninit J 2 8 r
  let nblocks := outlen / r
  let (output, s) ← keccak_squeezeblocks output nblocks f.s r
  let off := nblocks * r
  let outlen := outlen - nblocks * r
  ifC (outlen != 0)
    (do
      let (t, s) ← keccak_squeezeblocks t 1 s r
      let output ← forC 0 outlen 1 output fun i output => do
        let x ← rd t i
        wr output (off + i) x
      pure ⟨output, s, t, f.t⟩)
    (pure ⟨output, s, t, f.t⟩)

/-- `shake128` (/repo/src/sha3/fips202.c:401-423) with what it leaves in its frame. -/
def shake128_frame (J : Junk) (output : List U8) (outlen : Nat) (input : List U8) (inlen : Nat) :
    C ShakeFrame := do
  let s : List U64 := List.replicate 25 0
  let f ← keccak_absorb_frame J s SHAKE128_RATE input inlen 0x1F
  squeezeFrame SHAKE128_RATE J output outlen f

/-- `shake256` (/repo/src/sha3/fips202.c:440-465) with what it leaves in its frame. -/
def shake256_frame (J : Junk) (output : List U8) (outlen : Nat) (input : List U8) (inlen : Nat) :
    C ShakeFrame := do
  let s ← forC 0 25 1 (uninit J 3 64 25) fun i s => wr s i 0
  let f ← keccak_absorb_frame J s SHAKE256_RATE input inlen 0x1F
  squeezeFrame SHAKE256_RATE J output outlen f

/-- The macro `shake` (/repo/src/frodo640.c:29, frodo976.c:29, frodo1344.c:29) with what the function leaves in
its frame. -/
def shake_frame (P : Params) (J : Junk) (out : List U8) (outlen : Nat) (inp : List U8) (inlen : Nat) :
    C ShakeFrame :=
  match P.shake with
  | .shake128 => shake128_frame J out outlen inp inlen
  | .shake256 => shake256_frame J out outlen inp inlen

/-! ## The functions of kem.c with the frame of one call -/

/-- `asBytes` (/repo/src/kem.c:44, 113, 206: the `uint8_t` view of an array of `uint16_t` that is passed to
`shake`) for a function that also reports its frame. -/
def asBytes_frame (a : Arch) (l : List U16) (off : Nat) (f : List U8 → C ShakeFrame) : C (List U16 × ShakeFrame) :=
  if off ≤ l.length then do
    C.emit (.addr (2 * off))
    let b ← f (toBytes a (l.drop off))
    pure (l.take off ++ ofBytes a b.output, b)
  else C.ub .oobWrite

/-- `expandNoise` (/repo/src/kem.c:42-49, 111-118, 204-211) with the frame of the call to `shake`. -/
def expandNoise_frame (B : Build) (E : Env) (P : Params) (dom : U8) (src : List U8) (len : Nat) :
    C (List U8 × List U16 × ShakeFrame) := do
  let inp ← wr (uninit E.junk 40 8 (1 + P.bytes)) 0 dom
  let inp ← memcpy inp 1 src 0 P.bytes
  let (S, f) ← asBytes_frame B.arch (List.replicate len 0) 0 fun b =>
    shake_frame P E.junk b (len * 2) inp (1 + P.bytes)
  let S ← leLoop B.arch S len
  let S ← frodo_sample_n P.cdf S (P.n * P.nbar)
  let S ← atPtr S (P.n * P.nbar) fun b => frodo_sample_n P.cdf b (P.n * P.nbar)
  pure (inp, S, f)

/-- `crypto_kem_keypair` (/repo/src/kem.c:15-75) with the frame of the call to `shake` in line 44. -/
def crypto_kem_keypair_frame (B : Build) (E : Env) (P : Params) (rb : RandomBytes) (pk sk : List U8) :
    C (KeypairOut × ShakeFrame) := do
  let (randomness, _) ← rb (uninit E.junk 41 8 (2 * P.bytes + P.seedA))
    (P.bytes + P.bytes + P.seedA)
  let randomness_z ← ptr randomness (2 * P.bytes)
  let pk ← shake P E.junk pk P.seedA randomness_z P.seedA
  let randomness_seedSE ← ptr randomness P.bytes
  let (inp, S, f) ← expandNoise_frame B E P 0x5F randomness_seedSE (2 * P.n * P.nbar)
  let Ep ← ptr S (P.n * P.nbar)
  let Bm ← frodo_mul_add_as_plus_e B E P (E.addr .B) (E.addr .S + 2 * (P.n * P.nbar))
    (List.replicate (P.n * P.nbar) 0) S Ep pk
  let pk ← atPtr pk P.seedA fun b =>
    frodo_pack b (P.pkBytes - P.seedA) Bm (P.n * P.nbar) P.logq
  let sk ← memcpy sk 0 randomness 0 P.bytes
  let sk ← memcpy sk P.bytes pk 0 P.pkBytes
  let S ← toLeLoop B.arch S (P.n * P.nbar)
  let sk ← memcpy sk (P.bytes + P.pkBytes) (toBytes B.arch S) 0 (2 * P.n * P.nbar)
  let sk ← atPtr sk (P.bytes + P.pkBytes + 2 * P.n * P.nbar) fun b =>
    shake P E.junk b P.bytes pk P.pkBytes
  let S ← clearWords B.arch S 0 (P.n * P.nbar)
  let S ← clearWords B.arch S (P.n * P.nbar) (P.n * P.nbar)
  let randomness ← clear_bytes randomness (2 * P.bytes)
  let inp ← clear_bytes inp (1 + P.bytes)
  pure (⟨pk, sk, Bm, S, randomness, inp, 0⟩, f)

/-- `crypto_kem_enc` (/repo/src/kem.c:78-150) with the frame of its last call to `shake`, in line 135. -/
def crypto_kem_enc_frame (B : Build) (E : Env) (P : Params) (rb : RandomBytes) (ct ss pk : List U8) :
    C (EncOut × ShakeFrame) := do
  let G2in ← shake P E.junk (uninit E.junk 42 8 (P.bytes + P.bytesMu)) P.bytes pk P.pkBytes
  let mu ← ptr G2in P.bytes
  let (mu, _) ← rb mu P.bytesMu
  let G2in := G2in.take P.bytes ++ mu
  let G2out ← shake P E.junk (uninit E.junk 43 8 (2 * P.bytes)) (P.bytes + P.bytes) G2in
    (P.bytes + P.bytesMu)
  let (inp, Sp) ← expandNoise B E P 0x96 G2out ((2 * P.n + P.nbar) * P.nbar)
  let (Bp, Sp) ← mulSA B E P (List.replicate (P.n * P.nbar) 0) Sp pk
  let ct ← frodo_pack ct (P.logq * P.n * P.nbar / 8) Bp (P.n * P.nbar) P.logq
  let pkb ← ptr pk P.seedA
  let mu ← ptr G2in P.bytes
  let r ← encryptMu P (E.addr .G2in + P.bytes) Sp (List.replicate (P.n * P.nbar) 0) (List.replicate (P.nbar * P.nbar) 0)
    (List.replicate (P.nbar * P.nbar) 0) pkb mu
  let ct ← atPtr ct (P.logq * P.n * P.nbar / 8) fun b =>
    frodo_pack b (P.logq * P.nbar * P.nbar / 8) r.C (P.nbar * P.nbar) P.logq
  let Fin ← memcpy (uninit E.junk 44 8 (P.ctBytes + P.bytes)) 0 ct 0 P.ctBytes
  let Fin ← memcpy Fin P.ctBytes G2out P.bytes P.bytes
  let f ← shake_frame P E.junk ss P.bytes Fin (P.ctBytes + P.bytes)
  let ss := f.output
  let V ← clearWords B.arch r.V 0 (P.nbar * P.nbar)
  let Sp ← clearWords B.arch r.Sp 0 (P.n * P.nbar)
  let Sp ← clearWords B.arch Sp (P.n * P.nbar) (P.n * P.nbar)
  let Sp ← clearWords B.arch Sp (2 * P.n * P.nbar) (P.nbar * P.nbar)
  let G2in ← atPtr G2in P.bytes fun b => clear_bytes b P.bytesMu
  let G2out ← clear_bytes G2out (2 * P.bytes)
  let Fin ← atPtr Fin P.ctBytes fun b => clear_bytes b P.bytes
  let inp ← clear_bytes inp (1 + P.bytes)
  pure (⟨ct, ss, r.B, V, r.C, Bp, Sp, G2in, G2out, Fin, inp, 0⟩, f)

/-- `crypto_kem_dec` (/repo/src/kem.c:153-252) with the frame of its last call to `shake`, in line 236. -/
def crypto_kem_dec_frame (B : Build) (E : Env) (P : Params) (skAddr : Nat) (ss ct sk : List U8) :
    C (DecOut × ShakeFrame) := do
  let S ← loadS B E P skAddr sk
  let (Bp, Cm, W, G2in) ← decryptMu P (E.addr .G2in + P.bytes) S (uninit E.junk 42 8 (P.bytes + P.bytesMu)) ct
  let G2in ← memcpy G2in 0 sk (P.bytes + P.pkBytes + 2 * P.n * P.nbar) P.bytes
  let G2out ← shake P E.junk (uninit E.junk 43 8 (2 * P.bytes)) (P.bytes + P.bytes) G2in
    (P.bytes + P.bytesMu)
  let (inp, Sp) ← expandNoise B E P 0x96 G2out ((2 * P.n + P.nbar) * P.nbar)
  let skPk ← ptr sk P.bytes
  let (BBp, Sp) ← mulSA B E P (List.replicate (P.n * P.nbar) 0) Sp skPk
  let pkb ← ptr skPk P.seedA
  let muprime ← ptr G2in P.bytes
  let r ← encryptMu P (E.addr .G2in + P.bytes) Sp (List.replicate (P.n * P.nbar) 0) W
    (List.replicate (P.nbar * P.nbar) 0) pkb muprime
  let Fin ← memcpy (uninit E.junk 44 8 (P.ctBytes + P.bytes)) 0 ct 0 P.ctBytes
  let BBp ← reduceLoop P BBp
  let v1 ← ct_verify Bp BBp (P.n * P.nbar)
  let v2 ← ct_verify Cm r.C (P.nbar * P.nbar)
  let selector := i8 (ior v1 v2)
  let kprime ← ptr G2out P.bytes
  let Fin ← atPtr Fin P.ctBytes fun b => ct_select b kprime sk P.bytes selector
  let f ← shake_frame P E.junk ss P.bytes Fin (P.ctBytes + P.bytes)
  let ss := f.output
  let W ← clearWords B.arch r.V 0 (P.nbar * P.nbar)
  let Sp ← clearWords B.arch r.Sp 0 (P.n * P.nbar)
  let S ← clearWords B.arch S 0 (P.n * P.nbar)
  let Sp ← clearWords B.arch Sp (P.n * P.nbar) (P.n * P.nbar)
  let Sp ← clearWords B.arch Sp (2 * P.n * P.nbar) (P.nbar * P.nbar)
  let G2in ← atPtr G2in P.bytes fun b => clear_bytes b P.bytesMu
  let G2out ← clear_bytes G2out (2 * P.bytes)
  let Fin ← atPtr Fin P.ctBytes fun b => clear_bytes b P.bytes
  let inp ← clear_bytes inp (1 + P.bytes)
  pure (⟨ss, r.B, Bp, W, Cm, r.C, BBp, Sp, S, G2in, G2out, Fin, inp, 0⟩, f)

end Frodo

import Verif.Model.Kem

/-! # Model of /repo/src/kem.c for arguments that may overlap

The parameters `pk`, `sk`, `ct` and `ss` of the three functions are pointers without `restrict`
(/repo/src/kem.c:15, 78, 153), so a caller may pass pointers to overlapping ranges of bytes.  Here all the
buffers of the caller lie in one array `mem` and an argument is an offset into it: every read through a
parameter reads the current contents of `mem`, every write through a parameter changes `mem`.  Everything else
is as in `Verif.Model.Kem`: the local arrays are separate objects, and the functions called are the same models.

Two callees get two pointers into `mem` at a time.  The first is `memcpy`, whose behaviour is undefined for
overlapping ranges (`memcpyIn`).  The second is `shake`, which absorbs all the input before it writes the first
byte of output (/repo/src/sha3/fips202.c:401-423, 440-465), so that the input is read from the old contents. -/

namespace Frodo

/-- `memcpy(&mem[dst], &mem[src], n)` inside one array: the ranges must not overlap (C11 7.24.2.1p2). -/
def memcpyIn (mem : List U8) (dst src n : Nat) : C (List U8) := do
  C.require (dst + n ≤ src ∨ src + n ≤ dst) .overlap
  memcpy mem dst mem src n

/-- `crypto_kem_keypair` up to the first part of the secret key (/repo/src/kem.c:17-56), for `pk` and `sk` in
`mem`: the array `mem`, and the local arrays `S`, `randomness` and `shake_input_seedSE`. -/
def keypairHead (B : Build) (E : Env) (P : Params) (rb : RandomBytes) (mem : List U8) (pk sk : Nat) :
    C (List U8 × List U16 × List U8 × List U8) := do
  let (randomness, _) ← rb (uninit E.junk 41 8 (2 * P.bytes + P.seedA))
    (P.bytes + P.bytes + P.seedA)
  let randomness_z ← ptr randomness (2 * P.bytes)
  let mem ← atPtr mem pk fun b => shake P E.junk b P.seedA randomness_z P.seedA
  let randomness_seedSE ← ptr randomness P.bytes
  let (inp, S) ← expandNoise B E P 0x5F randomness_seedSE (2 * P.n * P.nbar)
  let Ep ← ptr S (P.n * P.nbar)
  let p ← ptr mem pk
  let Bm ← frodo_mul_add_as_plus_e B E P (E.addr .B) (E.addr .S + 2 * (P.n * P.nbar))
    (List.replicate (P.n * P.nbar) 0) S Ep p
  let mem ← atPtr mem (pk + P.seedA) fun b =>
    frodo_pack b (P.pkBytes - P.seedA) Bm (P.n * P.nbar) P.logq
  let mem ← memcpy mem sk randomness 0 P.bytes
  pure (mem, S, randomness, inp)

/-- `crypto_kem_keypair` from the copy of the public key on (/repo/src/kem.c:57-74), for `pk` and `sk` in `mem`:
the array `mem` and the return value. -/
def keypairTail (B : Build) (E : Env) (P : Params) (mem : List U8) (pk sk : Nat) (S : List U16)
    (randomness inp : List U8) : C (List U8 × Int) := do
  let mem ← memcpyIn mem (sk + P.bytes) pk P.pkBytes
  let S ← toLeLoop B.arch S (P.n * P.nbar)
  let mem ← memcpy mem (sk + (P.bytes + P.pkBytes)) (toBytes B.arch S) 0 (2 * P.n * P.nbar)
  let p ← ptr mem pk
  let mem ← atPtr mem (sk + (P.bytes + P.pkBytes + 2 * P.n * P.nbar)) fun b =>
    shake P E.junk b P.bytes p P.pkBytes
  let S ← clearWords B.arch S 0 (P.n * P.nbar)
  let _ ← clearWords B.arch S (P.n * P.nbar) (P.n * P.nbar)
  let _ ← clear_bytes randomness (2 * P.bytes)
  let _ ← clear_bytes inp (1 + P.bytes)
  pure (mem, 0)

/-- `crypto_kem_keypair(&mem[pk], &mem[sk])` (/repo/src/kem.c:15-75): the array `mem` and the return value. -/
def keypairShared (B : Build) (E : Env) (P : Params) (rb : RandomBytes) (mem : List U8) (pk sk : Nat) :
    C (List U8 × Int) := do
  let (mem, S, randomness, inp) ← keypairHead B E P rb mem pk sk
  keypairTail B E P mem pk sk S randomness inp

/-- `crypto_kem_enc(&mem[ct], &mem[ss], &mem[pk])` (/repo/src/kem.c:78-150): the array `mem` and the return
value. -/
def encShared (B : Build) (E : Env) (P : Params) (rb : RandomBytes) (mem : List U8) (ct ss pk : Nat) :
    C (List U8 × Int) := do
  let p ← ptr mem pk
  let G2in ← shake P E.junk (uninit E.junk 42 8 (P.bytes + P.bytesMu)) P.bytes p P.pkBytes
  let mu ← ptr G2in P.bytes
  let (mu, _) ← rb mu P.bytesMu
  let G2in := G2in.take P.bytes ++ mu
  let G2out ← shake P E.junk (uninit E.junk 43 8 (2 * P.bytes)) (P.bytes + P.bytes) G2in
    (P.bytes + P.bytesMu)
  let (inp, Sp) ← expandNoise B E P 0x96 G2out ((2 * P.n + P.nbar) * P.nbar)
  let p ← ptr mem pk
  let (Bp, Sp) ← mulSA B E P (List.replicate (P.n * P.nbar) 0) Sp p
  let mem ← atPtr mem ct fun b => frodo_pack b (P.logq * P.n * P.nbar / 8) Bp (P.n * P.nbar) P.logq
  let pkb ← ptr mem (pk + P.seedA)
  let mu ← ptr G2in P.bytes
  let r ← encryptMu P (E.addr .G2in + P.bytes) Sp (List.replicate (P.n * P.nbar) 0)
    (List.replicate (P.nbar * P.nbar) 0) (List.replicate (P.nbar * P.nbar) 0) pkb mu
  let mem ← atPtr mem (ct + P.logq * P.n * P.nbar / 8) fun b =>
    frodo_pack b (P.logq * P.nbar * P.nbar / 8) r.C (P.nbar * P.nbar) P.logq
  let Fin ← memcpy (uninit E.junk 44 8 (P.ctBytes + P.bytes)) 0 mem ct P.ctBytes
  let Fin ← memcpy Fin P.ctBytes G2out P.bytes P.bytes
  let mem ← atPtr mem ss fun b => shake P E.junk b P.bytes Fin (P.ctBytes + P.bytes)
  let _ ← clearWords B.arch r.V 0 (P.nbar * P.nbar)
  let Sp ← clearWords B.arch r.Sp 0 (P.n * P.nbar)
  let Sp ← clearWords B.arch Sp (P.n * P.nbar) (P.n * P.nbar)
  let _ ← clearWords B.arch Sp (2 * P.n * P.nbar) (P.nbar * P.nbar)
  let _ ← atPtr G2in P.bytes fun b => clear_bytes b P.bytesMu
  let _ ← clear_bytes G2out (2 * P.bytes)
  let _ ← atPtr Fin P.ctBytes fun b => clear_bytes b P.bytes
  let _ ← clear_bytes inp (1 + P.bytes)
  pure (mem, 0)

/-- `crypto_kem_dec(&mem[ss], &mem[ct], &mem[sk])` (/repo/src/kem.c:153-252), where `addr` is the address of
`mem`: the array `mem` and the return value. -/
def decShared (B : Build) (E : Env) (P : Params) (addr : Nat) (mem : List U8) (ss ct sk : Nat) :
    C (List U8 × Int) := do
  let k ← ptr mem sk
  let S ← loadS B E P (addr + sk) k
  let c ← ptr mem ct
  let (Bp, Cm, W, G2in) ← decryptMu P (E.addr .G2in + P.bytes) S
    (uninit E.junk 42 8 (P.bytes + P.bytesMu)) c
  let G2in ← memcpy G2in 0 mem (sk + (P.bytes + P.pkBytes + 2 * P.n * P.nbar)) P.bytes
  let G2out ← shake P E.junk (uninit E.junk 43 8 (2 * P.bytes)) (P.bytes + P.bytes) G2in
    (P.bytes + P.bytesMu)
  let (inp, Sp) ← expandNoise B E P 0x96 G2out ((2 * P.n + P.nbar) * P.nbar)
  let skPk ← ptr mem (sk + P.bytes)
  let (BBp, Sp) ← mulSA B E P (List.replicate (P.n * P.nbar) 0) Sp skPk
  let pkb ← ptr mem (sk + P.bytes + P.seedA)
  let muprime ← ptr G2in P.bytes
  let r ← encryptMu P (E.addr .G2in + P.bytes) Sp (List.replicate (P.n * P.nbar) 0) W
    (List.replicate (P.nbar * P.nbar) 0) pkb muprime
  let Fin ← memcpy (uninit E.junk 44 8 (P.ctBytes + P.bytes)) 0 mem ct P.ctBytes
  let BBp ← reduceLoop P BBp
  let v1 ← ct_verify Bp BBp (P.n * P.nbar)
  let v2 ← ct_verify Cm r.C (P.nbar * P.nbar)
  let selector := i8 (ior v1 v2)
  let kprime ← ptr G2out P.bytes
  let s ← ptr mem sk
  let Fin ← atPtr Fin P.ctBytes fun b => ct_select b kprime s P.bytes selector
  let mem ← atPtr mem ss fun b => shake P E.junk b P.bytes Fin (P.ctBytes + P.bytes)
  let _ ← clearWords B.arch r.V 0 (P.nbar * P.nbar)
  let Sp ← clearWords B.arch r.Sp 0 (P.n * P.nbar)
  let _ ← clearWords B.arch S 0 (P.n * P.nbar)
  let Sp ← clearWords B.arch Sp (P.n * P.nbar) (P.n * P.nbar)
  let _ ← clearWords B.arch Sp (2 * P.n * P.nbar) (P.nbar * P.nbar)
  let _ ← atPtr G2in P.bytes fun b => clear_bytes b P.bytesMu
  let _ ← clear_bytes G2out (2 * P.bytes)
  let _ ← atPtr Fin P.ctBytes fun b => clear_bytes b P.bytes
  let _ ← clear_bytes inp (1 + P.bytes)
  pure (mem, 0)

end Frodo

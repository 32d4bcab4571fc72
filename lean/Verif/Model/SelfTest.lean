import Verif.Model.Kem

/-! # Model of the self-test /repo/tests/test_kem.c

`kem_test` with its arrays; the messages that it prints and the parts under `DO_VALGRIND_CHECK` (which
mark memory for the tool valgrind and do not change it) are left out, and so are `kem_bench` and `main`. -/

namespace Frodo

/-- `memcmp(a, b, n)`.  Only the comparison of the result with 0 is used (/repo/tests/test_kem.c:53, 80;
/repo/tests/PQCtestKAT_kem640.c:81, 85, 104, 108, 118), so 1 stands for every other value. -/
def memcmp (a b : List U8) (n : Nat) : C Int :=
  if n ≤ a.length ∧ n ≤ b.length then do
    C.emit (.block 0 n)
    C.emit (.block 0 n)
    pure (if a.take n = b.take n then 0 else 1)
  else C.ub .oobRead

/-- The `uint32_t` represented by four bytes of memory (C11 6.2.6.1p4), that is `*pos` of
/repo/tests/test_kem.c:29 as a number. -/
def join32 (a : Arch) (b0 b1 b2 b3 : U8) : Nat :=
  match a with
  | .le => b0.toNat + 256 * b1.toNat + 65536 * b2.toNat + 16777216 * b3.toNat
  | .be => b3.toNat + 256 * b2.toNat + 65536 * b1.toNat + 16777216 * b0.toNat

/-- The digit to change (/repo/tests/test_kem.c:60-63).  The stores to `*pos` are seen only through
`*pos` and are not written back to `bytes`. -/
def choosePos (a : Arch) (P : Params) (bytes : List U8) : C Nat := do
  let b0 ← rd bytes 0
  let b1 ← rd bytes 1
  let b2 ← rd bytes 2
  let b3 ← rd bytes 3
  let pos := join32 a b0 b1 b2 b3 % (P.ctBytes / 2)
  ifC (decide (pos = 0)) (pure 1) (pure pos)

/-- `((uint16_t*)ct)[*pos] ^= *pos` (/repo/tests/test_kem.c:64). -/
def changeDigit (a : Arch) (ct : List U8) (pos : Nat) : C (List U8) := do
  let w := ofBytes a ct
  let x ← rd w pos
  let w ← wr w pos (BitVec.ofNat 16 (x.toNat ^^^ pos))
  pure (toBytes a w ++ ct.drop (2 * w.length))

/-- The local arrays of `kem_test` (/repo/tests/test_kem.c:25-30), except that `bytes` and `Fin` are
written before they are read in every iteration, and whether it has returned `false`. -/
structure TestSt where
  pk : List U8
  sk : List U8
  ss_encap : List U8
  ss_decap : List U8
  ct : List U8
  failed : Bool

/-- The addresses of the arrays of `kem_test` that are accessed as wider words
(/repo/tests/test_kem.c:26, 28-30). -/
structure TestAddr where
  sk : Nat
  ct : Nat
  bytes : Nat

/-- The second half of an iteration (/repo/tests/test_kem.c:59-83). -/
def tamperTest (B : Build) (E : Env) (P : Params) (a : TestAddr) (rb : RandomBytes) (s : TestSt) :
    C TestSt := do
  let (bytes, _) ← rb (uninit E.junk 60 8 4) 4
  let pos ← choosePos B.arch P bytes
  C.require (a.ct % 2 = 0) .misaligned
  let ct ← changeDigit B.arch s.ct pos
  let de ← crypto_kem_dec B E P a.sk s.ss_decap ct s.sk
  let Fin ← memcpy (uninit E.junk 61 8 (P.ctBytes + P.bytes)) 0 ct 0 P.ctBytes
  let Fin ← memcpy Fin P.ctBytes s.sk 0 P.bytes
  let ss ← shake P E.junk s.ss_encap P.bytes Fin (P.ctBytes + P.bytes)
  let r ← memcmp ss de.ss P.bytes
  ifC (decide (r ≠ 0)) (pure ⟨s.pk, s.sk, ss, de.ss, ct, true⟩) (pure ⟨s.pk, s.sk, ss, de.ss, ct, false⟩)

/-- One iteration (/repo/tests/test_kem.c:46-83); `rb 0`, `rb 1` and `rb 2` are the three calls of
`randombytes`: in `crypto_kem_keypair`, in `crypto_kem_enc` and at line 59. -/
def testRound (B : Build) (E : Env) (P : Params) (a : TestAddr) (rb : Nat → RandomBytes) (s : TestSt) :
    C TestSt := do
  let kp ← crypto_kem_keypair B E P (rb 0) s.pk s.sk
  let en ← crypto_kem_enc B E P (rb 1) s.ct s.ss_encap kp.pk
  let de ← crypto_kem_dec B E P a.sk s.ss_decap en.ct kp.sk
  let r ← memcmp en.ss de.ss P.bytes
  ifC (decide (r ≠ 0)) (pure ⟨kp.pk, kp.sk, en.ss, de.ss, en.ct, true⟩)
    (tamperTest B E P a (rb 2) ⟨kp.pk, kp.sk, en.ss, de.ss, en.ct, false⟩)

/-- `kem_test` (/repo/tests/test_kem.c:23-88): whether it returns `true`.  `bytes` is an array of
`unsigned char`, which the conversion at line 29 takes for a `uint32_t`: its address must be a multiple
of 4 (C11 6.3.2.3p7).  `rb k` is the `k`-th call of `randombytes`. -/
def kem_test (B : Build) (E : Env) (P : Params) (a : TestAddr) (rb : Nat → RandomBytes)
    (iterations : Nat) : C Bool := do
  C.require (a.bytes % 4 = 0) .misaligned
  let s0 : TestSt := ⟨uninit E.junk 62 8 P.pkBytes, uninit E.junk 63 8 P.skBytes,
    uninit E.junk 64 8 P.bytes, uninit E.junk 65 8 P.bytes, uninit E.junk 66 8 P.ctBytes, false⟩
  let (s, _) ← whileC (fun (s : TestSt × Nat) => !s.1.failed && decide (s.2 < iterations))
    (fun (s, i) => do
      let s ← testRound B E P a (fun k => rb (3 * i + k)) s
      pure (s, i + 1)) (s0, 0)
  pure (!s.failed)

end Frodo

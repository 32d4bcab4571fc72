import Verif.Spec.Kem
import Verif.Model.Mem

/-! # What the self-test is supposed to check

Stated over the specified KEM and independent of the model of /repo/tests/test_kem.c; only the type
`Arch` of byte orders is taken from the model. -/

namespace Frodo.Spec

/-- The random bytes of one iteration: for key generation, for encapsulation, and for the position of
the change. -/
structure TestRand where
  s : List U8
  seedSE : List U8
  z : List U8
  mu : List U8
  bytes : List U8

/-- The number that bytes represent, the first one with the lowest weight. -/
def leVal : List U8 → Nat
  | [] => 0
  | b :: l => b.toNat + 256 * leVal l

/-- The number that bytes of memory represent. -/
def memVal (a : Arch) (l : List U8) : Nat :=
  match a with
  | .le => leVal l
  | .be => leVal l.reverse

/-- The position of the 16-bit digit that is changed in a ciphertext of `len` bytes: the random number
modulo the number of digits, but 1 instead of 0. -/
def testPos (a : Arch) (bytes : List U8) (len : Nat) : Nat :=
  max 1 (memVal a bytes % (len / 2))

/-- Exclusive-or of byte `i` with `v`. -/
def xorAt (l : List U8) (i : Nat) (v : Nat) : List U8 := l.modify i (· ^^^ BitVec.ofNat 8 v)

/-- The ciphertext with digit `p` exclusive-ored with `p`. -/
def tampered (a : Arch) (ct : List U8) (p : Nat) : List U8 :=
  match a with
  | .le => xorAt (xorAt ct (2 * p) (p % 256)) (2 * p + 1) (p / 256)
  | .be => xorAt (xorAt ct (2 * p) (p / 256)) (2 * p + 1) (p % 256)

/-- The key pair of an iteration. -/
def TestRand.keys (K : KemParams) (r : TestRand) : List U8 × List U8 := keygen K r.s r.seedSE r.z

/-- Ciphertext and shared secret of an iteration. -/
def TestRand.enc (K : KemParams) (r : TestRand) : List U8 × List U8 := encaps K (r.keys K).1 r.mu

/-- The changed ciphertext of an iteration. -/
def TestRand.bad (K : KemParams) (a : Arch) (r : TestRand) : List U8 :=
  tampered a (r.enc K).1 (testPos a r.bytes (K.lenB + K.lenC))

/-- The two requirements of the test on one iteration: decapsulation gives the shared secret, and
decapsulation of the changed ciphertext gives the pseudorandom value of implicit rejection. -/
def TestRand.passes (K : KemParams) (a : Arch) (r : TestRand) : Prop :=
  decaps K (r.enc K).1 (r.keys K).2 = (r.enc K).2 ∧
  decaps K (r.bad K a) (r.keys K).2 = K.shake (r.bad K a ++ r.s) K.len

end Frodo.Spec

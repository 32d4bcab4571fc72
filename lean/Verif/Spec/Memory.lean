import Verif.Spec.Kem

/-! # The KEM on one memory

What the three functions of the KEM leave in a memory that holds all their arguments, in the order in which the
parts of the results are stored.  Independent of the C code except for this order. -/

namespace Frodo.Spec

/-- The `n` bytes at `off`. -/
def load (m : List U8) (off n : Nat) : List U8 := (m.drop off).take n

/-- The memory after the bytes `v` are stored at `off`. -/
def store (m : List U8) (off : Nat) (v : List U8) : List U8 := m.take off ++ v ++ m.drop (off + v.length)

/-- The ranges of `n` bytes at `a` and of `k` bytes at `b` have no byte in common. -/
def Apart (a n b k : Nat) : Prop := a + n ≤ b ∨ b + k ≤ a

variable (K : KemParams)

/-- Bytes of a public key. -/
def KemParams.lenPk : Nat := K.lenA + K.lenB

/-- Bytes of the matrix `Sᵀ` in a secret key. -/
def KemParams.lenS : Nat := 2 * K.n * K.nbar

/-- Bytes of a secret key. -/
def KemParams.lenSk : Nat := K.len + K.lenPk + K.lenS + K.len

/-- Bytes of a ciphertext. -/
def KemParams.lenCt : Nat := K.lenB + K.lenC

/-- Key generation with the public key at `pk` and the secret key at `sk`: the public key, `s`, a copy of what
is then at `pk`, the matrix `Sᵀ`, the hash of what is then at `pk`. -/
def keygenMem (s seedSE z : List U8) (m : List U8) (pk sk : Nat) : List U8 :=
  let m := store m pk (keygen K s seedSE z).1
  let m := store m sk s
  let m := store m (sk + K.len) (load m pk K.lenPk)
  let m := store m (sk + K.len + K.lenPk) (encodeS (keygenNoise K seedSE).1)
  store m (sk + K.len + K.lenPk + K.lenS) (K.shake (load m pk K.lenPk) K.len)

/-- Encapsulation of the message `mu` for the public key at `pk` with the ciphertext at `ct` and the shared
secret at `ss`: the first part of the ciphertext is stored before the matrix `B` is read from the public key,
and the shared secret is that of the ciphertext that is then in memory. -/
def encapsMem (mu : List U8) (m : List U8) (ct ss pk : Nat) : List U8 :=
  let pk0 := load m pk K.lenPk
  let (seedSE, k) := deriveSeeds K (K.shake pk0 K.len) mu
  let m := store m ct (packMat (encrypt K pk0 mu seedSE).1)
  let m := store m (ct + K.lenB) (packMat (encrypt K (load m pk K.lenPk) mu seedSE).2)
  store m ss (K.shake (load m ct K.lenCt ++ k) K.len)

/-- Decapsulation of the ciphertext at `ct` with the secret key at `sk` and the shared secret at `ss`. -/
def decapsMem (m : List U8) (ss ct sk : Nat) : List U8 :=
  store m ss (decaps K (load m ct K.lenCt) (load m sk K.lenSk))

end Frodo.Spec

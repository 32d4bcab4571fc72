import Verif.Spec.Kem

/-! # What a shared secret determines

The notions of "binding" of a KEM: from equal shared secrets one wants to conclude that ciphertexts or keys
are equal, unless a collision of the hash function was found. -/

namespace Frodo.Spec

/-- `x` and `y` are a collision of `f`. -/
def Collides {α β : Type} (f : α → β) (x y : α) : Prop := x ≠ y ∧ f x = f y

variable (K : KemParams)

/-- The ciphertext is the re-encryption of what it decrypts to. -/
def Accepts (ct sk : List U8) : Prop := ct = (reencrypt K ct sk).1

instance (ct sk : List U8) : Decidable (Accepts K ct sk) := inferInstanceAs (Decidable (_ = _))

/-- What is hashed after the ciphertext: `k'` if it is accepted, `s` if not (Algorithm 14, steps 13 to 17). -/
def confirmation (ct sk : List U8) : List U8 :=
  if Accepts K ct sk then (reencrypt K ct sk).2 else sk.take K.len

/-- The message that a ciphertext decrypts to. -/
def messageOf (ct sk : List U8) : List U8 := decrypt K ct (parseSk K sk).St

/-- The hash that gives the shared secret. -/
def hashF (m : List U8) : List U8 := K.shake m K.len

/-- The half of the hash of `pkh || mu` that goes into the shared secret. -/
def hashG (m : List U8) : List U8 := (K.shake m (2 * K.len)).drop K.len

/-- The hash of a public key. -/
def hashPk (pk : List U8) : List U8 := K.shake pk K.len

end Frodo.Spec

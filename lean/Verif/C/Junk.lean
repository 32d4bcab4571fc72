import Verif.C.Types

/-! # Uninitialised memory -/

namespace Frodo

/-- The unspecified initial contents of local variables: buffer tag and index to a value.
(C11 6.7.9p10: automatic objects without initialiser are indeterminate.)  All theorems hold for
every `Junk`. -/
def Junk := Nat → Nat → Nat

/-- An uninitialised array of `n` elements of `w` bits (C11 6.7.9p10). -/
def uninit (J : Junk) (tag : Nat) (w n : Nat) : List (BitVec w) :=
  (List.range n).map fun i => BitVec.ofNat w (J tag i)

@[simp] theorem length_uninit (J : Junk) (tag w n : Nat) : (uninit J tag w n).length = n := by
  simp [uninit]

end Frodo

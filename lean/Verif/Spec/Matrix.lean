import Verif.C.Types
import Verif.C.Nth
import Mathlib.Data.Matrix.Mul
import Mathlib.Data.ZMod.Basic

/-! # Matrices stored in arrays -/

namespace Frodo.Spec

/-- The matrix over `ZMod (2^D)` stored row by row in an array of 16-bit words. -/
def toMat (D r c : Nat) (l : List U16) : Matrix (Fin r) (Fin c) (ZMod (2 ^ D)) :=
  Matrix.of fun i j => ((nth l (i * c + j)).toNat : ZMod (2 ^ D))

/-- The array that stores a matrix row by row, every entry represented in `[0, 2^D)`. -/
def ofMat {D r c : Nat} (M : Matrix (Fin r) (Fin c) (ZMod (2 ^ D))) : List U16 :=
  (List.finRange r).flatMap fun i => (List.finRange c).map fun j => BitVec.ofNat 16 (M i j).val

end Frodo.Spec

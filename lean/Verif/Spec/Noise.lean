import Verif.C.Types

/-! # Error sampling (FrodoKEM specification, Algorithm 5 "Frodo.Sample") -/

namespace Frodo.Spec

/-- `Frodo.Sample` on a 16-bit integer `r`, for the table `T` whose last entry is not compared:
the magnitude is the number of table entries below `r >> 1`, the sign is the low bit of `r`. -/
def sample (T : List Nat) (r : Nat) : Int :=
  let e : Int := (T.dropLast.countP fun z => decide (z < r / 2) : Nat)
  if r % 2 = 0 then e else -e

end Frodo.Spec

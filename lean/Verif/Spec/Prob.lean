import Mathlib.SetTheory.Cardinal.Finite
import Mathlib.Data.Rat.Defs
import Mathlib.Data.Rat.Cast.Defs

/-! # Probabilities (uniform choice from a finite set) -/

namespace Frodo.Spec

/-- The probability of `p` for a uniform choice: the number of the cases in which it holds, divided by the number of
all cases. -/
noncomputable def Pr {Ω : Type} (p : Ω → Prop) : ℚ := (Nat.card {x // p x} : ℚ) / Nat.card Ω

end Frodo.Spec

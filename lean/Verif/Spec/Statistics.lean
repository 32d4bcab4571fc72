import Mathlib.Analysis.Real.Sqrt

/-! # Mean and standard deviation, elapsed time (specification for /repo/tests/ds_benchmark.h) -/

namespace Frodo.Spec

noncomputable section

/-- The average of some numbers (/repo/tests/ds_benchmark.h:113, "mean"). -/
def average (xs : List ℝ) : ℝ := xs.sum / xs.length

/-- The sum of the squares of the distances from the average. -/
def squares (xs : List ℝ) : ℝ := (xs.map fun x => (x - average xs) ^ 2).sum

/-- The population standard deviation (/repo/tests/ds_benchmark.h:113). -/
def popStdev (xs : List ℝ) : ℝ := Real.sqrt (squares xs / xs.length)

/-- The first `n` values of a sequence. -/
def firsts (x : Nat → Int) (n : Nat) : List ℝ := (List.range n).map fun i => (x i : ℝ)

/-- The sum of the first `n` values of a sequence. -/
def total (x : Nat → Int) (n : Nat) : Int := ((List.range n).map x).sum

end

end Frodo.Spec

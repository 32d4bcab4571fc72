import Mathlib.Probability.Distributions.Gaussian.Real
import Mathlib.Analysis.SpecialFunctions.Log.Basic
import Mathlib.Topology.Algebra.InfiniteSum.Defs

/-! # Rounded Gaussians and the Rényi divergence (FrodoKEM specification, sections 2.1.3 and 5.1.2) -/

namespace Frodo.Spec

open MeasureTheory ProbabilityTheory

/-- The probability that a Gaussian of mean 0 and variance `v` rounds to `z`. -/
noncomputable def roundedGaussian (v : NNReal) (z : ℤ) : ℝ :=
  (gaussianReal 0 v).real {x | round x = z}

/-- The Rényi divergence of order `α` of `P` with respect to `Q`. -/
noncomputable def renyi (α : ℕ) (P Q : ℤ → ℝ) : ℝ :=
  1 / (α - 1) * Real.log (∑' z, P z ^ α / Q z ^ (α - 1))

/-- The probability that `N` independent Gaussians of mean 0 and variance `v`, each rounded, form a vector in `E`. -/
noncomputable def gaussianProb (v : NNReal) {N : ℕ} (E : Set (Fin N → ℤ)) : ℝ :=
  (Measure.pi fun _ : Fin N => gaussianReal 0 v).real {x | (fun i => round (x i)) ∈ E}

end Frodo.Spec

import Mathlib.Analysis.SpecialFunctions.Pow.Real
import Mathlib.Algebra.BigOperators.Group.Finset.Basic

/-!
# Specification: coalescence
-/

namespace QM.Spec

/-- Geometric mean of `x 0, …, x (n-1)`. -/
noncomputable def geoMean (n : ℕ) (x : ℕ → ℝ) : ℝ :=
  (∏ k ∈ Finset.range n, x k) ^ (1 / (n : ℝ))

/-- The onset value stacked for onset function `k` at a node and sample: the onset
`k` read at (first + sample + traveltime of `k` to the node), negative
traveltimes counting as zero, floored at 0.01. -/
noncomputable def stacked (onset : ℕ → ℕ → ℝ) (tt : ℕ → ℕ → ℤ) (first node sample k : ℕ) : ℝ :=
  max (1 / 100) (onset k (first + sample + (max 0 (tt node k)).toNat))

end QM.Spec

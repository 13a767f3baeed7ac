import Mathlib.Algebra.Field.Defs
import Mathlib.Algebra.BigOperators.Group.List.Basic

/-!
# Specification: short-term / long-term average ratios
-/

namespace QM.Spec

variable {K : Type} [Field K]

/-- Sum of the samples `a, ..., a + len - 1`. -/
def winSum (x : List K) (a len : ℕ) : K := ((x.drop a).take len).sum

/-- Mean of the samples `a, ..., a + len - 1`. -/
def winMean (x : List K) (a len : ℕ) : K := winSum x a len / (len : K)

/-- Classic STA/LTA at sample `i`: mean of the last `nsta` samples up to and including
`i` over the mean of the last `nlta`; 1 before the first full long-term window. -/
def classic (x : List K) (nsta nlta i : ℕ) : K :=
  if i + 1 < nlta then 1
  else winMean x (i + 1 - nsta) nsta / winMean x (i + 1 - nlta) nlta

/-- Centred STA/LTA at sample `i`: mean of the `nsta` samples after `i` over the mean
of the last `nlta` up to and including `i`; 1 where one of the windows is not full. -/
def centred (x : List K) (nsta nlta i : ℕ) : K :=
  if i + 1 < nlta ∨ x.length < i + 1 + nsta then 1
  else winMean x (i + 1) nsta / winMean x (i + 1 - nlta) nlta

end QM.Spec

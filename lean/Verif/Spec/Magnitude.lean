import Mathlib.Analysis.SpecialFunctions.Pow.Real

/-!
# Specification: means, deviations, the id of a trace
-/

namespace QM.Spec

/-- Arithmetic mean. -/
noncomputable def mean (ms : List ℝ) : ℝ := ms.sum / ms.length

/-- Standard deviation (population). -/
noncomputable def std (ms : List ℝ) : ℝ := √((ms.map fun m => (m - mean ms) ^ 2).sum / ms.length)

/-- Mean of values `m` with weights `w`, from pairs `(m, w)`. -/
noncomputable def wMean (l : List (ℝ × ℝ)) : ℝ :=
  (l.map fun e => e.1 * e.2).sum / (l.map Prod.snd).sum

/-- Weighted standard deviation. -/
noncomputable def wStd (l : List (ℝ × ℝ)) : ℝ :=
  √((l.map fun e => (e.1 - wMean l) ^ 2 * e.2).sum / (l.map Prod.snd).sum)

/-- The id of a trace: network, station, location and channel code, between dots. -/
def traceId (net sta loc cha : List Char) : List Char :=
  net ++ '.' :: (sta ++ '.' :: (loc ++ '.' :: cha))

end QM.Spec

import Verif.Model.Trigger
import Mathlib.Analysis.SpecialFunctions.Exp

/-!
# Model of the smoothing in `quakemigrate/signal/trigger.py`

`_smooth_coa` calls scipy's `gaussian_filter1d`, which is written out here: radius, weights, and the
correlation with the samples, continued at both ends by reflection (mode "reflect").
-/

namespace QM.Smooth

open QM.Trigger (Row)

/-- `int(truncate * sigma + 0.5)`, where `sigma` is in samples (scipy `gaussian_filter1d`, called at
signal/trigger.py:424-431). -/
def radius (sigmaSeconds sr truncate : ℚ) : ℕ := (pyInt (truncate * (sigmaSeconds * sr) + 1 / 2)).toNat

/-- scipy's `_gaussian_kernel1d` for order 0, with `sigma` in samples: `2 * r + 1` weights, normalised, and
reversed as in `gaussian_filter1d` (called at signal/trigger.py:426-431). -/
noncomputable def gaussianWeights (sigma : ℝ) (r k : ℕ) : ℝ :=
  let phi := fun j : ℕ => Real.exp (-(1 / 2) / (sigma * sigma) * ((j : ℝ) - r) ^ 2)
  phi (2 * r - k) / ((List.range (2 * r + 1)).map phi).sum

/-- Which of `n` samples stands at position `i`, with mode "reflect": (d c b a | a b c d | d c b a), again
and again (scipy `correlate1d`, reached from signal/trigger.py:426-431). -/
def reflect (n : ℕ) (i : ℤ) : ℕ :=
  if i % (2 * n) < n then (i % (2 * n)).toNat else (2 * n - 1 - i % (2 * n)).toNat

variable {K : Type} [Field K]

/-- Value at sample `i` of scipy's `correlate1d(x, w)` for `2 * r + 1` weights (reached from
signal/trigger.py:426-431). -/
def correlateAt (w : ℕ → K) (r : ℕ) (x : List K) (i : ℕ) : K :=
  ((List.range (2 * r + 1)).map fun k => w k * (x[reflect x.length ((i : ℤ) + k - r)]?).getD 0).sum

/-- The smoothed trace (scipy `correlate1d`, reached from signal/trigger.py:426-431). -/
def correlate (w : ℕ → K) (r : ℕ) (x : List K) : List K := (List.range x.length).map (correlateAt w r x)

/-- `_smooth_coa` (signal/trigger.py:420-434): COA and COA_N are smoothed, the other columns kept.  The
weights are parameters, because the scan data of the model are rationals. -/
def smoothCoa (w : ℕ → ℚ) (r : ℕ) (rows : List Row) : List Row :=
  rows.zipIdx.map fun p => { p.1 with
    coa := correlateAt w r (rows.map Row.coa) p.2
    coaN := correlateAt w r (rows.map Row.coaN) p.2 }

end QM.Smooth

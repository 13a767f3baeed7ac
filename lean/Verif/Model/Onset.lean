import Verif.Model.StaLta
import Mathlib.Analysis.SpecialFunctions.Pow.Real

/-!
# Model of the combination of component onsets (`signal/onsets/stalta.py:543-548`)
-/

namespace QM.Onset

/-- `STALTAOnset.__init__`'s check of `min_onset_value` (stalta.py:309-311);
`none` = ValueError. The attribute can be reassigned later without a check. -/
noncomputable def initMinOnset (v : ℝ) : Option ℝ := if v < 1 / 100 then none else some v

/-- `np.sqrt(np.sum([onset**2 for onset in onsets], axis=0) / len(onsets))` at one
sample, for the component values `vs` there.  Models signal/onsets/stalta.py:543-548. -/
noncomputable def rms (vs : List ℝ) : ℝ := Real.sqrt ((vs.map (fun v => v ^ 2)).sum / vs.length)

/-- `_onset` (stalta.py:543-548): combine components sample by sample, then clip at
`min_onset_value`. `onsets` has one row per component, `n` samples each. -/
noncomputable def combine (minv : ℝ) (n : ℕ) (onsets : List (ℕ → ℝ)) : List ℝ :=
  (List.range n).map (fun i => max minv (rms (onsets.map (fun o => o i))))

end QM.Onset

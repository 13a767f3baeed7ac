import Mathlib.Analysis.Complex.Basic

/-!
# Model of the Wood-Anderson response

`util.wa_response` (util.py:272-313), with the frequency response that poles, zeros, sensitivity and gain stand for in
`obspy.Trace.simulate` (called in io/data.py:770-777).  The tapers, the pre-filter and the water level of that routine are
not modelled.
-/

namespace QM.WoodAnderson

/-- What the seismograph converts (util.py:278-279). -/
inductive Convert where
  | dis2dis | vel2vel | vel2dis
deriving DecidableEq, Repr

/-- A dictionary of poles and zeros (util.py:293-307). -/
structure Paz where
  poles : List ℂ
  zeros : List ℂ
  sensitivity : ℝ
  gain : ℝ

/-- `wa_response(convert, obspy_def)` (util.py:272-313). -/
noncomputable def waResponse (convert : Convert) (obspyDef : Bool) : Paz :=
  let wa : Paz :=
    if obspyDef then
      ⟨[⟨-6283185 / 1000000, -4712 / 1000⟩, ⟨-6283185 / 1000000, 4712 / 1000⟩], [0], 2080, 1⟩
    else ⟨[⟨-549779 / 100000, 560886 / 100000⟩, ⟨-549779 / 100000, -560886 / 100000⟩], [0], 2080, 1⟩
  match convert with
  | .dis2dis | .vel2vel => { wa with zeros := wa.zeros ++ [0] }
  | .vel2dis => wa

/-- The response at the complex frequency `s`: sensitivity times gain times the product over the zeros, divided by the
product over the poles.  Stands for `simulate` of ObsPy (io/data.py:770-777). -/
noncomputable def Paz.response (p : Paz) (s : ℂ) : ℂ :=
  ((p.sensitivity * p.gain : ℝ) : ℂ) * (p.zeros.map fun z => s - z).prod / (p.poles.map fun z => s - z).prod

end QM.WoodAnderson

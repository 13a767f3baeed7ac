import Verif.Model.CalcOnsets
import Verif.Model.ComputeStep

/-!
# `QuakeScan._compute` from waveforms (`signal/scan.py:593-644`)

`Verif.Model.CalcOnsets` up to the onset functions and `Verif.Model.ComputeStep` from there, as one call.
-/

namespace QM.WaveScan
open QM.Compute (Lut serveTraveltimes)
open QM.Migrate QM.Pads
open QM.ComputeStep (Out coords)

/-- What a call can raise (signal/scan.py:616-638).  `notFinite`: an onset function has a value that is not a number or
infinite; what the C code makes of it is left out. -/
inductive Err where
  | onset (e : CalcOnsets.Err)    -- scan.py:617
  | table (e : Compute.Err)       -- scan.py:618-627
  | notFinite
  | migrate (e : Migrate.Err)     -- scan.py:633
  | findMax                       -- scan.py:636
  | coord (e : Grid.Err)          -- scan.py:637

/-- The rows of the array of onset functions, as functions of the sample number (signal/onsets/stalta.py:476). -/
noncomputable def rows (o : CalcOnsets.Out) : List (ℕ → ℝ) := o.onsets.map fun r j => (r.2[j]?.getD none).getD 0

/-- `_compute(data)` (signal/scan.py:616-638), with the sampling rate of the onset functions; `pads` are the pre- and
post-pad of the stage, `sched` and `sched'` the orders in which the threads of the two C functions run. -/
noncomputable def compute (c : CalcOnsets.Cfg) (x : CalcOnsets.Ext) (L : Lut) (g : Grid.Grid) (pads : ℚ × ℚ)
    (sched : List (ℕ × Op)) (sched' : List (ℕ × FOp)) (d : CalcOnsets.Data) : Except Err (List Out) :=
  match CalcOnsets.calculateOnsets c x d with
  | .error e => .error (.onset e)
  | .ok o =>
    match serveTraveltimes L c.sr o.availability with
    | .error e => .error (.table e)
    | .ok tts =>
      if o.onsets.all (fun r => r.2.all Option.isSome) then
        let first := (time2sample pads.1 c.sr).toNat
        let last := (time2sample pads.2 c.sr).toNat
        let cols := ((o.onsets.map Prod.snd).headD []).length
        match migrate ⟨(rows o).length, cols, fun k j => ((rows o)[k]?.getD (fun _ => 0)) j⟩
            ⟨L.nNodes, tts.length, fun node k => (tts[k]?.getD (fun _ => 0)) node⟩ first last
            (o.availability.map Prod.snd).sum sched with
        | .error e => .error (.migrate e)
        | .ok m =>
          match findMaxCoa ⟨L.nNodes, cols - first - last, m⟩ sched' with
          | none => .error .findMax
          | some r =>
            match coords g r (List.range (cols - first - last)) with
            | .error e => .error (.coord e)
            | .ok l => .ok l
      else .error .notFinite

end QM.WaveScan

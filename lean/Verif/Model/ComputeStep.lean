import Verif.Model.Compute
import Verif.Model.Migrate
import Verif.Model.Grid

/-!
# One call of `QuakeScan._compute` (`signal/scan.py:593-644`)
-/

namespace QM.ComputeStep
open QM.Compute QM.Migrate QM.Pads

/-- What a call can raise.  Models signal/scan.py:617-639. -/
inductive Err where
  | input (e : Compute.Err)     -- scan.py:617-627
  | migrate (e : Migrate.Err)   -- scan.py:634
  | findMax                     -- scan.py:637, undefined behaviour
  | coord (e : Grid.Err)        -- scan.py:638

/-- `map4d[..., s]`, `max_coa[s]`, `max_coa_n[s]` and `coord[s]`.  Models signal/scan.py:634-638. -/
structure Out where
  maxCoa : ℝ
  norm : ℝ
  xyz : Grid.V3 ℚ

/-- `index2coord(max_idx, unravel=True)` in the frame of the grid, sample by sample (lut.py:165-174; scan.py:638).
The projection to longitude and latitude is left out. -/
def coords (g : Grid.Grid) (r : FState ℝ) : List ℕ → Except Grid.Err (List Out)
  | [] => .ok []
  | s :: rest =>
    match Grid.flat2grid g (r.idx s) with
    | .error e => .error e
    | .ok xyz =>
      match coords g r rest with
      | .error e => .error e
      | .ok l => .ok (⟨r.maxCoa s, r.norm s, xyz⟩ :: l)

/-- `_compute` (scan.py:616-638).  `onset s p j` is sample `j` of the onset function computed for a station and
phase, all `cols` samples long; `av` their availability; `pads` the pre- and post-pad; `sched` and `sched'` the
orders in which the threads of the two C functions run.  Negative numbers of pad samples are left out. -/
noncomputable def compute (L : Lut) (g : Grid.Grid) (sr : ℕ) (pads : ℚ × ℚ) (phases stations : List Str)
    (av : Str → Str → ℕ) (onset : Str → Str → ℕ → ℝ) (cols : ℕ) (sched : List (ℕ × Op))
    (sched' : List (ℕ × FOp)) : Except Err (List Out) :=
  match migrateInput L sr phases stations av onset with
  | .error e => .error (.input e)
  | .ok (ons, tts, avail) =>
    let first := (time2sample pads.1 sr).toNat
    let last := (time2sample pads.2 sr).toNat
    match migrate ⟨ons.length, cols, fun k j => (ons[k]?.getD (fun _ => 0)) j⟩
        ⟨L.nNodes, tts.length, fun node k => (tts[k]?.getD (fun _ => 0)) node⟩ first last avail sched with
    | .error e => .error (.migrate e)
    | .ok m =>
      match findMaxCoa ⟨L.nNodes, cols - first - last, m⟩ sched' with
      | none => .error .findMax
      | some r =>
        match coords g r (List.range (cols - first - last)) with
        | .error e => .error (.coord e)
        | .ok l => .ok l

end QM.ComputeStep

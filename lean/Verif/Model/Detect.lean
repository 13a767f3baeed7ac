import Verif.Model.ScanMseed

/-!
# Model of `QuakeScan.detect` and `_continuous_compute` (`signal/scan.py:297-470`)
-/

namespace QM.Detect
open QM.ScanMseed

/-- Parameters of a detect run.  Models signal/scan.py:319-328, 425-438. -/
structure Cfg where
  timestep : ℚ
  scanRate : ℕ
  prePad : ℚ
  postPad : ℚ
  cols : List String       -- `availability_cols`
  ucf : ℚ

/-- `1 / self.scan_rate`.  Models signal/scan.py:437. -/
def Cfg.delta (c : Cfg) : ℚ := 1 / (c.scanRate : ℚ)

/-- End of the run after the midnight adjustment (scan.py:321-325). -/
def adjustedEnd (c : Cfg) (stop : ℚ) : ℚ := if isMidnight stop then stop - c.delta else stop

/-- `n_steps` (scan.py:328); `none` = TimeSpanException (scan.py:319-320). -/
def nSteps (c : Cfg) (start stop : ℚ) : Option ℤ :=
  if start > stop then none else some ⌈(adjustedEnd c stop - start) / c.timestep⌉

/-- Waveform window requested for timestep `i` (scan.py:435-438). -/
def window (c : Cfg) (start : ℚ) (i : ℕ) : ℚ × ℚ :=
  (start + c.timestep * i - c.prePad,
   start + c.timestep * (i + 1) - c.delta + c.postPad)

/-- What the archive and `_compute` do for one timestep.  Models signal/scan.py:446-462. -/
inductive Outcome where
  | ok (data : List Sample) (avail : String → ℕ)
  | archiveEmpty
  | dataGap
  | dataAvailability
  | other                     -- any other exception
deriving Inhabited

/-- Availability table under construction: (row label, values).  Models signal/scan.py:432, 453,
462-466. -/
abbrev Rows := List (ℚ × List ℕ)

/-- Result of the loop: blocks handed to `ScanmSEED.append` in order, rows, and
whether it ran to completion.  Models signal/scan.py:446-466. -/
structure Result where
  blocks : List (Trace Sample)
  rows : Rows
  completed : Bool

/-- `ScanmSEED.empty` (scanmseed.py:152-181): a block of zeros;
`util.time2sample` (util.py:152-172) rounds `timestep * int(sampling_rate)`. -/
def emptyBlock (c : Cfg) (start : ℚ) (i : ℕ) : Trace Sample :=
  ⟨start + c.timestep * i,
   List.replicate (pyRound (c.timestep * c.scanRate)).toNat ⟨0, 0, 0, 0, 0⟩⟩

/-- The `for i in range(n_steps)` loop of `_continuous_compute`
(scan.py:434-466); `outcome i` is what the archive and `_compute` give for the
window of timestep `i`.  `_compute` returns `data.starttime + pre_pad` as the
time of the first sample (scan.py:643-644). `n` steps remain from step `i`. -/
def loop (c : Cfg) (start : ℚ) (outcome : ℚ × ℚ → Outcome) : ℕ → ℕ → Result
  | 0, _ => ⟨[], [], true⟩
  | n + 1, i =>
    let w := window c start i
    let label := start + c.timestep * i
    match outcome w with
    | .ok data avail =>
      let r := loop c start outcome n (i + 1)
      { r with blocks := ⟨w.1 + c.prePad, data⟩ :: r.blocks,
               rows := (label, c.cols.map avail) :: r.rows }
    | .other => ⟨[], [], false⟩
    | .archiveEmpty | .dataGap | .dataAvailability =>
      let r := loop c start outcome n (i + 1)
      { r with blocks := emptyBlock c start i :: r.blocks,
               rows := (label, List.replicate c.cols.length 0) :: r.rows }

/-- A whole detect call, up to the file writes. `none` = TimeSpanException.  Models
signal/scan.py:319-328, 425-470. -/
def detect (c : Cfg) (start stop : ℚ) (outcome : ℚ × ℚ → Outcome) : Option Result :=
  (nSteps c start stop).map (fun n => loop c start outcome n.toNat 0)

/-- Encoded block.  Models io/scanmseed.py:102-130. -/
def encBlock (ucf : ℚ) (b : Trace Sample) : Trace Enc := ⟨b.start, b.vals.map (encode ucf)⟩

/-- The scanmseed side of a detect run: appends, then (if the loop completed) the
final write (scan.py:468-469).  `none` = an exception leaves the writer. -/
def detectFiles (c : Cfg) (jul : ℤ → ℕ) (cw : Bool) (files : Files Enc) (r : Result) :
    Option (St Enc) :=
  match appendAll c.delta jul cw (init files) (r.blocks.map (encBlock c.ucf)) with
  | none => none
  | some s => if r.completed then finish s else some s

end QM.Detect

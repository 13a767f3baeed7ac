import Verif.Py

/-!
# Model of `quakemigrate/io/scanmseed.py`

Times are rational seconds since a midnight; day numbers are `⌊t / 86400⌋`.  All
five channels carry the same times, so a stream is modelled as *one* trace whose
values are the tuples of the five encoded channels.  `δ` is `stats.delta`.
-/

namespace QM.ScanMseed

/-- A gap-free `obspy.Trace`: time of the first sample and the samples.  Stands for obspy trace, as
built at io/scanmseed.py:106-130. -/
structure Trace (V : Type) where
  start : ℚ
  vals : List V
deriving Repr, DecidableEq

/-- The timestamped samples of a trace (`Trace.times` and `Trace.data`).  Stands for obspy trace, as
built at io/scanmseed.py:106-130. -/
def Trace.samples {V : Type} (δ : ℚ) (tr : Trace V) : List (ℚ × V) :=
  tr.vals.zipIdx.map (fun p : V × ℕ => (tr.start + (p.2 : ℚ) * δ, p.1))

/-- `stats.endtime`: time of the last sample.  Stands for obspy endtime, io/scanmseed.py:136. -/
def Trace.stop {V : Type} (δ : ℚ) (tr : Trace V) : ℚ :=
  tr.start + ((tr.vals.length : ℚ) - 1) * δ

/-- obspy `round_away`: to nearest, halves away from zero (library).  Stands for obspy rounding,
reached from io/scanmseed.py:144, 204. -/
def roundAway (q : ℚ) : ℤ := if 0 ≤ q then ⌊q + 1 / 2⌋ else ⌈q - 1 / 2⌉

/-- obspy `Trace._ltrim(t, pad=False, nearest_sample=True)` (library).  Stands for obspy `trim`,
io/scanmseed.py:144, 204. -/
def Trace.ltrim {V : Type} (δ t : ℚ) (tr : Trace V) : Trace V :=
  let d := roundAway ((t - tr.start) / δ)
  if d ≤ 0 then tr else ⟨tr.start + (d : ℚ) * δ, tr.vals.drop d.toNat⟩

/-- obspy `Trace._rtrim(t, pad=False, nearest_sample=True)` (library).  Stands for obspy `slice`,
io/scanmseed.py:204. -/
def Trace.rtrim {V : Type} (δ t : ℚ) (tr : Trace V) : Trace V :=
  let keep := roundAway ((t - tr.start) / δ) + 1
  if (tr.vals.length : ℤ) ≤ keep then tr
  else if t < tr.start then ⟨tr.start, []⟩
  else ⟨tr.start, tr.vals.take keep.toNat⟩

/-- `Trace.trim` / `Stream.slice(a, b)` on one trace: left then right (library).  Stands for obspy
`slice`, io/scanmseed.py:204. -/
def Trace.slice {V : Type} (δ a b : ℚ) (tr : Trace V) : Trace V :=
  (tr.ltrim δ a).rtrim δ b

/-- Day number, the `{year}_{julday}` of the file name.  Models io/scanmseed.py:209, 288. -/
def dayOf (t : ℚ) : ℤ := ⌊t / DAY⌋

/-- The `.scanmseed` files of a run directory, by day.  Models io/scanmseed.py:208-219. -/
abbrev Files (V : Type) := ℤ → Option (Trace V)

/-- State of a `ScanmSEED` object and of the run directory.  Models io/scanmseed.py:64-72. -/
structure St (V : Type) where
  stream : Option (Trace V)    -- `none`: empty Stream
  written : Bool
  files : Files V

/-- `ScanmSEED.__init__` (scanmseed.py:62-72). -/
def init {V : Type} (files : Files V) : St V := ⟨none, false, files⟩

/-- `write` (scanmseed.py:183-220) of the trace `st` (already sliced): the file
of the day of its first sample is replaced.  `none`: `st[0]` raises IndexError
on an empty stream (`Stream.slice` drops empty traces).  The STEIM2/STEIM1
choice only affects compression. -/
def write {V : Type} (s : St V) (st : Option (Trace V)) : Option (St V) :=
  match st with
  | none => none
  | some tr =>
    if tr.vals = [] then none
    else some { s with
      written := true
      files := fun d => if d = dayOf tr.start then some tr else s.files d }

/-- `self.stream += Trace(...); self.stream.merge(method=-1)` (scanmseed.py:111-131)
for a block that continues the stream.  Simplification: a block that does not
follow on from the stream (gap or overlap), or is empty, is outside the model
(`none`); `QM.Detect` shows that detect never produces one. -/
def addBlock {V : Type} (δ : ℚ) (stream : Option (Trace V)) (b : Trace V) : Option (Trace V) :=
  if b.vals = [] then none
  else match stream with
    | none => some b
    | some tr =>
      if b.start = tr.start + (tr.vals.length : ℚ) * δ then some ⟨tr.start, tr.vals ++ b.vals⟩
      else none

/-- scanmseed.py:133-150: what happens once the block has been merged into `tr`.
`jul` gives the day of year of a day number (`stats.starttime.julday`; the year
is not compared). -/
def afterMerge {V : Type} (δ : ℚ) (jul : ℤ → ℕ) (cw : Bool) (s : St V) (tr : Trace V) :
    Option (St V) := do
  let s := { s with stream := some tr, written := false }
  let s ←
    if tr.stop δ = dayStart tr.start + DAY - δ then do
      let s ← write s (some tr)
      pure { s with stream := none }
    else if jul (dayOf tr.start) ≠ jul (dayOf (tr.stop δ)) then do
      let writeEnd := dayStart (tr.stop δ) - δ
      let s ← write s (some (tr.slice δ tr.start writeEnd))
      let rest := tr.ltrim δ (writeEnd + δ)
      pure { s with stream := if rest.vals = [] then none else some rest, written := false }
    else pure s
  if cw && !s.written then write s s.stream else pure s

/-- `append` (scanmseed.py:74-150) for one block (values already encoded by
`encode`). -/
def append {V : Type} (δ : ℚ) (jul : ℤ → ℕ) (cw : Bool) (s : St V) (b : Trace V) :
    Option (St V) :=
  match addBlock δ s.stream b with
  | none => none
  | some tr => afterMerge δ jul cw s tr

/-- A sequence of appends.  Stands for one `append` per timestep, io/scanmseed.py:74-150. -/
def appendAll {V : Type} (δ : ℚ) (jul : ℤ → ℕ) (cw : Bool) :
    St V → List (Trace V) → Option (St V)
  | s, [] => some s
  | s, b :: bs =>
    match append δ jul cw s b with
    | none => none
    | some s => appendAll δ jul cw s bs

/-- `if not coalescence.written: coalescence.write()` (scan.py:468-469). -/
def finish {V : Type} (s : St V) : Option (St V) :=
  if s.written then some s else write s s.stream

/-! ## Integer encoding -/

/-- `astype(np.int32)`: two's complement wrap-around (numpy/C behaviour).  Models
io/scanmseed.py:240. -/
def toInt32 (n : ℤ) : ℤ := (n + 2 ^ 31) % 2 ^ 32 - 2 ^ 31

/-- `_data2int` (scanmseed.py:222-240). -/
def data2int (v factor : ℚ) : ℤ := toInt32 (pyRound (v * factor))

/-- The clip `max_coa[max_coa > 21474.0] = 21474.0` (scanmseed.py:102-104). -/
def clip (v : ℚ) : ℚ := if v > 21474 then 21474 else v

/-- One sample of detect output: COA, COA_N and coordinates.  Models io/scanmseed.py:113-130. -/
structure Sample where
  coa : ℚ
  coaN : ℚ
  x : ℚ
  y : ℚ
  z : ℚ
deriving Repr, DecidableEq

/-- The five stored integers of a sample.  Models io/scanmseed.py:113-130. -/
structure Enc where
  coa : ℤ
  coaN : ℤ
  x : ℤ
  y : ℤ
  z : ℤ
deriving Repr, DecidableEq

/-- The five channels written by `append` (scanmseed.py:102-130). -/
def encode (ucf : ℚ) (s : Sample) : Enc :=
  { coa := data2int (clip s.coa) 100000, coaN := data2int (clip s.coaN) 100000,
    x := data2int s.x 1000000, y := data2int s.y 1000000, z := data2int s.z (1000 * ucf) }

/-- The inverse scaling in `read_scanmseed` (scanmseed.py:304-310). -/
def decode (ucf : ℚ) (e : Enc) : Sample :=
  { coa := e.coa / 100000, coaN := e.coaN / 100000,
    x := e.x / 1000000, y := e.y / 1000000, z := e.z / (1000 * ucf) }

/-! ## Reading back -/

/-- Maximal contiguous first piece of a list of timestamped samples: after
`merge(method=-1)` (scanmseed.py:301) the trace `[0]`, the only one used. -/
def firstSegment {V : Type} (δ : ℚ) : List (ℚ × V) → List (ℚ × V)
  | [] => []
  | [a] => [a]
  | a :: b :: l => if b.1 = a.1 + δ then a :: firstSegment δ (b :: l) else [a]

/-- `read_scanmseed` (scanmseed.py:244-325), `none` = NoScanMseedDataException.
The day loop runs over `startday + dy*86400 <= readend`; each file is read with
`starttime=readstart, endtime=readend` (nearest-sample trimming); files of
different days never overlap (C03), so the merge only joins contiguous pieces. -/
def readScanMseed {V : Type} (δ : ℚ) (files : Files V) (start stop pad : ℚ) :
    Option (List (ℚ × V)) :=
  let readstart := start - pad
  let readend := stop + pad
  let n := (⌊readend / DAY⌋ - ⌊readstart / DAY⌋ + 1).toNat
  let days := (List.range n).map (fun dy : ℕ => dayOf (readstart + (dy : ℚ) * DAY))
  let pieces := (days.filterMap files).map (fun tr => (tr.slice δ readstart readend).samples δ)
  let all := pieces.flatten
  if all = [] then none else some (firstSegment δ all)

end QM.ScanMseed

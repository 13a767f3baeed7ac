import Verif.Model.Grid

/-!
# Model of `QuakeScan.locate`: the event loop, trimming and location

`QuakeScan._locate_events` (signal/scan.py:472-591), `_read_event_waveform_data`
(scan.py:650-693), `_calculate_location`, `_splineloc`, `_covfit3d`, `_mask3d`
(scan.py:696-841, 939-1005, 1045-1077) and `Event` (io/event.py).

Not modelled here: the Gaussian fit (see GauFit.lean), the smoothing before it (see GauFilt.lean), logging, plots, the
conversion of grid coordinates to geographic ones.
-/

namespace QM.Locate

open QM.Grid

/-- One row of `coa_data` (io/event.py:229-238): timestamp and maximum coalescence;
`rest` stands for the other columns. -/
structure Row where
  dt : ℚ
  coa : ℚ
  rest : ℚ
deriving DecidableEq, Repr

/-- Row of the first maximum of `COA` (io/event.py:240-241, 438-439, 572). -/
def maxRow (rows : List Row) : Option Row := firstMaxBy Row.coa rows

/-- `Event.in_marginal_window` (io/event.py:369-396). -/
def inMarginalWindow (trigger otime mw : ℚ) : Bool :=
  decide (trigger > otime - mw) && decide (trigger < otime + mw)

/-- An event after `add_compute_output`: rows, time slices of the 4-D map, origin time.  Models
signal/scan.py:504-517. -/
structure Computed (σ : Type) where
  rows : List Row
  map : List σ
  otime : ℚ

/-- `Event.add_compute_output` (io/event.py:203-242); an empty table raises. -/
def addComputeOutput {σ : Type} (rows : List Row) (map : List σ) : Option (Computed σ) :=
  (maxRow rows).map fun r => ⟨rows, map, r.dt⟩

/-- `Event.trim2window` (io/event.py:421-439).  The table keeps its row numbers until
`reset_index`; the map is cut from the first to the last of them as a Python
slice, so without the last. -/
def trim2window {σ : Type} (mw : ℚ) (e : Computed σ) : Option (Computed σ) :=
  let kept := e.rows.zipIdx.filter fun r => e.otime - mw ≤ r.1.dt ∧ r.1.dt ≤ e.otime + mw
  let index := kept.map Prod.snd
  match index.head?, index.getLast? with
  | some a, some b =>
    let rows := kept.map Prod.fst
    (maxRow rows).map fun r => ⟨rows, (e.map.take b).drop a, r.dt⟩
  | _, _ => none

/-- What happens for one triggered event.  Models signal/scan.py:504-517. -/
inductive Outcome (σ : Type) where
  | archiveEmpty
  | dataGap
  | dataAvailability
  | other                                    -- any other exception
  | computed (rows : List Row) (map : List σ)

/-- What the stages after the trimming do: succeed, raise before or after the
event file is written.  Models signal/scan.py:519-590. -/
inductive Later where
  | fine
  | raisesBeforeWrite
  | raisesAfterWrite
deriving DecidableEq

/-- A triggered event: identifier and trigger time.  Models io/event.py:578-611. -/
structure Trig where
  uid : ℕ
  time : ℚ

/-- Event files written, in order, with the origin time in them; and whether the run
came to its end.  Models signal/scan.py:498-590. -/
structure Result where
  written : List (Trig × ℚ)
  completed : Bool

/-- `_locate_events` (scan.py:498-590): the loop over triggered events. -/
def locateEvents {σ : Type} (mw : ℚ) (outcome : Trig → Outcome σ) (later : Trig → Later) :
    List Trig → Result
  | [] => ⟨[], true⟩
  | t :: ts =>
    match outcome t with
    | .archiveEmpty | .dataGap | .dataAvailability => locateEvents mw outcome later ts
    | .other => ⟨[], false⟩
    | .computed rows map =>
      match addComputeOutput rows map with
      | none => ⟨[], false⟩
      | some e =>
        if inMarginalWindow t.time e.otime mw then
          match trim2window mw e with
          | none => ⟨[], false⟩
          | some e' =>
            match later t with
            | .raisesBeforeWrite => ⟨[], false⟩
            | .raisesAfterWrite => ⟨[(t, e'.otime)], false⟩
            | .fine =>
              let r := locateEvents mw outcome later ts
              { r with written := (t, e'.otime) :: r.written }
        else locateEvents mw outcome later ts

/-- `_read_event_waveform_data` (scan.py:668-693) with `w_beg`, `w_end` of
scan.py:498-499: the time span of waveform data read for an event.  `amp` is
the padding asked for by the magnitude calculation (`none` without
magnitudes); a cut of `none` or 0 is not applied. -/
def waveformSpan (trigger mw scanPre scanPost : ℚ) (amp : Option (ℚ × ℚ))
    (preCut postCut : Option ℚ) : ℚ × ℚ :=
  let pre : ℚ := match amp with | none => 0 | some p => p.1
  let post : ℚ := match amp with | none => 0 | some p => p.2
  let pre := match preCut with | none => pre | some c => if c = 0 then pre else max pre c
  let post := match postCut with | none => post | some c => if c = 0 then post else max post c
  let pre := max 0 (pre - mw - scanPre)
  let post := max 0 (post - mw - scanPost)
  (trigger - 2 * mw - scanPre - pre, trigger + 2 * mw + scanPost + post)

/-! ## Location -/

/-- A 3-D map on a grid of shape `n`: value at each node.  Models signal/scan.py:719-721. -/
abbrev Map3 := V3 ℕ → ℚ

/-- `np.unravel_index(np.nanargmax(m), m.shape)`: the first maximum in C order.  Models
signal/scan.py:764, 967. -/
def peak (n : V3 ℕ) (m : Map3) : Option (V3 ℕ) := firstMaxBy m (allNodes n)

/-- `_calculate_location` (scan.py:719-721): sum over time, divided by its maximum. -/
def marginalise (n : V3 ℕ) (slices : List Map3) : Option Map3 :=
  let s : Map3 := fun v => (slices.map fun f => f v).sum
  (peak n s).map fun p => fun v => s v / s p

/-- `np.clip(x, 0, n)`.  Models signal/scan.py:769-770. -/
def clip (n : ℕ) (x : ℤ) : ℤ := max 0 (min x n)

/-- Start of the window around `i` on one axis (scan.py:768-769, 1069-1071). -/
def winLo (n i win : ℕ) : ℤ := clip n ((i : ℤ) - ((win : ℤ) - 1) / 2)

/-- End (exclusive) of the window (scan.py:770, 1072). -/
def winHi (n i win : ℕ) : ℤ := clip n ((i : ℤ) + ((win : ℤ) - 1) / 2 + 1)

/-- `_mask3d` (scan.py:1045-1077). -/
def mask (n i : V3 ℕ) (win : ℕ) (v : V3 ℕ) : Prop :=
  ∀ a, winLo (n a) (i a) win ≤ v a ∧ (v a : ℤ) < winHi (n a) (i a) win

/-- The data handed to the interpolator (scan.py:773-787): `np.meshgrid` with its
default indexing puts the second array index into the x coordinate and the
first into y. -/
def rbfData (m : Map3) (lo : V3 ℤ) (s : ℕ) : List (V3 ℚ × ℚ) :=
  (allNodes ![s, s, s]).map fun v =>
    (![(v 1 : ℚ), (v 0 : ℚ), (v 2 : ℚ)], m (fun a => (lo a).toNat + v a))

/-- The upscaled map (scan.py:789-804): the interpolant evaluated on the finer
meshgrid. -/
def upscaled (rbf : List (V3 ℚ × ℚ) → V3 ℚ → ℚ) (m : Map3) (lo : V3 ℤ) (s upscale : ℕ) : Map3 :=
  fun v => rbf (rbfData m lo s)
    ![(v 1 : ℚ) / upscale, (v 0 : ℚ) / upscale, (v 2 : ℚ) / upscale]

/-- `_splineloc` (scan.py:736-841) with `win` and `upscale`; the location in units of
nodes.  `rbf` is `scipy.interpolate.Rbf`. -/
def splineloc (rbf : List (V3 ℚ × ℚ) → V3 ℚ → ℚ) (n : V3 ℕ) (m : Map3) (win upscale : ℕ) :
    Option (V3 ℚ) :=
  match peak n m with
  | none => none
  | some i =>
    let w2 : ℚ := (((win : ℤ) - 1) / 2 : ℤ)
    let lo : V3 ℤ := fun a => winLo (n a) (i a) win
    let hi : V3 ℤ := fun a => winHi (n a) (i a) win
    let gridded : V3 ℚ := fun a => (i a : ℚ)
    if hi 0 - lo 0 = hi 1 - lo 1 ∧ hi 1 - lo 1 = hi 2 - lo 2 then
      let s := (hi 0 - lo 0).toNat
      let k := (s - 1) * upscale + 1
      match peak ![k, k, k] (upscaled rbf m lo s upscale) with
      | none => none
      | some j =>
        let loc : V3 ℚ := fun a => (j a : ℚ) / upscale + lo a
        if |(i 0 : ℚ) - loc 0| > w2 ∨ |(i 1 : ℚ) - loc 1| > w2 ∨ |(i 2 : ℚ) - loc 2| > w2 then
          some gridded
        else some loc
    else some gridded

/-- Nodes above the threshold (scan.py:970-973, no window). -/
def above (n : V3 ℕ) (m : Map3) (thresh : ℚ) : List (V3 ℕ) :=
  (allNodes n).filter fun v => thresh < m v

/-- `np.nansum(sw * f) / ssw` (scan.py:976-987): average of `f` over the nodes above
the threshold, weighted by the map. -/
def wmean (n : V3 ℕ) (m : Map3) (thresh : ℚ) (f : V3 ℕ → ℚ) : ℚ :=
  ((above n m thresh).map fun v => m v * f v).sum / ((above n m thresh).map m).sum

/-- Expectation values (scan.py:984-987), without the grid origin. -/
def expectation (g : Grid.Grid) (m : Map3) (thresh : ℚ) (a : Fin 3) : ℚ :=
  wmean g.count m thresh fun v => v a * g.spacing a

/-- Entry of the covariance matrix (scan.py:989-999). -/
def covariance (g : Grid.Grid) (m : Map3) (thresh : ℚ) (a b : Fin 3) : ℚ :=
  wmean g.count m thresh fun v => (v a * g.spacing a - expectation g m thresh a) *
    (v b * g.spacing b - expectation g m thresh b)

/-- `_covfit3d` location (scan.py:1001-1002), in grid coordinates.  The uncertainties
are the square roots of the absolute values of the diagonal of `covariance`. -/
def covLocation (g : Grid.Grid) (m : Map3) (thresh : ℚ) : V3 ℚ :=
  fun a => g.ll a + expectation g m thresh a

end QM.Locate

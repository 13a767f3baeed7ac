import Verif.Model.Stations

/-!
# Model of the exporters: `export/to_obspy.py`, `export/to_nlloc.py`, `export/to_mfast.py`
-/

namespace QM.Export

open QM.Stations (Str)

/-- A row of a `.picks` file; `pick` is absent where the file has `-1`.  Models
export/to_obspy.py:222-241. -/
structure PickRow where
  station : Str
  phase : Str
  modelled : ℚ
  pick : Option ℚ
  error : ℚ
  snr : ℚ
deriving DecidableEq, Repr

/-- Models export/to_obspy.py:227. -/
inductive Method where
  | modelled
  | autopick
deriving DecidableEq, Repr

/-- A pick of the exported event; error and SNR only for automatic picks.  Models
export/to_obspy.py:228-241. -/
structure Pick where
  station : Str
  phase : Str
  method : Method
  time : ℚ
  error : Option ℚ
  snr : Option ℚ
deriving DecidableEq, Repr

/-- The loop over methods for one row (to_obspy.py:227-241). -/
def rowPicks (r : PickRow) : List Method → List Pick
  | [] => []
  | m :: ms =>
    match m, r.pick with
    | .autopick, some t => ⟨r.station, r.phase, m, t, some r.error, some r.snr⟩ :: rowPicks r ms
    | .modelled, _ => ⟨r.station, r.phase, m, r.modelled, none, none⟩ :: rowPicks r ms
    | .autopick, none => rowPicks r ms

/-- Picks of the event (to_obspy.py:222-241); `none` = no picks file, so no event
(to_obspy.py:215-220). -/
def readPicks (file : Option (List PickRow)) : Option (List Pick) :=
  file.map fun rows => rows.flatMap fun r => rowPicks r [.modelled, .autopick]

/-- A row of an `.amps` file as far as it is exported.  Models export/to_obspy.py:249-283. -/
structure AmpRow where
  id : Str
  pAmp : Option ℚ
  sAmp : Option ℚ
  pFreq : ℚ
  sFreq : ℚ
  noise : ℚ
  ml : Option ℚ
  mlErr : ℚ
deriving DecidableEq, Repr

/-- An exported amplitude (metres, seconds).  Models export/to_obspy.py:253-281. -/
structure Amp where
  id : Str
  phase : Char
  amp : ℚ
  uncertainty : ℚ
  period : ℚ
deriving DecidableEq, Repr

/-- One phase of one row of the amplitudes file (to_obspy.py:253-307): the amplitude and,
for the phase used for magnitudes, the station magnitude. -/
def rowAmp (magPhase : Char) (r : AmpRow) (ph : Char) : List Amp × List (Str × ℚ × ℚ) :=
  match (if ph = 'P' then r.pAmp else r.sAmp) with
  | none => ([], [])
  | some a =>
    ([⟨r.id, ph, a / 1000, r.noise / 1000, 1 / (if ph = 'P' then r.pFreq else r.sFreq)⟩],
      match r.ml with
      | none => []
      | some m => if ph = magPhase then [(r.id, m, r.mlErr)] else [])

/-- Amplitudes, station magnitudes and station count (to_obspy.py:249-307). -/
def readAmps (magPhase : Char) (rows : List AmpRow) : List Amp × List (Str × ℚ × ℚ) × ℕ :=
  let l := rows.flatMap fun r => ['P', 'S'].map fun ph => rowAmp magPhase r ph
  let mags := l.flatMap Prod.snd
  (l.flatMap Prod.fst, mags, mags.length)

/-- `nlloc_obs` (to_nlloc.py:61-103): the lines of the file; `fmt` is the formatting of a
pick (to_nlloc.py:61-100) and `le` the order of strings. -/
def nllocLines (autopick : Bool) (fmt : Pick → Str) (picks : List Pick) : List Str :=
  let m := if autopick then Method.autopick else Method.modelled
  ((picks.filter fun p => p.method = m).map fmt).insertionSort (· ≤ ·)

/-- P and S times of `sac_mfast` (to_mfast.py:100-105), relative to `ref`; 0 = none. -/
def mfastTimes (ref : ℚ) : ℚ × ℚ → List Pick → ℚ × ℚ
  | ps, [] => ps
  | (p, s), k :: ks =>
    if k.phase = ['P'] then mfastTimes ref (k.time - ref, s) ks
    else if k.phase = ['S'] then mfastTimes ref (p, k.time - ref) ks
    else mfastTimes ref (p, s) ks

/-- Header fields of `sac_mfast` for one station (to_mfast.py:88-119): `t0` and `a`; `none` =
no file is written.  Reference time: start of the waveform, which has to exist. -/
def mfastHeader (ref : ℚ) (picks : List Pick) (station : Str) : Option (ℚ × Option ℚ) :=
  let mine := picks.filter fun p => p.station = station
  if mine = [] then none
  else
    let (p, s) := mfastTimes ref (0, 0) mine
    if s = 0 then none
    else some (s, if p ≠ 0 then some p else none)

/-- Models export/to_mfast.py:49-54. -/
inductive Units where
  | km
  | m
deriving DecidableEq, Repr

/-- `station_header.stel` (to_mfast.py:48-54, 78): `elevation` is the value of the station
table as read by `read_stations`. -/
def mfastElevation (u : Units) (elevation : ℚ) : ℚ :=
  elevation / match u with
    | .km => 1
    | .m => 1000

end QM.Export

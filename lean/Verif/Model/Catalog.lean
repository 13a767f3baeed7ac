import Verif.Model.Export

/-!
# Model of the output files of `locate` over the life of a run directory, and of their export

The order in which `_locate_events` writes the files of an event (signal/scan.py:539-546), the
magnitude step (signal/local_mag/local_mag.py:142-208), and `read_quakemigrate`
(export/to_obspy.py:42-322).  A program that stops early is a prefix of the list of writes; each
write is taken to be atomic.  Numbers are rationals; a missing one (NaN) is `none`.  Not modelled:
names and suffixes of the files (see Paths.lean), rounding (see EventFile.lean), references to cut
waveforms, resource identifiers.
-/

namespace QM.Catalog

open QM.Stations (Str)
open QM.Export

/-- The row of an `.event` file (io/event.py:23-44, 458-475); `ml` is `none` when the columns of the
magnitude are absent. -/
structure EventRow where
  uid : Str
  dt : ℚ
  x : ℚ
  y : ℚ
  z : ℚ
  coa : Option ℚ
  coaNorm : Option ℚ
  trigCoa : Option ℚ
  decCoa : Option ℚ
  decCoaNorm : Option ℚ
  gauX : Option ℚ
  gauY : Option ℚ
  gauZ : Option ℚ
  gauErrX : Option ℚ
  gauErrY : Option ℚ
  gauErrZ : Option ℚ
  covErrX : Option ℚ
  covErrY : Option ℚ
  covErrZ : Option ℚ
  ml : Option (Option ℚ × Option ℚ × Option ℚ)
deriving DecidableEq

/-- An `.amps` file: whether it has the columns `ML` and `ML_Err`, and its rows
(io/amplitudes.py:41-67). -/
structure AmpsFile where
  hasMl : Bool
  rows : List AmpRow
deriving DecidableEq

/-- The amplitude of a phase in a row (`amp_feature` is `P_amp` or `S_amp`, local_mag.py:180;
export/to_obspy.py:252-256). -/
def ampOf (r : AmpRow) (ph : Char) : Option ℚ := if ph = 'P' then r.pAmp else r.sAmp

/-- `LocalMag.calc_magnitude` (local_mag.py:176-208) as far as files and the event are concerned:
the `.amps` file written and the magnitude, error and r-squared added to the event.  `mags` is
`calculate_magnitudes`, `mean` is `mean_magnitude` (see Magnitude.lean). -/
def calcMagnitude (feature : Char) (mags : List AmpRow → List AmpRow)
    (mean : List AmpRow → Option ℚ × Option ℚ × Option ℚ) (amps : List AmpRow) :
    AmpsFile × (Option ℚ × Option ℚ × Option ℚ) :=
  if amps.all fun r => (ampOf r feature).isNone then (⟨false, amps⟩, (none, none, none))
  else (⟨true, mags amps⟩, mean (mags amps))

/-- The results for one event: its row without magnitude, picks, and the outcome of the magnitude
step, if there is one (signal/scan.py:539-546). -/
structure Located where
  row : EventRow
  picks : List PickRow
  mag : Option (AmpsFile × (Option ℚ × Option ℚ × Option ℚ))

/-- The row written: with the columns of the magnitude if one was added (io/event.py:463-475). -/
def Located.fullRow (e : Located) : EventRow := { e.row with ml := e.mag.map Prod.snd }

/-- A write to the run directory (signal/pickers/base.py:75-89, io/amplitudes.py:38-69,
io/event.py:455-508). -/
inductive Write where
  | picks (uid : Str) (rows : List PickRow)
  | amps (uid : Str) (file : AmpsFile)
  | event (uid : Str) (row : EventRow)

/-- The files of all events of a run (signal/scan.py:539-546). -/
structure FileSys where
  events : Str → Option EventRow
  picks : Str → Option (List PickRow)
  amps : Str → Option AmpsFile

/-- A new run directory.  Stands for the state before signal/scan.py:472. -/
def FileSys.empty : FileSys := ⟨fun _ => none, fun _ => none, fun _ => none⟩

/-- Effect of a write; an older file of that name is replaced (`to_csv`, io/event.py:508). -/
def FileSys.write (fs : FileSys) : Write → FileSys
  | .picks u r => { fs with picks := fun v => if v = u then some r else fs.picks v }
  | .amps u f => { fs with amps := fun v => if v = u then some f else fs.amps v }
  | .event u r => { fs with events := fun v => if v = u then some r else fs.events v }

/-- The writes for one event, in order (signal/scan.py:539-546): picks, amplitudes if magnitudes are
calculated, event. -/
def eventWrites (e : Located) : List Write :=
  [.picks e.row.uid e.picks] ++
    (match e.mag with
      | none => []
      | some (f, _) => [.amps e.row.uid f]) ++
    [.event e.row.uid e.fullRow]

/-- A call of `locate`: its events in order, and the number of writes done before it stopped, by
itself, by an exception or by being killed (signal/scan.py:498-591). -/
structure Call where
  events : List Located
  writes : ℕ

/-- The writes a call got round to (signal/scan.py:498-591). -/
def Call.done (c : Call) : List Write := (c.events.flatMap eventWrites).take c.writes

/-- The run directory after calls of `locate` (signal/scan.py:472-591). -/
def after (calls : List Call) : FileSys :=
  (calls.flatMap Call.done).foldl FileSys.write FileSys.empty

/-! ## Export -/

/-- What `read_quakemigrate` raises (export/to_obspy.py:84, 132, 285, 311). -/
inductive Err where
  | unboundLocal      -- no directory of events: `event_files` has no value
  | attribute         -- unknown units
  | value             -- ObsPy refuses numbers that are not finite
  | key               -- KeyError: column `ML` missing
deriving DecidableEq, Repr

/-- An origin (export/to_obspy.py:170-208). -/
structure Origin where
  method : Str
  longitude : Option ℚ
  latitude : Option ℚ
  depth : Option ℚ
  time : ℚ
  longitudeErr : Option ℚ
  latitudeErr : Option ℚ
  depthErr : Option ℚ
deriving DecidableEq

/-- The confidence ellipsoid (export/to_obspy.py:189-195). -/
structure Ellipsoid where
  major : Option ℚ
  intermediate : Option ℚ
  minor : Option ℚ
  plunge : ℚ
  azimuth : ℚ
  rotation : ℚ
deriving DecidableEq

/-- The magnitude of an event (export/to_obspy.py:309-320). -/
structure Mag where
  mag : Option ℚ
  err : Option ℚ
  r2 : Option ℚ
  count : ℕ
deriving DecidableEq

/-- An exported event (export/to_obspy.py:135-322). -/
structure ObsEvent where
  uid : Str
  extra : List (Option ℚ)
  origins : List Origin
  ellipsoid : Ellipsoid
  picks : List Pick
  amplitudes : List Amp
  stationMags : List (Str × ℚ × ℚ)
  magnitude : Option Mag
deriving DecidableEq

/-- The distance conversion factor (export/to_obspy.py:127-132). -/
def factor : Units → ℚ
  | .km => 1000
  | .m => 1

/-- `kilometer2degrees` (ObsPy), used in export/to_obspy.py:201-206; `degKm` is the length of a
degree, 2 * 6371 * pi / 360 km. -/
def km2deg (degKm : ℚ) (km : ℚ) : ℚ := km / degKm

/-- The two origins, with the uncertainties of the Gaussian fit for both
(export/to_obspy.py:169-208). -/
def originsOf (degKm : ℚ) (u : Units) (r : EventRow) : List Origin :=
  let ex := r.gauErrX.map fun e => km2deg degKm (e * factor u / 1000)
  let ey := r.gauErrY.map fun e => km2deg degKm (e * factor u / 1000)
  let ez := r.gauErrZ.map fun e => e * factor u
  [⟨"spline".toList, some r.x, some r.y, some (r.z * factor u), r.dt, ex, ey, ez⟩,
   ⟨"gaussian".toList, r.gauX, r.gauY, r.gauZ.map (· * factor u), r.dt, ex, ey, ez⟩]

/-- The confidence ellipsoid (export/to_obspy.py:188-197). -/
def ellipsoidOf (u : Units) (r : EventRow) : Ellipsoid :=
  ⟨r.covErrY.map (· * factor u), r.covErrX.map (· * factor u), r.covErrZ.map (· * factor u), 0, 0, 0⟩

/-- The numbers of an event that go into attributes of ObsPy objects and can be missing
(export/to_obspy.py:182-207). -/
def locationFinite (r : EventRow) : Bool :=
  [r.gauX, r.gauY, r.gauZ, r.gauErrX, r.gauErrY, r.gauErrZ, r.covErrX, r.covErrY, r.covErrZ].all
    Option.isSome

/-- The magnitude of the event (export/to_obspy.py:309-320): KeyError if the event file has no such
column. -/
def magOf (nanOk : Bool) (r : EventRow) (count : ℕ) : Except Err Mag :=
  match r.ml with
  | none => .error .key
  | some (m, e, r2) =>
    if nanOk || (m.isSome && e.isSome) then .ok ⟨m, e, r2, count⟩ else .error .value

/-- Amplitudes, station magnitudes and magnitude (export/to_obspy.py:243-320).  The column `ML` is
looked up for each amplitude of the phase of the magnitudes. -/
def ampsOf (nanOk : Bool) (ph : Char) (r : EventRow) : Option AmpsFile →
    Except Err (List Amp × List (Str × ℚ × ℚ) × Option Mag)
  | none => .ok ([], [], none)
  | some f =>
    if !f.hasMl && f.rows.any (fun a => (ampOf a ph).isSome) then .error .key
    else
      let (amps, mags, n) := readAmps ph f.rows
      match magOf nanOk r n with
      | .error e => .error e
      | .ok m => .ok (amps, mags, some m)

/-- `_read_single_event` (export/to_obspy.py:97-322); `nanOk` says whether ObsPy accepts numbers that
are not finite; `ok none` is an event that is left out. -/
def exportEvent (nanOk : Bool) (degKm : ℚ) (units : Option Units) (ph : Char) (fs : FileSys)
    (r : EventRow) : Except Err (Option ObsEvent) :=
  match units with
  | none => .error .attribute
  | some u =>
    if !nanOk && !locationFinite r then .error .value
    else
      match readPicks (fs.picks r.uid) with
      | none => .ok none
      | some picks =>
        match ampsOf nanOk ph r (fs.amps r.uid) with
        | .error e => .error e
        | .ok (amps, mags, mag) =>
          .ok (some ⟨r.uid, [r.coa, r.coaNorm, r.trigCoa, r.decCoa, r.decCoaNorm],
            originsOf degKm u r, ellipsoidOf u r, picks, amps, mags, mag⟩)

/-- The loop over event files (export/to_obspy.py:84-89). -/
def exportLoop (one : EventRow → Except Err (Option ObsEvent)) : List EventRow →
    Except Err (List ObsEvent)
  | [] => .ok []
  | r :: rs =>
    match one r with
    | .error e => .error e
    | .ok none => exportLoop one rs
    | .ok (some ev) =>
      match exportLoop one rs with
      | .error e => .error e
      | .ok evs => .ok (ev :: evs)

/-- `read_quakemigrate` (export/to_obspy.py:71-94).  `glob` lists the event files of the directory in
some order, `none` if there is no directory. -/
def readQuakemigrate (nanOk : Bool) (degKm : ℚ) (units : Option Units) (ph : Char) (fs : FileSys)
    (glob : Option (List Str)) : Except Err (List ObsEvent) :=
  match glob with
  | none => .error .unboundLocal
  | some uids => exportLoop (exportEvent nanOk degKm units ph fs) (uids.filterMap fs.events)

end QM.Catalog

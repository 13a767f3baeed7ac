import Verif.Model.Pads

/-!
# Model of the station/phase bookkeeping of `QuakeScan._compute`

`STALTAOnset.calculate_onsets` (signal/onsets/stalta.py:353-489), which onset
functions are stacked in which order; `LUT.serve_traveltimes`
(lut/lut.py:502-538); `QuakeScan._compute` (signal/scan.py:616-635).
-/

namespace QM.Compute

/-- Python string.  Stands for text of lut/lut.py:531. -/
abbrev Str := List Char

/-- `f"{station}_{phase}"`.  Models signal/onsets/stalta.py:425. -/
def key (station phase : Str) : Str := station ++ '_' :: phase

/-- `s.split("_")`.  Models lut/lut.py:531. -/
def splitU : Str → List Str
  | [] => [[]]
  | c :: cs =>
    if c = '_' then [] :: splitU cs
    else
      match splitU cs with
      | [] => [[c]]
      | w :: ws => (c :: w) :: ws

/-- `d[k] = v` on an insertion-ordered dict.  Stands for dictionary assignment,
signal/onsets/stalta.py:425. -/
def dictSet {α : Type} (d : List (Str × α)) (k : Str) (v : α) : List (Str × α) :=
  if d.any (fun e => e.1 = k) then d.map (fun e => if e.1 = k then (k, v) else e) else d ++ [(k, v)]

/-- Raised in lut/lut.py:502-538. -/
inductive Err where
  | dataAvailability   -- util.DataAvailabilityException
  | valueError         -- e.g. "too many values to unpack"
  | typeError          -- `None[phase]`
  | lutPhases          -- KeyError, re-raised as util.LUTPhasesException
deriving DecidableEq, Repr

/-- Body of the double loop of `calculate_onsets` (stalta.py:383-467) for one
station and phase: record availability; if it is not 0, append the onset.
`av` is the outcome of `check_availability`, `onset` the computed onset
function. -/
def visit {α : Type} (av : Str → Str → ℕ) (onset : Str → Str → α)
    (st : List (Str × ℕ) × List α) (sp : Str × Str) : List (Str × ℕ) × List α :=
  let avail := dictSet st.1 (key sp.1 sp.2) (av sp.1 sp.2)
  if av sp.1 sp.2 = 0 then (avail, st.2) else (avail, st.2 ++ [onset sp.1 sp.2])

/-- `calculate_onsets` (stalta.py:353-489): phases in the outer loop, stations in
the inner loop. -/
def calculateOnsets {α : Type} (phases stations : List Str) (av : Str → Str → ℕ)
    (onset : Str → Str → α) : Except Err (List (Str × ℕ) × List α) :=
  let r := phases.foldl (fun st ph => stations.foldl (fun st s => visit av onset st (s, ph)) st)
    ([], [])
  if (r.1.map Prod.snd).sum = 0 then .error .dataAvailability else .ok r

/-- Traveltime lookup table: the `traveltimes` dict of dicts (station, phase key)
of grids, a grid being a function of the node number; `stations` is
`station_data["Name"]`.  Models lut/lut.py:594-602. -/
structure Lut where
  stations : List Str
  phases : List Str
  table : Str → Option (Str → Option (ℕ → ℚ))
  nNodes : ℕ

/-- `self[station][phase]`, falling back to `TIME_{phase}` (lut.py:533-536;
`__getitem__` lut.py:921-943 returns None for an unknown station). -/
def lookup (L : Lut) (station phase : Str) : Except Err (ℕ → ℚ) :=
  match L.table station with
  | none => .error .typeError
  | some d =>
    match d phase with
    | some g => .ok g
    | none =>
      match d ("TIME_".toList ++ phase) with
      | some g => .ok g
      | none => .error .lutPhases

/-- The loop of `serve_traveltimes` over the availability dict (lut.py:528-537).
The key is unpacked before its availability is tested. -/
def serve (L : Lut) : List (Str × ℕ) → Except Err (List (ℕ → ℚ))
  | [] => .ok []
  | (k, v) :: rest =>
    match splitU k with
    | [station, phase] =>
      if v = 1 then
        match lookup L station phase with
        | .error e => .error e
        | .ok g =>
          match serve L rest with
          | .error e => .error e
          | .ok gs => .ok (g :: gs)
      else serve L rest
    | _ => .error .valueError

/-- `np.rint(traveltimes * sampling_rate).astype(np.int32)` (lut.py:538). -/
def toSamples (sr : ℚ) (g : ℕ → ℚ) : ℕ → ℤ := fun node => pyRound (g node * sr)

/-- `serve_traveltimes(sampling_rate, availability)`; `np.stack` raises ValueError
on an empty list.  Models lut/lut.py:502-538. -/
def serveTraveltimes (L : Lut) (sr : ℚ) (avail : List (Str × ℕ)) : Except Err (List (ℕ → ℤ)) :=
  match serve L avail with
  | .error e => .error e
  | .ok [] => .error .valueError
  | .ok gs => .ok (gs.map (toSamples sr))

/-- `_serve_traveltimes(phases, stations)` (lut.py:576-603): phases in the outer loop. -/
def serveList (L : Lut) : List (Str × Str) → Except Err (List (ℕ → ℚ))
  | [] => .ok []
  | (station, phase) :: rest =>
    match lookup L station phase with
    | .error e => .error e
    | .ok g =>
      match serveList L rest with
      | .error e => .error e
      | .ok gs => .ok (g :: gs)

/-- `serve_traveltimes(sampling_rate)` without an availability (lut.py:525-527, 538):
all phases of the table for all stations of the station file. -/
def serveAll (L : Lut) (sr : ℚ) : Except Err (List (ℕ → ℤ)) :=
  match serveList L (L.phases.flatMap fun p => L.stations.map fun s => (s, p)) with
  | .error e => .error e
  | .ok [] => .error .valueError
  | .ok gs => .ok (gs.map (toSamples sr))

/-- What `_compute` hands to `migrate` (scan.py:618-635): onset functions, traveltime
tables, `avail`. -/
def migrateInput {α : Type} (L : Lut) (sr : ℚ) (phases stations : List Str)
    (av : Str → Str → ℕ) (onset : Str → Str → α) :
    Except Err (List α × List (ℕ → ℤ) × ℕ) :=
  match calculateOnsets phases stations av onset with
  | .error e => .error e
  | .ok (avail, onsets) =>
    match serveTraveltimes L sr avail with
    | .error e => .error e
    | .ok tts => .ok (onsets, tts, (avail.map Prod.snd).sum)

/-- `LUT.max_traveltime` (lut.py:841-845, 576-603): maximum over all phases, all
stations of the station table and all nodes (`none` if a table is missing or
there is nothing to take the maximum of: the code raises). -/
def maxTraveltime (L : Lut) : Option ℚ :=
  let grids := L.phases.flatMap (fun p => L.stations.map (fun s => lookup L s p))
  if grids.all (fun g => g.isOk) then
    (grids.flatMap (fun g =>
      match g with
      | .ok f => (List.range L.nNodes).map f
      | .error _ => [])).max?
  else none

end QM.Compute

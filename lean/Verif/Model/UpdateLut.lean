import Verif.Model.Grid

/-!
# Model of `update_lut` (lut/__init__.py:31-67) and of tables in the old format

A lookup table is the dictionary of the attributes of the object: it is what is pickled
(lut/lut.py:605-620) and what `read_lut` restores (io/core.py:40-51).  Old tables hold the attribute
`maps` with the keys `TIME_P`, `TIME_S` in place of `traveltimes` with the keys `P`, `S`, and the
attributes `_cell_size` and `_cell_count` in place of `_node_spacing` and `_node_count`.
-/

namespace QM.UpdateLut

open QM.Compute
open QM.Grid (dictGet)

/-- A grid of traveltimes: a function of the node number, as in Compute.lean (lut/lut.py:598-602). -/
abbrev TT := ℕ → ℚ

/-- A dictionary of the tables of one station, by the key of the phase (lut/lut.py:422-431). -/
abbrev Phases := List (Str × TT)

/-- The dictionary of dictionaries `traveltimes` or `maps` (lut/lut.py:422-431, lut/__init__.py:50-51). -/
abbrev Tables := List (Str × Phases)

/-- The attributes of the object; `none`: there is no such attribute (lut/lut.py:452-468, 246-287).
`station_data` is represented by the names of the stations; the corners and the projections, which
`update_lut` does not touch, are left out. -/
structure Attrs where
  traveltimes : Option Tables
  maps : Option Tables
  phases : List Str
  fractionTT : ℚ
  nodeSpacing : Option (Fin 3 → ℚ)
  cellSize : Option (Fin 3 → ℚ)
  nodeCount : Option (Fin 3 → ℕ)
  cellCount : Option (Fin 3 → ℕ)
  stations : List Str

/-- The getter `node_spacing` (lut/lut.py:266-278), also called `cell_size` (lut/lut.py:382-385). -/
def Attrs.spacing (a : Attrs) : Option (Fin 3 → ℚ) :=
  match a.nodeSpacing with
  | some v => some v
  | none => a.cellSize

/-- The getter `node_count` (lut/lut.py:246-258), also called `cell_count` (lut/lut.py:366-369). -/
def Attrs.count (a : Attrs) : Option (Fin 3 → ℕ) :=
  match a.nodeCount with
  | some v => some v
  | none => a.cellCount

/-- `self[station]` (lut/lut.py:938-943): `maps` is looked at only if there is no attribute
`traveltimes`. -/
def Attrs.tables (a : Attrs) (station : Str) : Option Phases :=
  match a.traveltimes with
  | some t => dictGet t station
  | none =>
    match a.maps with
    | some m => dictGet m station
    | none => none

/-- The table as `serve_traveltimes` sees it (lut/lut.py:525-538, 594-603); the number of nodes is that
of `node_count`. -/
def Attrs.lut (a : Attrs) : Lut :=
  { stations := a.stations, phases := a.phases,
    table := fun s => (a.tables s).map fun d => fun p => dictGet d p,
    nNodes := match a.count with
      | some c => c 0 * c 1 * c 2
      | none => 0 }

/-- Raised by `update_lut` (lut/__init__.py:52; lut/lut.py:262, 286). -/
inductive UErr where
  | indexError | assertion
deriving DecidableEq, Repr

/-- `traveltimes.setdefault(station, {}).update({phase_code: ttimes})` (lut/__init__.py:53). -/
def addTable (tt : Tables) (station code : Str) (g : TT) : Tables :=
  dictSet tt station (dictSet ((dictGet tt station).getD []) code g)

/-- The loop over the phases of a station (lut/__init__.py:51-53); `phase.split("_")[1]` raises
IndexError if there is no underscore. -/
def addPhases (tt : Tables) (station : Str) : Phases → Except UErr Tables
  | [] => .ok tt
  | (p, g) :: rest =>
    match (splitU p)[1]? with
    | none => .error .indexError
    | some code => addPhases (addTable tt station code g) station rest

/-- The loop over the stations (lut/__init__.py:50-53). -/
def addStations (tt : Tables) : Tables → Except UErr Tables
  | [] => .ok tt
  | (s, d) :: rest =>
    match addPhases tt s d with
    | .error e => .error e
    | .ok tt' => addStations tt' rest

/-- The first `try` (lut/__init__.py:48-57): a table without `maps` raises AttributeError, which is
passed over. -/
def convertTables (a : Attrs) : Except UErr Attrs :=
  match a.maps with
  | none => .ok a
  | some m =>
    match addStations [] m with
    | .error e => .error e
    | .ok t => .ok { a with traveltimes := some t, maps := none }

/-- The setters `node_spacing` and `node_count` (lut/lut.py:260-264, 280-287). -/
def Attrs.setGrid (a : Attrs) (sp : Fin 3 → ℚ) (c : Fin 3 → ℕ) : Except UErr Attrs :=
  if ¬ (0 < sp 0 ∧ 0 < sp 1 ∧ 0 < sp 2) then .error .assertion
  else if ¬ (0 < c 0 ∧ 0 < c 1 ∧ 0 < c 2) then .error .assertion
  else .ok { a with nodeSpacing := some sp, nodeCount := some c }

/-- `del lut._cell_size, lut._cell_count` (lut/__init__.py:63); the AttributeError of a missing one is
passed over, and then the second is not deleted. -/
def Attrs.delCells (a : Attrs) : Attrs :=
  match a.cellSize with
  | none => a
  | some _ => { a with cellSize := none, cellCount := none }

/-- The second `try` (lut/__init__.py:60-65).  Simplified: a table with a spacing but no node count
keeps both as they are (the code would have stored the spacing under the new name). -/
def convertGrid (a : Attrs) : Except UErr Attrs :=
  match a.spacing, a.count with
  | some sp, some c =>
    match a.setGrid sp c with
    | .error e => .error e
    | .ok b => .ok b.delCells
  | _, _ => .ok a

/-- `update_lut` (lut/__init__.py:31-67) from the table read to the table saved. -/
def updateLut (a : Attrs) : Except UErr Attrs :=
  match convertTables a with
  | .error e => .error e
  | .ok b => convertGrid { b with phases := [['P'], ['S']], fractionTT := 1 / 10 }

end QM.UpdateLut

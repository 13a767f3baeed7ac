import Verif.Model.TriggerFiles

/-!
# Model of `quakemigrate/io/availability.py`

CSV output and input are taken to be exact: a table written with `to_csv` comes
back with the same times, column names and values.
-/

namespace QM.Availability

open QM.TriggerFiles (dayNum readDays)

/-- Stands for text in io/availability.py:99-120. -/
abbrev Str := List Char

/-- A station availability table: column names, and rows of a time (seconds) with
one value per column; `none` is a missing value (NaN).  Stands for pandas frame of
io/availability.py:99, 143-150. -/
structure Table where
  cols : List Str
  rows : List (ℚ × List (Option ℤ))
deriving DecidableEq, Repr

/-- The `*_StationAvailability.csv` files of a run, by day number.  Models
io/availability.py:49-50, 147-148. -/
abbrev Files := ℤ → Option Table

/-- `name.split("_")` (availability.py:101). -/
def splitUnderscore (s : Str) : List Str := s.splitOn '_'

/-- Models io/availability.py:57, 65. -/
inductive Err where
  | indexError
  | keyError
deriving DecidableEq, Repr

/-- Position of a column.  Stands for pandas column lookup, io/availability.py:114. -/
def colIdx (t : Table) (c : Str) : Option ℕ := t.cols.findIdx? (fun x => x = c)

/-- `availability_out[new_key] = values` (availability.py:114): replace the column if
it exists, else append it. -/
def setCol (t : Table) (c : Str) (vals : List (Option ℤ)) : Table :=
  match colIdx t c with
  | some i => ⟨t.cols, List.zipWith (fun r v => (r.1, r.2.set i v)) t.rows vals⟩
  | none => ⟨t.cols ++ [c], List.zipWith (fun r v => (r.1, r.2 ++ [v])) t.rows vals⟩

/-- Value under the column `c`; missing if there is no such column.  Stands for pandas cell lookup,
io/availability.py:114. -/
def cell (cols : List Str) (vals : List (Option ℤ)) (c : Str) : Option ℤ :=
  (cols.findIdx? fun x => x = c).bind fun i => vals.getD i none

/-- `availability_in[name].values` (availability.py:114). -/
def getCol (t : Table) (c : Str) : Except Err (List (Option ℤ)) :=
  if c ∈ t.cols then .ok (t.rows.map fun r => cell t.cols r.2 c) else .error .keyError

/-- The loops of availability.py:111-114. -/
def addCols (t : Table) : Table → List (Str × Char) → Except Err Table
  | out, [] => .ok out
  | out, (s, ph) :: rest =>
    match getCol t s with
    | .error e => .error e
    | .ok v => addCols t (setCol out (s ++ ['_', ph]) v) rest

/-- `_handle_old_structure` (availability.py:99-120) without permanent conversion.  An
old table gets its index before the columns here, at the end in the code. -/
def handleOld (t : Table) : Except Err Table :=
  match t.cols with
  | [] => .error .indexError
  | c :: _ =>
    if (splitUnderscore c).length = 2 then .ok t
    else
      let stats := t.cols.map fun c => (splitUnderscore c).headD []
      addCols t ⟨[], t.rows.map fun r => (r.1, [])⟩
        (['P', 'S'].flatMap fun ph => stats.map fun s => (s, ph))

/-- Row of a table with columns `cols` put under the columns `all`; missing values
where a column is absent.  Stands for `pd.concat`, io/availability.py:56. -/
def reindex (cols all : List Str) (r : ℚ × List (Option ℤ)) : ℚ × List (Option ℤ) :=
  (r.1, all.map fun c => cell cols r.2 c)

/-- `pd.concat([a, b])` (availability.py:56): rows of `a`, then of `b`; columns of `a`,
then those only in `b`. -/
def concat (a b : Table) : Table :=
  let all := a.cols ++ b.cols.filter (fun c => c ∉ a.cols)
  ⟨all, a.rows.map (reindex a.cols all) ++ b.rows.map (reindex b.cols all)⟩

/-- The loop of `read_availability` (availability.py:48-62); `acc` is `availability`.
A missing file is skipped. -/
def readLoop (f : Files) : Option Table → List ℤ → Except Err (Option Table)
  | acc, [] => .ok acc
  | acc, d :: ds =>
    match f d with
    | none => readLoop f acc ds
    | some raw =>
      match handleOld raw with
      | .error e => .error e
      | .ok t =>
        match acc with
        | none => readLoop f (some t) ds
        | some a => readLoop f (some (concat a t)) ds

/-- `read_availability` (availability.py:42-70); `ok none` =
NoStationAvailabilityDataException. -/
def read (f : Files) (start stop : ℚ) : Except Err (Option Table) :=
  readLoop f none (readDays (dayNum start) stop)

/-- `to_csv` (availability.py:150) replaces the whole file. -/
def Files.set (f : Files) (d : ℤ) (t : Table) : Files :=
  fun d' => if d' = d then some t else f d'

/-- `write_availability` (availability.py:139-150); `order` is the order in which the
set of dates is iterated. -/
def write (f : Files) (t : Table) (order : List ℤ) : Files :=
  order.foldl (fun f d => f.set d { t with rows := t.rows.filter fun r => dayNum r.1 = d }) f

/-- The dates of a table, in any order, without repetition (availability.py:140). -/
def IsDateSet (t : Table) (order : List ℤ) : Prop :=
  order.Nodup ∧ ∀ d, d ∈ order ↔ ∃ r ∈ t.rows, dayNum r.1 = d

/-- A history of writes.  Models io/availability.py:142-150, one call per entry. -/
def writes (f : Files) (l : List (Table × List ℤ)) : Files :=
  l.foldl (fun f w => write f w.1 w.2) f

end QM.Availability

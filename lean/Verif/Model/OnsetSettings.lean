import Mathlib.Data.Rat.Defs
import Mathlib.Logic.Function.Basic

/-!
# Model of the settings of `STALTAOnset` objects and of their deprecated names

The constructor (signal/onsets/stalta.py:300-334), the handlers of the old names
(signal/onsets/stalta.py:637-739) and the deprecated classes `CentredSTALTAOnset` and
`ClassicSTALTAOnset` (signal/onsets/stalta.py:742-783).

The filters and the windows are dictionaries, and an object holds a reference: two objects, or an object
and the user's script, may hold the same dictionary.  So there is a heap of dictionaries.
-/

namespace QM.OnsetSettings

/-- The name of a phase (signal/onsets/stalta.py:314). -/
abbrev Str := List Char

/-- A filter `[low, high, corners]` or a pair of windows `[STA, LTA]`, in their order
(signal/onsets/stalta.py:315-320). -/
abbrev Value := List ℚ

/-- The dictionaries of the session, by address; those from `next` on are not in use
(signal/onsets/stalta.py:315-320). -/
structure Heap where
  next : ℕ
  dict : ℕ → Str → Option Value

/-- `position` (signal/onsets/stalta.py:306). -/
inductive Pos where
  | classic | centred
deriving DecidableEq, Repr

/-- The attributes of an onset object that have old names; `filters` and `windows` are addresses
(signal/onsets/stalta.py:306, 315-320). -/
structure Onset where
  position : Pos
  filters : ℕ
  windows : ℕ
deriving DecidableEq

/-- The keyword arguments (signal/onsets/stalta.py:306, 315-320, 330-334). -/
structure Args where
  position : Option Pos := none
  filters : Option ℕ := none
  windows : Option ℕ := none
  onsetCentred : Option Bool := none
  pBpFilter : Option Value := none
  sBpFilter : Option Value := none
  pOnsetWin : Option Value := none
  sOnsetWin : Option Value := none

/-- The classes (signal/onsets/stalta.py:214, 742, 764). -/
inductive Cls where
  | stalta | centred | classic
deriving DecidableEq, Repr

/-- A new dictionary, at a new address (signal/onsets/stalta.py:316, 319). -/
def Heap.alloc (h : Heap) (d : Str → Option Value) : Heap × ℕ :=
  ({ next := h.next + 1, dict := Function.update h.dict h.next d }, h.next)

/-- `d[phase] = value` (signal/onsets/stalta.py:679, 699, 719, 739). -/
def Heap.set (h : Heap) (addr : ℕ) (phase : Str) (v : Value) : Heap :=
  { h with dict := Function.update h.dict addr (Function.update (h.dict addr) phase (some v)) }

/-- The default filters (signal/onsets/stalta.py:316). -/
def defaultFilters : Str → Option Value := fun p =>
  if p = ['P'] ∨ p = ['S'] then some [2, 16, 2] else none

/-- The default windows (signal/onsets/stalta.py:319). -/
def defaultWindows : Str → Option Value := fun p =>
  if p = ['P'] ∨ p = ['S'] then some [1 / 5, 1] else none

/-- `kwargs.get(name, {...})` (signal/onsets/stalta.py:315-320).  The default is a new dictionary at each
call. -/
def getOr (h : Heap) (given : Option ℕ) (d : Str → Option Value) : Heap × ℕ :=
  match given with
  | some a => (h, a)
  | none => h.alloc d

/-- The handlers of the old names of the dictionaries: nothing is done for None
(signal/onsets/stalta.py:667-679, 687-699, 707-719, 727-739). -/
def setOld (h : Heap) (addr : ℕ) (phase : Str) : Option Value → Heap
  | none => h
  | some v => h.set addr phase v

/-- The handler of `onset_centred` (signal/onsets/stalta.py:644-659). -/
def setCentred (o : Onset) : Option Bool → Onset
  | none => o
  | some true => { o with position := .centred }
  | some false => { o with position := .classic }

/-- The constructor of `STALTAOnset` (signal/onsets/stalta.py:300-334); the settings without old names
are left out. -/
def construct (h : Heap) (a : Args) : Heap × Onset :=
  let f := getOr h a.filters defaultFilters
  let w := getOr f.1 a.windows defaultWindows
  let o := setCentred ⟨a.position.getD .classic, f.2, w.2⟩ a.onsetCentred
  let h1 := setOld w.1 f.2 ['P'] a.pBpFilter
  let h2 := setOld h1 f.2 ['S'] a.sBpFilter
  let h3 := setOld h2 w.2 ['P'] a.pOnsetWin
  let h4 := setOld h3 w.2 ['S'] a.sOnsetWin
  (h4, o)

/-- The constructors of the three classes (signal/onsets/stalta.py:750-761, 772-783). -/
def constructCls (c : Cls) (h : Heap) (a : Args) : Heap × Onset :=
  let r := construct h a
  match c with
  | .stalta => r
  | .centred => (r.1, { r.2 with position := .centred })
  | .classic => (r.1, { r.2 with position := .classic })

/-- `bandpass_filters[phase]` (signal/onsets/stalta.py:664, 684). -/
def Onset.filter (o : Onset) (h : Heap) (phase : Str) : Option Value := h.dict o.filters phase

/-- `sta_lta_windows[phase]` (signal/onsets/stalta.py:704, 724). -/
def Onset.window (o : Onset) (h : Heap) (phase : Str) : Option Value := h.dict o.windows phase

/-- The text of `position` (signal/onsets/stalta.py:638-641). -/
def Pos.text : Pos → Str
  | .classic => "classic".toList
  | .centred => "centred".toList

/-- The getter `onset_centred` (signal/onsets/stalta.py:638-641): it returns the text of `position`. -/
def Onset.onsetCentred (o : Onset) : Str := o.position.text

/-- `if text:` (signal/onsets/stalta.py:656). -/
def truthy (s : Str) : Bool := decide (s ≠ [])

/-- The old names of the dictionaries (signal/onsets/stalta.py:661-739). -/
inductive OldName where
  | pBpFilter | sBpFilter | pOnsetWin | sOnsetWin
deriving DecidableEq, Repr

/-- The phase of an old name (signal/onsets/stalta.py:679, 699, 719, 739). -/
def OldName.phase : OldName → Str
  | .pBpFilter | .pOnsetWin => ['P']
  | .sBpFilter | .sOnsetWin => ['S']

/-- The dictionary of an old name (signal/onsets/stalta.py:679, 699, 719, 739). -/
def OldName.addr (o : Onset) : OldName → ℕ
  | .pBpFilter | .sBpFilter => o.filters
  | .pOnsetWin | .sOnsetWin => o.windows

/-- `onset.<old name> = value` (signal/onsets/stalta.py:667-679, 687-699, 707-719, 727-739). -/
def assignOld (h : Heap) (o : Onset) (n : OldName) (v : Value) : Heap :=
  setOld h (n.addr o) n.phase (some v)

end QM.OnsetSettings

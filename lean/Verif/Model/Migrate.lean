import Mathlib.Analysis.SpecialFunctions.Log.Basic
import Verif.Py
import Verif.Model.Parallel

/-!
# Model of the migration kernel

`core/src/migratelib.c` (`migrate`, `find_max_coa`) and its ctypes wrapper
`core/lib.py`.  The C functions are modelled on flat arrays, as sequences of
loads and stores of one loop iteration; the OpenMP `parallel for` is modelled by
an arbitrary interleaving of the iterations (`IsInterleaving`).  An access
outside an array, or an index outside `int32_t`, faults (`none`): undefined
behaviour in C.  The arithmetic is a parameter (`Arith`, `MaxArith`): doubles are idealised as reals in
`realArith` and `fieldArith`, and are given rounding errors in `Verif/Model/MigrateDoubles.lean`.
-/

namespace QM.Migrate

/-- A C-contiguous two-dimensional array. Only `get i j` with `i < rows`,
`j < cols` exists in memory (see `Arr2.flat`).  Stands for contiguous arrays of core/lib.py:93-101. -/
structure Arr2 (α : Type) where
  rows : ℕ
  cols : ℕ
  get : ℕ → ℕ → α

/-- Memory image of a C-contiguous array.  Stands for C order of core/lib.py:93-101. -/
def Arr2.flat {α : Type} (a : Arr2 α) : List α :=
  (List.range (a.rows * a.cols)).map (fun i => a.get (i / a.cols) (i % a.cols))

/-- Largest `int32_t` plus one.  Models core/lib.py:96. -/
def INT32 : ℕ := 2 ^ 31

/-- The arithmetic of the kernel on values of type `V`: the zero of `np.zeros` (lib.py:101), `+`
(migratelib.c:57), `exp(x / available)` (migratelib.c:62), and `np.log(np.clip(x, 0.01, np.inf))`
(lib.py:93-94). -/
structure Arith (V : Type) where
  zero : V
  add : V → V → V
  expDiv : V → ℤ → V
  logClip : V → V

/-- Real arithmetic in place of doubles (migratelib.c:57-62, lib.py:93-101). -/
noncomputable def realArith : Arith ℝ :=
  ⟨0, fun x y => x + y, fun x n => Real.exp (x / (n : ℝ)), fun x => Real.log (max (1 / 100) x)⟩

/-- Arguments of the C function `migrate` (migratelib.c:41-44). `map4d` is the
mutable state; `threads` is irrelevant to the model, which allows every
interleaving. -/
structure ArgsOf (V : Type) where
  onsets : List V
  tts : List ℤ
  fsmp : ℕ
  lsmp : ℕ
  nSamples : ℕ
  nStations : ℕ
  available : ℤ
  nNodes : ℕ

/-- The arguments with real numbers (migratelib.c:41-44). -/
abbrev Args := ArgsOf ℝ

/-- Micro-steps of one iteration.  Models core/src/migratelib.c:51-64. -/
inductive Op where
  | readTT (i : ℕ)      -- traveltime = MAX(0, lookup_tables[i])
  | load (a : ℕ)        -- reg = map4d[a]
  | addOnset (base : ℕ) -- reg += onsets[base + traveltime]
  | expDiv              -- reg = exp(reg / available)
  | store (a : ℕ)       -- map4d[a] = reg

/-- Shared output array and, per iteration (`private(...)`), the registers.  Models
core/src/migratelib.c:45-50. -/
structure StateOf (V : Type) where
  mem : ℕ → V
  reg : ℕ → V
  tt : ℕ → ℕ

/-- The state with real numbers (core/src/migratelib.c:45-50). -/
abbrev State := StateOf ℝ

section
variable {V : Type} (ar : Arith V)

/-- One micro-step of iteration `o.1`.  Models core/src/migratelib.c:51-64. -/
def stepWith (A : ArgsOf V) (o : ℕ × Op) (s : StateOf V) : Option (StateOf V) :=
  match o.2 with
  | .readTT i =>
    match A.tts[i]? with
    | none => none
    | some t => some { s with tt := Function.update s.tt o.1 (max 0 t).toNat }
  | .load a =>
    if a < A.nNodes * A.nSamples then some { s with reg := Function.update s.reg o.1 (s.mem a) }
    else none
  | .addOnset base =>
    if base + s.tt o.1 < INT32 then
      match A.onsets[base + s.tt o.1]? with
      | none => none
      | some v => some { s with reg := Function.update s.reg o.1 (ar.add (s.reg o.1) v) }
    else none
  | .expDiv =>
    some { s with reg := Function.update s.reg o.1 (ar.expDiv (s.reg o.1) A.available) }
  | .store a =>
    if a < A.nNodes * A.nSamples then some { s with mem := Function.update s.mem a (s.reg o.1) }
    else none

/-- `stack[sample] += onsets[station * (fsmp + lsmp + n_samples) + traveltime + fsmp + sample]`
(migratelib.c:57-58). -/
def addProg (A : ArgsOf V) (node station sample : ℕ) : List Op :=
  [.load (node * A.nSamples + sample),
   .addOnset (station * (A.fsmp + A.lsmp + A.nSamples) + A.fsmp + sample),
   .store (node * A.nSamples + sample)]

/-- The inner two loops for one station (migratelib.c:54-60). -/
def stationProg (A : ArgsOf V) (node station : ℕ) : List Op :=
  .readTT (node * A.nStations + station) ::
    (List.range A.nSamples).flatMap (addProg A node station)

/-- `stack[sample] = exp(stack[sample] / available)` (migratelib.c:61-63). -/
def expProg (A : ArgsOf V) (node sample : ℕ) : List Op :=
  [.load (node * A.nSamples + sample), .expDiv, .store (node * A.nSamples + sample)]

/-- Body of the parallel loop (migratelib.c:51-64). -/
def nodeProg (A : ArgsOf V) (node : ℕ) : List Op :=
  (List.range A.nStations).flatMap (stationProg A node) ++
    (List.range A.nSamples).flatMap (expProg A node)

/-- Zero-initialised output (`np.zeros`, lib.py:101). -/
def initWith : StateOf V := ⟨fun _ => ar.zero, fun _ => ar.zero, fun _ => 0⟩

/-- Models core/lib.py:105-110. -/
inductive Err where
  | valueError
  | undefinedBehaviour
deriving DecidableEq

/-- `np.log(np.clip(onsets, 0.01, np.inf))` (lib.py:93-94). -/
def logOnsets (on : Arr2 V) : Arr2 V :=
  { on with get := fun i j => ar.logClip (on.get i j) }

/-- Arguments handed to the C function by the wrapper (lib.py:96-103, 105-122). -/
def mkArgsWith (on : Arr2 V) (tt : Arr2 ℤ) (first last : ℕ) (available : ℤ) : ArgsOf V :=
  { onsets := (logOnsets ar on).flat, tts := tt.flat, fsmp := first, lsmp := last,
    nSamples := on.cols - first - last, nStations := on.rows, available := available,
    nNodes := tt.rows }

/-- `core/lib.py:53-121` `migrate`.  `tt` is the traveltime array with the grid
axes flattened (shape (n_nodes, n_luts)); `sched` is the order in which the
OpenMP threads happen to execute the micro-steps.  A negative `n_samples` makes
`np.zeros` raise ValueError. -/
def migrateWith (on : Arr2 V) (tt : Arr2 ℤ) (first last : ℕ) (available : ℤ)
    (sched : List (ℕ × Op)) : Except Err (ℕ → ℕ → V) :=
  if on.cols < first + last then .error .valueError
  else if tt.cols ≠ on.rows then .error .valueError
  else if on.rows * on.cols < (on.cols - first - last) + first then .error .valueError
  else
    match runAll (stepWith ar (mkArgsWith ar on tt first last available)) sched (initWith ar) with
    | none => .error .undefinedBehaviour
    | some s => .ok (fun node sample => s.mem (node * (on.cols - first - last) + sample))

end

/-- The arguments of the C function, with real numbers (lib.py:96-103, 105-122). -/
noncomputable abbrev mkArgs (on : Arr2 ℝ) (tt : Arr2 ℤ) (first last : ℕ) (available : ℤ) : Args :=
  mkArgsWith realArith on tt first last available

/-- `migrate` with real numbers (core/lib.py:53-121). -/
noncomputable abbrev migrate (on : Arr2 ℝ) (tt : Arr2 ℤ) (first last : ℕ) (available : ℤ)
    (sched : List (ℕ × Op)) : Except Err (ℕ → ℕ → ℝ) :=
  migrateWith realArith on tt first last available sched

/-! ## find_max_coa -/

/-- The arithmetic of `find_max_coa`: the zero of `np.zeros` (lib.py:156-157), `+=` and `>`
(migratelib.c:101-102), and `max * n_nodes / sum` (migratelib.c:108). -/
structure MaxArith (V : Type) where
  zero : V
  add : V → V → V
  gt : V → V → Bool
  norm : V → ℕ → V → V

/-- Exact arithmetic in place of doubles (migratelib.c:101-108, lib.py:156-157). -/
def fieldArith (K : Type) [Field K] [LinearOrder K] : MaxArith K :=
  ⟨0, fun x y => x + y, fun x y => decide (x > y), fun m n s => m * (n : K) / s⟩

section
variable {V : Type} (ar : MaxArith V)

/-- Micro-steps of one iteration (one sample) of `find_max_coa`.  Models
core/src/migratelib.c:95-111. -/
inductive FOp where
  | start            -- max = map4d[sample]; idx = 0; sum = map4d[sample]
  | visit (node : ℕ) -- current = map4d[node * n_samples + sample]; ...
  | writeMax
  | writeNorm
  | writeIdx

/-- Private variables of one iteration.  Models core/src/migratelib.c:89-94. -/
structure FReg (V : Type) where
  mx : V
  idx : ℕ
  sm : V

/-- Output arrays and private variables.  Models core/src/migratelib.c:82-94. -/
structure FState (V : Type) where
  maxCoa : ℕ → V
  norm : ℕ → V
  idx : ℕ → ℕ
  reg : ℕ → FReg V

/-- One micro-step of the iteration for sample `o.1` (migratelib.c:96-110). -/
def fstepWith (map4d : List V) (nSamples nNodes : ℕ) (o : ℕ × FOp) (s : FState V) : Option (FState V) :=
  match o.2 with
  | .start =>
    match map4d[o.1]? with
    | none => none
    | some v => some { s with reg := Function.update s.reg o.1 ⟨v, 0, v⟩ }
  | .visit node =>
    match map4d[node * nSamples + o.1]? with
    | none => none
    | some v =>
      let r := s.reg o.1
      some { s with reg := Function.update s.reg o.1
                      (if ar.gt v r.mx then ⟨v, node, ar.add r.sm v⟩ else ⟨r.mx, r.idx, ar.add r.sm v⟩) }
  | .writeMax =>
    if o.1 < nSamples then some { s with maxCoa := Function.update s.maxCoa o.1 (s.reg o.1).mx }
    else none
  | .writeNorm =>
    if o.1 < nSamples then
      some { s with norm := Function.update s.norm o.1 (ar.norm (s.reg o.1).mx nNodes (s.reg o.1).sm) }
    else none
  | .writeIdx =>
    if o.1 < nSamples then some { s with idx := Function.update s.idx o.1 (s.reg o.1).idx }
    else none

/-- Body of the parallel loop over samples (migratelib.c:95-111). -/
def sampleProg (nNodes : ℕ) (_sample : ℕ) : List FOp :=
  .start :: ((List.range' 1 (nNodes - 1)).map .visit ++ [.writeMax, .writeNorm, .writeIdx])

/-- Zero-initialised outputs (lib.py:156-158). -/
def finitWith : FState V :=
  ⟨fun _ => ar.zero, fun _ => ar.zero, fun _ => 0, fun _ => ⟨ar.zero, 0, ar.zero⟩⟩

/-- `core/lib.py:132-170` `find_max_coa` on a map of shape (n_nodes, n_samples),
grid axes flattened. `none` = undefined behaviour. -/
def findMaxCoaWith (m : Arr2 V) (sched : List (ℕ × FOp)) : Option (FState V) :=
  runAll (fstepWith ar m.flat m.cols m.rows) sched (finitWith ar)

end

/-- `find_max_coa` with exact arithmetic (core/lib.py:132-170). -/
abbrev findMaxCoa {K : Type} [Field K] [LinearOrder K] (m : Arr2 K) (sched : List (ℕ × FOp)) :
    Option (FState K) :=
  findMaxCoaWith (fieldArith K) m sched

end QM.Migrate

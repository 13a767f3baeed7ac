import Verif.Model.Compute
import Mathlib.Data.Fin.VecNotation
import Mathlib.Data.Fintype.Basic

/-!
# Model of the 3-D grid and of the lookup table object

`Grid3D` and `LUT` (lut/lut.py), `read_lut` (io/core.py:24-51),
`_bilinear_interpolate` and `_grid_string` (lut/create_lut.py:716-762, 842-867).

Grid coordinates are rationals; the map projection (`coord2grid`,
lut.py:182-209) is outside the model: corners are given in grid coordinates.
-/

namespace QM.Grid

open QM.Compute (Str)

/-- A triple, one entry per axis.  Stands for arrays of lut/lut.py:87-100. -/
abbrev V3 (α : Type) := Fin 3 → α

/-- Raised in lut/lut.py:259-287. -/
inductive Err where
  | assertion    -- AssertionError of a property setter
  | valueError   -- `np.unravel_index` out of range
  | indexError   -- numpy index out of bounds
deriving DecidableEq, Repr

/-- The grid definition carried by a `Grid3D` (lut.py:87-100); `count` after the
int32 cast of the setter, `ll` is `ll_corner`. -/
structure Grid where
  ll : V3 ℚ
  spacing : V3 ℚ
  count : V3 ℕ

/-- `node_spacing` setter (lut.py:279-287): a scalar is repeated, otherwise three
values are required; all must be positive. -/
def setSpacing (value : List ℚ) : Except Err (V3 ℚ) :=
  match value with
  | [s] => if 0 < s then .ok (fun _ => s) else .error .assertion
  | [a, b, c] => if 0 < a ∧ 0 < b ∧ 0 < c then .ok ![a, b, c] else .error .assertion
  | _ => .error .assertion

/-- `node_count` setter (lut.py:259-263): all three counts must be positive. -/
def setCount (value : V3 ℤ) : Except Err (V3 ℕ) :=
  if 0 < value 0 ∧ 0 < value 1 ∧ 0 < value 2 then .ok (fun a => (value a).toNat)
  else .error .assertion

/-- `Grid3D.__init__` (lut.py:87-100), corners already in grid coordinates.
The spacing is set before the count. -/
def mkGrid (ll ur : V3 ℚ) (nodeSpacing : List ℚ) : Except Err Grid :=
  match setSpacing nodeSpacing with
  | .error e => .error e
  | .ok sp =>
    match setCount (fun a => ⌈(ur a - ll a) / sp a⌉ + 1) with
    | .error e => .error e
    | .ok n => .ok ⟨ll, sp, n⟩

/-- `np.unravel_index(f, shape)`, C order.  Stands for `np.unravel_index`, lut/lut.py:166. -/
def unravel (n : V3 ℕ) (f : ℕ) : Except Err (V3 ℕ) :=
  if f < n 0 * n 1 * n 2 then .ok ![f / n 2 / n 1, f / n 2 % n 1, f % n 2]
  else .error .valueError

/-- Row number of `(i, j, k)` in a C-order flattening.  Stands for C order of core/lib.py:101 and
lut/lut.py:332-336. -/
def ravel (n : V3 ℕ) (ijk : V3 ℕ) : ℕ := (ijk 0 * n 1 + ijk 1) * n 2 + ijk 2

/-- `a.reshape(nx, ny, nz)` of a flat array, C order: the shape given to the
coalescence map of `migrate` (core/lib.py) and to `grid_xyz`.  Models lut/lut.py:336;
core/lib.py:101. -/
def reshape {α : Type} (n : V3 ℕ) (l : List α) : List (List (List (Option α))) :=
  (List.range (n 0)).map fun i => (List.range (n 1)).map fun j => (List.range (n 2)).map fun k =>
    l[(i * n 1 + j) * n 2 + k]?

/-- `index2grid(value)` (lut.py:173-174). -/
def index2grid (g : Grid) (ijk : V3 ℤ) : V3 ℚ := fun a => g.ll a + ijk a * g.spacing a

/-- `index2grid(value, inverse=True)` (lut.py:170-172). -/
def grid2index (g : Grid) (xyz : V3 ℚ) : V3 ℤ :=
  fun a => pyRound ((xyz a - g.ll a) / g.spacing a)

/-- `index2grid(value, unravel=True)` (lut.py:165-166, 174). -/
def flat2grid (g : Grid) (f : ℕ) : Except Err (V3 ℚ) :=
  match unravel g.count f with
  | .error e => .error e
  | .ok ijk => .ok (index2grid g (fun a => (ijk a : ℤ)))

/-- The meshgrid of all node indices, flattened: `np.meshgrid(..., indexing="ij")`
then `flatten` (lut.py:332-334). -/
def allNodes (n : V3 ℕ) : List (V3 ℕ) :=
  (List.range (n 0)).flatMap fun i => (List.range (n 1)).flatMap fun j =>
    (List.range (n 2)).map fun k => ![i, j, k]

/-- `grid_xyz` (lut.py:328-336), before the final reshape: the coordinates of all
nodes. -/
def gridXyz (g : Grid) : List (V3 ℚ) :=
  (allNodes g.count).map fun ijk => index2grid g (fun a => (ijk a : ℤ))

/-- `grid_corners` (lut.py:289-296): the eight corner nodes. -/
def gridCorners (g : Grid) : List (V3 ℚ) :=
  let c : V3 ℤ := fun a => (g.count a : ℤ) - 1
  [0, c 0].flatMap fun i => [0, c 1].flatMap fun j => [0, c 2].map fun k =>
    index2grid g ![i, j, k]

/-! ## The lookup table -/

/-- A traveltime table: a 3-D array as nested lists.  Stands for traveltime array, lut/lut.py:135-137. -/
abbrev Table := List (List (List ℚ))

/-- `a[i, j, k]` (array access, lut/lut.py:135-137) -/
def Table.at (t : Table) (i j k : ℕ) : Option ℚ := do (← (← t[i]?)[j]?)[k]?

/-- An array of shape `n`.  Stands for array shape, lut/lut.py:135-137. -/
def Table.HasShape (t : Table) (n : V3 ℕ) : Prop :=
  t.length = n 0 ∧ ∀ p ∈ t, p.length = n 1 ∧ ∀ r ∈ p, r.length = n 2

/-- The projections compared by `__eq__`; opaque tags.  Models lut/lut.py:453-468. -/
structure Lut where
  grid : Grid
  gridProj : ℕ
  coordProj : ℕ
  /-- `traveltimes`: station name → phase → table, insertion ordered. -/
  traveltimes : List (Str × List (Str × Table))
  phases : List Str
  /-- `station_data["Name"]` -/
  stationData : List Str

/-- `l[c::d]` for `0 ≤ c`, `0 < d`: the entries at `c, c + d, … < len(l)`.  Models
lut/lut.py:135-137. -/
def slice {α : Type} (c d : ℕ) (l : List α) : List α :=
  (List.range ((l.length - c + d - 1) / d)).filterMap fun i => l[c + i * d]?

/-- New node count on one axis (lut.py:122). -/
def decCount (n df : ℕ) : ℕ := 1 + (n - 1) / df

/-- First retained node on one axis (lut.py:123). -/
def decStart (n df : ℕ) : ℕ := (n - df * (decCount n df - 1) - 1) / 2

/-- `decimate(df)` (lut.py:102-140), the returned (or modified) table.  Needs
`df ≥ 1` on each axis (0 divides by zero in numpy; a negative factor is not
modelled).  `ll_corner` is left as it is. -/
def decimate (L : Lut) (df : V3 ℕ) : Lut :=
  let n := L.grid.count
  let c1 : V3 ℕ := fun a => decStart (n a) (df a)
  { L with
    grid := { L.grid with
      count := fun a => decCount (n a) (df a)
      spacing := fun a => L.grid.spacing a * df a }
    traveltimes := L.traveltimes.map fun s => (s.1, s.2.map fun p => (p.1,
      (slice (c1 0) (df 0) p.2).map fun pl =>
        (slice (c1 1) (df 1) pl).map fun r => slice (c1 2) (df 2) r)) }

/-- `d.get(k)`.  Stands for dictionary lookup, lut/lut.py:453-468. -/
def dictGet {α : Type} (d : List (Str × α)) (k : Str) : Option α :=
  (d.find? (fun e => e.1 = k)).map Prod.snd

/-- `d.update(e)`.  Models `__dict__.update`, lut/lut.py:640. -/
def dictUpdate {α : Type} (d e : List (Str × α)) : List (Str × α) :=
  e.foldl (fun d kv => Compute.dictSet d kv.1 kv.2) d

/-- `LUT.__eq__` on two lookup tables (lut.py:888-919). -/
def lutEq (a b : Lut) : Bool :=
  decide (gridCorners a.grid = gridCorners b.grid) && decide (a.grid.spacing = b.grid.spacing) &&
    (decide (a.gridProj = b.gridProj) && decide (a.coordProj = b.coordProj))

/-- `a + b` (lut.py:863-886): the state of `a` afterwards and what is returned (`none`
for Python `None`).  `b = none` stands for an object that is not a LUT. -/
def lutAdd (a : Lut) (b : Option Lut) : Lut × Option Lut :=
  match b with
  | none => (a, some a)
  | some b =>
    if lutEq a b then
      let a' := { a with traveltimes := dictUpdate a.traveltimes b.traveltimes }
      (a', some a')
    else (a, none)

/-! ## Saving and loading -/

/-- An object's `__dict__`: attribute name → value.  Models `__dict__`, lut/lut.py:620, 640. -/
abbrev Obj (V : Type) := List (Str × V)

/-- `save` (lut.py:605-620): the pickle holds the `__dict__`.  Pickling is taken to
be exact. -/
def save {V : Type} (o : Obj V) : Obj V := o

/-- The values `__init__` puts in an object made without a grid specification
(lut.py:456-464): `fraction_tt` default, `["P", "S"]`, and the empty
`DataFrame` for `station_data`. -/
structure Defaults (V : Type) where
  fractionTT : V
  phasesPS : V
  emptyFrame : V

/-- `LUT(lut_file=file)` (lut.py:453-468). `station_data` is assigned last. -/
def initFromFile {V : Type} (d : Defaults V) (file : Option (Obj V)) : Obj V :=
  let o : Obj V := [("fraction_tt".toList, d.fractionTT), ("phases".toList, d.phasesPS)]
  let o := match file with
    | none => o
    | some f => dictUpdate o f
  Compute.dictSet o "station_data".toList d.emptyFrame

/-- `read_lut(lut_file)` (io/core.py:24-51). -/
def readLut {V : Type} (d : Defaults V) (file : Obj V) : Obj V :=
  dictUpdate (initFromFile d none) file

/-- `lut.load(filename)` on an existing object (lut.py:622-640). -/
def load {V : Type} (o : Obj V) (file : Obj V) : Obj V := dictUpdate o file

/-! ## Interpolation of a 2-D traveltime table -/

/-- numpy integer indexing on an axis of length `n`: negative indices wrap once.  Stands for numpy
indexing, lut/create_lut.py:752-755. -/
def npIndex (n : ℕ) (i : ℤ) : Except Err ℕ :=
  if 0 ≤ i then (if i < n then .ok i.toNat else .error .indexError)
  else if 0 ≤ i + n then .ok (i + n).toNat else .error .indexError

/-- A 2-D table: its shape and its entries.  Models lut/create_lut.py:752-755. -/
structure Table2 where
  nx : ℕ
  nz : ℕ
  val : ℕ → ℕ → ℚ

/-- `traveltimes[i, k]`.  Models lut/create_lut.py:752-755. -/
def Table2.get (t : Table2) (i k : ℤ) : Except Err ℚ :=
  match npIndex t.nx i, npIndex t.nz k with
  | .ok a, .ok b => .ok (t.val a b)
  | _, _ => .error .indexError

/-- `np.remainder(x, d)` for floats, `d > 0`.  Stands for `np.remainder`, lut/create_lut.py:749. -/
def remainder (x d : ℚ) : ℚ := x - d * ⌊x / d⌋

/-- `_bilinear_interpolate` for one point (create_lut.py:744-762): `x`, `z` the point,
`x0`, `z0` the origin, `dx`, `dz` the spacing. -/
def bilinear (t : Table2) (x0 z0 dx dz x z : ℚ) : Except Err ℚ :=
  let i := ⌊(x - x0) / dx⌋
  let k := ⌊(z - z0) / dz⌋
  let xd := remainder x dx / dx
  let zd := remainder z dz / dz
  match t.get i k with
  | .error e => .error e
  | .ok c00 =>
    match t.get (i + 1) k with
    | .error e => .error e
    | .ok c10 =>
      match t.get (i + 1) (k + 1) with
      | .error e => .error e
      | .ok c11 =>
        match t.get i (k + 1) with
        | .error e => .error e
        | .ok c01 =>
          let c0 := c00 * (1 - xd) + c10 * xd
          let c1 := c01 * (1 - xd) + c11 * xd
          .ok (c0 * (1 - zd) + c1 * zd)

/-- `_grid_string` (create_lut.py:858-867): the size of the 2-D NonLinLoc table for a
maximum distance and a depth range; its origin is `(0, depth[0])`.  The
six-decimal formatting of the origin and the spacing is not modelled. -/
def nllocShape (maxDist z1 z2 dx : ℚ) : ℤ × ℤ :=
  (⌈maxDist / dx⌉ + 5, ⌈(z2 - z1) / dx⌉ + 5)

end QM.Grid

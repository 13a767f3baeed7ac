import Verif.Model.Grid

/-!
# Model of the reading of NonLinLoc lookup tables

`read_nlloc` and `_read_nlloc` (lut/create_lut.py:28-112, 597-713).  The header is given as lines of
tokens, words or numbers; the buffer as bytes, with the decoding of four bytes to a number as a
parameter.  The keyword arguments of `pyproj.Proj` are kept as they are written; the transformation
itself is a parameter.
-/

namespace QM.NllocRead

open QM.Grid
open QM.Compute (Str dictSet)

/-- A token of a header line: `line.split()` (create_lut.py:624, 630, 633). -/
inductive Tok where
  | word (s : Str)
  | num (q : ℚ)
deriving DecidableEq, Repr

/-- Exceptions of create_lut.py:28-112, 597-713. -/
inductive Err where
  | fileNotFound
  | index              -- IndexError: the line has too few tokens
  | value              -- ValueError of `int`, `float`
  | struct             -- struct.error: the buffer is too short
  | notImplemented     -- NotImplementedError of `read_nlloc`
  | assertion          -- AssertionError of the grid's setters
  | unbound            -- UnboundLocalError: nothing was read
deriving DecidableEq, Repr

/-- `float(line[i])` (create_lut.py:626-627, 639-650). -/
def floatAt (line : List Tok) (i : ℕ) : Except Err ℚ :=
  match line[i]? with
  | none => .error .index
  | some (.num q) => .ok q
  | some (.word _) => .error .value

/-- `int(line[i])` (create_lut.py:625); negative counts are taken for errors. -/
def natAt (line : List Tok) (i : ℕ) : Except Err ℕ :=
  match line[i]? with
  | none => .error .index
  | some (.num q) => if q.den = 1 ∧ 0 ≤ q then .ok q.num.toNat else .error .value
  | some (.word _) => .error .value

/-- Three consecutive values of a line (create_lut.py:625-627). -/
def threeAt {α : Type} (get : ℕ → Except Err α) (i : ℕ) : Except Err (V3 α) :=
  match get i with
  | .error e => .error e
  | .ok a =>
    match get (i + 1) with
    | .error e => .error e
    | .ok b =>
      match get (i + 2) with
      | .error e => .error e
      | .ok c => .ok ![a, b, c]

/-- Keyword arguments of `pyproj.Proj` (create_lut.py:643, 686-695, 700). -/
abbrev Proj := List (Str × Tok)

/-- The names of ellipsoids (create_lut.py:652-684): NonLinLoc's to PROJ's; unknown names become
WGS84. -/
def ellipsoid (s : Str) : Str :=
  if s = "WGS-84".toList then "WGS84".toList
  else if s = "GRS-80".toList then "GRS80".toList
  else if s = "WGS-72".toList then "WGS72".toList
  else if s = "Australian".toList then "aust_SA".toList
  else if s = "Krasovsky".toList then "krass".toList
  else if s = "International".toList then "intl".toList
  else if s = "Hayford-1909".toList then "intl".toList
  else if s = "Clarke-1880".toList then "clrk80".toList
  else if s = "Clarke-1866".toList then "clrk66".toList
  else if s = "Airy".toList then "airy".toList
  else if s = "Bessel".toList then "bessel".toList
  else if s = "Hayford-1830".toList then "evrst30".toList
  else if s = "Sphere".toList then "sphere".toList
  else "WGS84".toList

/-- The ellipsoid of a token; a token that looks like a number is an unknown name
(create_lut.py:646, 678-684). -/
def ellipsoidTok : Tok → Str
  | .word s => ellipsoid s
  | .num _ => "WGS84".toList

/-- `Proj(proj="eqc", ...)` (create_lut.py:638-643). -/
def simpleProj (line : List Tok) : Except Err Proj :=
  match floatAt line 3 with
  | .error e => .error e
  | .ok lat =>
    match floatAt line 5 with
    | .error e => .error e
    | .ok lon => .ok [("proj".toList, .word "eqc".toList), ("lat_0".toList, .num lat),
        ("lon_0".toList, .num lon), ("units".toList, .word "km".toList)]

/-- `Proj(proj="lcc", ...)` (create_lut.py:645-695). -/
def lambertProj (line : List Tok) : Except Err Proj :=
  match line[3]? with
  | none => .error .index
  | some ell =>
    match floatAt line 5 with
    | .error e => .error e
    | .ok lat =>
      match floatAt line 7 with
      | .error e => .error e
      | .ok lon =>
        match floatAt line 9 with
        | .error e => .error e
        | .ok p1 =>
          match floatAt line 11 with
          | .error e => .error e
          | .ok p2 => .ok [("proj".toList, .word "lcc".toList), ("lon_0".toList, .num lon),
              ("lat_0".toList, .num lat), ("lat_1".toList, .num p1), ("lat_2".toList, .num p2),
              ("units".toList, .word "km".toList), ("ellps".toList, .word (ellipsoidTok ell)),
              ("datum".toList, .word "WGS84".toList)]

/-- `Proj(proj="tmerc", ...)` (create_lut.py:696-700). -/
def mercatorProj (line : List Tok) : Except Err Proj :=
  match floatAt line 5 with
  | .error e => .error e
  | .ok lat =>
    match floatAt line 7 with
    | .error e => .error e
    | .ok lon => .ok [("proj".toList, .word "tmerc".toList), ("lon".toList, .num lon),
        ("lat".toList, .num lat), ("units".toList, .word "km".toList)]

/-- The transform line (create_lut.py:632-702): `none` for a projection not known. -/
def readTransform (line : List Tok) : Except Err (Option Proj) :=
  match line[1]? with
  | none => .error .index
  | some t =>
    if t = .word "SIMPLE".toList then (simpleProj line).map some
    else if t = .word "LAMBERT".toList then (lambertProj line).map some
    else if t = .word "TRANS_MERC".toList then (mercatorProj line).map some
    else .ok none

/-- The grid definition line (create_lut.py:624-627): node counts, origin, spacing. -/
structure GridSpec where
  count : V3 ℕ
  origin : V3 ℚ
  spacing : V3 ℚ

/-- Models create_lut.py:624-627. -/
def readGridSpec (line : List Tok) : Except Err GridSpec :=
  match threeAt (natAt line) 0 with
  | .error e => .error e
  | .ok n =>
    match threeAt (floatAt line) 3 with
    | .error e => .error e
    | .ok o =>
      match threeAt (floatAt line) 6 with
      | .error e => .error e
      | .ok d => .ok ⟨n, o, d⟩

/-- `struct.unpack("f" * npts, buf)`: consecutive groups of four bytes (create_lut.py:704-707). -/
def unpack {β : Type} (f32 : List β → ℚ) : ℕ → List β → List ℚ
  | 0, _ => []
  | n + 1, b => f32 (b.take 4) :: unpack f32 n (b.drop 4)

/-- `np.array(traveltimes).reshape((nx, ny, nz))` (create_lut.py:709): C order. -/
def reshapeTable (n : V3 ℕ) (l : List ℚ) : Table :=
  (List.range (n 0)).map fun i => (List.range (n 1)).map fun j => (List.range (n 2)).map fun k =>
    l.getD ((i * n 1 + j) * n 2 + k) 0

/-- One pair of files: the lines of the header and the bytes of the buffer (create_lut.py:622, 704). -/
structure Files (β : Type) where
  header : List (List Tok)
  buf : List β

/-- `_read_nlloc` (create_lut.py:622-713).  Missing lines read as empty. -/
def readFile {β : Type} (f32 : List β → ℚ) (f : Files β) :
    Except Err (GridSpec × Option Proj × Table) :=
  match readGridSpec (f.header.getD 0 []) with
  | .error e => .error e
  | .ok g =>
    match readTransform (f.header.getD 2 []) with
    | .error e => .error e
    | .ok p =>
      let npts := g.count 0 * g.count 1 * g.count 2
      let buf := f.buf.take (npts * 4)
      if buf.length ≠ npts * 4 then .error .struct
      else .ok (g, p, reshapeTable g.count (unpack f32 npts buf))

/-- The lookup table: grid, projection, tables by station and phase, phases, names of stations
(create_lut.py:91-106). -/
structure Lut where
  grid : Grid
  proj : Proj
  traveltimes : List (Str × List (Str × Table))
  phases : List Str
  stations : List Str

/-- `lut.traveltimes.setdefault(station, {}).update({phase: traveltimes})` (create_lut.py:103). -/
def addTable (tts : List (Str × List (Str × Table))) (station phase : Str) (t : Table) :
    List (Str × List (Str × Table)) :=
  dictSet tts station (dictSet ((dictGet tts station).getD []) phase t)

/-- The grid from the first file read (create_lut.py:72-99): the corners go from grid to geographic
coordinates (`inv`) and, in the constructor of the grid, back (`fwd`). -/
def firstGrid (fwd inv : Proj → V3 ℚ → V3 ℚ) (g : GridSpec) (p : Option Proj) :
    Except Err (Grid × Proj) :=
  match p with
  | none => .error .notImplemented
  | some p =>
    let ur : V3 ℚ := fun a => g.origin a + ((g.count a : ℚ) - 1) * g.spacing a
    match mkGrid (fwd p (inv p g.origin)) (fwd p (inv p ur)) [g.spacing 0, g.spacing 1, g.spacing 2] with
    | .error _ => .error .assertion
    | .ok grid => .ok (grid, p)

/-- The loop over files (create_lut.py:66-103): the state is the grid, once known, and the tables. -/
def readLoop {β : Type} (f32 : List β → ℚ) (fwd inv : Proj → V3 ℚ → V3 ℚ)
    (files : Str → Str → Option (Files β)) :
    Option (Grid × Proj) → List (Str × List (Str × Table)) → List (Str × Str) →
    Except Err (Option (Grid × Proj) × List (Str × List (Str × Table)))
  | g, tts, [] => .ok (g, tts)
  | g, tts, (phase, station) :: rest =>
    match files phase station with
    | none => .error .fileNotFound
    | some f =>
      match readFile f32 f with
      | .error e => .error e
      | .ok (spec, proj, t) =>
        match g with
        | some g => readLoop f32 fwd inv files (some g) (addTable tts station phase t) rest
        | none =>
          match firstGrid fwd inv spec proj with
          | .error e => .error e
          | .ok g => readLoop f32 fwd inv files (some g) (addTable tts station phase t) rest

/-- `read_nlloc` (create_lut.py:62-112).  `files phase station` is the pair of files
`layer.{phase}.{station}.time.hdr/.buf`. -/
def readNlloc {β : Type} (f32 : List β → ℚ) (fwd inv : Proj → V3 ℚ → V3 ℚ)
    (files : Str → Str → Option (Files β)) (stations phases : List Str) : Except Err Lut :=
  match readLoop f32 fwd inv files none []
      (phases.flatMap fun p => stations.map fun s => (p, s)) with
  | .error e => .error e
  | .ok (none, _) => .error .unbound
  | .ok (some (grid, proj), tts) => .ok ⟨grid, proj, tts, phases, stations⟩

end QM.NllocRead

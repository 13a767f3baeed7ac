import Verif.Model.NllocRead
import Verif.Lemmas.Grid
import Verif.Props.VModel

/-!
# C103, C104: lookup tables read from NonLinLoc files
-/

namespace QM

open QM.Grid QM.NllocRead
open QM.Compute (Str dictSet)

/-! ## What NonLinLoc writes -/

/-- The transformation of a NonLinLoc grid: origin (latitude, longitude) and clockwise rotation of the
y axis; for some an ellipsoid, for one two standard parallels. -/
inductive Transform where
  | none
  | simple (lat lon rot : ℚ)
  | lambert (ell : Str) (lat lon par1 par2 rot : ℚ)
  | transMerc (ell : Str) (lat lon rot : ℚ)

/-- The third line of a header. -/
def Transform.line : Transform → List Tok
  | .none => [.word "TRANSFORM".toList, .word "NONE".toList]
  | .simple lat lon rot => [.word "TRANSFORM".toList, .word "SIMPLE".toList, .word "LatOrig".toList,
      .num lat, .word "LongOrig".toList, .num lon, .word "RotCW".toList, .num rot]
  | .lambert ell lat lon p1 p2 rot => [.word "TRANSFORM".toList, .word "LAMBERT".toList,
      .word "RefEllipsoid".toList, .word ell, .word "LatOrig".toList, .num lat, .word "LongOrig".toList,
      .num lon, .word "FirstStdParal".toList, .num p1, .word "SecondStdParal".toList, .num p2,
      .word "RotCW".toList, .num rot]
  | .transMerc ell lat lon rot => [.word "TRANSFORM".toList, .word "TRANS_MERC".toList,
      .word "RefEllipsoid".toList, .word ell, .word "LatOrig".toList, .num lat, .word "LongOrig".toList,
      .num lon, .word "RotCW".toList, .num rot]

/-- A grid of traveltimes as NonLinLoc defines it. -/
structure NllGrid where
  nx : ℕ
  ny : ℕ
  nz : ℕ
  x0 : ℚ
  y0 : ℚ
  z0 : ℚ
  dx : ℚ
  dy : ℚ
  dz : ℚ
  tr : Transform

/-- Its header: grid, station (not used), transformation. -/
def NllGrid.header (g : NllGrid) (stationLine : List Tok) : List (List Tok) :=
  [[.num g.nx, .num g.ny, .num g.nz, .num g.x0, .num g.y0, .num g.z0, .num g.dx, .num g.dy, .num g.dz,
    .word "TIME".toList, .word "FLOAT".toList], stationLine, g.tr.line]

/-- The value stored for node `(i, j, k)`: four bytes, with z varying fastest and x slowest. -/
def NllGrid.stored {β : Type} (g : NllGrid) (f32 : List β → ℚ) (buf : List β) (i j k : ℕ) : ℚ :=
  f32 ((buf.drop (4 * ((i * g.ny + j) * g.nz + k))).take 4)

/-- The table of a lookup table for a station and a phase. -/
def tableOf (L : NllocRead.Lut) (station phase : Str) : Option Table :=
  (dictGet L.traveltimes station).bind fun d => dictGet d phase

/-! ## Reading one file -/

theorem unpack_get {β : Type} (f32 : List β → ℚ) (n : ℕ) (b : List β) (i : ℕ) (hi : i < n) :
    (unpack f32 n b)[i]? = some (f32 ((b.drop (4 * i)).take 4)) := by
  induction n generalizing b i with
  | zero => omega
  | succ n ih =>
    cases i with
    | zero => simp [unpack]
    | succ i =>
      rw [unpack, List.getElem?_cons_succ, ih (b.drop 4) i (by omega), List.drop_drop,
        show 4 + 4 * i = 4 * (i + 1) by ring]

theorem reshapeTable_at (n : V3 ℕ) (l : List ℚ) {i j k : ℕ} (hi : i < n 0) (hj : j < n 1)
    (hk : k < n 2) : (reshapeTable n l).at i j k = some (l.getD ((i * n 1 + j) * n 2 + k) 0) := by
  simp [reshapeTable, Table.at, hi, hj, hk]

theorem reshapeTable_shape (n : V3 ℕ) (l : List ℚ) : (reshapeTable n l).HasShape n := by
  refine ⟨by simp [reshapeTable], ?_⟩
  intro p hp
  simp only [reshapeTable, List.mem_map, List.mem_range] at hp
  obtain ⟨i, -, rfl⟩ := hp
  refine ⟨by simp, ?_⟩
  intro r hr
  simp only [List.mem_map, List.mem_range] at hr
  obtain ⟨j, -, rfl⟩ := hr
  simp

/-- The projection made from a transformation. -/
theorem readTransform_line (t : Transform) : ∃ p, readTransform t.line = .ok p ∧
    (p = none ↔ t = Transform.none) := by
  cases t with
  | none => exact ⟨_, rfl, by simp⟩
  | simple lat lon rot => exact ⟨_, rfl, by simp⟩
  | lambert ell lat lon p1 p2 rot => exact ⟨_, rfl, by simp⟩
  | transMerc ell lat lon rot => exact ⟨_, rfl, by simp⟩

theorem natAt_num (line : List Tok) (i n : ℕ) (h : line[i]? = some (.num n)) : natAt line i = .ok n := by
  unfold natAt
  rw [h]
  simp

theorem readGridSpec_header (g : NllGrid) (sl : List Tok) :
    readGridSpec ((g.header sl).getD 0 []) =
      .ok ⟨![g.nx, g.ny, g.nz], ![g.x0, g.y0, g.z0], ![g.dx, g.dy, g.dz]⟩ := by
  unfold readGridSpec threeAt
  rw [natAt_num _ 0 g.nx rfl, natAt_num _ (0 + 1) g.ny rfl, natAt_num _ (0 + 2) g.nz rfl]
  rfl

theorem readFile_header {β : Type} (f32 : List β → ℚ) (g : NllGrid) (sl : List Tok) (buf : List β)
    (hb : 4 * (g.nx * g.ny * g.nz) ≤ buf.length) :
    ∃ p t, readFile f32 ⟨g.header sl, buf⟩ =
        .ok (⟨![g.nx, g.ny, g.nz], ![g.x0, g.y0, g.z0], ![g.dx, g.dy, g.dz]⟩, p, t) ∧
      readTransform g.tr.line = .ok p ∧ t.HasShape ![g.nx, g.ny, g.nz] ∧
      ∀ i < g.nx, ∀ j < g.ny, ∀ k < g.nz, t.at i j k = some (g.stored f32 buf i j k) := by
  obtain ⟨p, hp, -⟩ := readTransform_line g.tr
  refine ⟨p, reshapeTable ![g.nx, g.ny, g.nz]
    (unpack f32 (g.nx * g.ny * g.nz) (buf.take (g.nx * g.ny * g.nz * 4))), ?_, hp,
    reshapeTable_shape _ _, ?_⟩
  · unfold readFile
    rw [readGridSpec_header]
    change (match readTransform g.tr.line with
      | .error e => _
      | .ok p => _) = _
    rw [hp]
    dsimp only
    rw [if_neg]
    · rfl
    · change ¬ (buf.take (g.nx * g.ny * g.nz * 4)).length ≠ g.nx * g.ny * g.nz * 4
      rw [List.length_take]
      omega
  · intro i hi j hj k hk
    have hlt : (i * g.ny + j) * g.nz + k < g.nx * g.ny * g.nz := by
      have h1 : i * g.ny + j + 1 ≤ g.nx * g.ny := by
        calc i * g.ny + j + 1 ≤ i * g.ny + g.ny := by omega
          _ = (i + 1) * g.ny := by ring
          _ ≤ g.nx * g.ny := Nat.mul_le_mul_right _ hi
      calc (i * g.ny + j) * g.nz + k < (i * g.ny + j) * g.nz + g.nz := by omega
        _ = (i * g.ny + j + 1) * g.nz := by ring
        _ ≤ _ := Nat.mul_le_mul_right _ h1
    rw [reshapeTable_at _ _ (by simpa using hi) (by simpa using hj) (by simpa using hk)]
    rw [List.getD_eq_getElem?_getD]
    change some ((unpack f32 (g.nx * g.ny * g.nz) (buf.take (g.nx * g.ny * g.nz * 4)))[
      (i * g.ny + j) * g.nz + k]?.getD 0) = _
    rw [unpack_get _ _ _ _ hlt]
    simp only [Option.getD_some, NllGrid.stored]
    congr 2
    rw [List.drop_take, List.take_take]
    congr 1
    omega

/-! ## Reading all files -/

theorem addTable_get (tts : List (Str × List (Str × Table))) (s p s' p' : Str) (t : Table) :
    ((dictGet (addTable tts s p t) s').bind fun d => dictGet d p') =
      if s' = s ∧ p' = p then some t else (dictGet tts s').bind fun d => dictGet d p' := by
  unfold addTable
  rw [dictGet_dictSet]
  by_cases hs : s' = s
  · subst hs
    simp only [if_true, true_and, Option.bind_some]
    rw [dictGet_dictSet]
    by_cases hp : p' = p
    · simp [hp]
    · rw [if_neg hp, if_neg hp]
      cases dictGet tts s' <;> simp [dictGet]
  · rw [if_neg hs, if_neg (by tauto)]

theorem nllLoop_ok {β : Type} (f32 : List β → ℚ) (fwd inv : Proj → V3 ℚ → V3 ℚ)
    (files : Str → Str → Option (NllocRead.Files β)) (l : List (Str × Str)) (g : Option (Grid × Proj))
    (tts : List (Str × List (Str × Table))) (r : Option (Grid × Proj) × List (Str × List (Str × Table)))
    (h : readLoop f32 fwd inv files g tts l = .ok r) :
    (∀ p s, (p, s) ∈ l → ∃ f spec proj t, files p s = some f ∧ readFile f32 f = .ok (spec, proj, t) ∧
      ((dictGet r.2 s).bind fun d => dictGet d p) = some t) ∧
    (∀ p s, (p, s) ∉ l → ((dictGet r.2 s).bind fun d => dictGet d p) =
      (dictGet tts s).bind fun d => dictGet d p) ∧
    (∀ g0, g = some g0 → r.1 = some g0) ∧
    (∀ p s l', g = none → l = (p, s) :: l' → ∃ f spec proj t g0, files p s = some f ∧
      readFile f32 f = .ok (spec, proj, t) ∧ firstGrid fwd inv spec proj = .ok g0 ∧ r.1 = some g0) := by
  induction l generalizing g tts with
  | nil =>
    simp only [readLoop] at h
    obtain rfl := Except.ok.inj h
    exact ⟨by simp, by simp, fun g0 hg => hg, by simp⟩
  | cons ps l ih =>
    obtain ⟨p, s⟩ := ps
    simp only [readLoop] at h
    cases hf : files p s with
    | none => rw [hf] at h; simp at h
    | some f =>
      rw [hf] at h
      dsimp only at h
      cases hr : readFile f32 f with
      | error e => rw [hr] at h; simp at h
      | ok x =>
        obtain ⟨spec, proj, t⟩ := x
        rw [hr] at h
        dsimp only at h
        have main : ∀ g1, readLoop f32 fwd inv files (some g1) (addTable tts s p t) l = .ok r →
            (∀ p' s', (p', s') ∈ (p, s) :: l → ∃ f spec proj t, files p' s' = some f ∧
              readFile f32 f = .ok (spec, proj, t) ∧
              ((dictGet r.2 s').bind fun d => dictGet d p') = some t) ∧
            (∀ p' s', (p', s') ∉ (p, s) :: l → ((dictGet r.2 s').bind fun d => dictGet d p') =
              (dictGet tts s').bind fun d => dictGet d p') ∧ r.1 = some g1 := by
          intro g1 h1
          obtain ⟨i1, i2, i3, -⟩ := ih _ _ h1
          refine ⟨?_, ?_, i3 g1 rfl⟩
          · intro p' s' hmem
            by_cases hl : (p', s') ∈ l
            · exact i1 p' s' hl
            · have : (p', s') = (p, s) := by
                rcases List.mem_cons.mp hmem with h | h
                · exact h
                · exact absurd h hl
              obtain ⟨rfl, rfl⟩ := Prod.mk.inj this
              refine ⟨f, spec, proj, t, hf, hr, ?_⟩
              rw [i2 _ _ hl, addTable_get]
              simp
          · intro p' s' hmem
            rw [i2 p' s' fun hm => hmem (List.mem_cons_of_mem _ hm), addTable_get, if_neg]
            rintro ⟨rfl, rfl⟩
            exact hmem List.mem_cons_self
        cases g with
        | some g0 =>
          obtain ⟨m1, m2, m3⟩ := main g0 h
          exact ⟨m1, m2, fun g1 hg => by rw [m3, hg], by simp⟩
        | none =>
          cases hg : firstGrid fwd inv spec proj with
          | error e => rw [hg] at h; simp at h
          | ok g0 =>
            rw [hg] at h
            obtain ⟨m1, m2, m3⟩ := main g0 h
            refine ⟨m1, m2, by simp, ?_⟩
            rintro p' s' l' - heq
            obtain ⟨h1, -⟩ := List.cons.inj heq
            obtain ⟨rfl, rfl⟩ := Prod.mk.inj h1
            exact ⟨f, spec, proj, t, g0, hf, hr, hg, m3⟩

theorem nllLoop_some {β : Type} (f32 : List β → ℚ) (fwd inv : Proj → V3 ℚ → V3 ℚ)
    (files : Str → Str → Option (NllocRead.Files β)) (l : List (Str × Str)) (g0 : Grid × Proj)
    (tts : List (Str × List (Str × Table)))
    (h : ∀ p s, (p, s) ∈ l → ∃ f x, files p s = some f ∧ readFile f32 f = .ok x) :
    ∃ r, readLoop f32 fwd inv files (some g0) tts l = .ok r := by
  induction l generalizing tts with
  | nil => exact ⟨_, rfl⟩
  | cons ps l ih =>
    obtain ⟨p, s⟩ := ps
    obtain ⟨f, ⟨spec, proj, t⟩, hf, hr⟩ := h p s List.mem_cons_self
    obtain ⟨r, hr'⟩ := ih (addTable tts s p t) fun p s hm => h p s (List.mem_cons_of_mem _ hm)
    refine ⟨r, ?_⟩
    simp only [readLoop, hf, hr]
    exact hr'

theorem firstGrid_ok (fwd inv : Proj → V3 ℚ → V3 ℚ) (hinv : ∀ p x, fwd p (inv p x) = x)
    (g : NllGrid) (p : Proj) (hn : 0 < g.nx ∧ 0 < g.ny ∧ 0 < g.nz) (hd : 0 < g.dx ∧ 0 < g.dy ∧ 0 < g.dz) :
    firstGrid fwd inv ⟨![g.nx, g.ny, g.nz], ![g.x0, g.y0, g.z0], ![g.dx, g.dy, g.dz]⟩ (some p) =
      .ok (⟨![g.x0, g.y0, g.z0], ![g.dx, g.dy, g.dz], ![g.nx, g.ny, g.nz]⟩, p) := by
  have hs : setSpacing [g.dx, g.dy, g.dz] = .ok ![g.dx, g.dy, g.dz] := by
    unfold setSpacing
    dsimp only
    rw [if_pos hd]
  have hc : ∀ a : Fin 3, ⌈(((![g.x0, g.y0, g.z0] : V3 ℚ) a + (((![g.nx, g.ny, g.nz] : V3 ℕ) a : ℚ) - 1) *
      (![g.dx, g.dy, g.dz] : V3 ℚ) a) - (![g.x0, g.y0, g.z0] : V3 ℚ) a) /
        (![g.dx, g.dy, g.dz] : V3 ℚ) a⌉ + 1 = ((![g.nx, g.ny, g.nz] : V3 ℕ) a : ℤ) := by
    intro a
    have hda : (![g.dx, g.dy, g.dz] : V3 ℚ) a ≠ 0 := by
      fin_cases a
      · exact hd.1.ne'
      · exact hd.2.1.ne'
      · exact hd.2.2.ne'
    rw [add_sub_cancel_left, mul_div_assoc, div_self hda, mul_one]
    rw [show (((![g.nx, g.ny, g.nz] : V3 ℕ) a : ℚ) - 1) =
      ((((![g.nx, g.ny, g.nz] : V3 ℕ) a : ℤ) - 1 : ℤ) : ℚ) by push_cast; rfl, Int.ceil_intCast]
    ring
  unfold firstGrid
  simp only [hinv]
  have hm : mkGrid ![g.x0, g.y0, g.z0] (fun a => (![g.x0, g.y0, g.z0] : V3 ℚ) a +
      (((![g.nx, g.ny, g.nz] : V3 ℕ) a : ℚ) - 1) * (![g.dx, g.dy, g.dz] : V3 ℚ) a) [g.dx, g.dy, g.dz] =
      .ok ⟨![g.x0, g.y0, g.z0], ![g.dx, g.dy, g.dz], ![g.nx, g.ny, g.nz]⟩ := by
    unfold mkGrid
    rw [hs]
    dsimp only
    simp only [hc]
    have hsc : setCount (fun a => ((![g.nx, g.ny, g.nz] : V3 ℕ) a : ℤ)) = .ok ![g.nx, g.ny, g.nz] := by
      unfold setCount
      rw [if_pos ⟨by simpa using hn.1, by simpa using hn.2.1, by simpa using hn.2.2⟩]
      congr 1
    rw [hsc]
  exact (by
    change (match mkGrid ![g.x0, g.y0, g.z0] (fun a => (![g.x0, g.y0, g.z0] : V3 ℚ) a +
      (((![g.nx, g.ny, g.nz] : V3 ℕ) a : ℚ) - 1) * (![g.dx, g.dy, g.dz] : V3 ℚ) a) [g.dx, g.dy, g.dz] with
      | .error _ => _
      | .ok grid => _) = _
    rw [hm])

/-- C103 (partial): when every pair of files is there, complete, and as NonLinLoc writes them, the lookup table has
the grid of the first file (nodes, origin, spacing), the phases and stations asked for, and a table for
each station and phase, holding at each node the number stored for it in that station's and phase's
file.  Missing: that files with another grid are refused (see `C103_violated`). -/
theorem C103_tables_partial {β : Type} (f32 : List β → ℚ) (fwd inv : Proj → V3 ℚ → V3 ℚ)
    (hinv : ∀ p x, fwd p (inv p x) = x) (G : Str → Str → NllGrid) (sl : Str → Str → List Tok)
    (buf : Str → Str → List β) (files : Str → Str → Option (NllocRead.Files β)) (st : Str) (sts : List Str)
    (ph : Str) (phs : List Str)
    (hfiles : ∀ p ∈ ph :: phs, ∀ s ∈ st :: sts, files p s = some ⟨(G p s).header (sl p s), buf p s⟩ ∧
      4 * ((G p s).nx * (G p s).ny * (G p s).nz) ≤ (buf p s).length)
    (htr : (G ph st).tr ≠ .none) (hn : 0 < (G ph st).nx ∧ 0 < (G ph st).ny ∧ 0 < (G ph st).nz)
    (hd : 0 < (G ph st).dx ∧ 0 < (G ph st).dy ∧ 0 < (G ph st).dz) :
    ∃ L, readNlloc f32 fwd inv files (st :: sts) (ph :: phs) = .ok L ∧
      L.grid.count = ![(G ph st).nx, (G ph st).ny, (G ph st).nz] ∧
      L.grid.ll = ![(G ph st).x0, (G ph st).y0, (G ph st).z0] ∧
      L.grid.spacing = ![(G ph st).dx, (G ph st).dy, (G ph st).dz] ∧
      readTransform (G ph st).tr.line = .ok (some L.proj) ∧
      L.phases = ph :: phs ∧ L.stations = st :: sts ∧
      ∀ p ∈ ph :: phs, ∀ s ∈ st :: sts, ∃ t, tableOf L s p = some t ∧
        t.HasShape ![(G p s).nx, (G p s).ny, (G p s).nz] ∧
        ∀ i < (G p s).nx, ∀ j < (G p s).ny, ∀ k < (G p s).nz,
          t.at i j k = some ((G p s).stored f32 (buf p s) i j k) := by
  set l := (ph :: phs).flatMap fun p => (st :: sts).map fun s => (p, s) with hl
  have hmem : ∀ p s, (p, s) ∈ l ↔ p ∈ ph :: phs ∧ s ∈ st :: sts := by
    intro p s
    rw [hl, List.mem_flatMap]
    constructor
    · rintro ⟨p', hp', h⟩
      obtain ⟨s', hs', h⟩ := List.mem_map.mp h
      obtain ⟨rfl, rfl⟩ := Prod.mk.inj h
      exact ⟨hp', hs'⟩
    · rintro ⟨hp, hs⟩
      exact ⟨p, hp, List.mem_map.mpr ⟨s, hs, rfl⟩⟩
  have hread : ∀ p ∈ ph :: phs, ∀ s ∈ st :: sts, _ := fun p hp s hs =>
    readFile_header f32 (G p s) (sl p s) (buf p s) (hfiles p hp s hs).2
  obtain ⟨l', hl'⟩ : ∃ l', l = (ph, st) :: l' := ⟨_, by rw [hl, List.flatMap_cons, List.map_cons, List.cons_append]⟩
  obtain ⟨p0, t0, hr0, hp0, -, -⟩ := hread ph (by simp) st (by simp)
  obtain ⟨q, hq⟩ : ∃ q, p0 = some q := by
    obtain ⟨p1, h1, h2⟩ := readTransform_line (G ph st).tr
    rw [hp0] at h1
    obtain rfl := Except.ok.inj h1
    cases hh : p0 with
    | none => exact absurd (h2.mp hh) htr
    | some q => exact ⟨q, rfl⟩
  subst hq
  have hfg := firstGrid_ok fwd inv hinv (G ph st) q hn hd
  obtain ⟨r, hr⟩ : ∃ r, readLoop f32 fwd inv files none [] l = .ok r := by
    obtain ⟨r, h⟩ := nllLoop_some f32 fwd inv files l'
      (⟨![(G ph st).x0, (G ph st).y0, (G ph st).z0], ![(G ph st).dx, (G ph st).dy, (G ph st).dz],
        ![(G ph st).nx, (G ph st).ny, (G ph st).nz]⟩, q) (addTable [] st ph t0) (by
      intro p s hm
      obtain ⟨hp, hs⟩ := (hmem p s).mp (by rw [hl']; exact List.mem_cons_of_mem _ hm)
      obtain ⟨_, _, h, -⟩ := hread p hp s hs
      exact ⟨_, _, (hfiles p hp s hs).1, h⟩)
    refine ⟨r, ?_⟩
    rw [hl']
    simp only [readLoop, (hfiles ph (by simp) st (by simp)).1, hr0, hfg]
    exact h
  obtain ⟨h1, -, -, h4⟩ := nllLoop_ok f32 fwd inv files l none [] r hr
  obtain ⟨f, spec, proj, t, g0, hf, hrf, hg, hrg⟩ := h4 ph st l' rfl hl'
  rw [(hfiles ph (by simp) st (by simp)).1] at hf
  obtain rfl := Option.some.inj hf
  rw [hr0] at hrf
  obtain ⟨rfl, rfl, rfl⟩ : _ ∧ _ ∧ _ := by simpa using hrf
  rw [hfg] at hg
  obtain rfl := Except.ok.inj hg
  obtain ⟨rg, tts⟩ := r
  dsimp only at hrg
  subst hrg
  refine ⟨_, by unfold readNlloc; rw [← hl, hr], rfl, rfl, rfl, hp0, rfl, rfl, ?_⟩
  intro p hp s hs
  obtain ⟨f, spec, proj, t, hf, hrf, ht⟩ := h1 p s ((hmem p s).mpr ⟨hp, hs⟩)
  obtain ⟨p', t', h', -, hshape, hval⟩ := hread p hp s hs
  rw [(hfiles p hp s hs).1] at hf
  obtain rfl := Option.some.inj hf
  rw [h'] at hrf
  obtain ⟨rfl, rfl, rfl⟩ : _ ∧ _ ∧ _ := by simpa using hrf
  exact ⟨t', ht, hshape, hval⟩

/-- C103: a missing file and an incomplete buffer, for any station and phase, are refused, and so is a
first file without a projection. -/
theorem C103_refused {β : Type} (f32 : List β → ℚ) (fwd inv : Proj → V3 ℚ → V3 ℚ)
    (files : Str → Str → Option (NllocRead.Files β)) (stations phases : List Str) :
    (∀ L, readNlloc f32 fwd inv files stations phases = .ok L →
      ∀ p ∈ phases, ∀ s ∈ stations, ∃ f, files p s = some f ∧
        ∀ (g : NllGrid) (sl : List Tok), f.header = g.header sl → 4 * (g.nx * g.ny * g.nz) ≤ f.buf.length) ∧
    ∀ st sts ph phs (g : NllGrid) (sl : List Tok) (buf : List β), stations = st :: sts → phases = ph :: phs →
      files ph st = some ⟨g.header sl, buf⟩ → 4 * (g.nx * g.ny * g.nz) ≤ buf.length → g.tr = .none →
      readNlloc f32 fwd inv files stations phases = .error .notImplemented := by
  constructor
  · intro L h p hp s hs
    unfold readNlloc at h
    cases hr : readLoop f32 fwd inv files none [] (phases.flatMap fun p => stations.map fun s => (p, s)) with
    | error e => rw [hr] at h; simp at h
    | ok r =>
      obtain ⟨h1, -⟩ := nllLoop_ok f32 fwd inv files _ none [] r hr
      obtain ⟨f, spec, proj, t, hf, hrf, -⟩ := h1 p s (by
        rw [List.mem_flatMap]; exact ⟨p, hp, List.mem_map.mpr ⟨s, hs, rfl⟩⟩)
      refine ⟨f, hf, fun g sl hh => ?_⟩
      obtain ⟨hdr, buf⟩ := f
      subst hh
      by_contra hlt
      unfold readFile at hrf
      rw [readGridSpec_header] at hrf
      obtain ⟨q, hq, -⟩ := readTransform_line g.tr
      have e : ((g.header sl).getD 2 []) = g.tr.line := rfl
      dsimp only at hrf
      rw [e, hq] at hrf
      dsimp only at hrf
      rw [if_pos] at hrf
      · cases hrf
      · change (buf.take (g.nx * g.ny * g.nz * 4)).length ≠ g.nx * g.ny * g.nz * 4
        rw [List.length_take]
        dsimp only at hlt
        omega
  · rintro st sts ph phs g sl buf rfl rfl hf hb htr
    obtain ⟨p, t, hr, hp, -⟩ := readFile_header f32 g sl buf hb
    rw [htr] at hp
    obtain rfl : p = none := (Except.ok.inj hp).symm
    unfold readNlloc
    rw [List.flatMap_cons, List.map_cons, List.cons_append]
    simp only [readLoop, hf, hr]
    rfl

/-- Two grids that differ in their origin and in their size. -/
def exNllA : NllGrid := ⟨2, 1, 1, 0, 0, 0, 1, 1, 1, .simple 45 7 0⟩
def exNllB : NllGrid := ⟨3, 1, 1, 50, 0, 0, 1, 1, 1, .simple 45 7 0⟩

/-- Files for two stations, in which byte 4 * i is i + 1. -/
def exNllFiles : Str → Str → Option (NllocRead.Files ℚ) := fun _ s =>
  some ⟨(if s = ['A'] then exNllA else exNllB).header [], [1, 0, 0, 0, 2, 0, 0, 0, 3, 0, 0, 0]⟩

/-- C103 is violated: a second station whose grid has another origin and other node counts than the
first is accepted, and its table does not fit the grid of the lookup table. -/
theorem C103_violated : ∃ L t, readNlloc (fun b : List ℚ => b.headD 0) (fun _ x => x) (fun _ x => x) exNllFiles
      [['A'], ['B']] [['P']] = .ok L ∧ tableOf L ['B'] ['P'] = some t ∧
    ¬ t.HasShape L.grid.count ∧ L.grid.ll ≠ ![exNllB.x0, exNllB.y0, exNllB.z0] := by
  obtain ⟨L, hL, hc, hll, -, -, -, -, ht⟩ := C103_tables_partial (fun b : List ℚ => b.headD 0)
    (fun _ x => x) (fun _ x => x) (fun _ _ => rfl) (fun _ s => if s = ['A'] then exNllA else exNllB)
    (fun _ _ => []) (fun _ _ => [1, 0, 0, 0, 2, 0, 0, 0, 3, 0, 0, 0]) exNllFiles ['A'] [['B']] ['P'] []
    (by
      intro p _ s _
      refine ⟨rfl, ?_⟩
      split <;> simp [exNllA, exNllB])
    (by simp [exNllA]) (by simp [exNllA]) (by simp [exNllA])
  obtain ⟨t, h1, h2, -⟩ := ht ['P'] (by simp) ['B'] (by simp)
  refine ⟨L, t, hL, h1, ?_, ?_⟩
  · intro h
    have e1 := h.1
    rw [h2.1, hc] at e1
    simp [exNllA, exNllB] at e1
  · rw [hll]
    intro h
    have := congrFun h 0
    simp [exNllA, exNllB] at this

example : ((readNlloc (fun b : List ℚ => b.headD 0) (fun _ x => x) (fun _ x => x) exNllFiles
    [['A']] [['P'], ['S']]).toOption.map fun L => (L.grid.count 0, tableOf L ['A'] ['S'])) =
    some (2, some [[[1]], [[2]]]) := by decide +kernel

/-! ## C104: the projection -/

/-- What PROJ takes a parameter to be: the value given, or a default.  Parameters it does not know are
not used. -/
def projNum (p : Proj) (k : String) (default : ℚ) : ℚ :=
  match dictGet p k.toList with
  | some (.num q) => q
  | _ => default

/-- The origin of a projection (latitude, longitude): parameters `lat_0` and `lon_0`, or zero. -/
def projOrigin (p : Proj) : ℚ × ℚ := (projNum p "lat_0" 0, projNum p "lon_0" 0)

/-- NonLinLoc's ellipsoids and their names in PROJ. -/
def ellipsoids : List (String × String) :=
  [("WGS-84", "WGS84"), ("GRS-80", "GRS80"), ("WGS-72", "WGS72"), ("Australian", "aust_SA"),
   ("Krasovsky", "krass"), ("International", "intl"), ("Hayford-1909", "intl"), ("Clarke-1880", "clrk80"),
   ("Clarke-1866", "clrk66"), ("Airy", "airy"), ("Bessel", "bessel"), ("Hayford-1830", "evrst30"),
   ("Sphere", "sphere")]

/-- C104 (partial): for SIMPLE and LAMBERT transformations the projection has the origin of the header,
and its kind; for LAMBERT also its standard parallels and its ellipsoid.  Kilometres are the units.
Missing: TRANS_MERC and rotations (see `C104_violated`). -/
theorem C104_projection_partial :
    (∀ lat lon rot, ∃ p, readTransform (Transform.simple lat lon rot).line = .ok (some p) ∧
      dictGet p "proj".toList = some (.word "eqc".toList) ∧ projOrigin p = (lat, lon) ∧
      dictGet p "units".toList = some (.word "km".toList)) ∧
    ∀ ell lat lon p1 p2 rot, ∃ p, readTransform (Transform.lambert ell lat lon p1 p2 rot).line = .ok (some p) ∧
      dictGet p "proj".toList = some (.word "lcc".toList) ∧ projOrigin p = (lat, lon) ∧
      projNum p "lat_1" 0 = p1 ∧ projNum p "lat_2" 0 = p2 ∧
      dictGet p "units".toList = some (.word "km".toList) ∧
      ∀ e ∈ ellipsoids, ell = e.1.toList → dictGet p "ellps".toList = some (.word e.2.toList) := by
  refine ⟨fun lat lon rot => ⟨_, rfl, rfl, rfl, rfl⟩, fun ell lat lon p1 p2 rot =>
    ⟨_, rfl, rfl, rfl, rfl, rfl, rfl, ?_⟩⟩
  intro e he hell
  change some (Tok.word (ellipsoid ell)) = _
  rw [hell]
  have : ∀ e ∈ ellipsoids, ellipsoid e.1.toList = e.2.toList := by decide +kernel
  rw [this e he]

/-- C104 is violated.  (1) With TRANS_MERC the origin of the projection is at zero latitude and
longitude, whatever the header says, as `lat` and `lon` are passed for `lat_0` and `lon_0`.  (2) The
rotation of the header is ignored: headers that differ in it give the same projection. -/
theorem C104_violated :
    (∀ ell lat lon rot, ∃ p, readTransform (Transform.transMerc ell lat lon rot).line = .ok (some p) ∧
      projOrigin p = (0, 0)) ∧
    (∀ lat lon rot rot', readTransform (Transform.simple lat lon rot).line =
      readTransform (Transform.simple lat lon rot').line) ∧
    ∀ ell lat lon p1 p2 rot rot', readTransform (Transform.lambert ell lat lon p1 p2 rot).line =
      readTransform (Transform.lambert ell lat lon p1 p2 rot').line :=
  ⟨fun _ _ _ _ => ⟨_, rfl, rfl⟩, fun _ _ _ _ => rfl, fun _ _ _ _ _ _ _ => rfl⟩

example : readTransform (Transform.simple 45 7 30).line =
    .ok (some [("proj".toList, .word "eqc".toList), ("lat_0".toList, .num 45), ("lon_0".toList, .num 7),
      ("units".toList, .word "km".toList)]) := rfl

end QM

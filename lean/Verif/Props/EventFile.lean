import Verif.Lemmas.EventFile

/-!
# Properties of the `.event` file (C89, C90)
-/

namespace QM

open QM.EventFile

/-! ## Specification -/

/-- The documented columns of the event file, and those of a magnitude. -/
def eventFileColumns (mag : Bool) : List String :=
  ["EventID", "DT", "X", "Y", "Z", "COA", "COA_NORM", "GAU_X", "GAU_Y", "GAU_Z", "GAU_ErrX",
    "GAU_ErrY", "GAU_ErrZ", "COV_ErrX", "COV_ErrY", "COV_ErrZ", "COV_Err_XYZ", "TRIG_COA",
    "DEC_COA", "DEC_COA_NORM"] ++ if mag then ["ML", "ML_Err", "ML_r2"] else []

/-- The row `t` shows, under `c`, the value of the cell `v` with an error satisfying `ok` (exact
error and value as arguments); a value that is not finite is shown as such. -/
def Shows (t : Dict) (c : String) (v : Cell) (ok : ℚ → ℚ → Prop) : Prop :=
  match v with
  | .num q => ∃ q', (c.toList, Cell.num q') ∈ t ∧ ok |q' - q| q
  | v => (c.toList, v) ∈ t

/-- The node spacing is positive on each axis and the unit is km or m: half a unit in the last
place shown is at most 1/200 of the spacing and at most half a metre (for depths and
uncertainties), or half a millionth (for coordinates in the plane). -/
def nearXY (s : ℚ) (err _q : ℚ) : Prop := err ≤ |s| / 200 ∧ err ≤ 1 / 2000000

/-- See `nearXY`. -/
def nearZ (l : Lut) (err _q : ℚ) : Prop :=
  err ≤ |l.sz| / 200 ∧ err ≤ if l.km then 1 / 2000 else 1 / 2

/-- Uncertainties are shown to half a metre. -/
def nearErr (l : Lut) (err _q : ℚ) : Prop := err ≤ if l.km then 1 / 2000 else 1 / 2

/-- Relative error of four significant digits. -/
def fourDigits (err q : ℚ) : Prop := err ≤ |q| / 2000

/-- Relative error of three significant digits. -/
def threeDigits (err q : ℚ) : Prop := err ≤ |q| / 200

/-! ## Evaluation of `write` -/

/-- The columns rounded with the precision of the Z axis. -/
def zCols : List Str :=
  ["Z".toList, "GAU_Z".toList, "GAU_ErrX".toList, "GAU_ErrY".toList, "GAU_ErrZ".toList,
    "COV_ErrX".toList, "COV_ErrY".toList, "COV_ErrZ".toList, "COV_Err_XYZ".toList]

/-- Formatting of one cell. -/
def fmt (l : Lut) (mag : Bool) (c : Str) (v : Cell) : Cell :=
  let v := if "COA".toList <:+: c then v.sig 4 else v
  let v := if c ∈ ["X".toList, "GAU_X".toList] then v.rnd (decimalsXY (precision l.sx)) else v
  let v := if c ∈ ["Y".toList, "GAU_Y".toList] then v.rnd (decimalsXY (precision l.sy)) else v
  let v := if c ∈ zCols then v.rnd (decimalsZ l.km (precision l.sz)) else v
  if mag ∧ c ∈ ["ML".toList, "ML_Err".toList, "ML_r2".toList] then v.sig 3 else v

theorem sig_nonfinite (n : ℕ) (c : Cell) : c.sig n = .nonfinite ↔ c = .nonfinite := by
  cases c <;> simp [Cell.sig]

theorem decimalsXY_pos (p : ℤ) : ¬ decimalsXY p ≤ 0 := by
  have := le_pyMax_right (p + 2) 6
  unfold decimalsXY; omega

theorem columns_err (e : Event) :
    ["Z".toList, "GAU_Z".toList] ++ (columns e).filter isErr ++ ["COV_Err_XYZ".toList] = zCols := by
  unfold columns
  split <;> decide +kernel

theorem roundCols_map (d : ℤ) (cs : List Str) (hcs : cs.Nodup) (t : Dict)
    (F : Str × Cell → Str × Cell) (h1 : ∀ kv, (F kv).1 = kv.1)
    (h2 : ∀ kv, (F kv).2 = .nonfinite ↔ kv.2 = .nonfinite) :
    roundCols d cs (t.map F) =
      if d ≤ 0 ∧ ∃ e ∈ t, e.1 ∈ cs ∧ e.2 = .nonfinite then .error .intCasting
      else .ok ((t.map F).map fun e => (e.1, if e.1 ∈ cs then e.2.rnd d else e.2)) := by
  rw [roundCols_eq d cs hcs]
  have hcond : (d ≤ 0 ∧ ∃ e ∈ t.map F, e.1 ∈ cs ∧ e.2 = .nonfinite) ↔
      (d ≤ 0 ∧ ∃ e ∈ t, e.1 ∈ cs ∧ e.2 = .nonfinite) := by
    refine and_congr_right fun _ => ?_
    constructor
    · rintro ⟨kv, hkv, h3, h4⟩
      obtain ⟨kv', hkv', rfl⟩ := List.mem_map.mp hkv
      exact ⟨kv', hkv', by rw [← h1]; exact h3, (h2 kv').mp h4⟩
    · rintro ⟨kv, hkv, h3, h4⟩
      exact ⟨_, List.mem_map.mpr ⟨kv, hkv, rfl⟩, by rw [h1]; exact h3, (h2 kv).mpr h4⟩
  by_cases hc : d ≤ 0 ∧ ∃ e ∈ t, e.1 ∈ cs ∧ e.2 = .nonfinite
  · rw [if_pos hc, if_pos (hcond.mpr hc)]
  · rw [if_neg hc, if_neg (fun h => hc (hcond.mp h))]

theorem write_eq (e : Event) (l : Lut) (t0 : Dict)
    (h : (columns e).mapM (fun c => ((outDict e).get c).map (fun v => (c, v))) = some t0)
    (hk : t0.map Prod.fst = columns e) :
    write e l = if decimalsZ l.km (precision l.sz) ≤ 0 ∧
        ∃ kv ∈ t0, kv.1 ∈ zCols ∧ kv.2 = .nonfinite then .error .intCasting
      else .ok (t0.map fun kv =>
        (kv.1, fmt l (e.localmag.get "ML".toList).isSome kv.1 kv.2)) := by
  unfold write
  rw [h]
  simp only [bind, Except.bind]
  rw [roundCols_eq _ _ (by decide), if_neg (fun h => decimalsXY_pos _ h.1)]
  simp only
  rw [roundCols_eq _ _ (by decide), if_neg (fun h => decimalsXY_pos _ h.1)]
  simp only [List.map_map]
  have hfst : ∀ F : Str × Cell → Str × Cell, (∀ kv, (F kv).1 = kv.1) →
      t0.map (Prod.fst ∘ F) = columns e := by
    intro F hF
    rw [← hk]
    exact List.map_congr_left fun kv _ => hF kv
  rw [hfst]
  swap
  · intro kv; rfl
  rw [columns_err, roundCols_map _ _ (by decide)]
  rotate_left
  · intro kv; rfl
  · intro kv
    simp only [Function.comp_apply]
    split <;> split <;> split <;> simp only [rnd_nonfinite, sig_nonfinite]
  by_cases hc : decimalsZ l.km (precision l.sz) ≤ 0 ∧
      ∃ kv ∈ t0, kv.1 ∈ zCols ∧ kv.2 = .nonfinite
  · rw [if_pos hc, if_pos hc]
  · rw [if_neg hc, if_neg hc]
    simp only [pure, Except.pure]
    cases hml : (e.localmag.get "ML".toList).isSome with
    | false =>
      simp only [Bool.false_eq_true, if_false, List.map_map, fmt, false_and]
      congr 1
      apply List.map_congr_left
      rintro ⟨c, v⟩ -
      simp only [Function.comp_apply]
    | true =>
      simp only [if_true, List.map_map, fmt, true_and]
      congr 1
      apply List.map_congr_left
      rintro ⟨c, v⟩ -
      simp only [Function.comp_apply]

/-- The unformatted row. -/
def rawRow (r : Results) : Dict :=
  [("EventID".toList, .text r.uid), ("DT".toList, .text r.dt), ("X".toList, r.x), ("Y".toList, r.y),
    ("Z".toList, r.z), ("COA".toList, r.coa), ("COA_NORM".toList, r.coaNorm),
    ("GAU_X".toList, r.gx), ("GAU_Y".toList, r.gy), ("GAU_Z".toList, r.gz),
    ("GAU_ErrX".toList, r.gex), ("GAU_ErrY".toList, r.gey), ("GAU_ErrZ".toList, r.gez),
    ("COV_ErrX".toList, r.cex), ("COV_ErrY".toList, r.cey), ("COV_ErrZ".toList, r.cez),
    ("COV_Err_XYZ".toList, r.cexyz), ("TRIG_COA".toList, r.trigCoa), ("DEC_COA".toList, r.decCoa),
    ("DEC_COA_NORM".toList, r.decCoaNorm)] ++
  match r.ml with
  | none => []
  | some (a, b, c) => [("ML".toList, a), ("ML_Err".toList, b), ("ML_r2".toList, c)]

theorem ml_isSome (r : Results) : (r.event.localmag.get "ML".toList).isSome = r.ml.isSome := by
  cases hml : r.ml with
  | none => simp [Results.event, hml, Dict.get]
  | some m => simp [Results.event, hml, Dict.get]

theorem row_eq (r : Results) :
    (columns r.event).mapM (fun c => ((outDict r.event).get c).map (fun v => (c, v))) =
      some (rawRow r) := by
  unfold columns
  rw [ml_isSome]
  cases hml : r.ml with
  | none =>
    simp [EVENT_FILE_COLS, outDict, Dict.get, Results.event, hml, splineDict, gaussianDict,
      covarianceDict, rawRow]
  | some m =>
    simp [EVENT_FILE_COLS, outDict, Dict.get, Results.event, hml, splineDict, gaussianDict,
      covarianceDict, rawRow]

theorem row_keys (r : Results) : (rawRow r).map Prod.fst = columns r.event := by
  unfold columns
  rw [ml_isSome]
  cases hml : r.ml with
  | none => simp [rawRow, hml, EVENT_FILE_COLS]
  | some m => simp [rawRow, hml, EVENT_FILE_COLS]

/-- The values rounded with the precision of the Z axis. -/
def zValues (r : Results) : List Cell :=
  [r.z, r.gz, r.gex, r.gey, r.gez, r.cex, r.cey, r.cez, r.cexyz]

theorem write_results (r : Results) (l : Lut) :
    write r.event l = if decimalsZ l.km (precision l.sz) ≤ 0 ∧ ∃ v ∈ zValues r, v = Cell.nonfinite then
      .error .intCasting
    else .ok ((rawRow r).map fun kv => (kv.1, fmt l r.ml.isSome kv.1 kv.2)) := by
  rw [write_eq r.event l (rawRow r) (row_eq r) (row_keys r), ml_isSome]
  have : (∃ kv ∈ rawRow r, kv.1 ∈ zCols ∧ kv.2 = .nonfinite) ↔
      ∃ v ∈ zValues r, v = Cell.nonfinite := by
    cases hml : r.ml with
    | none =>
      simp [rawRow, zCols, zValues, hml]
      simp only [@eq_comm _ Cell.nonfinite]
    | some m =>
      simp [rawRow, zCols, zValues, hml]
      simp only [@eq_comm _ Cell.nonfinite]
  by_cases hc : decimalsZ l.km (precision l.sz) ≤ 0 ∧ ∃ v ∈ zValues r, v = Cell.nonfinite
  · rw [if_pos hc, if_pos ⟨hc.1, this.mpr hc.2⟩]
  · rw [if_neg hc, if_neg (fun h => hc ⟨h.1, this.mp h.2⟩)]

/-! ## C89: the contents of the event file -/

/-- C89: the event file has the documented columns, with those of the magnitude exactly if one was
calculated (even if it is NaN). -/
theorem C89_columns (r : Results) (l : Lut) (t : Dict) (h : write r.event l = .ok t) :
    t.map Prod.fst = (eventFileColumns r.ml.isSome).map String.toList := by
  rw [write_results] at h
  split at h
  · cases h
  · cases h
    rw [List.map_map]
    cases hml : r.ml with
    | none => simp [rawRow, hml, eventFileColumns]
    | some m => simp [rawRow, hml, eventFileColumns]

theorem shows_of {t : Dict} {c : String} {v : Cell} {ok : ℚ → ℚ → Prop} (f : ℚ → ℚ)
    (F : Cell → Cell) (hF : ∀ q, F (.num q) = .num (f q)) (hF2 : F .nonfinite = .nonfinite)
    (hF3 : ∀ s, F (.text s) = .text s)
    (hmem : (c.toList, F v) ∈ t) (hok : ∀ q, ok |f q - q| q) : Shows t c v ok := by
  cases v with
  | num q => exact ⟨f q, by rw [hF] at hmem; exact hmem, hok q⟩
  | nonfinite => rw [hF2] at hmem; exact hmem
  | text s => rw [hF3] at hmem; exact hmem

theorem shows_rnd {t : Dict} {c : String} {v : Cell} {ok : ℚ → ℚ → Prop} (d : ℤ)
    (hmem : (c.toList, v.rnd d) ∈ t) (hok : ∀ q, ok |roundTo d q - q| q) : Shows t c v ok :=
  shows_of (roundTo d) (Cell.rnd d) (fun _ => rfl) rfl (fun _ => rfl) hmem hok

theorem shows_sig {t : Dict} {c : String} {v : Cell} {ok : ℚ → ℚ → Prop} (n : ℕ)
    (hmem : (c.toList, v.sig n) ∈ t) (hok : ∀ q, ok |sigDigits n q - q| q) : Shows t c v ok :=
  shows_of (sigDigits n) (Cell.sig n) (fun _ => rfl) rfl (fun _ => rfl) hmem hok

theorem near_xy (s : ℚ) (hs : s ≠ 0) (q : ℚ) :
    nearXY s |roundTo (decimalsXY (precision s)) q - q| q := by
  refine ⟨roundTo_spacing _ s hs (le_pyMax_left _ _) q, ?_⟩
  refine (roundTo_error_le _ 6 (le_pyMax_right _ _) q).trans ?_
  norm_num [zpow_neg]

theorem near_err (l : Lut) (q : ℚ) :
    nearErr l |roundTo (decimalsZ l.km (precision l.sz)) q - q| q := by
  unfold nearErr decimalsZ
  refine (roundTo_error_le _ _ (le_pyMax_right _ _) q).trans ?_
  cases l.km <;> norm_num [zpow_neg]

theorem near_z (l : Lut) (hs : l.sz ≠ 0) (q : ℚ) :
    nearZ l |roundTo (decimalsZ l.km (precision l.sz)) q - q| q :=
  ⟨roundTo_spacing _ l.sz hs (le_pyMax_left _ _) q, near_err l q⟩

theorem four_digits (q : ℚ) : fourDigits |sigDigits 4 q - q| q := by
  refine (sigDigits_error 4 q).trans ?_
  norm_num [zpow_neg]
  linarith

theorem three_digits (q : ℚ) : threeDigits |sigDigits 3 q - q| q := by
  refine (sigDigits_error 3 q).trans ?_
  norm_num [zpow_neg]
  linarith

/-- C89: the event file names the event and its time, and gives every result: locations to 1/200 of
the node spacing (and to a millionth of a coordinate unit, a metre in depth), uncertainties to a
metre, coalescence values to four and magnitudes to three significant digits. -/
theorem C89_values (r : Results) (l : Lut) (hx : l.sx ≠ 0) (hy : l.sy ≠ 0) (hz : l.sz ≠ 0) (t : Dict)
    (h : write r.event l = .ok t) :
    (("EventID".toList, Cell.text r.uid) ∈ t ∧ ("DT".toList, Cell.text r.dt) ∈ t) ∧
    (Shows t "X" r.x (nearXY l.sx) ∧ Shows t "Y" r.y (nearXY l.sy) ∧ Shows t "Z" r.z (nearZ l)) ∧
    (Shows t "GAU_X" r.gx (nearXY l.sx) ∧ Shows t "GAU_Y" r.gy (nearXY l.sy) ∧
      Shows t "GAU_Z" r.gz (nearZ l)) ∧
    (Shows t "GAU_ErrX" r.gex (nearErr l) ∧ Shows t "GAU_ErrY" r.gey (nearErr l) ∧
      Shows t "GAU_ErrZ" r.gez (nearErr l)) ∧
    (Shows t "COV_ErrX" r.cex (nearErr l) ∧ Shows t "COV_ErrY" r.cey (nearErr l) ∧
      Shows t "COV_ErrZ" r.cez (nearErr l) ∧ Shows t "COV_Err_XYZ" r.cexyz (nearErr l)) ∧
    (Shows t "COA" r.coa fourDigits ∧ Shows t "COA_NORM" r.coaNorm fourDigits ∧
      Shows t "TRIG_COA" r.trigCoa fourDigits ∧ Shows t "DEC_COA" r.decCoa fourDigits ∧
      Shows t "DEC_COA_NORM" r.decCoaNorm fourDigits) ∧
    (∀ a b c, r.ml = some (a, b, c) → Shows t "ML" a threeDigits ∧ Shows t "ML_Err" b threeDigits ∧
      Shows t "ML_r2" c threeDigits) := by
  rw [write_results] at h
  split at h
  · cases h
  have h := (Except.ok.inj h).symm
  have hmem : ∀ c v w, (c, v) ∈ rawRow r → fmt l r.ml.isSome c v = w → (c, w) ∈ t := by
    rintro c v w hcv rfl
    rw [h]
    exact List.mem_map.mpr ⟨(c, v), hcv, rfl⟩
  have coa : ∀ c, c ∈ ["COA".toList, "COA_NORM".toList, "TRIG_COA".toList, "DEC_COA".toList,
      "DEC_COA_NORM".toList] → ∀ b v, fmt l b c v = v.sig 4 := by
    intro c hc b v
    have h1 : "COA".toList <:+: c := by revert c; decide
    have h2 : c ∉ ["X".toList, "GAU_X".toList] := by revert c; decide
    have h3 : c ∉ ["Y".toList, "GAU_Y".toList] := by revert c; decide
    have h4 : c ∉ zCols := by revert c; decide
    have h5 : c ∉ ["ML".toList, "ML_Err".toList, "ML_r2".toList] := by revert c; decide
    simp only [fmt, h1, h2, h3, h4, h5, if_true, if_false, and_false]
  have xs : ∀ c, c ∈ ["X".toList, "GAU_X".toList] → ∀ b v,
      fmt l b c v = v.rnd (decimalsXY (precision l.sx)) := by
    intro c hc b v
    have h1 : ¬ "COA".toList <:+: c := by revert c; decide
    have h3 : c ∉ ["Y".toList, "GAU_Y".toList] := by revert c; decide
    have h4 : c ∉ zCols := by revert c; decide
    have h5 : c ∉ ["ML".toList, "ML_Err".toList, "ML_r2".toList] := by revert c; decide
    simp only [fmt, h1, hc, h3, h4, h5, if_true, if_false, and_false]
  have ys : ∀ c, c ∈ ["Y".toList, "GAU_Y".toList] → ∀ b v,
      fmt l b c v = v.rnd (decimalsXY (precision l.sy)) := by
    intro c hc b v
    have h1 : ¬ "COA".toList <:+: c := by revert c; decide
    have h2 : c ∉ ["X".toList, "GAU_X".toList] := by revert c; decide
    have h4 : c ∉ zCols := by revert c; decide
    have h5 : c ∉ ["ML".toList, "ML_Err".toList, "ML_r2".toList] := by revert c; decide
    simp only [fmt, h1, h2, hc, h4, h5, if_true, if_false, and_false]
  have zs : ∀ c, c ∈ zCols → ∀ b v, fmt l b c v = v.rnd (decimalsZ l.km (precision l.sz)) := by
    intro c hc b v
    have h1 : ¬ "COA".toList <:+: c := by revert c; decide
    have h2 : c ∉ ["X".toList, "GAU_X".toList] := by revert c; decide
    have h3 : c ∉ ["Y".toList, "GAU_Y".toList] := by revert c; decide
    have h5 : c ∉ ["ML".toList, "ML_Err".toList, "ML_r2".toList] := by revert c; decide
    simp only [fmt, h1, h2, h3, hc, h5, if_true, if_false, and_false]
  have ms : ∀ c, c ∈ ["ML".toList, "ML_Err".toList, "ML_r2".toList] → ∀ v,
      fmt l true c v = v.sig 3 := by
    intro c hc v
    have h1 : ¬ "COA".toList <:+: c := by revert c; decide
    have h2 : c ∉ ["X".toList, "GAU_X".toList] := by revert c; decide
    have h3 : c ∉ ["Y".toList, "GAU_Y".toList] := by revert c; decide
    have h4 : c ∉ zCols := by revert c; decide
    simp only [fmt, h1, h2, h3, h4, hc, if_true, if_false, and_true]
  have raw : ∀ c v, (c, v) ∈ (rawRow r).take 20 → (c, v) ∈ rawRow r := fun c v h =>
    List.mem_of_mem_take h
  have shXY : ∀ c s v, s ≠ 0 → (c.toList, v) ∈ rawRow r →
      (∀ b v, fmt l b c.toList v = v.rnd (decimalsXY (precision s))) → Shows t c v (nearXY s) :=
    fun c s v hs h1 h2 => shows_rnd _ (hmem _ _ _ h1 (h2 _ _)) (near_xy s hs)
  have shZ : ∀ (c : String) v, c.toList ∈ zCols → (c.toList, v) ∈ rawRow r →
      Shows t c v (nearZ l) :=
    fun c v hc h1 => shows_rnd _ (hmem _ _ _ h1 (zs _ hc _ _)) (near_z l hz)
  have shE : ∀ (c : String) v, c.toList ∈ zCols → (c.toList, v) ∈ rawRow r →
      Shows t c v (nearErr l) :=
    fun c v hc h1 => shows_rnd _ (hmem _ _ _ h1 (zs _ hc _ _)) (near_err l)
  have shC : ∀ (c : String) v, c.toList ∈ ["COA".toList, "COA_NORM".toList, "TRIG_COA".toList,
      "DEC_COA".toList, "DEC_COA_NORM".toList] → (c.toList, v) ∈ rawRow r →
      Shows t c v fourDigits :=
    fun c v hc h1 => shows_sig _ (hmem _ _ _ h1 (coa _ hc _ _)) four_digits
  refine ⟨⟨?_, ?_⟩, ⟨?_, ?_, ?_⟩, ⟨?_, ?_, ?_⟩, ⟨?_, ?_, ?_⟩, ⟨?_, ?_, ?_, ?_⟩,
    ⟨?_, ?_, ?_, ?_, ?_⟩, ?_⟩
  · refine hmem _ _ _ (raw "EventID".toList (.text r.uid) (by simp [rawRow])) ?_
    have : ∀ b v, fmt l b "EventID".toList v = v := by
      intro b v
      have h1 : ¬ "COA".toList <:+: "EventID".toList := by decide
      have h2 : "EventID".toList ∉ ["X".toList, "GAU_X".toList] := by decide
      have h3 : "EventID".toList ∉ ["Y".toList, "GAU_Y".toList] := by decide
      have h4 : "EventID".toList ∉ zCols := by decide
      have h5 : "EventID".toList ∉ ["ML".toList, "ML_Err".toList, "ML_r2".toList] := by decide
      simp only [fmt, h1, h2, h3, h4, h5, if_false, and_false]
    exact this _ _
  · refine hmem _ _ _ (raw "DT".toList (.text r.dt) (by simp [rawRow])) ?_
    have : ∀ b v, fmt l b "DT".toList v = v := by
      intro b v
      have h1 : ¬ "COA".toList <:+: "DT".toList := by decide
      have h2 : "DT".toList ∉ ["X".toList, "GAU_X".toList] := by decide
      have h3 : "DT".toList ∉ ["Y".toList, "GAU_Y".toList] := by decide
      have h4 : "DT".toList ∉ zCols := by decide
      have h5 : "DT".toList ∉ ["ML".toList, "ML_Err".toList, "ML_r2".toList] := by decide
      simp only [fmt, h1, h2, h3, h4, h5, if_false, and_false]
    exact this _ _
  · exact shXY "X" l.sx r.x hx (raw _ _ (by simp [rawRow])) (xs _ (by decide))
  · exact shXY "Y" l.sy r.y hy (raw _ _ (by simp [rawRow])) (ys _ (by decide))
  · exact shZ "Z" r.z (by decide) (raw _ _ (by simp [rawRow]))
  · exact shXY "GAU_X" l.sx r.gx hx (raw _ _ (by simp [rawRow])) (xs _ (by decide))
  · exact shXY "GAU_Y" l.sy r.gy hy (raw _ _ (by simp [rawRow])) (ys _ (by decide))
  · exact shZ "GAU_Z" r.gz (by decide) (raw _ _ (by simp [rawRow]))
  · exact shE "GAU_ErrX" r.gex (by decide) (raw _ _ (by simp [rawRow]))
  · exact shE "GAU_ErrY" r.gey (by decide) (raw _ _ (by simp [rawRow]))
  · exact shE "GAU_ErrZ" r.gez (by decide) (raw _ _ (by simp [rawRow]))
  · exact shE "COV_ErrX" r.cex (by decide) (raw _ _ (by simp [rawRow]))
  · exact shE "COV_ErrY" r.cey (by decide) (raw _ _ (by simp [rawRow]))
  · exact shE "COV_ErrZ" r.cez (by decide) (raw _ _ (by simp [rawRow]))
  · exact shE "COV_Err_XYZ" r.cexyz (by decide) (raw _ _ (by simp [rawRow]))
  · exact shC "COA" r.coa (by decide) (raw _ _ (by simp [rawRow]))
  · exact shC "COA_NORM" r.coaNorm (by decide) (raw _ _ (by simp [rawRow]))
  · exact shC "TRIG_COA" r.trigCoa (by decide) (raw _ _ (by simp [rawRow]))
  · exact shC "DEC_COA" r.decCoa (by decide) (raw _ _ (by simp [rawRow]))
  · exact shC "DEC_COA_NORM" r.decCoaNorm (by decide) (raw _ _ (by simp [rawRow]))
  · intro a b c hml
    have hs : r.ml.isSome = true := by rw [hml]; rfl
    rw [hs] at hmem
    have shM : ∀ (k : String) v, k.toList ∈ ["ML".toList, "ML_Err".toList, "ML_r2".toList] →
        (k.toList, v) ∈ rawRow r → Shows t k v threeDigits :=
      fun k v hk h1 => shows_sig _ (hmem _ _ _ h1 (ms _ hk _)) three_digits
    refine ⟨shM "ML" a (by decide) ?_, shM "ML_Err" b (by decide) ?_, shM "ML_r2" c (by decide) ?_⟩
    · simp [rawRow, hml]
    · simp [rawRow, hml]
    · simp [rawRow, hml]

/-! ## C90: every located event is written -/

/-- C90 fails: on a grid in metres with a node spacing of 100 m or more, a Gaussian location or
uncertainty that is not finite makes `write` raise, and no event file is written. -/
theorem C90_violated : ∃ (r : Results) (l : Lut),
    (∀ v ∈ [r.x, r.y, r.z, r.cx, r.cy, r.cz, r.cex, r.cey, r.cez, r.cexyz, r.coa, r.coaNorm],
      v ≠ .nonfinite) ∧ write r.event l = .error .intCasting := by
  refine ⟨⟨"1".toList, .num 1, .num 1, .num 1, "t".toList, .num 1, .num 1, .num 0, .num 0, .num 0,
    .nonfinite, .nonfinite, .nonfinite, .num 1, .num 1, .num 1, .num 0, .num 0, .num 0, .num 1,
    .num 1, .num 1, .num 1, none⟩, ⟨1 / 100, 1 / 100, 100, false⟩, by simp, ?_⟩
  rw [write_results, if_pos]
  refine ⟨?_, .nonfinite, by simp [zValues], rfl⟩
  have : Int.log 10 |(100 : ℚ)| = 2 := by
    rw [abs_of_pos (by norm_num), show (100 : ℚ) = ((10 : ℕ) : ℚ) ^ (2 : ℤ) by norm_num]
    exact Int.log_zpow (by norm_num) 2
  unfold decimalsZ precision pyMax
  simp only [this]
  norm_num

/-- C90, what does hold: the event file is written if the unit is km, or the depth spacing is below
100 m, or the depths and uncertainties are all finite numbers; otherwise not. -/
theorem C90_written_iff_partial (r : Results) (l : Lut) (hz : l.sz ≠ 0) :
    (∃ t, write r.event l = .ok t) ↔
      (l.km = true ∨ |l.sz| < 100 ∨ ∀ v ∈ [r.z, r.gz, r.gex, r.gey, r.gez, r.cex, r.cey, r.cez,
        r.cexyz], v ≠ .nonfinite) := by
  rw [write_results]
  have hd : decimalsZ l.km (precision l.sz) ≤ 0 ↔ ¬ (l.km = true ∨ |l.sz| < 100) := by
    have h100 : |l.sz| < 100 ↔ Int.log 10 |l.sz| < 2 := by
      have := Int.lt_zpow_iff_log_lt (b := 10) (x := 2) (r := |l.sz|) (by norm_num) (abs_pos.mpr hz)
      rw [← this]; norm_num
    rw [h100]
    unfold decimalsZ precision pyMax
    cases l.km
    · simp only [Bool.false_eq_true, if_false, false_or]
      split <;> omega
    · simp only [if_true, true_or, not_true, iff_false]
      split <;> omega
  constructor
  · rintro ⟨t, h⟩
    split at h
    · cases h
    · next hc =>
      by_cases h1 : l.km = true ∨ |l.sz| < 100
      · rcases h1 with h1 | h1
        · exact Or.inl h1
        · exact Or.inr (Or.inl h1)
      · refine Or.inr (Or.inr fun v hv hn => hc ⟨hd.mpr h1, v, hv, hn⟩)
  · intro h
    have hc : ¬ (decimalsZ l.km (precision l.sz) ≤ 0 ∧ ∃ v ∈ zValues r, v = .nonfinite) := by
      rintro ⟨h1, v, hv, hn⟩
      rw [hd] at h1
      rcases h with h | h | h
      · exact h1 (Or.inl h)
      · exact h1 (Or.inr h)
      · exact h v hv hn
    rw [if_neg hc]
    exact ⟨_, rfl⟩

/-- Trigger information of a row written by the current version, by an older one, and by one without
decomposed coalescence. -/
theorem C89_trigger_info (a b c v : Cell) :
    parseTriggered [("TRIG_COA".toList, a), ("COA".toList, b), ("COA_NORM".toList, c)] =
      some [("TRIG_COA".toList, a), ("DEC_COA".toList, b), ("DEC_COA_NORM".toList, c)] ∧
    parseTriggered [("COA_V".toList, v), ("COA".toList, b), ("COA_NORM".toList, c)] =
      some [("TRIG_COA".toList, v), ("DEC_COA".toList, b), ("DEC_COA_NORM".toList, c)] ∧
    parseTriggered [("COA_V".toList, v)] =
      some [("TRIG_COA".toList, v), ("DEC_COA".toList, .nonfinite),
        ("DEC_COA_NORM".toList, .nonfinite)] := by
  simp [parseTriggered, Dict.get]

/-! ## A concrete case -/

/-- A located event with a magnitude, and no Gaussian fit. -/
def exResults : Results where
  uid := "20210101000000000".toList
  trigCoa := .num 3
  decCoa := .num (31415926 / 10000000)
  decCoaNorm := .num 2
  dt := "2021-01-01T00:00:00Z".toList
  coa := .num (123456 / 1000)
  coaNorm := .num (1234567 / 1000000)
  x := .num (-1734567891 / 100000000)
  y := .num (6456789123 / 100000000)
  z := .num (123456 / 10000)
  gx := .num 1
  gy := .num 1
  gz := .nonfinite
  gex := .nonfinite
  gey := .num 1
  gez := .num 1
  cx := .num 0
  cy := .num 0
  cz := .num 0
  cex := .num 1
  cey := .num 1
  cez := .num 1
  cexyz := .num 1
  ml := some (.num (12345 / 10000), .num (1 / 3), .nonfinite)

/-- A grid in km with a spacing of half a kilometre in depth. -/
def exFileLut : Lut := ⟨1 / 200, 1 / 300, 1 / 2, true⟩

example : ∃ t, write exResults.event exFileLut = .ok t :=
  (C90_written_iff_partial exResults exFileLut (by norm_num [exFileLut])).mpr (Or.inl rfl)

example : ((write exResults.event exFileLut).toOption.bind fun t => t.get "X".toList) =
    some (.num (-17345679 / 1000000)) ∧
    ((write exResults.event exFileLut).toOption.bind fun t => t.get "Z".toList) =
    some (.num (12346 / 1000)) ∧
    ((write exResults.event exFileLut).toOption.bind fun t => t.get "COA".toList) =
    some (.num (1235 / 10)) ∧
    ((write exResults.event exFileLut).toOption.bind fun t => t.get "ML".toList) =
    some (.num (123 / 100)) := by
  decide +kernel

/-- The same results on a grid in metres with 500 m spacing are not written. -/
example : ¬ ∃ t, write exResults.event ⟨1 / 200, 1 / 300, 500, false⟩ = .ok t := by
  intro h
  rcases (C90_written_iff_partial exResults ⟨1 / 200, 1 / 300, 500, false⟩ (by norm_num)).mp h with
    h | h | h
  · cases h
  · norm_num at h
  · exact h exResults.gz (List.mem_cons_of_mem _ List.mem_cons_self) rfl

end QM

import Verif.Props.Threshold
import Verif.Model.Smooth

/-! # C159, C160: triggering does not depend on the day or on the scale of the coalescence -/

namespace QM

open QM.Trigger Spec

/-- The same row at a time `D` later, its coalescence multiplied by `a` and increased by `b`. -/
def Spec.movedRow (D a b : ℚ) (r : Row) : Row :=
  { r with dt := r.dt + D, coa := a * r.coa + b, coaN := a * r.coaN + b }

/-- The same scan data at times `D` later, their coalescence multiplied by `a` and increased by `b`. -/
def Spec.movedScan (D a b : ℚ) (d : ScanData) : ScanData := { d with rows := d.rows.map (Spec.movedRow D a b) }

/-- The same event `D` later, its coalescence multiplied by `a` and increased by `b`. -/
def Spec.movedEvent (D a b : ℚ) (c : Cand) : Cand :=
  { c with coaTime := c.coaTime + D, minTime := c.minTime + D, maxTime := c.maxTime + D,
           trigCoa := a * c.trigCoa + b, coa := a * c.coa + b, coaN := a * c.coaN + b }

/-- The same outcome of a run (batches, events, exception) `D` later, with the coalescence changed alike. -/
def Spec.movedRun (D a b : ℚ) (o : List ((ℚ × ℚ) × List Cand) × Option TriggerError) :
    List ((ℚ × ℚ) × List Cand) × Option TriggerError :=
  (o.1.map fun p => ((p.1.1 + D, p.1.2 + D), p.2.map (Spec.movedEvent D a b)), o.2)

private theorem trig_moved (D a b : ℚ) (norm : Bool) (r : Row) :
    (Spec.movedRow D a b r).trig norm = a * r.trig norm + b := by
  unfold Row.trig Spec.movedRow
  cases norm <;> rfl

private theorem le_affine {a b x y : ℚ} (ha : 0 < a) : a * x + b ≤ a * y + b ↔ x ≤ y := by
  constructor
  · intro h; exact le_of_mul_le_mul_left (by linarith) ha
  · intro h; linarith [mul_le_mul_of_nonneg_left h ha.le]

private theorem lt_affine {a b x y : ℚ} (ha : 0 < a) : a * x + b < a * y + b ↔ x < y := by
  rw [← not_le, ← not_le, le_affine ha]

private theorem thresholded_moved (cfg : Cfg) (D a b : ℚ) (ha : 0 < a) (data : List Row) (thr : List ℚ) :
    thresholded cfg (data.map (Spec.movedRow D a b)) (thr.map fun v => a * v + b) =
      (thresholded cfg data thr).map (fun p => (p.1, Spec.movedRow D a b p.2)) := by
  unfold thresholded
  rw [List.zip_map, List.zipIdx_map, List.filter_map, List.map_map, List.map_map]
  congr 1
  apply List.filter_congr
  intro p _
  simp only [Function.comp, Prod.map, trig_moved, id, le_affine ha]

private theorem pdGroupBy_map {α β : Type} (key : β → ℤ) (f : α → β) (l : List α) :
    pdGroupBy key (l.map f) = (pdGroupBy (fun a => key (f a)) l).map (List.map f) := by
  unfold pdGroupBy
  rw [List.map_map, List.map_map]
  congr 1
  funext k
  simp only [Function.comp, List.filter_map]
  rfl

private theorem candidateRuns_moved (cfg : Cfg) (D a b : ℚ) (ha : 0 < a) (data : List Row) (thr : List ℚ) :
    candidateRuns cfg (data.map (Spec.movedRow D a b)) (thr.map fun v => a * v + b) =
      (candidateRuns cfg data thr).map (List.map fun p => (p.1, Spec.movedRow D a b p.2)) := by
  unfold candidateRuns
  rw [thresholded_moved cfg D a b ha, List.zipIdx_map, pdGroupBy_map, List.map_map, List.map_map]
  congr 1
  funext g
  simp only [Function.comp, List.map_map]
  rfl

private theorem firstMax_map {α β : Type} (key : β → ℚ) (f : α → β) (key' : α → ℚ)
    (h : ∀ x y, key (f x) < key (f y) ↔ key' x < key' y) (l : List α) :
    firstMaxBy key (l.map f) = (firstMaxBy key' l).map f := by
  cases l with
  | nil => rfl
  | cons a l =>
    simp only [List.map_cons, firstMaxBy, Option.map_some, Option.some.injEq, List.foldl_map]
    induction l generalizing a with
    | nil => rfl
    | cons b l ih =>
      simp only [List.foldl_cons, h]
      rw [← apply_ite f]
      exact ih _

private theorem candidateOf_moved (cfg : Cfg) (D a b : ℚ) (ha : 0 < a) (run : List (ℕ × Row)) :
    candidateOf cfg (run.map fun p => (p.1, Spec.movedRow D a b p.2)) =
      (candidateOf cfg run).map (Spec.movedEvent D a b) := by
  unfold candidateOf
  rw [firstMax_map (fun p : ℕ × Row => p.2.coa) (fun p : ℕ × Row => (p.1, Spec.movedRow D a b p.2))
    (fun p : ℕ × Row => p.2.coa) (fun x y => by simp only [Spec.movedRow]; exact lt_affine ha), List.head?_map,
    List.getLast?_map]
  cases h1 : firstMaxBy (fun p : ℕ × Row => p.2.coa) run with
  | none => rfl
  | some p =>
    cases h2 : run.head? with
    | none => rfl
    | some f =>
      cases h3 : run.getLast? with
      | none => rfl
      | some l =>
        simp only [Option.map_some, Option.some.injEq]
        have e1 : ∀ x y : ℚ, x + D - (y + D) = x - y := fun x y => by ring
        simp only [Spec.movedEvent, trig_moved, Cand.mk.injEq]
        simp only [Spec.movedRow, e1, true_and, and_true]
        constructor
        · split_ifs <;> ring
        · split_ifs <;> ring

private theorem filterMap_map_option {α β γ δ : Type} (f : α → Option β) (g : γ → α) (f' : γ → Option δ) (k : δ → β)
    (h : ∀ x, f (g x) = (f' x).map k) (l : List γ) : (l.map g).filterMap f = (l.filterMap f').map k := by
  rw [List.filterMap_map, List.map_filterMap]
  congr 1
  funext x
  exact h x

private theorem identify_moved (cfg : Cfg) (D a b : ℚ) (ha : 0 < a) (data : List Row) (thr : List ℚ) :
    identifyCandidates cfg (data.map (Spec.movedRow D a b)) (thr.map fun v => a * v + b) =
      (identifyCandidates cfg data thr).map (Spec.movedEvent D a b) := by
  unfold identifyCandidates
  rw [candidateRuns_moved cfg D a b ha]
  exact filterMap_map_option _ _ _ _ (candidateOf_moved cfg D a b ha) _

private theorem separated_moved (cfg : Cfg) (D a b : ℚ) (e1 e2 : Cand) :
    separated cfg (Spec.movedEvent D a b e1) (Spec.movedEvent D a b e2) = separated cfg e1 e2 := by
  unfold separated Spec.movedEvent
  have h1 : e1.maxTime + D < e2.coaTime + D - cfg.mw ↔ e1.maxTime < e2.coaTime - cfg.mw := by
    constructor <;> intro h <;> linarith
  have h2 : e2.minTime + D > e1.coaTime + D + cfg.mw ↔ e2.minTime > e1.coaTime + cfg.mw := by
    constructor <;> intro h <;> linarith
  simp only [h1, h2]

private theorem eventNums_moved (cfg : Cfg) (D a b : ℚ) (n : ℤ) (cs : List Cand) :
    eventNums cfg n (cs.map (Spec.movedEvent D a b)) =
      (eventNums cfg n cs).map fun p => (p.1, Spec.movedEvent D a b p.2) := by
  induction cs generalizing n with
  | nil => rfl
  | cons c cs ih =>
    cases cs with
    | nil => rfl
    | cons d l =>
      simp only [List.map_cons, eventNums, separated_moved]
      rw [← List.map_cons, ih]

private theorem foldl_min_shift (D : ℚ) (l : List ℚ) (x : ℚ) :
    (l.map (· + D)).foldl min (x + D) = l.foldl min x + D := by
  induction l generalizing x with
  | nil => rfl
  | cons y l ih =>
    simp only [List.map_cons, List.foldl_cons]
    rw [← ih, min_add_add_right]

private theorem foldl_max_shift (D : ℚ) (l : List ℚ) (x : ℚ) :
    (l.map (· + D)).foldl max (x + D) = l.foldl max x + D := by
  induction l generalizing x with
  | nil => rfl
  | cons y l ih =>
    simp only [List.map_cons, List.foldl_cons]
    rw [← ih, max_add_add_right]

private theorem mergeGroup_moved (D a b : ℚ) (ha : 0 < a) (g : List Cand) :
    mergeGroup (g.map (Spec.movedEvent D a b)) = (mergeGroup g).map (Spec.movedEvent D a b) := by
  unfold mergeGroup
  rw [firstMax_map Cand.trigCoa (Spec.movedEvent D a b) Cand.trigCoa
    (fun x y => by simp only [Spec.movedEvent]; exact lt_affine ha)]
  have e1 : minOf ((g.map (Spec.movedEvent D a b)).map Cand.minTime) = (minOf (g.map Cand.minTime)).map (· + D) := by
    rw [List.map_map]
    cases g with
    | nil => rfl
    | cons x g =>
      simp only [List.map_cons, minOf, Option.map_some, Option.some.injEq]
      rw [← foldl_min_shift, List.map_map]
      rfl
  have e2 : maxOf ((g.map (Spec.movedEvent D a b)).map Cand.maxTime) = (maxOf (g.map Cand.maxTime)).map (· + D) := by
    rw [List.map_map]
    cases g with
    | nil => rfl
    | cons x g =>
      simp only [List.map_cons, maxOf, Option.map_some, Option.some.injEq]
      rw [← foldl_max_shift, List.map_map]
      rfl
  rw [e1, e2]
  cases firstMaxBy Cand.trigCoa g <;> cases minOf (g.map Cand.minTime) <;> cases maxOf (g.map Cand.maxTime) <;> rfl

private theorem refine_moved (cfg : Cfg) (D a b : ℚ) (ha : 0 < a) (cs : List Cand) :
    refineCandidates cfg (cs.map (Spec.movedEvent D a b)) =
      (refineCandidates cfg cs).map (Spec.movedEvent D a b) := by
  unfold refineCandidates mergedGroups
  rw [eventNums_moved, pdGroupBy_map, List.map_map]
  have e : ((fun g : List (ℤ × Cand) => g.map (·.2)) ∘ List.map fun p : ℤ × Cand => (p.1, Spec.movedEvent D a b p.2)) =
      (fun g => g.map (Spec.movedEvent D a b)) ∘ fun g : List (ℤ × Cand) => g.map (·.2) := by
    funext g
    simp only [Function.comp, List.map_map]
    rfl
  rw [e, ← List.map_map]
  exact filterMap_map_option _ _ _ _ (mergeGroup_moved D a b ha) _

private theorem keepEvent_moved (D a b s e : ℚ) (region : Option Region) (c : Cand) :
    keepEvent (s + D) (e + D) region (Spec.movedEvent D a b c) = keepEvent s e region c := by
  unfold keepEvent Spec.movedEvent
  simp only [ge_iff_le, add_le_add_iff_right]

private theorem dayStart_shift (k : ℤ) (t : ℚ) : dayStart (t + k * DAY) = dayStart t + k * DAY := by
  unfold dayStart
  have : (t + k * DAY) / DAY = t / DAY + k := by unfold DAY; ring
  rw [this, Int.floor_add_intCast]
  push_cast
  ring

private theorem isMidnight_shift (k : ℤ) (t : ℚ) : isMidnight (t + k * DAY) ↔ isMidnight t := by
  unfold isMidnight
  rw [dayStart_shift]
  exact add_left_inj _

private theorem triggerBatch_moved (cfg : Cfg) (m m' : Method) (smooth : List Row → List Row) (region : Option Region)
    (D a b : ℚ) (hD : ∀ t, isMidnight (t + D) ↔ isMidnight t) (ha : 0 < a) (s e : ℚ) (sd : ScanData)
    (hsm : smooth (sd.rows.map (Spec.movedRow D a b)) =
      (smooth sd.rows).map (Spec.movedRow D a b))
    (hthr : getThreshold m' (((smooth sd.rows).map (Row.trig cfg.norm)).map fun v => a * v + b) sd.sr =
      (getThreshold m ((smooth sd.rows).map (Row.trig cfg.norm)) sd.sr).map fun v => a * v + b) :
    (triggerBatch cfg m' smooth region (s + D) (e + D) (Spec.movedScan D a b sd)).1 =
      (triggerBatch cfg m smooth region s e sd).1.map (Spec.movedEvent D a b) := by
  unfold triggerBatch Spec.movedScan filterEvents
  simp only [hsm]
  have e1 : ((smooth sd.rows).map (Spec.movedRow D a b)).map (Row.trig cfg.norm) =
      ((smooth sd.rows).map (Row.trig cfg.norm)).map fun v => a * v + b := by
    rw [List.map_map, List.map_map]
    apply List.map_congr_left
    intro r _
    exact trig_moved _ _ _ _ _
  rw [e1, hthr, identify_moved cfg _ a b ha, refine_moved cfg _ a b ha, List.zipIdx_map, List.filter_map,
    List.map_map, List.map_map]
  have e2 : (if isMidnight (e + D) then e + D - sd.delta else e + D) =
      (if isMidnight e then e - sd.delta else e) + D := by
    by_cases h : isMidnight e
    · rw [if_pos h, if_pos ((hD e).2 h)]; ring
    · rw [if_neg h, if_neg (fun c => h ((hD e).1 c))]
  rw [e2]
  have e3 : ∀ (z : List (Cand × ℕ)) (stop : ℚ), z.filter ((fun p => keepEvent (s + D) (stop + D) region p.1) ∘
      Prod.map (Spec.movedEvent D a b) id) = z.filter fun p => keepEvent s stop region p.1 := by
    intro z stop
    apply List.filter_congr
    intro p _
    exact keepEvent_moved D a b s stop region p.1
  rw [e3]
  rfl

private theorem batches_moved (k : ℤ) (s e : ℚ) :
    batches (s + k * DAY) (e + k * DAY) = (batches s e).map fun p => (p.1 + k * DAY, p.2 + k * DAY) := by
  induction s using batches.induct (e := e) with
  | case1 s h next ih =>
    rw [batches, dif_pos (by linarith), batches, dif_pos h]
    have e1 : dayStart (s + k * DAY) + DAY = dayStart s + DAY + k * DAY := by rw [dayStart_shift]; ring
    simp only [e1, List.map_cons, add_le_add_iff_right]
    rw [ih]
    congr 2
    split_ifs <;> rfl
  | case2 s h =>
    rw [batches, dif_neg (by intro c; exact h (by linarith)), batches, dif_neg h]
    rfl

private theorem run_moved (cfg : Cfg) (m m' : Method) (smooth : List Row → List Row) (region : Option Region)
    (D a b : ℚ) (hD : ∀ t, isMidnight (t + D) ↔ isMidnight t) (ha : 0 < a) (read : ℚ → ℚ → Option ScanData)
    (hsm : ∀ rows, smooth (rows.map (Spec.movedRow D a b)) = (smooth rows).map (Spec.movedRow D a b))
    (hthr : ∀ s e sd, read s e = some sd → ∀ data,
      getThreshold m' (data.map fun v => a * v + b) sd.sr = (getThreshold m data sd.sr).map fun v => a * v + b)
    (bs : List (ℚ × ℚ)) :
    runBatches cfg m' smooth region
        (fun s e => (read (s - D) (e - D)).map (Spec.movedScan D a b))
        (bs.map fun p => (p.1 + D, p.2 + D)) =
      Spec.movedRun D a b (runBatches cfg m smooth region read bs) := by
  induction bs with
  | nil => rfl
  | cons p bs ih =>
    simp only [List.map_cons, runBatches, add_sub_cancel_right]
    cases h : read p.1 p.2 with
    | none => rfl
    | some sd =>
      simp only [Option.map_some]
      have h1 := triggerBatch_moved cfg m m' smooth region D a b hD ha p.1 p.2 sd (hsm _) (hthr _ _ _ h _)
      rw [ih, h1]
      simp only [Spec.movedRun, List.map_cons]

private theorem trigger_moved (cfg : Cfg) (m m' : Method) (smooth : List Row → List Row) (region : Option Region)
    (k : ℤ) (a b : ℚ) (ha : 0 < a) (read : ℚ → ℚ → Option ScanData)
    (hsm : ∀ rows, smooth (rows.map (Spec.movedRow (k * DAY) a b)) = (smooth rows).map (Spec.movedRow (k * DAY) a b))
    (hthr : ∀ s e sd, read s e = some sd → ∀ data,
      getThreshold m' (data.map fun v => a * v + b) sd.sr = (getThreshold m data sd.sr).map fun v => a * v + b)
    (s e : ℚ) :
    trigger cfg m' smooth region
        (fun s e => (read (s - k * DAY) (e - k * DAY)).map (Spec.movedScan (k * DAY) a b))
        (s + k * DAY) (e + k * DAY) =
      Spec.movedRun (k * DAY) a b (trigger cfg m smooth region read s e) := by
  unfold trigger
  by_cases h : s > e
  · rw [if_pos h, if_pos (by linarith)]
    rfl
  · rw [if_neg h, if_neg (by intro c; exact h (by linarith)), batches_moved]
    exact run_moved cfg m m' smooth region (k * DAY) a b (isMidnight_shift k) ha read hsm hthr _

private theorem map_affine_one (l : List ℚ) : (l.map fun v => 1 * v + 0) = l := by
  conv_rhs => rw [← List.map_id l]
  apply List.map_congr_left
  intro v _
  simp

private theorem threshold_ratio (window mult sr : ℚ) (data : List ℚ) (h : 1 ≤ window * sr) (a : ℚ) :
    getThreshold (.medianRatio window mult) (data.map (fun v => a * v + 0)) sr =
      (getThreshold (.medianRatio window mult) data sr).map (fun v => a * v + 0) := by
  obtain ⟨l1, g1⟩ := C14_median_threshold window mult sr data h
  obtain ⟨l2, g2⟩ := C14_median_threshold window mult sr (data.map (fun v => a * v + 0)) h
  rw [List.length_map] at l2 g2
  apply List.ext_getElem?
  intro i
  rcases Nat.lt_or_ge i data.length with hi | hi
  · rw [g2 i hi, List.getElem?_map, g1 i hi]
    have hch : chunkAt (data.map (fun v => a * v + 0)) ⌊window * sr⌋.toNat i =
        (chunkAt data ⌊window * sr⌋.toNat i).map (fun v => a * v + 0) := by
      unfold chunkAt
      rw [← List.map_drop, ← List.map_take]
    have hne : chunkAt data ⌊window * sr⌋.toNat i ≠ [] := by
      have hL : 0 < ⌊window * sr⌋.toNat := by
        have : 1 ≤ ⌊window * sr⌋ := Int.le_floor.mpr (by exact_mod_cast h)
        omega
      unfold chunkAt
      apply List.ne_nil_of_length_pos
      rw [List.length_take, List.length_drop]
      have := Nat.div_mul_le_self i ⌊window * sr⌋.toNat
      omega
    rw [hch, npMedian_affine hne]
    simp only [Option.map_some, Option.some.injEq]
    ring
  · rw [List.getElem?_eq_none (by omega), List.getElem?_eq_none (by rw [List.length_map]; omega)]

private theorem reflect_in {n : ℕ} (hn : 0 < n) (i : ℤ) : Smooth.reflect n i < n := by
  unfold Smooth.reflect
  have h1 := Int.emod_nonneg i (b := 2 * n) (by omega)
  have h2 := Int.emod_lt_of_pos i (b := 2 * n) (by omega)
  split_ifs with h <;> omega

private theorem correlateAt_affine (w : ℕ → ℚ) (r : ℕ) (x : List ℚ) (a b : ℚ) (i : ℕ) (hi : i < x.length)
    (hw : b = 0 ∨ ((List.range (2 * r + 1)).map w).sum = 1) :
    Smooth.correlateAt w r (x.map fun v => a * v + b) i = a * Smooth.correlateAt w r x i + b := by
  unfold Smooth.correlateAt
  rw [List.length_map]
  have h1 : ∀ k, w k * ((x.map fun v => a * v + b)[Smooth.reflect x.length ((i : ℤ) + k - r)]?).getD 0 =
      a * (w k * (x[Smooth.reflect x.length ((i : ℤ) + k - r)]?).getD 0) + b * w k := by
    intro k
    have h := reflect_in (by omega : 0 < x.length) ((i : ℤ) + k - r)
    rw [List.getElem?_map, List.getElem?_eq_getElem h]
    simp only [Option.map_some, Option.getD_some]
    ring
  simp only [h1]
  have h2 : ∀ (l : List ℕ) (f g : ℕ → ℚ), (l.map fun k => a * f k + b * g k).sum = a * (l.map f).sum + b * (l.map g).sum := by
    intro l f g
    induction l with
    | nil => simp
    | cons k l ih =>
      simp only [List.map_cons, List.sum_cons, ih]
      ring
  rw [h2]
  rcases hw with hw | hw
  · rw [hw]; ring
  · rw [hw]; ring

private theorem smoothCoa_moved (w : ℕ → ℚ) (r : ℕ) (D a b : ℚ)
    (hw : b = 0 ∨ ((List.range (2 * r + 1)).map w).sum = 1) (rows : List Row) :
    Smooth.smoothCoa w r (rows.map (Spec.movedRow D a b)) = (Smooth.smoothCoa w r rows).map (Spec.movedRow D a b) := by
  unfold Smooth.smoothCoa
  rw [List.zipIdx_map, List.map_map, List.map_map, List.map_map, List.map_map]
  apply List.map_congr_left
  intro p hp
  have hi : p.2 < rows.length := by
    have := List.mem_zipIdx hp
    omega
  have e1 : rows.map (Row.coa ∘ Spec.movedRow D a b) = (rows.map Row.coa).map fun v => a * v + b := by
    rw [List.map_map]; rfl
  have e2 : rows.map (Row.coaN ∘ Spec.movedRow D a b) = (rows.map Row.coaN).map fun v => a * v + b := by
    rw [List.map_map]; rfl
  simp only [Function.comp, Prod.map] at e1 e2 ⊢
  rw [e1, e2, id, correlateAt_affine w r _ a b p.2 (by rw [List.length_map]; exact hi) hw,
    correlateAt_affine w r _ a b p.2 (by rw [List.length_map]; exact hi) hw]
  rfl

/-- The smoothing of a run: none, or with weights `w` of radius `r`. -/
def Spec.smoothing (k : Option ((ℕ → ℚ) × ℕ)) : List Row → List Row :=
  match k with
  | none => id
  | some (w, r) => Smooth.smoothCoa w r

private theorem smoothing_moved (sm : Option ((ℕ → ℚ) × ℕ)) (D a b : ℚ)
    (hw : b = 0 ∨ ∀ w r, sm = some (w, r) → ((List.range (2 * r + 1)).map w).sum = 1) (rows : List Row) :
    Spec.smoothing sm (rows.map (Spec.movedRow D a b)) = (Spec.smoothing sm rows).map (Spec.movedRow D a b) := by
  cases sm with
  | none => rfl
  | some p =>
    obtain ⟨w, r⟩ := p
    exact smoothCoa_moved w r D a b (hw.imp id fun h => h w r rfl) rows

/-- C159: triggering does not depend on the day.  If the scan data of a period are found again, in every column but the
time, `k` days later, then triggering the later period with the same settings gives the same batches and events, `k` days
later, or ends with the same exception after the same batches. -/
theorem C159_same_events_on_another_day (cfg : Cfg) (m : Method) (sm : Option ((ℕ → ℚ) × ℕ)) (region : Option Region)
    (k : ℤ) (read read' : ℚ → ℚ → Option ScanData)
    (hread : ∀ s e, read' (s + k * DAY) (e + k * DAY) = (read s e).map (Spec.movedScan (k * DAY) 1 0)) (s e : ℚ) :
    trigger cfg m (Spec.smoothing sm) region read' (s + k * DAY) (e + k * DAY) =
      Spec.movedRun (k * DAY) 1 0 (trigger cfg m (Spec.smoothing sm) region read s e) := by
  have hr : read' = fun s e => (read (s - k * DAY) (e - k * DAY)).map (Spec.movedScan (k * DAY) 1 0) := by
    funext s e
    have := hread (s - k * DAY) (e - k * DAY)
    rw [sub_add_cancel, sub_add_cancel] at this
    exact this
  rw [hr]
  refine trigger_moved cfg m m _ region k 1 0 one_pos read (smoothing_moved sm _ 1 0 (Or.inl rfl)) ?_ s e
  intro _ _ sd _ data
  rw [map_affine_one, map_affine_one]

/-- C160: triggering with a threshold that follows the data does not depend on the scale of the coalescence.  If all
coalescence values of the scan are multiplied by `a > 0`, the same events are triggered. -/
theorem C160_scale_of_coalescence (cfg : Cfg) (m : Method) (sm : Option ((ℕ → ℚ) × ℕ)) (region : Option Region)
    (a : ℚ) (ha : 0 < a) (read : ℚ → ℚ → Option ScanData)
    (hm : match m with
      | .static _ => False
      | .mad window _ => ∀ s e sd, read s e = some sd → 0 ≤ window * sd.sr
      | .medianRatio window _ => ∀ s e sd, read s e = some sd → 1 ≤ window * sd.sr) (s e : ℚ) :
    trigger cfg m (Spec.smoothing sm) region (fun s e => (read s e).map (Spec.movedScan 0 a 0)) s e =
      Spec.movedRun 0 a 0 (trigger cfg m (Spec.smoothing sm) region read s e) := by
  have h := trigger_moved cfg m m (Spec.smoothing sm) region 0 a 0 ha read
    (smoothing_moved sm _ a 0 (Or.inl rfl)) (by
      intro s e sd hr data
      cases m with
      | static t => exact hm.elim
      | mad window mult => exact C46_threshold_equivariant window mult sd.sr data (hm s e sd hr) a 0 ha
      | medianRatio window mult => exact threshold_ratio window mult sd.sr data (hm s e sd hr) a) s e
  simp only [Int.cast_zero, zero_mul, sub_zero, add_zero] at h
  exact h

/-- C160: with the MAD threshold a constant background does not matter either. -/
theorem C160_background (cfg : Cfg) (window mult : ℚ) (sm : Option ((ℕ → ℚ) × ℕ)) (region : Option Region)
    (a b : ℚ) (ha : 0 < a) (read : ℚ → ℚ → Option ScanData)
    (hw : ∀ w r, sm = some (w, r) → ((List.range (2 * r + 1)).map w).sum = 1)
    (hm : ∀ s e sd, read s e = some sd → 0 ≤ window * sd.sr) (s e : ℚ) :
    trigger cfg (.mad window mult) (Spec.smoothing sm) region (fun s e => (read s e).map (Spec.movedScan 0 a b)) s e =
      Spec.movedRun 0 a b (trigger cfg (.mad window mult) (Spec.smoothing sm) region read s e) := by
  have h := trigger_moved cfg (.mad window mult) (.mad window mult) (Spec.smoothing sm) region 0 a b ha read
    (smoothing_moved sm _ a b (Or.inr hw))
    (fun s e sd hr data => C46_threshold_equivariant window mult sd.sr data (hm s e sd hr) a b ha) s e
  simp only [Int.cast_zero, zero_mul, sub_zero, add_zero] at h
  exact h

/-- C160: with a static threshold, coalescence and threshold may be scaled together. -/
theorem C160_static_scaled_along (cfg : Cfg) (t : ℚ) (sm : Option ((ℕ → ℚ) × ℕ)) (region : Option Region)
    (a : ℚ) (ha : 0 < a) (read : ℚ → ℚ → Option ScanData) (s e : ℚ) :
    trigger cfg (.static (a * t)) (Spec.smoothing sm) region (fun s e => (read s e).map (Spec.movedScan 0 a 0)) s e =
      Spec.movedRun 0 a 0 (trigger cfg (.static t) (Spec.smoothing sm) region read s e) := by
  have h := trigger_moved cfg (.static t) (.static (a * t)) (Spec.smoothing sm) region 0 a 0 ha read
    (smoothing_moved sm _ a 0 (Or.inl rfl)) (by
      intro s e sd hr data
      simp only [getThreshold, List.map_map]
      apply List.map_congr_left
      intro v _
      simp only [Function.comp]
      ring) s e
  simp only [Int.cast_zero, zero_mul, sub_zero, add_zero] at h
  exact h

/-- Five samples with one burst. -/
def exShiftRead (t0 : ℚ) : ScanData :=
  ⟨[⟨t0, 1, 1, 0, 0, 0⟩, ⟨t0 + 1, 3, 3, 0, 0, 0⟩, ⟨t0 + 2, 9, 9, 1, 2, 3⟩, ⟨t0 + 3, 2, 2, 0, 0, 0⟩,
    ⟨t0 + 4, 1, 1, 0, 0, 0⟩], 1, 1⟩

/-- The burst is triggered, at the first day and, with scan data that are twice as large, with twice the coalescence;
with a static threshold, scaling only the data gives other events. -/
example : (triggerBatch ⟨1, 2, false⟩ (.mad 5 2) id none 100 200 (exShiftRead 110)).1 =
      [⟨112, 9, 1, 2, 3, 110, 114, 9, 9⟩] ∧
    (triggerBatch ⟨1, 2, false⟩ (.mad 5 2) id none 100 200 (Spec.movedScan 0 2 0 (exShiftRead 110))).1 =
      [⟨112, 18, 1, 2, 3, 110, 114, 18, 18⟩] ∧
    (triggerBatch ⟨1, 2, false⟩ (.mad 5 2) id none (100 + 86400) (200 + 86400)
      (Spec.movedScan 86400 1 0 (exShiftRead 110))).1 = [⟨86512, 9, 1, 2, 3, 86510, 86514, 9, 9⟩] ∧
    (triggerBatch ⟨1, 2, false⟩ (.static 10) id none 100 200 (exShiftRead 110)).1 = [] ∧
    (triggerBatch ⟨1, 2, false⟩ (.static 10) id none 100 200 (Spec.movedScan 0 2 0 (exShiftRead 110))).1 ≠ [] := by
  decide +kernel

end QM

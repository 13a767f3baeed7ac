import Verif.Props.WaveLocate

/-!
# What locate finds does not depend on the day: C175
-/

namespace QM

open QM.CalcOnsets
open QM.Data (Str loadFromPath)
open QM.Pads
open QM.WaveDetect
open QM.Locate (Trig Later Row Outcome Computed Result)

/-! ## Specification -/

/-- The same triggered event `D` seconds later. -/
def Spec.laterTrig (D : ℚ) (x : Trig) : Trig := { x with time := x.time + D }

/-- The same events written with origin times `D` seconds later. -/
def Spec.laterLocated (D : ℚ) (r : Result) : Result :=
  ⟨r.written.map fun x => (Spec.laterTrig D x.1, x.2 + D), r.completed⟩

namespace LocateShift

open DetectShift

theorem readEvent_later (k : ℤ) (s : Scan) (h : Spec.Dateless (k * 86400) s) (w extra : ℚ × ℚ) :
    (Spec.laterScan k s).readEvent (w.1 + k * 86400, w.2 + k * 86400) extra = (s.readEvent w extra).map (lo (k * 86400)) := by
  unfold Scan.readEvent
  rw [← read_later _ _ h.toSample]
  congr 1
  simp only [Spec.laterScan]
  rw [add_sub_right_comm w.1, add_right_comm w.2, load_later, List.flatMap_map]
  unfold lf
  rw [List.map_flatMap]
  congr 1
  funext q
  simp only [add_sub_cancel_right]

/-- One row of the table later. -/
def lR (D : ℚ) (r : Row) : Row := { r with dt := r.dt + D }

/-- The outcome for one event later. -/
def lOut {σ : Type} (D : ℚ) : Outcome σ → Outcome σ
  | .computed rows map => .computed (rows.map (lR D)) map
  | o => o

theorem compute_later (k : ℤ) (s : Scan) (h : Spec.Dateless (k * 86400) s) (ts : ℚ) (w : ℚ × ℚ) (o : Waveforms.Out ℚ) :
    (Spec.laterScan k s).compute ts (w.1 + k * 86400, w.2 + k * 86400) (lo (k * 86400) o) = s.compute ts w o := by
  have hd : (Spec.laterScan k s).data (w.1 + k * 86400, w.2 + k * 86400) (lo (k * 86400) o) =
      lD (k * 86400) (s.data w o) := by
    unfold Scan.data lD lo
    simp only [List.map_map]
    rfl
  have ho : calculateOnsets (Spec.laterScan k s).onset (Spec.laterScan k s).ext
      ((Spec.laterScan k s).data (w.1 + k * 86400, w.2 + k * 86400) (lo (k * 86400) o)) =
      calculateOnsets s.onset s.ext (s.data w o) := by
    rw [hd]
    exact onsets_later h (s.data w o)
  unfold Scan.compute WaveScan.compute
  rw [ho]
  simp only [Spec.laterScan, add_sub_cancel_right, Prod.mk.eta]

theorem window_later (trigger mw D : ℚ) (pads : ℚ × ℚ) :
    locateWindow (trigger + D) mw pads = ((locateWindow trigger mw pads).1 + D, (locateWindow trigger mw pads).2 + D) := by
  unfold locateWindow
  simp only [Prod.mk.injEq]
  constructor <;> ring

theorem mwTimes_later (trigger mw D : ℚ) (rate : ℕ) :
    mwTimes (trigger + D) mw rate = (mwTimes trigger mw rate).map (· + D) := by
  unfold mwTimes
  rw [List.map_map]
  refine List.map_congr_left fun i _ => ?_
  simp only [Function.comp]
  ring

theorem outcome_later (k : ℤ) (s : Scan) (h : Spec.Dateless (k * 86400) s) (mw : ℚ) (extra : ℚ × ℚ) (x : Trig) :
    (Spec.laterScan k s).locateOutcome mw extra (Spec.laterTrig (k * 86400) x) =
      lOut (k * 86400) (s.locateOutcome mw extra x) := by
  unfold Scan.locateOutcome
  have hp : scanPads (Spec.laterScan k s).windows (Spec.laterScan k s).ttmax (Spec.laterScan k s).rate (4 * mw) =
      scanPads s.windows s.ttmax s.rate (4 * mw) := rfl
  rw [hp]
  have ht : (Spec.laterTrig (k * 86400) x).time = x.time + k * 86400 := rfl
  have hr : (Spec.laterScan k s).rate = s.rate := rfl
  rw [ht, window_later, readEvent_later k s h, hr, mwTimes_later]
  cases s.readEvent (locateWindow x.time mw (scanPads s.windows s.ttmax s.rate (4 * mw))) extra with
  | error e => cases e <;> rfl
  | ok o =>
    simp only [Except.map]
    rw [compute_later k s h]
    cases s.compute (4 * mw) (locateWindow x.time mw (scanPads s.windows s.ttmax s.rate (4 * mw))) o with
    | error e =>
      cases e with
      | onset e => cases e <;> rfl
      | _ => rfl
    | ok out =>
      simp only [List.length_map]
      by_cases hl : out.length = (mwTimes x.time mw s.rate).length
      · rw [if_pos hl, if_pos hl]
        simp only [lOut]
        congr 1
        rw [List.zipWith_map_left, List.map_zipWith]
        rfl
      · rw [if_neg hl, if_neg hl]
        rfl

theorem firstMaxBy_map {α β : Type} (key : β → ℚ) (f : α → β) (l : List α) :
    firstMaxBy key (l.map f) = (firstMaxBy (fun a => key (f a)) l).map f := by
  cases l with
  | nil => rfl
  | cons a l =>
    by_cases hn : (a :: l) = []
    · cases hn
    obtain ⟨m, hm⟩ := firstMaxBy_isSome (fun a => key (f a)) hn
    obtain ⟨pre, post, e1, e2, e3⟩ := firstMaxBy_spec hm
    rw [hm, e1, List.map_append, List.map_cons]
    refine firstMaxBy_of_split ?_ ?_
    · intro x hx
      obtain ⟨y, hy, rfl⟩ := List.mem_map.1 hx
      exact e2 y hy
    · intro x hx
      obtain ⟨y, hy, rfl⟩ := List.mem_map.1 hx
      exact e3 y hy

theorem maxRow_later (D : ℚ) (rows : List Row) : Locate.maxRow (rows.map (lR D)) = (Locate.maxRow rows).map (lR D) :=
  firstMaxBy_map _ _ _

/-- An event with its computed coalescence later. -/
def lC {σ : Type} (D : ℚ) (e : Computed σ) : Computed σ := ⟨e.rows.map (lR D), e.map, e.otime + D⟩

theorem add_later {σ : Type} (D : ℚ) (rows : List Row) (map : List σ) :
    Locate.addComputeOutput (rows.map (lR D)) map = (Locate.addComputeOutput rows map).map (lC D) := by
  unfold Locate.addComputeOutput
  rw [maxRow_later]
  cases Locate.maxRow rows <;> rfl

theorem trim_later {σ : Type} (D mw : ℚ) (e : Computed σ) :
    Locate.trim2window mw (lC D e) = (Locate.trim2window mw e).map (lC D) := by
  have hk : ((lC D e).rows.zipIdx.filter fun r => (lC D e).otime - mw ≤ r.1.dt ∧ r.1.dt ≤ (lC D e).otime + mw) =
      (e.rows.zipIdx.filter fun r => e.otime - mw ≤ r.1.dt ∧ r.1.dt ≤ e.otime + mw).map (Prod.map (lR D) id) := by
    show ((e.rows.map (lR D)).zipIdx.filter _) = _
    rw [List.zipIdx_map, List.filter_map]
    congr 1
    apply List.filter_congr
    rintro ⟨r, i⟩ _
    simp only [Function.comp, Prod.map, lR, lC]
    refine decide_eq_decide.2 ?_
    constructor <;> rintro ⟨h1, h2⟩ <;> constructor <;> linarith
  unfold Locate.trim2window
  simp only [hk]
  generalize (e.rows.zipIdx.filter fun r => e.otime - mw ≤ r.1.dt ∧ r.1.dt ≤ e.otime + mw) = kept
  have h1 : (kept.map (Prod.map (lR D) id)).map Prod.snd = kept.map Prod.snd := by rw [List.map_map]; rfl
  have h2 : (kept.map (Prod.map (lR D) id)).map Prod.fst = (kept.map Prod.fst).map (lR D) := by
    rw [List.map_map, List.map_map]; rfl
  rw [h1, h2, maxRow_later]
  cases (kept.map Prod.snd).head? with
  | none => rfl
  | some a =>
    cases (kept.map Prod.snd).getLast? with
    | none => rfl
    | some b =>
      cases Locate.maxRow (kept.map Prod.fst) <;> rfl

theorem loop_later {σ : Type} (D mw : ℚ) (f f' : Trig → Outcome σ) (g g' : Trig → Later)
    (hf : ∀ x, f' (Spec.laterTrig D x) = lOut D (f x)) (hg : ∀ x, g' (Spec.laterTrig D x) = g x) (l : List Trig) :
    Locate.locateEvents mw f' g' (l.map (Spec.laterTrig D)) = Spec.laterLocated D (Locate.locateEvents mw f g l) := by
  induction l with
  | nil => rfl
  | cons x l ih =>
    rw [List.map_cons]
    unfold Locate.locateEvents
    rw [hf x]
    cases f x with
    | archiveEmpty => exact ih
    | dataGap => exact ih
    | dataAvailability => exact ih
    | other => rfl
    | computed rows map =>
      simp only [lOut, add_later]
      cases Locate.addComputeOutput rows map with
      | none => rfl
      | some e =>
        simp only [Option.map_some]
        have hin : Locate.inMarginalWindow (Spec.laterTrig D x).time (lC D e).otime mw =
            Locate.inMarginalWindow x.time e.otime mw := by
          unfold Locate.inMarginalWindow
          simp only [Spec.laterTrig, lC]
          congr 1 <;> refine decide_eq_decide.2 ?_ <;> constructor <;> intro h <;> linarith
        rw [hin, trim_later, hg, ih]
        by_cases hw : Locate.inMarginalWindow x.time e.otime mw = true
        · rw [if_pos hw, if_pos hw]
          cases Locate.trim2window mw e with
          | none => rfl
          | some e' => cases g x <;> rfl
        · rw [if_neg hw, if_neg hw]

end LocateShift

open LocateShift in
/-- **C175**: if everything in the archive is recorded again `k` days later, locating the same events triggered `k` days later
writes the same events, with origin times `k` days later, and comes to its end or stops with an exception likewise.  This holds
for all files, with or without gaps, whatever the settings; asked is only that the signal processing of ObsPy does not look at
the date and that the later stages fail for the same events. -/
theorem C175_any_day (k : ℤ) (s : Scan) (h : Spec.Dateless (k * 86400) s) (mw : ℚ) (amp : Option (ℚ × ℚ))
    (preCut postCut : Option ℚ) (later later' : Trig → Later)
    (hl : ∀ x, later' (Spec.laterTrig (k * 86400) x) = later x) (events : List Trig) :
    (Spec.laterScan k s).locate mw amp preCut postCut later' (events.map (Spec.laterTrig (k * 86400))) =
      Spec.laterLocated (k * 86400) (s.locate mw amp preCut postCut later events) := by
  unfold Scan.locate
  exact loop_later _ mw _ _ later later' (fun x => outcome_later k s h mw _ x) hl events

/-! ## A case that meets the hypotheses -/

namespace LocateShift

open WaveLocate

/-- The pulse a week earlier: the event triggered at 3 s of that day is located there. -/
example (x : Trig) (hx : x.time = 3) :
    (Spec.laterTrig ((-7 : ℤ) * 86400) x, 3 + ((-7 : ℤ) : ℚ) * 86400) ∈
      ((Spec.laterScan (-7) pulseScan).locate 1 none none (some 5) (fun _ => .fine)
        [Spec.laterTrig ((-7 : ℤ) * 86400) x]).written := by
  have hd : Spec.Dateless ((-7 : ℤ) * 86400) pulseScan := ⟨fun _ => rfl, fun _ _ => rfl, fun _ _ => rfl, fun _ _ _ => rfl⟩
  have h := C175_any_day (-7) pulseScan hd 1 none none (some 5) (fun _ => .fine) (fun _ => .fine) (fun _ => rfl) [x]
  rw [List.map_cons, List.map_nil] at h
  rw [h]
  exact List.mem_map.2 ⟨(x, 3), pulse_located x hx, rfl⟩

end LocateShift

end QM

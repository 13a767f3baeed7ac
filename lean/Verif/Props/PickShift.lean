import Verif.Props.Picker

/-!
# The picks of a station, by themselves and at another time: C189
-/

namespace QM
open QM.Picker

/-! ## Specification -/

/-- A row of the table of picks, `τ` later. -/
def Spec.laterRow (τ : ℚ) (r : Row) : Row :=
  { r with modelled := r.modelled + τ, pick := r.pick.map (· + τ) }

/-- An event `τ` later, in data that begin `τ` later; all else is equal. -/
def Spec.laterEvent (τ : ℚ) (c : Ctx) : Ctx := { c with otime := c.otime + τ, starttime := c.starttime + τ }

/-- The same event and settings, as far as one station is concerned. -/
structure Spec.SameFor (station : Str) (c c' : Ctx) : Prop where
  otime : c'.otime = c.otime
  starttime : c'.starttime = c.starttime
  sr : c'.sr = c.sr
  mw : c'.mw = c.mw
  fraction : c'.fraction = c.fraction
  method : c'.method = c.method
  traveltime : c'.traveltime station = c.traveltime station
  fit : c'.fit station = c.fit station

/-! ## Lemmas -/

namespace PickShift

theorem mapM_map {α β γ ε : Type} (f : α → Except ε β) (f' : α → Except ε γ) (g : β → γ) (l : List α)
    (h : ∀ a ∈ l, f' a = (f a).map g) : l.mapM f' = (l.mapM f).map (List.map g) := by
  induction l with
  | nil => rfl
  | cons a l ih =>
    rw [List.mapM_cons, List.mapM_cons, h a (by simp), ih fun b hb => h b (by simp [hb])]
    cases f a with
    | error e => rfl
    | ok b =>
      cases l.mapM f with
      | error e => rfl
      | ok bs => rfl

theorem pickOne_later (τ : ℚ) (c : Ctx) (s : Str) (ws : List Win) (o : (Str × List ℚ) × Win) :
    pickOne (Spec.laterEvent τ c) s ws o = (pickOne c s ws o).map (Spec.laterRow τ) := by
  unfold pickOne
  simp only [Spec.laterEvent]
  cases fitGaussian (c.fit s o.1.1) o.1.2 c.sr (findThreshold c.method o.1.2 ws) o.2 with
  | error e => rfl
  | ok r =>
    cases r with
    | failed =>
      simp only [Except.map, Spec.laterRow, Option.map_none]
      congr 2
      ring
    | «at» μ σ snr =>
      simp only [Except.map, Spec.laterRow, Option.map_some]
      congr 2
      · ring
      · congr 1; ring
      · congr 1; ring

theorem windows_later (τ : ℚ) (c : Ctx) (s : Str) (on : List (Str × List ℚ)) :
    stationWindows (Spec.laterEvent τ c) s on = stationWindows c s on := by
  unfold stationWindows rawWindows
  congr 1
  apply List.map_congr_left
  intro o _
  simp only [determineWindow, Spec.laterEvent]
  rw [show c.otime + τ + c.traveltime s o.1 - (c.starttime + τ) = c.otime + c.traveltime s o.1 - c.starttime by ring]

theorem pickStation_later (τ : ℚ) (c : Ctx) (s : Str × List (Str × List ℚ)) :
    pickStation (Spec.laterEvent τ c) s = (pickStation c s).map (List.map (Spec.laterRow τ)) := by
  unfold pickStation
  by_cases h : s.2 = []
  · rw [if_pos h, if_pos h]; rfl
  · rw [if_neg h, if_neg h]
    simp only [windows_later]
    exact mapM_map _ _ _ _ fun o _ => pickOne_later τ c s.1 _ o

theorem pickStation_same (c c' : Ctx) (s : Str × List (Str × List ℚ)) (h : Spec.SameFor s.1 c c') :
    pickStation c' s = pickStation c s := by
  have hw : stationWindows c' s.1 s.2 = stationWindows c s.1 s.2 := by
    unfold stationWindows rawWindows
    simp only [h.otime, h.starttime, h.sr, h.mw, h.fraction, h.traveltime]
  unfold pickStation
  simp only [hw]
  congr 1
  congr 1
  funext o
  unfold pickOne
  simp only [h.otime, h.starttime, h.sr, h.method, h.traveltime, h.fit]

theorem pickPhases_one (c : Ctx) (s : Str × List (Str × List ℚ)) : pickPhases c [s] = pickStation c s := by
  unfold pickPhases
  rw [List.mapM_cons, List.mapM_nil]
  cases pickStation c s with
  | error e => rfl
  | ok b => simp [Except.map, bind, Except.bind, pure, Except.pure]

theorem pickPhases_cons (c : Ctx) (s : Str × List (Str × List ℚ)) (l : List (Str × List (Str × List ℚ))) :
    pickPhases c (s :: l) = (pickStation c s).bind fun a => (pickPhases c l).map (a ++ ·) := by
  unfold pickPhases
  rw [List.mapM_cons]
  cases pickStation c s with
  | error e => rfl
  | ok b =>
    cases l.mapM (pickStation c) with
    | error e => rfl
    | ok bs => rfl

theorem pickStation_names {c : Ctx} {s : Str × List (Str × List ℚ)} {rows : List Row}
    (h : pickStation c s = .ok rows) : ∀ r ∈ rows, r.station = s.1 := by
  unfold pickStation at h
  split_ifs at h
  have hz := mapM_ok_forall₂ h
  intro r hr
  obtain ⟨hlen, hget⟩ := List.forall₂_iff_get.1 hz
  obtain ⟨k, hk, rfl⟩ := List.getElem_of_mem hr
  have ho := hget k (by omega) hk
  simp only [List.get_eq_getElem] at ho
  unfold pickOne at ho
  split at ho
  · simp at ho
  · simp only at ho
    split at ho <;> simp only [Except.ok.injEq] at ho <;> rw [← ho]

end PickShift

open PickShift

/-! ## C189 -/

/-- C189: the picks of an event at another time, in data at another time, are the same, later by as much; the residuals
are the same, and so are the errors. -/
theorem C189_later (τ : ℚ) (c : Ctx) (onsets : List (Str × List (Str × List ℚ))) :
    pickPhases (Spec.laterEvent τ c) onsets = (pickPhases c onsets).map (List.map (Spec.laterRow τ)) := by
  unfold pickPhases
  rw [mapM_map _ _ _ onsets fun s _ => pickStation_later τ c s]
  cases onsets.mapM (pickStation c) with
  | error e => rfl
  | ok b => simp only [Except.map, List.map_flatten]

/-- C189: the rows of a station are those it has when it is picked alone, with whatever traveltimes and fits for the
other stations; stations have to have different names. -/
theorem C189_own_rows (c c' : Ctx) (onsets : List (Str × List (Str × List ℚ))) (rows : List Row)
    (h : pickPhases c onsets = .ok rows) (hn : (onsets.map Prod.fst).Nodup) (s : Str × List (Str × List ℚ))
    (hs : s ∈ onsets) (hc : Spec.SameFor s.1 c c') :
    pickPhases c' [s] = .ok (rows.filter fun r => r.station = s.1) := by
  rw [pickPhases_one, pickStation_same c c' s hc]
  clear hc c'
  induction onsets generalizing rows with
  | nil => simp at hs
  | cons a l ih =>
    rw [pickPhases_cons] at h
    cases ha : pickStation c a with
    | error e => rw [ha] at h; cases h
    | ok ra =>
      rw [ha] at h
      cases hl : pickPhases c l with
      | error e => rw [hl] at h; cases h
      | ok rl =>
        rw [hl] at h
        simp only [Except.bind, Except.map, Except.ok.injEq] at h
        subst h
        rw [List.map_cons, List.nodup_cons] at hn
        rw [List.filter_append]
        have names : ∀ (l : List (Str × List (Str × List ℚ))) (rl : List Row), pickPhases c l = .ok rl →
            ∀ r ∈ rl, r.station ∈ l.map Prod.fst := by
          intro l
          induction l with
          | nil => intro rl h r hr; cases h; simp at hr
          | cons b l ihl =>
            intro rl h r hr
            rw [pickPhases_cons] at h
            cases hb : pickStation c b with
            | error e => rw [hb] at h; cases h
            | ok rb =>
              rw [hb] at h
              cases hl : pickPhases c l with
              | error e => rw [hl] at h; cases h
              | ok rl' =>
                rw [hl] at h
                cases h
                rcases List.mem_append.1 hr with hr | hr
                · rw [pickStation_names hb r hr]; simp
                · exact List.mem_cons_of_mem _ (ihl _ hl r hr)
        rcases List.mem_cons.1 hs with rfl | hs
        · have e1 : ra.filter (fun r => r.station = s.1) = ra :=
            List.filter_eq_self.2 fun r hr => by simpa using pickStation_names ha r hr
          have e2 : rl.filter (fun r => r.station = s.1) = [] :=
            List.filter_eq_nil_iff.2 fun r hr hc => hn.1 (by
              have := names l rl hl r hr
              rwa [of_decide_eq_true hc] at this)
          rw [e1, e2, List.append_nil, ha]
        · have hne : a.1 ≠ s.1 := fun hc => hn.1 (hc ▸ List.mem_map_of_mem hs)
          have e1 : ra.filter (fun r => r.station = s.1) = [] :=
            List.filter_eq_nil_iff.2 fun r hr hc => hne (by
              rw [← pickStation_names ha r hr]; exact of_decide_eq_true hc)
          rw [e1, List.nil_append]
          exact ih rl hl hn.2 hs

/-- C189: picking fails if and only if it fails for one of the stations alone, with the error of the first of these. -/
theorem C189_fails (c : Ctx) (onsets : List (Str × List (Str × List ℚ))) (e : Picker.Err) :
    pickPhases c onsets = .error e ↔
      ∃ l s l', onsets = l ++ s :: l' ∧ pickPhases c [s] = .error e ∧ ∀ t ∈ l, ∃ rows, pickPhases c [t] = .ok rows := by
  simp only [pickPhases_one]
  induction onsets with
  | nil =>
    constructor
    · intro h; cases h
    · rintro ⟨l, s, l', h, -⟩; simp at h
  | cons a os ih =>
    rw [pickPhases_cons]
    cases ha : pickStation c a with
    | error e' =>
      constructor
      · intro h
        cases h
        exact ⟨[], a, os, rfl, ha, by simp⟩
      · rintro ⟨l, s, l', h, hs, hl⟩
        cases l with
        | nil =>
          simp only [List.nil_append, List.cons.injEq] at h
          rw [← h.1, ha] at hs
          cases hs
          rfl
        | cons b l =>
          simp only [List.cons_append, List.cons.injEq] at h
          obtain ⟨rows, hr⟩ := hl b (by simp)
          rw [← h.1, ha] at hr
          cases hr
    | ok ra =>
      have hm : (Except.bind (Except.ok ra : Except Picker.Err (List Row)) fun a => (pickPhases c os).map (a ++ ·)) =
          .error e ↔ pickPhases c os = .error e := by
        cases pickPhases c os with
        | error e' => simp [Except.bind, Except.map]
        | ok r => simp [Except.bind, Except.map]
      rw [hm, ih]
      constructor
      · rintro ⟨l, s, l', rfl, hs, hl⟩
        refine ⟨a :: l, s, l', rfl, hs, ?_⟩
        intro t ht
        rcases List.mem_cons.1 ht with rfl | ht
        · exact ⟨ra, ha⟩
        · exact hl t ht
      · rintro ⟨l, s, l', h, hs, hl⟩
        cases l with
        | nil =>
          simp only [List.nil_append, List.cons.injEq] at h
          rw [← h.1, ha] at hs
          cases hs
        | cons b l =>
          simp only [List.cons_append, List.cons.injEq] at h
          exact ⟨l, s, l', h.2, hs, fun t ht => hl t (by simp [ht])⟩

/-- The two stations of C76 a day later, and the second of them alone with other traveltimes for the first. -/
example : (pickPhases (Spec.laterEvent 86400 exPickCtx) exPickOnsets).toOption.map
      (fun l => l.map fun r => (r.station, r.modelled, r.pick, r.residual)) =
      some [(['A'], 86414, some 86413, some (-1)), (['A'], 86418, some 86419, some 1), (['B'], 86414, none, none)] ∧
    (pickPhases { exPickCtx with traveltime := fun s _ => if s = ['B'] then 4 else 0 } exPickOnsets.tail).toOption.map
      (fun l => l.map fun r => (r.station, r.modelled, r.pick, r.residual)) = some [(['B'], 14, none, none)] ∧
    (exPickOnsets.map Prod.fst).Nodup := by
  refine ⟨?_, ?_, by decide⟩ <;> decide +kernel

end QM

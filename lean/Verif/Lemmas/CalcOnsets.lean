import Verif.Model.CalcOnsets
import Verif.Lemmas.Compute

/-!
# Lemmas about `calculate_onsets`: the loops as one list of results, and pre-processing of part of a stream
-/

namespace QM.CalcOnsets

open QM.Data (Str Trace)
open QM.Util (RTr Dsp decimate upsampleRate resampleStep resample fMod)

/-- The result for a station and phase, if nothing was raised. -/
noncomputable def res (c : Cfg) (x : Ext) (d : Data) (s p : Str) : Option (List (Str × List ℚ) × List (Option ℝ)) :=
  match preStream c x d p with
  | .error _ => none
  | .ok l =>
    match stationPhase c x d p l s with
    | .error _ => none
    | .ok r => r

/-- Nothing is raised for the phase. -/
def Fine (c : Cfg) (x : Ext) (d : Data) (p : Str) : Prop :=
  ∃ l, preStream c x d p = .ok l ∧ ∀ s ∈ d.stations, ∃ r, stationPhase c x d p l s = .ok r

/-- Availability as a number. -/
noncomputable def avNum (c : Cfg) (x : Ext) (d : Data) (s p : Str) : ℕ := if (res c x d s p).isSome then 1 else 0

/-- The labelled onset function. -/
noncomputable def lab (c : Cfg) (x : Ext) (d : Data) (s p : Str) : (Str × Str) × List (Option ℝ) :=
  ((s, p), ((res c x d s p).getD ([], [])).2)

theorem stationLoop_ok (c : Cfg) (x : Ext) (d : Data) (p : Str) (l : List Trace) (hl : preStream c x d p = .ok l)
    (ss : List Str) (hss : ∀ s ∈ ss, ∃ r, stationPhase c x d p l s = .ok r) : ∀ o : Out,
    stationLoop c x d p l ss o = .ok
      ⟨(ss.foldl (fun st s => Compute.visit (avNum c x d) (lab c x d) st (s, p)) (o.availability, o.onsets)).1,
       (ss.foldl (fun st s => Compute.visit (avNum c x d) (lab c x d) st (s, p)) (o.availability, o.onsets)).2,
       o.used ++ ss.flatMap fun s => ((res c x d s p).getD ([], [])).1⟩ := by
  induction ss with
  | nil => intro o; simp [stationLoop]
  | cons s ss ih =>
    intro o
    obtain ⟨r, hr⟩ := hss s (by simp)
    have ih := ih fun s' h => hss s' (by simp [h])
    have hres : res c x d s p = r := by unfold res; rw [hl]; simp only; rw [hr]
    unfold stationLoop
    rw [hr]
    cases r with
    | none =>
      simp only
      rw [ih]
      simp only [List.foldl_cons, Compute.visit, avNum, hres, List.flatMap_cons]
      simp
    | some q =>
      obtain ⟨rs, f⟩ := q
      simp only
      rw [ih]
      simp only [List.foldl_cons, Compute.visit, avNum, lab, hres, List.flatMap_cons]
      simp

theorem stationLoop_fine (c : Cfg) (x : Ext) (d : Data) (p : Str) (l : List Trace)
    (ss : List Str) : ∀ o o' : Out, stationLoop c x d p l ss o = .ok o' →
    ∀ s ∈ ss, ∃ r, stationPhase c x d p l s = .ok r := by
  induction ss with
  | nil => intro o o' _ s hs; simp at hs
  | cons s ss ih =>
    intro o o' h
    unfold stationLoop at h
    cases hr : stationPhase c x d p l s with
    | error e => rw [hr] at h; simp at h
    | ok r =>
      rw [hr] at h
      intro s' hs'
      rcases List.mem_cons.mp hs' with rfl | hs'
      · exact ⟨r, hr⟩
      cases r with
      | none => exact ih _ _ h s' hs'
      | some q => exact ih _ _ h s' hs'

/-- The accumulated output, when nothing was raised. -/
noncomputable def final (c : Cfg) (x : Ext) (d : Data) (ps : List Str) (o : Out) : Out :=
  ⟨((Compute.allPairs ps d.stations).foldl (Compute.visit (avNum c x d) (lab c x d)) (o.availability, o.onsets)).1,
   ((Compute.allPairs ps d.stations).foldl (Compute.visit (avNum c x d) (lab c x d)) (o.availability, o.onsets)).2,
   o.used ++ ps.flatMap fun p => d.stations.flatMap fun s => ((res c x d s p).getD ([], [])).1⟩

theorem phaseLoop_fine (c : Cfg) (x : Ext) (d : Data) (ps : List Str) : ∀ o o' : Out,
    phaseLoop c x d ps o = .ok o' → (∀ p ∈ ps, Fine c x d p) := by
  induction ps with
  | nil => intro o o' _ p hp; simp at hp
  | cons p ps ih =>
    intro o o' h
    unfold phaseLoop at h
    cases hl : preStream c x d p with
    | error e => rw [hl] at h; simp at h
    | ok l =>
      rw [hl] at h
      simp only at h
      cases hs : stationLoop c x d p l d.stations o with
      | error e => rw [hs] at h; simp at h
      | ok o1 =>
        rw [hs] at h
        intro q hq
        rcases List.mem_cons.mp hq with rfl | hq
        · exact ⟨l, hl, stationLoop_fine c x d q l _ _ _ hs⟩
        · exact ih _ _ h q hq

theorem phaseLoop_ok (c : Cfg) (x : Ext) (d : Data) (ps : List Str) (h : ∀ p ∈ ps, Fine c x d p) : ∀ o : Out,
    phaseLoop c x d ps o = .ok (final c x d ps o) := by
  induction ps with
  | nil => intro o; simp [phaseLoop, final, Compute.allPairs]
  | cons p ps ih =>
    intro o
    obtain ⟨l, hl, hs⟩ := h p (by simp)
    unfold phaseLoop
    rw [hl]
    simp only
    rw [stationLoop_ok c x d p l hl _ hs]
    simp only
    rw [ih fun q hq => h q (by simp [hq])]
    simp only [final, Compute.allPairs, List.flatMap_cons, List.foldl_append, List.foldl_map]
    simp

/-- `calculate_onsets` returned: nothing was raised, something is available, lengths agree. -/
theorem calculateOnsets_iff (c : Cfg) (x : Ext) (d : Data) (o : Out) : calculateOnsets c x d = .ok o ↔
    (∀ p ∈ c.phases, Fine c x d p) ∧ o = final c x d c.phases ⟨[], [], []⟩ ∧
    (o.availability.map Prod.snd).sum ≠ 0 ∧ sameLength (o.onsets.map Prod.snd) = true := by
  constructor
  · intro h
    unfold calculateOnsets at h
    cases hp : phaseLoop c x d c.phases ⟨[], [], []⟩ with
    | error e => rw [hp] at h; simp at h
    | ok o1 =>
      have hf := phaseLoop_fine c x d _ _ _ hp
      rw [hp] at h
      simp only at h
      rw [phaseLoop_ok c x d _ hf] at hp
      have hp : final c x d c.phases ⟨[], [], []⟩ = o1 := by injection hp
      by_cases h0 : (o1.availability.map Prod.snd).sum = 0
      · rw [if_pos h0] at h; simp at h
      rw [if_neg h0] at h
      by_cases h1 : sameLength (o1.onsets.map Prod.snd) = true
      · rw [if_pos h1] at h
        injection h with h
        subst h
        exact ⟨hf, hp.symm, h0, h1⟩
      · rw [if_neg h1] at h; simp at h
  · rintro ⟨hf, ho, h0, h1⟩
    unfold calculateOnsets
    rw [phaseLoop_ok c x d _ hf, ← ho]
    simp only
    rw [if_neg h0, if_pos h1]

theorem fold_onsets {α : Type} (av : Str → Str → ℕ) (onset : Str → Str → α) (pairs : List (Str × Str)) :
    ∀ st : List (Str × ℕ) × List α, (pairs.foldl (Compute.visit av onset) st).2 =
      st.2 ++ (pairs.filter fun sp => av sp.1 sp.2 ≠ 0).map fun sp => onset sp.1 sp.2 := by
  induction pairs with
  | nil => intro st; simp
  | cons a l ih =>
    intro st
    rw [List.foldl_cons, ih]
    by_cases h : av a.1 a.2 = 0
    · rw [List.filter_cons_of_neg (by simp [h])]
      simp [Compute.visit, h]
    · rw [List.filter_cons_of_pos (by simp [h])]
      simp [Compute.visit, h]

theorem final_onsets (c : Cfg) (x : Ext) (d : Data) (ps : List Str) : (final c x d ps ⟨[], [], []⟩).onsets =
    ((Compute.allPairs ps d.stations).filter fun sp => avNum c x d sp.1 sp.2 ≠ 0).map fun sp => lab c x d sp.1 sp.2 := by
  simp only [final]
  rw [fold_onsets]
  simp

/-! ## Part of a stream -/

section
variable {α : Type} [DecidableEq α]

theorem erase_filter_pos {β : Type} [DecidableEq β] (q : β → Bool) (l : List β) (a : β) (h : q a = true) :
    (l.erase a).filter q = (l.filter q).erase a := by
  induction l with
  | nil => rfl
  | cons b l ih =>
    by_cases hb : b = a
    · subst hb
      rw [List.erase_cons_head, List.filter_cons_of_pos h, List.erase_cons_head]
    · rw [List.erase_cons_tail (by simpa using hb)]
      by_cases hq : q b = true
      · rw [List.filter_cons_of_pos hq, List.filter_cons_of_pos hq, List.erase_cons_tail (by simpa using hb), ih]
      · rw [List.filter_cons_of_neg hq, List.filter_cons_of_neg hq, ih]

theorem erase_filter_neg {β : Type} [DecidableEq β] (q : β → Bool) (l : List β) (a : β) (h : ¬ q a = true) :
    (l.erase a).filter q = l.filter q := by
  induction l with
  | nil => rfl
  | cons b l ih =>
    by_cases hb : b = a
    · subst hb
      rw [List.erase_cons_head, List.filter_cons_of_neg h]
    · rw [List.erase_cons_tail (by simpa using hb)]
      by_cases hq : q b = true
      · rw [List.filter_cons_of_pos hq, List.filter_cons_of_pos hq, ih]
      · rw [List.filter_cons_of_neg hq, List.filter_cons_of_neg hq, ih]

theorem resampleStep_filter (D : Dsp α) (sr : ℚ) (rs : Bool) (up : Option ℕ) (q : α → Bool)
    (hd : ∀ f a, q (D.dec f a) = q a) (hu : ∀ u a, q (D.up u a) = q a) (st st' : List (RTr α)) (tr : RTr α)
    (h : resampleStep D sr rs up st tr = some st') :
    if q tr.rest then resampleStep D sr rs up (st.filter fun t => q t.rest) tr = some (st'.filter fun t => q t.rest)
    else st'.filter (fun t => q t.rest) = st.filter fun t => q t.rest := by
  have hdec : ∀ t : RTr α, q (decimate D sr t).rest = q t.rest := fun t => hd _ _
  have hup : ∀ u (t : RTr α), q (upsampleRate D u t).rest = q t.rest := fun u t => hu _ _
  have step : ∀ t : RTr α, q t.rest = q tr.rest →
      (if q tr.rest then (st.erase tr ++ [t]).filter (fun t => q t.rest) = (st.filter fun t => q t.rest).erase tr ++ [t]
       else (st.erase tr ++ [t]).filter (fun t => q t.rest) = st.filter fun t => q t.rest) := by
    intro t ht
    by_cases hq : q tr.rest = true
    · rw [if_pos hq, List.filter_append, erase_filter_pos (fun t : RTr α => q t.rest) st tr hq,
        List.filter_cons_of_pos (by rw [ht, hq])]
      rfl
    · rw [if_neg hq, List.filter_append, erase_filter_neg (fun t : RTr α => q t.rest) st tr hq,
        List.filter_cons_of_neg (by rw [ht]; exact hq)]
      simp
  unfold resampleStep at h ⊢
  by_cases h1 : sr = tr.rate
  · rw [if_pos h1] at h ⊢
    injection h with h
    subst h
    by_cases hq : q tr.rest = true
    · rw [if_pos hq]
    · rw [if_neg hq]
  rw [if_neg h1] at h ⊢
  by_cases h2 : fMod tr.rate sr = 0
  · rw [if_pos h2] at h ⊢
    injection h with h
    subst h
    have := step _ (hdec tr)
    by_cases hq : q tr.rest = true
    · rw [if_pos hq] at this ⊢; rw [this]
    · rw [if_neg hq] at this ⊢; exact this
  rw [if_neg h2] at h ⊢
  have same : st = st' → (if q tr.rest then some (st.filter fun t => q t.rest) = some (st'.filter fun t => q t.rest)
      else st'.filter (fun t => q t.rest) = st.filter fun t => q t.rest) := by
    rintro rfl
    by_cases hq : q tr.rest = true
    · rw [if_pos hq]
    · rw [if_neg hq]
  cases rs with
  | false => injection h with h; exact same h
  | true =>
    cases up with
    | none => injection h with h; exact same h
    | some u =>
      simp only at h ⊢
      by_cases h3 : fMod (pyInt (tr.rate * u)) sr ≠ 0
      · rw [if_pos h3] at h; simp at h
      · rw [if_neg h3] at h ⊢
        injection h with h
        subst h
        have := step (decimate D sr (upsampleRate D u tr)) ((hdec _).trans (hup _ _))
        by_cases hq : q tr.rest = true
        · rw [if_pos hq] at this ⊢; rw [this]
        · rw [if_neg hq] at this ⊢; exact this

theorem fold_filter (D : Dsp α) (sr : ℚ) (rs : Bool) (up : Option ℕ) (q : α → Bool)
    (hd : ∀ f a, q (D.dec f a) = q a) (hu : ∀ u a, q (D.up u a) = q a) (l : List (RTr α)) :
    ∀ st st' : List (RTr α), l.foldlM (fun st tr => resampleStep D sr rs up st tr) st = some st' →
    (l.filter fun t => q t.rest).foldlM (fun st tr => resampleStep D sr rs up st tr) (st.filter fun t => q t.rest) =
      some (st'.filter fun t => q t.rest) := by
  induction l with
  | nil => intro st st' h; simp at h; subst h; simp
  | cons a l ih =>
    intro st st' h
    rw [List.foldlM_cons] at h
    cases h1 : resampleStep D sr rs up st a with
    | none => rw [h1] at h; simp at h
    | some s1 =>
      rw [h1] at h
      have h : l.foldlM (fun st tr => resampleStep D sr rs up st tr) s1 = some st' := h
      have hs := resampleStep_filter D sr rs up q hd hu st s1 a h1
      by_cases hq : q a.rest = true
      · rw [if_pos hq] at hs
        rw [List.filter_cons_of_pos (by exact hq), List.foldlM_cons, hs]
        exact ih _ _ h
      · rw [if_neg hq] at hs
        rw [List.filter_cons_of_neg (by exact hq), ← hs]
        exact ih _ _ h

theorem resample_filter (D : Dsp α) (trim : α → Option α) (sr : ℚ) (rs : Bool) (up : Option ℕ) (q : α → Bool)
    (hd : ∀ f a, q (D.dec f a) = q a) (hu : ∀ u a, q (D.up u a) = q a) (ht : ∀ a b, trim a = some b → q b = q a)
    (l st : List (RTr α)) (h : resample D trim sr rs up l = some st) :
    resample D trim sr rs up (l.filter fun t => q t.rest) = some (st.filter fun t => q t.rest) := by
  unfold resample at h ⊢
  cases h1 : l.foldlM (fun st tr => resampleStep D sr rs up st tr) l with
  | none => rw [h1] at h; simp at h
  | some s1 =>
    rw [h1] at h
    injection h with h
    rw [fold_filter D sr rs up q hd hu l l s1 h1]
    simp only
    rw [← h]
    congr 1
    clear h h1
    induction s1 with
    | nil => rfl
    | cons a s1 ih =>
      cases hta : trim a.rest with
      | none =>
        rw [List.filterMap_cons_none (by rw [hta]; rfl)]
        by_cases hq : q a.rest = true
        · rw [List.filter_cons_of_pos (by exact hq), List.filterMap_cons_none (by rw [hta]; rfl), ih]
        · rw [List.filter_cons_of_neg (by exact hq), ih]
      | some b =>
        have hb := ht _ _ hta
        rw [List.filterMap_cons_some (b := ⟨a.rate, b⟩) (by rw [hta]; rfl)]
        by_cases hq : q a.rest = true
        · rw [List.filter_cons_of_pos (by exact hq), List.filterMap_cons_some (b := ⟨a.rate, b⟩) (by rw [hta]; rfl),
            List.filter_cons_of_pos (by rw [hb]; exact hq), ih]
        · rw [List.filter_cons_of_neg (by exact hq), List.filter_cons_of_neg (by rw [hb]; exact hq), ih]

omit [DecidableEq α] in
theorem filterAll_filter (low high : ℚ) (q : α → Bool) (l : List (RTr α)) : ∀ out,
    Filters.filterAll low high l = .ok out →
    Filters.filterAll low high (l.filter fun t => q t.rest) = .ok (out.filter fun p => q p.1.rest) := by
  induction l with
  | nil => intro out h; simp [Filters.filterAll] at h; subst h; simp [Filters.filterAll]
  | cons a l ih =>
    intro out h
    unfold Filters.filterAll at h
    cases h1 : Filters.obspyBandpass low high a.rate with
    | error e => rw [h1] at h; simp at h
    | ok dd =>
      rw [h1] at h
      simp only at h
      cases h2 : Filters.filterAll low high l with
      | error e => rw [h2] at h; simp at h
      | ok r =>
        rw [h2] at h
        injection h with h
        subst h
        have ih := ih r h2
        by_cases hq : q a.rest = true
        · rw [List.filter_cons_of_pos (by exact hq), List.filter_cons_of_pos (by exact hq)]
          unfold Filters.filterAll
          rw [h1, ih]
        · rw [List.filter_cons_of_neg (by exact hq), List.filter_cons_of_neg (by exact hq), ih]

theorem preProcess_filter (D : Dsp α) (trim : α → Option α) (sr : ℚ) (rs : Bool) (up : Option ℕ) (q : α → Bool)
    (hd : ∀ f a, q (D.dec f a) = q a) (hu : ∀ u a, q (D.up u a) = q a) (ht : ∀ a b, trim a = some b → q b = q a)
    (low high : ℚ) (l : List (RTr α)) (out : List (RTr α × Filters.Design))
    (h : Filters.preProcess D trim sr rs up low high l = .ok out) :
    Filters.preProcess D trim sr rs up low high (l.filter fun t => q t.rest) =
      .ok (out.filter fun p => q p.1.rest) := by
  unfold Filters.preProcess at h ⊢
  cases h1 : resample D trim sr rs up l with
  | none => rw [h1] at h; simp at h
  | some st =>
    rw [h1] at h
    simp only at h
    rw [resample_filter D trim sr rs up q hd hu ht l st h1]
    simp only
    by_cases h2 : high ≥ 1 / 2 * sr
    · rw [if_pos h2] at h; simp at h
    · rw [if_neg h2] at h ⊢
      exact filterAll_filter low high q st out h

end

/-- What the external functions leave alone: the id of a trace. -/
structure KeepsIds (x : Ext) : Prop where
  dec : ∀ f b, (x.dsp.dec f b).id = b.id
  up : ∀ u b, (x.dsp.up u b).id = b.id
  trim : ∀ s e b b', x.trim s e b = some b' → b'.id = b.id

theorem preStream_filter (c : Cfg) (x : Ext) (hx : KeepsIds x) (d : Data) (p : Str) (q : Str → Bool)
    (l : List Trace) (h : preStream c x d p = .ok l) :
    preStream c x { d with waveforms := d.waveforms.filter fun t => q t.id } p = .ok (l.filter fun t => q t.id) := by
  unfold preStream at h ⊢
  cases h1 : Filters.preProcess x.dsp (x.trim d.start d.stop) c.sr d.resample d.upfactor (c.low p) (c.high p)
      ((d.waveforms.filter fun t => c.chan p t.id).map toR) with
  | error e => rw [h1] at h; simp at h
  | ok out =>
    rw [h1] at h
    injection h with h
    have key := preProcess_filter x.dsp (x.trim d.start d.stop) c.sr d.resample d.upfactor (fun b => q b.id)
      (fun f a => by rw [hx.dec]) (fun u a => by rw [hx.up]) (fun a b hab => by rw [hx.trim _ _ _ _ hab])
      (c.low p) (c.high p) _ out h1
    have e : (((d.waveforms.filter fun t => q t.id).filter fun t => c.chan p t.id).map toR) =
        ((d.waveforms.filter fun t => c.chan p t.id).map toR).filter fun t => q t.rest.id := by
      rw [List.filter_map, List.filter_filter, List.filter_filter]
      congr 1
      apply List.filter_congr
      intro t _
      simp [toR, Bool.and_comm]
    simp only
    rw [e, key]
    simp only
    rw [← h, List.filter_map]
    rfl

theorem res_filter (c : Cfg) (x : Ext) (hx : KeepsIds x) (d : Data) (ss : List Str) (p s : Str) (q : Str → Bool)
    (hq : ∀ i, x.ofStation s i = true → q i = true)
    (hf : Fine c x d p) (hs : s ∈ d.stations) :
    ∃ l, preStream c x { d with waveforms := d.waveforms.filter fun t => q t.id, stations := ss } p = .ok l ∧
      stationPhase c x { d with waveforms := d.waveforms.filter fun t => q t.id, stations := ss } p l s =
        .ok (res c x d s p) := by
  obtain ⟨l, hl, hr⟩ := hf
  obtain ⟨r, hr⟩ := hr s hs
  have hres : res c x d s p = r := by unfold res; rw [hl]; simp only; rw [hr]
  refine ⟨_, preStream_filter c x hx d p q l hl, ?_⟩
  rw [hres, ← hr]
  unfold stationPhase
  have e : ((l.filter fun t => q t.id).filter fun t => x.ofStation s t.id) = l.filter fun t => x.ofStation s t.id := by
    rw [List.filter_filter]
    apply List.filter_congr
    intro t _
    by_cases ht : x.ofStation s t.id = true
    · simp [ht, hq _ ht]
    · simp [ht]
  rw [e]
  rfl

end QM.CalcOnsets

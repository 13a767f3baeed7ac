import Verif.Model.UpdateLut
import Verif.Lemmas.Compute
import Verif.Lemmas.Grid

/-!
# C129: converting a lookup table keeps its contents
-/

namespace QM

open QM.UpdateLut QM.Compute
open QM.Grid (dictGet dictGet_dictSet)

namespace Spec

/-- The key of a phase in an old table. -/
def oldKey (p : Compute.Str) : Compute.Str := "TIME_".toList ++ p

/-- A table in the old format: no `traveltimes`, and `maps` holds for each station at least one table,
under keys `TIME_<phase>`.  The keys of a dictionary are distinct. -/
structure OldFormat (a : Attrs) (m : Tables) : Prop where
  none : a.traveltimes = none
  maps : a.maps = some m
  stations : (m.map Prod.fst).Nodup
  tables : ∀ e ∈ m, e.2 ≠ []
  keys : ∀ e ∈ m, (e.2.map Prod.fst).Nodup
  phases : ∀ e ∈ m, ∀ k ∈ e.2.map Prod.fst, ∃ p : Compute.Str, '_' ∉ p ∧ k = oldKey p

/-- A grid that the setters accept. -/
def GridOk (a : Attrs) : Prop :=
  ∃ sp c, a.spacing = some sp ∧ a.count = some c ∧ (0 < sp 0 ∧ 0 < sp 1 ∧ 0 < sp 2) ∧
    (0 < c 0 ∧ 0 < c 1 ∧ 0 < c 2)

/-- The table stored under two keys. -/
def stored (t : Tables) (s k : Compute.Str) : Option TT := (dictGet t s).bind fun d => dictGet d k

end Spec

open Spec

private theorem dictGet_nil {α : Type} (k : Compute.Str) : dictGet ([] : List (Compute.Str × α)) k = none := rfl

private theorem dictGet_cons {α : Type} (e : Compute.Str × α) (d : List (Compute.Str × α)) (k : Compute.Str) :
    dictGet (e :: d) k = if e.1 = k then some e.2 else dictGet d k := by
  unfold dictGet
  by_cases h : e.1 = k
  · rw [List.find?_cons_of_pos (by simpa using h), if_pos h]; rfl
  · rw [List.find?_cons_of_neg (by simpa using h), if_neg h]

private theorem dictGet_none {α : Type} {d : List (Compute.Str × α)} {k : Compute.Str}
    (h : k ∉ d.map Prod.fst) : dictGet d k = none := by
  induction d with
  | nil => rfl
  | cons e d ih =>
    simp only [List.map_cons, List.mem_cons, not_or] at h
    rw [dictGet_cons, if_neg (Ne.symm h.1), ih h.2]

private theorem dictGet_mem {α : Type} {d : List (Compute.Str × α)} {k : Compute.Str} {v : α}
    (h : dictGet d k = some v) : (k, v) ∈ d := by
  induction d with
  | nil => simp [dictGet_nil] at h
  | cons e d ih =>
    rw [dictGet_cons] at h
    by_cases hk : e.1 = k
    · rw [if_pos hk] at h
      obtain rfl := Option.some.inj h
      rw [← hk]; exact List.mem_cons_self
    · rw [if_neg hk] at h
      exact List.mem_cons_of_mem _ (ih h)

private theorem split_oldKey {p : Compute.Str} (h : '_' ∉ p) : (splitU (oldKey p))[1]? = some p := by
  have : splitU (oldKey p) = ["TIME".toList, p] := by
    unfold oldKey
    have := @splitU_key "TIME".toList p (by decide) h
    simpa [key] using this
  rw [this]; rfl

private theorem oldKey_inj {p q : Compute.Str} : oldKey p = oldKey q ↔ p = q := by
  unfold oldKey; simp

/-- What the loop over the phases of a station does. -/
private theorem addPhases_spec (s : Compute.Str) : ∀ (d : Phases) (tt : Tables),
    (d.map Prod.fst).Nodup →
    (∀ k ∈ d.map Prod.fst, ∃ p : Compute.Str, '_' ∉ p ∧ k = oldKey p) →
    ∃ t, addPhases tt s d = .ok t ∧
      (∀ s', s' ≠ s → dictGet t s' = dictGet tt s') ∧
      (d ≠ [] ∨ (dictGet tt s).isSome → (dictGet t s).isSome) ∧
      (∀ p, '_' ∉ p → stored t s p =
        if (dictGet d (oldKey p)).isSome then dictGet d (oldKey p) else stored tt s p) ∧
      (∀ k, '_' ∈ k → stored t s k = stored tt s k) := by
  intro d
  induction d with
  | nil =>
    intro tt _ _
    refine ⟨tt, rfl, fun _ _ => rfl, ?_, ?_, fun _ _ => rfl⟩
    · rintro (h | h)
      · exact absurd rfl h
      · exact h
    · intro p _; simp [dictGet_nil]
  | cons e d ih =>
    intro tt hn hk
    obtain ⟨k, g⟩ := e
    simp only [List.map_cons, List.nodup_cons] at hn
    obtain ⟨q, hq, rfl⟩ := hk k (by simp)
    obtain ⟨t, h1, h2, h3, h4, h5⟩ := ih (addTable tt s q g) hn.2
      (fun k' hk' => hk k' (by simp only [List.map_cons, List.mem_cons]; exact Or.inr hk'))
    have hget : ∀ s', dictGet (addTable tt s q g) s' = if s' = s then
        some (dictSet ((dictGet tt s).getD []) q g) else dictGet tt s' := fun s' => by
      unfold addTable; exact dictGet_dictSet _ _ _ _
    have hst : ∀ k, stored (addTable tt s q g) s k = if k = q then some g else stored tt s k := by
      intro k
      unfold stored
      rw [hget, if_pos rfl, Option.bind_some, dictGet_dictSet]
      by_cases hkq : k = q
      · rw [if_pos hkq, if_pos hkq]
      · rw [if_neg hkq, if_neg hkq]
        cases dictGet tt s with
        | none => rfl
        | some v => rfl
    refine ⟨t, ?_, ?_, ?_, ?_, ?_⟩
    · rw [addPhases, split_oldKey hq]; exact h1
    · intro s' hs'; rw [h2 s' hs', hget, if_neg hs']
    · intro _
      apply h3
      right
      rw [hget, if_pos rfl]; rfl
    · intro p hp
      rw [h4 p hp, hst, dictGet_cons]
      simp only [oldKey_inj]
      by_cases hpq : q = p
      · subst hpq
        rw [dictGet_none hn.1]
        simp
      · rw [if_neg hpq, if_neg (fun h : p = q => hpq h.symm)]
    · intro k hkk
      rw [h5 k hkk, hst, if_neg (fun h : k = q => hq (h ▸ hkk))]

/-- What the loop over the stations does. -/
private theorem addStations_spec : ∀ (m : Tables) (tt : Tables), (m.map Prod.fst).Nodup →
    (∀ s ∈ m.map Prod.fst, dictGet tt s = none) →
    (∀ e ∈ m, e.2 ≠ []) → (∀ e ∈ m, (e.2.map Prod.fst).Nodup) →
    (∀ e ∈ m, ∀ k ∈ e.2.map Prod.fst, ∃ p : Compute.Str, '_' ∉ p ∧ k = oldKey p) →
    ∃ t, addStations tt m = .ok t ∧
      (∀ s, s ∉ m.map Prod.fst → dictGet t s = dictGet tt s) ∧
      (∀ s, s ∈ m.map Prod.fst → (dictGet t s).isSome ∧
        (∀ p, '_' ∉ p → stored t s p = stored m s (oldKey p)) ∧
        (∀ k, '_' ∈ k → stored t s k = none)) := by
  intro m
  induction m with
  | nil => intro tt _ _ _ _ _; exact ⟨tt, rfl, fun _ _ => rfl, fun s hs => by simp at hs⟩
  | cons e m ih =>
    intro tt hn hnone hne hkeys hph
    obtain ⟨s0, d⟩ := e
    simp only [List.map_cons, List.nodup_cons] at hn
    obtain ⟨t1, h1, h2, h3, h4, h5⟩ := addPhases_spec s0 d tt (hkeys (s0, d) (by simp)) (hph (s0, d) (by simp))
    have hs0 : dictGet tt s0 = none := hnone s0 (by simp)
    obtain ⟨t, g1, g2, g3⟩ := ih t1 hn.2
      (fun s hs => by
        rw [h2 s (fun h => hn.1 (h ▸ hs))]
        exact hnone s (by simp only [List.map_cons, List.mem_cons]; exact Or.inr hs))
      (fun e he => hne e (List.mem_cons_of_mem _ he)) (fun e he => hkeys e (List.mem_cons_of_mem _ he))
      (fun e he => hph e (List.mem_cons_of_mem _ he))
    refine ⟨t, ?_, ?_, ?_⟩
    · rw [addStations, h1]; exact g1
    · intro s hs
      simp only [List.map_cons, List.mem_cons, not_or] at hs
      rw [g2 s hs.2, h2 s hs.1]
    · intro s hs
      simp only [List.map_cons, List.mem_cons] at hs
      have hsame : ∀ k, s = s0 → stored ((s0, d) :: m) s k = dictGet d k := by
        intro k h; unfold stored; rw [dictGet_cons, if_pos h.symm]; rfl
      by_cases h : s = s0
      · have e1 : dictGet t s = dictGet t1 s := g2 s (h ▸ hn.1)
        have e2 : ∀ k, stored t s k = stored t1 s k := fun k => by unfold stored; rw [e1]
        have e3 : ∀ k, stored tt s0 k = none := fun k => by unfold stored; rw [hs0]; rfl
        refine ⟨?_, ?_, ?_⟩
        · rw [e1, h]; exact h3 (Or.inl (hne (s0, d) (by simp)))
        · intro p hp
          rw [e2, hsame _ h, h, h4 p hp, e3]
          cases dictGet d (oldKey p) <;> rfl
        · intro k hk
          rw [e2, h, h5 k hk, e3]
      · obtain ⟨f1, f2, f3⟩ := g3 s (hs.resolve_left h)
        refine ⟨f1, ?_, f3⟩
        intro p hp
        rw [f2 p hp]
        unfold stored
        rw [dictGet_cons, if_neg (fun h' => h h'.symm)]

private theorem convertGrid_ok {a : Attrs} (h : GridOk a) :
    ∃ b, convertGrid a = .ok b ∧ b.spacing = a.spacing ∧ b.count = a.count ∧
      b.traveltimes = a.traveltimes ∧ b.maps = a.maps ∧ b.phases = a.phases ∧
      b.fractionTT = a.fractionTT ∧ b.stations = a.stations ∧ b.cellSize = none ∧
      (a.cellSize = none → b = { a with nodeSpacing := a.spacing, nodeCount := a.count }) := by
  obtain ⟨sp, c, h1, h2, h3, h4⟩ := h
  unfold convertGrid
  rw [h1, h2]
  simp only [Attrs.setGrid, not_true_eq_false, h3, h4, and_self, if_false]
  refine ⟨_, rfl, ?_⟩
  unfold Attrs.delCells
  cases hc : a.cellSize with
  | none => simp [Attrs.spacing, Attrs.count, hc]
  | some v => simp [Attrs.spacing, Attrs.count]

private theorem splitU_mem (s : Compute.Str) : ∀ w ∈ splitU s, '_' ∉ w := by
  induction s with
  | nil => simp [splitU]
  | cons c cs ih =>
    simp only [splitU]
    by_cases hc : c = '_'
    · rw [if_pos hc]
      intro w hw
      rcases List.mem_cons.1 hw with rfl | hw
      · simp
      · exact ih w hw
    · rw [if_neg hc]
      split
      · intro w hw
        rw [List.mem_singleton] at hw
        subst hw
        simpa using fun h => hc h.symm
      · rename_i v ws h
        rw [h] at ih
        intro w hw
        rcases List.mem_cons.1 hw with rfl | hw
        · simp only [List.mem_cons, not_or]
          exact ⟨fun h => hc h.symm, ih v List.mem_cons_self⟩
        · exact ih w (List.mem_cons_of_mem _ hw)

private theorem serve_congr {L L' : Lut}
    (h : ∀ s p, '_' ∉ s → '_' ∉ p → lookup L s p = lookup L' s p) :
    ∀ avail, serve L avail = serve L' avail := by
  intro avail
  induction avail with
  | nil => rfl
  | cons e rest ih =>
    obtain ⟨k, v⟩ := e
    simp only [serve]
    split
    · rename_i s p hsp
      have hs : '_' ∉ s ∧ '_' ∉ p := by
        have := splitU_mem k
        rw [hsp] at this
        exact ⟨this s (by simp), this p (by simp)⟩
      rw [h s p hs.1 hs.2, ih]
    · rfl

/-- The look-up of a station and phase in the old and in the new format. -/
private theorem lookup_same {a b : Attrs} {m t : Tables} (ho : OldFormat a m)
    (hb : b.traveltimes = some t)
    (hout : ∀ s, s ∉ m.map Prod.fst → dictGet t s = none)
    (hin : ∀ s, s ∈ m.map Prod.fst → (dictGet t s).isSome ∧
        (∀ p, '_' ∉ p → stored t s p = stored m s (oldKey p)) ∧
        (∀ k, '_' ∈ k → stored t s k = none))
    (s p : Compute.Str) (hp : '_' ∉ p) : lookup b.lut s p = lookup a.lut s p := by
  unfold lookup Attrs.lut Attrs.tables
  simp only [hb, ho.none, ho.maps]
  by_cases hs : s ∈ m.map Prod.fst
  · obtain ⟨f1, f2, f3⟩ := hin s hs
    obtain ⟨d', hd'⟩ := Option.isSome_iff_exists.1 f1
    have hm : ∃ d, dictGet m s = some d := by
      by_contra hcon
      have : dictGet m s = none := by
        cases h : dictGet m s with
        | none => rfl
        | some d => exact absurd ⟨d, h⟩ hcon
      obtain ⟨e, he, rfl⟩ := List.mem_map.1 hs
      have : e.1 ∉ m.map Prod.fst := by
        intro _
        unfold dictGet at this
        rw [Option.map_eq_none_iff, List.find?_eq_none] at this
        exact this e he (by simp)
      exact this hs
    obtain ⟨d, hd⟩ := hm
    have g1 := f2 p hp
    have g2 := f3 (oldKey p) (by unfold oldKey; simp)
    unfold stored at g1 g2
    rw [hd', hd] at g1
    rw [hd'] at g2
    simp only [Option.bind_some] at g1 g2
    have g3 : dictGet d p = none := by
      apply dictGet_none
      intro hmem
      obtain ⟨q, _, hq⟩ := ho.phases (s, d) (dictGet_mem hd) p hmem
      rw [hq] at hp
      exact hp (by unfold oldKey; simp)
    rw [hd', hd]
    simp only [Option.map_some]
    change (match dictGet d' p with
      | some g => Except.ok g
      | none => match dictGet d' (oldKey p) with
        | some g => .ok g
        | none => .error Compute.Err.lutPhases) = (match dictGet d p with
      | some g => Except.ok g
      | none => match dictGet d (oldKey p) with
        | some g => .ok g
        | none => .error Compute.Err.lutPhases)
    rw [g1, g2, g3]
  · rw [hout s hs, dictGet_none hs]

private theorem serveList_congr {L L' : Lut} (h : ∀ s p, '_' ∉ p → lookup L s p = lookup L' s p) :
    ∀ l : List (Compute.Str × Compute.Str), (∀ e ∈ l, '_' ∉ e.2) → serveList L l = serveList L' l := by
  intro l
  induction l with
  | nil => intro _; rfl
  | cons e l ih =>
    intro hl
    obtain ⟨s, p⟩ := e
    simp only [serveList]
    rw [h s p (hl (s, p) (by simp)), ih (fun e he => hl e (List.mem_cons_of_mem _ he))]

/-- **C129** (part): a table in the old format is converted, and afterwards
* the table of each station and phase is the one stored before under `TIME_<phase>`,
* the spacing and number of nodes and the stations are as before, and nothing is left in the old format,
* what the scan is served is unchanged, for every sampling rate and every choice of stations and
  phases, and also what is served for all stations, if the table had the phases P and S.
Missing: the phases and the fraction of the traveltime, which are overwritten. -/
theorem C129_old_partial (a : Attrs) (m : Tables) (ho : OldFormat a m) (hg : GridOk a) :
    ∃ b t, updateLut a = .ok b ∧ b.traveltimes = some t ∧ b.maps = none ∧ b.cellSize = none ∧
      (∀ s p, '_' ∉ p → stored t s p = stored m s (oldKey p)) ∧
      b.spacing = a.spacing ∧ b.count = a.count ∧ b.stations = a.stations ∧
      (∀ sr avail, serveTraveltimes b.lut sr avail = serveTraveltimes a.lut sr avail) ∧
      (∀ sr, a.phases = [['P'], ['S']] → serveAll b.lut sr = serveAll a.lut sr) := by
  obtain ⟨t, h1, h2, h3⟩ := addStations_spec m [] ho.stations (fun _ _ => rfl) ho.tables ho.keys ho.phases
  obtain ⟨b, k1, k2, k3, k4, k5, k6, k7, k8, k9, _⟩ := convertGrid_ok
    (a := { a with traveltimes := some t, maps := none, phases := [['P'], ['S']], fractionTT := 1 / 10 })
    (by simpa [GridOk, Attrs.spacing, Attrs.count] using hg)
  have hlook := lookup_same (b := b) ho (t := t) k4 h2 h3
  refine ⟨b, t, ?_, k4, k5, k9, ?_, ?_, ?_, k8, ?_, ?_⟩
  · unfold updateLut convertTables
    rw [ho.maps]
    simp only [h1]
    exact k1
  · intro s p hp
    by_cases hs : s ∈ m.map Prod.fst
    · exact (h3 s hs).2.1 p hp
    · unfold stored; rw [h2 s hs, dictGet_none hs]; rfl
  · rw [k2]; rfl
  · rw [k3]; rfl
  · intro sr avail
    unfold serveTraveltimes
    rw [serve_congr (fun s p _ hp => hlook s p hp) avail]
  · intro sr hph
    unfold serveAll
    have e1 : b.lut.phases = [['P'], ['S']] := k6
    have e2 : a.lut.phases = [['P'], ['S']] := hph
    have e3 : b.lut.stations = a.lut.stations := k8
    rw [e1, e2, e3, serveList_congr hlook]
    intro e he
    simp only [List.mem_flatMap, List.mem_map] at he
    obtain ⟨p, hp, s, _, rfl⟩ := he
    simp only [List.mem_cons, List.not_mem_nil, or_false] at hp
    rcases hp with rfl | rfl <;> simp

/-- **C129** (part): a table in the new format comes back as it was, but for the phases and the fraction
of the traveltime. -/
theorem C129_new_partial (a : Attrs) (sp : Fin 3 → ℚ) (c : Fin 3 → ℕ) (hm : a.maps = none)
    (hc : a.cellSize = none) (hsp : a.nodeSpacing = some sp) (hct : a.nodeCount = some c)
    (h1 : 0 < sp 0 ∧ 0 < sp 1 ∧ 0 < sp 2) (h2 : 0 < c 0 ∧ 0 < c 1 ∧ 0 < c 2) :
    updateLut a = .ok { a with phases := [['P'], ['S']], fractionTT := 1 / 10 } := by
  obtain ⟨b, k1, _, _, _, _, _, _, _, _, k⟩ := convertGrid_ok
    (a := { a with phases := [['P'], ['S']], fractionTT := 1 / 10 })
    ⟨sp, c, by simp [Attrs.spacing, hsp], by simp [Attrs.count, hct], h1, h2⟩
  unfold updateLut convertTables
  rw [hm]
  simp only
  rw [k1, k hc]
  obtain ⟨x1, x2, x3, x4, x5, x6, x7, x8, x9⟩ := a
  simp only at hsp hct hm
  subst hsp hct hm
  rfl

/-- **C129** fails: whatever the phases and the fraction of the traveltime of the table were, after the
conversion they are P and S and 0.1. -/
theorem C129_violated (a b : Attrs) (h : updateLut a = .ok b) :
    b.phases = [['P'], ['S']] ∧ b.fractionTT = 1 / 10 := by
  unfold updateLut at h
  cases hc : convertTables a with
  | error e => rw [hc] at h; cases h
  | ok x =>
    rw [hc] at h
    simp only [convertGrid] at h
    split at h
    · unfold Attrs.setGrid at h
      split at h
      · cases h
      · rename_i z hz
        cases h
        split at hz
        · cases hz
        · split at hz
          · cases hz
          · cases hz
            unfold Attrs.delCells
            split <;> exact ⟨rfl, rfl⟩
    · cases h
      exact ⟨rfl, rfl⟩

private theorem serveList_fails {L : Lut} {s p : Compute.Str} {e : Compute.Err} (h : lookup L s p = .error e) :
    ∀ l : List (Compute.Str × Compute.Str), (s, p) ∈ l → ∃ e', serveList L l = .error e' := by
  intro l
  induction l with
  | nil => intro hl; simp at hl
  | cons x l ih =>
    intro hl
    obtain ⟨s', p'⟩ := x
    simp only [serveList]
    cases hx : lookup L s' p' with
    | error e' => exact ⟨e', rfl⟩
    | ok g =>
      rcases List.mem_cons.1 hl with heq | hl
      · cases heq
        rw [h] at hx
        cases hx
      · obtain ⟨e', he'⟩ := ih hl
        rw [he']
        exact ⟨e', rfl⟩

/-- **C129** fails: a table in the new format that has no S traveltimes for one of its stations (for
instance one computed for P only), once converted, can no longer be served as a whole. -/
theorem C129_violated_serve (a b : Attrs) (s : Compute.Str) (e : Compute.Err) (hs : s ∈ a.stations) (hm : a.maps = none)
    (hS : lookup a.lut s ['S'] = .error e) (h : updateLut a = .ok b) (sr : ℚ) :
    ∃ e', serveAll b.lut sr = .error e' := by
  have hph := (C129_violated a b h).1
  have hsame : b.traveltimes = a.traveltimes ∧ b.maps = a.maps ∧ b.stations = a.stations := by
    unfold updateLut convertTables at h
    rw [hm] at h
    simp only [convertGrid] at h
    split at h
    · unfold Attrs.setGrid at h
      split at h
      · cases h
      · rename_i z hz
        cases h
        split at hz
        · cases hz
        · split at hz
          · cases hz
          · cases hz
            unfold Attrs.delCells
            split <;> exact ⟨rfl, rfl, rfl⟩
    · cases h
      exact ⟨rfl, rfl, rfl⟩
  have hlook : lookup b.lut s ['S'] = .error e := by
    rw [← hS]
    unfold lookup Attrs.lut Attrs.tables
    simp only [hsame.1, hsame.2.1]
  obtain ⟨e', he'⟩ := serveList_fails hlook
    (b.lut.phases.flatMap fun p => b.lut.stations.map fun s => (s, p)) (by
      simp only [List.mem_flatMap, List.mem_map]
      refine ⟨['S'], ?_, s, ?_, rfl⟩
      · change ['S'] ∈ b.phases
        rw [hph]; simp
      · change s ∈ b.stations
        rw [hsame.2.2]; exact hs)
  refine ⟨e', ?_⟩
  unfold serveAll
  rw [he']

/-! ## Cases that meet the hypotheses -/

/-- Two stations in the old format. -/
def exOldMaps : Tables :=
  [("AB1".toList, [("TIME_P".toList, fun n => n), ("TIME_S".toList, fun n => 2 * n)]),
   ("AB2".toList, [("TIME_P".toList, fun n => n + 1), ("TIME_S".toList, fun n => 2 * n + 2)])]

/-- A table in the old format. -/
def exOldLut : Attrs :=
  { traveltimes := none, maps := some exOldMaps, phases := [['P'], ['S']], fractionTT := 1 / 5,
    nodeSpacing := none, cellSize := some fun _ => 1 / 2, nodeCount := none, cellCount := some fun _ => 3,
    stations := ["AB1".toList, "AB2".toList] }

/-- A table in the new format, computed for P only. -/
def exPLut : Attrs :=
  { traveltimes := some [("AB1".toList, [(['P'], fun n => n)])], maps := none, phases := [['P']],
    fractionTT := 1 / 5, nodeSpacing := some fun _ => 1 / 2, cellSize := none,
    nodeCount := some fun _ => 3, cellCount := none, stations := ["AB1".toList] }

example : OldFormat exOldLut exOldMaps ∧ GridOk exOldLut := by
  refine ⟨⟨rfl, rfl, by decide, ?_, ?_, ?_⟩, fun _ => 1 / 2, fun _ => 3, rfl, rfl, by norm_num, by norm_num⟩
  · intro e he
    simp only [exOldMaps, List.mem_cons, List.not_mem_nil, or_false] at he
    rcases he with rfl | rfl <;> simp
  · intro e he
    simp only [exOldMaps, List.mem_cons, List.not_mem_nil, or_false] at he
    rcases he with rfl | rfl
    · change (["TIME_P".toList, "TIME_S".toList]).Nodup; decide
    · change (["TIME_P".toList, "TIME_S".toList]).Nodup; decide
  · intro e he k hk
    have hk' : k ∈ ["TIME_P".toList, "TIME_S".toList] := by
      simp only [exOldMaps, List.mem_cons, List.not_mem_nil, or_false] at he
      rcases he with rfl | rfl <;> exact hk
    simp only [List.mem_cons, List.not_mem_nil, or_false] at hk'
    rcases hk' with rfl | rfl
    · exact ⟨['P'], by decide, rfl⟩
    · exact ⟨['S'], by decide, rfl⟩

example : ∃ b, updateLut exPLut = .ok b ∧ lookup exPLut.lut "AB1".toList ['S'] = .error .lutPhases ∧
    (∃ g, serveAll exPLut.lut 50 = .ok g) ∧ b.fractionTT ≠ exPLut.fractionTT := by
  refine ⟨_, C129_new_partial exPLut (fun _ => 1 / 2) (fun _ => 3) rfl rfl rfl rfl (by norm_num)
    (by norm_num), rfl, ⟨_, rfl⟩, ?_⟩
  change (1 / 10 : ℚ) ≠ 1 / 5
  norm_num

end QM

import Verif.Lemmas.CalcOnsets
import Verif.Props.Onset
import Verif.Props.Data
import Verif.Props.GapFill

/-!
# From waveforms to onset functions: C161 - C163
-/

namespace QM

open QM.CalcOnsets
open QM.Data (Str Trace)

/-- Names of stations and phases of an ordinary scan: no repetition, no underscore. -/
structure Spec.PlainNames (ps ss : List Str) : Prop where
  phases : ps.Nodup
  stations : ss.Nodup
  phase : ∀ p ∈ ps, '_' ∉ p
  station : ∀ s ∈ ss, '_' ∉ s

theorem final_availability (c : Cfg) (x : Ext) (d : CalcOnsets.Data) (hn : Spec.PlainNames c.phases d.stations) :
    (final c x d c.phases ⟨[], [], []⟩).availability =
      (Compute.allPairs c.phases d.stations).map fun sp => (Compute.key sp.1 sp.2, avNum c x d sp.1 sp.2) := by
  simp only [final]
  rw [Compute.fold_visit _ _ _ [] [] (by simpa using Compute.nodup_keys hn.phases hn.stations hn.phase hn.station)]
  simp

theorem avNum_le (c : Cfg) (x : Ext) (d : CalcOnsets.Data) (s p : Str) : avNum c x d s p ≤ 1 := by
  unfold avNum; split <;> simp

/-- The data of one station, scanned alone. -/
def Spec.alone (x : Ext) (d : CalcOnsets.Data) (s : Str) : CalcOnsets.Data :=
  { d with waveforms := d.waveforms.filter fun t => x.ofStation s t.id, stations := [s] }

theorem alone_fine (c : Cfg) (x : Ext) (hx : KeepsIds x) (d : CalcOnsets.Data) (s p : Str) (hs : s ∈ d.stations)
    (hf : Fine c x d p) : Fine c x (Spec.alone x d s) p ∧ res c x (Spec.alone x d s) s p = res c x d s p := by
  obtain ⟨l, h1, h2⟩ := res_filter c x hx d [s] p s (fun i => x.ofStation s i) (fun _ h => h) hf hs
  refine ⟨⟨l, h1, ?_⟩, ?_⟩
  · intro s' hs'
    have : s' = s := by simpa [Spec.alone] using hs'
    subst this
    exact ⟨_, h2⟩
  · rw [res]
    have h1' : preStream c x (Spec.alone x d s) p = .ok l := h1
    have h2' : stationPhase c x (Spec.alone x d s) p l s = .ok (res c x d s p) := h2
    rw [h1']
    simp only
    rw [h2']

theorem sameLength_filter {α β : Type} (f : β → List α) (q : β → Bool) (l : List β)
    (h : sameLength (l.map f) = true) : sameLength ((l.filter q).map f) = true := by
  have key : ∀ n, (∀ b ∈ l, (f b).length = n) → sameLength ((l.filter q).map f) = true := by
    intro n hn
    cases hl : l.filter q with
    | nil => rfl
    | cons a r =>
      have hm : ∀ b ∈ a :: r, (f b).length = n := by
        intro b hb
        rw [← hl] at hb
        exact hn b (List.mem_filter.mp hb).1
      simp only [List.map_cons, sameLength, List.all_eq_true, decide_eq_true_eq, List.mem_map]
      rintro _ ⟨b, hb, rfl⟩
      rw [hm b (by simp [hb]), hm a (by simp)]
  cases l with
  | nil => rfl
  | cons a r =>
    refine key (f a).length ?_
    simp only [List.map_cons, sameLength, List.all_eq_true, decide_eq_true_eq, List.mem_map] at h
    intro b hb
    rcases List.mem_cons.mp hb with rfl | hb
    · rfl
    · exact h _ ⟨b, hb, rfl⟩

theorem final_onsets_eq (c : Cfg) (x : Ext) (d : CalcOnsets.Data) : (final c x d c.phases ⟨[], [], []⟩).onsets =
    c.phases.flatMap fun p => d.stations.filterMap fun s => (res c x d s p).map fun r => ((s, p), r.2) := by
  rw [final_onsets]
  unfold Compute.allPairs
  rw [List.filter_flatMap, List.map_flatMap]
  congr 1
  funext p
  induction d.stations with
  | nil => rfl
  | cons s ss ih =>
    have hav : avNum c x d s p = if (res c x d s p).isSome then 1 else 0 := rfl
    have hlab : lab c x d s p = ((s, p), ((res c x d s p).getD ([], [])).2) := rfl
    cases hr : res c x d s p with
    | none =>
      rw [hr] at hav
      rw [List.map_cons, List.filter_cons_of_neg (by simp [hav]), List.filterMap_cons_none (by rw [hr]; rfl)]
      exact ih
    | some q =>
      rw [hr] at hav hlab
      rw [List.map_cons, List.filter_cons_of_pos (by simp [hav]), List.map_cons,
        List.filterMap_cons_some (b := ((s, p), q.2)) (by rw [hr]; rfl), ih, hlab]
      rfl

theorem mem_final_onsets (c : Cfg) (x : Ext) (d : CalcOnsets.Data) (s p : Str) (f : List (Option ℝ)) :
    ((s, p), f) ∈ (final c x d c.phases ⟨[], [], []⟩).onsets ↔
      p ∈ c.phases ∧ s ∈ d.stations ∧ ∃ r, res c x d s p = some (r, f) := by
  rw [final_onsets_eq]
  simp only [List.mem_flatMap, List.mem_filterMap, Option.map_eq_some_iff, Prod.mk.injEq, Prod.exists]
  constructor
  · rintro ⟨p', hp, s', hs, a, b, hr, ⟨rfl, rfl⟩, rfl⟩
    exact ⟨hp, hs, a, hr⟩
  · rintro ⟨hp, hs, r, hr⟩
    exact ⟨p, hp, s, hs, r, f, hr, ⟨rfl, rfl⟩, rfl⟩

theorem filterMap_one {β : Type} (R : Str → Option β) (p : Str) (ss : List Str) (hn : ss.Nodup) (s : Str) :
    ((ss.filterMap fun t => (R t).map fun r => ((t, p), r)).filter fun f => f.1.1 = s) =
      if s ∈ ss then ((R s).map fun r => ((s, p), r)).toList else [] := by
  induction ss with
  | nil => simp
  | cons t ss ih =>
    have hn' := List.nodup_cons.mp hn
    have ih := ih hn'.2
    by_cases hts : t = s
    · subst hts
      rw [if_neg hn'.1] at ih
      cases hR : R t with
      | none => rw [List.filterMap_cons_none (by rw [hR]; rfl), ih]; simp
      | some q =>
        rw [List.filterMap_cons_some (b := ((t, p), q)) (by rw [hR]; rfl), List.filter_cons_of_pos (by simp), ih]
        simp
    · have hmem : (s ∈ t :: ss) = (s ∈ ss) := by
        simp [Ne.symm hts]
      cases hR : R t with
      | none => rw [List.filterMap_cons_none (by rw [hR]; rfl), ih]; simp only [hmem]
      | some q =>
        rw [List.filterMap_cons_some (b := ((t, p), q)) (by rw [hR]; rfl), List.filter_cons_of_neg (by simpa using hts), ih]
        simp only [hmem]

theorem alone_onsets (c : Cfg) (x : Ext) (hx : KeepsIds x) (d : CalcOnsets.Data) (hn : d.stations.Nodup) (s : Str)
    (hs : s ∈ d.stations) (hf : ∀ p ∈ c.phases, Fine c x d p) :
    (final c x (Spec.alone x d s) c.phases ⟨[], [], []⟩).onsets =
      (final c x d c.phases ⟨[], [], []⟩).onsets.filter fun f => f.1.1 = s := by
  rw [final_onsets_eq, final_onsets_eq, List.filter_flatMap]
  apply List.flatMap_congr
  intro p hp
  have h := filterMap_one (fun t => (res c x d t p).map Prod.snd) p d.stations hn s
  simp only [Option.map_map] at h
  rw [if_pos hs] at h
  have e : (fun t => Option.map ((fun r => ((t, p), r)) ∘ Prod.snd) (res c x d t p)) =
      fun t => (res c x d t p).map fun r => ((t, p), r.2) := rfl
  rw [e] at h
  rw [h]
  show (List.filterMap _ [s]) = _
  rw [← (alone_fine c x hx d s p hs (hf p hp)).2]
  cases hr : res c x (Spec.alone x d s) s p with
  | none => simp [hr]
  | some q => simp [hr]

/-- **C161**: what a scan computes for a station is what it would compute from the data of that station alone.  If
none of its phases is available, the station alone has no data available; otherwise the station alone gives the same
onset functions in the same order, and the same availability. -/
theorem C161_station_alone (c : Cfg) (x : Ext) (hx : KeepsIds x) (d : CalcOnsets.Data)
    (hn : Spec.PlainNames c.phases d.stations) (o : Out) (h : calculateOnsets c x d = .ok o) (s : Str)
    (hs : s ∈ d.stations) :
    ((∀ f ∈ o.onsets, f.1.1 ≠ s) → calculateOnsets c x (Spec.alone x d s) = .error .dataAvailability) ∧
    ((∃ f ∈ o.onsets, f.1.1 = s) → ∃ o', calculateOnsets c x (Spec.alone x d s) = .ok o' ∧
      o'.onsets = o.onsets.filter (fun f => f.1.1 = s) ∧
      ∀ p ∈ c.phases, ∀ v, (Compute.key s p, v) ∈ o'.availability ↔ (Compute.key s p, v) ∈ o.availability) := by
  obtain ⟨hf, ho, h0, h1⟩ := (calculateOnsets_iff c x d o).1 h
  have hal := fun p hp => alone_fine c x hx d s p hs (hf p hp)
  have hn' : Spec.PlainNames c.phases (Spec.alone x d s).stations :=
    ⟨hn.phases, by simp [Spec.alone], hn.phase, by simp only [Spec.alone, List.mem_singleton]; rintro _ rfl; exact hn.station _ hs⟩
  have hfin := phaseLoop_ok c x (Spec.alone x d s) c.phases (fun p hp => (hal p hp).1) ⟨[], [], []⟩
  have hav' := final_availability c x (Spec.alone x d s) hn'
  have hav := final_availability c x d hn
  have hpairs : Compute.allPairs c.phases (Spec.alone x d s).stations = c.phases.map fun p => (s, p) := by
    unfold Compute.allPairs Spec.alone
    induction c.phases with
    | nil => rfl
    | cons p ps ih => simp only [List.flatMap_cons, ih]; rfl
  rw [hpairs] at hav'
  have havn : ∀ p ∈ c.phases, avNum c x (Spec.alone x d s) s p = avNum c x d s p := by
    intro p hp; unfold avNum; rw [(hal p hp).2]
  constructor
  · intro hno
    unfold calculateOnsets
    rw [hfin]
    simp only
    rw [if_pos]
    rw [hav', List.map_map, List.map_map]
    apply List.sum_eq_zero
    simp only [List.mem_map, Function.comp]
    rintro _ ⟨p, hp, rfl⟩
    rw [havn p hp]
    unfold avNum
    cases hr : res c x d s p with
    | none => rfl
    | some q =>
      exfalso
      refine hno ((s, p), q.2) ?_ rfl
      rw [ho, mem_final_onsets]
      exact ⟨hp, hs, q.1, hr⟩
  · rintro ⟨⟨⟨s', p⟩, f⟩, hm, hss⟩
    have hss : s' = s := hss
    subst hss
    have hm' := hm
    rw [ho, mem_final_onsets] at hm'
    obtain ⟨hp, _, r, hr⟩ := hm'
    have hons := alone_onsets c x hx d hn.stations s' hs hf
    refine ⟨final c x (Spec.alone x d s') c.phases ⟨[], [], []⟩, ?_, by rw [hons, ho], ?_⟩
    · rw [calculateOnsets_iff]
      refine ⟨fun p hp => (hal p hp).1, rfl, ?_, ?_⟩
      · rw [hav', List.map_map, List.map_map]
        intro hz
        have := List.sum_eq_zero_iff.mp hz 1
        refine absurd (this ?_) (by simp)
        simp only [List.mem_map, Function.comp]
        exact ⟨p, hp, by rw [havn p hp]; simp [avNum, hr]⟩
      · rw [hons, ← ho]
        exact sameLength_filter Prod.snd _ _ h1
    · intro p' hp' v
      rw [hav', ho, hav]
      simp only [List.mem_map, Prod.mk.injEq, Compute.allPairs, List.mem_flatMap]
      constructor
      · rintro ⟨_, ⟨q, hq, rfl⟩, hk, rfl⟩
        exact ⟨(s', q), ⟨q, hq, s', hs, rfl⟩, hk, (havn q hq).symm⟩
      · rintro ⟨_, ⟨q, hq, t, ht, rfl⟩, hk, rfl⟩
        obtain ⟨e1, e2⟩ := Compute.key_inj (hn.station t ht) (hn.phase q hq) (hn.station s' hs) (hn.phase p' hp') hk
        subst e1 e2
        exact ⟨(t, q), ⟨q, hq, rfl⟩, rfl, havn q hq⟩

/-- **C161**, for two archives: if they hold the same data for a station and neither scan raises an exception, the
station gets the same onset functions and the same availability from both, whatever the other stations are and do. -/
theorem C161_other_stations (c : Cfg) (x : Ext) (hx : KeepsIds x) (d d' : CalcOnsets.Data)
    (hn : Spec.PlainNames c.phases d.stations) (hn' : Spec.PlainNames c.phases d'.stations)
    (hopt : d'.resample = d.resample ∧ d'.upfactor = d.upfactor ∧ d'.start = d.start ∧ d'.stop = d.stop)
    (o o' : Out) (h : calculateOnsets c x d = .ok o) (h' : calculateOnsets c x d' = .ok o') (s : Str)
    (hs : s ∈ d.stations) (hs' : s ∈ d'.stations)
    (hw : (d'.waveforms.filter fun t => x.ofStation s t.id) = d.waveforms.filter fun t => x.ofStation s t.id) :
    o'.onsets.filter (fun f => f.1.1 = s) = o.onsets.filter (fun f => f.1.1 = s) ∧
    ∀ p ∈ c.phases, ∀ v, (Compute.key s p, v) ∈ o'.availability ↔ (Compute.key s p, v) ∈ o.availability := by
  have ha : Spec.alone x d' s = Spec.alone x d s := by
    obtain ⟨h1, h2, h3, h4⟩ := hopt
    unfold Spec.alone
    rw [hw, h1, h2, h3, h4]
  obtain ⟨hf, ho, h0, h1⟩ := (calculateOnsets_iff c x d o).1 h
  obtain ⟨hf', ho', h0', h1'⟩ := (calculateOnsets_iff c x d' o').1 h'
  have hres : ∀ p ∈ c.phases, res c x d' s p = res c x d s p := by
    intro p hp
    rw [← (alone_fine c x hx d s p hs (hf p hp)).2, ← (alone_fine c x hx d' s p hs' (hf' p hp)).2, ha]
  constructor
  · rw [ho, ho', ← alone_onsets c x hx d hn.stations s hs hf, ← alone_onsets c x hx d' hn'.stations s hs' hf', ha]
  · have key : ∀ d : CalcOnsets.Data, Spec.PlainNames c.phases d.stations → s ∈ d.stations → ∀ p ∈ c.phases, ∀ v,
        (Compute.key s p, v) ∈ (final c x d c.phases ⟨[], [], []⟩).availability ↔ v = avNum c x d s p := by
      intro d hn hs p hp v
      rw [final_availability c x d hn]
      simp only [List.mem_map, Prod.mk.injEq, Compute.allPairs, List.mem_flatMap]
      constructor
      · rintro ⟨_, ⟨q, hq, t, ht, rfl⟩, hk, rfl⟩
        obtain ⟨e1, e2⟩ := Compute.key_inj (hn.station t ht) (hn.phase q hq) (hn.station s hs) (hn.phase p hp) hk
        subst e1 e2
        rfl
      · rintro rfl
        exact ⟨(s, p), ⟨p, hp, s, hs, rfl⟩, rfl, rfl⟩
    intro p hp v
    rw [ho, ho', key d hn hs p hp, key d' hn' hs' p hp]
    unfold avNum
    rw [hres p hp]

end QM

import Verif.Model.Compute
import Verif.Lemmas.Round

namespace QM.Compute

theorem splitU_no {s : Str} (h : '_' ∉ s) : splitU s = [s] := by
  induction s with
  | nil => rfl
  | cons c cs ih =>
    simp only [List.mem_cons, not_or] at h
    simp only [splitU, if_neg (Ne.symm h.1), ih h.2]

theorem splitU_append {s t : Str} (h : '_' ∉ s) : splitU (s ++ '_' :: t) = s :: splitU t := by
  induction s with
  | nil => simp [splitU]
  | cons c cs ih =>
    simp only [List.mem_cons, not_or] at h
    simp only [List.cons_append, splitU, if_neg (Ne.symm h.1), ih h.2]

theorem splitU_key {s p : Str} (hs : '_' ∉ s) (hp : '_' ∉ p) : splitU (key s p) = [s, p] := by
  unfold key; rw [splitU_append hs, splitU_no hp]

theorem splitU_ne_nil (s : Str) : splitU s ≠ [] := by
  cases s with
  | nil => simp [splitU]
  | cons c cs =>
    simp only [splitU]; split
    · simp
    · split <;> simp

theorem splitU_length (s : Str) : (splitU s).length = s.count '_' + 1 := by
  induction s with
  | nil => rfl
  | cons c cs ih =>
    simp only [splitU]
    split
    · next h => subst h; simp [ih]
    · next h =>
      rw [List.count_cons_of_ne (by simpa using h), ← ih]
      split
      · next h2 => exact absurd h2 (splitU_ne_nil cs)
      · next w ws h2 => simp [h2]

theorem key_inj {s p s' p' : Str} (hs : '_' ∉ s) (hp : '_' ∉ p) (hs' : '_' ∉ s') (hp' : '_' ∉ p')
    (h : key s p = key s' p') : s = s' ∧ p = p' := by
  have h1 := splitU_key hs hp
  rw [h, splitU_key hs' hp'] at h1
  simp only [List.cons.injEq, and_true] at h1
  exact ⟨h1.1.symm, h1.2.symm⟩

/-- All (station, phase) pairs, phases outermost. -/
def allPairs (phases stations : List Str) : List (Str × Str) :=
  phases.flatMap (fun p => stations.map (fun s => (s, p)))

theorem fold_pairs {α : Type} (av : Str → Str → ℕ) (onset : Str → Str → α)
    (phases stations : List Str) (st : List (Str × ℕ) × List α) :
    phases.foldl (fun st ph => stations.foldl (fun st s => visit av onset st (s, ph)) st) st =
      (allPairs phases stations).foldl (visit av onset) st := by
  induction phases generalizing st with
  | nil => rfl
  | cons p ps ih =>
    simp only [List.foldl_cons, allPairs, List.flatMap_cons, List.foldl_append]
    rw [ih]
    simp only [allPairs, List.foldl_map]

theorem fold_visit {α : Type} (av : Str → Str → ℕ) (onset : Str → Str → α)
    (pairs : List (Str × Str)) (d : List (Str × ℕ)) (o : List α)
    (hnd : (d.map Prod.fst ++ pairs.map (fun sp => key sp.1 sp.2)).Nodup) :
    pairs.foldl (visit av onset) (d, o) =
      (d ++ pairs.map (fun sp => (key sp.1 sp.2, av sp.1 sp.2)),
       o ++ (pairs.filter (fun sp => av sp.1 sp.2 ≠ 0)).map (fun sp => onset sp.1 sp.2)) := by
  induction pairs generalizing d o with
  | nil => simp
  | cons sp ps ih =>
    have hk : d.any (fun e => e.1 = key sp.1 sp.2) = false := by
      simp only [List.map_cons, List.nodup_append, List.mem_cons, List.mem_map] at hnd
      simp only [List.any_eq_false, decide_eq_true_eq]
      intro e he h
      exact hnd.2.2 e.1 ⟨e, he, rfl⟩ _ (.inl rfl) h
    have hset : dictSet d (key sp.1 sp.2) (av sp.1 sp.2) = d ++ [(key sp.1 sp.2, av sp.1 sp.2)] := by
      simp [dictSet, hk]
    simp only [List.foldl_cons]
    have hnd' : ((d ++ [(key sp.1 sp.2, av sp.1 sp.2)]).map Prod.fst ++
        ps.map (fun sp => key sp.1 sp.2)).Nodup := by
      simpa using hnd
    by_cases h0 : av sp.1 sp.2 = 0
    · have : visit av onset (d, o) sp = (d ++ [(key sp.1 sp.2, av sp.1 sp.2)], o) := by
        simp only [visit, hset]; rw [if_pos h0]
      rw [this, ih _ _ hnd', List.filter_cons_of_neg (by simp [h0])]
      simp
    · have : visit av onset (d, o) sp =
          (d ++ [(key sp.1 sp.2, av sp.1 sp.2)], o ++ [onset sp.1 sp.2]) := by
        simp only [visit, hset, if_neg h0]
      rw [this, ih _ _ hnd', List.filter_cons_of_pos (by simp [h0])]
      simp

theorem nodup_keys {phases stations : List Str} (hp : phases.Nodup) (hs : stations.Nodup)
    (hpu : ∀ p ∈ phases, '_' ∉ p) (hsu : ∀ s ∈ stations, '_' ∉ s) :
    ((allPairs phases stations).map (fun sp => key sp.1 sp.2)).Nodup := by
  refine (List.nodup_map_iff_inj_on ?_).2 ?_
  · unfold allPairs
    rw [List.nodup_flatMap]
    refine ⟨fun p _ => (List.nodup_map_iff (fun a b h => by simpa using h)).2 hs, ?_⟩
    refine hp.imp ?_
    intro p q hpq
    rw [Function.onFun, List.disjoint_left]
    intro x hx hy
    simp only [List.mem_map] at hx hy
    obtain ⟨a, _, rfl⟩ := hx
    obtain ⟨b, _, h⟩ := hy
    simp only [Prod.mk.injEq] at h
    exact hpq h.2.symm
  · intro x hx y hy h
    simp only [allPairs, List.mem_flatMap, List.mem_map] at hx hy
    obtain ⟨p, hp1, s, hs1, rfl⟩ := hx
    obtain ⟨q, hq1, t, ht1, rfl⟩ := hy
    obtain ⟨h1, h2⟩ := key_inj (hsu s hs1) (hpu p hp1) (hsu t ht1) (hpu q hq1) h
    rw [h1, h2]

theorem calculateOnsets_eq {α : Type} {phases stations : List Str} (hp : phases.Nodup)
    (hs : stations.Nodup) (hpu : ∀ p ∈ phases, '_' ∉ p) (hsu : ∀ s ∈ stations, '_' ∉ s)
    (av : Str → Str → ℕ) (onset : Str → Str → α) :
    calculateOnsets phases stations av onset =
      if ((allPairs phases stations).map (fun sp => av sp.1 sp.2)).sum = 0 then
        .error .dataAvailability
      else .ok ((allPairs phases stations).map (fun sp => (key sp.1 sp.2, av sp.1 sp.2)),
        ((allPairs phases stations).filter (fun sp => av sp.1 sp.2 ≠ 0)).map
          (fun sp => onset sp.1 sp.2)) := by
  unfold calculateOnsets
  rw [fold_pairs, fold_visit av onset _ [] [] (by simpa using nodup_keys hp hs hpu hsu)]
  simp only [List.nil_append, List.map_map]
  rfl

theorem serve_pairs (L : Lut) (av : Str → Str → ℕ) (pairs : List (Str × Str))
    (hu : ∀ sp ∈ pairs, '_' ∉ sp.1 ∧ '_' ∉ sp.2)
    (G : Str → Str → ℕ → ℚ)
    (hG : ∀ sp ∈ pairs, av sp.1 sp.2 = 1 → lookup L sp.1 sp.2 = .ok (G sp.1 sp.2)) :
    serve L (pairs.map (fun sp => (key sp.1 sp.2, av sp.1 sp.2))) =
      .ok ((pairs.filter (fun sp => av sp.1 sp.2 = 1)).map (fun sp => G sp.1 sp.2)) := by
  induction pairs with
  | nil => rfl
  | cons sp ps ih =>
    have ih' := ih (fun q hq => hu q (List.mem_cons_of_mem _ hq))
      (fun q hq => hG q (List.mem_cons_of_mem _ hq))
    have hu' := hu sp (List.mem_cons_self)
    simp only [List.map_cons, serve, splitU_key hu'.1 hu'.2]
    by_cases h1 : av sp.1 sp.2 = 1
    · rw [if_pos h1, hG sp (List.mem_cons_self) h1, ih',
        List.filter_cons_of_pos (by simp [h1])]
      rfl
    · rw [if_neg h1, ih', List.filter_cons_of_neg (by simp [h1])]

/-- The dict contains every visited key. -/
theorem mem_dictSet {α : Type} (d : List (Str × α)) (k : Str) (v : α) :
    k ∈ (dictSet d k v).map Prod.fst ∧
      ∀ x ∈ d.map Prod.fst, x ∈ (dictSet d k v).map Prod.fst := by
  unfold dictSet
  split
  · next h =>
    simp only [List.any_eq_true, decide_eq_true_eq] at h
    obtain ⟨e, he, hk⟩ := h
    have hm : (d.map (fun e => if e.1 = k then (k, v) else e)).map Prod.fst = d.map Prod.fst := by
      rw [List.map_map]
      apply List.map_congr_left
      intro e _
      simp only [Function.comp_apply]
      split
      · next h => exact h.symm
      · rfl
    rw [hm]
    exact ⟨List.mem_map.2 ⟨e, he, hk⟩, fun x hx => hx⟩
  · simp only [List.map_append, List.map_cons, List.map_nil]
    exact ⟨by simp, fun x hx => List.mem_append_left _ hx⟩

theorem mem_fold_visit {α : Type} (av : Str → Str → ℕ) (onset : Str → Str → α)
    (pairs : List (Str × Str)) (st : List (Str × ℕ) × List α) :
    (∀ x ∈ st.1.map Prod.fst, x ∈ ((pairs.foldl (visit av onset) st).1).map Prod.fst) ∧
    (∀ sp ∈ pairs, key sp.1 sp.2 ∈ ((pairs.foldl (visit av onset) st).1).map Prod.fst) := by
  induction pairs generalizing st with
  | nil => simp
  | cons sp ps ih =>
    simp only [List.foldl_cons]
    have hv : (visit av onset st sp).1 = dictSet st.1 (key sp.1 sp.2) (av sp.1 sp.2) := by
      simp only [visit]; split <;> rfl
    obtain ⟨h1, h2⟩ := ih (visit av onset st sp)
    rw [hv] at h1
    obtain ⟨m1, m2⟩ := mem_dictSet st.1 (key sp.1 sp.2) (av sp.1 sp.2)
    refine ⟨fun x hx => h1 x (m2 x hx), ?_⟩
    intro q hq
    rcases List.mem_cons.1 hq with rfl | hq
    · exact h1 _ m1
    · exact h2 q hq

theorem serve_bad (L : Lut) (avail : List (Str × ℕ)) (k : Str) (hk : k ∈ avail.map Prod.fst)
    (hbad : (splitU k).length ≠ 2) : ∃ e, serve L avail = .error e := by
  induction avail with
  | nil => simp at hk
  | cons e rest ih =>
    obtain ⟨k', v⟩ := e
    simp only [List.map_cons, List.mem_cons] at hk
    simp only [serve]
    split
    · next s p hsp =>
      have hr : ∃ e, serve L rest = .error e := by
        rcases hk with rfl | hk
        · rw [hsp] at hbad; simp at hbad
        · exact ih hk
      obtain ⟨e, he⟩ := hr
      split
      · split
        · exact ⟨_, rfl⟩
        · rw [he]; exact ⟨_, rfl⟩
      · exact ⟨e, he⟩
    · exact ⟨_, rfl⟩

theorem le_maxTraveltime {L : Lut} {m : ℚ} (h : maxTraveltime L = some m) {s p : Str}
    (hs : s ∈ L.stations) (hp : p ∈ L.phases) {g : ℕ → ℚ} (hg : lookup L s p = .ok g)
    {node : ℕ} (hn : node < L.nNodes) : g node ≤ m := by
  unfold maxTraveltime at h
  simp only at h
  split at h
  · refine (List.max?_eq_some_iff.1 h).2 _ ?_
    rw [List.mem_flatMap]
    refine ⟨.ok g, ?_, ?_⟩
    · rw [List.mem_flatMap]
      exact ⟨p, hp, List.mem_map.2 ⟨s, hs, hg⟩⟩
    · simp only [List.mem_map, List.mem_range]
      exact ⟨node, hn, rfl⟩
  · simp at h

end QM.Compute

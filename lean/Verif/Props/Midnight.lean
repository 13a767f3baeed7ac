import Verif.Props.TriggerEvents
import Verif.Props.TriggerBatches

/-!
# Events on either side of a midnight (C110)
-/

namespace QM

open QM.Trigger QM.Spec

/-- Every batch reads the samples of one scan `D` in its own span, `pad` longer at both ends. -/
def Spec.ReadsFrom (D : List Row) (pad : ℚ) (read : ℚ → ℚ → Option ScanData) : Prop :=
  ∀ a b sd, read a b = some sd →
    sd.rows = D.filter (fun r => decide (a - pad ≤ r.dt ∧ r.dt ≤ b + pad)) ∧ 0 < sd.delta

/-! ## Candidates by time -/

/-- All samples from the one to the other are at or above the threshold `t`. -/
def Linked (norm : Bool) (t : ℚ) (D : List Row) (p q : Row) : Prop :=
  ∀ r ∈ D, (p.dt ≤ r.dt ∨ q.dt ≤ r.dt) → (r.dt ≤ p.dt ∨ r.dt ≤ q.dt) → t ≤ trigValue norm r

/-- The first sample of largest COA of its run. -/
structure PeakIn (norm : Bool) (t : ℚ) (D : List Row) (p : Row) : Prop where
  mem : p ∈ D
  above : t ≤ trigValue norm p
  max : ∀ q ∈ D, Linked norm t D p q → q.coa ≤ p.coa
  first : ∀ q ∈ D, Linked norm t D p q → q.dt < p.dt → q.coa < p.coa

theorem dt_lt_iff {D : List Row} (hD : D.Pairwise (fun r s => r.dt < s.dt)) {i j : ℕ} {r s : Row}
    (hi : D[i]? = some r) (hj : D[j]? = some s) : i < j ↔ r.dt < s.dt := by
  have key : ∀ (i j : ℕ) (r s : Row), D[i]? = some r → D[j]? = some s → i < j → r.dt < s.dt := by
    intro i j r s hi hj h
    rw [List.pairwise_iff_getElem] at hD
    obtain ⟨hi', hi⟩ := List.getElem?_eq_some_iff.mp hi
    obtain ⟨hj', hj⟩ := List.getElem?_eq_some_iff.mp hj
    have := hD i j hi' hj' h
    rwa [hi, hj] at this
  constructor
  · exact key i j r s hi hj
  · intro h
    by_contra hn
    rcases Nat.lt_or_ge j i with h1 | h1
    · exact lt_asymm h (key j i s r hj hi h1)
    · obtain rfl : i = j := by omega
      rw [hi, Option.some.injEq] at hj
      subst hj
      exact lt_irrefl _ h

theorem dt_le_iff {D : List Row} (hD : D.Pairwise (fun r s => r.dt < s.dt)) {i j : ℕ} {r s : Row}
    (hi : D[i]? = some r) (hj : D[j]? = some s) : i ≤ j ↔ r.dt ≤ s.dt := by
  rw [← not_lt, ← not_lt, dt_lt_iff hD hj hi]

theorem above_static (norm : Bool) (t sr : ℚ) (D : List Row) (i : ℕ) :
    Above norm D (getThreshold (.static t) (D.map (Row.trig norm)) sr) i ↔
      ∃ r, D[i]? = some r ∧ t ≤ trigValue norm r := by
  unfold Above getThreshold
  simp only [List.map_map, List.getElem?_map]
  constructor
  · rintro ⟨r, u, h1, h2, h3⟩
    rw [h1] at h2
    simp at h2
    exact ⟨r, h1, by rw [h2]; exact h3⟩
  · rintro ⟨r, h1, h2⟩
    refine ⟨r, t, h1, ?_, h2⟩
    rw [h1]
    simp

theorem forall₂_exists_left {α β : Type} {R : α → β → Prop} {l : List α} {m : List β}
    (h : List.Forall₂ R l m) {b : β} (hb : b ∈ m) : ∃ a ∈ l, R a b := by
  induction h with
  | nil => simp at hb
  | cons hx _ ih =>
    rcases List.mem_cons.mp hb with rfl | hb
    · exact ⟨_, List.mem_cons_self, hx⟩
    · obtain ⟨v, hv, hv'⟩ := ih hb
      exact ⟨v, List.mem_cons_of_mem _ hv, hv'⟩

theorem forall₂_exists_right {α β : Type} {R : α → β → Prop} {l : List α} {m : List β}
    (h : List.Forall₂ R l m) {a : α} (ha : a ∈ l) : ∃ b ∈ m, R a b := by
  induction h with
  | nil => simp at ha
  | cons hx _ ih =>
    rcases List.mem_cons.mp ha with rfl | ha
    · exact ⟨_, List.mem_cons_self, hx⟩
    · obtain ⟨v, hv, hv'⟩ := ih ha
      exact ⟨v, List.mem_cons_of_mem _ hv, hv'⟩

/-- The candidates for a static threshold. -/
def staticCands (cfg : Trigger.Cfg) (t sr : ℚ) (D : List Row) : List Cand :=
  identifyCandidates cfg D (getThreshold (.static t) (D.map (Row.trig cfg.norm)) sr)

theorem peak_of_cand (cfg : Trigger.Cfg) (t sr : ℚ) (D : List Row)
    (hD : D.Pairwise (fun r s => r.dt < s.dt)) {c : Cand} (hc : c ∈ staticCands cfg t sr D) :
    ∃ p, PeakIn cfg.norm t D p ∧ c.coaTime = p.dt ∧ c.trigCoa = trigValue cfg.norm p := by
  obtain ⟨runs, hruns, -, hf⟩ := C08_candidates_are_maximal_runs cfg D
    (getThreshold (.static t) (D.map (Row.trig cfg.norm)) sr)
  obtain ⟨⟨a, b⟩, hab, k, pk, -, -, hp, -, -, h1, h2, -⟩ := forall₂_exists_right hf hc
  have hrun := (hruns a b).mp hab
  have habove : ∀ i r, a ≤ i → i ≤ b → D[i]? = some r → t ≤ trigValue cfg.norm r := by
    intro i r h3 h4 h5
    obtain ⟨r', h6, h7⟩ := (above_static cfg.norm t sr D i).mp (hrun.all i h3 h4)
    rw [h5, Option.some.injEq] at h6
    rw [h6]; exact h7
  have hin : ∀ (j : ℕ) (q : Row), D[j]? = some q → Linked cfg.norm t D pk q → a ≤ j ∧ j ≤ b := by
    intro j q hj hl
    have hjl : j < D.length := (List.getElem?_eq_some_iff.mp hj).1
    have hkl : k < D.length := (List.getElem?_eq_some_iff.mp hp.at_p).1
    have hlo := hp.lo
    have hhi := hp.hi
    constructor
    · by_contra hn
      obtain ⟨j', hj'⟩ : ∃ j', j' + 1 = a := ⟨a - 1, by omega⟩
      have hl' : D[j']? = some D[j'] := List.getElem?_eq_getElem (by omega)
      refine hrun.left j' hj' ((above_static cfg.norm t sr D j').mpr ⟨_, hl', ?_⟩)
      refine hl _ (List.getElem_mem _) (Or.inr ?_) (Or.inl ?_)
      · exact (dt_le_iff hD hj hl').mp (by omega)
      · exact (dt_le_iff hD hl' hp.at_p).mp (by omega)
    · by_contra hn
      have hl' : D[b + 1]? = some D[b + 1] := List.getElem?_eq_getElem (by omega)
      refine hrun.right ((above_static cfg.norm t sr D (b + 1)).mpr ⟨_, hl', ?_⟩)
      refine hl _ (List.getElem_mem _) (Or.inl ?_) (Or.inr ?_)
      · exact (dt_le_iff hD hp.at_p hl').mp (by omega)
      · exact (dt_le_iff hD hl' hj).mp (by omega)
  refine ⟨pk, ⟨List.mem_of_getElem? hp.at_p, habove k pk hp.lo hp.hi hp.at_p, ?_, ?_⟩, h1, h2⟩
  · intro q hq hl
    obtain ⟨j, hj⟩ := List.mem_iff_getElem?.mp hq
    obtain ⟨h3, h4⟩ := hin j q hj hl
    exact hp.max j q h3 h4 hj
  · intro q hq hl hlt
    obtain ⟨j, hj⟩ := List.mem_iff_getElem?.mp hq
    obtain ⟨h3, h4⟩ := hin j q hj hl
    exact hp.first j q h3 ((dt_lt_iff hD hj hp.at_p).mpr hlt) hj

theorem cand_of_above (cfg : Trigger.Cfg) (t sr : ℚ) (D : List Row)
    (hD : D.Pairwise (fun r s => r.dt < s.dt)) {p : Row} (hp : p ∈ D)
    (hab : t ≤ trigValue cfg.norm p) :
    ∃ c ∈ staticCands cfg t sr D, ∃ q, PeakIn cfg.norm t D q ∧ Linked cfg.norm t D p q ∧
      c.coaTime = q.dt ∧ c.trigCoa = trigValue cfg.norm q := by
  obtain ⟨i, hi⟩ := List.mem_iff_getElem?.mp hp
  obtain ⟨⟨a, b⟩, ⟨hrun, h1, h2⟩, -⟩ := C08_every_sample_in_one_run cfg D
    (getThreshold (.static t) (D.map (Row.trig cfg.norm)) sr) i
    ((above_static cfg.norm t sr D i).mpr ⟨p, hi, hab⟩)
  obtain ⟨runs, hruns, -, hf⟩ := C08_candidates_are_maximal_runs cfg D
    (getThreshold (.static t) (D.map (Row.trig cfg.norm)) sr)
  obtain ⟨c, hc, k, pk, -, -, hpk, -, -, h3, h4, -⟩ :=
    forall₂_exists_left hf ((hruns a b).mpr hrun)
  obtain ⟨q, hq, h5, h6⟩ := peak_of_cand cfg t sr D hD (c := c) hc
  have hqk : q = pk := by
    obtain ⟨j, hj⟩ := List.mem_iff_getElem?.mp hq.mem
    have hdt : q.dt = pk.dt := by rw [← h5, h3]
    have hjk : j = k := le_antisymm ((dt_le_iff hD hj hpk.at_p).mpr hdt.le)
      ((dt_le_iff hD hpk.at_p hj).mpr hdt.ge)
    rw [hjk, hpk.at_p, Option.some.injEq] at hj
    exact hj.symm
  subst hqk
  refine ⟨c, hc, q, hq, ?_, h5, h6⟩
  intro r hr hr1 hr2
  obtain ⟨j, hj⟩ := List.mem_iff_getElem?.mp hr
  have hlo := hpk.lo
  have hhi := hpk.hi
  have hja : a ≤ j := by
    rcases hr1 with h | h
    · have := (dt_le_iff hD hi hj).mpr h; omega
    · have := (dt_le_iff hD hpk.at_p hj).mpr h; omega
  have hjb : j ≤ b := by
    rcases hr2 with h | h
    · have := (dt_le_iff hD hj hi).mpr h; omega
    · have := (dt_le_iff hD hj hpk.at_p).mpr h; omega
  obtain ⟨r', h7, h8⟩ := (above_static cfg.norm t sr D j).mp (hrun.all j hja hjb)
  rw [hj, Option.some.injEq] at h7
  rw [h7]; exact h8

/-! ## Groups -/

theorem groups_separated (cfg : Trigger.Cfg) (G : List (List Cand)) (h2 : ∀ g ∈ G, g ≠ [])
    (h4 : G.IsChain (fun g h => ∀ c ∈ g.getLast?, ∀ d ∈ h.head?, Apart cfg.mw c d))
    (hmax : ∀ c ∈ G.flatten, c.coaTime + cfg.mei ≤ c.maxTime)
    (hsorted : G.flatten.Pairwise (fun c d => c.coaTime < d.coaTime)) :
    G.Pairwise (fun g h => ∀ c ∈ g, ∀ d ∈ h, c.coaTime + cfg.mei + cfg.mw < d.coaTime) := by
  induction G with
  | nil => simp
  | cons g G ih =>
    rw [List.flatten_cons] at hmax hsorted
    rw [List.pairwise_append] at hsorted
    have h4' : G.IsChain (fun g h => ∀ c ∈ g.getLast?, ∀ d ∈ h.head?, Apart cfg.mw c d) := by
      cases G with
      | nil => simp
      | cons h G => rw [List.isChain_cons_cons] at h4; exact h4.2
    rw [List.pairwise_cons]
    refine ⟨?_, ih (fun g hg => h2 g (List.mem_cons_of_mem _ hg)) h4'
      (fun c hc => hmax c (List.mem_append_right _ hc)) hsorted.2.1⟩
    intro h hh c hc d hd
    cases G with
    | nil => simp at hh
    | cons h0 G =>
      rw [List.isChain_cons_cons] at h4
      have hg0 := h2 g List.mem_cons_self
      have hh0 := h2 h0 (List.mem_cons_of_mem _ List.mem_cons_self)
      obtain ⟨l, hl⟩ : ∃ l, g.getLast? = some l := by
        rw [← Option.ne_none_iff_exists']; simpa using hg0
      obtain ⟨d0, tl, rfl⟩ : ∃ d0 tl, h0 = d0 :: tl := by
        cases h0 with
        | nil => exact absurd rfl hh0
        | cons d0 tl => exact ⟨d0, tl, rfl⟩
      have hap := h4.1 l hl d0 rfl
      have hcl : c.coaTime ≤ l.coaTime := by
        obtain ⟨ys, hys⟩ := List.getLast?_eq_some_iff.mp hl
        have hp := hsorted.1
        rw [hys, List.pairwise_append] at hp
        rw [hys, List.mem_append] at hc
        rcases hc with hc | hc
        · exact le_of_lt (hp.2.2 c hc l (by simp))
        · rw [List.mem_singleton] at hc; rw [hc]
      have hM := hmax l (List.mem_append_left _ (List.mem_of_getLast? hl))
      have hd0 : d0.coaTime ≤ d.coaTime := by
        have hmem : d ∈ (((d0 :: tl) :: G).flatten : List Cand) := List.mem_flatten.mpr ⟨h, hh, hd⟩
        have hp := hsorted.2.1
        rw [List.flatten_cons, List.cons_append] at hmem hp
        rcases List.mem_cons.mp hmem with hmem | hmem
        · rw [hmem]
        · exact le_of_lt ((List.pairwise_cons.mp hp).1 d hmem)
      have := hap.1
      linarith

/-- Two candidates no more than `mei` apart are merged; the earlier comes first in the group. -/
theorem same_group (cfg : Trigger.Cfg) (hmw : 0 ≤ cfg.mw) (t sr : ℚ) (D : List Row)
    (hD : D.Pairwise (fun r s => r.dt < s.dt)) {c d : Cand} (hc : c ∈ staticCands cfg t sr D)
    (hd : d ∈ staticCands cfg t sr D) (h1 : c.coaTime < d.coaTime)
    (h2 : d.coaTime ≤ c.coaTime + cfg.mei) {e : Cand}
    (he : e ∈ refineCandidates cfg (staticCands cfg t sr D)) :
    (e.coaTime = c.coaTime → d.trigCoa ≤ c.trigCoa) ∧
      (e.coaTime = d.coaTime → c.trigCoa < d.trigCoa) := by
  obtain ⟨hmax, hsorted⟩ := identify_sorted cfg D
    (getThreshold (.static t) (D.map (Row.trig cfg.norm)) sr) hD
  obtain ⟨hfl, hne, -, hch⟩ := mergedGroups_spec cfg (staticCands cfg t sr D)
  have hsep := groups_separated cfg (mergedGroups cfg (staticCands cfg t sr D)) hne hch
    (by rw [hfl]; exact hmax) (by rw [hfl]; exact hsorted)
  have huniq : ∀ x ∈ staticCands cfg t sr D, ∀ y ∈ staticCands cfg t sr D,
      x.coaTime = y.coaTime → x = y := by
    intro x hx y hy hxy
    rcases pairwise_or hsorted hx hy with h | h | h
    · exact h
    · linarith
    · linarith
  obtain ⟨g, hg, pre, best, post, hs, hpre, hpost, hct, -⟩ :=
    forall₂_exists_right (refine_forall₂ cfg (staticCands cfg t sr D)) he
  have hgm : ∀ x ∈ g, x ∈ staticCands cfg t sr D := by
    intro x hx
    rw [← hfl]
    exact List.mem_flatten.mpr ⟨g, hg, hx⟩
  have hbest : best ∈ g := by rw [hs]; simp
  have hgs : g.Pairwise (fun c d => c.coaTime < d.coaTime) := by
    refine List.Pairwise.sublist ?_ hsorted
    have := List.sublist_flatten_of_mem hg
    rwa [hfl] at this
  -- the group of the event also contains the other candidate
  have other : ∀ x ∈ g, ∀ y ∈ staticCands cfg t sr D,
      (x.coaTime < y.coaTime ∧ y.coaTime ≤ x.coaTime + cfg.mei ∨
        y.coaTime < x.coaTime ∧ x.coaTime ≤ y.coaTime + cfg.mei) → y ∈ g := by
    intro x hx y hy hxy
    rw [← hfl] at hy
    obtain ⟨g', hg', hy⟩ := List.mem_flatten.mp hy
    rcases pairwise_or hsep hg hg' with h | h | h
    · rw [h]; exact hy
    · have := h x hx y hy
      rcases hxy with h3 | h3 <;> linarith
    · have := h y hy x hx
      rcases hxy with h3 | h3 <;> linarith
  constructor
  · intro hec
    have hb : best = c := huniq _ (hgm _ hbest) _ hc (by rw [← hct, hec])
    subst hb
    have hdg := other _ hbest d hd (Or.inl ⟨h1, h2⟩)
    rw [hs] at hdg hgs
    rw [List.mem_append, List.mem_cons] at hdg
    rcases hdg with h | h | h
    · have := (List.pairwise_append.mp hgs).2.2 d h best (by simp)
      linarith
    · rw [h]
    · exact hpost d h
  · intro hed
    have hb : best = d := huniq _ (hgm _ hbest) _ hd (by rw [← hct, hed])
    subst hb
    have hcg := other _ hbest c hc (Or.inr ⟨h1, h2⟩)
    rw [hs] at hcg hgs
    rw [List.mem_append, List.mem_cons] at hcg
    rcases hcg with h | h | h
    · exact hpre c h
    · rw [h] at h1; exact absurd h1 (lt_irrefl _)
    · have := ((List.pairwise_cons.mp (List.pairwise_append.mp hgs).2.1)).1 c h
      linarith

theorem event_peak (cfg : Trigger.Cfg) (t sr : ℚ) (D : List Row)
    (hD : D.Pairwise (fun r s => r.dt < s.dt)) {e : Cand}
    (he : e ∈ refineCandidates cfg (staticCands cfg t sr D)) :
    ∃ c ∈ staticCands cfg t sr D, ∃ p, PeakIn cfg.norm t D p ∧ e.coaTime = p.dt ∧
      c.coaTime = p.dt ∧ c.trigCoa = trigValue cfg.norm p := by
  obtain ⟨hfl, -⟩ := mergedGroups_spec cfg (staticCands cfg t sr D)
  obtain ⟨g, hg, pre, best, post, hs, -, -, hct, -⟩ :=
    forall₂_exists_right (refine_forall₂ cfg (staticCands cfg t sr D)) he
  have hb : best ∈ staticCands cfg t sr D := by
    rw [← hfl]
    exact List.mem_flatten.mpr ⟨g, hg, by rw [hs]; simp⟩
  obtain ⟨p, hp, h1, h2⟩ := peak_of_cand cfg t sr D hD hb
  exact ⟨best, hb, p, hp, by rw [hct, h1], h1, h2⟩

/-! ## Two batches -/

/-- Samples of a window. -/
abbrev win (D : List Row) (a b : ℚ) : List Row :=
  D.filter (fun r => decide (a ≤ r.dt ∧ r.dt ≤ b))

theorem mem_win {D : List Row} {a b : ℚ} {r : Row} : r ∈ win D a b ↔ r ∈ D ∧ a ≤ r.dt ∧ r.dt ≤ b := by
  simp [win]

/-- Events of two windows of one scan, the second later, that are no more than `mei` apart. -/
theorem across (cfg : Trigger.Cfg) (hmw : 0 ≤ cfg.mw) (t sr sr' : ℚ) (D : List Row)
    (hD : D.Pairwise (fun r s => r.dt < s.dt)) {a b a' b' : ℚ} (haa : a ≤ a') (hbb : b ≤ b')
    {e f : Cand} (he : e ∈ refineCandidates cfg (staticCands cfg t sr (win D a b)))
    (hf : f ∈ refineCandidates cfg (staticCands cfg t sr' (win D a' b')))
    (hlt : e.coaTime < f.coaTime) (hle : f.coaTime ≤ e.coaTime + cfg.mei)
    (hae : a' ≤ e.coaTime) (hfb : f.coaTime ≤ b) : False := by
  have hW : (win D a b).Pairwise (fun r s => r.dt < s.dt) := hD.sublist List.filter_sublist
  have hW' : (win D a' b').Pairwise (fun r s => r.dt < s.dt) := hD.sublist List.filter_sublist
  obtain ⟨ce, hce, p, hp, hep, hcp, htp⟩ := event_peak cfg t sr _ hW he
  obtain ⟨cf, hcf, q, hq, hfq, hcq, htq⟩ := event_peak cfg t sr' _ hW' hf
  have hpD := mem_win.mp hp.mem
  have hqD := mem_win.mp hq.mem
  have hp' : p ∈ win D a' b' := mem_win.mpr ⟨hpD.1, by linarith, by linarith⟩
  have hq' : q ∈ win D a b := mem_win.mpr ⟨hqD.1, by linarith, by linarith⟩
  have hinj : ∀ x ∈ D, ∀ y ∈ D, x.dt = y.dt → x = y := by
    intro x hx y hy hxy
    rcases pairwise_or hD hx hy with h | h | h
    · exact h
    · linarith
    · linarith
  -- the peak of the first event is a peak in the second window
  obtain ⟨c1, hc1, u, hu, hlu, h1, h2⟩ := cand_of_above cfg t sr' _ hW' hp' hp.above
  have hup : u = p := by
    have huD := mem_win.mp hu.mem
    by_cases hub : u.dt ≤ b
    · have hul : Linked cfg.norm t (win D a b) p u := by
        intro r hr hr1 hr2
        have hrD := mem_win.mp hr
        refine hlu r (mem_win.mpr ⟨hrD.1, ?_, ?_⟩) hr1 hr2
        · rcases hr1 with h | h <;> linarith
        · rcases hr2 with h | h <;> linarith
      have huw : u ∈ win D a b := mem_win.mpr ⟨huD.1, by linarith, hub⟩
      have hsym : Linked cfg.norm t (win D a' b') u p := fun r hr hr1 hr2 =>
        hlu r hr hr1.symm hr2.symm
      have h3 := hp.max u huw hul
      have h4 := hu.max p hp' hsym
      rcases lt_trichotomy u.dt p.dt with h | h | h
      · have := hp.first u huw hul h; linarith
      · exact hinj u huD.1 p hpD.1 h
      · have := hu.first p hp' hsym h; linarith
    · -- then the second event would lie in the same run
      exfalso
      push Not at hub
      have hqu : Linked cfg.norm t (win D a' b') q u := by
        intro r hr hr1 hr2
        refine hlu r hr ?_ ?_
        · rcases hr1 with h | h
          · left; linarith
          · right; exact h
        · rcases hr2 with h | h
          · right; linarith
          · right; exact h
      have hpq : Linked cfg.norm t (win D a' b') u q := fun r hr hr1 hr2 =>
        hqu r hr hr1.symm hr2.symm
      have h3 := hq.max u hu.mem hqu
      have h4 := hu.first q hq.mem hpq (by linarith)
      linarith
  subst hup
  -- and the other way round
  obtain ⟨c2, hc2, v, hv, hlv, h3, h4⟩ := cand_of_above cfg t sr _ hW hq' hq.above
  have hvq : v = q := by
    have hvD := mem_win.mp hv.mem
    by_cases hva : a' ≤ v.dt
    · have hvl : Linked cfg.norm t (win D a' b') q v := by
        intro r hr hr1 hr2
        have hrD := mem_win.mp hr
        refine hlv r (mem_win.mpr ⟨hrD.1, ?_, ?_⟩) hr1 hr2
        · rcases hr1 with h | h <;> linarith
        · rcases hr2 with h | h <;> linarith
      have hvw : v ∈ win D a' b' := mem_win.mpr ⟨hvD.1, hva, by linarith⟩
      have hsym : Linked cfg.norm t (win D a b) v q := fun r hr hr1 hr2 =>
        hlv r hr hr1.symm hr2.symm
      have h5 := hq.max v hvw hvl
      have h6 := hv.max q hq' hsym
      rcases lt_trichotomy v.dt q.dt with h | h | h
      · have := hq.first v hvw hvl h; linarith
      · exact hinj v hvD.1 q hqD.1 h
      · have := hv.first q hq' hsym h; linarith
    · exfalso
      push Not at hva
      have hpv : Linked cfg.norm t (win D a b) u v := by
        intro r hr hr1 hr2
        refine hlv r hr ?_ ?_
        · rcases hr1 with h | h
          · right; linarith
          · right; exact h
        · rcases hr2 with h | h
          · left; linarith
          · right; exact h
      have h5 := hp.first v hv.mem hpv (by linarith)
      have h6 := hv.max u hp.mem (fun r hr hr1 hr2 => hpv r hr hr1.symm hr2.symm)
      linarith
  subst hvq
  have hk1 := (same_group cfg hmw t sr _ hW hce hc2 (by rw [hcp, h3, ← hep, ← hfq]; exact hlt)
    (by rw [hcp, h3, ← hep, ← hfq]; exact hle) he).1 (by rw [hep, hcp])
  have hk2 := (same_group cfg hmw t sr' _ hW' hc1 hcf (by rw [h1, hcq, ← hep, ← hfq]; exact hlt)
    (by rw [h1, hcq, ← hep, ← hfq]; exact hle) hf).2 (by rw [hfq, hcq])
  rw [h4, htp] at hk1
  rw [h2, htq] at hk2
  linarith

/-- **C110** (partial): with a static threshold, no smoothing, and a pad of at least the minimum event
interval, any two events of a whole trigger run, of whatever days, differ in time by more than the
minimum event interval.  Missing: other thresholds and shorter pads, for which it is false (below). -/
theorem C110_static_partial (cfg : Trigger.Cfg) (hmw : 0 ≤ cfg.mw) (t : ℚ)
    (region : Option Region) (D : List Row) (hD : D.Pairwise (fun r s => r.dt < s.dt)) (pad : ℚ)
    (hpad : cfg.mei ≤ pad) (read : ℚ → ℚ → Option ScanData) (hread : Spec.ReadsFrom D pad read)
    (s e : ℚ) (hse : s ≤ e) :
    ((trigger cfg (.static t) id region read s e).1.flatMap Prod.snd).Pairwise
      (fun x y => x.coaTime + cfg.mei < y.coaTime) := by
  obtain ⟨hpw, -⟩ := C13_no_event_twice cfg (.static t) id region read s e hse
    (fun a b sd h => (hread a b sd h).2)
  obtain ⟨bs, hbs, hpre, -, -⟩ := C07_batches_partition cfg (.static t) id region read s e hse
  have hord : bs.Pairwise (fun b c => b.1 ≤ c.1 ∧ b.2 ≤ c.1 ∧ b.1 < b.2 ∧ c.1 < c.2) := by
    have htr : IsTrans (ℚ × ℚ) (fun b c => b.1 ≤ c.1 ∧ b.2 ≤ c.1 ∧ b.1 < b.2 ∧ c.1 < c.2) :=
      ⟨fun a b c h1 h2 => ⟨by linarith [h1.1, h2.1], by linarith [h1.2.1, h2.1], h1.2.2.1,
        h2.2.2.2⟩⟩
    refine List.isChain_iff_pairwise.mp (hbs.consecutive.imp_of_mem_imp ?_)
    intro x y hx hy hxy
    have := hbs.nonempty x hx
    exact ⟨by linarith, hxy.le, this, hbs.nonempty y hy⟩
  have hord' := hord.sublist hpre.sublist
  have hev : ∀ p ∈ (trigger cfg (.static t) id region read s e).1,
      ∃ sd, read p.1.1 p.1.2 = some sd ∧
        p.2 = (triggerBatch cfg (.static t) id region p.1.1 p.1.2 sd).1 := by
    unfold trigger
    rw [if_neg (not_lt.mpr hse)]
    exact (runBatches_prefix cfg (.static t) id region read (batches s e)).2.2.2
  generalize (trigger cfg (.static t) id region read s e).1 = res at *
  rw [List.pairwise_map] at hord'
  rw [List.pairwise_flatMap]
  constructor
  · intro p hp
    obtain ⟨sd, h1, h2⟩ := hev p hp
    rw [h2]
    refine C10_reported_events_separated cfg (.static t) id region _ _ sd hmw ?_
    rw [id, (hread _ _ _ h1).1]
    exact hD.sublist List.filter_sublist
  · refine List.Pairwise.imp_of_mem ?_ (hpw.and hord')
    rintro p q hp hq ⟨hlt, -, h12, h1, h2⟩ x hx y hy
    have hxy := hlt x hx y hy
    by_contra hn
    push Not at hn
    obtain ⟨sd, hr, he⟩ := hev p hp
    obtain ⟨sd', hr', he'⟩ := hev q hq
    rw [he, mem_triggerBatch] at hx
    rw [he', mem_triggerBatch] at hy
    obtain ⟨hx1, hx2, hx3, -⟩ := hx
    obtain ⟨hy1, hy2, hy3, -⟩ := hy
    obtain ⟨hsd, hδ⟩ := hread _ _ _ hr
    obtain ⟨hsd', hδ'⟩ := hread _ _ _ hr'
    simp only [id, hsd] at hx1
    simp only [id, hsd'] at hy1
    have hx4 : x.coaTime ≤ p.1.2 := by split at hx3 <;> linarith
    exact across cfg hmw t sd.sr sd'.sr D hD (by linarith) (by linarith) hx1 hy1 hxy hn
      (by linarith) (by linarith)

/-! ## What is false, and concrete cases -/

/-- The samples of one scan in a span, `pad` longer at both ends. -/
def readScan (D : List Row) (pad : ℚ) (a b : ℚ) : Option ScanData :=
  some ⟨D.filter (fun r => decide (a - pad ≤ r.dt ∧ r.dt ≤ b + pad)), 1, 1⟩

theorem readScan_reads (D : List Row) (pad : ℚ) : Spec.ReadsFrom D pad (readScan D pad) := by
  intro a b sd h
  simp only [readScan, Option.some.injEq] at h
  subst h
  exact ⟨rfl, by norm_num⟩

theorem two_batches : batches 86390 86410 = [(86390, 86400), (86400, 86410)] := by
  rw [batches_cons (by norm_num)]
  have h1 : dayStart 86390 = 0 := by decide +kernel
  rw [h1]; simp only [DAY]; norm_num
  rw [batches_cons (by norm_num)]
  have h2 : dayStart 86400 = 86400 := by decide +kernel
  rw [h2]; simp only [DAY]; norm_num
  exact batches_of_le (by norm_num)

/-- The two batches of a run from ten seconds before to ten seconds after a midnight. -/
theorem trigger_two (cfg : Trigger.Cfg) (m : Method) (D : List Row) (pad : ℚ) :
    (trigger cfg m id none (readScan D pad) 86390 86410).1.flatMap Prod.snd =
      (triggerBatch cfg m id none 86390 86400
        ⟨D.filter (fun r => decide (86390 - pad ≤ r.dt ∧ r.dt ≤ 86400 + pad)), 1, 1⟩).1 ++
      (triggerBatch cfg m id none 86400 86410
        ⟨D.filter (fun r => decide (86400 - pad ≤ r.dt ∧ r.dt ≤ 86410 + pad)), 1, 1⟩).1 := by
  unfold trigger
  rw [if_neg (by norm_num), two_batches]
  simp [runBatches, readScan]

/-- One sample a second around a midnight; the background of the normalised coalescence rises
from 1 to 1.8 just after it; one earthquake, largest in COA at 86399 and in COA_N at 86400. -/
def risingScan : List Row :=
  (List.range 21).map (fun i =>
    if i = 9 then ⟨86399, 10, 2, 0, 0, 0⟩
    else if i = 10 then ⟨86400, 6, 3, 0, 0, 0⟩
    else if i < 9 then ⟨86390 + i, 1, 1, 0, 0, 0⟩
    else ⟨86390 + i, 1, 9 / 5, 0, 0, 0⟩)

/-- **C110**, violated: with a threshold computed from the data (median ratio, one window for the
whole batch) the two days see different thresholds; the same earthquake is reported on both
sides of the midnight, one second apart, although the minimum event interval is two seconds and
the pad is longer than it. -/
theorem C110_violated :
    risingScan.Pairwise (fun r s => r.dt < s.dt) ∧
    Spec.ReadsFrom risingScan 3 (readScan risingScan 3) ∧
    ((trigger ⟨1, 2, true⟩ (.medianRatio 1000 (3 / 2)) id none (readScan risingScan 3)
      86390 86410).1.flatMap Prod.snd).map Cand.coaTime = [86399, 86400] := by
  refine ⟨by decide +kernel, readScan_reads _ _, ?_⟩
  rw [trigger_two]
  decide +kernel

/-- A rise and fall over a midnight, as seen with any static threshold between 1 and 4. -/
def shortScan : List Row :=
  [⟨86398, 1, 1, 0, 0, 0⟩, ⟨86399, 5, 5, 0, 0, 0⟩, ⟨86400, 4, 4, 0, 0, 0⟩,
   ⟨86401, 1, 1, 0, 0, 0⟩, ⟨86409, 7, 7, 0, 0, 0⟩]

/-- **C110**, violated: with a static threshold but no pad, the second day does not see the larger
sample just before the midnight, and reports the earthquake again. -/
theorem C110_violated_small_pad :
    shortScan.Pairwise (fun r s => r.dt < s.dt) ∧
    Spec.ReadsFrom shortScan 0 (readScan shortScan 0) ∧
    (((trigger ⟨1, 2, true⟩ (.static 2) id none (readScan shortScan 0)
      86390 86410).1.flatMap Prod.snd).map Cand.coaTime) = [86399, 86400, 86409] := by
  refine ⟨by decide +kernel, readScan_reads _ _, ?_⟩
  rw [trigger_two]
  have h1 : (triggerBatch ⟨1, 2, true⟩ (.static 2) id none 86390 86400
      ⟨shortScan.filter (fun r => decide ((86390 : ℚ) - 0 ≤ r.dt ∧ r.dt ≤ 86400 + 0)), 1, 1⟩).1.map
        Cand.coaTime = [86399] := by decide +kernel
  have h2 : (triggerBatch ⟨1, 2, true⟩ (.static 2) id none 86400 86410
      ⟨shortScan.filter (fun r => decide ((86400 : ℚ) - 0 ≤ r.dt ∧ r.dt ≤ 86410 + 0)), 1, 1⟩).1.map
        Cand.coaTime = [86400, 86409] := by decide +kernel
  rw [List.map_append, h1, h2]
  rfl

/-- The same scan with the pad as long as the minimum event interval: the hypotheses of
`C110_static_partial` hold, and the run reports one event for the earthquake and one later. -/
example :
    shortScan.Pairwise (fun r s => r.dt < s.dt) ∧
    Spec.ReadsFrom shortScan 2 (readScan shortScan 2) ∧
    (((trigger ⟨1, 2, true⟩ (.static 2) id none (readScan shortScan 2)
      86390 86410).1.flatMap Prod.snd).map Cand.coaTime) = [86399, 86409] := by
  refine ⟨by decide +kernel, readScan_reads _ _, ?_⟩
  rw [trigger_two]
  have h1 : (triggerBatch ⟨1, 2, true⟩ (.static 2) id none 86390 86400
      ⟨shortScan.filter (fun r => decide ((86390 : ℚ) - 2 ≤ r.dt ∧ r.dt ≤ 86400 + 2)), 1, 1⟩).1.map
        Cand.coaTime = [86399] := by decide +kernel
  have h2 : (triggerBatch ⟨1, 2, true⟩ (.static 2) id none 86400 86410
      ⟨shortScan.filter (fun r => decide ((86400 : ℚ) - 2 ≤ r.dt ∧ r.dt ≤ 86410 + 2)), 1, 1⟩).1.map
        Cand.coaTime = [86409] := by decide +kernel
  rw [List.map_append, h1, h2]
  rfl

end QM

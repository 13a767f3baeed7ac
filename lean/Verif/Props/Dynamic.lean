import Verif.Props.Smooth
import Verif.Props.Isolated
import Verif.Props.Threshold

/-!
# Events on either side of a midnight, with thresholds that follow the data (C110, C112)
-/

namespace QM

open QM.Trigger QM.Spec QM.Smooth

/-! ## Specification -/

/-- Sample `r` of `D` is at or above its threshold. -/
def Spec.Triggers (norm : Bool) (thr : List ℚ) (D : List Row) (r : Row) : Prop :=
  ∃ (i : ℕ) (t : ℚ), D[i]? = some r ∧ thr[i]? = some t ∧ t ≤ trigValue norm r

/-- No run of samples at or above their thresholds is longer than `L`: between two sample times, any
interval of this length holds a sample that is not. -/
def Spec.RunsWithinThr (norm : Bool) (thr : List ℚ) (L : ℚ) (D : List Row) : Prop :=
  ∀ x, (∃ r ∈ D, r.dt ≤ x) → (∃ r ∈ D, x + L ≤ r.dt) →
    ∃ r ∈ D, x ≤ r.dt ∧ r.dt ≤ x + L ∧ ¬ Spec.Triggers norm thr D r

/-! ## Candidates by time, for any threshold -/

/-- `P` says which samples are at or above their threshold. -/
def Reads (norm : Bool) (D : List Row) (thr : List ℚ) (P : Row → Prop) : Prop :=
  ∀ (i : ℕ) (r : Row), D[i]? = some r → (Above norm D thr i ↔ P r)

/-- All samples from the one to the other satisfy `P`. -/
def LinkedP (P : Row → Prop) (D : List Row) (p q : Row) : Prop :=
  ∀ r ∈ D, (p.dt ≤ r.dt ∨ q.dt ≤ r.dt) → (r.dt ≤ p.dt ∨ r.dt ≤ q.dt) → P r

/-- The first sample of largest COA of its run. -/
structure PeakP (P : Row → Prop) (D : List Row) (p : Row) : Prop where
  mem : p ∈ D
  above : P p
  max : ∀ q ∈ D, LinkedP P D p q → q.coa ≤ p.coa
  first : ∀ q ∈ D, LinkedP P D p q → q.dt < p.dt → q.coa < p.coa

theorem above_gen {norm : Bool} {D : List Row} {thr : List ℚ} {P : Row → Prop} (hP : Reads norm D thr P)
    (i : ℕ) : Above norm D thr i ↔ ∃ r, D[i]? = some r ∧ P r := by
  constructor
  · intro h
    obtain ⟨r, t, h1, -⟩ := id h
    exact ⟨r, h1, (hP i r h1).mp h⟩
  · rintro ⟨r, h1, h2⟩
    exact (hP i r h1).mpr h2

theorem reads_triggers (norm : Bool) (thr : List ℚ) {D : List Row}
    (hD : D.Pairwise (fun r s => r.dt < s.dt)) : Reads norm D thr (Spec.Triggers norm thr D) := by
  intro i r hi
  constructor
  · rintro ⟨r', t, h1, h2, h3⟩
    rw [hi, Option.some.injEq] at h1
    subst h1
    exact ⟨i, t, hi, h2, h3⟩
  · rintro ⟨j, t, h1, h2, h3⟩
    have hij : i = j := le_antisymm ((dt_le_iff hD hi h1).mpr le_rfl) ((dt_le_iff hD h1 hi).mpr le_rfl)
    subst hij
    exact ⟨r, t, hi, h2, h3⟩

theorem peak_of_cand_gen (cfg : Trigger.Cfg) {P : Row → Prop} {D : List Row} {thr : List ℚ} (hP : Reads cfg.norm D thr P)
    (hD : D.Pairwise (fun r s => r.dt < s.dt)) {c : Cand} (hc : c ∈ identifyCandidates cfg D thr) :
    ∃ p, PeakP P D p ∧ c.coaTime = p.dt ∧ c.trigCoa = trigValue cfg.norm p := by
  obtain ⟨runs, hruns, -, hf⟩ := C08_candidates_are_maximal_runs cfg D
    thr
  obtain ⟨⟨a, b⟩, hab, k, pk, -, -, hp, -, -, h1, h2, -⟩ := forall₂_exists_right hf hc
  have hrun := (hruns a b).mp hab
  have habove : ∀ i r, a ≤ i → i ≤ b → D[i]? = some r → P r := by
    intro i r h3 h4 h5
    obtain ⟨r', h6, h7⟩ := (above_gen hP i).mp (hrun.all i h3 h4)
    rw [h5, Option.some.injEq] at h6
    rw [h6]; exact h7
  have hin : ∀ (j : ℕ) (q : Row), D[j]? = some q → LinkedP P D pk q → a ≤ j ∧ j ≤ b := by
    intro j q hj hl
    have hjl : j < D.length := (List.getElem?_eq_some_iff.mp hj).1
    have hkl : k < D.length := (List.getElem?_eq_some_iff.mp hp.at_p).1
    have hlo := hp.lo
    have hhi := hp.hi
    constructor
    · by_contra hn
      obtain ⟨j', hj'⟩ : ∃ j', j' + 1 = a := ⟨a - 1, by omega⟩
      have hl' : D[j']? = some D[j'] := List.getElem?_eq_getElem (by omega)
      refine hrun.left j' hj' ((above_gen hP j').mpr ⟨_, hl', ?_⟩)
      refine hl _ (List.getElem_mem _) (Or.inr ?_) (Or.inl ?_)
      · exact (dt_le_iff hD hj hl').mp (by omega)
      · exact (dt_le_iff hD hl' hp.at_p).mp (by omega)
    · by_contra hn
      have hl' : D[b + 1]? = some D[b + 1] := List.getElem?_eq_getElem (by omega)
      refine hrun.right ((above_gen hP (b + 1)).mpr ⟨_, hl', ?_⟩)
      refine hl _ (List.getElem_mem _) (Or.inl ?_) (Or.inr ?_)
      · exact (dt_le_iff hD hp.at_p hl').mp (by omega)
      · exact (dt_le_iff hD hl' hj).mp (by omega)
  refine ⟨pk, ⟨List.mem_of_getElem? hp.at_p, habove k pk hp.lo hp.hi hp.at_p, ?_, ?_⟩, h1, h2⟩
  · intro q hq hl
    obtain ⟨j, hj⟩ := List.mem_iff_getElem?.mp hq
    obtain ⟨h3, h4⟩ := hin j q hj hl
    exact hp.max j q h3 h4 hj
  · intro q hq hl hlt
    obtain ⟨j, hj⟩ := List.mem_iff_getElem?.mp hq
    obtain ⟨h3, h4⟩ := hin j q hj hl
    exact hp.first j q h3 ((dt_lt_iff hD hj hp.at_p).mpr hlt) hj

theorem cand_of_above_gen (cfg : Trigger.Cfg) {P : Row → Prop} {D : List Row} {thr : List ℚ} (hP : Reads cfg.norm D thr P)
    (hD : D.Pairwise (fun r s => r.dt < s.dt)) {p : Row} (hp : p ∈ D)
    (hab : P p) :
    ∃ c ∈ identifyCandidates cfg D thr, ∃ q, PeakP P D q ∧ LinkedP P D p q ∧
      c.coaTime = q.dt ∧ c.trigCoa = trigValue cfg.norm q := by
  obtain ⟨i, hi⟩ := List.mem_iff_getElem?.mp hp
  obtain ⟨⟨a, b⟩, ⟨hrun, h1, h2⟩, -⟩ := C08_every_sample_in_one_run cfg D
    thr i
    ((above_gen hP i).mpr ⟨p, hi, hab⟩)
  obtain ⟨runs, hruns, -, hf⟩ := C08_candidates_are_maximal_runs cfg D
    thr
  obtain ⟨c, hc, k, pk, -, -, hpk, -, -, h3, h4, -⟩ :=
    forall₂_exists_left hf ((hruns a b).mpr hrun)
  obtain ⟨q, hq, h5, h6⟩ := peak_of_cand_gen cfg hP hD (c := c) hc
  have hqk : q = pk := by
    obtain ⟨j, hj⟩ := List.mem_iff_getElem?.mp hq.mem
    have hdt : q.dt = pk.dt := by rw [← h5, h3]
    have hjk : j = k := le_antisymm ((dt_le_iff hD hj hpk.at_p).mpr hdt.le)
      ((dt_le_iff hD hpk.at_p hj).mpr hdt.ge)
    rw [hjk, hpk.at_p, Option.some.injEq] at hj
    exact hj.symm
  subst hqk
  refine ⟨c, hc, q, hq, ?_, h5, h6⟩
  intro r hr hr1 hr2
  obtain ⟨j, hj⟩ := List.mem_iff_getElem?.mp hr
  have hlo := hpk.lo
  have hhi := hpk.hi
  have hja : a ≤ j := by
    rcases hr1 with h | h
    · have := (dt_le_iff hD hi hj).mpr h; omega
    · have := (dt_le_iff hD hpk.at_p hj).mpr h; omega
  have hjb : j ≤ b := by
    rcases hr2 with h | h
    · have := (dt_le_iff hD hj hi).mpr h; omega
    · have := (dt_le_iff hD hj hpk.at_p).mpr h; omega
  obtain ⟨r', h7, h8⟩ := (above_gen hP j).mp (hrun.all j hja hjb)
  rw [hj, Option.some.injEq] at h7
  rw [h7]; exact h8

theorem same_group_gen (cfg : Trigger.Cfg) (hmw : 0 ≤ cfg.mw) {D : List Row} {thr : List ℚ}
    (hD : D.Pairwise (fun r s => r.dt < s.dt)) {c d : Cand} (hc : c ∈ identifyCandidates cfg D thr)
    (hd : d ∈ identifyCandidates cfg D thr) (h1 : c.coaTime < d.coaTime)
    (h2 : d.coaTime ≤ c.coaTime + cfg.mei) {e : Cand}
    (he : e ∈ refineCandidates cfg (identifyCandidates cfg D thr)) :
    (e.coaTime = c.coaTime → d.trigCoa ≤ c.trigCoa) ∧
      (e.coaTime = d.coaTime → c.trigCoa < d.trigCoa) := by
  obtain ⟨hmax, hsorted⟩ := identify_sorted cfg D
    thr hD
  obtain ⟨hfl, hne, -, hch⟩ := mergedGroups_spec cfg (identifyCandidates cfg D thr)
  have hsep := groups_separated cfg (mergedGroups cfg (identifyCandidates cfg D thr)) hne hch
    (by rw [hfl]; exact hmax) (by rw [hfl]; exact hsorted)
  have huniq : ∀ x ∈ identifyCandidates cfg D thr, ∀ y ∈ identifyCandidates cfg D thr,
      x.coaTime = y.coaTime → x = y := by
    intro x hx y hy hxy
    rcases pairwise_or hsorted hx hy with h | h | h
    · exact h
    · linarith
    · linarith
  obtain ⟨g, hg, pre, best, post, hs, hpre, hpost, hct, -⟩ :=
    forall₂_exists_right (refine_forall₂ cfg (identifyCandidates cfg D thr)) he
  have hgm : ∀ x ∈ g, x ∈ identifyCandidates cfg D thr := by
    intro x hx
    rw [← hfl]
    exact List.mem_flatten.mpr ⟨g, hg, hx⟩
  have hbest : best ∈ g := by rw [hs]; simp
  have hgs : g.Pairwise (fun c d => c.coaTime < d.coaTime) := by
    refine List.Pairwise.sublist ?_ hsorted
    have := List.sublist_flatten_of_mem hg
    rwa [hfl] at this
  -- the group of the event also contains the other candidate
  have other : ∀ x ∈ g, ∀ y ∈ identifyCandidates cfg D thr,
      (x.coaTime < y.coaTime ∧ y.coaTime ≤ x.coaTime + cfg.mei ∨
        y.coaTime < x.coaTime ∧ x.coaTime ≤ y.coaTime + cfg.mei) → y ∈ g := by
    intro x hx y hy hxy
    rw [← hfl] at hy
    obtain ⟨g', hg', hy⟩ := List.mem_flatten.mp hy
    rcases pairwise_or hsep hg hg' with h | h | h
    · rw [h]; exact hy
    · have := h x hx y hy
      rcases hxy with h3 | h3 <;> linarith
    · have := h y hy x hx
      rcases hxy with h3 | h3 <;> linarith
  constructor
  · intro hec
    have hb : best = c := huniq _ (hgm _ hbest) _ hc (by rw [← hct, hec])
    subst hb
    have hdg := other _ hbest d hd (Or.inl ⟨h1, h2⟩)
    rw [hs] at hdg hgs
    rw [List.mem_append, List.mem_cons] at hdg
    rcases hdg with h | h | h
    · have := (List.pairwise_append.mp hgs).2.2 d h best (by simp)
      linarith
    · rw [h]
    · exact hpost d h
  · intro hed
    have hb : best = d := huniq _ (hgm _ hbest) _ hd (by rw [← hct, hed])
    subst hb
    have hcg := other _ hbest c hc (Or.inr ⟨h1, h2⟩)
    rw [hs] at hcg hgs
    rw [List.mem_append, List.mem_cons] at hcg
    rcases hcg with h | h | h
    · exact hpre c h
    · rw [h] at h1; exact absurd h1 (lt_irrefl _)
    · have := ((List.pairwise_cons.mp (List.pairwise_append.mp hgs).2.1)).1 c h
      linarith

theorem event_peak_gen (cfg : Trigger.Cfg) {P : Row → Prop} {D : List Row} {thr : List ℚ} (hP : Reads cfg.norm D thr P)
    (hD : D.Pairwise (fun r s => r.dt < s.dt)) {e : Cand}
    (he : e ∈ refineCandidates cfg (identifyCandidates cfg D thr)) :
    ∃ c ∈ identifyCandidates cfg D thr, ∃ p, PeakP P D p ∧ e.coaTime = p.dt ∧
      c.coaTime = p.dt ∧ c.trigCoa = trigValue cfg.norm p := by
  obtain ⟨hfl, -⟩ := mergedGroups_spec cfg (identifyCandidates cfg D thr)
  obtain ⟨g, hg, pre, best, post, hs, -, -, hct, -⟩ :=
    forall₂_exists_right (refine_forall₂ cfg (identifyCandidates cfg D thr)) he
  have hb : best ∈ identifyCandidates cfg D thr := by
    rw [← hfl]
    exact List.mem_flatten.mpr ⟨g, hg, by rw [hs]; simp⟩
  obtain ⟨p, hp, h1, h2⟩ := peak_of_cand_gen cfg hP hD hb
  exact ⟨best, hb, p, hp, by rw [hct, h1], h1, h2⟩

/-- Events of two views of one record that are no more than `mei` apart, where both views agree with the
record. -/
theorem across_gen (cfg : Trigger.Cfg) (hmw : 0 ≤ cfg.mw) {P P1 P2 : Row → Prop} {D W W' : List Row}
    {thr thr' : List ℚ} (hP1 : Reads cfg.norm W thr P1) (hP2 : Reads cfg.norm W' thr' P2)
    (hD : D.Pairwise (fun r s => r.dt < s.dt)) (hW : W.Pairwise (fun r s => r.dt < s.dt))
    (hW' : W'.Pairwise (fun r s => r.dt < s.dt)) {A B L : ℚ} (hL : 0 ≤ L)
    (hag : ∀ r, A ≤ r.dt → r.dt ≤ B → (r ∈ W ↔ r ∈ D)) (hag' : ∀ r, A ≤ r.dt → r.dt ≤ B → (r ∈ W' ↔ r ∈ D))
    (hpa : ∀ r ∈ D, A ≤ r.dt → r.dt ≤ B → (P1 r ↔ P r)) (hpa' : ∀ r ∈ D, A ≤ r.dt → r.dt ≤ B → (P2 r ↔ P r))
    (ht : ∀ r ∈ W, ∃ q ∈ D, q.dt = r.dt) (ht' : ∀ r ∈ W', ∃ q ∈ D, q.dt = r.dt)
    (hruns : ∀ x, (∃ r ∈ D, r.dt ≤ x) → (∃ r ∈ D, x + L ≤ r.dt) →
      ∃ r ∈ D, x ≤ r.dt ∧ r.dt ≤ x + L ∧ ¬ P r)
    {e f : Cand} (he : e ∈ refineCandidates cfg (identifyCandidates cfg W thr))
    (hf : f ∈ refineCandidates cfg (identifyCandidates cfg W' thr'))
    (hlt : e.coaTime < f.coaTime) (hle : f.coaTime ≤ e.coaTime + cfg.mei)
    (hae : A + L ≤ e.coaTime) (hfb : f.coaTime + L ≤ B) : False := by
  obtain ⟨ce, hce, p, hp, hep, hcp, htp⟩ := event_peak_gen cfg hP1 hW he
  obtain ⟨cf, hcf, q, hq, hfq, hcq, htq⟩ := event_peak_gen cfg hP2 hW' hf
  have hpD : p ∈ D := (hag p (by linarith) (by linarith)).mp hp.mem
  have hqD : q ∈ D := (hag' q (by linarith) (by linarith)).mp hq.mem
  have hp' : p ∈ W' := (hag' p (by linarith) (by linarith)).mpr hpD
  have hq' : q ∈ W := (hag q (by linarith) (by linarith)).mpr hqD
  have hinj : ∀ x ∈ D, ∀ y ∈ D, x.dt = y.dt → x = y := by
    intro x hx y hy hxy
    rcases pairwise_or hD hx hy with h | h | h
    · exact h
    · linarith
    · linarith
  -- a sample linked to one well inside is inside
  have inside : ∀ (V : List Row) (Q : Row → Prop), (∀ r, A ≤ r.dt → r.dt ≤ B → (r ∈ V ↔ r ∈ D)) →
      (∀ r ∈ D, A ≤ r.dt → r.dt ≤ B → (Q r ↔ P r)) →
      (∀ r ∈ V, ∃ q ∈ D, q.dt = r.dt) → ∀ x ∈ D, A + L ≤ x.dt → x.dt + L ≤ B → ∀ u ∈ V,
      LinkedP Q V x u → A ≤ u.dt ∧ u.dt ≤ B := by
    intro V Q hV hQ hVt x hx hx1 hx2 u hu hl
    constructor
    · by_contra hn
      push Not at hn
      obtain ⟨u', hu', hut⟩ := hVt u hu
      obtain ⟨r, hr, h1, h2, h3⟩ := hruns A ⟨u', hu', by linarith⟩ ⟨x, hx, hx1⟩
      exact h3 ((hQ r hr h1 (by linarith)).mp
        (hl r ((hV r h1 (by linarith)).mpr hr) (Or.inr (by linarith)) (Or.inl (by linarith))))
    · by_contra hn
      push Not at hn
      obtain ⟨u', hu', hut⟩ := hVt u hu
      obtain ⟨r, hr, h1, h2, h3⟩ := hruns (B - L) ⟨x, hx, by linarith⟩ ⟨u', hu', by linarith⟩
      exact h3 ((hQ r hr (by linarith) (by linarith)).mp
        (hl r ((hV r (by linarith) (by linarith)).mpr hr) (Or.inl (by linarith)) (Or.inr (by linarith))))
  -- the peak of the first event is a peak in the second view
  obtain ⟨c1, hc1, u, hu, hlu, h1, h2⟩ := cand_of_above_gen cfg hP2 hW' hp'
    ((hpa' p hpD (by linarith) (by linarith)).mpr ((hpa p hpD (by linarith) (by linarith)).mp hp.above))
  have hup : u = p := by
    obtain ⟨u1, u2⟩ := inside W' P2 hag' hpa' ht' p hpD (by linarith) (by linarith) u hu.mem hlu
    have huD : u ∈ D := (hag' u u1 u2).mp hu.mem
    have huw : u ∈ W := (hag u u1 u2).mpr huD
    have hul : LinkedP P1 W p u := by
      intro r hr hr1 hr2
      have b1 : A ≤ r.dt := by rcases hr1 with h | h <;> linarith
      have b2 : r.dt ≤ B := by rcases hr2 with h | h <;> linarith
      have hrD := (hag r b1 b2).mp hr
      exact (hpa r hrD b1 b2).mpr ((hpa' r hrD b1 b2).mp (hlu r ((hag' r b1 b2).mpr hrD) hr1 hr2))
    have hsym : LinkedP P2 W' u p := fun r hr hr1 hr2 => hlu r hr hr1.symm hr2.symm
    have h3 := hp.max u huw hul
    have h4 := hu.max p hp' hsym
    rcases lt_trichotomy u.dt p.dt with h | h | h
    · have := hp.first u huw hul h; linarith
    · exact hinj u huD p hpD h
    · have := hu.first p hp' hsym h; linarith
  subst hup
  -- and the other way round
  obtain ⟨c2, hc2, v, hv, hlv, h3, h4⟩ := cand_of_above_gen cfg hP1 hW hq'
    ((hpa q hqD (by linarith) (by linarith)).mpr ((hpa' q hqD (by linarith) (by linarith)).mp hq.above))
  have hvq : v = q := by
    obtain ⟨v1, v2⟩ := inside W P1 hag hpa ht q hqD (by linarith) (by linarith) v hv.mem hlv
    have hvD : v ∈ D := (hag v v1 v2).mp hv.mem
    have hvw : v ∈ W' := (hag' v v1 v2).mpr hvD
    have hvl : LinkedP P2 W' q v := by
      intro r hr hr1 hr2
      have b1 : A ≤ r.dt := by rcases hr1 with h | h <;> linarith
      have b2 : r.dt ≤ B := by rcases hr2 with h | h <;> linarith
      have hrD := (hag' r b1 b2).mp hr
      exact (hpa' r hrD b1 b2).mpr ((hpa r hrD b1 b2).mp (hlv r ((hag r b1 b2).mpr hrD) hr1 hr2))
    have hsym : LinkedP P1 W v q := fun r hr hr1 hr2 => hlv r hr hr1.symm hr2.symm
    have h5 := hq.max v hvw hvl
    have h6 := hv.max q hq' hsym
    rcases lt_trichotomy v.dt q.dt with h | h | h
    · have := hq.first v hvw hvl h; linarith
    · exact hinj v hvD q hqD h
    · have := hv.first q hq' hsym h; linarith
  subst hvq
  have hk1 := (same_group_gen cfg hmw hW hce hc2 (by rw [hcp, h3, ← hep, ← hfq]; exact hlt)
    (by rw [hcp, h3, ← hep, ← hfq]; exact hle) he).1 (by rw [hep, hcp])
  have hk2 := (same_group_gen cfg hmw hW' hc1 hcf (by rw [h1, hcq, ← hep, ← hfq]; exact hlt)
    (by rw [h1, hcq, ← hep, ← hfq]; exact hle) hf).2 (by rw [hfq, hcq])
  rw [h4, htp] at hk1
  rw [h2, htq] at hk2
  linarith

/-! ## Thresholds by windows -/

/-- The threshold of method `m` is computed in windows of `n` samples (any `n` for a static one). -/
def Spec.WindowSamples (m : Method) (sr : ℚ) (n : ℕ) : Prop :=
  match m with
  | .static _ => 1 ≤ n
  | .mad window _ => 1 ≤ window * sr ∧ n = ⌊window * sr⌋.toNat
  | .medianRatio window _ => 1 ≤ window * sr ∧ n = ⌊window * sr⌋.toNat

theorem windowSamples_pos {m : Method} {sr : ℚ} {n : ℕ} (h : Spec.WindowSamples m sr n) : 1 ≤ n := by
  have key : ∀ window : ℚ, 1 ≤ window * sr ∧ n = ⌊window * sr⌋.toNat → 1 ≤ n := by
    rintro window ⟨h1, rfl⟩
    have : 1 ≤ ⌊window * sr⌋ := Int.le_floor.mpr (by exact_mod_cast h1)
    omega
  cases m with
  | static t => exact h
  | mad window k => exact key _ h
  | medianRatio window k => exact key _ h

theorem threshold_by_windows {m : Method} {sr : ℚ} {n : ℕ} (h : Spec.WindowSamples m sr n) :
    ∃ F : List ℚ → ℚ, ∀ data : List ℚ, ∀ i, i < data.length →
      (getThreshold m data sr)[i]? = some (F (chunkAt data n i)) := by
  cases m with
  | static t =>
    refine ⟨fun _ => t, fun data i hi => ?_⟩
    rw [C14_static_threshold, List.getElem?_replicate, if_pos hi]
  | mad window k =>
    obtain ⟨h1, rfl⟩ := h
    exact ⟨fun l => npMedian l + calculateMad l * k, fun data => (C14_mad_threshold window k sr data h1).2⟩
  | medianRatio window k =>
    obtain ⟨h1, rfl⟩ := h
    exact ⟨fun l => npMedian l * k, fun data => (C14_median_threshold window k sr data h1).2⟩

theorem int_of_rat {a b : ℤ} {δ : ℚ} (hδ : 0 < δ) (h : (a : ℚ) * δ ≤ b * δ) : a ≤ b := by
  have := le_of_mul_le_mul_right h hδ
  exact_mod_cast this

theorem int_of_rat_lt {a b : ℤ} {δ : ℚ} (hδ : 0 < δ) (h : (a : ℚ) * δ < b * δ) : a < b := by
  have := lt_of_mul_lt_mul_right h hδ.le
  exact_mod_cast this

/-- A view that begins a whole number of windows after the record has, away from its ends, the thresholds
of the record. -/
theorem views_agree (m : Method) (sr : ℚ) (n : ℕ) (hm : Spec.WindowSamples m sr n) (norm : Bool)
    (w : ℕ → ℚ) (r R : ℕ) (hR : r ≤ R * n) (D : List Row) {t0 δ : ℚ} (hδ : 0 < δ)
    (hD : Spec.Regular D t0 δ) {a b : ℚ} (hab : a ≤ b) (α γ : ℤ) (ha : a = t0 + α * (n * δ))
    (hc : t0 + γ * (n * δ) ≤ b) (y : Row) (hy : y ∈ smoothCoa w r D) (hy1 : a + R * (n * δ) ≤ y.dt)
    (hy2 : y.dt < t0 + γ * (n * δ) - R * (n * δ)) :
    Spec.Triggers norm (getThreshold m ((smoothCoa w r (win D a b)).map (Row.trig norm)) sr)
      (smoothCoa w r (win D a b)) y ↔
    Spec.Triggers norm (getThreshold m ((smoothCoa w r D).map (Row.trig norm)) sr) (smoothCoa w r D) y := by
  have hn := windowSamples_pos hm
  have hnq : (1 : ℚ) ≤ n := by exact_mod_cast hn
  have hDs := regular_sorted hδ hD
  have hGs := smoothCoa_sorted w r D hDs
  have hWs := smoothCoa_sorted w r _ (hDs.sublist (List.filter_sublist (p := fun r => decide (a ≤ r.dt ∧ r.dt ≤ b))))
  have hRr : (r : ℚ) * δ ≤ R * (n * δ) := by
    have : (r : ℚ) ≤ R * n := by exact_mod_cast hR
    nlinarith
  obtain ⟨F, hF⟩ := threshold_by_windows hm
  obtain ⟨j, k, hjk, hwin, hlo, hhi⟩ := win_piece D hDs hab
  obtain ⟨i, hi⟩ := List.mem_iff_getElem?.mp hy
  have hiD : i < D.length := by
    have := (List.getElem?_eq_some_iff.mp hi).1
    rwa [smoothCoa_length] at this
  have hGdt : ∀ (l : ℕ) (x : Row), (smoothCoa w r D)[l]? = some x → x.dt = t0 + l * δ := by
    intro l x hx
    obtain ⟨z, hz, rfl⟩ := smoothCoa_getElem?' w r D hx
    exact hD l z hz
  have hydt := hGdt i y hi
  rw [hydt] at hy1 hy2
  -- indices of the windows
  have hi1 : (α + R) * n ≤ (i : ℤ) := by
    apply int_of_rat hδ
    push_cast
    rw [ha] at hy1
    nlinarith
  have hi2 : (i : ℤ) < (γ - R) * n := by
    apply int_of_rat_lt hδ
    push_cast
    nlinarith
  have hchunk1 : ∀ p : ℕ, (α + R) * n ≤ ((i / n * n + p : ℕ) : ℤ) := by
    intro p
    have : α + R ≤ ((i / n : ℕ) : ℤ) := by
      push_cast
      exact (Int.le_ediv_iff_mul_le (by omega)).mpr hi1
    have h2 : (α + R) * (n : ℤ) ≤ ((i / n : ℕ) : ℤ) * n :=
      mul_le_mul_of_nonneg_right this (by omega)
    push_cast at h2 ⊢
    omega
  have hchunk2 : ∀ p : ℕ, p < n → ((i / n * n + p : ℕ) : ℤ) < (γ - R) * n := by
    intro p hp
    have : ((i / n : ℕ) : ℤ) < γ - R := by
      push_cast
      exact (Int.ediv_lt_iff_lt_mul (by omega)).mpr hi2
    have h2 : (((i / n : ℕ) : ℤ) + 1) * n ≤ (γ - R) * (n : ℤ) :=
      mul_le_mul_of_nonneg_right (by omega) (by omega)
    push_cast at h2 ⊢
    linarith [(by exact_mod_cast hp : (p : ℤ) < n)]
  -- samples of the window of `i` are in the view, with the values of the record
  have hval : ∀ (l : ℕ) (x : Row), (smoothCoa w r D)[l]? = some x → (α + R) * n ≤ (l : ℤ) → (l : ℤ) < (γ - R) * n →
      j ≤ l ∧ l < j + k ∧ (smoothCoa w r (win D a b))[l - j]? = some x := by
    intro l x hx h1 h2
    have hxdt := hGdt l x hx
    have hlD : l < D.length := by
      have := (List.getElem?_eq_some_iff.mp hx).1
      rwa [smoothCoa_length] at this
    have hz : D[l]? = some D[l] := List.getElem?_eq_getElem hlD
    have hzdt := hD l _ hz
    have h1' : a + R * (n * δ) ≤ x.dt := by
      have : (((α + R) * n : ℤ) : ℚ) ≤ ((l : ℤ) : ℚ) := by exact_mod_cast h1
      push_cast at this
      rw [hxdt, ha]
      nlinarith
    have h2' : x.dt ≤ b - r * δ := by
      have : (((l : ℤ)) : ℚ) < (((γ - R) * n : ℤ) : ℚ) := by exact_mod_cast h2
      push_cast at this
      rw [hxdt]
      nlinarith
    have hRpos : (0 : ℚ) ≤ R * (n * δ) := by positivity
    have hrpos : (0 : ℚ) ≤ r * δ := by positivity
    have hjl : j ≤ l := by
      by_contra hn'
      have := hlo l _ (by omega) hz
      rw [hzdt] at this
      linarith
    have hlk : l < j + k := by
      by_contra hn'
      have := hhi l _ (by omega) hz
      rw [hzdt] at this
      linarith
    refine ⟨hjl, hlk, ?_⟩
    have hmem := (smooth_agree w r D hδ hD hab x (by linarith) h2').mpr (List.mem_of_getElem? hx)
    have hwl : (win D a b)[l - j]? = some D[l] := by
      rw [hwin, List.getElem?_take, if_pos (by omega), List.getElem?_drop, ← hz]
      congr 1; omega
    have hwl' := smoothCoa_getElem? w r _ hwl
    obtain ⟨q, hq⟩ := List.mem_iff_getElem?.mp hmem
    have hdt : x.dt = D[l].dt := by rw [hxdt, hzdt]
    have hql : q = l - j := le_antisymm ((dt_le_iff hWs hq hwl').mpr hdt.le)
      ((dt_le_iff hWs hwl' hq).mpr hdt.ge)
    rw [← hql]; exact hq
  obtain ⟨hji, hik, hWi⟩ := hval i y hi hi1 hi2
  -- the view begins with a window of the record
  have hj : (n : ℤ) ∣ j := by
    have h1 : (j : ℤ) ≤ max (α * n) 0 := by
      by_contra hn'
      push Not at hn'
      obtain ⟨h3, h4⟩ := max_lt_iff.mp hn'
      by_cases h0 : 0 ≤ α
      · have h5 : (α * n).toNat < j := by omega
        have hl : D[(α * n).toNat]? = some D[(α * n).toNat] := List.getElem?_eq_getElem (by omega)
        have h6 := hlo _ _ h5 hl
        rw [hD _ _ hl, ha] at h6
        have h7 : (((α * n).toNat : ℤ) : ℚ) = ((α * n : ℤ) : ℚ) := by
          rw [Int.toNat_of_nonneg (by positivity)]
        push_cast at h7
        rw [h7] at h6
        nlinarith
      · have hl : D[0]? = some D[0] := List.getElem?_eq_getElem (by omega)
        have h6 := hlo 0 _ (by omega) hl
        rw [hD _ _ hl, ha] at h6
        have h7 : (α : ℚ) ≤ 0 := by exact_mod_cast (by omega : α ≤ 0)
        have h8 : (0 : ℚ) < n * δ := by positivity
        have h9 : (α : ℚ) * (n * δ) ≤ 0 := mul_nonpos_of_nonpos_of_nonneg h7 h8.le
        push_cast at h6
        linarith
    have h2 : α * n ≤ (j : ℤ) := by
      have hl : D[j]? = some D[j] := List.getElem?_eq_getElem (by omega)
      have hmem : D[j] ∈ win D a b := by
        rw [hwin]
        refine List.mem_of_getElem? (i := 0) ?_
        rw [List.getElem?_take, if_pos (by omega), List.getElem?_drop, Nat.add_zero, hl]
      have h3 := (mem_win.mp hmem).2.1
      rw [hD _ _ hl, ha] at h3
      apply int_of_rat hδ
      push_cast
      nlinarith
    by_cases h0 : 0 ≤ α
    · have : (j : ℤ) = α * n := by
        rw [max_eq_left (by positivity)] at h1
        omega
      exact ⟨α, by rw [this]; ring⟩
    · have h3 : α * (n : ℤ) ≤ 0 := mul_nonpos_of_nonpos_of_nonneg (by omega) (by omega)
      rw [max_eq_right h3] at h1
      have : (j : ℤ) = 0 := by omega
      rw [this]; exact dvd_zero _
  have hjn : n ∣ j := by exact_mod_cast hj
  obtain ⟨β, hβ⟩ := hjn
  have hidx : (i - j) / n * n = i / n * n - j := by
    rw [hβ]
    have : (i - n * β) / n = i / n - β := by
      rw [Nat.sub_mul_div]
    rw [this, Nat.sub_mul, Nat.mul_comm β n]
  have hji' : j ≤ i / n * n := by
    rw [hβ, Nat.mul_comm]
    exact Nat.mul_le_mul_right _ ((Nat.le_div_iff_mul_le (by omega)).mpr (by rw [Nat.mul_comm, ← hβ]; exact hji))
  have hsame : chunkAt ((smoothCoa w r (win D a b)).map (Row.trig norm)) n (i - j) =
      chunkAt ((smoothCoa w r D).map (Row.trig norm)) n i := by
    unfold chunkAt
    apply List.ext_getElem?
    intro p
    rw [List.getElem?_take, List.getElem?_take]
    split
    · rename_i hp
      rw [List.getElem?_drop, List.getElem?_drop, List.getElem?_map, List.getElem?_map, hidx]
      congr 1
      rcases Nat.lt_or_ge (i / n * n + p) D.length with hl | hl
      · have hx := smoothCoa_getElem? w r D (List.getElem?_eq_getElem hl)
        obtain ⟨-, -, h3⟩ := hval _ _ hx (hchunk1 p) (hchunk2 p hp)
        rw [hx, ← h3]
        congr 1; omega
      · have h3 : (smoothCoa w r D)[i / n * n + p]? = none :=
          List.getElem?_eq_none (by rw [smoothCoa_length]; exact hl)
        rw [h3, List.getElem?_eq_none]
        rw [smoothCoa_length, hwin, List.length_take, List.length_drop]
        omega
    · rfl
  have hthr : (getThreshold m ((smoothCoa w r (win D a b)).map (Row.trig norm)) sr)[i - j]? =
      (getThreshold m ((smoothCoa w r D).map (Row.trig norm)) sr)[i]? := by
    rw [hF _ _ (by rw [List.length_map]; exact (List.getElem?_eq_some_iff.mp hWi).1),
      hF _ _ (by rw [List.length_map]; exact (List.getElem?_eq_some_iff.mp hi).1), hsame]
  constructor
  · rintro ⟨q, t, h1, h2, h3⟩
    have hq : q = i - j := le_antisymm ((dt_le_iff hWs h1 hWi).mpr le_rfl) ((dt_le_iff hWs hWi h1).mpr le_rfl)
    subst hq
    exact ⟨i, t, hi, by rw [← hthr]; exact h2, h3⟩
  · rintro ⟨q, t, h1, h2, h3⟩
    have hq : q = i := le_antisymm ((dt_le_iff hGs h1 hi).mpr le_rfl) ((dt_le_iff hGs hi h1).mpr le_rfl)
    subst hq
    exact ⟨q - j, t, hWi, by rw [hthr]; exact h2, h3⟩

/-- A batch starts where the run starts, or at a midnight; so it ends. -/
theorem batch_times {s e : ℚ} {bs : List (ℚ × ℚ)} (hbs : IsDayPartition s e bs) :
    ∀ b ∈ bs, b.1 = s ∨ ∃ k : ℤ, b.1 = 86400 * (k : ℚ) := by
  have key : ∀ l : List (ℚ × ℚ), l.IsChain (fun b c => b.2 = c.1) → (∀ b ∈ l, b.1 < b.2) →
      (∀ b ∈ l, b.2 = e ∨ ∃ k : ℤ, b.2 = 86400 * (k : ℚ)) → (∀ b ∈ l, b.2 ≤ e) →
      (∀ b ∈ l.head?, b.1 = s ∨ ∃ k : ℤ, b.1 = 86400 * (k : ℚ)) →
      ∀ b ∈ l, b.1 = s ∨ ∃ k : ℤ, b.1 = 86400 * (k : ℚ) := by
    intro l
    induction l with
    | nil => simp
    | cons x l ih =>
      intro h1 h2 h3 h4 h5 b hb
      rcases List.mem_cons.mp hb with rfl | hb
      · exact h5 b rfl
      · have h1' : l.IsChain (fun b c => b.2 = c.1) := by
          cases l with
          | nil => simp
          | cons y l => exact (List.isChain_cons_cons.mp h1).2
        refine ih h1' (fun b hb => h2 b (List.mem_cons_of_mem _ hb))
          (fun b hb => h3 b (List.mem_cons_of_mem _ hb)) (fun b hb => h4 b (List.mem_cons_of_mem _ hb)) ?_ b hb
        intro y hy
        cases l with
        | nil => simp at hy
        | cons z l =>
          simp only [List.head?_cons, Option.mem_def, Option.some.injEq] at hy
          subst hy
          have h6 := (List.isChain_cons_cons.mp h1).1
          right
          rw [← h6]
          rcases h3 x List.mem_cons_self with h | h
          · have h7 := h2 z (by simp)
            have h8 := h4 z (by simp)
            rw [← h6, h] at h7
            linarith
          · exact h
  exact key bs hbs.consecutive hbs.nonempty hbs.cut_at_midnight (fun b hb => (hbs.inside b hb).2)
    (fun b hb => Or.inl (hbs.first b hb))

/-- **C110** (partial), thresholds that follow the data, with or without smoothing (reach of `r` samples, at
most `R` windows).  The record has no gaps; the midnights, the start of the run and the pad are whole
numbers of threshold windows from its first sample; and the pad is at least the minimum event interval, the
longest run of samples at or above their thresholds, and `R` windows.  Then any two events of a whole
trigger run differ in time by more than the minimum event interval.  Missing: windows that the days are not
a multiple of, and shorter pads, for which it is false. -/
theorem C110_dynamic_partial (cfg : Trigger.Cfg) (hmw : 0 ≤ cfg.mw) (m : Method) (sr : ℚ) (n : ℕ)
    (hm : Spec.WindowSamples m sr n) (region : Option Region) (w : ℕ → ℚ) (r R : ℕ) (hR : r ≤ R * n)
    (D : List Row) (t0 δ : ℚ) (hδ : 0 < δ) (hD : Spec.Regular D t0 δ) (L : ℚ) (hL : 0 ≤ L)
    (hruns : Spec.RunsWithinThr cfg.norm
      (getThreshold m ((smoothCoa w r D).map (Row.trig cfg.norm)) sr) L (smoothCoa w r D))
    (pad : ℚ) (hpad : cfg.mei + L + R * (n * δ) ≤ pad)
    (s e : ℚ) (hse : s ≤ e)
    (hal0 : ∃ k : ℤ, t0 = k * (n * δ)) (hald : ∃ k : ℤ, 86400 = k * (n * δ))
    (hals : ∃ k : ℤ, s = k * (n * δ)) (halp : ∃ k : ℤ, pad = k * (n * δ))
    (read : ℚ → ℚ → Option ScanData) (hread : Spec.ReadsFrom D pad read)
    (hrate : ∀ a b sd, read a b = some sd → sd.delta = δ ∧ sd.sr = sr) :
    ((trigger cfg m (smoothCoa w r) region read s e).1.flatMap Prod.snd).Pairwise
      (fun x y => x.coaTime + cfg.mei < y.coaTime) := by
  have hDs := regular_sorted hδ hD
  obtain ⟨hpw, -⟩ := C13_no_event_twice cfg m (smoothCoa w r) region read s e hse
    (fun a b sd h => (hread a b sd h).2)
  obtain ⟨bs, hbs, hpre, -, -⟩ := C07_batches_partition cfg m (smoothCoa w r) region read s e hse
  have hord : bs.Pairwise (fun b c => b.1 ≤ c.1 ∧ b.2 ≤ c.1 ∧ b.1 < b.2 ∧ c.1 < c.2) := by
    have htr : IsTrans (ℚ × ℚ) (fun b c => b.1 ≤ c.1 ∧ b.2 ≤ c.1 ∧ b.1 < b.2 ∧ c.1 < c.2) :=
      ⟨fun a b c h1 h2 => ⟨by linarith [h1.1, h2.1], by linarith [h1.2.1, h2.1], h1.2.2.1,
        h2.2.2.2⟩⟩
    refine List.isChain_iff_pairwise.mp (hbs.consecutive.imp_of_mem_imp ?_)
    intro x y hx hy hxy
    have := hbs.nonempty x hx
    exact ⟨by linarith, hxy.le, this, hbs.nonempty y hy⟩
  have hord' := hord.sublist hpre.sublist
  have hev : ∀ p ∈ (trigger cfg m (smoothCoa w r) region read s e).1,
      ∃ sd, read p.1.1 p.1.2 = some sd ∧
        p.2 = (triggerBatch cfg m (smoothCoa w r) region p.1.1 p.1.2 sd).1 := by
    unfold trigger
    rw [if_neg (not_lt.mpr hse)]
    exact (runBatches_prefix cfg m (smoothCoa w r) region read (batches s e)).2.2.2
  have hin : ∀ p ∈ (trigger cfg m (smoothCoa w r) region read s e).1, p.1 ∈ bs := fun p hp =>
    hpre.subset (List.mem_map_of_mem hp)
  have htimes : ∀ a b x, x ∈ smoothCoa w r (win D a b) → ∃ q ∈ smoothCoa w r D, q.dt = x.dt := by
    intro a b x hx
    obtain ⟨i, hi⟩ := List.mem_iff_getElem?.mp hx
    obtain ⟨z, hz, hzx⟩ := smoothCoa_getElem?' w r _ hi
    obtain ⟨j, hj⟩ := List.mem_iff_getElem?.mp (mem_win.mp (List.mem_of_getElem? hz)).1
    exact ⟨_, List.mem_of_getElem? (smoothCoa_getElem? w r D hj), by rw [hzx]⟩
  -- midnights and starts of batches on the grid of the windows
  obtain ⟨k0, hk0⟩ := hal0
  obtain ⟨kd, hkd⟩ := hald
  obtain ⟨ks, hks⟩ := hals
  obtain ⟨kp, hkp⟩ := halp
  have hmid : ∀ k : ℤ, ∃ z : ℤ, 86400 * (k : ℚ) = t0 + z * (n * δ) := by
    intro k
    refine ⟨kd * k - k0, ?_⟩
    push_cast
    rw [hkd]
    linarith
  have hstart : ∀ b ∈ bs, ∃ z : ℤ, b.1 - pad = t0 + z * (n * δ) := by
    intro b hb
    rcases batch_times hbs b hb with h | ⟨k, h⟩
    · refine ⟨ks - k0 - kp, ?_⟩
      push_cast
      rw [h]
      linarith
    · obtain ⟨z, hz⟩ := hmid k
      refine ⟨z - kp, ?_⟩
      push_cast
      rw [h, hz]
      linarith
  generalize (trigger cfg m (smoothCoa w r) region read s e).1 = res at *
  rw [List.pairwise_map] at hord'
  rw [List.pairwise_flatMap]
  constructor
  · intro p hp
    obtain ⟨sd, h1, h2⟩ := hev p hp
    rw [h2]
    refine C10_reported_events_separated cfg m (smoothCoa w r) region _ _ sd hmw ?_
    rw [(hread _ _ _ h1).1]
    exact smoothCoa_sorted w r _ (hDs.sublist List.filter_sublist)
  · refine List.Pairwise.imp_of_mem ?_ (hpw.and hord')
    rintro p q hp hq ⟨hlt, h11, h12, h1, h2⟩ x hx y hy
    have hxy := hlt x hx y hy
    by_contra hn
    push Not at hn
    obtain ⟨sd, hr, he⟩ := hev p hp
    obtain ⟨sd', hr', he'⟩ := hev q hq
    rw [he, mem_triggerBatch] at hx
    rw [he', mem_triggerBatch] at hy
    obtain ⟨hx1, hx2, hx3, -⟩ := hx
    obtain ⟨hy1, hy2, hy3, -⟩ := hy
    obtain ⟨hsd, -⟩ := hread _ _ _ hr
    obtain ⟨hsd', -⟩ := hread _ _ _ hr'
    obtain ⟨hdl, hsr⟩ := hrate _ _ _ hr
    obtain ⟨-, hsr'⟩ := hrate _ _ _ hr'
    simp only [hsd, hsr] at hx1
    simp only [hsd', hsr'] at hy1
    -- the earlier batch ends at a midnight
    have hpm : ∃ k : ℤ, p.1.2 = 86400 * (k : ℚ) := by
      rcases hbs.cut_at_midnight _ (hin p hp) with h | h
      · have := (hbs.inside _ (hin q hq)).2
        linarith
      · exact h
    have hx4 : x.coaTime ≤ p.1.2 - δ := by
      rw [if_pos ((isMidnight_iff _).mpr (by
        obtain ⟨k, hk⟩ := hpm
        exact ⟨k, by rw [hk]; unfold DAY; ring⟩)), hdl] at hx3
      exact hx3
    obtain ⟨km, hkm⟩ := hpm
    obtain ⟨zm, hzm⟩ := hmid km
    obtain ⟨zp, hzp⟩ := hstart _ (hin p hp)
    obtain ⟨zq, hzq⟩ := hstart _ (hin q hq)
    have hRpos : (0 : ℚ) ≤ R * (n * δ) := by positivity
    have hrR : (r : ℚ) * δ ≤ R * (n * δ) := by
      have : (r : ℚ) ≤ R * n := by exact_mod_cast hR
      nlinarith
    have hgam : p.1.2 + pad = t0 + ((zm + kp : ℤ) : ℚ) * (n * δ) := by
      push_cast
      rw [hkm, hzm]
      linarith
    have hWs : ∀ a b : ℚ, (smoothCoa w r (win D a b)).Pairwise (fun r s => r.dt < s.dt) := fun a b =>
      smoothCoa_sorted w r _ (hDs.sublist List.filter_sublist)
    refine across_gen cfg hmw (P := Spec.Triggers cfg.norm _ (smoothCoa w r D))
      (reads_triggers cfg.norm _ (hWs _ _)) (reads_triggers cfg.norm _ (hWs _ _))
      (smoothCoa_sorted w r _ hDs) (hWs _ _) (hWs _ _)
      (A := q.1.1 - pad + R * (n * δ)) (B := p.1.2 + pad - R * (n * δ) - δ) hL ?_ ?_ ?_ ?_ (htimes _ _)
      (htimes _ _) hruns hx1 hy1 hxy hn (by linarith) (by linarith)
    · intro z hz1 hz2
      exact smooth_agree w r D hδ hD (by linarith) z (by linarith) (by linarith)
    · intro z hz1 hz2
      exact smooth_agree w r D hδ hD (by linarith) z (by linarith) (by linarith)
    · intro z hz hz1 hz2
      exact views_agree m sr n hm cfg.norm w r R hR D hδ hD (by linarith) zp (zm + kp) hzp
        (by rw [← hgam]) z hz (by linarith) (by rw [← hgam]; linarith)
    · intro z hz hz1 hz2
      exact views_agree m sr n hm cfg.norm w r R hR D hδ hD (by linarith) zq (zm + kp) hzq
        (by rw [← hgam]; linarith) z hz (by linarith) (by rw [← hgam]; linarith)

/-! ## Bursts -/

/-- The samples of `D` from `u` to `v` satisfy `P`, with `q` the first of largest COA; any other that does is
more than `gap` away, with one in between that does not. -/
structure Spec.Burst (P : Row → Prop) (gap : ℚ) (D : List Row) (u v : ℚ) (q : Row) : Prop where
  mem : q ∈ D
  lo : u ≤ q.dt
  hi : q.dt ≤ v
  above : ∀ r ∈ D, u ≤ r.dt → r.dt ≤ v → P r
  max : ∀ r ∈ D, u ≤ r.dt → r.dt ≤ v → r.coa ≤ q.coa
  first : ∀ r ∈ D, u ≤ r.dt → r.dt < q.dt → r.coa < q.coa
  after : ∀ r ∈ D, v < r.dt → P r → v + gap < r.dt ∧ ∃ b ∈ D, v < b.dt ∧ b.dt < r.dt ∧ ¬ P b
  before : ∀ r ∈ D, r.dt < u → P r → r.dt + gap < u ∧ ∃ b ∈ D, r.dt < b.dt ∧ b.dt < u ∧ ¬ P b

/-- What is known of a candidate of a window. -/
structure CandFactsP (cfg : Trigger.Cfg) (P : Row → Prop) (W : List Row) (c : Cand) (first last p : Row) : Prop where
  peak : PeakP P W p
  first_mem : first ∈ W
  last_mem : last ∈ W
  lo : first.dt ≤ p.dt
  hi : p.dt ≤ last.dt
  all : ∀ r ∈ W, first.dt ≤ r.dt → r.dt ≤ last.dt → P r
  time : c.coaTime = p.dt
  trig : c.trigCoa = trigValue cfg.norm p
  x : c.x = p.x
  y : c.y = p.y
  z : c.z = p.z
  coa : c.coa = p.coa
  coaN : c.coaN = p.coaN
  minTime : first.dt - cfg.mei ≤ c.minTime
  maxTime : c.maxTime ≤ last.dt + cfg.mei

theorem cand_facts_gen (cfg : Trigger.Cfg) (hmw : 0 ≤ cfg.mw) {P : Row → Prop} {W : List Row} {thr : List ℚ} (hP : Reads cfg.norm W thr P)
    (hW : W.Pairwise (fun r s => r.dt < s.dt)) {c : Cand} (hc : c ∈ identifyCandidates cfg W thr) :
    ∃ first last p, CandFactsP cfg P W c first last p := by
  obtain ⟨p0, hp0, hp1, -⟩ := peak_of_cand_gen cfg hP hW hc
  obtain ⟨runs, hruns, -, hf⟩ := C08_candidates_are_maximal_runs cfg W thr
  obtain ⟨⟨a, b⟩, hab, k, pk, fi, la, hp, hfi, hla, h1, h2, h3, h4, h5, h6, h7, h8, h9, h10, h11⟩ :=
    forall₂_exists_right hf hc
  have hrun := (hruns a b).mp hab
  have hpe : p0 = pk := by
    rcases pairwise_or hW hp0.mem (List.mem_of_getElem? hp.at_p) with h | h | h
    · exact h
    · rw [hp1] at h1; linarith
    · rw [hp1] at h1; linarith
  subst hpe
  have hfp : fi.dt ≤ p0.dt := (dt_le_iff hW hfi hp.at_p).mp hp.lo
  have hpl : p0.dt ≤ la.dt := (dt_le_iff hW hp.at_p hla).mp hp.hi
  refine ⟨fi, la, p0, hp0, List.mem_of_getElem? hfi, List.mem_of_getElem? hla, hfp, hpl, ?_, h1, h2, h3,
    h4, h5, h6, h7, ?_, ?_⟩
  · intro r hr hr1 hr2
    obtain ⟨j, hj⟩ := List.mem_iff_getElem?.mp hr
    have hja : a ≤ j := (dt_le_iff hW hfi hj).mpr hr1
    have hjb : j ≤ b := (dt_le_iff hW hj hla).mpr hr2
    obtain ⟨r', h12, h13⟩ := (above_gen hP j).mp (hrun.all j hja hjb)
    rw [hj, Option.some.injEq] at h12
    rw [h12]; exact h13
  · rcases lt_or_ge (p0.dt - fi.dt) cfg.mw with h | h
    · rw [h8 h]; linarith
    · rw [h9 h]; linarith
  · rcases lt_or_ge (la.dt - p0.dt) cfg.mw with h | h
    · rw [h10 h]; linarith
    · rw [h11 h]; linarith

section
variable {cfg : Trigger.Cfg} {P : Row → Prop} {D : List Row} {thr : List ℚ} {u v : ℚ} {q : Row}

/-- A run of a window is in the burst, before it, or after it. -/
theorem run_cases_gen (hb : Spec.Burst P (cfg.mei + cfg.mw) D u v q) {c : Cand}
    {first last p : Row} (hc : CandFactsP cfg P D c first last p) :
    (u ≤ first.dt ∧ last.dt ≤ v) ∨ last.dt + (cfg.mei + cfg.mw) < u ∨
      v + (cfg.mei + cfg.mw) < first.dt := by
  have hfD := hc.first_mem
  have hlD := hc.last_mem
  have hfl : first.dt ≤ last.dt := hc.lo.trans hc.hi
  have hfa := hc.all first hc.first_mem le_rfl hfl
  have hla := hc.all last hc.last_mem hfl le_rfl
  by_cases h1 : v < first.dt
  · exact Or.inr (Or.inr (hb.after first hfD h1 hfa).1)
  by_cases h2 : last.dt < u
  · exact Or.inr (Or.inl (hb.before last hlD h2 hla).1)
  push Not at h1 h2
  left
  constructor
  · by_contra hn
    push Not at hn
    obtain ⟨-, r, hr, hr1, hr2, hr3⟩ := hb.before first hfD hn hfa
    exact hr3 (hc.all r hr (by linarith) (by linarith))
  · by_contra hn
    push Not at hn
    obtain ⟨-, r, hr, hr1, hr2, hr3⟩ := hb.after last hlD hn hla
    exact hr3 (hc.all r hr (by linarith) (by linarith))

/-- The peak of a run in the burst, if the window has all of the burst. -/
theorem run_peak_gen (hD : D.Pairwise (fun r s => r.dt < s.dt))
    (hb : Spec.Burst P (cfg.mei + cfg.mw) D u v q) {p : Row}
    (hp : PeakP P D p) (h1 : u ≤ p.dt) (h2 : p.dt ≤ v) : p = q := by
  have hpD := hp.mem
  have hqW : q ∈ D := hb.mem
  have hl : LinkedP P D p q := by
    intro r hr hr1 hr2
    refine hb.above r hr ?_ ?_
    · rcases hr1 with h | h
      · linarith
      · linarith [hb.lo]
    · rcases hr2 with h | h
      · linarith
      · linarith [hb.hi]
  have h3 := hp.max q hqW hl
  have h4 := hb.max p hpD h1 h2
  rcases pairwise_or hD hpD hb.mem with h | h | h
  · exact h
  · have := hb.first p hpD h1 h; linarith
  · have := hp.first q hqW hl h; linarith

/-- In a window with all of the burst, exactly its own candidate has it, and it is an event by itself. -/
theorem burst_event_gen (hmw : 0 ≤ cfg.mw) (hmei : 0 ≤ cfg.mei) (hP : Reads cfg.norm D thr P) (hD : D.Pairwise (fun r s => r.dt < s.dt))
    (hb : Spec.Burst P (cfg.mei + cfg.mw) D u v q) :
    (∀ e ∈ refineCandidates cfg (identifyCandidates cfg D thr), u ≤ e.coaTime → e.coaTime ≤ v →
      e.coaTime = q.dt ∧ e.trigCoa = trigValue cfg.norm q ∧ e.x = q.x ∧ e.y = q.y ∧ e.z = q.z ∧
        e.coa = q.coa ∧ e.coaN = q.coaN ∧ u - cfg.mei ≤ e.minTime ∧ e.maxTime ≤ v + cfg.mei) ∧
    ∃ e ∈ refineCandidates cfg (identifyCandidates cfg D thr), e.coaTime = q.dt := by
  have hqW : q ∈ D := hb.mem
  obtain ⟨-, hsorted⟩ := identify_sorted cfg D thr hD
  obtain ⟨hfl, hne, hchain, -⟩ := mergedGroups_spec cfg (identifyCandidates cfg D thr)
  have hor := refine_forall₂ cfg (identifyCandidates cfg D thr)
  -- two candidates, one in the burst, are apart
  have hapart : ∀ c ∈ identifyCandidates cfg D thr, ∀ d ∈ identifyCandidates cfg D thr,
      c.coaTime < d.coaTime → (u ≤ c.coaTime ∧ c.coaTime ≤ v ∨ u ≤ d.coaTime ∧ d.coaTime ≤ v) →
      Apart cfg.mw c d := by
    intro c hc d hd hlt hin
    obtain ⟨f1, l1, p1, hc1⟩ := cand_facts_gen cfg hmw hP hD hc
    obtain ⟨f2, l2, p2, hc2⟩ := cand_facts_gen cfg hmw hP hD hd
    have t1 := hc1.time
    have t2 := hc2.time
    have a1 := hc1.lo
    have a2 := hc1.hi
    have a3 := hc2.lo
    have a4 := hc2.hi
    have m1 := hc1.maxTime
    have m2 := hc2.minTime
    have key : ∀ {c' : Cand} {f l p : Row}, CandFactsP cfg P D c' f l p →
        u ≤ c'.coaTime → c'.coaTime ≤ v → p = q ∧ u ≤ f.dt ∧ l.dt ≤ v := by
      intro c' f l p hc' h1 h2
      have h3 := hc'.time
      have h4 := hc'.lo
      have h5 := hc'.hi
      have hq := run_peak_gen hD hb hc'.peak (by linarith) (by linarith)
      refine ⟨hq, ?_⟩
      have hfD := hc'.first_mem
      have hlD := hc'.last_mem
      have hfa := hc'.all f hc'.first_mem le_rfl (h4.trans h5)
      have hla := hc'.all l hc'.last_mem (h4.trans h5) le_rfl
      constructor
      · by_contra hn
        push Not at hn
        obtain ⟨-, r, hr, hr1, hr2, hr3⟩ := hb.before f hfD hn hfa
        exact hr3 (hc'.all r hr (by linarith) (by linarith))
      · by_contra hn
        push Not at hn
        obtain ⟨-, r, hr, hr1, hr2, hr3⟩ := hb.after l hlD hn hla
        exact hr3 (hc'.all r hr (by linarith) (by linarith))
    rcases hin with ⟨h1, h2⟩ | ⟨h1, h2⟩
    · obtain ⟨e1, e2, e3⟩ := key hc1 h1 h2
      rcases run_cases_gen hb hc2 with ⟨h3, h4⟩ | h3 | h3
      · have := (key hc2 (by linarith) (by linarith)).1
        rw [this, ← e1] at t2
        linarith
      · have := hb.lo; have := hb.hi
        linarith
      · exact ⟨by linarith, by linarith⟩
    · obtain ⟨e1, e2, e3⟩ := key hc2 h1 h2
      rcases run_cases_gen hb hc1 with ⟨h3, h4⟩ | h3 | h3
      · have := (key hc1 (by linarith) (by linarith)).1
        rw [this, ← e1] at t1
        linarith
      · exact ⟨by linarith, by linarith⟩
      · linarith
  -- so a group with a candidate in the burst has no other
  have hsing : ∀ g ∈ mergedGroups cfg (identifyCandidates cfg D thr), ∀ c ∈ g,
      u ≤ c.coaTime → c.coaTime ≤ v → g = [c] := by
    intro g hg c hc h1 h2
    have hgm : ∀ x ∈ g, x ∈ identifyCandidates cfg D thr := by
      intro x hx
      rw [← hfl]
      exact List.mem_flatten.mpr ⟨g, hg, hx⟩
    have hgs : g.Pairwise (fun c d => c.coaTime < d.coaTime) := by
      refine List.Pairwise.sublist ?_ hsorted
      have := List.sublist_flatten_of_mem hg
      rwa [hfl] at this
    have hch := hchain g hg
    obtain ⟨pre, post, rfl⟩ := List.append_of_mem hc
    have hpost : post = [] := by
      cases post with
      | nil => rfl
      | cons d post =>
        exfalso
        have h3 := (List.isChain_append.mp hch).2.1
        rw [List.isChain_cons_cons] at h3
        have h4 := (List.pairwise_append.mp hgs).2.1
        rw [List.pairwise_cons] at h4
        exact h3.1 (hapart c (hgm c (by simp)) d (hgm d (by simp)) (h4.1 d (by simp)) (Or.inl ⟨h1, h2⟩))
    have hpre : pre = [] := by
      rcases List.eq_nil_or_concat pre with h | ⟨l, d, h⟩
      · exact h
      · exfalso
        subst h
        have h3 := (List.isChain_append.mp hch).2.2 d (by simp) c (by simp)
        have h4 := (List.pairwise_append.mp hgs).2.2 d (by simp) c (by simp)
        exact h3 (hapart d (hgm d (by simp)) c (hgm c (by simp)) h4 (Or.inr ⟨h1, h2⟩))
    rw [hpost, hpre]; rfl
  have hin : ∀ g ∈ mergedGroups cfg (identifyCandidates cfg D thr), ∀ c ∈ g,
      c ∈ identifyCandidates cfg D thr := by
    intro g hg c hc
    rw [← hfl]
    exact List.mem_flatten.mpr ⟨g, hg, hc⟩
  constructor
  · intro e he h1 h2
    obtain ⟨g, hg, pre, best, post, hs, -, -, e1, e2, e3, e4, e5, e6, e7, ⟨c1, hc1, e8⟩, -,
      ⟨c2, hc2, e9⟩, -⟩ := forall₂_exists_right hor he
    have hbg : best ∈ g := by rw [hs]; simp
    have hgb := hsing g hg best hbg (by rw [← e1]; exact h1) (by rw [← e1]; exact h2)
    rw [hgb, List.mem_singleton] at hc1 hc2
    subst hc1; subst hc2
    obtain ⟨f, l, p, hcf⟩ := cand_facts_gen cfg hmw hP hD (hin g hg _ hbg)
    have h3 := hcf.time
    have hpq := run_peak_gen hD hb hcf.peak (by linarith) (by linarith)
    have h4 := hcf.lo
    have h5 := hcf.hi
    have hfl' : u ≤ f.dt ∧ l.dt ≤ v := by
      rcases run_cases_gen hb hcf with h | h | h
      · exact h
      · linarith
      · linarith
    rw [e1, e2, e3, e4, e5, e6, e7, e8, e9, ← hpq]
    exact ⟨hcf.time, hcf.trig, hcf.x, hcf.y, hcf.z, hcf.coa, hcf.coaN,
      by linarith [hcf.minTime], by linarith [hcf.maxTime]⟩
  · obtain ⟨c, hc, q', hq', hl, h1, -⟩ := cand_of_above_gen cfg hP hD hqW
      (hb.above q hb.mem hb.lo hb.hi)
    have hq'D := hq'.mem
    have hlo := hb.lo
    have hhi := hb.hi
    have hu' : u ≤ q'.dt := by
      by_contra hn
      push Not at hn
      obtain ⟨-, r, hr, hr1, hr2, hr3⟩ := hb.before q' hq'D hn hq'.above
      exact hr3 (hl r hr (Or.inr (by linarith))
        (Or.inl (by linarith [hb.lo])))
    have hv' : q'.dt ≤ v := by
      by_contra hn
      push Not at hn
      obtain ⟨-, r, hr, hr1, hr2, hr3⟩ := hb.after q' hq'D hn hq'.above
      exact hr3 (hl r hr (Or.inl (by linarith [hb.hi]))
        (Or.inr (by linarith)))
    have hqq := run_peak_gen hD hb hq' hu' hv'
    have hc' := hc
    rw [← hfl, List.mem_flatten] at hc'
    obtain ⟨g, hg, hcg⟩ := hc'
    have hgc := hsing g hg c hcg (by rw [h1]; exact hu') (by rw [h1]; exact hv')
    obtain ⟨e, he, pre, best, post, hs, -, -, e1, -⟩ := forall₂_exists_left hor hg
    have hbg : best ∈ g := by rw [hs]; simp
    rw [hgc, List.mem_singleton] at hbg
    exact ⟨e, he, by rw [e1, hbg, h1, hqq]⟩

end


theorem smoothCoa_regular (w : ℕ → ℚ) (r : ℕ) {D : List Row} {t0 δ : ℚ} (hD : Spec.Regular D t0 δ) :
    Spec.Regular (smoothCoa w r D) t0 δ := by
  intro i x hx
  obtain ⟨z, hz, rfl⟩ := smoothCoa_getElem?' w r D hx
  exact hD i z hz

/-- A burst of the record is one of a view that agrees with it round the burst. -/
theorem burst_transfer {P P1 : Row → Prop} {G W : List Row} {t0 δ gap u v A B : ℚ} {q : Row} (hδ : 0 < δ)
    (hG : Spec.Regular G t0 δ) (hag : ∀ r, A ≤ r.dt → r.dt ≤ B → (r ∈ W ↔ r ∈ G))
    (hpa : ∀ r ∈ G, A ≤ r.dt → r.dt ≤ B → (P1 r ↔ P r)) (ht : ∀ r ∈ W, ∃ q ∈ G, q.dt = r.dt)
    (hb : Spec.Burst P gap G u v q) (hgap : 0 ≤ gap) (hA : A ≤ u - gap - δ) (hB : v + gap + δ ≤ B) :
    Spec.Burst P1 gap W u v q := by
  have hlo := hb.lo
  have hhi := hb.hi
  have hG' : ∀ r ∈ W, u ≤ r.dt → r.dt ≤ v → r ∈ G := fun r hr h1 h2 =>
    (hag r (by linarith) (by linarith)).mp hr
  obtain ⟨j, hj⟩ := List.mem_iff_getElem?.mp hb.mem
  have hjdt := hG j q hj
  refine ⟨(hag q (by linarith) (by linarith)).mpr hb.mem, hlo, hhi, ?_, ?_, ?_, ?_, ?_⟩
  · intro r hr h1 h2
    exact (hpa r (hG' r hr h1 h2) (by linarith) (by linarith)).mpr (hb.above r (hG' r hr h1 h2) h1 h2)
  · intro r hr h1 h2
    exact hb.max r (hG' r hr h1 h2) h1 h2
  · intro r hr h1 h2
    exact hb.first r (hG' r hr h1 (by linarith)) h1 h2
  · intro r hr h1 h2
    by_cases hrB : r.dt ≤ B
    · have hrG := (hag r (by linarith) hrB).mp hr
      obtain ⟨h3, b, hbG, h4, h5, h6⟩ := hb.after r hrG h1 ((hpa r hrG (by linarith) hrB).mp h2)
      exact ⟨h3, b, (hag b (by linarith) (by linarith)).mpr hbG, h4, h5,
        fun h => h6 ((hpa b hbG (by linarith) (by linarith)).mp h)⟩
    · push Not at hrB
      refine ⟨by linarith, ?_⟩
      obtain ⟨r', hr', hrt⟩ := ht r hr
      obtain ⟨i, hi⟩ := List.mem_iff_getElem?.mp hr'
      have hidt := hG i r' hi
      have hil := (List.getElem?_eq_some_iff.mp hi).1
      -- the first sample after the burst
      have hf1 := Int.floor_le ((v - t0) / δ)
      have hf2 := Int.lt_floor_add_one ((v - t0) / δ)
      rw [le_div_iff₀ hδ] at hf1
      rw [div_lt_iff₀ hδ] at hf2
      have hjf : (j : ℤ) ≤ ⌊(v - t0) / δ⌋ := by
        rw [Int.le_floor, le_div_iff₀ hδ]
        push_cast
        linarith
      obtain ⟨l, hl⟩ : ∃ l : ℕ, (l : ℤ) = ⌊(v - t0) / δ⌋ + 1 :=
        ⟨(⌊(v - t0) / δ⌋ + 1).toNat, by omega⟩
      have hlq : (l : ℚ) = (⌊(v - t0) / δ⌋ : ℚ) + 1 := by exact_mod_cast hl
      have hli : (l : ℤ) < i := by
        apply int_of_rat_lt hδ
        push_cast
        rw [hlq]
        nlinarith
      have hx : G[l]? = some G[l] := List.getElem?_eq_getElem (by omega)
      have hxdt := hG l _ hx
      have hxG := List.mem_of_getElem? hx
      rw [hlq] at hxdt
      have x1 : v < G[l].dt := by rw [hxdt]; nlinarith
      have x2 : G[l].dt ≤ v + δ := by rw [hxdt]; nlinarith
      by_cases hPx : P G[l]
      · obtain ⟨-, b, hbG, h4, h5, h6⟩ := hb.after _ hxG x1 hPx
        exact ⟨b, (hag b (by linarith) (by linarith)).mpr hbG, h4, by linarith,
          fun h => h6 ((hpa b hbG (by linarith) (by linarith)).mp h)⟩
      · exact ⟨_, (hag _ (by linarith) (by linarith)).mpr hxG, x1, by linarith,
          fun h => hPx ((hpa _ hxG (by linarith) (by linarith)).mp h)⟩
  · intro r hr h1 h2
    by_cases hrA : A ≤ r.dt
    · have hrG := (hag r hrA (by linarith)).mp hr
      obtain ⟨h3, b, hbG, h4, h5, h6⟩ := hb.before r hrG h1 ((hpa r hrG hrA (by linarith)).mp h2)
      exact ⟨h3, b, (hag b (by linarith) (by linarith)).mpr hbG, h4, h5,
        fun h => h6 ((hpa b hbG (by linarith) (by linarith)).mp h)⟩
    · push Not at hrA
      refine ⟨by linarith, ?_⟩
      obtain ⟨r', hr', hrt⟩ := ht r hr
      obtain ⟨i, hi⟩ := List.mem_iff_getElem?.mp hr'
      have hidt := hG i r' hi
      have hjl := (List.getElem?_eq_some_iff.mp hj).1
      -- the last sample before the burst
      have hf1 := Int.le_ceil ((u - t0) / δ)
      have hf2 := Int.ceil_lt_add_one ((u - t0) / δ)
      rw [div_le_iff₀ hδ] at hf1
      rw [← sub_lt_iff_lt_add, lt_div_iff₀ hδ] at hf2
      have hjf : ⌈(u - t0) / δ⌉ ≤ (j : ℤ) := by
        rw [Int.ceil_le, div_le_iff₀ hδ]
        push_cast
        linarith
      have hif : (i : ℤ) < ⌈(u - t0) / δ⌉ - 1 := by
        apply int_of_rat_lt hδ
        push_cast
        nlinarith
      obtain ⟨l, hl⟩ : ∃ l : ℕ, (l : ℤ) = ⌈(u - t0) / δ⌉ - 1 :=
        ⟨(⌈(u - t0) / δ⌉ - 1).toNat, by omega⟩
      have hlq : (l : ℚ) = (⌈(u - t0) / δ⌉ : ℚ) - 1 := by exact_mod_cast hl
      have hx : G[l]? = some G[l] := List.getElem?_eq_getElem (by omega)
      have hxdt := hG l _ hx
      have hxG := List.mem_of_getElem? hx
      rw [hlq] at hxdt
      have x1 : G[l].dt < u := by rw [hxdt]; nlinarith
      have x2 : u - δ ≤ G[l].dt := by rw [hxdt]; nlinarith
      by_cases hPx : P G[l]
      · obtain ⟨-, b, hbG, h4, h5, h6⟩ := hb.before _ hxG x1 hPx
        exact ⟨b, (hag b (by linarith) (by linarith)).mpr hbG, by linarith, h5,
          fun h => h6 ((hpa b hbG (by linarith) (by linarith)).mp h)⟩
      · exact ⟨_, (hag _ (by linarith) (by linarith)).mpr hxG, by linarith, x1,
          fun h => hPx ((hpa _ hxG (by linarith) (by linarith)).mp h)⟩

/-- **C112** (partial), thresholds that follow the data, with or without smoothing: for a record without
gaps, with the midnights, the start of the run and the pad whole numbers of threshold windows, and a pad
that is longer than the burst, the gap around it and one window more than the smoothing reaches, a run that
ends normally reports exactly one event with a time in the burst: its first sample of largest (smoothed)
COA, with its values, if the sample is in the region; none if it is not. -/
theorem C112_dynamic_partial (cfg : Trigger.Cfg) (hmw : 0 ≤ cfg.mw) (hmei : 0 ≤ cfg.mei) (m : Method)
    (sr : ℚ) (n : ℕ) (hm : Spec.WindowSamples m sr n) (region : Option Region) (w : ℕ → ℚ) (r R : ℕ)
    (hR : r ≤ R * n) (D : List Row) (t0 δ : ℚ) (hδ : 0 < δ) (hD : Spec.Regular D t0 δ)
    (u v : ℚ) (q : Row)
    (hb : Spec.Burst (Spec.Triggers cfg.norm (getThreshold m ((smoothCoa w r D).map (Row.trig cfg.norm)) sr)
      (smoothCoa w r D)) (cfg.mei + cfg.mw) (smoothCoa w r D) u v q)
    (pad : ℚ) (hpad : v - u + (cfg.mei + cfg.mw) + δ + (R + 1) * (n * δ) ≤ pad)
    (s e : ℚ) (hs : s ≤ q.dt) (he : q.dt < e)
    (hal0 : ∃ k : ℤ, t0 = k * (n * δ)) (hald : ∃ k : ℤ, 86400 = k * (n * δ))
    (hals : ∃ k : ℤ, s = k * (n * δ)) (halp : ∃ k : ℤ, pad = k * (n * δ))
    (read : ℚ → ℚ → Option ScanData) (hread : Spec.ReadsFrom D pad read)
    (hrate : ∀ a b sd, read a b = some sd → sd.delta = δ ∧ sd.sr = sr)
    (hok : (trigger cfg m (smoothCoa w r) region read s e).2 = none) :
    (Spec.RowIn region q → ∃ x,
      ((trigger cfg m (smoothCoa w r) region read s e).1.flatMap Prod.snd).filter
        (fun x => decide (u ≤ x.coaTime ∧ x.coaTime ≤ v)) = [x] ∧
      x.coaTime = q.dt ∧ x.trigCoa = trigValue cfg.norm q ∧ x.x = q.x ∧ x.y = q.y ∧ x.z = q.z ∧
      x.coa = q.coa ∧ x.coaN = q.coaN ∧ u - cfg.mei ≤ x.minTime ∧ x.maxTime ≤ v + cfg.mei) ∧
    (¬ Spec.RowIn region q → ∀ x ∈ (trigger cfg m (smoothCoa w r) region read s e).1.flatMap Prod.snd,
      ¬ (u ≤ x.coaTime ∧ x.coaTime ≤ v)) := by
  have hse : s ≤ e := by linarith
  have hDs := regular_sorted hδ hD
  have hn := windowSamples_pos hm
  have hnq : (1 : ℚ) ≤ n := by exact_mod_cast hn
  obtain ⟨hpw, -⟩ := C13_no_event_twice cfg m (smoothCoa w r) region read s e hse
    (fun a b sd h => (hread a b sd h).2)
  obtain ⟨bs, hbs, -, heq, -⟩ := C07_batches_partition cfg m (smoothCoa w r) region read s e hse
  have heq := heq hok
  have hev : ∀ p ∈ (trigger cfg m (smoothCoa w r) region read s e).1,
      ∃ sd, read p.1.1 p.1.2 = some sd ∧
        p.2 = (triggerBatch cfg m (smoothCoa w r) region p.1.1 p.1.2 sd).1 := by
    unfold trigger
    rw [if_neg (not_lt.mpr hse)]
    exact (runBatches_prefix cfg m (smoothCoa w r) region read (batches s e)).2.2.2
  have htimes : ∀ a b x, x ∈ smoothCoa w r (win D a b) → ∃ q ∈ smoothCoa w r D, q.dt = x.dt := by
    intro a b x hx
    obtain ⟨i, hi⟩ := List.mem_iff_getElem?.mp hx
    obtain ⟨z, hz, hzx⟩ := smoothCoa_getElem?' w r _ hi
    obtain ⟨j, hj⟩ := List.mem_iff_getElem?.mp (mem_win.mp (List.mem_of_getElem? hz)).1
    exact ⟨_, List.mem_of_getElem? (smoothCoa_getElem? w r D hj), by rw [hzx]⟩
  have hWs : ∀ a b : ℚ, (smoothCoa w r (win D a b)).Pairwise (fun r s => r.dt < s.dt) := fun a b =>
    smoothCoa_sorted w r _ (hDs.sublist List.filter_sublist)
  obtain ⟨k0, hk0⟩ := hal0
  obtain ⟨kd, hkd⟩ := hald
  obtain ⟨ks, hks⟩ := hals
  obtain ⟨kp, hkp⟩ := halp
  have hU : (0 : ℚ) < n * δ := by positivity
  have hstart : ∀ b ∈ bs, ∃ z : ℤ, b.1 - pad = t0 + z * (n * δ) := by
    intro b hb
    rcases batch_times hbs b hb with h | ⟨k, h⟩
    · refine ⟨ks - k0 - kp, ?_⟩
      push_cast
      rw [h]
      linarith
    · refine ⟨kd * k - k0 - kp, ?_⟩
      push_cast
      rw [h, hkd]
      linarith
  have hRpos : (0 : ℚ) ≤ R * (n * δ) := by positivity
  have hrR : (r : ℚ) * δ ≤ R * (n * δ) := by
    have : (r : ℚ) ≤ R * n := by exact_mod_cast hR
    nlinarith
  have hlo := hb.lo
  have hhi := hb.hi
  -- the burst as a batch sees it
  have hview : ∀ b ∈ bs, (∃ τ, b.1 ≤ τ ∧ τ ≤ b.2 ∧ u ≤ τ ∧ τ ≤ v) →
      Spec.Burst (Spec.Triggers cfg.norm
        (getThreshold m ((smoothCoa w r (win D (b.1 - pad) (b.2 + pad))).map (Row.trig cfg.norm)) sr)
        (smoothCoa w r (win D (b.1 - pad) (b.2 + pad)))) (cfg.mei + cfg.mw)
        (smoothCoa w r (win D (b.1 - pad) (b.2 + pad))) u v q := by
    rintro b hbm ⟨τ, t1, t2, t3, t4⟩
    obtain ⟨z, hz⟩ := hstart b hbm
    -- the last whole window of the batch
    obtain ⟨γ, hγ1, hγ2⟩ : ∃ γ : ℤ, t0 + γ * (n * δ) ≤ b.2 + pad ∧ b.2 + pad < t0 + (γ + 1) * (n * δ) := by
      refine ⟨⌊(b.2 + pad - t0) / (n * δ)⌋, ?_, ?_⟩
      · have := Int.floor_le ((b.2 + pad - t0) / (n * δ))
        rw [le_div_iff₀ hU] at this
        linarith
      · have := Int.lt_floor_add_one ((b.2 + pad - t0) / (n * δ))
        rw [div_lt_iff₀ hU] at this
        linarith
    refine burst_transfer (A := b.1 - pad + R * (n * δ)) (B := b.2 + pad - (R + 1) * (n * δ)) hδ
      (smoothCoa_regular w r hD) ?_ ?_ (htimes _ _) hb (by linarith) (by linarith) (by linarith)
    · intro x hx1 hx2
      exact smooth_agree w r D hδ hD (by linarith) x (by linarith) (by linarith)
    · intro x hx hx1 hx2
      exact views_agree m sr n hm cfg.norm w r R hR D hδ hD (by linarith) z γ hz hγ1 x hx (by linarith)
        (by linarith)
  have hbatch : ∀ p ∈ (trigger cfg m (smoothCoa w r) region read s e).1, p.1 ∈ bs := by
    intro p hp
    rw [← heq]
    exact List.mem_map_of_mem hp
  generalize (trigger cfg m (smoothCoa w r) region read s e).1 = res at *
  have hsort : (res.flatMap Prod.snd).Pairwise (fun x y => x.coaTime < y.coaTime) := by
    rw [List.pairwise_flatMap]
    refine ⟨?_, hpw⟩
    intro p hp
    obtain ⟨sd, h1, h2⟩ := hev p hp
    rw [h2]
    refine (C10_reported_events_separated cfg m (smoothCoa w r) region _ _ sd hmw ?_).imp
      (fun h => by linarith)
    rw [(hread _ _ _ h1).1]
    exact hWs _ _
  have hrep : ∀ x ∈ res.flatMap Prod.snd, u ≤ x.coaTime → x.coaTime ≤ v →
      InRegion region x ∧ x.coaTime = q.dt ∧ x.trigCoa = trigValue cfg.norm q ∧ x.x = q.x ∧
        x.y = q.y ∧ x.z = q.z ∧ x.coa = q.coa ∧ x.coaN = q.coaN ∧ u - cfg.mei ≤ x.minTime ∧
        x.maxTime ≤ v + cfg.mei := by
    intro x hx h1 h2
    obtain ⟨p, hp, hx⟩ := List.mem_flatMap.mp hx
    obtain ⟨sd, hr, he'⟩ := hev p hp
    rw [he', mem_triggerBatch] at hx
    obtain ⟨hx1, hx2, hx3, hx4⟩ := hx
    obtain ⟨hsd, hδ'⟩ := hread _ _ _ hr
    simp only [hsd, (hrate _ _ _ hr).2] at hx1
    have hx5 : x.coaTime ≤ p.1.2 := by split at hx3 <;> linarith
    exact ⟨hx4, (burst_event_gen hmw hmei (reads_triggers cfg.norm _ (hWs _ _)) (hWs _ _)
      (hview p.1 (hbatch p hp) ⟨x.coaTime, hx2, hx5, h1, h2⟩)).1 x hx1 h1 h2⟩
  constructor
  · intro hreg
    obtain ⟨b, hbm, hb1, hb2⟩ := hbs.covers q.dt hs he
    rw [← heq, List.mem_map] at hbm
    obtain ⟨p, hp, rfl⟩ := hbm
    obtain ⟨sd, hr, he'⟩ := hev p hp
    obtain ⟨hsd, hδ'⟩ := hread _ _ _ hr
    obtain ⟨hall, x, hx, hxt⟩ := burst_event_gen hmw hmei (reads_triggers cfg.norm _ (hWs _ _)) (hWs _ _)
      (hview p.1 (hbatch p hp) ⟨q.dt, hb1, hb2.le, hlo, hhi⟩)
    obtain ⟨-, h2, h3, h4, h5, -⟩ := hall x hx (by linarith) (by linarith)
    have hxr : x ∈ res.flatMap Prod.snd := by
      refine List.mem_flatMap.mpr ⟨p, hp, ?_⟩
      rw [he']
      refine C13_no_event_lost_at_boundary cfg m (smoothCoa w r) region p.1 sd x hδ' ?_ ?_ ?_ ?_ ?_
      · rw [(hrate _ _ _ hr).1]
        have hkd0 : (0 : ℚ) < kd := by
          by_contra hneg
          push Not at hneg
          have := mul_nonpos_of_nonpos_of_nonneg hneg hU.le
          linarith
        have hkd0' : 0 < kd := by exact_mod_cast hkd0
        refine ⟨(kd * n).toNat, ?_⟩
        have h7 : (((kd * n).toNat : ℤ) : ℚ) = ((kd * n : ℤ) : ℚ) := by
          rw [Int.toNat_of_nonneg (by positivity)]
        push_cast at h7
        unfold DAY
        rw [h7, hkd]
        ring
      · rw [(hrate _ _ _ hr).1, hxt]
        obtain ⟨j, hj⟩ := List.mem_iff_getElem?.mp hb.mem
        refine ⟨k0 * n + j, ?_⟩
        rw [smoothCoa_regular w r hD j q hj]
        push_cast
        linarith
      · rw [hxt]; exact ⟨hb1, hb2⟩
      · rw [hsd, (hrate _ _ _ hr).2]; exact hx
      · intro r hr'
        rw [h3, h4, h5]
        exact hreg r hr'
    have hmem : x ∈ (res.flatMap Prod.snd).filter
        (fun x => decide (u ≤ x.coaTime ∧ x.coaTime ≤ v)) := by
      rw [List.mem_filter]
      exact ⟨hxr, by simp only [decide_eq_true_eq]; constructor <;> linarith⟩
    have hsf := hsort.sublist (List.filter_sublist
      (p := fun x => decide (u ≤ x.coaTime ∧ x.coaTime ≤ v)))
    have hallf : ∀ y ∈ (res.flatMap Prod.snd).filter
        (fun x => decide (u ≤ x.coaTime ∧ x.coaTime ≤ v)), y.coaTime = q.dt := by
      intro y hy
      rw [List.mem_filter, decide_eq_true_eq] at hy
      exact (hrep y hy.1 hy.2.1 hy.2.2).2.1
    refine ⟨x, ?_, (hrep x hxr (by linarith) (by linarith)).2⟩
    generalize (res.flatMap Prod.snd).filter
        (fun x => decide (u ≤ x.coaTime ∧ x.coaTime ≤ v)) = L at *
    match L with
    | [] => simp at hmem
    | [y] => rw [List.mem_singleton] at hmem; rw [hmem]
    | y :: z :: L =>
      have h6 := (List.pairwise_cons.mp hsf).1 z (by simp)
      have h7 := hallf y (by simp)
      have h8 := hallf z (by simp)
      linarith
  · intro hreg x hx hxx
    obtain ⟨h1, -, -, h3, h4, h5, -⟩ := hrep x hx hxx.1 hxx.2
    apply hreg
    intro r hr
    have := h1 r hr
    rwa [h3, h4, h5] at this

/-! ## Without smoothing -/

theorem smoothCoa_none : smoothCoa (fun _ => 1) 0 = id := by
  funext D
  have key : ∀ x : List ℚ, ∀ (i : ℕ) (y : ℚ), x[i]? = some y → correlateAt (fun _ => 1) 0 x i = y := by
    intro x i y hy
    have hi := (List.getElem?_eq_some_iff.mp hy).1
    have hr : reflect x.length ((i : ℤ) + (0 : ℕ) - (0 : ℕ)) = i := by
      have h1 : ((i : ℤ) + (0 : ℕ) - (0 : ℕ)) % (2 * (x.length : ℤ)) = i := by
        rw [Int.emod_eq_of_lt] <;> push_cast <;> omega
      unfold reflect
      rw [h1, if_pos (by omega)]
      omega
    unfold correlateAt
    simp only [Nat.mul_zero, Nat.zero_add, List.range_one, List.map_cons, List.map_nil, List.sum_cons,
      List.sum_nil, one_mul, add_zero]
    rw [hr, hy]
    rfl
  apply List.ext_getElem?
  intro i
  rcases Nat.lt_or_ge i D.length with hi | hi
  · have h := List.getElem?_eq_getElem hi
    rw [smoothCoa_getElem? _ _ D h]
    rw [key (D.map Row.coa) i D[i].coa (by simp [h]), key (D.map Row.coaN) i D[i].coaN (by simp [h])]
    exact h.symm
  · rw [List.getElem?_eq_none (by rw [smoothCoa_length]; exact hi), id, List.getElem?_eq_none hi]

/-- **C110** (partial), thresholds that follow the data, no smoothing: the pad need only be as long as the
minimum event interval and the longest run. -/
theorem C110_dynamic_raw_partial (cfg : Trigger.Cfg) (hmw : 0 ≤ cfg.mw) (m : Method) (sr : ℚ) (n : ℕ)
    (hm : Spec.WindowSamples m sr n) (region : Option Region)
    (D : List Row) (t0 δ : ℚ) (hδ : 0 < δ) (hD : Spec.Regular D t0 δ) (L : ℚ) (hL : 0 ≤ L)
    (hruns : Spec.RunsWithinThr cfg.norm (getThreshold m (D.map (Row.trig cfg.norm)) sr) L D)
    (pad : ℚ) (hpad : cfg.mei + L ≤ pad) (s e : ℚ) (hse : s ≤ e)
    (hal0 : ∃ k : ℤ, t0 = k * (n * δ)) (hald : ∃ k : ℤ, 86400 = k * (n * δ))
    (hals : ∃ k : ℤ, s = k * (n * δ)) (halp : ∃ k : ℤ, pad = k * (n * δ))
    (read : ℚ → ℚ → Option ScanData) (hread : Spec.ReadsFrom D pad read)
    (hrate : ∀ a b sd, read a b = some sd → sd.delta = δ ∧ sd.sr = sr) :
    ((trigger cfg m id region read s e).1.flatMap Prod.snd).Pairwise
      (fun x y => x.coaTime + cfg.mei < y.coaTime) := by
  have h := C110_dynamic_partial cfg hmw m sr n hm region (fun _ => 1) 0 0 (by omega) D t0 δ hδ hD L hL
    (by rw [smoothCoa_none]; exact hruns) pad (by push_cast; linarith) s e hse hal0 hald hals halp read
    hread hrate
  rwa [smoothCoa_none] at h

/-! ## Concrete cases -/

theorem spike_regular : Spec.Regular spikeScan 86380 1 := by
  intro i r h
  have hi := (List.getElem?_eq_some_iff.mp h).1
  simp only [spikeScan, List.length_map, List.length_range] at hi
  simp only [spikeScan, List.getElem?_map, List.getElem?_range hi, Option.map_some,
    Option.some.injEq] at h
  rw [← h]
  split
  · subst i; norm_num
  · ring

/-- Which samples trigger: those at one second or less from midnight. -/
theorem spike_triggers (r : Row) (hr : r ∈ smoothCoa (fun k => if k = 1 then 1 / 2 else 1 / 4) 1 spikeScan) :
    Spec.Triggers true (getThreshold (.medianRatio 5 2)
      ((smoothCoa (fun k => if k = 1 then 1 / 2 else 1 / 4) 1 spikeScan).map (Row.trig true)) 1)
      (smoothCoa (fun k => if k = 1 then 1 / 2 else 1 / 4) 1 spikeScan) r ↔ 86399 ≤ r.dt ∧ r.dt ≤ 86401 := by
  have key : ∀ i < 41, ∀ x ∈ (smoothCoa (fun k => if k = 1 then 1 / 2 else 1 / 4) 1 spikeScan)[i]?,
      ∀ t ∈ (getThreshold (.medianRatio 5 2)
        ((smoothCoa (fun k => if k = 1 then 1 / 2 else 1 / 4) 1 spikeScan).map (Row.trig true)) 1)[i]?,
      (t ≤ trigValue true x ↔ 86399 ≤ x.dt ∧ x.dt ≤ 86401) := by decide +kernel
  have hall : ∀ i < 41, (getThreshold (.medianRatio 5 2)
        ((smoothCoa (fun k => if k = 1 then 1 / 2 else 1 / 4) 1 spikeScan).map (Row.trig true)) 1)[i]?.isSome := by
    decide +kernel
  have hlen : ∀ i x, (smoothCoa (fun k => if k = 1 then 1 / 2 else 1 / 4) 1 spikeScan)[i]? = some x → i < 41 := by
    intro i x h
    have := (List.getElem?_eq_some_iff.mp h).1
    rw [smoothCoa_length] at this
    simpa [spikeScan] using this
  constructor
  · rintro ⟨i, t, h1, h2, h3⟩
    exact (key i (hlen i r h1) r h1 t h2).mp h3
  · intro h
    obtain ⟨i, hi⟩ := List.mem_iff_getElem?.mp hr
    obtain ⟨t, ht⟩ := Option.isSome_iff_exists.mp (hall i (hlen i r hi))
    exact ⟨i, t, hi, ht, (key i (hlen i r hi) r hi t ht).mpr h⟩

/-- The burst of `spikeScan`, smoothed, for a threshold of twice the median of five seconds. -/
theorem spike_burst : Spec.Burst (Spec.Triggers true (getThreshold (.medianRatio 5 2)
      ((smoothCoa (fun k => if k = 1 then 1 / 2 else 1 / 4) 1 spikeScan).map (Row.trig true)) 1)
      (smoothCoa (fun k => if k = 1 then 1 / 2 else 1 / 4) 1 spikeScan)) (2 + 1)
      (smoothCoa (fun k => if k = 1 then 1 / 2 else 1 / 4) 1 spikeScan) 86399 86401
      ⟨86400, 5, 5, 0, 0, 0⟩ where
  mem := by decide +kernel
  lo := by norm_num
  hi := by norm_num
  above := fun r hr h1 h2 => (spike_triggers r hr).mpr ⟨h1, h2⟩
  max := by decide +kernel
  first := by decide +kernel
  after := fun r hr h1 h2 => absurd ((spike_triggers r hr).mp h2).2 (by linarith)
  before := fun r hr h1 h2 => absurd ((spike_triggers r hr).mp h2).1 (by linarith)

/-- No run of `spikeScan` is longer than four seconds. -/
theorem spike_runs : Spec.RunsWithinThr true (getThreshold (.medianRatio 5 2)
      ((smoothCoa (fun k => if k = 1 then 1 / 2 else 1 / 4) 1 spikeScan).map (Row.trig true)) 1) 4
      (smoothCoa (fun k => if k = 1 then 1 / 2 else 1 / 4) 1 spikeScan) := by
  intro x ⟨r, hr, h1⟩ ⟨q, hq, h2⟩
  have hlow : ∀ i < 41, (i = 19 ∨ i = 20 ∨ i = 21) ∨
      ∃ r ∈ smoothCoa (fun k => if k = 1 then 1 / 2 else 1 / 4) 1 spikeScan,
        r.dt = 86380 + (i : ℕ) ∧ ¬ (86399 ≤ r.dt ∧ r.dt ≤ 86401) := by decide +kernel
  have hr0 : ∀ r ∈ smoothCoa (fun k => if k = 1 then 1 / 2 else 1 / 4) 1 spikeScan,
      86380 ≤ r.dt ∧ r.dt ≤ 86420 := by decide +kernel
  have hx1 := (hr0 r hr).1
  have hx2 := (hr0 q hq).2
  obtain ⟨i, hi⟩ : ∃ i : ℕ, ⌈x⌉ = 86380 + i :=
    ⟨(⌈x⌉ - 86380).toNat, by
      have : (86380 : ℤ) ≤ ⌈x⌉ := by
        have : (86380 : ℚ) ≤ ⌈x⌉ := le_trans (by linarith) (Int.le_ceil x)
        exact_mod_cast this
      omega⟩
  have c1 := Int.le_ceil x
  have c2 := Int.ceil_lt_add_one x
  rw [hi] at c1 c2
  push_cast at c1 c2
  have hi2 : i < 37 := by
    have : (i : ℚ) < 37 := by linarith
    exact_mod_cast this
  rcases hlow i (by omega) with h | ⟨y, hy, h3, h4⟩
  · rcases hlow 22 (by norm_num) with h' | ⟨y, hy, h3, h4⟩
    · omega
    · push_cast at h3
      have g1 : (i : ℚ) ≤ 21 := by exact_mod_cast (by omega : i ≤ 21)
      have g2 : (19 : ℚ) ≤ i := by exact_mod_cast (by omega : 19 ≤ i)
      exact ⟨y, hy, by linarith, by linarith, fun h5 => h4 ((spike_triggers y hy).mp h5)⟩
  · exact ⟨y, hy, by linarith, by linarith, fun h5 => h4 ((spike_triggers y hy).mp h5)⟩

/-- All hypotheses of `C110_dynamic_partial` and `C112_dynamic_partial` together: windows of five samples, a
pad of twenty seconds, smoothing over three samples; the run over a midnight reports one event in the burst,
the largest smoothed sample. -/
example : ((trigger ⟨1, 2, true⟩ (.medianRatio 5 2) (smoothCoa (fun k => if k = 1 then 1 / 2 else 1 / 4) 1) none
      (readScan spikeScan 20) 86390 86410).1.flatMap Prod.snd).Pairwise
        (fun x y => x.coaTime + 2 < y.coaTime) ∧
    ∃ x, ((trigger ⟨1, 2, true⟩ (.medianRatio 5 2) (smoothCoa (fun k => if k = 1 then 1 / 2 else 1 / 4) 1) none
      (readScan spikeScan 20) 86390 86410).1.flatMap Prod.snd).filter
        (fun x => decide (86399 ≤ x.coaTime ∧ x.coaTime ≤ 86401)) = [x] ∧ x.coaTime = 86400 := by
  have hm : Spec.WindowSamples (.medianRatio 5 2) 1 5 := ⟨by norm_num, by decide +kernel⟩
  have hrate : ∀ a b sd, readScan spikeScan 20 a b = some sd → sd.delta = 1 ∧ sd.sr = 1 := by
    intro a b sd h
    simp only [readScan, Option.some.injEq] at h
    rw [← h]; exact ⟨rfl, rfl⟩
  constructor
  · exact C110_dynamic_partial ⟨1, 2, true⟩ (by norm_num) (.medianRatio 5 2) 1 5 hm none _ 1 1 (by norm_num)
      spikeScan 86380 1 (by norm_num) spike_regular 4 (by norm_num) spike_runs 20 (by norm_num) 86390 86410
      (by norm_num) ⟨17276, by norm_num⟩ ⟨17280, by norm_num⟩ ⟨17278, by norm_num⟩ ⟨4, by norm_num⟩ _
      (readScan_reads _ _) hrate
  · obtain ⟨x, h1, h2, -⟩ := (C112_dynamic_partial ⟨1, 2, true⟩ (by norm_num) (by norm_num)
      (.medianRatio 5 2) 1 5 hm none _ 1 1 (by norm_num)
      spikeScan 86380 1 (by norm_num) spike_regular 86399 86401 ⟨86400, 5, 5, 0, 0, 0⟩ spike_burst 20
      (by norm_num) 86390 86410 (by norm_num) (by norm_num)
      ⟨17276, by norm_num⟩ ⟨17280, by norm_num⟩ ⟨17278, by norm_num⟩ ⟨4, by norm_num⟩ _
      (readScan_reads _ _) hrate
      (by unfold trigger; rw [if_neg (by norm_num), two_batches]; simp [runBatches, readScan])).1
      (fun r hr => by simp at hr)
    exact ⟨x, h1, h2⟩

end QM

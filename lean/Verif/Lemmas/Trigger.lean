import Verif.Spec.Trigger
import Verif.Lemmas.Lists

namespace QM.Trigger
open QM QM.Spec

theorem mem_thresholded (cfg : Cfg) (data : List Row) (thr : List ℚ) (i : ℕ) (r : Row) :
    (i, r) ∈ thresholded cfg data thr ↔
      data[i]? = some r ∧ ∃ t, thr[i]? = some t ∧ t ≤ r.trig cfg.norm := by
  unfold thresholded
  simp only [List.mem_map, List.mem_filter, Prod.mk.injEq, decide_eq_true_eq, Prod.exists,
    List.mem_zipIdx_iff_getElem?, List.getElem?_zip_eq_some]
  constructor
  · rintro ⟨r', t, i', ⟨⟨h1, h2⟩, h3⟩, rfl, rfl⟩
    exact ⟨h1, t, h2, h3⟩
  · rintro ⟨h1, t, h2, h3⟩
    exact ⟨r, t, i, ⟨⟨h1, h2⟩, h3⟩, rfl, rfl⟩

theorem above_iff (cfg : Cfg) (data : List Row) (thr : List ℚ) (i : ℕ) :
    Above cfg.norm data thr i ↔ ∃ r, (i, r) ∈ thresholded cfg data thr := by
  simp only [mem_thresholded, Above, trigValue, Row.trig]
  constructor
  · rintro ⟨r, t, h1, h2, h3⟩; exact ⟨r, h1, t, h2, h3⟩
  · rintro ⟨r, h1, t, h2, h3⟩; exact ⟨r, t, h1, h2, h3⟩

theorem thresholded_sorted (cfg : Cfg) (data : List Row) (thr : List ℚ) :
    (thresholded cfg data thr).Pairwise (fun a b => a.1 < b.1) := by
  unfold thresholded
  rw [List.pairwise_map]
  apply List.Pairwise.filter
  rw [← List.pairwise_map (f := Prod.snd) (R := (· < ·)), List.zipIdx_map_snd]
  exact List.pairwise_lt_range'

/-- Positions and indices along a strictly increasing list. -/
theorem zipIdx_chain (T : List (ℕ × Row)) (k : ℕ) (h : T.Pairwise (fun a b => a.1 < b.1)) :
    (T.zipIdx k).IsChain (fun a b => b.2 = a.2 + 1 ∧ a.1.1 < b.1.1) := by
  induction T generalizing k with
  | nil => simp
  | cons a T ih =>
    rw [List.pairwise_cons] at h
    cases T with
    | nil => simp
    | cons b T =>
      have := ih (k + 1) h.2
      rw [List.zipIdx_cons, List.zipIdx_cons, List.isChain_cons_cons]
      rw [List.zipIdx_cons] at this
      exact ⟨⟨rfl, h.1 b List.mem_cons_self⟩, this⟩

theorem zipIdx_pairwise (T : List (ℕ × Row)) (k : ℕ) (h : T.Pairwise (fun a b => a.1 < b.1)) :
    (T.zipIdx k).Pairwise (fun a b => a.2 < b.2 ∧ a.1.1 + b.2 ≤ b.1.1 + a.2) := by
  have hc := zipIdx_chain T k h
  have hc' : (T.zipIdx k).IsChain (fun a b => a.2 < b.2 ∧ a.1.1 + b.2 ≤ b.1.1 + a.2) := by
    refine hc.imp ?_
    rintro a b ⟨h1, h2⟩
    omega
  have : IsTrans ((ℕ × Row) × ℕ) (fun a b => a.2 < b.2 ∧ a.1.1 + b.2 ≤ b.1.1 + a.2) :=
    ⟨by intro a b c h1 h2; omega⟩
  exact List.isChain_iff_pairwise.mp hc'

/-- Structure of the groups made at trigger.py:518-519. -/
theorem candidateRuns_spec (cfg : Cfg) (data : List Row) (thr : List ℚ) :
    (candidateRuns cfg data thr).flatten = thresholded cfg data thr ∧
    (∀ g ∈ candidateRuns cfg data thr, g ≠ []) ∧
    (∀ g ∈ candidateRuns cfg data thr, (g.map Prod.fst).IsChain (fun x y => y = x + 1)) ∧
    (candidateRuns cfg data thr).Pairwise (fun g h => ∀ a ∈ g, ∀ b ∈ h, a.1 + 1 < b.1) := by
  have hT := thresholded_sorted cfg data thr
  unfold candidateRuns
  generalize thresholded cfg data thr = T at *
  have hpw := zipIdx_pairwise T 0 hT
  have hch := zipIdx_chain T 0 hT
  have hkey : ((T.zipIdx).map (fun p : (ℕ × Row) × ℕ => (p.1.1 : ℤ) - (p.2 : ℤ))).Pairwise (· ≤ ·) := by
    rw [List.pairwise_map]
    refine hpw.imp ?_
    rintro a b ⟨h1, h2⟩
    omega
  obtain ⟨h1, h2, h3, h4⟩ := pdGroupBy_spec _ _ hkey
  generalize pdGroupBy (fun p : (ℕ × Row) × ℕ => (p.1.1 : ℤ) - (p.2 : ℤ)) T.zipIdx = G at *
  rw [← h1] at hpw hch
  rw [List.pairwise_flatten] at hpw
  rw [List.isChain_flatten (by intro hn; exact h2 _ hn rfl)] at hch
  refine ⟨?_, ?_, ?_, ?_⟩
  · rw [← List.map_flatten, h1, List.zipIdx_map_fst]
  · intro g hg
    obtain ⟨g', hg', rfl⟩ := List.mem_map.mp hg
    simpa using h2 g' hg'
  · intro g hg
    obtain ⟨g', hg', rfl⟩ := List.mem_map.mp hg
    rw [List.map_map, List.isChain_map]
    have := hch.1 g' hg'
    have hk := h3 g' hg'
    refine this.imp_of_mem_imp ?_
    intro a b ha hb h
    have := hk a ha b hb
    simp only [Function.comp]
    omega
  · rw [List.pairwise_map]
    have hb := hpw.2.and h4
    refine hb.imp ?_
    rintro g h ⟨hg1, hg2⟩ a ha b hb
    obtain ⟨a', ha', rfl⟩ := List.mem_map.mp ha
    obtain ⟨b', hb', rfl⟩ := List.mem_map.mp hb
    have := hg1 a' ha' b' hb'
    have := hg2 a' ha' b' hb'
    omega

/-- First and last index of a run. -/
def ivOf (g : List (ℕ × Row)) : ℕ × ℕ :=
  (((g.map Prod.fst).head?).getD 0, ((g.map Prod.fst).getLast?).getD 0)

theorem ivOf_mem {g : List (ℕ × Row)} (hne : g ≠ [])
    (hc : (g.map Prod.fst).IsChain (fun x y => y = x + 1)) (i : ℕ) :
    (∃ r, (i, r) ∈ g) ↔ (ivOf g).1 ≤ i ∧ i ≤ (ivOf g).2 := by
  have : (∃ r, (i, r) ∈ g) ↔ i ∈ g.map Prod.fst := by simp
  rw [this]
  cases g with
  | nil => exact absurd rfl hne
  | cons a g =>
    rw [List.map_cons] at hc ⊢
    rw [consec_mem hc]
    have e1 : (ivOf (a :: g)).1 = a.1 := by simp [ivOf]
    have e2 : (ivOf (a :: g)).2 = (a.1 :: g.map Prod.fst).getLast (by simp) := by
      unfold ivOf
      rw [List.map_cons, List.getLast?_eq_some_getLast (List.cons_ne_nil _ _)]
      rfl
    rw [e1, e2]

theorem ivOf_le {g : List (ℕ × Row)} (hne : g ≠ [])
    (hc : (g.map Prod.fst).IsChain (fun x y => y = x + 1)) : (ivOf g).1 ≤ (ivOf g).2 := by
  cases g with
  | nil => exact absurd rfl hne
  | cons a g =>
    have := (ivOf_mem hne hc a.1).mp ⟨a.2, List.mem_cons_self⟩
    omega

theorem runs_iff (cfg : Cfg) (data : List Row) (thr : List ℚ) (a b : ℕ) :
    (a, b) ∈ (candidateRuns cfg data thr).map ivOf ↔ IsMaxRun (Above cfg.norm data thr) a b := by
  obtain ⟨h1, h2, h3, h4⟩ := candidateRuns_spec cfg data thr
  have hP : ∀ i, Above cfg.norm data thr i ↔ ∃ g ∈ candidateRuns cfg data thr, ∃ r, (i, r) ∈ g := by
    intro i
    rw [above_iff, ← h1]
    simp only [List.mem_flatten]
    constructor
    · rintro ⟨r, g, hg, hr⟩; exact ⟨g, hg, r, hr⟩
    · rintro ⟨g, hg, r, hr⟩; exact ⟨r, g, hg, hr⟩
  have fwd : ∀ g ∈ candidateRuns cfg data thr,
      IsMaxRun (Above cfg.norm data thr) (ivOf g).1 (ivOf g).2 := by
    intro g hg
    have hm := ivOf_mem (h2 g hg) (h3 g hg)
    have hle := ivOf_le (h2 g hg) (h3 g hg)
    obtain ⟨ra, hra⟩ := (hm (ivOf g).1).mpr ⟨le_rfl, hle⟩
    obtain ⟨rb, hrb⟩ := (hm (ivOf g).2).mpr ⟨hle, le_rfl⟩
    refine ⟨hle, ?_, ?_, ?_⟩
    · intro i hi1 hi2
      exact (hP i).mpr ⟨g, hg, (hm i).mpr ⟨hi1, hi2⟩⟩
    · intro j hj hPj
      obtain ⟨h, hh, r, hr⟩ := (hP j).mp hPj
      rcases pairwise_or h4 hg hh with rfl | hgh | hhg
      · have := (hm j).mp ⟨r, hr⟩; omega
      · have := hgh _ hra _ hr; simp only at this; omega
      · have := hhg _ hr _ hra; simp only at this; omega
    · intro hPj
      obtain ⟨h, hh, r, hr⟩ := (hP _).mp hPj
      rcases pairwise_or h4 hg hh with rfl | hgh | hhg
      · have := (hm _).mp ⟨r, hr⟩; omega
      · have := hgh _ hrb _ hr; simp only at this; omega
      · have := hhg _ hr _ hrb; simp only at this; omega
  constructor
  · intro h
    obtain ⟨g, hg, he⟩ := List.mem_map.mp h
    have := fwd g hg
    rw [he] at this
    exact this
  · intro h
    obtain ⟨g, hg, r, hr⟩ := (hP a).mp (h.all a le_rfl h.le)
    have hm := ivOf_mem (h2 g hg) (h3 g hg)
    have hle := ivOf_le (h2 g hg) (h3 g hg)
    have hin := (hm a).mp ⟨r, hr⟩
    have hg' := fwd g hg
    have e1 : (ivOf g).1 = a := by
      by_contra hne
      have hlt : (ivOf g).1 < a := by omega
      have : Above cfg.norm data thr (a - 1) :=
        hg'.all (a - 1) (by omega) (by omega)
      exact h.left (a - 1) (by omega) this
    have e2 : (ivOf g).2 = b := by
      rcases Nat.lt_trichotomy (ivOf g).2 b with hlt | heq | hgt
      · exact absurd (h.all ((ivOf g).2 + 1) (by omega) (by omega)) hg'.right
      · exact heq
      · exact absurd (hg'.all (b + 1) (by have := h.le; omega) (by omega)) h.right
    exact List.mem_map.mpr ⟨g, hg, by rw [← e1, ← e2]⟩

theorem candidateOf_spec (cfg : Cfg) (data : List Row) (thr : List ℚ)
    {g : List (ℕ × Row)} (hg : g ∈ candidateRuns cfg data thr) :
    ∃ c, candidateOf cfg g = some c ∧
      IsCandidateOf cfg.mw cfg.mei cfg.norm data (ivOf g).1 (ivOf g).2 c := by
  obtain ⟨h1, h2, h3, h4⟩ := candidateRuns_spec cfg data thr
  have hne := h2 g hg
  have hc := h3 g hg
  have hm := ivOf_mem hne hc
  have hdata : ∀ i r, (i, r) ∈ g → data[i]? = some r := by
    intro i r hr
    have : (i, r) ∈ thresholded cfg data thr := by
      rw [← h1]; exact List.mem_flatten.mpr ⟨g, hg, hr⟩
    exact ((mem_thresholded _ _ _ _ _).mp this).1
  obtain ⟨⟨p, peak⟩, hpk⟩ := firstMaxBy_isSome (fun p : ℕ × Row => p.2.coa) hne
  obtain ⟨pre, post, hsplit, hpre, hpost⟩ := firstMaxBy_spec hpk
  obtain ⟨⟨fi, fr⟩, hf⟩ : ∃ x, g.head? = some x := by
    cases g with
    | nil => exact absurd rfl hne
    | cons a g => exact ⟨a, rfl⟩
  obtain ⟨⟨li, lr⟩, hl⟩ : ∃ x, g.getLast? = some x := by
    rw [← Option.ne_none_iff_exists']; simpa using hne
  have hfi : (ivOf g).1 = fi := by simp [ivOf, List.head?_map, hf]
  have hli : (ivOf g).2 = li := by simp [ivOf, List.getLast?_map, hl]
  have hfm : (fi, fr) ∈ g := List.mem_of_head? hf
  have hlm : (li, lr) ∈ g := List.mem_of_getLast? hl
  have hpm : (p, peak) ∈ g := by rw [hsplit]; simp
  have hsorted : (g.map Prod.fst).Pairwise (· < ·) := by
    have hc' : (g.map Prod.fst).IsChain (· < ·) := hc.imp (by intro a b h; omega)
    exact List.isChain_iff_pairwise.mp hc'
  have hpin := (hm p).mp ⟨peak, hpm⟩
  refine ⟨_, by unfold candidateOf; rw [hpk, hf, hl], p, peak, fr, lr, ?_, ?_, ?_, rfl, rfl, rfl,
    rfl, rfl, rfl, rfl, ?_, ?_, ?_, ?_⟩
  · refine ⟨hpin.1, hpin.2, hdata _ _ hpm, ?_, ?_⟩
    · intro i r hi1 hi2 hir
      obtain ⟨r', hr'⟩ := (hm i).mpr ⟨hi1, hi2⟩
      have := hdata i r' hr'
      rw [hir] at this
      obtain rfl : r = r' := by simpa using this
      rw [hsplit] at hr'
      simp only [List.mem_append, List.mem_cons] at hr'
      rcases hr' with hr' | hr' | hr'
      · exact le_of_lt (hpre _ hr')
      · rw [Prod.mk.injEq] at hr'; rw [hr'.2]
      · exact hpost _ hr'
    · intro i r hi1 hi2 hir
      obtain ⟨r', hr'⟩ := (hm i).mpr ⟨hi1, by omega⟩
      have := hdata i r' hr'
      rw [hir] at this
      obtain rfl : r = r' := by simpa using this
      rw [hsplit] at hr' hsorted
      simp only [List.mem_append, List.mem_cons] at hr'
      rcases hr' with hr' | hr' | hr'
      · exact hpre _ hr'
      · rw [Prod.mk.injEq] at hr'; omega
      · rw [List.map_append, List.map_cons, List.pairwise_append, List.pairwise_cons] at hsorted
        have := hsorted.2.1.1 i (List.mem_map.mpr ⟨_, hr', rfl⟩)
        simp only at this
        omega
  · rw [hfi]; exact hdata _ _ hfm
  · rw [hli]; exact hdata _ _ hlm
  · intro h; simp [h]
  · intro h; simp [not_lt.mpr h]
  · intro h; simp [h]
  · intro h; simp [not_lt.mpr h]

theorem runs_ordered (cfg : Cfg) (data : List Row) (thr : List ℚ) :
    ((candidateRuns cfg data thr).map ivOf).Pairwise (fun u v => u.2 + 1 < v.1) := by
  obtain ⟨h1, h2, h3, h4⟩ := candidateRuns_spec cfg data thr
  rw [List.pairwise_map]
  refine h4.imp_of_mem ?_
  intro g h hg hh hgh
  obtain ⟨r1, hr1⟩ := (ivOf_mem (h2 g hg) (h3 g hg) (ivOf g).2).mpr ⟨ivOf_le (h2 g hg) (h3 g hg), le_rfl⟩
  obtain ⟨r2, hr2⟩ := (ivOf_mem (h2 h hh) (h3 h hh) (ivOf h).1).mpr ⟨le_rfl, ivOf_le (h2 h hh) (h3 h hh)⟩
  exact hgh _ hr1 _ hr2

theorem identify_forall₂ (cfg : Cfg) (data : List Row) (thr : List ℚ) :
    List.Forall₂ (fun c (iv : ℕ × ℕ) => IsCandidateOf cfg.mw cfg.mei cfg.norm data iv.1 iv.2 c)
      (identifyCandidates cfg data thr) ((candidateRuns cfg data thr).map ivOf) := by
  have h := filterMap_forall₂ (candidateOf cfg) (candidateRuns cfg data thr)
    (fun g hg => ⟨_, (candidateOf_spec cfg data thr hg).choose_spec.1⟩)
  unfold identifyCandidates
  rw [List.forall₂_map_right_iff]
  have hmem : ∀ g ∈ candidateRuns cfg data thr, g ∈ candidateRuns cfg data thr := fun _ h => h
  revert h
  generalize hL : List.filterMap (candidateOf cfg) (candidateRuns cfg data thr) = cs
  clear hL
  suffices H : ∀ (gs : List (List (ℕ × Row))) cs, (∀ g ∈ gs, g ∈ candidateRuns cfg data thr) →
      List.Forall₂ (fun b a => candidateOf cfg a = some b) cs gs →
      List.Forall₂ (fun c g => IsCandidateOf cfg.mw cfg.mei cfg.norm data (ivOf g).1 (ivOf g).2 c) cs gs by
    exact H _ _ hmem
  intro gs cs hgs h
  induction h with
  | nil => exact .nil
  | cons hab _ ih =>
    refine .cons ?_ (ih (fun g hg => hgs g (List.mem_cons_of_mem _ hg)))
    obtain ⟨c, hc, hspec⟩ := candidateOf_spec cfg data thr (hgs _ List.mem_cons_self)
    rw [hab] at hc
    obtain rfl := Option.some.inj hc
    exact hspec

/-! ## Refinement -/

theorem separated_iff (cfg : Cfg) (c d : Cand) : separated cfg c d = true ↔ Apart cfg.mw c d := by
  simp [separated, Apart]

theorem eventNums_snd (cfg : Cfg) (n : ℤ) (cs : List Cand) :
    (eventNums cfg n cs).map Prod.snd = cs := by
  induction cs generalizing n with
  | nil => rfl
  | cons c cs ih =>
    cases cs with
    | nil => rfl
    | cons d cs => rw [eventNums, List.map_cons, ih]

theorem eventNums_head (cfg : Cfg) (n : ℤ) (c : Cand) (cs : List Cand) :
    ∃ l, eventNums cfg n (c :: cs) = (n, c) :: l := by
  cases cs with
  | nil => exact ⟨_, rfl⟩
  | cons d cs => exact ⟨_, rfl⟩

theorem eventNums_chain (cfg : Cfg) (n : ℤ) (cs : List Cand) :
    (eventNums cfg n cs).IsChain
      (fun a b => b.1 = if separated cfg a.2 b.2 then a.1 + 1 else a.1) := by
  induction cs generalizing n with
  | nil => simp [eventNums]
  | cons c cs ih =>
    cases cs with
    | nil => simp [eventNums]
    | cons d cs =>
      rw [eventNums]
      have := ih (if separated cfg c d then n + 1 else n)
      obtain ⟨l, hl⟩ := eventNums_head cfg (if separated cfg c d then n + 1 else n) d cs
      rw [hl] at this ⊢
      rw [List.isChain_cons_cons]
      exact ⟨rfl, this⟩

theorem mergedGroups_spec (cfg : Cfg) (cs : List Cand) :
    (mergedGroups cfg cs).flatten = cs ∧ (∀ g ∈ mergedGroups cfg cs, g ≠ []) ∧
    (∀ g ∈ mergedGroups cfg cs, g.IsChain (fun c d => ¬ Apart cfg.mw c d)) ∧
    (mergedGroups cfg cs).IsChain
      (fun g h => ∀ c ∈ g.getLast?, ∀ d ∈ h.head?, Apart cfg.mw c d) := by
  have hch := eventNums_chain cfg 1 cs
  have hsnd := eventNums_snd cfg 1 cs
  unfold mergedGroups
  generalize eventNums cfg 1 cs = E at *
  have hkey : (E.map (fun p : ℤ × Cand => p.1)).Pairwise (· ≤ ·) := by
    rw [← List.isChain_iff_pairwise, List.isChain_map]
    refine hch.imp ?_
    intro a b h
    rw [h]; split <;> omega
  obtain ⟨h1, h2, h3, h4⟩ := pdGroupBy_spec _ _ hkey
  generalize pdGroupBy (fun p : ℤ × Cand => p.1) E = G at *
  rw [← h1, List.isChain_flatten (by intro hn; exact h2 _ hn rfl)] at hch
  refine ⟨?_, ?_, ?_, ?_⟩
  · rw [← List.map_flatten, h1, hsnd]
  · intro g hg
    obtain ⟨g', hg', rfl⟩ := List.mem_map.mp hg
    simpa using h2 g' hg'
  · intro g hg
    obtain ⟨g', hg', rfl⟩ := List.mem_map.mp hg
    rw [List.isChain_map]
    refine (hch.1 g' hg').imp_of_mem_imp ?_
    intro a b ha hb hab hap
    have hk := h3 g' hg' a ha b hb
    rw [(separated_iff cfg a.2 b.2).mpr hap, if_pos rfl] at hab
    omega
  · rw [List.isChain_map]
    have h4' := List.Pairwise.isChain h4
    have hch2 := hch.2
    have hboth := isChain_and hch2 h4'
    refine hboth.imp ?_
    rintro g h ⟨hgh, hlt⟩ c hc d hd
    rw [List.getLast?_map] at hc
    rw [List.head?_map] at hd
    simp only [Option.mem_def, Option.map_eq_some_iff] at hc hd
    obtain ⟨a, ha, rfl⟩ := hc
    obtain ⟨b, hb, rfl⟩ := hd
    have hab := hgh a ha b hb
    have := hlt a (List.mem_of_getLast? ha) b (List.mem_of_head? hb)
    rw [← separated_iff]
    by_contra hns
    rw [if_neg hns] at hab
    omega

theorem minOf_spec {l : List ℚ} (h : l ≠ []) :
    ∃ m, minOf l = some m ∧ m ∈ l ∧ ∀ x ∈ l, m ≤ x := by
  cases l with
  | nil => exact absurd rfl h
  | cons a l =>
    refine ⟨_, rfl, ?_⟩
    clear h
    induction l using List.reverseRecOn with
    | nil => simp
    | append_singleton l x ih =>
      rw [List.foldl_append]
      simp only [List.foldl_cons, List.foldl_nil]
      generalize l.foldl min a = m at *
      obtain ⟨h1, h2⟩ := ih
      constructor
      · rcases min_choice m x with h | h <;> rw [h]
        · simp only [List.mem_cons, List.mem_append] at h1 ⊢; tauto
        · simp
      · intro y hy
        simp only [List.mem_cons, List.mem_append, List.not_mem_nil, or_false] at hy h2
        rcases hy with rfl | hy | rfl
        · exact (min_le_left _ _).trans (h2 _ (Or.inl rfl))
        · exact (min_le_left _ _).trans (h2 _ (Or.inr hy))
        · exact min_le_right _ _

theorem maxOf_spec {l : List ℚ} (h : l ≠ []) :
    ∃ m, maxOf l = some m ∧ m ∈ l ∧ ∀ x ∈ l, x ≤ m := by
  cases l with
  | nil => exact absurd rfl h
  | cons a l =>
    refine ⟨_, rfl, ?_⟩
    clear h
    induction l using List.reverseRecOn with
    | nil => simp
    | append_singleton l x ih =>
      rw [List.foldl_append]
      simp only [List.foldl_cons, List.foldl_nil]
      generalize l.foldl max a = m at *
      obtain ⟨h1, h2⟩ := ih
      constructor
      · rcases max_choice m x with h | h <;> rw [h]
        · simp only [List.mem_cons, List.mem_append] at h1 ⊢; tauto
        · simp
      · intro y hy
        simp only [List.mem_cons, List.mem_append, List.not_mem_nil, or_false] at hy h2
        rcases hy with rfl | hy | rfl
        · exact (h2 _ (Or.inl rfl)).trans (le_max_left _ _)
        · exact (h2 _ (Or.inr hy)).trans (le_max_left _ _)
        · exact le_max_right _ _

theorem mergeGroup_spec {g : List Cand} (h : g ≠ []) :
    ∃ e, mergeGroup g = some e ∧ IsEventOf g e := by
  obtain ⟨b, hb⟩ := firstMaxBy_isSome Cand.trigCoa h
  obtain ⟨mn, hmn, hmn1, hmn2⟩ := minOf_spec (l := g.map Cand.minTime) (by simpa using h)
  obtain ⟨mx, hmx, hmx1, hmx2⟩ := maxOf_spec (l := g.map Cand.maxTime) (by simpa using h)
  obtain ⟨pre, post, hs, h1, h2⟩ := firstMaxBy_spec hb
  refine ⟨{ b with minTime := mn, maxTime := mx }, by unfold mergeGroup; rw [hb, hmn, hmx],
    pre, b, post, hs, h1, h2, rfl, rfl, rfl, rfl, rfl, rfl, rfl, ?_, ?_, ?_, ?_⟩
  · obtain ⟨c, hc, he⟩ := List.mem_map.mp hmn1; exact ⟨c, hc, he.symm⟩
  · intro c hc; exact hmn2 _ (List.mem_map_of_mem hc)
  · obtain ⟨c, hc, he⟩ := List.mem_map.mp hmx1; exact ⟨c, hc, he.symm⟩
  · intro c hc; exact hmx2 _ (List.mem_map_of_mem hc)

theorem refine_forall₂ (cfg : Cfg) (cs : List Cand) :
    List.Forall₂ (fun e g => IsEventOf g e) (refineCandidates cfg cs) (mergedGroups cfg cs) := by
  obtain ⟨-, h2, -, -⟩ := mergedGroups_spec cfg cs
  unfold refineCandidates
  generalize mergedGroups cfg cs = G at *
  induction G with
  | nil => simp
  | cons g G ih =>
    obtain ⟨e, he, hs⟩ := mergeGroup_spec (h2 g List.mem_cons_self)
    rw [List.filterMap_cons_some he]
    exact .cons hs (ih (fun g hg => h2 g (List.mem_cons_of_mem _ hg)))

/-- Candidates come in increasing time order and each window ends at least
`mei` after its peak. -/
theorem identify_sorted (cfg : Cfg) (data : List Row) (thr : List ℚ)
    (hdt : data.Pairwise (fun r s => r.dt < s.dt)) :
    (∀ c ∈ identifyCandidates cfg data thr, c.coaTime + cfg.mei ≤ c.maxTime) ∧
    (identifyCandidates cfg data thr).Pairwise (fun c d => c.coaTime < d.coaTime) := by
  have h2 := identify_forall₂ cfg data thr
  have ho := runs_ordered cfg data thr
  generalize (candidateRuns cfg data thr).map ivOf = ivs at *
  generalize identifyCandidates cfg data thr = cs at *
  have hmono : ∀ (i j : ℕ) (r s : Row), i < j → data[i]? = some r → data[j]? = some s → r.dt < s.dt := by
    intro i j r s hij hi hj
    rw [List.pairwise_iff_getElem] at hdt
    obtain ⟨hi', hi⟩ := List.getElem?_eq_some_iff.mp hi
    obtain ⟨hj', hj⟩ := List.getElem?_eq_some_iff.mp hj
    have := hdt i j hi' hj' hij
    rwa [hi, hj] at this
  induction h2 with
  | nil => simp
  | @cons c iv cs ivs hc hrest ih =>
    rw [List.pairwise_cons] at ho
    obtain ⟨ih1, ih2⟩ := ih ho.2
    constructor
    · intro d hd
      rcases List.mem_cons.mp hd with rfl | hd
      · obtain ⟨p, peak, first, last, hp, ha, hb, hct, -, -, -, -, -, -, -, -, hM1, hM2⟩ := hc
        rw [hct]
        rcases lt_or_ge (last.dt - peak.dt) cfg.mw with h | h
        · rw [hM1 h]
        · rw [hM2 h]; linarith
      · exact ih1 d hd
    · rw [List.pairwise_cons]
      refine ⟨?_, ih2⟩
      intro d hd
      obtain ⟨iv', hiv', hd'⟩ : ∃ iv' ∈ ivs, IsCandidateOf cfg.mw cfg.mei cfg.norm data iv'.1 iv'.2 d := by
        clear ih ih1 ih2 ho
        induction hrest with
        | nil => simp at hd
        | cons hx _ ihx =>
          rcases List.mem_cons.mp hd with rfl | hd
          · exact ⟨_, List.mem_cons_self, hx⟩
          · obtain ⟨v, hv, hv'⟩ := ihx hd
            exact ⟨v, List.mem_cons_of_mem _ hv, hv'⟩
      have hlt := ho.1 iv' hiv'
      obtain ⟨p, peak, _, _, hp, _, _, hct, _⟩ := hc
      obtain ⟨q, peak', _, _, hq, _, _, hct', _⟩ := hd'
      rw [hct, hct']
      refine hmono p q peak peak' ?_ hp.at_p hq.at_p
      have := hp.hi
      have := hq.lo
      omega

theorem refine_separated (cfg : Cfg) (cs : List Cand)
    (hmax : ∀ c ∈ cs, c.coaTime + cfg.mei ≤ c.maxTime)
    (hsorted : cs.Pairwise (fun c d => c.coaTime < d.coaTime)) :
    (refineCandidates cfg cs).Pairwise (fun e f => e.coaTime + cfg.mei + cfg.mw < f.coaTime) := by
  obtain ⟨h1, h2, -, h4⟩ := mergedGroups_spec cfg cs
  have h5 := refine_forall₂ cfg cs
  generalize mergedGroups cfg cs = G at *
  generalize refineCandidates cfg cs = es at *
  subst h1
  induction h5 with
  | nil => simp
  | @cons e g es G he hrest ih =>
    rw [List.flatten_cons] at hmax hsorted
    rw [List.pairwise_append] at hsorted
    have h4' : G.IsChain (fun g h => ∀ c ∈ g.getLast?, ∀ d ∈ h.head?, Apart cfg.mw c d) := by
      cases G with
      | nil => simp
      | cons h G => rw [List.isChain_cons_cons] at h4; exact h4.2
    have ih' := ih (fun g hg => h2 g (List.mem_cons_of_mem _ hg)) h4'
      (fun c hc => hmax c (List.mem_append_right _ hc)) hsorted.2.1
    rw [List.pairwise_cons]
    refine ⟨?_, ih'⟩
    -- the first event precedes every later candidate by more than mei + mw
    have key : ∀ d ∈ G.flatten, e.coaTime + cfg.mei + cfg.mw < d.coaTime := by
      intro d hd
      cases G with
      | nil => simp at hd
      | cons h G =>
        rw [List.isChain_cons_cons] at h4
        have hg0 := h2 g List.mem_cons_self
        have hh0 := h2 h (List.mem_cons_of_mem _ List.mem_cons_self)
        obtain ⟨c, hc⟩ : ∃ c, g.getLast? = some c := by
          rw [← Option.ne_none_iff_exists']; simpa using hg0
        obtain ⟨d0, t, rfl⟩ : ∃ d0 t, h = d0 :: t := by
          cases h with
          | nil => exact absurd rfl hh0
          | cons d0 t => exact ⟨d0, t, rfl⟩
        have hap := h4.1 c hc d0 rfl
        obtain ⟨pre, best, post, hs, -, -, hct, -⟩ := he
        have hbest : best.coaTime ≤ c.coaTime := by
          rw [hs] at hc hsorted
          rw [List.getLast?_append_cons] at hc
          have hp := hsorted.1
          rw [List.pairwise_append, List.pairwise_cons] at hp
          have hcm := List.mem_of_getLast? hc
          rcases List.mem_cons.mp hcm with rfl | hcm
          · exact le_rfl
          · exact le_of_lt (hp.2.1.1 c hcm)
        have hM := hmax c (List.mem_append_left _ (List.mem_of_getLast? hc))
        have hd0 : d0.coaTime ≤ d.coaTime := by
          rw [List.flatten_cons, List.cons_append, List.mem_cons] at hd
          rcases hd with rfl | hd
          · exact le_rfl
          · have hp := hsorted.2.1
            rw [List.flatten_cons, List.cons_append, List.pairwise_cons] at hp
            exact le_of_lt (hp.1 d hd)
        have := hap.1
        linarith
    intro f hf
    obtain ⟨g', hg', hf'⟩ : ∃ g' ∈ G, IsEventOf g' f := by
      clear ih ih' h2 h4 h4' hmax hsorted key
      induction hrest with
      | nil => simp at hf
      | cons hx _ ihx =>
        rcases List.mem_cons.mp hf with rfl | hf
        · exact ⟨_, List.mem_cons_self, hx⟩
        · obtain ⟨v, hv, hv'⟩ := ihx hf
          exact ⟨v, List.mem_cons_of_mem _ hv, hv'⟩
    obtain ⟨pre, best, post, hs, -, -, hct, -⟩ := hf'
    rw [hct]
    exact key best (List.mem_flatten.mpr ⟨g', hg', by rw [hs]; simp⟩)

end QM.Trigger

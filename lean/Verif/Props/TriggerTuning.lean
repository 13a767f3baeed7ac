import Verif.Lemmas.Trigger
import Verif.Lemmas.TriggerBatches
import Verif.Lemmas.Locate
import Verif.Props.TriggerEvents

/-!
# C137, C138: what changing the settings of the trigger does to the events reported
-/

namespace QM

open Trigger Spec

/-- What is reported of an event besides its search window. -/
def Spec.reported (e : Cand) : ℚ × ℚ × ℚ × ℚ × ℚ × ℚ × ℚ :=
  (e.coaTime, e.trigCoa, e.x, e.y, e.z, e.coa, e.coaN)

/-! ### Cutting a list between neighbours -/

/-- Cut `l` between neighbours `a`, `b` with `sep a b`. -/
private def cut {α : Type} (sep : α → α → Bool) : List α → List (List α)
  | [] => []
  | [a] => [[a]]
  | a :: b :: l =>
    if sep a b then [a] :: cut sep (b :: l)
    else match cut sep (b :: l) with
      | [] => [[a]]
      | g :: gs => (a :: g) :: gs

private theorem cut_cons {α : Type} (sep : α → α → Bool) (a : α) (l : List α) :
    ∃ g gs, cut sep (a :: l) = (a :: g) :: gs := by
  cases l with
  | nil => exact ⟨[], [], rfl⟩
  | cons b l =>
    rw [cut]
    split_ifs
    · exact ⟨_, _, rfl⟩
    · cases cut sep (b :: l) with
      | nil => exact ⟨_, _, rfl⟩
      | cons g gs => exact ⟨_, _, rfl⟩

private theorem cut_spec {α : Type} (sep : α → α → Bool) (l : List α) :
    (cut sep l).flatten = l ∧ (∀ g ∈ cut sep l, g ≠ []) ∧
    (∀ g ∈ cut sep l, g.IsChain (fun c d => ¬ sep c d = true)) ∧
    (cut sep l).IsChain (fun g h => ∀ c ∈ g.getLast?, ∀ d ∈ h.head?, sep c d = true) := by
  induction l with
  | nil => simp [cut]
  | cons a l ih =>
    cases l with
    | nil => simp [cut]
    | cons b l =>
      obtain ⟨h1, h2, h3, h4⟩ := ih
      obtain ⟨g, gs, hg⟩ := cut_cons sep b l
      rw [cut]
      rw [hg] at h1 h2 h3 h4 ⊢
      split_ifs with hs
      · refine ⟨by simp only [List.flatten_cons, h1, List.singleton_append] at *, ?_, ?_, ?_⟩
        · intro x hx
          rcases List.mem_cons.1 hx with rfl | hx
          · simp
          · exact h2 x hx
        · intro x hx
          rcases List.mem_cons.1 hx with rfl | hx
          · simp
          · exact h3 x hx
        · rw [List.isChain_cons_cons]
          exact ⟨by simpa using hs, h4⟩
      · refine ⟨by simp only [List.flatten_cons, List.cons_append] at h1 ⊢; rw [h1], ?_, ?_, ?_⟩
        · intro x hx
          rcases List.mem_cons.1 hx with rfl | hx
          · simp
          · exact h2 x (List.mem_cons_of_mem _ hx)
        · intro x hx
          rcases List.mem_cons.1 hx with rfl | hx
          · rw [List.isChain_cons_cons]
            exact ⟨hs, h3 _ List.mem_cons_self⟩
          · exact h3 x (List.mem_cons_of_mem _ hx)
        · cases gs with
          | nil => simp
          | cons g' gs =>
            rw [List.isChain_cons_cons] at h4 ⊢
            refine ⟨?_, h4.2⟩
            simpa [List.getLast?_cons_cons] using h4.1

private theorem cut_map {α β : Type} (sep : β → β → Bool) (f : α → β) (l : List α) :
    cut sep (l.map f) = (cut (fun a b => sep (f a) (f b)) l).map (List.map f) := by
  induction l with
  | nil => rfl
  | cons a l ih =>
    cases l with
    | nil => rfl
    | cons b l =>
      simp only [List.map_cons] at ih ⊢
      rw [cut, cut, ih]
      split_ifs
      · rfl
      · cases cut (fun a b => sep (f a) (f b)) (b :: l) <;> rfl

/-- Cutting at fewer places gives blocks of consecutive pieces. -/
private theorem cut_coarser {α : Type} (sep sep' : α → α → Bool) (l : List α)
    (h : ∀ a ∈ l, ∀ b ∈ l, sep' a b = true → sep a b = true) :
    ∃ L : List (List (List α)), cut sep l = L.flatten ∧ cut sep' l = L.map List.flatten ∧
      ∀ B ∈ L, B ≠ [] := by
  induction l with
  | nil => exact ⟨[], rfl, rfl, by simp⟩
  | cons a l ih =>
    cases l with
    | nil => exact ⟨[[[a]]], rfl, rfl, by simp⟩
    | cons b l =>
      obtain ⟨L, h1, h2, h3⟩ := ih fun x hx y hy =>
        h x (List.mem_cons_of_mem _ hx) y (List.mem_cons_of_mem _ hy)
      obtain ⟨g, gs, hg⟩ := cut_cons sep b l
      obtain ⟨g', gs', hg'⟩ := cut_cons sep' b l
      cases L with
      | nil => rw [hg] at h1; cases h1
      | cons B L =>
        cases B with
        | nil => exact absurd rfl (h3 [] List.mem_cons_self)
        | cons x B =>
          have hx : x = b :: g := by
            rw [hg] at h1
            simp only [List.flatten_cons, List.cons_append, List.cons.injEq] at h1
            exact h1.1.symm
          by_cases hs' : sep' a b = true
          · have hs := h a List.mem_cons_self b (List.mem_cons_of_mem _ List.mem_cons_self) hs'
            refine ⟨[[a]] :: (x :: B) :: L, ?_, ?_, ?_⟩
            · rw [cut, if_pos hs, h1]; rfl
            · rw [cut, if_pos hs', h2]; rfl
            · intro y hy
              rcases List.mem_cons.1 hy with rfl | hy
              · simp
              · exact h3 y hy
          · by_cases hs : sep a b = true
            · refine ⟨([a] :: x :: B) :: L, ?_, ?_, ?_⟩
              · rw [cut, if_pos hs, h1]; rfl
              · rw [cut, if_neg hs', h2]; rfl
              · intro y hy
                rcases List.mem_cons.1 hy with rfl | hy
                · simp
                · exact h3 y (List.mem_cons_of_mem _ hy)
            · refine ⟨((a :: x) :: B) :: L, ?_, ?_, ?_⟩
              · rw [cut, if_neg hs, h1]; rfl
              · rw [cut, if_neg hs', h2]; rfl
              · intro y hy
                rcases List.mem_cons.1 hy with rfl | hy
                · simp
                · exact h3 y (List.mem_cons_of_mem _ hy)

/-! ### The first largest element -/

private theorem firstMaxBy_append {α : Type} (key : α → ℚ) (g h : List α) (hg : g ≠ []) :
    firstMaxBy key (g ++ h) = firstMaxBy key g ∨ firstMaxBy key (g ++ h) = firstMaxBy key h := by
  by_cases hh : h = []
  · left; rw [hh, List.append_nil]
  obtain ⟨m, hm⟩ := firstMaxBy_isSome key hg
  obtain ⟨n, hn⟩ := firstMaxBy_isSome key hh
  obtain ⟨p1, q1, e1, f1, f2⟩ := firstMaxBy_spec hm
  obtain ⟨p2, q2, e2, k1, k2⟩ := firstMaxBy_spec hn
  by_cases hlt : key m < key n
  · right
    rw [hn, e2, ← List.append_assoc]
    apply firstMaxBy_of_split
    · intro x hx
      rcases List.mem_append.1 hx with hx | hx
      · rw [e1] at hx
        rcases List.mem_append.1 hx with hx | hx
        · exact (f1 x hx).trans hlt
        · rcases List.mem_cons.1 hx with rfl | hx
          · exact hlt
          · exact lt_of_le_of_lt (f2 x hx) hlt
      · exact k1 x hx
    · exact k2
  · left
    rw [hm, e1, List.append_assoc, List.cons_append]
    apply firstMaxBy_of_split
    · exact f1
    · intro x hx
      rcases List.mem_append.1 hx with hx | hx
      · exact f2 x hx
      · rw [e2] at hx
        push Not at hlt
        rcases List.mem_append.1 hx with hx | hx
        · exact ((k1 x hx).le).trans hlt
        · rcases List.mem_cons.1 hx with rfl | hx
          · exact hlt
          · exact (k2 x hx).trans hlt

private theorem firstMaxBy_map {α β : Type} (key : β → ℚ) (f : α → β) (l : List α) :
    firstMaxBy key (l.map f) = (firstMaxBy (fun a => key (f a)) l).map f := by
  cases l with
  | nil => rfl
  | cons a l =>
    simp only [List.map_cons, firstMaxBy, Option.map_some, Option.some.injEq, List.foldl_map]
    induction l generalizing a with
    | nil => rfl
    | cons b l ih =>
      simp only [List.foldl_cons]
      rw [← apply_ite f]
      exact ih _

private theorem block_best {α : Type} (key : α → ℚ) (B : List (List α)) (hB : B ≠ [])
    (hne : ∀ g ∈ B, g ≠ []) :
    ∃ m, firstMaxBy key B.flatten = some m ∧ List.Sublist [m] (B.filterMap (firstMaxBy key)) := by
  induction B with
  | nil => exact absurd rfl hB
  | cons g B ih =>
    have hg := hne g List.mem_cons_self
    obtain ⟨m, hm⟩ := firstMaxBy_isSome key hg
    by_cases hB' : B = []
    · subst hB'
      exact ⟨m, by simpa using hm, by simp [hm]⟩
    · obtain ⟨n, hn, hs⟩ := ih hB' fun x hx => hne x (List.mem_cons_of_mem _ hx)
      rw [List.flatten_cons, List.filterMap_cons_some hm]
      rcases firstMaxBy_append key g B.flatten hg with h | h
      · exact ⟨m, h.trans hm, by simp⟩
      · exact ⟨n, h.trans hn, hs.cons _⟩

private theorem best_sublist {α : Type} (key : α → ℚ) (L : List (List (List α))) (hL : ∀ B ∈ L, B ≠ [])
    (hne : ∀ B ∈ L, ∀ g ∈ B, g ≠ []) :
    List.Sublist ((L.map List.flatten).filterMap (firstMaxBy key)) (L.flatten.filterMap (firstMaxBy key)) := by
  induction L with
  | nil => simp
  | cons B L ih =>
    obtain ⟨m, h1, h2⟩ := block_best key B (hL B List.mem_cons_self) (hne B List.mem_cons_self)
    rw [List.map_cons, List.filterMap_cons_some h1, List.flatten_cons, List.filterMap_append]
    exact List.Sublist.append (l₁ := [m]) h2
      (ih (fun x hx => hL x (List.mem_cons_of_mem _ hx)) fun x hx => hne x (List.mem_cons_of_mem _ hx))

/-! ### The events of two settings -/

private theorem merged_eq_cut (cfg : Cfg) (cs : List Cand) : mergedGroups cfg cs = cut (separated cfg) cs := by
  obtain ⟨h1, h2, h3, h4⟩ := mergedGroups_spec cfg cs
  obtain ⟨k1, k2, k3, k4⟩ := cut_spec (separated cfg) cs
  exact groups_unique (fun c d => Apart cfg.mw c d) _ _ (h1.trans k1.symm) h2 k2 h3
    (fun g hg => by simpa only [separated_iff] using k3 g hg) h4
    (by simpa only [separated_iff] using k4)

/-- The candidate of a run, for runs that are not empty. -/
private def candOf (cfg : Cfg) (run : List (ℕ × Row)) : Cand :=
  (candidateOf cfg run).getD ⟨0, 0, 0, 0, 0, 0, 0, 0, 0⟩

private theorem candidateOf_eq {cfg : Cfg} {run : List (ℕ × Row)} (h : run ≠ []) :
    candidateOf cfg run = some (candOf cfg run) := by
  obtain ⟨m, hm⟩ := firstMaxBy_isSome (fun p : ℕ × Row => p.2.coa) h
  unfold candOf candidateOf
  rw [hm, List.head?_eq_some_head h, List.getLast?_eq_some_getLast h]
  rfl

private theorem identify_eq (cfg : Cfg) (data : List Row) (thr : List ℚ) :
    identifyCandidates cfg data thr = (candidateRuns cfg data thr).map (candOf cfg) := by
  unfold identifyCandidates
  rw [← List.filterMap_eq_map]
  apply List.filterMap_congr
  intro run hr
  exact candidateOf_eq ((candidateRuns_spec cfg data thr).2.1 run hr)

private theorem refine_reported (cfg : Cfg) (runs : List (List (ℕ × Row))) :
    (refineCandidates cfg (runs.map (candOf cfg))).map Spec.reported
      = ((cut (fun a b => separated cfg (candOf cfg a) (candOf cfg b)) runs).filterMap
          (firstMaxBy fun r => (candOf cfg r).trigCoa)).map fun r => Spec.reported (candOf cfg r) := by
  unfold refineCandidates
  rw [merged_eq_cut, cut_map, List.filterMap_map]
  have hne := (cut_spec (fun a b => separated cfg (candOf cfg a) (candOf cfg b)) runs).2.1
  generalize cut (fun a b => separated cfg (candOf cfg a) (candOf cfg b)) runs = G at hne
  induction G with
  | nil => rfl
  | cons g G ih =>
    have hg := hne g List.mem_cons_self
    obtain ⟨r, hr⟩ := firstMaxBy_isSome (fun r => (candOf cfg r).trigCoa) hg
    obtain ⟨mn, hmn⟩ : ∃ mn, minOf ((g.map (candOf cfg)).map Cand.minTime) = some mn := by
      cases g with
      | nil => exact absurd rfl hg
      | cons a g => exact ⟨_, rfl⟩
    obtain ⟨mx, hmx⟩ : ∃ mx, maxOf ((g.map (candOf cfg)).map Cand.maxTime) = some mx := by
      cases g with
      | nil => exact absurd rfl hg
      | cons a g => exact ⟨_, rfl⟩
    have hm : (mergeGroup ∘ List.map (candOf cfg)) g
        = some { candOf cfg r with minTime := mn, maxTime := mx } := by
      simp only [Function.comp_apply, mergeGroup, firstMaxBy_map, hr, Option.map_some, hmn, hmx]
    rw [List.filterMap_cons_some hm, List.filterMap_cons_some hr, List.map_cons, List.map_cons,
      ih fun x hx => hne x (List.mem_cons_of_mem _ hx)]
    rfl

private theorem candOf_same (cfg cfg' : Cfg) (hn : cfg.norm = cfg'.norm) (run : List (ℕ × Row)) :
    Spec.reported (candOf cfg run) = Spec.reported (candOf cfg' run) := by
  by_cases h : run = []
  · subst h; rfl
  obtain ⟨m, hm⟩ := firstMaxBy_isSome (fun p : ℕ × Row => p.2.coa) h
  unfold candOf candidateOf
  rw [hm, List.head?_eq_some_head h, List.getLast?_eq_some_getLast h]
  simp [Spec.reported, hn]

private theorem separated_mono {cfg cfg' : Cfg} (hmw : cfg.mw ≤ cfg'.mw) (hmei : cfg.mei ≤ cfg'.mei)
    {a b : List (ℕ × Row)} (ha : a ≠ []) (hb : b ≠ [])
    (h : separated cfg' (candOf cfg' a) (candOf cfg' b) = true) :
    separated cfg (candOf cfg a) (candOf cfg b) = true := by
  obtain ⟨m, hm⟩ := firstMaxBy_isSome (fun p : ℕ × Row => p.2.coa) ha
  obtain ⟨n, hn⟩ := firstMaxBy_isSome (fun p : ℕ × Row => p.2.coa) hb
  rw [separated_iff] at h ⊢
  unfold Apart candOf candidateOf at *
  rw [hm, hn, List.head?_eq_some_head ha, List.getLast?_eq_some_getLast ha,
    List.head?_eq_some_head hb, List.getLast?_eq_some_getLast hb] at h ⊢
  simp only [Option.getD_some] at h ⊢
  obtain ⟨h1, h2⟩ := h
  constructor
  · revert h1
    split_ifs <;> intro h1 <;> linarith
  · revert h2
    split_ifs <;> intro h2 <;> linarith

private theorem refined_sublist (cfg cfg' : Cfg) (hn : cfg.norm = cfg'.norm) (hmw : cfg.mw ≤ cfg'.mw)
    (hmei : cfg.mei ≤ cfg'.mei) (data : List Row) (thr : List ℚ) :
    List.Sublist ((refineCandidates cfg' (identifyCandidates cfg' data thr)).map Spec.reported)
      ((refineCandidates cfg (identifyCandidates cfg data thr)).map Spec.reported) := by
  have hr : candidateRuns cfg' data thr = candidateRuns cfg data thr := by
    unfold candidateRuns thresholded
    rw [hn]
  rw [identify_eq, identify_eq, refine_reported, refine_reported, hr]
  have hne := (candidateRuns_spec cfg data thr).2.1
  generalize candidateRuns cfg data thr = runs at hne
  have hk : (fun r => (candOf cfg' r).trigCoa) = fun r => (candOf cfg r).trigCoa := by
    funext r
    exact (congrArg (fun p => p.2.1) (candOf_same cfg cfg' hn r)).symm
  have hrep : (fun r => Spec.reported (candOf cfg' r)) = fun r => Spec.reported (candOf cfg r) := by
    funext r
    exact (candOf_same cfg cfg' hn r).symm
  rw [hk, hrep]
  apply List.Sublist.map
  obtain ⟨L, h1, h2, h3⟩ := cut_coarser (fun a b => separated cfg (candOf cfg a) (candOf cfg b))
    (fun a b => separated cfg' (candOf cfg' a) (candOf cfg' b)) runs
    fun a ha b hb h => separated_mono hmw hmei (hne a ha) (hne b hb) h
  rw [h1, h2]
  refine best_sublist _ L h3 fun B hB g hg => ?_
  refine (cut_spec (fun a b => separated cfg (candOf cfg a) (candOf cfg b)) runs).2.1 g ?_
  rw [h1]
  exact List.mem_flatten.2 ⟨B, hB, hg⟩

/-- Whether an event with these values is kept. -/
private def keepReported (start stop : ℚ) (region : Option Region) (v : ℚ × ℚ × ℚ × ℚ × ℚ × ℚ × ℚ) : Bool :=
  keepEvent start stop region ⟨v.1, v.2.1, v.2.2.1, v.2.2.2.1, v.2.2.2.2.1, 0, 0, v.2.2.2.2.2.1, v.2.2.2.2.2.2⟩

private theorem batch_reported (cfg : Cfg) (m : Method) (smooth : List Row → List Row)
    (region : Option Region) (bs be : ℚ) (sd : ScanData) :
    (triggerBatch cfg m smooth region bs be sd).1.map Spec.reported
      = ((refineCandidates cfg (identifyCandidates cfg (smooth sd.rows)
          (getThreshold m ((smooth sd.rows).map (Row.trig cfg.norm)) sd.sr))).map Spec.reported).filter
        (keepReported bs (if isMidnight be then be - sd.delta else be) region) := by
  unfold triggerBatch filterEvents
  simp only
  generalize refineCandidates cfg _ = l
  generalize (if isMidnight be then be - sd.delta else be) = stop
  have h1 : ∀ k, ((l.zipIdx k).filter fun p => keepEvent bs stop region p.1).map (·.1)
      = l.filter (keepEvent bs stop region) := by
    induction l with
    | nil => intro k; rfl
    | cons a l ih =>
      intro k
      rw [List.zipIdx_cons, List.filter_cons, List.filter_cons]
      split_ifs <;> simp [ih]
  rw [h1, List.filter_map]
  rfl

/-- **C137.**  A longer minimum event interval, a longer marginal window or both give a subset of the
events of each batch: the same times, values and positions, in the same order, with some left out. -/
theorem C137_batch (mw mei mw' mei' : ℚ) (norm : Bool) (hmw : mw ≤ mw') (hmei : mei ≤ mei')
    (m : Method) (smooth : List Row → List Row) (region : Option Region) (bs be : ℚ) (sd : ScanData) :
    List.Sublist ((triggerBatch ⟨mw', mei', norm⟩ m smooth region bs be sd).1.map Spec.reported)
      ((triggerBatch ⟨mw, mei, norm⟩ m smooth region bs be sd).1.map Spec.reported) := by
  rw [batch_reported, batch_reported]
  exact (refined_sublist ⟨mw, mei, norm⟩ ⟨mw', mei', norm⟩ rfl hmw hmei _ _).filter _

/-- **C137.**  The same for a whole run: both go through the same batches and end in the same way, and in
each batch the longer interval gives a subset of the events. -/
theorem C137_run (mw mei mw' mei' : ℚ) (norm : Bool) (hmw : mw ≤ mw') (hmei : mei ≤ mei')
    (m : Method) (smooth : List Row → List Row) (region : Option Region)
    (read : ℚ → ℚ → Option ScanData) (s e : ℚ) :
    (trigger ⟨mw', mei', norm⟩ m smooth region read s e).2
      = (trigger ⟨mw, mei, norm⟩ m smooth region read s e).2 ∧
    List.Forall₂ (fun b b' => b.1 = b'.1 ∧
        List.Sublist (b'.2.map Spec.reported) (b.2.map Spec.reported))
      (trigger ⟨mw, mei, norm⟩ m smooth region read s e).1
      (trigger ⟨mw', mei', norm⟩ m smooth region read s e).1 := by
  unfold trigger
  split_ifs
  · exact ⟨rfl, .nil⟩
  · induction batches s e with
    | nil => exact ⟨rfl, .nil⟩
    | cons b l ih =>
      cases hr : read b.1 b.2 with
      | none =>
        simp only [runBatches, hr]
        exact ⟨trivial, .nil⟩
      | some sd =>
        simp only [runBatches, hr]
        have hb := C137_batch mw mei mw' mei' norm hmw hmei m smooth region b.1 b.2 sd
        generalize triggerBatch ⟨mw', mei', norm⟩ m smooth region b.1 b.2 sd = u' at hb ⊢
        generalize triggerBatch ⟨mw, mei, norm⟩ m smooth region b.1 b.2 sd = u at hb ⊢
        exact ⟨ih.1, .cons ⟨rfl, hb⟩ ih.2⟩

/-! ### Raising the threshold -/

private theorem forall₂_right {α β : Type} {R : α → β → Prop} {l : List α} {k : List β}
    (h : List.Forall₂ R l k) {b : β} (hb : b ∈ k) : ∃ a ∈ l, R a b := by
  induction h with
  | nil => cases hb
  | cons h1 _ ih =>
    rcases List.mem_cons.1 hb with rfl | hb
    · exact ⟨_, List.mem_cons_self, h1⟩
    · obtain ⟨a, ha, hr⟩ := ih hb
      exact ⟨a, List.mem_cons_of_mem _ ha, hr⟩

private theorem forall₂_left {α β : Type} {R : α → β → Prop} {l : List α} {k : List β}
    (h : List.Forall₂ R l k) {a : α} (ha : a ∈ l) : ∃ b ∈ k, R a b := by
  induction h with
  | nil => cases ha
  | cons h1 _ ih =>
    rcases List.mem_cons.1 ha with rfl | ha
    · exact ⟨_, List.mem_cons_self, h1⟩
    · obtain ⟨b, hb, hr⟩ := ih ha
      exact ⟨b, List.mem_cons_of_mem _ hb, hr⟩

/-- **C138** (part): the sample with the largest value is reported as an event of its batch whatever the
threshold, as long as the sample reaches it. -/
theorem C138_largest_partial (cfg : Cfg) (m : Method) (smooth : List Row → List Row)
    (region : Option Region) (bs be : ℚ) (sd : ScanData) (i : ℕ) (r : Row)
    (hi : (smooth sd.rows)[i]? = some r)
    (hmax : ∀ (j : ℕ) (q : Row), j ≠ i → (smooth sd.rows)[j]? = some q →
      q.coa < r.coa ∧ Spec.trigValue cfg.norm q < Spec.trigValue cfg.norm r)
    (hab : Above cfg.norm (smooth sd.rows)
      (getThreshold m ((smooth sd.rows).map (Spec.trigValue cfg.norm)) sd.sr) i)
    (hin : bs ≤ r.dt ∧ r.dt ≤ if isMidnight be then be - sd.delta else be)
    (hreg : ∀ R, region = some R → (R.xmin ≤ r.x ∧ r.x ≤ R.xmax) ∧ (R.ymin ≤ r.y ∧ r.y ≤ R.ymax) ∧
      (R.zmin ≤ r.z ∧ r.z ≤ R.zmax)) :
    ∃ e ∈ (triggerBatch cfg m smooth region bs be sd).1,
      Spec.reported e = (r.dt, Spec.trigValue cfg.norm r, r.x, r.y, r.z, r.coa, r.coaN) := by
  have htr : (Row.trig cfg.norm) = Spec.trigValue cfg.norm := rfl
  simp only [mem_triggerBatch, htr]
  generalize getThreshold m ((smooth sd.rows).map (Spec.trigValue cfg.norm)) sd.sr = thr at hab ⊢
  generalize smooth sd.rows = rows at *
  obtain ⟨runs, h1, -, h3⟩ := C08_candidates_are_maximal_runs cfg rows thr
  obtain ⟨run, ⟨hrun, ha, hb⟩, -⟩ := C08_every_sample_in_one_run cfg rows thr i hab
  obtain ⟨c, hc, hcand⟩ := forall₂_right h3 ((h1 run.1 run.2).2 hrun)
  have hpk : ∀ (a b : ℕ) (c : Cand), IsCandidateOf cfg.mw cfg.mei cfg.norm rows a b c →
      Spec.reported c = (r.dt, Spec.trigValue cfg.norm r, r.x, r.y, r.z, r.coa, r.coaN) ∨
      (c.trigCoa < Spec.trigValue cfg.norm r ∧ ¬ (a ≤ i ∧ i ≤ b)) := by
    rintro a b c ⟨p, peak, first, last, hp, -, -, e1, e2, e3, e4, e5, e6, e7, -⟩
    by_cases hpi : p = i
    · left
      subst hpi
      have : peak = r := Option.some.inj (hp.at_p.symm.trans hi)
      subst this
      simp [Spec.reported, e1, e2, e3, e4, e5, e6, e7]
    · right
      have h := hmax p peak hpi hp.at_p
      refine ⟨by rw [e2]; exact h.2, fun hab => ?_⟩
      exact absurd (hp.max i r hab.1 hab.2 hi) (not_le.2 h.1)
  have hcr := (hpk _ _ c hcand).resolve_right fun h => h.2 ⟨ha, hb⟩
  obtain ⟨G, g1, g2, -, -, g5⟩ := C11_merge_partition cfg (identifyCandidates cfg rows thr)
  rw [← g1] at hc
  obtain ⟨g, hg, hcg⟩ := List.mem_flatten.1 hc
  obtain ⟨e, he, hev⟩ := forall₂_right g5 hg
  obtain ⟨pre, best, post, hsp, hpre, hpost, e1, e2, e3, e4, e5, e6, e7, -⟩ := hev
  have hbest : Spec.reported best = (r.dt, Spec.trigValue cfg.norm r, r.x, r.y, r.z, r.coa, r.coaN) := by
    have hbm : best ∈ identifyCandidates cfg rows thr := by
      rw [← g1]
      exact List.mem_flatten.2 ⟨g, hg, by rw [hsp]; simp⟩
    obtain ⟨run', -, hcand'⟩ := forall₂_left h3 hbm
    refine (hpk _ _ best hcand').resolve_right fun h => ?_
    have hcv : c.trigCoa = Spec.trigValue cfg.norm r := congrArg (fun p => p.2.1) hcr
    have hle : c.trigCoa ≤ best.trigCoa := by
      rw [hsp] at hcg
      rcases List.mem_append.1 hcg with hx | hx
      · exact (hpre c hx).le
      · rcases List.mem_cons.1 hx with rfl | hx
        · exact le_rfl
        · exact hpost c hx
    rw [hcv] at hle
    exact absurd h.1 (not_lt.2 hle)
  have her : Spec.reported e = (r.dt, Spec.trigValue cfg.norm r, r.x, r.y, r.z, r.coa, r.coaN) := by
    rw [← hbest]
    simp [Spec.reported, e1, e2, e3, e4, e5, e6, e7]
  refine ⟨e, ⟨he, ?_⟩, her⟩
  simp only [Spec.reported, Prod.mk.injEq] at her
  obtain ⟨k1, -, k3, k4, k5, -, -⟩ := her
  refine ⟨by rw [k1]; exact hin.1, by rw [k1]; exact hin.2, ?_⟩
  intro R hR
  rw [k3, k4, k5]
  exact hreg R hR

/-- **C138** (part): an event found with a higher threshold lies in the window of an event found with the
lower threshold that is at least as large. -/
theorem C138_within_partial (mw mei : ℚ) (hmw : 0 ≤ mw) (hmei : 2 * mw ≤ mei) (data : List Row)
    (hdt : data.Pairwise (fun r s => r.dt < s.dt)) (thr thr' : List ℚ)
    (hthr : ∀ i, Above false data thr' i → Above false data thr i) (e' : Cand)
    (he' : e' ∈ refineCandidates ⟨mw, mei, false⟩ (identifyCandidates ⟨mw, mei, false⟩ data thr')) :
    ∃ e ∈ refineCandidates ⟨mw, mei, false⟩ (identifyCandidates ⟨mw, mei, false⟩ data thr),
      e.minTime ≤ e'.coaTime ∧ e'.coaTime ≤ e.maxTime ∧ e'.trigCoa ≤ e.trigCoa := by
  obtain ⟨G', g1', -, -, -, g5'⟩ :=
    C11_merge_partition ⟨mw, mei, false⟩ (identifyCandidates ⟨mw, mei, false⟩ data thr')
  obtain ⟨g', hg', pre', best', post', hsp', -, -, a1, a2, -⟩ := forall₂_left g5' he'
  have hbm : best' ∈ identifyCandidates ⟨mw, mei, false⟩ data thr' := by
    rw [← g1']
    exact List.mem_flatten.2 ⟨g', hg', by rw [hsp']; simp⟩
  obtain ⟨runs', r1', -, r3'⟩ := C08_candidates_are_maximal_runs ⟨mw, mei, false⟩ data thr'
  obtain ⟨run', hr', p, peak, -, -, hp, -, -, b1, b2, -⟩ := forall₂_left r3' hbm
  have hmr := (r1' run'.1 run'.2).1 hr'
  have hab : Above false data thr p := hthr p (hmr.all p hp.lo hp.hi)
  obtain ⟨run, ⟨hrun, ha, hb⟩, -⟩ := C08_every_sample_in_one_run ⟨mw, mei, false⟩ data thr p hab
  obtain ⟨runs, r1, -, r3⟩ := C08_candidates_are_maximal_runs ⟨mw, mei, false⟩ data thr
  obtain ⟨c, hc, hcand⟩ := forall₂_right r3 ((r1 run.1 run.2).2 hrun)
  obtain ⟨q, pk, first, last, hq, hf, hl, c1, c2, -, -, -, -, -, w1, w2, w3, w4⟩ := hcand
  have hmono : ∀ (i j : ℕ) (x y : Row), i ≤ j → data[i]? = some x → data[j]? = some y → x.dt ≤ y.dt := by
    intro i j x y hij hx hy
    rcases Nat.lt_or_eq_of_le hij with h | h
    · obtain ⟨hi, rfl⟩ := List.getElem?_eq_some_iff.1 hx
      obtain ⟨hj, rfl⟩ := List.getElem?_eq_some_iff.1 hy
      exact (List.pairwise_iff_getElem.1 hdt i j hi hj h).le
    · subst h
      rw [hx] at hy
      rw [Option.some.inj hy]
  have m1 := hmono _ _ _ _ ha hf hp.at_p
  have m2 := hmono _ _ _ _ hb hp.at_p hl
  have hval : peak.coa ≤ pk.coa := hq.max p peak ha hb hp.at_p
  have hmin : c.minTime ≤ peak.dt := by
    rcases lt_or_ge (pk.dt - first.dt) mw with h | h
    · rw [w1 h]; linarith
    · rw [w2 h]; linarith
  have hmax : peak.dt ≤ c.maxTime := by
    rcases lt_or_ge (last.dt - pk.dt) mw with h | h
    · rw [w3 h]; linarith
    · rw [w4 h]; linarith
  obtain ⟨G, g1, -, -, -, g5⟩ :=
    C11_merge_partition ⟨mw, mei, false⟩ (identifyCandidates ⟨mw, mei, false⟩ data thr)
  rw [← g1] at hc
  obtain ⟨g, hg, hcg⟩ := List.mem_flatten.1 hc
  obtain ⟨e, he, pre, best, post, hsp, hpre, hpost, e1, e2, -, -, -, -, -, -, k1, -, k2⟩ :=
    forall₂_right g5 hg
  have hle : c.trigCoa ≤ best.trigCoa := by
    rw [hsp] at hcg
    rcases List.mem_append.1 hcg with hx | hx
    · exact (hpre c hx).le
    · rcases List.mem_cons.1 hx with rfl | hx
      · exact le_rfl
      · exact hpost c hx
  refine ⟨e, he, ?_, ?_, ?_⟩
  · rw [a1, b1]; exact (k1 c hcg).trans hmin
  · rw [a1, b1]; exact hmax.trans (k2 c hcg)
  · rw [a2, b2, e2]
    refine le_trans ?_ hle
    rw [c2]
    simpa [Spec.trigValue] using hval

/-- A scan at one sample per second from midnight with the given values. -/
def exScan (vs : List ℚ) : ScanData :=
  ⟨vs.zipIdx.map fun p => ⟨p.2, p.1, p.1, 0, 0, 0⟩, 1, 1⟩

/-- Events of a day with marginal window 1 s and minimum event interval 4 s. -/
def exTuned (t : ℚ) (vs : List ℚ) : List (ℚ × ℚ) :=
  ((triggerBatch ⟨1, 4, false⟩ (.static t) id none 0 86400 (exScan vs)).1).map fun e => (e.coaTime, e.trigCoa)

/-- **C138** fails: a higher threshold gives an event more.  With the lower one both bursts are in one run
above the threshold and count as one event. -/
theorem C138_violated_added :
    exTuned 2 [0, 5, 3, 3, 3, 3, 3, 3, 6, 0] = [(8, 6)] ∧
    exTuned 4 [0, 5, 3, 3, 3, 3, 3, 3, 6, 0] = [(1, 5), (8, 6)] := by decide +kernel

/-- **C138** fails: a higher threshold loses an event of value 8 although the threshold is below that: the
tail of the run before it becomes a candidate of its own, and its window reaches further. -/
theorem C138_violated_lost :
    exTuned 2 [10, 3, 3, 3, 3, 6, 0, 0, 0, 0, 8, 0] = [(0, 10), (10, 8)] ∧
    exTuned 4 [10, 3, 3, 3, 3, 6, 0, 0, 0, 0, 8, 0] = [(0, 10)] := by decide +kernel

/-- Two bursts 7 s apart: two events with an interval of 4 s, one with an interval of 7 s. -/
example : exTuned 4 [0, 5, 3, 3, 3, 3, 3, 3, 6, 0] = [(1, 5), (8, 6)] ∧
    ((triggerBatch ⟨1, 7, false⟩ (.static 4) id none 0 86400
      (exScan [0, 5, 3, 3, 3, 3, 3, 3, 6, 0])).1).map (fun e => (e.coaTime, e.trigCoa)) = [(8, 6)] := by
  decide +kernel

/-- The largest sample of that scan meets the hypotheses of `C138_largest_partial`. -/
example : (exScan [0, 5, 3, 3, 3, 3, 3, 3, 6, 0]).rows[8]? = some ⟨8, 6, 6, 0, 0, 0⟩ ∧
    (∀ q ∈ (exScan [0, 5, 3, 3, 3, 3, 3, 3, 6, 0]).rows.eraseIdx 8, q.coa < 6 ∧ Spec.trigValue false q < 6) ∧
    Above false (exScan [0, 5, 3, 3, 3, 3, 3, 3, 6, 0]).rows (getThreshold (.static 4)
      ((exScan [0, 5, 3, 3, 3, 3, 3, 3, 6, 0]).rows.map (Spec.trigValue false)) 1) 8 :=
  ⟨by decide +kernel, by decide +kernel, ⟨8, 6, 6, 0, 0, 0⟩, 4, by decide +kernel, by decide +kernel,
    by decide +kernel⟩

end QM

import Verif.Props.Magnitude
import Verif.Model.AmplitudePlot
import Verif.Props.Locate
import Mathlib.Data.List.Perm.Basic

/-!
# The figure of amplitudes and magnitudes: C149, C150, C151
-/

namespace QM
open QM.AmplitudePlot

/-! ## C150: one label per station -/

/-- The observations of the stations in the order of the table: for each station, named by its trace ids without the
component, the observations of its components. -/
structure Spec.Stations {α β : Type} (gs : List (List Char × List (Mark α β))) : Prop where
  named : ∀ g ∈ gs, g.1 ≠ []
  own : ∀ g ∈ gs, ∀ m ∈ g.2, ∃ k, m.id = g.1 ++ [k]
  once : (gs.map Prod.fst).Nodup

/-- The label a station should have: its components, at its distance, above its largest amplitude. -/
def Spec.labelOf {α β : Type} [LinearOrder α] (g : List Char × List (Mark α β)) : Label α β :=
  ⟨g.1, g.2.flatMap fun m => m.id.getLast?.toList, g.2.getLast?.map Mark.dist, (g.2.map Mark.amp).max?⟩

section
variable {α β : Type} [LinearOrder α]

/-- The stations returned by `label_stations`: not the last one if it has one observation. -/
def returned : List (List Char × List (Mark α β)) → List (List Char)
  | [] => []
  | [g] => if g.2.length = 1 then [] else [g.1]
  | g :: h :: t => g.1 :: returned (h :: t)

theorem labelLoop_groups (all : List (Mark α β)) : ∀ (n : ℕ) (pre done rest : List (Mark α β)) (name : List Char)
    (gs : List (List Char × List (Mark α β))) (S : List (List Char)) (L : List (Label α β)),
    (rest ++ gs.flatMap Prod.snd).length = n → 0 < n → done ≠ [] →
    all = pre ++ done ++ rest ++ gs.flatMap Prod.snd → name ≠ [] →
    (∀ m ∈ rest, m.id.dropLast = name) → (∀ g ∈ gs, g.1 ≠ [] ∧ g.2 ≠ [] ∧ ∀ m ∈ g.2, m.id.dropLast = g.1) →
    (name :: gs.map Prod.fst).Nodup →
    let s := labelLoop all (pre.length + done.length) (rest ++ gs.flatMap Prod.snd)
      ⟨name, pre.length, done.flatMap fun m => m.id.getLast?.toList, S, L⟩
    s.labels = L ++ ((name, done ++ rest) :: gs).map Spec.labelOf ∧ s.stns = S ++ returned ((name, done ++ rest) :: gs) := by
  intro n
  induction n with
  | zero => intro _ _ _ _ _ _ _ _ h; omega
  | succ n ih =>
    intro pre done rest name gs S L hn _ hdone hall hname hrest hgs hnd
    cases rest with
    | cons m rest =>
      have hm : m.id.dropLast = name := hrest m (by simp)
      have hlen : all.length = pre.length + done.length + 1 + n := by
        rw [hall]
        simp only [List.length_append, List.length_cons] at hn ⊢
        omega
      simp only [List.cons_append, labelLoop, labelStep, if_neg hname, hm, ne_eq, not_true, if_false]
      by_cases hlast : n = 0
      · have h0 : rest ++ gs.flatMap Prod.snd = [] := by
          rw [← List.length_eq_zero_iff]
          simp only [List.cons_append, List.length_cons] at hn
          omega
        obtain ⟨h1, h2⟩ := List.append_eq_nil_iff.1 h0
        have hg : gs = [] := by
          cases gs with
          | nil => rfl
          | cons g gs =>
            simp only [List.flatMap_cons, List.append_eq_nil_iff] at h2
            exact absurd h2.1 (hgs g (by simp)).2.1
        subst h1 hg
        rw [if_pos (by omega)]
        simp only [List.flatMap_nil, List.append_nil, List.nil_append, labelLoop, List.map_cons, List.map_nil]
        simp only [List.flatMap_nil, List.append_nil] at hall
        have e1 : all[pre.length + done.length]? = some m := by
          rw [hall, List.getElem?_append_right (by simp), List.length_append]
          simp
        have e2 : all.drop pre.length = done ++ [m] := by
          rw [hall, List.append_assoc]
          simp
        refine ⟨?_, ?_⟩
        · rw [e1, e2]
          simp [Spec.labelOf]
        · have : (done ++ [m]).length ≠ 1 := by
            have := List.length_pos_iff.2 hdone
            simp only [List.length_append, List.length_cons, List.length_nil]
            omega
          simp [returned, hdone]
      · rw [if_neg (by omega)]
        have := ih pre (done ++ [m]) rest name gs S L (by
          simp only [List.cons_append, List.length_cons] at hn; omega) (by omega) (by simp)
          (by rw [hall]; simp) hname (fun x hx => hrest x (by simp [hx])) hgs hnd
        simp only [List.length_append, List.length_cons, List.length_nil, List.flatMap_append, List.flatMap_cons,
          List.flatMap_nil, List.append_nil, List.append_assoc, List.cons_append, List.nil_append] at this
        rw [show pre.length + (done.length + (0 + 1)) = pre.length + done.length + 1 by omega] at this
        exact this
    | nil =>
      cases gs with
      | nil => simp at hn
      | cons g gs =>
        obtain ⟨name2, l2⟩ := g
        obtain ⟨hn2, hl2, ho2⟩ := hgs (name2, l2) (by simp)
        cases l2 with
        | nil => exact absurd rfl hl2
        | cons m l2 =>
          have hm : m.id.dropLast = name2 := ho2 m (by simp)
          have hne : name2 ≠ name := by
            intro h
            simp only [List.map_cons, List.nodup_cons, List.mem_cons, not_or] at hnd
            exact hnd.1.1 h.symm
          have hlen : all.length = pre.length + done.length + 1 + n := by
            rw [hall]
            simp only [List.nil_append, List.flatMap_cons, List.cons_append, List.length_append, List.length_cons,
              List.append_nil] at hn ⊢
            omega
          simp only [List.nil_append, List.flatMap_cons, List.cons_append, List.append_nil, labelLoop, labelStep,
            if_neg hname, hm, ne_eq, hne, not_false_eq_true, if_true]
          simp only [List.flatMap_cons, List.cons_append, List.append_nil] at hall
          have hdl := List.length_pos_iff.2 hdone
          have e1 : all[pre.length + done.length - 1]? = done.getLast? := by
            rw [hall, List.append_assoc, List.getElem?_append_right (by omega), List.getElem?_append_left (by omega),
              List.getLast?_eq_getElem?]
            congr 1
            omega
          have e2 : (all.take (pre.length + done.length)).drop pre.length = done := by
            rw [hall, List.take_left' (by simp)]
            simp
          have e3 : all[pre.length + done.length]? = some m := by
            rw [hall, List.getElem?_append_right (by simp), List.length_append]
            simp
          by_cases hlast : n = 0
          · have h0 : l2 ++ gs.flatMap Prod.snd = [] := by
              rw [← List.length_eq_zero_iff]
              simp only [List.nil_append, List.flatMap_cons, List.cons_append, List.length_cons] at hn
              omega
            obtain ⟨h1, h2⟩ := List.append_eq_nil_iff.1 h0
            have hg : gs = [] := by
              cases gs with
              | nil => rfl
              | cons g gs =>
                simp only [List.flatMap_cons, List.append_eq_nil_iff] at h2
                exact absurd h2.1 (hgs g (by simp)).2.1
            subst h1 hg
            rw [if_pos (by omega)]
            simp only [List.flatMap_nil, List.append_nil] at hall
            have e4 : all.drop (pre.length + done.length) = [m] := by
              rw [hall, List.drop_left' (by simp)]
            rw [e1, e2, e3, e4]
            simp [labelLoop, Spec.labelOf, returned]
          · rw [if_neg (by omega), e1, e2]
            have := ih (pre ++ done) [m] l2 name2 gs (S ++ [name])
              (L ++ [Spec.labelOf (name, done)]) (by
                simp only [List.nil_append, List.flatMap_cons, List.cons_append, List.length_cons] at hn; omega)
              (by omega) (by simp) (by rw [hall]; simp) hn2 (fun x hx => ho2 x (by simp [hx]))
              (fun x hx => hgs x (by simp [hx])) (by
                simp only [List.map_cons, List.nodup_cons] at hnd ⊢
                exact hnd.2)
            simp only [List.length_append, List.length_cons, List.length_nil, List.flatMap_cons,
              List.flatMap_nil, List.append_nil, List.append_assoc, List.cons_append, List.nil_append,
              Nat.zero_add] at this
            simp only [Spec.labelOf] at this ⊢
            refine ⟨this.1.trans (by simp [Spec.labelOf]), this.2.trans (by simp [returned])⟩

theorem labelStations_groups {gs : List (List Char × List (Mark α β))}
    (hgs : ∀ g ∈ gs, g.1 ≠ [] ∧ g.2 ≠ [] ∧ ∀ m ∈ g.2, m.id.dropLast = g.1) (hnd : (gs.map Prod.fst).Nodup)
    (h2 : 2 ≤ (gs.flatMap Prod.snd).length) :
    labelStations (gs.flatMap Prod.snd) = (gs.map Spec.labelOf, returned gs) := by
  cases gs with
  | nil => simp at h2
  | cons g gs =>
    obtain ⟨name, l⟩ := g
    obtain ⟨h1, h3, h4⟩ := hgs (name, l) (by simp)
    cases l with
    | nil => exact absurd rfl h3
    | cons m l =>
      have hm : m.id.dropLast = name := h4 m (by simp)
      have := labelLoop_groups (((name, m :: l) :: gs).flatMap Prod.snd) _ [] [m] l name gs [] [] rfl (by
        simp only [List.flatMap_cons, List.cons_append, List.length_cons] at h2; omega) (by simp)
        (by simp) h1 (fun x hx => h4 x (by simp [hx])) (fun x hx => hgs x (by simp [hx])) hnd
      simp only [List.length_nil, List.length_cons, Nat.zero_add, List.flatMap_cons, List.flatMap_nil, List.append_nil,
        List.nil_append, List.cons_append] at this
      simp only [labelStations, List.flatMap_cons, List.cons_append, labelLoop, labelStep, if_true, List.nil_append, hm,
        Nat.zero_add]
      exact Prod.ext this.1 this.2

theorem returned_last (A : List (List Char × List (Mark α β))) (g : List Char × List (Mark α β)) :
    returned (A ++ [g]) = if g.2.length = 1 then A.map Prod.fst else (A ++ [g]).map Prod.fst := by
  induction A with
  | nil => simp [returned]
  | cons a A ih =>
    cases A with
    | nil =>
      simp only [List.cons_append, List.nil_append, returned]
      split_ifs <;> simp
    | cons b A =>
      simp only [List.cons_append, returned] at ih ⊢
      rw [ih]
      split_ifs <;> simp

theorem own_dropLast {gs : List (List Char × List (Mark α β))} (h : Spec.Stations gs) :
    ∀ g ∈ gs, ∀ m ∈ g.2, m.id.dropLast = g.1 := by
  intro g hg m hm
  obtain ⟨k, hk⟩ := h.own g hg m hm
  rw [hk, List.dropLast_concat]

/-- C150, `label_stations`: with at least two observations every station gets one label, in order, that names its
components and stands at its distance above its largest amplitude. -/
theorem C150_labels_partial (gs : List (List Char × List (Mark α β))) (h : Spec.Stations gs)
    (hne : ∀ g ∈ gs, g.2 ≠ []) (h2 : 2 ≤ (gs.flatMap Prod.snd).length) :
    (labelStations (gs.flatMap Prod.snd)).1 = gs.map Spec.labelOf := by
  rw [labelStations_groups (fun g hg => ⟨h.named g hg, hne g hg, own_dropLast h g hg⟩) h.once h2]

/-- The stations with their used observations only. -/
def usedGroups (used : Mark α β → Bool) (gs : List (List Char × List (Mark α β))) : List (List Char × List (Mark α β)) :=
  (gs.map fun g => (g.1, g.2.filter used)).filter fun g => !g.2.isEmpty

theorem usedGroups_flat (used : Mark α β → Bool) (gs : List (List Char × List (Mark α β))) :
    (usedGroups used gs).flatMap Prod.snd = (gs.flatMap Prod.snd).filter used := by
  induction gs with
  | nil => rfl
  | cons g gs ih =>
    unfold usedGroups at ih ⊢
    simp only [List.map_cons, List.flatMap_cons, List.filter_append]
    rw [List.filter_cons]
    split_ifs with h
    · rw [List.flatMap_cons, ih]
    · simp only [Bool.not_eq_true', Bool.not_eq_false, List.isEmpty_iff] at h
      rw [ih, h, List.nil_append]

theorem usedGroups_names (used : Mark α β → Bool) (gs : List (List Char × List (Mark α β))) :
    (usedGroups used gs).map Prod.fst = (gs.filter fun g => g.2.any used).map Prod.fst := by
  induction gs with
  | nil => rfl
  | cons g gs ih =>
    unfold usedGroups at ih ⊢
    have e : (!(g.2.filter used).isEmpty) = g.2.any used := by
      rw [Bool.eq_iff_iff, List.any_eq_true]
      simp only [Bool.not_eq_true', ← Bool.not_eq_true, List.isEmpty_iff, List.filter_eq_nil_iff]
      push Not
      exact Iff.rfl
    simp only [List.map_cons, List.filter_cons, e]
    split_ifs
    · simp only [List.map_cons, ih]
    · exact ih

theorem rejected_groups {gs : List (List Char × List (Mark α β))} (used : Mark α β → Bool)
    (hown : ∀ g ∈ gs, ∀ m ∈ g.2, m.id.dropLast = g.1) (names : List (List Char))
    (h1 : ∀ g ∈ gs, g.1 ∈ names ↔ g.2.any used = true) :
    ((gs.flatMap Prod.snd).filter fun m => !used m).filter (fun m => decide (m.id.dropLast ∉ names)) =
      (gs.filter fun g => !g.2.any used).flatMap Prod.snd := by
  induction gs with
  | nil => rfl
  | cons g gs ih =>
    have ih := ih (fun x hx => hown x (by simp [hx])) (fun x hx => h1 x (by simp [hx]))
    have hg := h1 g (by simp)
    have ho := hown g (by simp)
    simp only [List.flatMap_cons, List.filter_append]
    rw [ih]
    by_cases h : g.2.any used = true
    · rw [List.filter_cons_of_neg (by simp [h])]
      have : (g.2.filter fun m => !used m).filter (fun m => decide (m.id.dropLast ∉ names)) = [] := by
        rw [List.filter_eq_nil_iff]
        intro m hm
        have hm := (List.mem_filter.1 hm).1
        rw [ho m hm]
        simpa using hg.2 h
      rw [this, List.nil_append]
    · rw [List.filter_cons_of_pos (by simpa using h), List.flatMap_cons]
      congr 1
      rw [List.filter_filter, List.filter_eq_self]
      intro m hm
      rw [ho m hm]
      have hu : used m = false := by
        by_contra hc
        exact h (List.any_eq_true.2 ⟨m, hm, by simpa using hc⟩)
      simp only [hu, Bool.not_false, Bool.and_true, decide_eq_true_eq]
      exact fun hc => h (hg.1 hc)

/-- C150: every station of the figure has exactly one label.  Missing: figures with one used observation, figures in
which the last station with used observations has only one, and figures with a single observation of stations without
used ones, of which the claim is false. -/
theorem C150_once_partial (A B : List (List Char × List (Mark α β))) (g : List Char × List (Mark α β))
    (h : Spec.Stations (A ++ g :: B)) (hne : ∀ x ∈ A ++ g :: B, x.2 ≠ []) (used : Mark α β → Bool)
    -- the last station with used observations has two
    (hg : 2 ≤ (g.2.filter used).length) (hB : ∀ x ∈ B, x.2.any used = false)
    (h1 : (((A ++ g :: B).filter fun x => !x.2.any used).flatMap Prod.snd).length ≠ 1) :
    let rows := (A ++ g :: B).flatMap Prod.snd
    let labels := allLabels (rows.filter used) (rows.filter fun m => !used m)
    ((labels.1 ++ labels.2).map Label.stn).Perm ((A ++ g :: B).map Prod.fst) := by
  intro rows labels
  set gs := A ++ g :: B with hgs
  have hown := own_dropLast h
  have hU : labelStations (rows.filter used) = ((usedGroups used gs).map Spec.labelOf, returned (usedGroups used gs)) := by
    rw [← usedGroups_flat used gs]
    apply labelStations_groups
    · intro x hx
      obtain ⟨y, hy, rfl⟩ := List.mem_map.1 (List.mem_filter.1 hx).1
      refine ⟨h.named y hy, ?_, fun m hm => hown y hy m (List.mem_filter.1 hm).1⟩
      have := (List.mem_filter.1 hx).2
      simpa using this
    · rw [usedGroups_names]
      exact h.once.sublist (List.filter_sublist.map _)
    · rw [usedGroups_flat, hgs]
      simp only [List.flatMap_append, List.flatMap_cons, List.filter_append, List.length_append]
      omega
  have hret : returned (usedGroups used gs) = (usedGroups used gs).map Prod.fst := by
    have e : usedGroups used gs = usedGroups used A ++ [(g.1, g.2.filter used)] := by
      have hB' : usedGroups used B = [] := by
        unfold usedGroups
        rw [List.filter_eq_nil_iff]
        intro x hx
        obtain ⟨y, hy, rfl⟩ := List.mem_map.1 hx
        have := List.any_eq_false.1 (hB y hy)
        simp only [Bool.not_eq_true', ← Bool.not_eq_true, List.isEmpty_iff, not_not]
        rw [List.filter_eq_nil_iff]
        exact this
      unfold usedGroups at hB' ⊢
      rw [hgs, List.map_append, List.filter_append, List.map_cons, List.filter_cons_of_pos, hB']
      simp only [Bool.not_eq_true', ← Bool.not_eq_true, List.isEmpty_iff]
      intro hc
      rw [hc] at hg
      simp at hg
    rw [e, returned_last, if_neg (by simp only; omega)]
  have hR := rejected_groups used hown ((usedGroups used gs).map Prod.fst) (by
    intro x hx
    rw [usedGroups_names, List.mem_map]
    constructor
    · rintro ⟨y, hy, hxy⟩
      obtain ⟨hy1, hy2⟩ := List.mem_filter.1 hy
      have : y = x := List.inj_on_of_nodup_map h.once hy1 hx hxy
      rwa [this] at hy2
    · intro hu
      exact ⟨x, List.mem_filter.2 ⟨hx, hu⟩, rfl⟩)
  have hlab2 : labels.2 = (gs.filter fun x => !x.2.any used).map Spec.labelOf := by
    show (if (rows.filter fun m => !used m) = [] then [] else _) = _
    rw [hU, hret]
    simp only
    split_ifs with h0
    · change (gs.flatMap Prod.snd).filter (fun m => !used m) = [] at h0
      rw [h0, List.filter_nil] at hR
      have : (gs.filter fun x => !x.2.any used) = [] := by
        rw [List.eq_nil_iff_forall_not_mem]
        intro x hx
        have h3 := hne x (List.mem_filter.1 hx).1
        obtain ⟨m, hm⟩ := List.exists_mem_of_ne_nil _ h3
        have : m ∈ (gs.filter fun x => !x.2.any used).flatMap Prod.snd := List.mem_flatMap.2 ⟨x, hx, hm⟩
        rw [← hR] at this
        simp at this
      rw [this, List.map_nil]
    · change (labelStations (((gs.flatMap Prod.snd).filter fun m => !used m).filter
        fun m => decide (m.id.dropLast ∉ (usedGroups used gs).map Prod.fst))).1 = _
      rw [hR]
      by_cases h3 : (gs.filter fun x => !x.2.any used) = []
      · rw [h3]; rfl
      · have h4 : 2 ≤ ((gs.filter fun x => !x.2.any used).flatMap Prod.snd).length := by
          obtain ⟨x, hx⟩ := List.exists_mem_of_ne_nil _ h3
          obtain ⟨m, hm⟩ := List.exists_mem_of_ne_nil _ (hne x (List.mem_filter.1 hx).1)
          have : 0 < ((gs.filter fun x => !x.2.any used).flatMap Prod.snd).length :=
            List.length_pos_of_mem (List.mem_flatMap.2 ⟨x, hx, hm⟩)
          omega
        rw [labelStations_groups (fun x hx => ⟨h.named x (List.mem_filter.1 hx).1, hne x (List.mem_filter.1 hx).1,
          hown x (List.mem_filter.1 hx).1⟩) (h.once.sublist (List.filter_sublist.map _)) h4]
  have hlab1 : labels.1 = (usedGroups used gs).map Spec.labelOf := by
    show (labelStations (rows.filter used)).1 = _
    rw [hU]
  rw [hlab1, hlab2, List.map_append, List.map_map, List.map_map]
  have e1 : (Label.stn ∘ Spec.labelOf : List Char × List (Mark α β) → _) = Prod.fst := rfl
  rw [e1, usedGroups_names, ← List.map_append]
  apply List.Perm.map
  exact List.filter_append_perm _ gs

/-- C150 is false of a figure with one used observation: its station has no label, whatever it is. -/
theorem C150_violated_single (m : Mark α β) : allLabels [m] [] = ([], []) := rfl

end

/-- C150 is false of a figure whose last used observation is the only one of its station: the station gets a second,
grey label for its rejected observations. -/
theorem C150_violated_twice : ∃ used rejected : List (Mark ℕ ℕ),
    used = [⟨['A', 'Z'], 5, 10⟩, ⟨['B', 'Z'], 4, 20⟩] ∧ rejected = [⟨['B', 'N'], 3, 20⟩, ⟨['B', 'E'], 2, 20⟩] ∧
    (allLabels used rejected).1 = [⟨['A'], ['Z'], some 10, some 5⟩, ⟨['B'], ['Z'], some 20, some 4⟩] ∧
    (allLabels used rejected).2 = [⟨['B'], ['N', 'E'], some 20, some 3⟩] :=
  ⟨_, _, rfl, rfl, by decide +kernel, by decide +kernel⟩

/-- Stations A (two of three observations used), B (none used) and C (two used). -/
example : ((allLabels [⟨['A', 'Z'], 5, 10⟩, ⟨['A', 'E'], 6, 10⟩, ⟨['C', 'Z'], 4, 20⟩, ⟨['C', 'E'], 2, 20⟩]
    [⟨['A', 'N'], 1, 10⟩, ⟨['B', 'N'], 3, 15⟩, ⟨['B', 'E'], 7, 15⟩] : List (Label ℕ ℕ) × List (Label ℕ ℕ))) =
    ([⟨['A'], ['Z', 'E'], some 10, some 6⟩, ⟨['C'], ['Z', 'E'], some 20, some 4⟩],
     [⟨['B'], ['N', 'E'], some 15, some 7⟩]) := by decide +kernel

/-- This case meets the hypotheses of `C150_once_partial`. -/
example : let A : List (List Char × List (Mark ℕ ℕ)) := [(['A'], [⟨['A', 'Z'], 5, 10⟩, ⟨['A', 'E'], 6, 10⟩, ⟨['A', 'N'], 1, 10⟩]),
      (['B'], [⟨['B', 'N'], 3, 15⟩, ⟨['B', 'E'], 7, 15⟩])]
    let g : List Char × List (Mark ℕ ℕ) := (['C'], [⟨['C', 'Z'], 4, 20⟩, ⟨['C', 'E'], 2, 20⟩])
    let used : Mark ℕ ℕ → Bool := fun m => decide (m.dist ≠ 15 ∧ 1 < m.amp)
    Spec.Stations (A ++ [g]) ∧ (∀ x ∈ A ++ [g], x.2 ≠ []) ∧ 2 ≤ (g.2.filter used).length ∧
    (((A ++ [g]).filter fun x => !x.2.any used).flatMap Prod.snd).length ≠ 1 := by
  refine ⟨⟨by decide, ?_, by decide⟩, by decide, by decide, by decide⟩
  intro g hg m hm
  fin_cases hg <;> fin_cases hm <;> exact ⟨_, rfl⟩

/-! ## C149: crosses and curves -/

section
open Magnitude Classical

/-- The amplitude the network magnitude `m` predicts at distance `d`: its logarithm is the magnitude less the
attenuation. -/
noncomputable def Spec.predictedAmp (A0 : ℝ → ℝ) (m d : ℝ) : ℝ := (10 : ℝ) ^ (m - A0 d)

theorem mem_filterMags_dist {c : Magnitude.Cfg} {t : List Obs} {r : Magnitude.Row} (h : r ∈ filterMags (calculate c t)) :
    ∃ o ∈ t, r.obs.id = o.id ∧ r.obs.amp = o.amp ∧ o.amp.isSome ∧ r.obs.noise.isSome ∧ distOf c r = nonZero (rawDist c o) ∧
      r.ml = ml c t o := by
  obtain ⟨h1, h2⟩ := List.mem_filter.1 h
  obtain ⟨r1, h3, rfl⟩ := List.mem_map.1 h1
  obtain ⟨o, ho, rfl⟩ := List.mem_map.1 h3
  simp only [Bool.and_eq_true] at h2
  refine ⟨o, ho, ?_, ?_, ?_, h2.2, ?_, rfl⟩
  · split_ifs <;> rfl
  · split_ifs <;> rfl
  · have := h2.1
    split_ifs at this <;> exact this
  · unfold distOf rawDist
    by_cases hv : c.view = true ∧ ¬ c.useHyp = true
    · rw [if_pos hv]
      simp only [hv.2, if_false, Bool.false_eq_true]
      cases he : o.epi with
      | none => rfl
      | some x =>
        by_cases hx : x = 0 <;> simp [nonZero, hx]
    · rw [if_neg hv]

/-- C149: a cross stands at the distance of the station, and its amplitude is the one that the magnitude of the
observation predicts there. -/
theorem C149_point (c : Magnitude.Cfg) (t : List Obs) (r : Magnitude.Row) (h : r ∈ filterMags (calculate c t)) (m : ℝ)
    (hm : r.ml = some m) : ∃ d, distOf c r = some d ∧ ampShown c r = Spec.predictedAmp c.A0 m d := by
  obtain ⟨o, ho, h1, h2, -, -, h4, h5⟩ := mem_filterMags_dist h
  rw [hm] at h5
  unfold ml at h5
  have hsig : ∀ a, signalAmp c t o = some a → o.amp.getD 0 * c.mult = a := by
    intro a ha
    unfold signalAmp at ha
    cases hoa : o.amp with
    | none => rw [hoa] at ha; simp at ha
    | some x =>
      rw [hoa] at ha
      simp only at ha
      simp only [Option.getD_some]
      split at ha
      · split_ifs at ha; simpa using ha
      · split_ifs at ha; simpa using ha
  cases hs : signalAmp c t o with
  | none => rw [hs] at h5; simp at h5
  | some a =>
    have hl : log10 a = if 0 < a then some (Real.logb 10 a) else none := rfl
    rw [hs, Option.bind_some, hl] at h5
    by_cases ha : 0 < a
    · rw [if_pos ha] at h5
      unfold atten at h5
      cases hd : nonZero (rawDist c o) with
      | none => rw [hd] at h5; simp at h5
      | some d =>
        rw [hd] at h5
        simp only [Option.map_some, Option.some.injEq] at h5
        refine ⟨d, h4.trans hd, ?_⟩
        unfold ampShown Spec.predictedAmp
        rw [h1, h2, hsig a hs, h5]
        rw [show Real.logb 10 a + c.A0 d + correction c o.id - c.A0 d = Real.logb 10 a + correction c o.id by ring]
        rw [Real.rpow_add (by norm_num), Real.rpow_logb (by norm_num) (by norm_num) ha]
    · rw [if_neg ha] at h5
      simp at h5

theorem calcMagnitude_figure {c : Magnitude.Cfg} {plot : Bool} {derr : ℝ} {t : List Obs} {M : Mean} {fig : Figure}
    (h : calcMagnitude c plot derr t = .ok (M, some fig)) :
    plot = true ∧ usedRows c t ≠ [] ∧ meanMagnitude c (calculate c t) = some M ∧
    plotAmplitudes c (filterMags (calculate c t)) M.mean M.err derr = .ok fig := by
  unfold calcMagnitude at h
  by_cases h1 : (t.all fun o => o.amp.isNone) = true
  · rw [if_pos h1] at h
    simp at h
  · rw [if_neg h1] at h
    cases hM : meanMagnitude c (calculate c t) with
    | none => rw [hM] at h; simp at h
    | some M' =>
      rw [hM] at h
      simp only at h
      by_cases h2 : (plot && !((filterMags (calculate c t)).filter (used c)).isEmpty) = true
      · rw [if_pos h2] at h
        simp only [Bool.and_eq_true, Bool.not_eq_true', ← Bool.not_eq_true, List.isEmpty_iff] at h2
        cases hp : plotAmplitudes c (filterMags (calculate c t)) M'.mean M'.err derr with
        | error e => rw [hp] at h; simp at h
        | ok f =>
          rw [hp] at h
          simp only [Except.ok.injEq, Prod.mk.injEq, Option.some.injEq] at h
          obtain ⟨rfl, rfl⟩ := h
          exact ⟨h2.1, h2.2, rfl, hp⟩
      · rw [if_neg h2] at h
        simp at h

theorem plotAmplitudes_ok {c : Magnitude.Cfg} {rows : List Magnitude.Row} {mean : Option ℝ} {err : Magnitude.Err}
    {derr : ℝ} {fig : Figure} (h : plotAmplitudes c rows mean err derr = .ok fig) :
    ∃ dmin dmax m amax nmin, (rows.filterMap (distOf c)).min? = some dmin ∧ (rows.filterMap (distOf c)).max? = some dmax ∧
      mean = some m ∧ (rows.map (ampShown c)).max? = some amax ∧ (rows.map (noiseShown c)).min? = some nmin ∧
      fig.points = (rows.map fun r => ⟨r.obs.id, distOf c r, ampShown c r, derr, noiseShown c r, used c r⟩) ∧
      fig.labels = allLabels (marks c (rows.filter (used c))) (marks c (rows.filter fun r => !used c r)) ∧
      fig.mag = m ∧ (∀ e, err = .fin e → fig.band = some (m - e, m + e)) ∧
      fig.at_ = distances (dmin / 2) (dmax * (3 / 2)) ∧ fig.xlim = (dmin / 2, dmax * (3 / 2)) ∧
      fig.ylim = (nmin / 10, max (((fig.at_.map (predicted c m)).max?).getD 0) (amax * 5)) := by
  unfold plotAmplitudes at h
  simp only at h
  cases h1 : (rows.filterMap (distOf c)).min? with
  | none => rw [h1] at h; simp at h
  | some dmin =>
  cases h2 : (rows.filterMap (distOf c)).max? with
  | none => rw [h1, h2] at h; simp at h
  | some dmax =>
  cases h3 : mean with
  | none => rw [h1, h2, h3] at h; simp at h
  | some m =>
  cases h4 : (rows.map (ampShown c)).max? with
  | none => rw [h1, h2, h3, h4] at h; simp at h
  | some amax =>
  cases h5 : (rows.map (noiseShown c)).min? with
  | none => rw [h1, h2, h3, h4, h5] at h; simp at h
  | some nmin =>
  rw [h1, h2, h3, h4, h5] at h
  simp only [Except.ok.injEq] at h
  subst h
  refine ⟨dmin, dmax, m, amax, nmin, rfl, rfl, rfl, rfl, rfl, rfl, rfl, rfl, ?_, ?_, ?_, ?_⟩
  · rintro e rfl
    dsimp only
  all_goals dsimp only

/-- C149: the figure has a cross for every observation with a signal and a noise amplitude, marked as used if it
contributes to the network magnitude, which is the magnitude of the full curve.  The cross is below, on or above that
curve according as the magnitude of the observation is less than, equal to or greater than the network magnitude, and
between the dashed curves if and only if it differs from it by no more than the error. -/
theorem C149_figure (c : Magnitude.Cfg) (plot : Bool) (derr : ℝ) (t : List Obs) (M : Mean) (fig : Figure)
    (h : calcMagnitude c plot derr t = .ok (M, some fig)) :
    M.mean = some fig.mag ∧
    fig.points.map (fun p => (p.id, p.used)) =
      (filterMags (calculate c t)).map (fun r => (r.obs.id, decide (r ∈ usedRows c t))) ∧
    ∀ (i : ℕ) (r : Magnitude.Row) (p : Point), (filterMags (calculate c t))[i]? = some r → fig.points[i]? = some p →
      ∀ m, r.ml = some m → ∃ d, p.dist = some d ∧
        (p.amp < Spec.predictedAmp c.A0 fig.mag d ↔ m < fig.mag) ∧
        (p.amp = Spec.predictedAmp c.A0 fig.mag d ↔ m = fig.mag) ∧
        (Spec.predictedAmp c.A0 fig.mag d < p.amp ↔ fig.mag < m) ∧
        ∀ e, M.err = .fin e → ∃ lo hi, fig.band = some (lo, hi) ∧
          (Spec.predictedAmp c.A0 lo d ≤ p.amp ∧ p.amp ≤ Spec.predictedAmp c.A0 hi d ↔ |m - fig.mag| ≤ e) := by
  obtain ⟨-, -, -, h1⟩ := calcMagnitude_figure h
  obtain ⟨dmin, dmax, m', amax, nmin, -, -, g3, -, -, g6, -, g7, g8, -⟩ := plotAmplitudes_ok h1
  have hlt : ∀ x y d : ℝ, Spec.predictedAmp c.A0 x d < Spec.predictedAmp c.A0 y d ↔ x < y := by
    intro x y d
    unfold Spec.predictedAmp
    rw [Real.rpow_lt_rpow_left_iff (by norm_num)]
    constructor <;> intro h <;> linarith
  have hle : ∀ x y d : ℝ, Spec.predictedAmp c.A0 x d ≤ Spec.predictedAmp c.A0 y d ↔ x ≤ y := by
    intro x y d
    rw [← not_lt, ← not_lt, hlt]
  refine ⟨by rw [g3, g7], ?_, ?_⟩
  · rw [g6, List.map_map]
    apply List.map_congr_left
    intro r hr
    simp only [Function.comp, Prod.mk.injEq, true_and]
    rw [Bool.eq_iff_iff, decide_eq_true_eq]
    unfold usedRows
    rw [List.mem_filter]
    exact ⟨fun h => ⟨hr, h⟩, fun h => h.2⟩
  · intro i r p hr hp m hm
    obtain ⟨d, hd1, hd2⟩ := C149_point c t r (List.mem_of_getElem? hr) m hm
    rw [g6, List.getElem?_map, hr] at hp
    simp only [Option.map_some, Option.some.injEq] at hp
    subst hp
    refine ⟨d, hd1, ?_, ?_, ?_, ?_⟩
    · simp only [hd2]; rw [hlt]
    · simp only [hd2]
      rw [le_antisymm_iff, hle, hle, ← le_antisymm_iff]
    · simp only [hd2]; rw [hlt]
    · intro e he
      refine ⟨m' - e, m' + e, g8 e he, ?_⟩
      simp only [hd2, hle, g7]
      rw [abs_le]
      constructor <;> rintro ⟨h1, h2⟩ <;> constructor <;> linarith

/-- C149: the curves are drawn across the whole figure: the first and the last distance at which they are computed are
the limits of the distance axis, and they are equally spaced in between. -/
theorem C149_curves (c : Magnitude.Cfg) (plot : Bool) (derr : ℝ) (t : List Obs) (M : Mean) (fig : Figure)
    (h : calcMagnitude c plot derr t = .ok (M, some fig)) :
    fig.at_.head? = some fig.xlim.1 ∧ fig.at_.getLast? = some fig.xlim.2 ∧
    ∃ step, ∀ i a b, fig.at_[i]? = some a → fig.at_[i + 1]? = some b → b - a = step := by
  obtain ⟨-, -, -, h1⟩ := calcMagnitude_figure h
  obtain ⟨dmin, dmax, m', amax, nmin, -, -, -, -, -, -, -, -, -, g9, g10, -⟩ := plotAmplitudes_ok h1
  rw [g9, g10]
  unfold distances
  refine ⟨?_, ?_, (dmax * (3 / 2) - dmin / 2) / 9999, ?_⟩
  · rw [show (10000 : ℕ) = 9999 + 1 from rfl, List.range_succ_eq_map]
    simp
  · rw [show (10000 : ℕ) = 9999 + 1 from rfl, List.range_succ, List.map_append, List.map_singleton,
      List.getLast?_append, List.getLast?_singleton, Option.some_or, Option.some.injEq]
    push_cast
    ring
  · intro i a b ha hb
    rw [List.getElem?_map, Option.map_eq_some_iff] at ha hb
    obtain ⟨i', hi, rfl⟩ := ha
    obtain ⟨j', hj, rfl⟩ := hb
    obtain ⟨_, hi⟩ := List.getElem?_eq_some_iff.1 hi
    obtain ⟨_, hj⟩ := List.getElem?_eq_some_iff.1 hj
    rw [List.getElem_range] at hi hj
    subst hi hj
    push_cast
    ring

/-- C149: the horizontal bars have the length of the horizontal location uncertainty (with hypocentral distances, of the
three-dimensional one) in km, whatever the unit of the grid; the vertical ones that of the noise amplitude with the same
correction as the signal. -/
theorem C149_bars (c : Magnitude.Cfg) (plot : Bool) (x y z km : ℝ) (hkm : 0 < km) (t : List Obs) (M : Mean) (fig : Figure)
    (h : calcMagnitude c plot (distErr c.useHyp x y z km) t = .ok (M, some fig)) (i : ℕ) (r : Magnitude.Row) (p : Point)
    (hr : (filterMags (calculate c t))[i]? = some r) (hp : fig.points[i]? = some p) :
    p.xerr * km = √(x ^ 2 + y ^ 2 + if c.useHyp then z ^ 2 else 0) ∧
    ∀ a n, r.obs.amp = some a → r.obs.noise = some n → p.yerr * a = p.amp * n := by
  obtain ⟨-, -, -, h1⟩ := calcMagnitude_figure h
  obtain ⟨_, _, _, _, _, -, -, -, -, -, g6, -⟩ := plotAmplitudes_ok h1
  rw [g6, List.getElem?_map, hr] at hp
  simp only [Option.map_some, Option.some.injEq] at hp
  subst hp
  refine ⟨?_, ?_⟩
  · have key : ∀ w : ℝ, √(w / km ^ 2) * km = √w := by
      intro w
      rw [Real.sqrt_div' _ (by positivity), Real.sqrt_sq hkm.le]
      field_simp
    unfold distErr
    dsimp only
    have e1 : (x / km) ^ 2 + (y / km) ^ 2 = (x ^ 2 + y ^ 2) / km ^ 2 := by field_simp
    by_cases hu : c.useHyp = true
    · simp only [hu, if_true]
      rw [Real.sq_sqrt (by positivity), e1, show (x ^ 2 + y ^ 2) / km ^ 2 + (z / km) ^ 2 = (x ^ 2 + y ^ 2 + z ^ 2) / km ^ 2 by
        field_simp, key]
    · simp only [hu, if_false, Bool.false_eq_true]
      rw [e1, key, add_zero]
  · intro a n ha hn
    simp only [ampShown, noiseShown, ha, hn, Option.getD_some]
    ring

theorem le_of_max? {l : List ℝ} {a x : ℝ} (h : l.max? = some a) (hx : x ∈ l) : x ≤ a :=
  (List.max?_eq_some_iff.1 h).2 x hx

theorem ge_of_min? {l : List ℝ} {a x : ℝ} (h : l.min? = some a) (hx : x ∈ l) : a ≤ x :=
  (List.min?_eq_some_iff.1 h).2 x hx

theorem noise_le_amp {c : Magnitude.Cfg} {t : List Obs} {r : Magnitude.Row} (h : r ∈ filterMags (calculate c t))
    (hm : 0 < c.mult) (hml : r.ml ≠ none) (a n : ℝ) (ha : r.obs.amp = some a) (hn : r.obs.noise = some n) : n ≤ a := by
  obtain ⟨h1, -⟩ := List.mem_filter.1 h
  obtain ⟨r1, h3, rfl⟩ := List.mem_map.1 h1
  obtain ⟨o, ho, rfl⟩ := List.mem_map.1 h3
  simp only at ha hn hml
  have ea : o.amp = some a := by
    rw [← ha]; split_ifs <;> rfl
  have hgain : ∀ o : Obs, (if c.view = true ∧ ¬ c.useHyp = true then { o with epi := nonZero o.epi } else o).gain = o.gain := by
    intro o; split_ifs <;> rfl
  have en : noiseGain t o = some n := by
    rw [← hn]
    unfold noiseGain calculate
    rw [List.map_map, List.any_map]
    have e1 : ((fun o : Obs => o.gain.isSome) ∘ Row.obs ∘ fun o : Obs =>
        (⟨if c.view = true ∧ ¬ c.useHyp = true then { o with epi := nonZero o.epi } else o, ml c t o, mlErr c t o⟩ :
          Magnitude.Row)) = fun o : Obs => o.gain.isSome := by
      funext o
      simp only [Function.comp]
      rw [hgain]
    rw [e1]
    have e2 : (if c.view = true ∧ ¬ c.useHyp = true then ({ o with epi := nonZero o.epi } : Obs) else o).noise = o.noise := by
      split_ifs <;> rfl
    rw [e2, hgain]
  by_contra hlt
  apply hml
  unfold ml signalAmp
  rw [ea, en]
  simp only [Option.map_some]
  rw [if_pos (mul_lt_mul_of_pos_right (not_le.1 hlt) hm)]
  rfl

/-- C149: all that counts is inside the axes: the used observations, and the full curve from above.  Missing: noise
filters below 0.1 with weights, see `C149_violated_visible`. -/
theorem C149_visible_partial (c : Magnitude.Cfg) (plot : Bool) (derr : ℝ) (t : List Obs) (M : Mean) (fig : Figure)
    (h : calcMagnitude c plot derr t = .ok (M, some fig)) (hmult : 0 < c.mult) (hF : c.weighted = false ∨ 1 / 10 ≤ c.noiseF)
    (hn : ∀ r ∈ filterMags (calculate c t), ∀ n, r.obs.noise = some n → 0 ≤ n)
    (hd : ∀ r ∈ filterMags (calculate c t), ∀ d, distOf c r = some d → 0 < d) :
    (∀ p ∈ fig.points, p.used = true → fig.ylim.1 ≤ p.amp ∧ p.amp ≤ fig.ylim.2) ∧
    (∀ p ∈ fig.points, ∀ d, p.dist = some d → fig.xlim.1 < d ∧ d < fig.xlim.2) ∧
    ∀ d ∈ fig.at_, Spec.predictedAmp c.A0 fig.mag d ≤ fig.ylim.2 := by
  obtain ⟨-, hu0, hM, h1⟩ := calcMagnitude_figure h
  obtain ⟨dmin, dmax, m', amax, nmin, g1, g2, g3, g4, g5, g6, -, g7, -, g9, g10, g11⟩ := plotAmplitudes_ok h1
  refine ⟨?_, ?_, ?_⟩
  · intro p hp hu
    rw [g6] at hp
    obtain ⟨r, hr, rfl⟩ := List.mem_map.1 hp
    simp only at hu ⊢
    rw [g11]
    simp only
    have k1 : nmin ≤ noiseShown c r := ge_of_min? g5 (List.mem_map_of_mem hr)
    have k2 : ampShown c r ≤ amax := le_of_max? g4 (List.mem_map_of_mem hr)
    obtain ⟨o, ho, -, ea, eas, ens, -⟩ := mem_filterMags_dist hr
    obtain ⟨a, ha⟩ := Option.isSome_iff_exists.1 eas
    obtain ⟨n, hb⟩ := Option.isSome_iff_exists.1 ens
    rw [ha] at ea
    have hn0 := hn r hr n hb
    have h3 : n / 10 ≤ a := by
      rcases hF with hF | hF
      · have hml : r.ml ≠ none := by
          obtain ⟨hm1, -⟩ := meanMagnitude_used hM hu0
          rw [g3, if_neg (by simp [hF])] at hm1
          obtain ⟨hall, -⟩ := plainMean_some hm1.symm
          obtain ⟨x, hx⟩ := hall r.ml (List.mem_map_of_mem (List.mem_filter.2 ⟨hr, hu⟩))
          rw [hx]
          simp
        have := noise_le_amp hr hmult hml a n ea hb
        linarith
      · have hF0 : c.noiseF ≠ 0 := by linarith
        unfold used at hu
        simp only [hF0, if_false, Bool.and_eq_true] at hu
        have hnoise := hu.2
        unfold noiseOK at hnoise
        rw [ea, hb] at hnoise
        simp only [decide_eq_true_eq] at hnoise
        nlinarith
    have hpow : 0 < (10 : ℝ) ^ correction c r.obs.id := Real.rpow_pos_of_pos (by norm_num) _
    have e1 : ampShown c r = a * (c.mult * (10 : ℝ) ^ correction c r.obs.id) := by
      unfold ampShown; rw [ea, Option.getD_some]; ring
    have e2 : noiseShown c r = n * (c.mult * (10 : ℝ) ^ correction c r.obs.id) := by
      unfold noiseShown; rw [hb, Option.getD_some]; ring
    have hs : 0 < c.mult * (10 : ℝ) ^ correction c r.obs.id := mul_pos hmult hpow
    generalize c.mult * (10 : ℝ) ^ correction c r.obs.id = s at e1 e2 hs
    have h4 : n * s / 10 ≤ a * s := by
      have := mul_le_mul_of_nonneg_right h3 hs.le
      linarith
    have h5 : 0 ≤ n * s := mul_nonneg hn0 hs.le
    refine ⟨by linarith, le_trans ?_ (le_max_right _ _)⟩
    linarith
  · intro p hp d hpd
    rw [g6] at hp
    obtain ⟨r, hr, rfl⟩ := List.mem_map.1 hp
    simp only at hpd
    have hmem : d ∈ (filterMags (calculate c t)).filterMap (distOf c) := List.mem_filterMap.2 ⟨r, hr, hpd⟩
    have k1 := ge_of_min? g1 hmem
    have k2 := le_of_max? g2 hmem
    have k3 := hd r hr d hpd
    rw [g10]
    simp only
    obtain ⟨r', hr', hd'⟩ := List.mem_filterMap.1 (List.min?_eq_some_iff.1 g1).1
    have k4 := hd r' hr' dmin hd'
    constructor <;> linarith
  · intro d hdd
    rw [g11, g7]
    simp only
    refine le_trans ?_ (le_max_left _ _)
    have hmem : predicted c m' d ∈ fig.at_.map (predicted c m') := List.mem_map_of_mem hdd
    cases hmax : (fig.at_.map (predicted c m')).max? with
    | none =>
      rw [List.max?_eq_none_iff] at hmax
      rw [hmax] at hmem
      simp at hmem
    | some b =>
      rw [Option.getD_some]
      exact le_of_max? hmax hmem

/-! ## C151: an undefined magnitude -/

/-- C151: exactly when `calc_magnitude` with the figure switched on raises: a network magnitude that was computed and
is not a number. -/
theorem C151_raises_iff (c : Magnitude.Cfg) (derr : ℝ) (t : List Obs) (M : Mean)
    (hM : meanMagnitude c (calculate c t) = some M) (hu : usedRows c t ≠ []) :
    (∃ e, calcMagnitude c true derr t = .error e) ↔ M.mean = none := by
  have hall : ¬ (t.all fun o => o.amp.isNone) = true := by
    intro hc
    obtain ⟨r, hr⟩ := List.exists_mem_of_ne_nil _ hu
    obtain ⟨o, ho, -, -, h3, -⟩ := mem_filterMags_dist (List.mem_filter.1 hr).1
    have := List.all_eq_true.1 hc o ho
    rw [Option.isNone_iff_eq_none] at this
    rw [this] at h3
    simp at h3
  have hcalc : calcMagnitude c true derr t =
      match plotAmplitudes c (filterMags (calculate c t)) M.mean M.err derr with
      | .ok fig => .ok (M, some fig)
      | .error e => .error e := by
    have h2 : (true && !((filterMags (calculate c t)).filter (used c)).isEmpty) = true := by
      simp only [Bool.true_and, Bool.not_eq_true', ← Bool.not_eq_true, List.isEmpty_iff]
      exact hu
    unfold calcMagnitude
    rw [if_neg hall, hM]
    simp only
    rw [if_pos h2]
    cases plotAmplitudes c (filterMags (calculate c t)) M.mean M.err derr <;> rfl
  rw [hcalc]
  constructor
  · rintro ⟨e, he⟩
    by_contra hne
    obtain ⟨μ, hμ⟩ := Option.ne_none_iff_exists'.1 hne
    obtain ⟨r, hr, -, -, a, -, ha, -⟩ := C63_between c t M hM μ hμ
    have hr' := (List.mem_filter.1 hr).1
    obtain ⟨d, hd, -⟩ := C149_point c t r hr' a ha
    have hmem : d ∈ (filterMags (calculate c t)).filterMap (distOf c) := List.mem_filterMap.2 ⟨r, hr', hd⟩
    have hsome : ∀ (l : List ℝ) (x : ℝ), x ∈ l → (∃ y, l.max? = some y) ∧ ∃ y, l.min? = some y := by
      intro l x hx
      have hl : l ≠ [] := List.ne_nil_of_mem hx
      constructor
      · exact Option.ne_none_iff_exists'.1 (fun h => hl (List.max?_eq_none_iff.1 h))
      · exact Option.ne_none_iff_exists'.1 (fun h => hl (List.min?_eq_none_iff.1 h))
    obtain ⟨⟨y1, h1⟩, ⟨y2, h2⟩⟩ := hsome _ d hmem
    obtain ⟨⟨y3, h3⟩, -⟩ := hsome _ _ (List.mem_map_of_mem (f := ampShown c) hr')
    obtain ⟨-, ⟨y4, h4⟩⟩ := hsome _ _ (List.mem_map_of_mem (f := noiseShown c) hr')
    unfold plotAmplitudes at he
    simp only [h1, h2, h3, h4, hμ] at he
    cases he
  · intro hnone
    cases hp : plotAmplitudes c (filterMags (calculate c t)) M.mean M.err derr with
    | ok f =>
      obtain ⟨_, _, m, _, _, -, -, hm, -⟩ := plotAmplitudes_ok hp
      rw [hnone] at hm
      simp at hm
    | error e => exact ⟨e, rfl⟩

/-- C151: the magnitude step does not raise.  Missing: noise filters below 1, negative noise, distances 0 or unknown
and, with weights, noise 0. -/
theorem C151_fine_partial (c : Magnitude.Cfg) (plot : Bool) (derr : ℝ) (t : List Obs) (hF : 1 ≤ c.noiseF) (hm : 0 < c.mult)
    (hn : ∀ o ∈ t, ∀ n, noiseGain t o = some n → if c.weighted then 0 < n else 0 ≤ n)
    (hd : ∀ o ∈ t, ∃ x, o.epi = some x ∧ 0 < x) : AmplitudePlot.later c plot derr t = .fine := by
  have key : ∃ r, calcMagnitude c plot derr t = .ok r := by
    by_cases hu : usedRows c t = []
    · have hM : meanMagnitude c (calculate c t) = some ⟨none, .nan, none⟩ := by
        unfold meanMagnitude
        change (if usedRows c t = [] then _ else _) = _
        rw [if_pos hu]
      unfold calcMagnitude
      by_cases h1 : (t.all fun o => o.amp.isNone) = true
      · rw [if_pos h1]
        exact ⟨_, rfl⟩
      · rw [if_neg h1, hM]
        simp only
        rw [if_neg]
        · exact ⟨_, rfl⟩
        · change ¬ (plot && !(usedRows c t).isEmpty) = true
          rw [hu]
          simp
    · obtain ⟨M, μ, hM, hμ⟩ := C64_defined_partial c t hF hm hn hd hu
      cases plot with
      | true =>
        have := (C151_raises_iff c derr t M hM hu).not.2 (by rw [hμ]; simp)
        cases h : calcMagnitude c true derr t with
        | ok r => exact ⟨r, rfl⟩
        | error e => exact absurd ⟨e, h⟩ this
      | false =>
        unfold calcMagnitude
        by_cases h1 : (t.all fun o => o.amp.isNone) = true
        · rw [if_pos h1]
          exact ⟨_, rfl⟩
        · rw [if_neg h1, hM]
          simp only [Bool.false_and, Bool.false_eq_true, if_false]
          exact ⟨_, rfl⟩
  obtain ⟨r, hr⟩ := key
  unfold AmplitudePlot.later
  rw [hr]

theorem later_off {c : Magnitude.Cfg} {t : List Obs} {M : Mean} (hM : meanMagnitude c (calculate c t) = some M) (derr : ℝ) :
    AmplitudePlot.later c false derr t = .fine := by
  unfold AmplitudePlot.later calcMagnitude
  by_cases h1 : (t.all fun o => o.amp.isNone) = true
  · rw [if_pos h1]
  · rw [if_neg h1, hM]
    simp only [Bool.false_and, Bool.false_eq_true, if_false]

/-- C151: an event whose network magnitude is not a number, and which is written without the figure, ends the run if
the figure is switched on: neither it nor any event after it is written. -/
theorem C151_ends_run (c : Magnitude.Cfg) (t : List Obs) (M : Mean) (hM : meanMagnitude c (calculate c t) = some M)
    (hu : usedRows c t ≠ []) (hnan : M.mean = none) {σ : Type} (mw : ℚ) (derr : ℝ)
    (outcome : Locate.Trig → Locate.Outcome σ) (off on : Locate.Trig → Locate.Later) (x : Locate.Trig)
    (hon : on x = AmplitudePlot.later c true derr t)
    (hw : (Locate.locateEvents mw outcome off [x]).written ≠ []) (xs : List Locate.Trig) :
    Locate.locateEvents mw outcome on (x :: xs) = ⟨[], false⟩ := by
  obtain ⟨e, he⟩ := (C151_raises_iff c derr t M hM hu).2 hnan
  have h1 : on x = .raisesBeforeWrite := by
    rw [hon]
    unfold AmplitudePlot.later
    rw [he]
  unfold Locate.locateEvents at hw ⊢
  cases ho : outcome x with
  | archiveEmpty => rw [ho] at hw; simp [Locate.locateEvents] at hw
  | dataGap => rw [ho] at hw; simp [Locate.locateEvents] at hw
  | dataAvailability => rw [ho] at hw; simp [Locate.locateEvents] at hw
  | other => rfl
  | computed rows map =>
    rw [ho] at hw
    simp only at hw ⊢
    cases ha : Locate.addComputeOutput rows map with
    | none => rfl
    | some ev =>
      rw [ha] at hw
      simp only at hw ⊢
      by_cases hin : Locate.inMarginalWindow x.time ev.otime mw
      · rw [if_pos hin]
        cases ht : Locate.trim2window mw ev with
        | none => rfl
        | some ev' => simp only [h1]
      · rw [if_neg hin] at hw
        simp [Locate.locateEvents] at hw

/-- C151 is false of the code: with the figure switched on and the default noise filter, one used observation at
distance 0 ends the run of `locate` at an event that is written without the figure. -/
theorem C151_violated : ∃ (c : Magnitude.Cfg) (t : List Obs), c.noiseF = 1 ∧
    ∀ (σ : Type) (mw : ℚ) (derr : ℝ) (outcome : Locate.Trig → Locate.Outcome σ) (off on : Locate.Trig → Locate.Later)
      (x : Locate.Trig), off x = AmplitudePlot.later c false derr t → on x = AmplitudePlot.later c true derr t →
      off x = .fine ∧ ((Locate.locateEvents mw outcome off [x]).written ≠ [] → ∀ xs,
        Locate.locateEvents mw outcome on (x :: xs) = ⟨[], false⟩) := by
  obtain ⟨c, t, M, h1, h2, h3, h4⟩ := C64_violated_distance
  refine ⟨c, t, h1, ?_⟩
  intro σ mw derr outcome off on x hoff hon
  refine ⟨by rw [hoff, later_off h3], ?_⟩
  intro hw xs
  exact C151_ends_run c t M h3 h2 h4 mw derr outcome off on x hon hw xs

theorem figure_of_mean (c : Magnitude.Cfg) (derr : ℝ) (t : List Obs) (hu : usedRows c t ≠ []) {M : Mean} {μ : ℝ}
    (hM : meanMagnitude c (calculate c t) = some M) (hμ : M.mean = some μ) :
    ∃ M fig, calcMagnitude c true derr t = .ok (M, some fig) := by
  have hno := (C151_raises_iff c derr t M hM hu).not.2 (by rw [hμ]; simp)
  cases h : calcMagnitude c true derr t with
  | error e => exact absurd ⟨e, h⟩ hno
  | ok r =>
    obtain ⟨M', o⟩ := r
    cases o with
    | some fig => exact ⟨M', fig, rfl⟩
    | none =>
      exfalso
      unfold calcMagnitude at h
      by_cases h1 : (t.all fun o => o.amp.isNone) = true
      · obtain ⟨r, hr⟩ := List.exists_mem_of_ne_nil _ hu
        obtain ⟨o, ho, -, -, h3, -⟩ := mem_filterMags_dist (List.mem_filter.1 hr).1
        have := List.all_eq_true.1 h1 o ho
        rw [Option.isNone_iff_eq_none] at this
        rw [this] at h3
        simp at h3
      · rw [if_neg h1, hM] at h
        simp only at h
        rw [if_pos] at h
        · split at h <;> simp at h
        · simp only [Bool.true_and, Bool.not_eq_true', ← Bool.not_eq_true, List.isEmpty_iff]
          exact hu

theorem figure_exists (c : Magnitude.Cfg) (derr : ℝ) (t : List Obs) (hF : 1 ≤ c.noiseF) (hm : 0 < c.mult)
    (hn : ∀ o ∈ t, ∀ n, noiseGain t o = some n → if c.weighted then 0 < n else 0 ≤ n)
    (hd : ∀ o ∈ t, ∃ x, o.epi = some x ∧ 0 < x) (hu : usedRows c t ≠ []) :
    ∃ M fig, calcMagnitude c true derr t = .ok (M, some fig) := by
  obtain ⟨M, μ, hM, hμ⟩ := C64_defined_partial c t hF hm hn hd hu
  exact figure_of_mean c derr t hu hM hμ

/-- C149 is false of the code for low noise filters and weights: the second of two used observations, with amplitude 1
and noise 1000, is below the axes, which begin at 100. -/
theorem C149_violated_visible : ∃ (c : Magnitude.Cfg) (t : List Obs) (M : Mean) (fig : Figure), 0 < c.mult ∧ 0 < c.noiseF ∧
    calcMagnitude c true 0 t = .ok (M, some fig) ∧ ∃ p ∈ fig.points, p.used = true ∧ p.amp < fig.ylim.1 := by
  let c : Magnitude.Cfg := { exMagCfgW true with noiseF := 1 / 10000 }
  let t : List Obs := [exObs 10000 1000, exObs 1 1000]
  have hg : ∀ o, noiseGain t o = o.noise := by
    intro o; simp [noiseGain, t, exObs]
  have hcalc : calculate c t = [⟨exObs 10000 1000, some (Real.logb 10 10000), .fin (Real.logb 10 11000 - Real.logb 10 9000)⟩,
      ⟨exObs 1 1000, none, .nan⟩] := by
    unfold calculate
    simp only [t, List.map_cons, List.map_nil]
    rw [show [exObs 10000 1000, exObs 1 1000] = t from rfl]
    have m1 : ml c t (exObs 10000 1000) = some (Real.logb 10 10000) := by
      unfold ml signalAmp
      rw [hg]
      simp [exObs, c, exMagCfgW, atten, rawDist, nonZero, correction]
      rw [if_neg (by norm_num)]
      simp [log10]
    have m2 : ml c t (exObs 1 1000) = none := by
      unfold ml signalAmp
      rw [hg]
      simp [exObs, c, exMagCfgW]
    have e1 : mlErr c t (exObs 10000 1000) = .fin (Real.logb 10 11000 - Real.logb 10 9000) := by
      unfold mlErr signalAmp
      rw [hg]
      simp [exObs, c, exMagCfgW, atten, rawDist, nonZero]
      norm_num
    have e2 : mlErr c t (exObs 1 1000) = .nan := by
      unfold mlErr signalAmp
      rw [hg]
      simp [exObs, c, exMagCfgW]
    rw [m1, m2, e1, e2]
    simp [c, exMagCfgW]
  have hfil : filterMags (calculate c t) = calculate c t := by
    unfold filterMags corrected dropna
    rw [hcalc]
    simp [noiseGain, exObs]
  have hall : ∀ r ∈ filterMags (calculate c t), used c r = true := by
    rw [hfil, hcalc]
    intro r hr
    simp only [List.mem_cons, List.not_mem_nil, or_false] at hr
    rcases hr with rfl | rfl <;>
      simp [used, traceOK, stationOK, distOK, noiseOK, exObs, exMagCfgW, c] <;> norm_num
  have hus : usedRows c t = calculate c t := by
    unfold usedRows
    rw [List.filter_eq_self.2 hall, hfil]
  have hu : usedRows c t ≠ [] := by rw [hus, hcalc]; simp
  have hM : ∃ M, meanMagnitude c (calculate c t) = some M := by
    unfold meanMagnitude
    change ∃ M, (if usedRows c t = [] then _ else _) = some M
    rw [if_neg hu]
    exact ⟨_, rfl⟩
  obtain ⟨M, hM⟩ := hM
  obtain ⟨h1, -, -, -⟩ := meanMagnitude_used hM hu
  have hlog : Real.logb 10 9000 < Real.logb 10 11000 := Real.logb_lt_logb (by norm_num) (by norm_num) (by norm_num)
  have hne : Real.logb 10 11000 - Real.logb 10 9000 ≠ 0 := by linarith
  have hμ : ∃ μ, M.mean = some μ := by
    rw [h1]
    change ∃ μ, weightedMean _ = some μ
    rw [hus, hcalc]
    generalize Real.logb 10 11000 - Real.logb 10 9000 = e at hne
    simp [weightedMean, sumW, weight, hne]
  obtain ⟨μ, hμ⟩ := hμ
  obtain ⟨M', fig, hfig⟩ := figure_of_mean c 0 t hu hM hμ
  refine ⟨c, t, M', fig, by simp [c, exMagCfgW], by simp [c], hfig, ?_⟩
  obtain ⟨-, -, -, h2⟩ := calcMagnitude_figure hfig
  obtain ⟨dmin, dmax, m', amax, nmin, -, -, -, -, g5, g6, -, -, -, -, -, g11⟩ := plotAmplitudes_ok h2
  have hmin : nmin = 1000 := by
    have h3 := (List.min?_eq_some_iff.1 g5).1
    rw [hfil, hcalc] at h3
    simpa [noiseShown, exObs, c, exMagCfgW, correction] using h3
  have hr : (⟨exObs 1 1000, none, .nan⟩ : Magnitude.Row) ∈ filterMags (calculate c t) := by
    rw [hfil, hcalc]; simp
  refine ⟨_, by rw [g6]; exact List.mem_map_of_mem hr, hall _ hr, ?_⟩
  rw [g11, hmin]
  simp [ampShown, exObs, c, exMagCfgW, correction]
  norm_num

/-- The hypotheses of `C149_figure`, `C149_curves`, `C149_visible_partial` and `C151_fine_partial` are met. -/
example : ∃ M fig, calcMagnitude (exMagCfgW false) true (1 / 2) [exObs 1 (1 / 2), exObs 100 1] = .ok (M, some fig) ∧
    (exMagCfgW false).noiseF = 1 ∧ 0 < (exMagCfgW false).mult ∧
    (∀ r ∈ filterMags (calculate (exMagCfgW false) [exObs 1 (1 / 2), exObs 100 1]), ∀ n, r.obs.noise = some n → 0 ≤ n) ∧
    ∀ r ∈ filterMags (calculate (exMagCfgW false) [exObs 1 (1 / 2), exObs 100 1]), ∀ d, distOf (exMagCfgW false) r = some d → 0 < d := by
  have hus := exObs_used false [(1, 1/2), (100, 1)]
    (by intro e he; simp at he; rcases he with rfl | rfl <;> norm_num)
  have hg : ∀ o ∈ [exObs 1 (1 / 2), exObs 100 1], noiseGain [exObs 1 (1 / 2), exObs 100 1] o = o.noise := by
    intro o _
    simp [noiseGain, exObs]
  have hmem : ∀ o ∈ [exObs 1 (1 / 2), exObs 100 1], (∃ n, o.noise = some n ∧ 0 ≤ n) ∧ o.epi = some 10 := by
    intro o ho
    simp only [List.mem_cons, List.not_mem_nil, or_false] at ho
    rcases ho with rfl | rfl
    · exact ⟨⟨1 / 2, rfl, by norm_num⟩, rfl⟩
    · exact ⟨⟨1, rfl, by norm_num⟩, rfl⟩
  obtain ⟨M, fig, h⟩ := figure_exists (exMagCfgW false) (1 / 2) [exObs 1 (1 / 2), exObs 100 1] (le_of_eq rfl)
    (by simp [exMagCfgW])
    (by
      intro o ho n hn
      rw [hg o ho] at hn
      obtain ⟨⟨n', h1, h2⟩, -⟩ := hmem o ho
      rw [h1] at hn
      simp only [Option.some.injEq] at hn
      subst hn
      simpa [exMagCfgW] using h2)
    (by
      intro o ho
      exact ⟨10, (hmem o ho).2, by norm_num⟩)
    (by
      intro hc
      rw [List.map_cons, List.map_cons, List.map_nil] at hus
      rw [hc] at hus
      simp at hus)
  refine ⟨M, fig, h, rfl, by simp [exMagCfgW], ?_, ?_⟩
  · intro r hr n hn
    obtain ⟨h1, h2⟩ := List.mem_filter.1 hr
    obtain ⟨r1, h3, rfl⟩ := List.mem_map.1 h1
    obtain ⟨o, ho, rfl⟩ := List.mem_map.1 h3
    obtain ⟨⟨n', h4, h5⟩, -⟩ := hmem o ho
    have h6 : ∀ (l : List Obs) (o' : Obs), noiseGain l o' = some n → (∀ o ∈ l, o.gain = none) → o'.noise = some n := by
      intro l o' h1 h2
      unfold noiseGain at h1
      rwa [if_neg] at h1
      intro hc
      obtain ⟨o2, h3, h4⟩ := List.any_eq_true.1 hc
      rw [h2 o2 h3] at h4
      simp at h4
    have hg0 : ∀ o ∈ (calculate (exMagCfgW false) [exObs 1 (1 / 2), exObs 100 1]).map Row.obs, o.gain = none := by
      intro o1 ho1
      obtain ⟨r1, hr1, rfl⟩ := List.mem_map.1 ho1
      obtain ⟨o2, ho2, rfl⟩ := List.mem_map.1 hr1
      simp only [List.mem_cons, List.not_mem_nil, or_false] at ho2
      dsimp only
      split_ifs <;> rcases ho2 with rfl | rfl <;> rfl
    have h7 := h6 _ _ hn hg0
    have h8 : o.noise = some n := by
      revert h7
      dsimp only
      split_ifs <;> exact id
    rw [h4] at h8
    simp only [Option.some.injEq] at h8
    linarith
  · intro r hr d hd
    obtain ⟨o, ho, -, -, -, -, h4, -⟩ := mem_filterMags_dist hr
    rw [h4] at hd
    have : rawDist (exMagCfgW false) o = some 10 := by
      simp [rawDist, exMagCfgW, (hmem o ho).2]
    rw [this] at hd
    simp [nonZero] at hd
    linarith

/-- The hypothesis of `C151_ends_run` on the run without the figure is met. -/
example : (Locate.locateEvents 1 exLocOutcome (fun _ => .fine) [⟨0, 100⟩]).written ≠ [] := by
  intro h
  have : (Locate.locateEvents 1 exLocOutcome (fun _ => .fine) [⟨0, 100⟩]).written.length = 1 := by decide +kernel
  rw [h] at this
  simp at this

end

end QM

import Verif.Model.Picker
import Verif.Lemmas.Lists
import Verif.Lemmas.Locate
import Verif.Lemmas.Pads
import Verif.Spec.Picker
import Mathlib.Data.List.GetD

namespace QM.Picker

/-! ## Windows -/

theorem mid_between {a b : ℤ} (h0 : 0 ≤ a) (h : a ≤ b) :
    a ≤ (a + b).tdiv 2 ∧ (a + b).tdiv 2 ≤ b := by
  rw [Int.tdiv_eq_ediv_of_nonneg (by omega)]
  omega

theorem pairsFrom_shrinks : ∀ (ws : List Win) (w : Win),
    List.Forall₂ (fun o i => o.arr = i.arr ∧ i.lo ≤ o.lo ∧ o.hi ≤ i.hi) (pairsFrom w ws) (w :: ws)
  | [], w => by simp [pairsFrom]
  | w2 :: ws, w => by
    refine List.Forall₂.cons ⟨rfl, le_refl _, min_le_right _ _⟩ ?_
    have := pairsFrom_shrinks ws { w2 with lo := max ((w.arr + w2.arr).tdiv 2) w2.lo }
    rw [List.forall₂_cons_right_iff] at this ⊢
    obtain ⟨o, os, h, t, e⟩ := this
    exact ⟨o, os, ⟨h.1, le_trans (le_max_right _ _) h.2.1, h.2.2⟩, t, e⟩

theorem clampLast_shrinks (n : ℤ) : ∀ ws : List Win,
    List.Forall₂ (fun o i => o.arr = i.arr ∧ i.lo ≤ o.lo ∧ o.hi ≤ i.hi) (clampLast n ws) ws
  | [] => List.Forall₂.nil
  | [w] => by
    refine List.Forall₂.cons ⟨rfl, le_refl _, ?_⟩ List.Forall₂.nil
    simp only; split_ifs <;> omega
  | w :: w' :: ws => List.Forall₂.cons ⟨rfl, le_refl _, le_refl _⟩ (clampLast_shrinks n (w' :: ws))

theorem clampFirst_shrinks : ∀ ws : List Win,
    List.Forall₂ (fun o i => o.arr = i.arr ∧ i.lo ≤ o.lo ∧ o.hi ≤ i.hi) (clampFirst ws) ws
  | [] => List.Forall₂.nil
  | w :: ws => by
    refine List.Forall₂.cons ⟨rfl, ?_, le_refl _⟩
      (List.forall₂_same.2 fun x _ => ⟨rfl, le_refl _, le_refl _⟩)
    simp only; split_ifs <;> omega

theorem forall₂_trans' {α : Type} {R : α → α → Prop} (hR : ∀ a b c, R a b → R b c → R a c) :
    ∀ {l m n : List α}, List.Forall₂ R l m → List.Forall₂ R m n → List.Forall₂ R l n
  | _, _, _, .nil, .nil => .nil
  | _, _, _, .cons h t, .cons h' t' => .cons (hR _ _ _ h h') (forall₂_trans' hR t t')

theorem distinguish_shrinks (n : ℤ) (ws : List Win) :
    List.Forall₂ (fun o i => o.arr = i.arr ∧ i.lo ≤ o.lo ∧ o.hi ≤ i.hi) (distinguish n ws) ws := by
  have tr : ∀ a b c : Win, (a.arr = b.arr ∧ b.lo ≤ a.lo ∧ a.hi ≤ b.hi) →
      (b.arr = c.arr ∧ c.lo ≤ b.lo ∧ b.hi ≤ c.hi) → (a.arr = c.arr ∧ c.lo ≤ a.lo ∧ a.hi ≤ c.hi) := by
    rintro a b c ⟨h1, h2, h3⟩ ⟨h4, h5, h6⟩
    exact ⟨h1.trans h4, h5.trans h2, h3.trans h6⟩
  unfold distinguish
  refine forall₂_trans' tr (clampLast_shrinks n _) (forall₂_trans' tr ?_ (clampFirst_shrinks ws))
  cases h : clampFirst ws with
  | nil => exact List.Forall₂.nil
  | cons w ws => exact pairsFrom_shrinks ws w

/-- A window holds its arrival. -/
def Good (w : Win) : Prop := w.lo ≤ w.arr ∧ w.arr ≤ w.hi

theorem pairsFrom_spec : ∀ (ws : List Win) (w : Win), (∀ x ∈ w :: ws, Good x) →
    (w :: ws).Pairwise (fun a b => a.arr ≤ b.arr) → (∀ x ∈ w :: ws, 0 ≤ x.arr) →
    (∀ x ∈ pairsFrom w ws, Good x ∧ w.lo ≤ x.lo) ∧
    (pairsFrom w ws).Pairwise (fun a b => a.hi ≤ b.lo) ∧
    ∃ pre l, pairsFrom w ws = pre ++ [l] ∧ ∀ x ∈ pre, x.hi ≤ l.arr
  | [], w, hg, _, _ => by
    refine ⟨by simpa [pairsFrom] using hg, by simp [pairsFrom], [], w, rfl, by simp⟩
  | w2 :: ws, w, hg, hs, h0 => by
    have hw := hg w (by simp)
    have hw2 := hg w2 (by simp)
    obtain ⟨m1, m2⟩ := mid_between (h0 w (by simp)) ((List.pairwise_cons.1 hs).1 w2 (by simp))
    set mid := (w.arr + w2.arr).tdiv 2 with hmid
    have hs2 := (List.pairwise_cons.1 hs).2
    obtain ⟨i1, i2, pre, l, i3, i4⟩ := pairsFrom_spec ws { w2 with lo := max mid w2.lo }
      (by
        intro x hx
        rcases List.mem_cons.1 hx with rfl | hx
        · exact ⟨max_le m2 hw2.1, hw2.2⟩
        · exact hg x (by simp [hx]))
      (by
        rw [List.pairwise_cons] at hs2 ⊢
        exact ⟨hs2.1, hs2.2⟩)
      (by
        intro x hx
        rcases List.mem_cons.1 hx with rfl | hx
        · exact h0 w2 (by simp)
        · exact h0 x (by simp [hx]))
    have e : pairsFrom w (w2 :: ws) =
        { w with hi := min mid w.hi } :: pairsFrom { w2 with lo := max mid w2.lo } ws := rfl
    rw [e]
    refine ⟨?_, ?_, { w with hi := min mid w.hi } :: pre, l, by rw [i3]; rfl, ?_⟩
    · intro x hx
      rcases List.mem_cons.1 hx with rfl | hx
      · exact ⟨⟨hw.1, le_min m1 hw.2⟩, le_refl _⟩
      · refine ⟨(i1 x hx).1, le_trans ?_ (i1 x hx).2⟩
        have := hw.1
        exact le_trans (le_trans this m1) (le_max_left _ _)
    · rw [List.pairwise_cons]
      refine ⟨fun x hx => ?_, i2⟩
      exact le_trans (min_le_left _ _) (le_trans (le_max_left _ _) (i1 x hx).2)
    · intro x hx
      rcases List.mem_cons.1 hx with rfl | hx
      · have hl : l ∈ pairsFrom { w2 with lo := max mid w2.lo } ws := by rw [i3]; simp
        obtain ⟨⟨g1, _⟩, g2⟩ := i1 l hl
        exact le_trans (min_le_left _ _) (le_trans (le_max_left _ _) (g2.trans g1))
      · exact i4 x hx

theorem clampLast_append (n : ℤ) (l : Win) : ∀ pre : List Win,
    clampLast n (pre ++ [l]) = pre ++ [{ l with hi := if l.hi > n then n else l.hi }]
  | [] => rfl
  | [w] => rfl
  | w :: w' :: pre => by
    have := clampLast_append n l (w' :: pre)
    simp only [List.cons_append] at this ⊢
    rw [clampLast, this]

/-! ## Runs of consecutive indices -/

/-- Recursive form of the split into runs. -/
def runs : List ℕ → List (List ℕ)
  | [] => [[]]
  | [a] => [[a]]
  | a :: b :: l =>
    match runs (b :: l) with
    | [] => [[a]]
    | g :: gs => if b = a + 1 then (a :: g) :: gs else [a] :: g :: gs

theorem npSplitFrom_shift {α : Type} : ∀ (bs : List ℕ) (off : ℕ) (l : List α),
    npSplitFrom (off + 1) l (bs.map (· + 1)) = npSplitFrom off l bs
  | [], _, _ => rfl
  | b :: bs, off, l => by
    simp only [List.map_cons, npSplitFrom]
    rw [show b + 1 - (off + 1) = b - off by omega, npSplitFrom_shift bs b]

theorem npSplitFrom_cons {α : Type} (a : α) (l : List α) : ∀ bs : List ℕ,
    ∃ g gs, npSplitFrom 0 l bs = g :: gs ∧ npSplitFrom 0 (a :: l) (bs.map (· + 1)) = (a :: g) :: gs
  | [] => ⟨l, [], rfl, rfl⟩
  | b :: bs => ⟨l.take b, npSplitFrom b (l.drop b) bs, rfl, by
      simp only [List.map_cons, npSplitFrom, Nat.sub_zero, List.take_succ_cons, List.drop_succ_cons]
      rw [npSplitFrom_shift]⟩

theorem runBreaks_cons (a b : ℕ) (l : List ℕ) :
    runBreaks (a :: b :: l) =
      (if b = a + 1 then [] else [1]) ++ (runBreaks (b :: l)).map (· + 1) := by
  have hr : List.range' 1 ((a :: b :: l).length - 1) =
      1 :: (List.range' 1 ((b :: l).length - 1)).map (· + 1) := by
    simp only [List.length_cons, Nat.add_sub_cancel]
    rw [List.range'_succ]
    have := List.map_add_range' (a := 1) 1 l.length 1
    simp only [Nat.add_comm 1] at this
    rw [this]
  unfold runBreaks
  rw [hr, List.filter_cons, List.filter_map]
  have h1 : (List.range' 1 ((b :: l).length - 1)).filter
      ((fun j => decide ((a :: b :: l).getD j 0 ≠ (a :: b :: l).getD (j - 1) 0 + 1)) ∘ (· + 1)) =
      (List.range' 1 ((b :: l).length - 1)).filter
        (fun j => decide ((b :: l).getD j 0 ≠ (b :: l).getD (j - 1) 0 + 1)) := by
    apply List.filter_congr
    intro j hj
    have : 1 ≤ j := by simp only [List.mem_range'_1] at hj; omega
    obtain ⟨k, rfl⟩ : ∃ k, j = k + 1 := ⟨j - 1, by omega⟩
    simp
  rw [h1]
  by_cases h : b = a + 1
  · simp [h]
  · simp [h]

theorem npSplit_runs : ∀ l : List ℕ, npSplit l (runBreaks l) = runs l
  | [] => rfl
  | [a] => rfl
  | a :: b :: l => by
    have ih := npSplit_runs (b :: l)
    rw [runBreaks_cons]
    obtain ⟨g, gs, h1, h2⟩ := npSplitFrom_cons a (b :: l) (runBreaks (b :: l))
    unfold npSplit at ih ⊢
    rw [runs, ← ih, h1]
    by_cases h : b = a + 1
    · simp only [h, if_true, List.nil_append]
      rw [h] at h2
      rw [h2]
    · simp only [h, if_false, List.singleton_append, npSplitFrom, Nat.sub_zero]
      congr 1
      have e := npSplitFrom_shift (runBreaks (b :: l)) 0 (b :: l)
      rw [Nat.zero_add] at e
      have : List.drop 1 (a :: b :: l) = b :: l := rfl
      rw [this, e, h1]

/-- Every run is an interval, no index of the list touches it from outside, and the runs cover the
list. -/
theorem runs_spec : ∀ (l : List ℕ) (a : ℕ), (a :: l).Pairwise (· < ·) →
    (∃ e gs, a < e ∧ runs (a :: l) = List.range' a (e - a) :: gs ∧ ∀ g ∈ gs, ∀ v ∈ g, e < v) ∧
    (∀ g ∈ runs (a :: l), ∃ s e, s < e ∧ g = List.range' s (e - s) ∧
      (∀ i, s ≤ i → i < e → i ∈ a :: l) ∧
      ∀ x ∈ a :: l, (s ≤ x ∧ x < e) ∨ x + 1 < s ∨ e < x) ∧
    (∀ x ∈ a :: l, ∃ g ∈ runs (a :: l), x ∈ g)
  | [], a, _ => by
    refine ⟨⟨a + 1, [], by omega, by simp [runs], by simp⟩, ?_, ?_⟩
    · intro g hg
      refine ⟨a, a + 1, by omega, by simpa [runs] using hg, ?_, ?_⟩
      · intro i h1 h2; simp; omega
      · intro x hx; simp at hx; omega
    · intro x hx; exact ⟨[a], by simp [runs], by simpa using hx⟩
  | b :: l, a, h => by
    have hab : a < b := (List.pairwise_cons.1 h).1 b (by simp)
    have hbl := (List.pairwise_cons.1 h).2
    have hb : ∀ x ∈ b :: l, b ≤ x := by
      intro x hx
      rcases List.mem_cons.1 hx with rfl | hx
      · exact le_refl _
      · exact le_of_lt ((List.pairwise_cons.1 hbl).1 x hx)
    obtain ⟨⟨e, gs, he, hr, hgs⟩, i2, i3⟩ := runs_spec l b hbl
    have e1 : runs (a :: b :: l) =
        if b = a + 1 then (a :: List.range' b (e - b)) :: gs
        else [a] :: List.range' b (e - b) :: gs := by
      rw [runs, hr]
    rw [e1]
    rw [hr] at i2 i3
    by_cases hc : b = a + 1
    · rw [if_pos hc]
      have hcons : a :: List.range' b (e - b) = List.range' a (e - a) := by
        rw [show e - a = (e - b) + 1 by omega, List.range'_succ, hc]
      rw [hcons]
      refine ⟨⟨e, gs, by omega, rfl, hgs⟩, ?_, ?_⟩
      · intro g hg
        rcases List.mem_cons.1 hg with rfl | hg'
        · obtain ⟨s', e', hse, hge, h1, h2⟩ := i2 _ (List.mem_cons_self)
          have hs' : s' = b ∧ e' = e := by
            have hl := congrArg List.length hge
            simp only [List.length_range'] at hl
            have hh := congrArg List.head? hge
            rw [show e - b = (e - b - 1) + 1 by omega, show e' - s' = (e' - s' - 1) + 1 by omega,
              List.range'_succ, List.range'_succ] at hh
            simp at hh
            omega
          obtain ⟨rfl, rfl⟩ := hs'
          refine ⟨a, e', by omega, rfl, ?_, ?_⟩
          · intro i hi1 hi2
            by_cases hia : i = a
            · subst hia; exact List.mem_cons_self
            · exact List.mem_cons_of_mem _ (h1 i (by omega) hi2)
          · intro x hx
            rcases List.mem_cons.1 hx with rfl | hx
            · left; omega
            · rcases h2 x hx with h3 | h3 | h3
              · left; omega
              · have := hb x hx; omega
              · right; right; exact h3
        · obtain ⟨s', e', hse, hge, h1, h2⟩ := i2 g (List.mem_cons_of_mem _ hg')
          refine ⟨s', e', hse, hge, fun i hi1 hi2 => List.mem_cons_of_mem _ (h1 i hi1 hi2), ?_⟩
          intro x hx
          rcases List.mem_cons.1 hx with rfl | hx
          · have := hgs g hg' s' (by rw [hge]; simp; omega)
            right; left; omega
          · exact h2 x hx
      · intro x hx
        rcases List.mem_cons.1 hx with rfl | hx
        · exact ⟨_, List.mem_cons_self, by simp; omega⟩
        · obtain ⟨g, hg, hxg⟩ := i3 x hx
          rcases List.mem_cons.1 hg with rfl | hg
          · exact ⟨_, List.mem_cons_self, by simp at hxg ⊢; omega⟩
          · exact ⟨g, List.mem_cons_of_mem _ hg, hxg⟩
    · rw [if_neg hc]
      refine ⟨⟨a + 1, List.range' b (e - b) :: gs, by omega, by simp, ?_⟩, ?_, ?_⟩
      · intro g hg v hv
        rcases List.mem_cons.1 hg with rfl | hg
        · simp at hv; omega
        · have := hgs g hg v hv; omega
      · intro g hg
        rcases List.mem_cons.1 hg with rfl | hg
        · refine ⟨a, a + 1, by omega, by simp, ?_, ?_⟩
          · intro i h1 h2; have : i = a := by omega
            subst this; exact List.mem_cons_self
          · intro x hx
            rcases List.mem_cons.1 hx with rfl | hx
            · left; omega
            · have := hb x hx; right; right; omega
        · obtain ⟨s', e', hse, hge, h1, h2⟩ := i2 g hg
          refine ⟨s', e', hse, hge, fun i hi1 hi2 => List.mem_cons_of_mem _ (h1 i hi1 hi2), ?_⟩
          intro x hx
          rcases List.mem_cons.1 hx with rfl | hx
          · have := hb s' (h1 s' (le_refl _) hse)
            right; left; omega
          · exact h2 x hx
      · intro x hx
        rcases List.mem_cons.1 hx with rfl | hx
        · exact ⟨_, List.mem_cons_self, by simp⟩
        · obtain ⟨g, hg, hxg⟩ := i3 x hx
          exact ⟨g, List.mem_cons_of_mem _ hg, hxg⟩

/-! ## The peak -/

theorem mem_exceedence {w : List ℚ} {t : ℚ} {i : ℕ} :
    i ∈ exceedence w t ↔ i < w.length ∧ t < w.getD i 0 := by
  unfold exceedence
  rw [List.mem_filter, List.mem_range]
  constructor
  · rintro ⟨h, h2⟩
    refine ⟨h, ?_⟩
    simpa [List.getElem?_eq_getElem h] using h2
  · rintro ⟨h, h2⟩
    refine ⟨h, ?_⟩
    simpa [List.getElem?_eq_getElem h] using h2

theorem exceedence_sorted (w : List ℚ) (t : ℚ) : (exceedence w t).Pairwise (· < ·) :=
  List.Pairwise.filter _ List.pairwise_lt_range

theorem argmax_spec {w : List ℚ} {m : ℕ} (h : argmax w = some m) : Spec.FirstMax w m := by
  unfold argmax at h
  rw [Option.map_eq_some_iff] at h
  obtain ⟨⟨v, k⟩, h1, h2⟩ := h
  simp only at h2
  subst h2
  obtain ⟨pre, post, e, h3, h4⟩ := firstMaxBy_spec h1
  have hlen : pre.length = k := by
    have := congrArg (fun l => l[pre.length]?) e
    simp only [List.getElem?_zipIdx] at this
    rw [List.getElem?_append_right (le_refl _)] at this
    simp at this
    omega
  have hw : w = pre.map Prod.fst ++ v :: post.map Prod.fst := by
    have := congrArg (List.map Prod.fst) e
    simpa using this
  have hm : w.getD k 0 = v := by
    rw [hw, List.getD_append_right] <;> simp [hlen]
  refine ⟨by rw [hw]; simp; omega, ?_, ?_⟩
  · intro i hi
    rw [hm]
    have hmem : (w.getD i 0, i) ∈ w.zipIdx := by
      rw [List.mem_zipIdx_iff_getElem?, List.getD_eq_getElem _ _ hi]
      simp
    rw [e] at hmem
    rcases List.mem_append.1 hmem with h | h
    · exact le_of_lt (h3 _ h)
    · rcases List.mem_cons.1 h with h | h
      · rw [Prod.mk.injEq] at h; exact le_of_eq h.1
      · exact h4 _ h
  · intro i hi
    rw [hm]
    have hi' : i < w.length := by rw [hw]; simp; omega
    have h5 : w.zipIdx[i]? = some (w.getD i 0, i) := by
      rw [List.getElem?_zipIdx, List.getD_eq_getElem _ _ hi']
      simp
    rw [e, List.getElem?_append_left (by omega)] at h5
    exact h3 _ (List.mem_of_getElem? h5)

theorem argmax_isSome {w : List ℚ} (h : w ≠ []) : ∃ m, argmax w = some m := by
  obtain ⟨m, hm⟩ := firstMaxBy_isSome (Prod.fst : ℚ × ℕ → ℚ) (l := w.zipIdx) (by simpa using h)
  exact ⟨m.2, by rw [argmax, hm]; rfl⟩

theorem argmax_nil : argmax [] = none := rfl

theorem firstMax_unique {w : List ℚ} {m m' : ℕ} (h : Spec.FirstMax w m) (h' : Spec.FirstMax w m') :
    m = m' := by
  rcases lt_trichotomy m m' with h1 | h1 | h1
  · exact absurd (h'.2.2 m h1) (not_lt.2 (h.2.1 m' h'.1))
  · exact h1
  · exact absurd (h.2.2 m' h1) (not_lt.2 (h'.2.1 m h.1))

theorem isRun_unique {w : List ℚ} {t : ℚ} {s e s' e' m : ℕ} (h : Spec.IsRunAbove w t s e)
    (h' : Spec.IsRunAbove w t s' e') (hm : s ≤ m ∧ m < e) (hm' : s' ≤ m ∧ m < e') :
    s = s' ∧ e = e' := by
  obtain ⟨a1, a2, a3, a4, a5⟩ := h
  obtain ⟨b1, b2, b3, b4, b5⟩ := h'
  constructor
  · rcases lt_trichotomy s s' with h | h | h
    · rcases b4 with h0 | h0
      · omega
      · exact absurd (a3 (s' - 1) (by omega) (by omega)) (not_lt.2 h0)
    · exact h
    · rcases a4 with h0 | h0
      · omega
      · exact absurd (b3 (s - 1) (by omega) (by omega)) (not_lt.2 h0)
  · rcases lt_trichotomy e e' with h | h | h
    · rcases a5 with h0 | h0
      · omega
      · exact absurd (b3 e (by omega) (by omega)) (not_lt.2 h0)
    · exact h
    · rcases b5 with h0 | h0
      · omega
      · exact absurd (a3 e' (by omega) (by omega)) (not_lt.2 h0)

theorem findPeak_eq {w : List ℚ} {t : ℚ} (h : ∃ v ∈ w, t < v) :
    ∃ s e m, Spec.FirstMax w m ∧ Spec.IsRunAbove w t s e ∧ s ≤ m ∧ m < e ∧
      findPeak w (some t) = if e - s < 2 then none else some (s, e) := by
  obtain ⟨v, hv, htv⟩ := h
  obtain ⟨i, hi, hiv⟩ := List.getElem_of_mem hv
  obtain ⟨m, hm⟩ := argmax_isSome (List.ne_nil_of_mem hv)
  have hf := argmax_spec hm
  have hmem : m ∈ exceedence w t := by
    rw [mem_exceedence]
    refine ⟨hf.1, lt_of_lt_of_le htv ?_⟩
    have := hf.2.1 i hi
    rwa [List.getD_eq_getElem _ _ hi, hiv] at this
  have hne : exceedence w t ≠ [] := List.ne_nil_of_mem hmem
  obtain ⟨a, l, hal⟩ := List.exists_cons_of_ne_nil hne
  have hsort := exceedence_sorted w t
  rw [hal] at hsort hmem
  obtain ⟨-, r2, r3⟩ := runs_spec l a hsort
  obtain ⟨g, hg, hmg⟩ := r3 m hmem
  -- the run that `find?` returns
  obtain ⟨p, hp⟩ : ∃ p, (runs (a :: l)).find? (fun p => decide (m ∈ p)) = some p := by
    rw [← Option.isSome_iff_exists, List.find?_isSome]
    exact ⟨g, hg, by simpa using hmg⟩
  have hpm : m ∈ p := by simpa using List.find?_some hp
  obtain ⟨s, e, hse, hpe, h1, h2⟩ := r2 p (List.mem_of_find?_eq_some hp)
  have hms : s ≤ m ∧ m < e := by
    rw [hpe] at hpm; simp at hpm; omega
  refine ⟨s, e, m, hf, ⟨hse, ?_, ?_, ?_, ?_⟩, hms.1, hms.2, ?_⟩
  · have := h1 (e - 1) (by omega) (by omega)
    rw [← hal, mem_exceedence] at this
    omega
  · intro j hj1 hj2
    have := h1 j hj1 hj2
    rw [← hal, mem_exceedence] at this
    exact this.2
  · by_cases h0 : s = 0
    · exact Or.inl h0
    · right
      by_contra hc
      have hin : s - 1 ∈ a :: l := by
        rw [← hal, mem_exceedence]
        have := h1 s (le_refl _) hse
        rw [← hal, mem_exceedence] at this
        exact ⟨by omega, not_le.1 hc⟩
      rcases h2 _ hin with h3 | h3 | h3 <;> omega
  · by_cases h0 : e = w.length
    · exact Or.inl h0
    · right
      by_contra hc
      have hin : e ∈ a :: l := by
        rw [← hal, mem_exceedence]
        have := h1 (e - 1) (by omega) (by omega)
        rw [← hal, mem_exceedence] at this
        exact ⟨by omega, not_le.1 hc⟩
      rcases h2 _ hin with h3 | h3 | h3 <;> omega
  · unfold findPeak
    simp only [if_neg hne, npSplit_runs, hm]
    rw [hal, hp]
    simp only [Option.orElse_eq_orElse, Option.orElse]
    have hlen : p.length = e - s := by rw [hpe]; simp
    rw [hlen]
    split_ifs with hc
    · rfl
    · have e1 : p.head? = some s := by
        rw [hpe, show e - s = (e - s - 1) + 1 by omega, List.range'_succ]; rfl
      have e2 : p.getLast? = some (e - 1) := by
        rw [hpe, List.getLast?_range']
        simp
        omega
      rw [e1, e2]
      simp only
      rw [show e - 1 + 1 = e by omega]

theorem findPeak_none_of {w : List ℚ} {t : ℚ} (h : ∀ v ∈ w, v ≤ t) :
    findPeak w (some t) = none := by
  unfold findPeak
  have : exceedence w t = [] := by
    rw [List.eq_nil_iff_forall_not_mem]
    intro i hi
    rw [mem_exceedence] at hi
    have := h (w.getD i 0) (by rw [List.getD_eq_getElem _ _ hi.1]; exact List.getElem_mem hi.1)
    exact absurd hi.2 (not_lt.2 this)
  simp [this]

/-- What a returned peak satisfies, in the form used by the fit. -/
theorem findPeak_bounds {w : List ℚ} {thr : Option ℚ} {a b : ℕ} (h : findPeak w thr = some (a, b)) :
    a + 2 ≤ b ∧ b ≤ w.length := by
  cases thr with
  | none => simp [findPeak] at h
  | some t =>
    by_cases hex : ∃ v ∈ w, t < v
    · obtain ⟨s, e, m, -, hr, -, -, he⟩ := findPeak_eq hex
      rw [h] at he
      split_ifs at he with hc
      simp only [Option.some.injEq, Prod.mk.injEq] at he
      obtain ⟨rfl, rfl⟩ := he
      exact ⟨by omega, hr.2.1⟩
    · rw [findPeak_none_of (by push Not at hex; exact hex)] at h
      simp at h

/-! ## Slices -/

theorem pyIdx_nonneg {n : ℕ} {i : ℤ} (h : 0 ≤ i) : pyIdx n i = min i.toNat n := if_pos h

theorem pyIdx_le (n : ℕ) (i : ℤ) : pyIdx n i ≤ n := by
  unfold pyIdx; split_ifs <;> omega

theorem pySlice_length {α : Type} (l : List α) (a b : ℤ) :
    (pySlice l a b).length = pyIdx l.length b - pyIdx l.length a := by
  unfold pySlice
  rw [List.length_drop, List.length_take, min_eq_left (pyIdx_le _ _)]

end QM.Picker

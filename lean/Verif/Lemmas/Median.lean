import Verif.Py
import Verif.Lemmas.Lists
import Mathlib.Algebra.Order.BigOperators.Group.List
import Mathlib.Data.List.Sort

namespace QM

theorem sort_unique {l s : List ℚ} (hp : s.Perm l) (hs : s.Pairwise (· ≤ ·)) :
    l.insertionSort (· ≤ ·) = s := by
  have h1 : (l.insertionSort (· ≤ ·)).Perm s := (List.perm_insertionSort _ l).trans hp.symm
  exact h1.eq_of_pairwise (fun a b _ _ h1 h2 => le_antisymm h1 h2)
    (List.pairwise_insertionSort _ _) hs

theorem npMedian_perm {l m : List ℚ} (h : l.Perm m) : npMedian l = npMedian m := by
  unfold npMedian
  have : l.insertionSort (· ≤ ·) = m.insertionSort (· ≤ ·) :=
    sort_unique ((List.perm_insertionSort _ m).trans h.symm) (List.pairwise_insertionSort _ _)
  rw [this, h.length_eq]

/-- Where the two middle order statistics live. -/
theorem npMedian_eq {l s : List ℚ} (hp : s.Perm l) (hs : s.Pairwise (· ≤ ·)) (hne : l ≠ []) :
    ∃ (h1 : (l.length - 1) / 2 < s.length) (h2 : l.length / 2 < s.length),
      npMedian l = (s[(l.length - 1) / 2] + s[l.length / 2]) / 2 := by
  have hlen := hp.length_eq
  have hpos : 0 < l.length := List.length_pos_iff.mpr hne
  refine ⟨by omega, by omega, ?_⟩
  unfold npMedian
  simp only
  rw [sort_unique hp hs, List.getElem?_eq_getElem (by omega), List.getElem?_eq_getElem (by omega)]
  rfl

theorem npMedian_affine_pos {l : List ℚ} (hne : l ≠ []) (a b : ℚ) (ha : 0 ≤ a) :
    npMedian (l.map (fun x => a * x + b)) = a * npMedian l + b := by
  have hp := List.perm_insertionSort (· ≤ · : ℚ → ℚ → Prop) l
  have hs : (l.insertionSort (· ≤ ·)).Pairwise (· ≤ ·) := List.pairwise_insertionSort _ _
  obtain ⟨h1, h2, e⟩ := npMedian_eq hp hs hne
  have hs' : ((l.insertionSort (· ≤ ·)).map (fun x => a * x + b)).Pairwise (· ≤ ·) := by
    rw [List.pairwise_map]
    exact hs.imp (fun h => by linarith [mul_le_mul_of_nonneg_left h ha])
  obtain ⟨h1', h2', e'⟩ := npMedian_eq (hp.map (fun x => a * x + b)) hs' (by simpa using hne)
  rw [e', e]
  simp only [List.getElem_map, List.length_map]
  ring

theorem npMedian_neg {l : List ℚ} (hne : l ≠ []) :
    npMedian (l.map (fun x => -x)) = - npMedian l := by
  have hp := List.perm_insertionSort (· ≤ · : ℚ → ℚ → Prop) l
  have hs : (l.insertionSort (· ≤ ·)).Pairwise (· ≤ ·) := List.pairwise_insertionSort _ _
  have hpos : 0 < l.length := List.length_pos_iff.mpr hne
  have hlen := hp.length_eq
  obtain ⟨h1, h2, e⟩ := npMedian_eq hp hs hne
  have hs' : ((l.insertionSort (· ≤ ·)).map (fun x => -x)).reverse.Pairwise (· ≤ ·) := by
    rw [List.pairwise_reverse, List.pairwise_map]
    exact hs.imp (fun h => by linarith)
  obtain ⟨h1', h2', e'⟩ := npMedian_eq
    ((List.reverse_perm _).trans (hp.map (fun x => -x))) hs' (by simpa using hne)
  rw [e', e]
  simp only [List.length_map, List.getElem_reverse, List.getElem_map]
  have i1 : (l.insertionSort (· ≤ ·)).length - 1 - (l.length - 1) / 2 = l.length / 2 := by omega
  have i2 : (l.insertionSort (· ≤ ·)).length - 1 - l.length / 2 = (l.length - 1) / 2 := by omega
  simp only [i1, i2]
  ring

theorem npMedian_affine {l : List ℚ} (hne : l ≠ []) (a b : ℚ) :
    npMedian (l.map (fun x => a * x + b)) = a * npMedian l + b := by
  rcases le_total 0 a with ha | ha
  · exact npMedian_affine_pos hne a b ha
  · have h1 : l.map (fun x => a * x + b) = (l.map (fun x => -x)).map (fun x => (-a) * x + b) := by
      rw [List.map_map]
      apply List.map_congr_left
      intro x _
      simp only [Function.comp]; ring
    rw [h1, npMedian_affine_pos (by simpa using hne) _ _ (by linarith), npMedian_neg hne]
    ring

theorem npMedian_nonneg {l : List ℚ} (hne : l ≠ []) (h : ∀ x ∈ l, 0 ≤ x) : 0 ≤ npMedian l := by
  have hp := List.perm_insertionSort (· ≤ · : ℚ → ℚ → Prop) l
  have hs : (l.insertionSort (· ≤ ·)).Pairwise (· ≤ ·) := List.pairwise_insertionSort _ _
  obtain ⟨h1, h2, e⟩ := npMedian_eq hp hs hne
  rw [e]
  have a1 := h _ (hp.subset (List.getElem_mem h1))
  have a2 := h _ (hp.subset (List.getElem_mem h2))
  linarith

/-- The median is a median: at most half of the values lie strictly on either
side of it. -/
theorem npMedian_halves {l : List ℚ} (hne : l ≠ []) :
    2 * (l.filter (fun x => decide (x < npMedian l))).length ≤ l.length ∧
    2 * (l.filter (fun x => decide (npMedian l < x))).length ≤ l.length := by
  have hp := List.perm_insertionSort (· ≤ · : ℚ → ℚ → Prop) l
  have hs : (l.insertionSort (· ≤ ·)).Pairwise (· ≤ ·) := List.pairwise_insertionSort _ _
  have hpos : 0 < l.length := List.length_pos_iff.mpr hne
  have hlen := hp.length_eq
  obtain ⟨h1, h2, e⟩ := npMedian_eq hp hs hne
  generalize hS : l.insertionSort (· ≤ ·) = s at *
  generalize hM : npMedian l = m at *
  have hle : s[(l.length - 1) / 2] ≤ s[l.length / 2] := by
    rcases Nat.eq_or_lt_of_le (show (l.length - 1) / 2 ≤ l.length / 2 by omega) with h | h
    · simp only [h]; exact le_rfl
    · exact (List.pairwise_iff_getElem.mp hs) _ _ h1 h2 h
  have hmlo : s[(l.length - 1) / 2] ≤ m := by rw [e]; linarith
  have hmhi : m ≤ s[l.length / 2] := by rw [e]; linarith
  have hmono : ∀ i j (hi : i < s.length) (hj : j < s.length), i ≤ j → s[i] ≤ s[j] := by
    intro i j hi hj hij
    rcases Nat.eq_or_lt_of_le hij with h | h
    · simp only [h]; exact le_rfl
    · exact (List.pairwise_iff_getElem.mp hs) _ _ hi hj h
  constructor
  · have hf : (l.filter (fun x => decide (x < m))).length =
        (s.filter (fun x => decide (x < m))).length := (hp.filter _).length_eq.symm
    rw [hf]
    -- all of them sit before position n/2
    have hsub : (s.filter (fun x => decide (x < m))).length ≤ l.length / 2 := by
      conv_lhs => rw [← List.take_append_drop (l.length / 2) s]
      rw [List.filter_append, List.length_append]
      have hd : (s.drop (l.length / 2)).filter (fun x => decide (x < m)) = [] := by
        rw [List.filter_eq_nil_iff]
        intro x hx
        obtain ⟨i, hi, rfl⟩ := List.getElem_of_mem hx
        rw [List.getElem_drop]
        rw [List.length_drop] at hi
        have := hmono (l.length / 2) (l.length / 2 + i) h2 (by omega) (by omega)
        simp only [decide_eq_true_eq, not_lt]
        linarith
      rw [hd, List.length_nil, Nat.add_zero]
      refine (List.length_filter_le _ _).trans ?_
      rw [List.length_take]; omega
    omega
  · have hf : (l.filter (fun x => decide (m < x))).length =
        (s.filter (fun x => decide (m < x))).length := (hp.filter _).length_eq.symm
    rw [hf]
    have hsub : (s.filter (fun x => decide (m < x))).length ≤ l.length - ((l.length - 1) / 2 + 1) := by
      conv_lhs => rw [← List.take_append_drop ((l.length - 1) / 2 + 1) s]
      rw [List.filter_append, List.length_append]
      have hd : (s.take ((l.length - 1) / 2 + 1)).filter (fun x => decide (m < x)) = [] := by
        rw [List.filter_eq_nil_iff]
        intro x hx
        obtain ⟨i, hi, rfl⟩ := List.getElem_of_mem hx
        rw [List.getElem_take]
        rw [List.length_take] at hi
        have := hmono i ((l.length - 1) / 2) (by omega) h1 (by omega)
        simp only [decide_eq_true_eq, not_lt]
        linarith
      rw [hd, List.length_nil, Nat.zero_add]
      refine (List.length_filter_le _ _).trans ?_
      rw [List.length_drop]; omega
    omega

end QM

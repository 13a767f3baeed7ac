import Verif.Model.Trigger
import Verif.Lemmas.Lists

namespace QM.Trigger
open QM

theorem npMod_zero_iff (i : ℕ) (w : ℤ) : npMod (i : ℤ) w = 0 ↔ (max 1 w.natAbs) ∣ i := by
  unfold npMod
  split
  · rename_i h; subst h; simp
  · rename_i h
    have h1 : max 1 w.natAbs = w.natAbs := by
      have : 1 ≤ w.natAbs := Nat.one_le_iff_ne_zero.mpr (by simpa using h)
      omega
    rw [h1, ← Int.dvd_iff_fmod_eq_zero]
    rw [← Int.natAbs_dvd]
    exact Int.natCast_dvd_natCast

theorem multiples_filter (n L : ℕ) (hL : 1 ≤ L) :
    (List.range n).filter (fun i => decide (L ∣ i)) =
      (List.range ((n + L - 1) / L)).map (· * L) := by
  have hs1 : ((List.range n).filter (fun i => decide (L ∣ i))).Pairwise (· < ·) :=
    List.Pairwise.filter _ List.pairwise_lt_range
  have hs2 : ((List.range ((n + L - 1) / L)).map (· * L)).Pairwise (· < ·) := by
    rw [List.pairwise_map]
    exact List.pairwise_lt_range.imp (fun h => Nat.mul_lt_mul_of_pos_right h hL)
  have hp : ((List.range n).filter (fun i => decide (L ∣ i))).Perm
      ((List.range ((n + L - 1) / L)).map (· * L)) := by
    rw [List.perm_ext_iff_of_nodup (hs1.imp Nat.ne_of_lt) (hs2.imp Nat.ne_of_lt)]
    intro i
    simp only [List.mem_filter, List.mem_range, decide_eq_true_eq, List.mem_map]
    constructor
    · rintro ⟨hi, k, rfl⟩
      refine ⟨k, ?_, Nat.mul_comm _ _⟩
      rw [Nat.lt_iff_add_one_le, Nat.le_div_iff_mul_le hL, Nat.add_mul, Nat.mul_comm k L]
      omega
    · rintro ⟨k, hk, rfl⟩
      refine ⟨?_, Nat.dvd_mul_left _ _⟩
      rw [Nat.lt_iff_add_one_le, Nat.le_div_iff_mul_le hL, Nat.add_mul] at hk
      omega
  exact hp.eq_of_pairwise (fun a b _ _ h1 h2 => absurd h1 (Nat.lt_asymm h2)) hs1 hs2

theorem breaks_eq (n : ℕ) (w : ℤ) (L : ℕ) (hLw : L = max 1 w.natAbs) :
    breaksOf n w = ((List.range ((n + L - 1) / L)).map (· * L)).drop 1 := by
  unfold breaksOf
  have hL : 1 ≤ L := by omega
  congr 1
  have heq : (List.range n).filter (fun i : ℕ => decide (npMod (i : ℤ) w = 0)) =
      (List.range n).filter (fun i => decide (L ∣ i)) := by
    apply List.filter_congr
    intro i _
    rw [decide_eq_decide, hLw]
    exact npMod_zero_iff i w
  rw [heq, multiples_filter n L hL]

theorem npSplitFrom_mult {α : Type} (L : ℕ) (k : ℕ) : ∀ (c : ℕ) (l : List α),
    npSplitFrom (c * L) l ((List.range' (c + 1) k).map (· * L)) =
      (List.range k).map (fun j => (l.drop (j * L)).take L) ++ [l.drop (k * L)] := by
  induction k with
  | zero => intro c l; simp [npSplitFrom]
  | succ k ih =>
    intro c l
    rw [List.range'_succ, List.map_cons, npSplitFrom]
    have h1 : (c + 1) * L - c * L = L := by rw [Nat.add_mul]; omega
    rw [h1, ih (c + 1) (l.drop L), List.range_succ_eq_map, List.map_cons, List.map_map,
      List.cons_append]
    congr 1
    · simp
    · congr 1
      · apply List.map_congr_left
        intro j _
        simp only [Function.comp, List.drop_drop, Nat.succ_eq_add_one]
        congr 2
        ring
      · rw [List.drop_drop]; congr 2; ring

/-- `numpy.split` at the multiples of `L` cuts the trace into chunks of `L`. -/
theorem chunks_eq {α : Type} (data : List α) (w : ℤ) (L : ℕ) (hLw : L = max 1 w.natAbs)
    (hn : data ≠ []) :
    npSplit data (breaksOf data.length w) =
      (List.range ((data.length + L - 1) / L)).map (fun j => (data.drop (j * L)).take L) := by
  have hL : 1 ≤ L := by omega
  have hpos : 1 ≤ data.length := List.length_pos_iff.mpr hn
  rw [breaks_eq data.length w L hLw]
  obtain ⟨k, hk⟩ : ∃ k, (data.length + L - 1) / L = k + 1 := by
    refine ⟨(data.length + L - 1) / L - 1, ?_⟩
    have : 1 ≤ (data.length + L - 1) / L := by rw [Nat.le_div_iff_mul_le hL]; omega
    omega
  have hub : data.length ≤ (k + 1) * L := by
    have := Nat.lt_mul_div_succ (data.length + L - 1) hL
    rw [hk] at this
    have h2 : L * (k + 1 + 1) = (k + 1) * L + L := by ring
    omega
  rw [hk, List.range_eq_range', List.range'_succ, List.map_cons, List.drop_one, List.tail_cons]
  have := npSplitFrom_mult L k 0 data
  rw [Nat.zero_mul] at this
  unfold npSplit
  rw [this, ← List.range'_succ, ← List.range_eq_range', List.range_succ, List.map_append]
  congr 1
  rw [List.map_singleton, List.take_of_length_le]
  rw [List.length_drop]
  have h2 : (k + 1) * L = k * L + L := by ring
  omega

theorem flatten_replicate_getElem? {α : Type} (c : ℕ) (hc : 1 ≤ c) (l : List α) :
    ∀ i, ((l.map (fun v => List.replicate c v)).flatten)[i]? = l[i / c]? := by
  induction l with
  | nil => intro i; simp
  | cons a l ih =>
    intro i
    rw [List.map_cons, List.flatten_cons, List.getElem?_append]
    rw [List.length_replicate]
    split
    · rename_i h
      rw [Nat.div_eq_of_lt h]
      simp [h]
    · rename_i h
      have e := Nat.div_eq_sub_div hc (show c ≤ i by omega)
      rw [ih, e]
      rfl

theorem chunkTrace_getElem? (f : List ℚ → ℚ) (data : List ℚ) (w : ℤ) (L : ℕ)
    (hLw : L = max 1 w.natAbs) (i : ℕ) (hi : i < data.length) :
    (chunkTrace f data w)[i]? = some (f ((data.drop (i / L * L)).take L)) := by
  have hL : 1 ≤ L := by omega
  have hn : data ≠ [] := List.length_pos_iff.mp (by omega)
  unfold chunkTrace chunks2trace
  simp only
  rw [chunks_eq data w L hLw hn]
  have hm : 1 ≤ (data.length + L - 1) / L := by rw [Nat.le_div_iff_mul_le hL]; omega
  have hhead : ((((List.range ((data.length + L - 1) / L)).map
      (fun j => (data.drop (j * L)).take L)).head?).map List.length).getD 0 = min L data.length := by
    obtain ⟨k, hk⟩ : ∃ k, (data.length + L - 1) / L = k + 1 :=
      ⟨(data.length + L - 1) / L - 1, by omega⟩
    rw [hk, List.range_succ_eq_map]
    simp
  rw [hhead, List.getElem?_take, if_pos hi, flatten_replicate_getElem? _ (by omega)]
  have hdiv : i / min L data.length = i / L := by
    rcases Nat.le_total L data.length with h | h
    · rw [Nat.min_eq_left h]
    · rw [Nat.min_eq_right h, Nat.div_eq_of_lt hi, Nat.div_eq_of_lt (by omega)]
  have hlt : i / L < (data.length + L - 1) / L := by
    rw [Nat.lt_iff_add_one_le, Nat.le_div_iff_mul_le hL, Nat.add_mul]
    have := Nat.div_mul_le_self i L
    omega
  rw [hdiv, List.getElem?_map, List.getElem?_map, List.getElem?_range hlt]
  rfl

theorem chunkTrace_length (f : List ℚ → ℚ) (data : List ℚ) (w : ℤ) :
    (chunkTrace f data w).length = data.length := by
  have h1 : (chunkTrace f data w).length ≤ data.length := by
    unfold chunkTrace; simp only; rw [List.length_take]; omega
  by_contra hne
  have hlt : (chunkTrace f data w).length < data.length := by omega
  have := chunkTrace_getElem? f data w _ rfl _ hlt
  rw [List.getElem?_eq_none (le_refl _)] at this
  exact absurd this (by simp)

end QM.Trigger

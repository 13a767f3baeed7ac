import Verif.Lemmas.Threshold
import Verif.Lemmas.Median

/-! # C14, C46: the trigger threshold -/

namespace QM
open QM.Trigger

namespace Spec
/-- The `L`-sample chunk of the trace that contains sample `i`. -/
def chunkAt (data : List ℚ) (L i : ℕ) : List ℚ := (data.drop (i / L * L)).take L
end Spec
open Spec

/-- **C14**, MAD method: one value per sample, the median plus multiplier times
MAD of the sample's own window of `floor(window*sr)` samples. -/
theorem C14_mad_threshold (window mult sr : ℚ) (data : List ℚ) (h : 1 ≤ window * sr) :
    (getThreshold (.mad window mult) data sr).length = data.length ∧
    ∀ i, i < data.length → (getThreshold (.mad window mult) data sr)[i]? =
      some (npMedian (chunkAt data ⌊window * sr⌋.toNat i) +
        calculateMad (chunkAt data ⌊window * sr⌋.toNat i) * mult) := by
  have hL : ⌊window * sr⌋.toNat = max 1 (pyInt (window * sr)).natAbs := by
    unfold pyInt
    rw [if_pos (by linarith)]
    have : 1 ≤ ⌊window * sr⌋ := Int.le_floor.mpr (by exact_mod_cast h)
    omega
  unfold getThreshold
  constructor
  · rw [List.length_zipWith, chunkTrace_length, chunkTrace_length, Nat.min_self]
  · intro i hi
    rw [List.getElem?_zipWith, chunkTrace_getElem? _ _ _ _ hL _ hi,
      chunkTrace_getElem? _ _ _ _ hL _ hi]
    rfl

/-- **C14**, median-ratio method. -/
theorem C14_median_threshold (window mult sr : ℚ) (data : List ℚ) (h : 1 ≤ window * sr) :
    (getThreshold (.medianRatio window mult) data sr).length = data.length ∧
    ∀ i, i < data.length → (getThreshold (.medianRatio window mult) data sr)[i]? =
      some (npMedian (chunkAt data ⌊window * sr⌋.toNat i) * mult) := by
  have hL : ⌊window * sr⌋.toNat = max 1 (pyInt (window * sr)).natAbs := by
    unfold pyInt
    rw [if_pos (by linarith)]
    have : 1 ≤ ⌊window * sr⌋ := Int.le_floor.mpr (by exact_mod_cast h)
    omega
  unfold getThreshold
  constructor
  · rw [List.length_map, chunkTrace_length]
  · intro i hi
    rw [List.getElem?_map, chunkTrace_getElem? _ _ _ _ hL _ hi]
    rfl

/-- **C14**, static method. -/
theorem C14_static_threshold (t sr : ℚ) (data : List ℚ) :
    getThreshold (.static t) data sr = List.replicate data.length t := by
  unfold getThreshold
  simp [List.map_const']

/-- **C14**: the threshold at a sample depends on no other window. -/
theorem C14_threshold_local (window mult sr : ℚ) (data data' : List ℚ) (h : 1 ≤ window * sr)
    (hlen : data.length = data'.length) (i : ℕ)
    (hc : ∀ j, j / ⌊window * sr⌋.toNat = i / ⌊window * sr⌋.toNat → data[j]? = data'[j]?) :
    (getThreshold (.mad window mult) data sr)[i]? = (getThreshold (.mad window mult) data' sr)[i]? ∧
    (getThreshold (.medianRatio window mult) data sr)[i]? =
      (getThreshold (.medianRatio window mult) data' sr)[i]? := by
  have hL : 0 < ⌊window * sr⌋.toNat := by
    have : 1 ≤ ⌊window * sr⌋ := Int.le_floor.mpr (by exact_mod_cast h)
    omega
  have hch : chunkAt data ⌊window * sr⌋.toNat i = chunkAt data' ⌊window * sr⌋.toNat i := by
    unfold chunkAt
    apply List.ext_getElem?
    intro k
    rw [List.getElem?_take, List.getElem?_take]
    split
    · rename_i hk
      rw [List.getElem?_drop, List.getElem?_drop]
      apply hc
      rw [Nat.add_comm, Nat.add_mul_div_right _ _ hL, Nat.div_eq_of_lt hk, Nat.zero_add]
    · rfl
  rcases Nat.lt_or_ge i data.length with hi | hi
  · rw [(C14_mad_threshold window mult sr data h).2 i hi,
      (C14_mad_threshold window mult sr data' h).2 i (hlen ▸ hi),
      (C14_median_threshold window mult sr data h).2 i hi,
      (C14_median_threshold window mult sr data' h).2 i (hlen ▸ hi), hch]
    exact ⟨rfl, rfl⟩
  · rw [List.getElem?_eq_none (by rw [(C14_mad_threshold window mult sr data h).1]; exact hi),
      List.getElem?_eq_none (by rw [(C14_mad_threshold window mult sr data' h).1]; omega),
      List.getElem?_eq_none (by rw [(C14_median_threshold window mult sr data h).1]; exact hi),
      List.getElem?_eq_none (by rw [(C14_median_threshold window mult sr data' h).1]; omega)]
    exact ⟨rfl, rfl⟩

/-- **C14**, degenerate window: a window shorter than one sample is treated as a
one-sample window, so the MAD threshold equals the trace itself and *every*
sample triggers.  (numpy's `% 0` gives 0; no exception is raised.) -/
theorem C14_short_window_triggers_everywhere (window mult sr : ℚ) (data : List ℚ)
    (h0 : 0 ≤ window * sr) (h : window * sr < 1) :
    getThreshold (.mad window mult) data sr = data := by
  have hL : 1 = max 1 (pyInt (window * sr)).natAbs := by
    unfold pyInt
    rw [if_pos h0]
    have : ⌊window * sr⌋ = 0 := by rw [Int.floor_eq_iff]; constructor <;> push_cast <;> linarith
    rw [this]; rfl
  unfold getThreshold
  apply List.ext_getElem?
  intro i
  rcases Nat.lt_or_ge i data.length with hi | hi
  · rw [List.getElem?_zipWith, chunkTrace_getElem? _ _ _ _ hL _ hi,
      chunkTrace_getElem? _ _ _ _ hL _ hi, List.getElem?_eq_getElem hi]
    have hc : (data.drop (i / 1 * 1)).take 1 = [data[i]] := by
      rw [Nat.div_one, Nat.mul_one, List.drop_eq_getElem_cons hi]; rfl
    rw [hc]
    simp [npMedian, calculateMad]
  · rw [List.getElem?_eq_none hi, List.getElem?_eq_none]
    rw [List.length_zipWith, chunkTrace_length, chunkTrace_length]
    omega

-- seven samples, windows of three: 1,2,9 | 4,4,10 | 7
example : getThreshold (.medianRatio 3 2) [1, 2, 9, 4, 4, 10, 7] 1 = [4, 4, 4, 8, 8, 8, 14] ∧
    (1 : ℚ) ≤ 3 * 1 := by decide +kernel
example : getThreshold (.mad 3 1) [1, 2, 9, 4] 1
    = [2 + 14826/10000, 2 + 14826/10000, 2 + 14826/10000, 4] := by decide +kernel

/-- **C46**: the MAD is non-negative, does not depend on the order of the
samples, ignores shifts and scales with the absolute value of the factor. -/
theorem C46_mad_equivariant (x y : List ℚ) (hx : x ≠ []) (hp : x.Perm y) (a b : ℚ) :
    0 ≤ calculateMad x ∧ calculateMad y = calculateMad x ∧
    calculateMad (x.map (fun v => a * v + b)) = |a| * calculateMad x := by
  refine ⟨?_, ?_, ?_⟩
  · unfold calculateMad
    refine mul_nonneg (by norm_num) (npMedian_nonneg (by simpa using hx) ?_)
    intro v hv
    obtain ⟨u, _, rfl⟩ := List.mem_map.mp hv
    exact abs_nonneg _
  · unfold calculateMad
    rw [npMedian_perm hp.symm, npMedian_perm (hp.map _)]
  · unfold calculateMad
    rw [npMedian_affine hx a b]
    have : ((x.map (fun v => a * v + b)).map (fun v => |v - (a * npMedian x + b)|)) =
        ((x.map (fun v => |v - npMedian x|)).map (fun v => |a| * v + 0)) := by
      rw [List.map_map, List.map_map]
      apply List.map_congr_left
      intro v _
      simp only [Function.comp]
      rw [add_zero, ← abs_mul]
      congr 1
      ring
    rw [this, npMedian_affine (by simpa using hx)]
    ring

/-- **C46**: half the samples at most lie on either side of the median used in
the threshold. -/
theorem C46_median_is_median (x : List ℚ) (hx : x ≠ []) :
    2 * (x.filter (fun v => decide (v < npMedian x))).length ≤ x.length ∧
    2 * (x.filter (fun v => decide (npMedian x < v))).length ≤ x.length :=
  npMedian_halves hx

/-- **C46**: rescaling the coalescence trace by `a > 0` and shifting it by `b`
rescales and shifts the MAD threshold with it. -/
theorem C46_threshold_equivariant (window mult sr : ℚ) (data : List ℚ) (h0 : 0 ≤ window * sr)
    (a b : ℚ) (ha : 0 < a) :
    getThreshold (.mad window mult) (data.map (fun v => a * v + b)) sr =
      (getThreshold (.mad window mult) data sr).map (fun v => a * v + b) := by
  rcases lt_or_ge (window * sr) 1 with h | h
  · rw [C14_short_window_triggers_everywhere window mult sr _ h0 h,
      C14_short_window_triggers_everywhere window mult sr _ h0 h]
  obtain ⟨l1, g1⟩ := C14_mad_threshold window mult sr data h
  obtain ⟨l2, g2⟩ := C14_mad_threshold window mult sr (data.map (fun v => a * v + b)) h
  rw [List.length_map] at l2 g2
  apply List.ext_getElem?
  intro i
  rcases Nat.lt_or_ge i data.length with hi | hi
  · rw [g2 i hi, List.getElem?_map, g1 i hi]
    have hch : chunkAt (data.map (fun v => a * v + b)) ⌊window * sr⌋.toNat i =
        (chunkAt data ⌊window * sr⌋.toNat i).map (fun v => a * v + b) := by
      unfold chunkAt
      rw [← List.map_drop, ← List.map_take]
    have hne : chunkAt data ⌊window * sr⌋.toNat i ≠ [] := by
      have hL : 0 < ⌊window * sr⌋.toNat := by
        have : 1 ≤ ⌊window * sr⌋ := Int.le_floor.mpr (by exact_mod_cast h)
        omega
      unfold chunkAt
      apply List.ne_nil_of_length_pos
      rw [List.length_take, List.length_drop]
      have := Nat.div_mul_le_self i ⌊window * sr⌋.toNat
      omega
    rw [hch, npMedian_affine hne, (C46_mad_equivariant _ _ hne (List.Perm.refl _) a b).2.2,
      abs_of_pos ha]
    simp only [Option.map_some, Option.some.injEq]
    ring
  · rw [List.getElem?_eq_none (by omega), List.getElem?_eq_none (by rw [List.length_map]; omega)]

/-- **C46**: hence the set of samples at or above the MAD threshold is unchanged. -/
theorem C46_triggered_set_invariant (window mult sr : ℚ) (data : List ℚ) (h : 0 ≤ window * sr)
    (a b : ℚ) (ha : 0 < a) (i : ℕ) (v v' t t' : ℚ)
    (hv : data[i]? = some v) (ht : (getThreshold (.mad window mult) data sr)[i]? = some t)
    (hv' : (data.map (fun v => a * v + b))[i]? = some v')
    (ht' : (getThreshold (.mad window mult) (data.map (fun v => a * v + b)) sr)[i]? = some t') :
    t' ≤ v' ↔ t ≤ v := by
  rw [C46_threshold_equivariant window mult sr data h a b ha, List.getElem?_map, ht] at ht'
  rw [List.getElem?_map, hv] at hv'
  simp at ht' hv'
  rw [← ht', ← hv']
  constructor
  · intro h; exact le_of_mul_le_mul_left (by linarith) ha
  · intro h; linarith [mul_le_mul_of_nonneg_left h (le_of_lt ha)]

example : ([3, 1, 2] : List ℚ) ≠ [] ∧ calculateMad [3, 1, 2] = 14826/10000 := by decide +kernel

end QM

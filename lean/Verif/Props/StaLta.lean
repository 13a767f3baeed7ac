import Verif.Lemmas.StaLtaRec
import Verif.Lemmas.Pads
import Verif.Lemmas.Round
import Verif.Model.Onset
import Verif.Model.Compute

/-!
# STA/LTA onset functions: C33-C40
-/

namespace QM
open QM.StaLta QM.Spec

section
variable {K : Type} [Field K] [LinearOrder K] [IsStrictOrderedRing K]

theorem natCast_ne {n : ℕ} (h : 1 ≤ n) : (n : K) ≠ 0 := by
  have : (0 : K) < n := by exact_mod_cast h
  exact this.ne'

/-- C33: the classic C onset function is the documented ratio at every sample. -/
theorem C33_classic_window_ratio (x : List K) (nsta nlta : ℕ) (h1 : 1 ≤ nsta) (h2 : nsta ≤ nlta)
    (hn : nlta ≤ x.length)
    (hpos : ∀ i < x.length, nlta ≤ i + 1 → 0 < winSum x (i + 1 - nlta) nlta) :
    overlappingC x nsta nlta =
      some ((List.range x.length).map (fun i => some (Spec.classic x nsta nlta i))) := by
  rw [overlappingC_eq x h1 h2 hn]
  congr 1
  apply List.map_congr_left
  intro i hi
  unfold overVal Spec.classic
  by_cases h : i + 1 < nlta
  · rw [if_pos h, if_pos h]
  · rw [if_neg h, if_neg h, cdiv_frac (hpos i (List.mem_range.1 hi) (by omega)).ne'
      (natCast_ne h1) (natCast_ne (by omega))]
    rfl

omit [IsStrictOrderedRing K] in
/-- C33 (why the guards are needed): a signal shorter than the long-term window makes
the C function read outside the array, whatever the window lengths. -/
theorem C33_short_signal_faults (x : List K) (nsta nlta : ℕ) (h1 : 1 ≤ nsta) (h2 : nsta ≤ nlta)
    (hn : x.length < nlta) : overlappingC x nsta nlta = none :=
  overlappingC_short x h1 h2 hn

omit [IsStrictOrderedRing K] in
/-- C33 (why the guards are needed): where the long-term window is silent the classic C
onset is not a finite number, and only there. -/
theorem C33_silent_window (x : List K) (nsta nlta : ℕ) (h1 : 1 ≤ nsta) (h2 : nsta ≤ nlta)
    (hn : nlta ≤ x.length) : ∃ out, overlappingC x nsta nlta = some out ∧ out.length = x.length ∧
      ∀ i < x.length, (out[i]? = some none ↔ nlta ≤ i + 1 ∧ winSum x (i + 1 - nlta) nlta = 0) := by
  refine ⟨_, overlappingC_eq x h1 h2 hn, by simp, ?_⟩
  intro i hi
  rw [List.getElem?_map, List.getElem?_range hi, Option.map_some]
  unfold overVal cdiv
  by_cases h : i + 1 < nlta
  · rw [if_pos h]; simp; omega
  · rw [if_neg h]
    by_cases hz : winSum x (i + 1 - nlta) nlta = 0
    · simp [hz]; omega
    · simp [hz]

def exSig : List ℚ := [1, 2, 3, 4, 9, 1, 2]
example : (∀ i < exSig.length, 3 ≤ i + 1 → 0 < winSum exSig (i + 1 - 3) 3) ∧
    overlappingC exSig 2 3 = some ([1, 1, 5/4, 7/6, 39/32, 15/14, 3/8].map some) ∧
    centredC exSig 2 3 = some ([1, 1, 13/4, 5/3, 9/32, 1, 1].map some) := by
  decide +kernel

/-- C34: the centred C onset function is the documented ratio at every sample. -/
theorem C34_centred_window_ratio (x : List K) (nsta nlta : ℕ) (h1 : 1 ≤ nsta) (h2 : 1 ≤ nlta)
    (hn : nlta + nsta ≤ x.length)
    (hpos : ∀ i, nlta ≤ i + 1 → i + nsta < x.length → 0 < winSum x (i + 1 - nlta) nlta) :
    centredC x nsta nlta =
      some ((List.range x.length).map (fun i => some (Spec.centred x nsta nlta i))) := by
  rw [centredC_eq x h1 h2 hn]
  congr 1
  apply List.map_congr_left
  intro i hi
  unfold centVal Spec.centred
  by_cases h : i + 1 < nlta ∨ x.length < i + 1 + nsta
  · rw [if_pos h, if_pos h]
  · have hp := hpos i (by omega) (by omega)
    rw [if_neg h, if_neg h, if_neg (by tauto), cdiv_frac hp.ne' (natCast_ne h1) (natCast_ne h2)]
    rfl

omit [IsStrictOrderedRing K] in
/-- C34 (why the guards are needed): a signal shorter than both windows together makes
the C function read outside the array. -/
theorem C34_short_signal_faults (x : List K) (nsta nlta : ℕ) (hn : x.length < nlta + nsta) :
    centredC x nsta nlta = none :=
  centredC_short x hn

omit [IsStrictOrderedRing K] in
/-- C34: where the long-term window of a non-negative signal is silent the centred onset
is 1, except at the first full window, where it is not a finite number. -/
theorem C34_silent_window (x : List K) (nsta nlta : ℕ) (h1 : 1 ≤ nsta) (h2 : 1 ≤ nlta)
    (hn : nlta + nsta ≤ x.length) : ∃ out, centredC x nsta nlta = some out ∧
      ∀ i, nlta ≤ i + 1 → i + nsta < x.length → winSum x (i + 1 - nlta) nlta = 0 →
        out[i]? = some (if i + 1 = nlta then none else some 1) := by
  refine ⟨_, centredC_eq x h1 h2 hn, ?_⟩
  intro i ha hb hz
  rw [List.getElem?_map, List.getElem?_range (by omega), Option.map_some]
  unfold centVal cdiv
  rw [if_neg (by omega), hz]
  by_cases e : i + 1 = nlta
  · rw [if_neg (by omega), if_pos e]; simp
  · rw [if_pos (by simp; omega), if_neg e]

example : centredC ([0, 0, 0, 1, 1, 0, 0] : List ℚ) 1 2 =
    some [some 1, none, some 1, some 2, some 0, some 0, some 1] := by decide +kernel

/-- C35, classic position: whenever no long-term mean is below the smallest normal
double `tiny`, the backends agree. Missing from the full claim: silent windows, see
`C35_classic_silence_violated`. -/
theorem C35_classic_backends_agree_partial (tiny : K) (ht : 0 < tiny) (ht1 : tiny ≤ 1)
    (x : List K) (nsta nlta : ℕ) (h1 : 1 ≤ nsta) (h2 : nsta ≤ nlta) (hn : nlta ≤ x.length)
    (hpos : ∀ i < x.length, nlta ≤ i + 1 → tiny ≤ winMean x (i + 1 - nlta) nlta) :
    overlappingC x nsta nlta = some ((overlappingPy tiny x nsta nlta).map some) := by
  rw [C33_classic_window_ratio x nsta nlta h1 h2 hn]
  · congr 1
    apply List.ext_getElem?
    intro i
    by_cases hi : i < x.length
    · rw [List.getElem?_map, List.getElem?_map, List.getElem?_range hi,
        overlappingPy_get tiny x h1 h2 i hi ht1 ht.ne']
      simp only [Option.map_some, Spec.classic]
      by_cases h : i + 1 < nlta
      · simp [h]
      · rw [if_neg h, if_neg h, if_neg (not_lt.2 (hpos i hi (by omega)))]
    · rw [List.getElem?_eq_none (by simp; omega), List.getElem?_eq_none (by
        rw [List.length_map, overlappingPy_length]; omega)]
  · intro i hi h
    have := lt_of_lt_of_le ht (hpos i hi h)
    unfold winMean at this
    have hl : (0 : K) < nlta := by exact_mod_cast (by omega : 0 < nlta)
    by_contra hc
    exact absurd this (not_lt.2 (div_nonpos_of_nonpos_of_nonneg (not_lt.1 hc) hl.le))

/-- C35, centred position: the backends agree when the short-term window is shorter
than the long-term window and every long-term mean is either at least `tiny` or, after
the first full window, exactly zero. -/
theorem C35_centred_backends_agree_partial (tiny : K) (ht : 0 < tiny) (ht1 : tiny ≤ 1)
    (x : List K) (nsta nlta : ℕ) (h1 : 1 ≤ nsta) (h2 : nsta < nlta) (hn : nlta + nsta ≤ x.length)
    (hpos : ∀ i, nlta ≤ i + 1 → i + nsta < x.length → tiny ≤ winMean x (i + 1 - nlta) nlta ∨
      (i + 1 ≠ nlta ∧ winMean x (i + 1 - nlta) nlta = 0)) :
    centredC x nsta nlta = some ((centredPy tiny x nsta nlta).map some) := by
  have hl : (0 : K) < nlta := by exact_mod_cast (by omega : 0 < nlta)
  rw [centredC_eq x h1 (by omega) hn]
  congr 1
  apply List.ext_getElem?
  intro i
  by_cases hi : i < x.length
  · rw [List.getElem?_map, List.getElem?_map, List.getElem?_range hi,
      centredPy_get tiny x h1 h2 i hi hn ht1 ht.ne']
    simp only [Option.map_some, centVal, Option.some.injEq]
    by_cases h : i + 1 < nlta ∨ x.length < i + 1 + nsta
    · rw [if_pos h, if_pos h]
    · rw [if_neg h, if_neg h]
      rcases hpos i (by omega) (by omega) with hp | ⟨he, hz⟩
      · have hs : 0 < winSum x (i + 1 - nlta) nlta := by
          have := lt_of_lt_of_le ht hp
          unfold winMean at this
          by_contra hc
          exact absurd this (not_lt.2 (div_nonpos_of_nonpos_of_nonneg (not_lt.1 hc) hl.le))
        rw [if_neg (by tauto), if_neg (not_lt.2 hp),
          cdiv_frac hs.ne' (natCast_ne h1) (natCast_ne (by omega))]
        rfl
      · have hs : winSum x (i + 1 - nlta) nlta = 0 := by
          unfold winMean at hz
          rcases div_eq_zero_iff.1 hz with h | h
          · exact h
          · exact absurd h hl.ne'
        rw [hs, if_pos ⟨by omega, lt_irrefl _⟩, hz, if_pos ht]
  · rw [List.getElem?_eq_none (by simp; omega), List.getElem?_eq_none (by
      rw [List.length_map, centredPy_length _ _ _ _ (by omega)]; omega)]
end

example : (∀ i < exSig.length, 3 ≤ i + 1 → (1/1000 : ℚ) ≤ winMean exSig (i + 1 - 3) 3) ∧
    overlappingPy (1/1000) exSig 2 3 = [1, 1, 5/4, 7/6, 39/32, 15/14, 3/8] ∧
    centredPy (1/1000) exSig 2 3 = [1, 1, 13/4, 5/3, 9/32, 1, 1] ∧
    centredPy (1/1000) ([3, 0, 0, 0, 1, 1] : List ℚ) 1 2 = [1, 0, 1, 1, 2, 1] := by
  decide +kernel

/-- C35 is violated: on a signal with a silent long-term window (here all zero) the
Python backend returns 1, the C backend a value that is not a number. -/
theorem C35_classic_silence_violated : ∃ x : List ℚ, (∀ v ∈ x, 0 ≤ v) ∧
    ∀ tiny : ℚ, 0 < tiny → tiny ≤ 1 →
      overlappingPy tiny x 1 2 = [1, 1, 1] ∧
      overlappingC x 1 2 = some [some 1, none, none] := by
  refine ⟨[0, 0, 0], by decide, fun tiny h h1 => ⟨?_, by decide +kernel⟩⟩
  have e : overlappingPy tiny [0, 0, 0] 1 2 =
      [if (1 : ℚ) < tiny then tiny / tiny else 1 / 1, if 0 / 2 < tiny then tiny / tiny else 0 / 1 / (0 / 2),
       if 0 / 2 < tiny then tiny / tiny else 0 / 1 / (0 / 2)] := by
    simp [overlappingPy, safeRatio, cumsumFrom, diffFrom, onesTo]
  rw [e, if_neg (not_lt.2 h1), if_pos (by simpa using h), div_self h.ne']; simp

/-- C35 is violated: with windows of equal length the centred backends differ (no silent
window involved). -/
theorem C35_centred_equal_windows_violated : ∃ x : List ℚ, (∀ v ∈ x, 1 ≤ v) ∧
    centredPy (1/1000) x 1 1 = [1, 2, 1] ∧ centredC x 1 1 = some [some 2, some 2, some 1] := by
  exact ⟨[1, 2, 4], by decide, by decide +kernel, by decide +kernel⟩

/-- C36 is violated: the recursive onset is not the centred onset. -/
theorem C36_recursive_not_centred : ∃ x : List ℚ, (∀ v ∈ x, 1 ≤ v) ∧
    centredC x 1 2 = some ([1, 2, 8/5, 10/7, 1].map some) ∧
    recursiveC x 1 2 = some ([1, 1, 3/2, 4/3, 5/4].map some) := by
  refine ⟨[1, 2, 3, 4, 5], by decide, ?_, ?_⟩
  · decide +kernel
  · decide +kernel

section
variable {K : Type} [Field K] [LinearOrder K]

omit [LinearOrder K] in
/-- Specification: exponentially weighted average with factor `c`, started at sample 1. -/
def Spec.expMean (c : K) (x : List K) (i : ℕ) : K :=
  ((List.range i).map (fun k => c * (1 - c) ^ (i - 1 - k) * x.getD (k + 1) 0)).sum

theorem ew_eq (c : K) (x : List K) (i : ℕ) : ew c x i = Spec.expMean c x i := by
  induction i with
  | zero => simp [ew, Spec.expMean]
  | succ i ih =>
    rw [ew, ih]
    unfold Spec.expMean
    rw [List.range_succ, List.map_append, List.sum_append]
    simp only [List.map_cons, List.map_nil, List.sum_cons, List.sum_nil, Nat.add_sub_cancel,
      Nat.sub_self, pow_zero, mul_one, add_zero]
    rw [add_comm, ← List.sum_map_mul_left, List.map_congr_left]
    intro k hk
    have := List.mem_range.1 hk
    rw [show i - k = (i - 1 - k) + 1 by omega, pow_succ]
    ring

/-- C36: what the recursive onset is instead: the ratio of exponentially weighted
averages with factors 1/nsta and 1/nlta, with the first nlta samples set to 1.  In common
with the centred onset there are only the leading ones. -/
theorem C36_recursive_formula_partial (x : List K) (nsta nlta : ℕ) (hn : nlta < x.length) :
    recursiveC x nsta nlta = some ((List.range x.length).map (fun i =>
      if i < nlta then some 1
      else if i = 0 then some 0
      else if Spec.expMean (1 / (nlta : K)) x i = 0 then none
      else some (Spec.expMean (1 / (nsta : K)) x i / Spec.expMean (1 / (nlta : K)) x i))) := by
  rw [recursiveC_eq]
  congr 1
  apply List.map_congr_left
  intro i _
  simp only [hn, true_and, ew_eq, cdiv]

example : recursiveC exSig 2 3 = some ([1, 1, 1, 81/62, 486/367, 1701/1630, 8019/8464].map some) := by
  decide +kernel
end
end QM

import Verif.Lemmas.StaLta

namespace QM.StaLta

variable {K : Type} [Field K] [LinearOrder K]

/-- `Σ_{k=1..i} c (1-c)^(i-k) x_k` by recursion on `i`. -/
def ew (c : K) (x : List K) : ℕ → K
  | 0 => 0
  | i + 1 => c * x.getD (i + 1) 0 + (1 - c) * ew c x i

theorem recursiveC_eq (x : List K) (nsta nlta : ℕ) :
    recursiveC x nsta nlta = some ((List.range x.length).map (fun i =>
      if nlta < x.length ∧ i < nlta then some 1
      else if i = 0 then some 0
      else cdiv (ew (1 / (nsta : K)) x i) (ew (1 / (nlta : K)) x i))) := by
  unfold recursiveC
  by_cases hn : x.length = 0
  · rw [hn]; simp [forLoop]
  have e := forLoop_inv (recStep x nsta nlta) (lo := 1) (hi := x.length)
    (fun i => (⟨ew (1 / (nsta : K)) x (i - 1), ew (1 / (nlta : K)) x (i - 1),
      fun j => if j = 0 then some 0 else if j < i then
        cdiv (ew (1 / (nsta : K)) x j) (ew (1 / (nlta : K)) x j) else some 0⟩ : CSt K)) (by omega) (by
    intro i a hi
    obtain ⟨k, rfl⟩ : ∃ k, i = k + 1 := ⟨i - 1, by omega⟩
    have hg : x.getD (k + 1) 0 = x[k + 1] := by simp [List.getD, List.getElem?_eq_getElem hi]
    simp only [recStep, List.getElem?_eq_getElem hi, write, if_pos hi, Nat.add_sub_cancel, ew, hg]
    congr 2
    funext j
    by_cases e : j = k + 1
    · subst e
      rw [Function.update_self, if_neg (by omega), if_pos (by omega), ew, ew, hg]
    · rw [Function.update_of_ne e]
      by_cases e' : j < k + 1
      · rw [if_pos e', if_pos (show j < k + 1 + 1 by omega)]
      · rw [if_neg e', if_neg (show ¬ j < k + 1 + 1 by omega)])
  have e0 : (fun j => if j = 0 then some (0 : K) else if j < 1 then
        cdiv (ew (1 / (nsta : K)) x j) (ew (1 / (nlta : K)) x j) else some 0) = fun _ => some 0 := by
    funext j
    by_cases h : j = 0
    · simp [h]
    · rw [if_neg h, if_neg (by omega)]
  simp only [e0, Nat.sub_self, ew] at e
  rw [e]
  simp only [Option.some.injEq]
  apply List.map_congr_left
  intro i hi
  have := List.mem_range.1 hi
  rw [if_pos this]

end QM.StaLta

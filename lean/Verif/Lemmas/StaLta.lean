import Verif.Model.StaLta
import Verif.Spec.StaLta
import Mathlib.Tactic

namespace QM.StaLta

open Spec

variable {K : Type} [Field K] [LinearOrder K]

/-- prefix sums -/
def P (x : List K) (i : ℕ) : K := (x.take i).sum

theorem P_zero (x : List K) : P x 0 = 0 := by simp [P]

theorem P_succ (x : List K) {i : ℕ} (h : i < x.length) : P x (i + 1) = P x i + x[i] := by
  simp [P, List.sum_take_succ _ _ h]

theorem winSum_eq (x : List K) (a len : ℕ) : winSum x a len = P x (a + len) - P x a := by
  unfold winSum P
  rw [List.take_add, List.sum_append]; ring

theorem forLoop_inv {S : Type} (body : ℕ → S → Option S) (inv : ℕ → S) {lo hi : ℕ} (hle : lo ≤ hi)
    (h : ∀ i, lo ≤ i → i < hi → body i (inv i) = some (inv (i + 1))) :
    forLoop lo hi body (inv lo) = some (inv hi) := by
  obtain ⟨k, rfl⟩ := Nat.exists_eq_add_of_le hle
  unfold forLoop
  rw [Nat.add_sub_cancel_left]
  clear hle
  induction k generalizing lo with
  | zero => simp
  | succ k ih =>
    rw [List.range'_succ, List.foldlM_cons, h lo (le_refl _) (by omega)]
    have := @ih (lo + 1) (fun i h1 h2 => h i (by omega) (by omega))
    simp only [Option.bind_eq_bind, Option.bind_some]
    rw [this]; congr 2; omega

theorem forLoop_fail {S : Type} (body : ℕ → S → Option S) (inv : ℕ → S) {lo hi m : ℕ} (hle : lo ≤ m)
    (hm : m < hi)
    (h : ∀ i, lo ≤ i → i < m → body i (inv i) = some (inv (i + 1)))
    (hf : body m (inv m) = none) :
    forLoop lo hi body (inv lo) = none := by
  have e := forLoop_inv body inv hle h
  unfold forLoop at e ⊢
  have : List.range' lo (hi - lo) = List.range' lo (m - lo) ++ List.range' m (hi - m) := by
    have := List.range'_append (s := lo) (m := m - lo) (n := hi - m) (step := 1)
    rw [one_mul, show lo + (m - lo) = m by omega, show m - lo + (hi - m) = hi - lo by omega] at this
    exact this.symm
  rw [this, List.foldlM_append, e]
  have : hi - m = (hi - m - 1) + 1 := by omega
  rw [this, List.range'_succ]
  simp [List.foldlM_cons, hf]

theorem forLoop_addAt (x : List K) {lo hi : ℕ} (hle : lo ≤ hi) (hn : hi ≤ x.length) :
    forLoop lo hi (addAt x) 0 = some (P x hi - P x lo) := by
  have := forLoop_inv (addAt x) (fun i => P x i - P x lo) hle (by
    intro i h1 h2
    simp only [addAt, List.getElem?_eq_getElem (show i < x.length by omega), Option.map_some,
      P_succ x (show i < x.length by omega)]
    congr 1; ring)
  simpa using this

theorem forLoop_addAt_fail (x : List K) {lo hi : ℕ} (hlo : lo ≤ x.length) (hn : x.length < hi) :
    forLoop lo hi (addAt x) 0 = none := by
  have := forLoop_fail (addAt x) (fun i => P x i - P x lo) (lo := lo) (hi := hi) hlo hn (by
    intro i h1 h2
    simp only [addAt, List.getElem?_eq_getElem h2, Option.map_some, P_succ x h2]
    congr 1; ring) (by simp [addAt])
  simpa using this

/-- Value of the classic loop at sample `i`. -/
def overVal (x : List K) (nsta nlta i : ℕ) : Option K :=
  if i + 1 < nlta then some 1
  else (cdiv (winSum x (i + 1 - nsta) nsta) (winSum x (i + 1 - nlta) nlta)).map (· * frac nsta nlta)

theorem overlappingC_eq (x : List K) {nsta nlta : ℕ} (h1 : 1 ≤ nsta) (h2 : nsta ≤ nlta)
    (h3 : nlta ≤ x.length) :
    overlappingC x nsta nlta = some ((List.range x.length).map (overVal x nsta nlta)) := by
  unfold overlappingC
  rw [forLoop_addAt x (Nat.zero_le _) (by omega), P_zero, sub_zero]
  have e2 := forLoop_inv (overFill x nsta) (fun i => (P x i - P x (i - nsta), P x i)) h2 (by
    intro i a b
    have hi : i < x.length := by omega
    have hj : i - nsta < x.length := by omega
    simp only [overFill, List.getElem?_eq_getElem hi, List.getElem?_eq_getElem hj, P_succ x hi]
    rw [show i + 1 - nsta = (i - nsta) + 1 by omega, P_succ x hj]
    congr 2; ring)
  simp only [Nat.sub_self, P_zero, sub_zero] at e2
  simp only [e2]
  rw [write, if_pos (by omega)]
  simp only []
  have e3 := forLoop_inv (overStep x nsta nlta)
    (fun i => (⟨P x i - P x (i - nsta), P x i - P x (i - nlta),
      fun j => if j < i then overVal x nsta nlta j else some 1⟩ : CSt K)) h3 (by
    intro i a b
    have hi : i < x.length := by omega
    have hj : i - nsta < x.length := by omega
    have hk : i - nlta < x.length := by omega
    have es : P x i - P x (i - nsta) + (x[i] - x[i - nsta]) = P x (i + 1) - P x (i + 1 - nsta) := by
      rw [show i + 1 - nsta = (i - nsta) + 1 by omega, P_succ x hi, P_succ x hj]; ring
    have el : P x i - P x (i - nlta) + (x[i] - x[i - nlta]) = P x (i + 1) - P x (i + 1 - nlta) := by
      rw [show i + 1 - nlta = (i - nlta) + 1 by omega, P_succ x hi, P_succ x hk]; ring
    simp only [overStep, List.getElem?_eq_getElem hi, List.getElem?_eq_getElem hj,
      List.getElem?_eq_getElem hk, write, if_pos hi, es, el]
    congr 2
    funext j
    by_cases e : j = i
    · subst e
      rw [Function.update_self, if_pos (by omega), overVal, if_neg (by omega), winSum_eq, winSum_eq,
        show j + 1 - nsta + nsta = j + 1 by omega, show j + 1 - nlta + nlta = j + 1 by omega]
    · rw [Function.update_of_ne e]
      by_cases e' : j < i
      · rw [if_pos e', if_pos (by omega)]
      · rw [if_neg e', if_neg (by omega)])
  simp only [Nat.sub_self, P_zero, sub_zero] at e3
  have e4 : (Function.update (ones : ℕ → Option K) (nlta - 1)
      ((cdiv (P x nlta - P x (nlta - nsta)) (P x nlta)).map (· * frac nsta nlta))) =
      (fun j => if j < nlta then overVal x nsta nlta j else some 1) := by
    funext j
    by_cases e : j = nlta - 1
    · subst e
      rw [Function.update_self, if_pos (by omega), overVal, if_neg (by omega), winSum_eq, winSum_eq,
        show nlta - 1 + 1 - nsta + nsta = nlta by omega, show nlta - 1 + 1 - nlta = 0 by omega,
        show nlta - 1 + 1 - nsta = nlta - nsta by omega, P_zero, sub_zero, zero_add]
    · rw [Function.update_of_ne e]
      by_cases e' : j < nlta
      · rw [if_pos e', overVal, if_pos (by omega)]; rfl
      · rw [if_neg e']; rfl
  rw [e4, e3]
  simp only [Option.some.injEq]
  apply List.map_congr_left
  intro i hi
  rw [if_pos (List.mem_range.1 hi)]

theorem overlappingC_short (x : List K) {nsta nlta : ℕ} (h1 : 1 ≤ nsta) (h2 : nsta ≤ nlta)
    (h3 : x.length < nlta) : overlappingC x nsta nlta = none := by
  unfold overlappingC
  by_cases h : x.length < nsta
  · rw [forLoop_addAt_fail x (Nat.zero_le _) h]
  · rw [forLoop_addAt x (Nat.zero_le _) (by omega), P_zero, sub_zero]
    have e2 := forLoop_fail (overFill x nsta) (fun i => (P x i - P x (i - nsta), P x i))
      (lo := nsta) (hi := nlta) (m := x.length) (by omega) h3 (by
      intro i a hi
      have hj : i - nsta < x.length := by omega
      simp only [overFill, List.getElem?_eq_getElem hi, List.getElem?_eq_getElem hj, P_succ x hi]
      rw [show i + 1 - nsta = (i - nsta) + 1 by omega, P_succ x hj]
      congr 2; ring) (by simp [overFill])
    simp only [Nat.sub_self, P_zero, sub_zero] at e2
    simp only [e2]

/-- Value of the centred loop at sample `i`. -/
def centVal (x : List K) (nsta nlta i : ℕ) : Option K :=
  if i + 1 < nlta ∨ x.length < i + 1 + nsta then some 1
  else if nlta ≤ i ∧ ¬ 0 < winSum x (i + 1 - nlta) nlta then some 1
  else (cdiv (winSum x (i + 1) nsta) (winSum x (i + 1 - nlta) nlta)).map (· * frac nsta nlta)

theorem centredC_eq (x : List K) {nsta nlta : ℕ} (h1 : 1 ≤ nsta) (h2 : 1 ≤ nlta)
    (h3 : nlta + nsta ≤ x.length) :
    centredC x nsta nlta = some ((List.range x.length).map (centVal x nsta nlta)) := by
  unfold centredC
  rw [forLoop_addAt x (Nat.zero_le _) (by omega), forLoop_addAt x (by omega) h3, P_zero, sub_zero]
  simp only [write, if_pos (show nlta - 1 < x.length by omega)]
  have e3 := forLoop_inv (centStep x nsta nlta) (lo := nlta) (hi := x.length - nsta)
    (fun i => (⟨P x (i + nsta) - P x i, P x i - P x (i - nlta),
      fun j => if j < i then centVal x nsta nlta j else some 1⟩ : CSt K)) (by omega) (by
    intro i a b
    have hi : i < x.length := by omega
    have hj : i + nsta < x.length := by omega
    have hk : i - nlta < x.length := by omega
    have es : P x (i + nsta) - P x i + (x[i + nsta] - x[i]) = P x (i + 1 + nsta) - P x (i + 1) := by
      rw [show i + 1 + nsta = (i + nsta) + 1 by omega, P_succ x hi, P_succ x hj]; ring
    have el : P x i - P x (i - nlta) + (x[i] - x[i - nlta]) = P x (i + 1) - P x (i + 1 - nlta) := by
      rw [show i + 1 - nlta = (i - nlta) + 1 by omega, P_succ x hi, P_succ x hk]; ring
    simp only [centStep, List.getElem?_eq_getElem hi, List.getElem?_eq_getElem hj,
      List.getElem?_eq_getElem hk, write, if_pos hi, es, el]
    congr 2
    funext j
    by_cases e : j = i
    · subst e
      rw [Function.update_self, if_pos (show j < j + 1 by omega), centVal,
        if_neg (show ¬ (j + 1 < nlta ∨ x.length < j + 1 + nsta) by omega), winSum_eq, winSum_eq,
        show j + 1 - nlta + nlta = j + 1 by omega]
      by_cases hp : 0 < P x (j + 1) - P x (j + 1 - nlta)
      · rw [if_pos hp, if_neg (by tauto)]
      · rw [if_neg hp, if_pos ⟨a, hp⟩]
    · rw [Function.update_of_ne e]
      by_cases e' : j < i
      · rw [if_pos e', if_pos (by omega)]
      · rw [if_neg e', if_neg (by omega)])
  simp only [Nat.sub_self, P_zero, sub_zero] at e3
  have e4 : (Function.update (ones : ℕ → Option K) (nlta - 1)
      ((cdiv (P x (nlta + nsta) - P x nlta) (P x nlta)).map (· * frac nsta nlta))) =
      (fun j => if j < nlta then centVal x nsta nlta j else some 1) := by
    funext j
    by_cases e : j = nlta - 1
    · subst e
      rw [Function.update_self, if_pos (by omega), centVal, if_neg (by omega), if_neg (by omega),
        winSum_eq, winSum_eq, show nlta - 1 + 1 = nlta by omega, Nat.sub_self, P_zero, sub_zero,
        zero_add]
    · rw [Function.update_of_ne e]
      by_cases e' : j < nlta
      · rw [if_pos e', centVal, if_pos (by omega)]; rfl
      · rw [if_neg e']; rfl
  rw [e4, e3]
  simp only [Option.some.injEq]
  apply List.map_congr_left
  intro i hi
  have := List.mem_range.1 hi
  by_cases h : i < x.length - nsta
  · rw [if_pos h]
  · rw [if_neg h, centVal, if_pos (by omega)]

theorem centredC_short (x : List K) {nsta nlta : ℕ} (h3 : x.length < nlta + nsta) :
    centredC x nsta nlta = none := by
  unfold centredC
  by_cases h : x.length < nlta
  · rw [forLoop_addAt_fail x (Nat.zero_le _) h]
  · rw [forLoop_addAt x (Nat.zero_le _) (by omega), forLoop_addAt_fail x (by omega) h3]

theorem cdiv_frac {a b : K} {nsta nlta : ℕ} (hb : b ≠ 0) (h1 : (nsta : K) ≠ 0) (h2 : (nlta : K) ≠ 0) :
    (cdiv a b).map (· * frac nsta nlta) = some ((a / nsta) / (b / nlta)) := by
  unfold cdiv frac
  rw [if_neg hb]
  simp only [Option.map_some]
  congr 1
  field_simp

theorem cdiv_scale {a b k : K} (hk : k ≠ 0) : cdiv (k * a) (k * b) = cdiv a b := by
  unfold cdiv
  by_cases h : b = 0
  · simp [h]
  · rw [if_neg (mul_ne_zero hk h), if_neg h, mul_div_mul_left _ _ hk]

theorem winSum_scale (x : List K) (k : K) (a len : ℕ) :
    winSum (x.map (fun v => k * v)) a len = k * winSum x a len := by
  unfold winSum
  rw [← List.map_drop, ← List.map_take, List.sum_map_mul_left]; simp

/-! ### Python backends -/

theorem cumsumFrom_length (acc : K) (x : List K) : (cumsumFrom acc x).length = x.length := by
  induction x generalizing acc with
  | nil => rfl
  | cons v l ih => simp [cumsumFrom, ih]

theorem cumsumFrom_get (acc : K) (x : List K) (i : ℕ) (h : i < x.length) :
    (cumsumFrom acc x)[i]? = some (acc + P x (i + 1)) := by
  induction x generalizing acc i with
  | nil => simp at h
  | cons v l ih =>
    cases i with
    | zero => simp [cumsumFrom, P]
    | succ i =>
      simp only [List.length_cons] at h
      simp only [cumsumFrom, List.getElem?_cons_succ]
      rw [ih (acc + v) i (by omega)]
      simp [P, add_assoc]

theorem diffFrom_length (k : ℕ) (a : List K) : (diffFrom k a).length = a.length := by
  simp [diffFrom]; omega

theorem diffFrom_get (k : ℕ) (x : List K) (i : ℕ) (h : i < x.length) :
    (diffFrom k (cumsumFrom 0 x))[i]? = some (P x (i + 1) - P x (i + 1 - min k (i + 1))) := by
  unfold diffFrom
  have hl := cumsumFrom_length 0 x
  by_cases hk : i < k
  · rw [List.getElem?_append_left (by simp; omega), List.getElem?_take, if_pos hk,
      cumsumFrom_get 0 x i h, show i + 1 - min k (i + 1) = 0 by omega, P_zero]
    simp
  · rw [List.getElem?_append_right (by simp; omega)]
    rw [List.length_take, hl, show min k x.length = k by omega, List.getElem?_zipWith,
      List.getElem?_drop, show k + (i - k) = i by omega, cumsumFrom_get 0 x i h,
      List.getElem?_take, if_pos (by omega), cumsumFrom_get 0 x (i - k) (by omega)]
    simp only [zero_add]
    by_cases hik : i + 1 = k
    · omega
    · rw [show i + 1 - min k (i + 1) = i - k + 1 by omega]

theorem shiftLeft_length (k : ℕ) (a : List K) (h : k ≤ a.length) :
    (shiftLeft k a).length = a.length := by
  simp [shiftLeft]; omega

theorem shiftLeft_get (k : ℕ) (a : List K) (i : ℕ) (h : i + k < a.length) (hk : k ≤ i) :
    (shiftLeft k a)[i]? = a[i + k]? := by
  unfold shiftLeft
  rw [List.append_assoc, List.getElem?_append_right (by simp; omega), List.length_take,
    show min k a.length = k by omega, List.getElem?_append_left (by simp; omega),
    List.getElem?_drop]
  congr 1; omega

theorem shiftLeft_get_lt (k : ℕ) (a : List K) (i : ℕ) (h : i < a.length) (hk : i < k) :
    (shiftLeft k a)[i]? = a[i]? := by
  unfold shiftLeft
  rw [List.append_assoc, List.getElem?_append_left (by simp; omega), List.getElem?_take, if_pos hk]

theorem onesTo_length (k : ℕ) (a : List K) : (onesTo k a).length = a.length := by
  simp [onesTo]; omega

theorem onesTo_get (k : ℕ) (a : List K) (i : ℕ) (h : i < a.length) :
    (onesTo k a)[i]? = if i < k then some 1 else a[i]? := by
  unfold onesTo
  by_cases hk : i < k
  · rw [List.getElem?_append_left (by simp; omega), if_pos hk, List.getElem?_replicate,
      if_pos (by omega)]
  · rw [List.getElem?_append_right (by simp; omega), if_neg hk, List.length_replicate,
      List.getElem?_drop]
    congr 1; omega

theorem onesLast_length (k : ℕ) (a : List K) : (onesLast k a).length = a.length := by
  simp [onesLast]; omega

theorem onesLast_get (k : ℕ) (a : List K) (i : ℕ) (h : i < a.length) :
    (onesLast k a)[i]? = if a.length ≤ i + k then some 1 else a[i]? := by
  unfold onesLast
  by_cases hk : a.length ≤ i + k
  · rw [List.getElem?_append_right (by simp; omega), if_pos hk, List.getElem?_replicate,
      if_pos (by simp; omega)]
  · rw [List.getElem?_append_left (by simp; omega), if_neg hk, List.getElem?_take,
      if_pos (by omega)]

/-- Value of the Python classic onset at `i`. -/
theorem overlappingPy_get (tiny : K) (x : List K) {nsta nlta : ℕ} (h1 : 1 ≤ nsta) (h2 : nsta ≤ nlta)
    (i : ℕ) (h : i < x.length) (ht : tiny ≤ 1) (ht0 : tiny ≠ 0) :
    (overlappingPy tiny x nsta nlta)[i]? = some
      (if i + 1 < nlta then 1 else
        if winMean x (i + 1 - nlta) nlta < tiny then 1 else
          winMean x (i + 1 - nsta) nsta / winMean x (i + 1 - nlta) nlta) := by
  have hl := cumsumFrom_length 0 x
  unfold overlappingPy safeRatio
  simp only [List.getElem?_zipWith]
  rw [onesTo_get _ _ _ (by rw [List.length_map, diffFrom_length, hl]; exact h),
    onesTo_get _ _ _ (by rw [List.length_map, diffFrom_length, hl]; exact h)]
  simp only [List.getElem?_map, diffFrom_get _ x i h, Option.map_some]
  by_cases hi : i + 1 < nlta
  · rw [if_pos (by omega), if_pos (by omega), if_pos hi]
    simp only [Option.some.injEq]
    rw [if_neg (not_lt.2 ht)]; simp
  · rw [if_neg (by omega), if_neg (by omega), if_neg hi]
    unfold winMean
    rw [winSum_eq, winSum_eq, show i + 1 - nlta + nlta = i + 1 by omega,
      show i + 1 - nsta + nsta = i + 1 by omega, show min nlta (i + 1) = nlta by omega,
      show min nsta (i + 1) = nsta by omega, div_self ht0]

/-- Value of the Python centred onset at `i`. -/
theorem centredPy_get (tiny : K) (x : List K) {nsta nlta : ℕ} (h1 : 1 ≤ nsta) (h2 : nsta < nlta)
    (i : ℕ) (h : i < x.length) (hn : nlta + nsta ≤ x.length) (ht : tiny ≤ 1) (ht0 : tiny ≠ 0) :
    (centredPy tiny x nsta nlta)[i]? = some
      (if i + 1 < nlta ∨ x.length < i + 1 + nsta then 1 else
        if winMean x (i + 1 - nlta) nlta < tiny then 1 else
          winMean x (i + 1) nsta / winMean x (i + 1 - nlta) nlta) := by
  have hl := cumsumFrom_length 0 x
  have hd : ∀ k, (diffFrom k (cumsumFrom 0 x)).length = x.length := by
    intro k; rw [diffFrom_length, hl]
  have hs : (shiftLeft nsta (diffFrom nsta (cumsumFrom 0 x))).length = x.length := by
    rw [shiftLeft_length _ _ (by rw [hd]; omega), hd]
  unfold centredPy safeRatio
  simp only [List.getElem?_zipWith]
  rw [onesLast_get _ _ _ (by rw [onesTo_length, List.length_map, hs]; exact h),
    onesLast_get _ _ _ (by rw [onesTo_length, List.length_map, hd]; exact h),
    onesTo_get _ _ _ (by rw [List.length_map, hs]; exact h),
    onesTo_get _ _ _ (by rw [List.length_map, hd]; exact h)]
  rw [onesTo_length, onesTo_length, List.length_map, List.length_map, hs, hd]
  simp only [List.getElem?_map, diffFrom_get _ x i h, Option.map_some]
  have hz : ∀ a b : K, (if (1 : K) < tiny then a else b) = b := fun a b => if_neg (not_lt.2 ht)
  by_cases hj : x.length < i + 1 + nsta
  · have hj' : x.length ≤ i + nsta := by omega
    simp only [if_pos hj', hj, or_true, if_true, hz]; simp
  · have hj' : ¬ x.length ≤ i + nsta := by omega
    by_cases hi : i + 1 < nlta
    · have hi' : i < nlta - 1 := by omega
      simp only [if_neg hj', if_pos hi', hi, true_or, if_true, hz]; simp
    · have hi' : ¬ i < nlta - 1 := by omega
      simp only [if_neg hj', if_neg hi', hi, hj, or_false, if_false]
      rw [shiftLeft_get _ _ _ (by rw [hd]; omega) (by omega), diffFrom_get _ x _ (by omega)]
      unfold winMean
      rw [winSum_eq, winSum_eq, show i + 1 - nlta + nlta = i + 1 by omega,
        show min nlta (i + 1) = nlta by omega,
        show i + nsta + 1 - min nsta (i + nsta + 1) = i + 1 by omega,
        show i + nsta + 1 = i + 1 + nsta by omega, div_self ht0]
      rfl

theorem overlappingPy_length (tiny : K) (x : List K) (nsta nlta : ℕ) :
    (overlappingPy tiny x nsta nlta).length = x.length := by
  simp [overlappingPy, safeRatio, onesTo_length, diffFrom_length, cumsumFrom_length]

theorem centredPy_length (tiny : K) (x : List K) (nsta nlta : ℕ) (h : nsta ≤ x.length) :
    (centredPy tiny x nsta nlta).length = x.length := by
  simp only [centredPy, safeRatio, List.length_zipWith, onesLast_length, onesTo_length,
    List.length_map, diffFrom_length, cumsumFrom_length]
  rw [shiftLeft_length _ _ (by rw [diffFrom_length, cumsumFrom_length]; exact h)]
  simp [diffFrom_length, cumsumFrom_length]

end QM.StaLta

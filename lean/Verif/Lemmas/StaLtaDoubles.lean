import Verif.Model.StaLtaDoubles
import Verif.Lemmas.StaLta
import Verif.Lemmas.Doubles
import Mathlib.Tactic

namespace QM.StaLtaD

open QM.StaLta QM.Doubles Spec

/-- Sum over a window of `n` samples after the first `i` samples have been taken in. -/
def run (rnd : ℚ → ℚ) (x : List ℚ) (n : ℕ) : ℕ → ℚ
  | 0 => 0
  | i + 1 =>
    if i < n then rnd (run rnd x n i + x.getD i 0)
    else slide rnd (run rnd x n i) (x.getD i 0) (x.getD (i - n) 0)

theorem getD_lt (x : List ℚ) {i : ℕ} (h : i < x.length) : x[i]? = some (x.getD i 0) := by
  rw [List.getD_eq_getElem?_getD, List.getElem?_eq_getElem h]; rfl

theorem forLoop_addAtR (rnd : ℚ → ℚ) (x : List ℚ) {n : ℕ} (hn : n ≤ x.length) {k : ℕ} (hk : k ≤ n) :
    forLoop 0 k (addAtR rnd x) 0 = some (run rnd x n k) := by
  have := forLoop_inv (addAtR rnd x) (fun i => run rnd x n i) (Nat.zero_le k) (by
    intro i _ h2
    simp only [addAtR, getD_lt x (show i < x.length by omega), Option.map_some, run,
      if_pos (show i < n by omega)])
  simpa [run] using this

/-- Value of the classic loop at sample `i`. -/
def overValR (rnd : ℚ → ℚ) (x : List ℚ) (nsta nlta i : ℕ) : Option ℚ :=
  if i + 1 < nlta then some 1
  else ratio rnd nsta nlta (run rnd x nsta (i + 1)) (run rnd x nlta (i + 1))

theorem run_same (rnd : ℚ → ℚ) (x : List ℚ) {n m k : ℕ} (h1 : k ≤ n) (h2 : k ≤ m) :
    run rnd x n k = run rnd x m k := by
  induction k with
  | zero => rfl
  | succ k ih =>
    rw [run, run, if_pos (by omega), if_pos (by omega), ih (by omega) (by omega)]

theorem overlappingR_eq (rnd : ℚ → ℚ) (x : List ℚ) {nsta nlta : ℕ} (h1 : 1 ≤ nsta) (h2 : nsta ≤ nlta)
    (h3 : nlta ≤ x.length) :
    overlappingR rnd x nsta nlta = some ((List.range x.length).map (overValR rnd x nsta nlta)) := by
  unfold overlappingR
  rw [forLoop_addAtR rnd x (n := nsta) (by omega) (le_refl _)]
  have e2 := forLoop_inv (overFillR rnd x nsta) (fun i => (run rnd x nsta i, run rnd x nlta i)) h2 (by
    intro i a b
    simp only [overFillR, getD_lt x (show i < x.length by omega), getD_lt x (show i - nsta < x.length by omega),
      run, if_neg (show ¬ i < nsta by omega), if_pos b])
  rw [← run_same rnd x (n := nsta) (m := nlta) (le_refl _) h2] at e2
  simp only [e2]
  rw [write, if_pos (by omega)]
  simp only []
  have e3 := forLoop_inv (overStepR rnd x nsta nlta)
    (fun i => (⟨run rnd x nsta i, run rnd x nlta i,
      fun j => if j < i then overValR rnd x nsta nlta j else some 1⟩ : CSt ℚ)) h3 (by
    intro i a b
    have es : run rnd x nsta (i + 1) = slide rnd (run rnd x nsta i) (x.getD i 0) (x.getD (i - nsta) 0) := by
      rw [run, if_neg (by omega)]
    have el : run rnd x nlta (i + 1) = slide rnd (run rnd x nlta i) (x.getD i 0) (x.getD (i - nlta) 0) := by
      rw [run, if_neg (by omega)]
    simp only [overStepR, getD_lt x b, getD_lt x (show i - nsta < x.length by omega),
      getD_lt x (show i - nlta < x.length by omega), write, if_pos b, ← es, ← el]
    congr 2
    funext j
    by_cases e : j = i
    · subst e
      rw [Function.update_self, if_pos (by omega), overValR, if_neg (by omega)]
    · rw [Function.update_of_ne e]
      by_cases e' : j < i
      · rw [if_pos e', if_pos (by omega)]
      · rw [if_neg e', if_neg (by omega)])
  have e4 : (Function.update (ones : ℕ → Option ℚ) (nlta - 1)
      (ratio rnd nsta nlta (run rnd x nsta nlta) (run rnd x nlta nlta))) =
      (fun j => if j < nlta then overValR rnd x nsta nlta j else some 1) := by
    funext j
    by_cases e : j = nlta - 1
    · subst e
      rw [Function.update_self, if_pos (by omega), overValR, if_neg (by omega),
        show nlta - 1 + 1 = nlta by omega]
    · rw [Function.update_of_ne e]
      by_cases e' : j < nlta
      · rw [if_pos e', overValR, if_pos (by omega)]; rfl
      · rw [if_neg e']; rfl
  rw [e4, e3]
  simp only [Option.some.injEq]
  apply List.map_congr_left
  intro i hi
  rw [if_pos (List.mem_range.1 hi)]

/-- Value of the centred loop at sample `i`. -/
def centValR (rnd : ℚ → ℚ) (x : List ℚ) (nsta nlta i : ℕ) : Option ℚ :=
  if i + 1 < nlta ∨ x.length < i + 1 + nsta then some 1
  else if nlta ≤ i ∧ ¬ 0 < run rnd x nlta (i + 1) then some 1
  else ratio rnd nsta nlta (run rnd (x.drop nlta) nsta (i + 1 + nsta - nlta)) (run rnd x nlta (i + 1))

theorem getD_drop (x : List ℚ) (a i : ℕ) : (x.drop a).getD i 0 = x.getD (a + i) 0 := by
  simp [List.getD_eq_getElem?_getD, List.getElem?_drop]

theorem forLoop_addAtR_from (rnd : ℚ → ℚ) (x : List ℚ) {a n : ℕ} (hn : a + n ≤ x.length) :
    forLoop a (a + n) (addAtR rnd x) 0 = some (run rnd (x.drop a) n n) := by
  have := forLoop_inv (addAtR rnd x) (fun i => run rnd (x.drop a) n (i - a)) (Nat.le_add_right a n) (by
    intro i h1 h2
    rw [show i + 1 - a = (i - a) + 1 by omega]
    simp only [addAtR, getD_lt x (show i < x.length by omega), Option.map_some, run,
      if_pos (show i - a < n by omega), getD_drop, show a + (i - a) = i by omega])
  simpa [run] using this

theorem centredR_eq (rnd : ℚ → ℚ) (x : List ℚ) {nsta nlta : ℕ} (h1 : 1 ≤ nsta) (h2 : 1 ≤ nlta)
    (h3 : nlta + nsta ≤ x.length) :
    centredR rnd x nsta nlta = some ((List.range x.length).map (centValR rnd x nsta nlta)) := by
  unfold centredR
  rw [forLoop_addAtR rnd x (n := nlta) (by omega) (le_refl _), forLoop_addAtR_from rnd x h3]
  simp only [write, if_pos (show nlta - 1 < x.length by omega)]
  have e3 := forLoop_inv (centStepR rnd x nsta nlta) (lo := nlta) (hi := x.length - nsta)
    (fun i => (⟨run rnd (x.drop nlta) nsta (i + nsta - nlta), run rnd x nlta i,
      fun j => if j < i then centValR rnd x nsta nlta j else some 1⟩ : CSt ℚ)) (by omega) (by
    intro i a b
    have es : run rnd (x.drop nlta) nsta (i + 1 + nsta - nlta) =
        slide rnd (run rnd (x.drop nlta) nsta (i + nsta - nlta)) (x.getD (i + nsta) 0) (x.getD i 0) := by
      rw [show i + 1 + nsta - nlta = (i + nsta - nlta) + 1 by omega, run, if_neg (by omega), getD_drop, getD_drop,
        show nlta + (i + nsta - nlta) = i + nsta by omega,
        show nlta + (i + nsta - nlta - nsta) = i by omega]
    have el : run rnd x nlta (i + 1) = slide rnd (run rnd x nlta i) (x.getD i 0) (x.getD (i - nlta) 0) := by
      rw [run, if_neg (by omega)]
    simp only [centStepR, getD_lt x (show i < x.length by omega), getD_lt x (show i + nsta < x.length by omega),
      getD_lt x (show i - nlta < x.length by omega), write, if_pos (show i < x.length by omega), ← es, ← el]
    congr 2
    funext j
    by_cases e : j = i
    · subst e
      rw [Function.update_self, if_pos (show j < j + 1 by omega), centValR,
        if_neg (show ¬ (j + 1 < nlta ∨ x.length < j + 1 + nsta) by omega)]
      by_cases hp : 0 < run rnd x nlta (j + 1)
      · rw [if_pos hp, if_neg (by tauto)]
      · rw [if_neg hp, if_pos ⟨a, hp⟩]
    · rw [Function.update_of_ne e]
      by_cases e' : j < i
      · rw [if_pos e', if_pos (by omega)]
      · rw [if_neg e', if_neg (by omega)])
  rw [show nlta + nsta - nlta = nsta by omega] at e3
  have e4 : (Function.update (ones : ℕ → Option ℚ) (nlta - 1)
      (ratio rnd nsta nlta (run rnd (x.drop nlta) nsta nsta) (run rnd x nlta nlta))) =
      (fun j => if j < nlta then centValR rnd x nsta nlta j else some 1) := by
    funext j
    by_cases e : j = nlta - 1
    · subst e
      rw [Function.update_self, if_pos (by omega), centValR, if_neg (by omega), if_neg (by omega),
        show nlta - 1 + 1 = nlta by omega, show nlta + nsta - nlta = nsta by omega]
    · rw [Function.update_of_ne e]
      by_cases e' : j < nlta
      · rw [if_pos e', centValR, if_pos (by omega)]; rfl
      · rw [if_neg e']; rfl
  rw [e4, e3]
  simp only [Option.some.injEq]
  apply List.map_congr_left
  intro i hi
  have := List.mem_range.1 hi
  by_cases h : i < x.length - nsta
  · rw [if_pos h]
  · rw [if_neg h, centValR, if_pos (by omega)]

/-! ### Rounding is symmetric -/

theorem pyRound_tie {q : ℚ} (h : ¬ |q - pyRound q| < 1 / 2) : pyRound q % 2 = 0 := by
  have h1 := Int.floor_le q
  have h2 := Int.lt_floor_add_one q
  unfold pyRound at h ⊢
  split_ifs at h ⊢ with a b c
  · exact absurd (by rw [abs_of_nonneg (by linarith)]; exact a) h
  · exact absurd (by push_cast; rw [abs_of_nonpos (by linarith)]; linarith) h
  · exact c
  · omega

theorem pyRound_neg (q : ℚ) : pyRound (-q) = -pyRound q := by
  by_cases h : |q - pyRound q| < 1 / 2
  · apply Doubles.pyRound_eq
    push_cast
    rw [show -q - -(pyRound q : ℚ) = -(q - pyRound q) by ring, abs_neg]; exact h
  · apply Doubles.pyRound_even
    · have := pyRound_tie h
      omega
    · push_cast
      rw [show -q - -(pyRound q : ℚ) = -(q - pyRound q) by ring, abs_neg, abs_sub_comm]
      exact abs_pyRound_sub_le q

theorem fl_neg (y : ℚ) : fl (-y) = -fl y := by
  unfold fl
  by_cases h : y = 0
  · simp [h]
  · rw [if_neg (by simpa using h), if_neg h, abs_neg, neg_div, pyRound_neg]
    push_cast; ring

/-! ### Without rounding -/

theorem ratio_id (n m : ℕ) (s l : ℚ) : ratio id n m s l = (cdiv s l).map (· * frac n m) := rfl

theorem addAtR_id (x : List ℚ) : addAtR id x = addAt x := rfl

theorem overFillR_id (x : List ℚ) (n : ℕ) : overFillR id x n = overFill x n := by
  funext i s; unfold overFillR overFill; cases x[i]? <;> cases x[i-n]? <;> rfl

theorem overStepR_id (x : List ℚ) (n m : ℕ) : overStepR id x n m = overStep x n m := by
  funext i s; unfold overStepR overStep
  cases x[i]? <;> cases x[i-n]? <;> cases x[i-m]? <;> try rfl
  simp only [ratio_id, slide, id_eq]; split <;> simp_all

theorem centStepR_id (x : List ℚ) (n m : ℕ) : centStepR id x n m = centStep x n m := by
  funext i s; unfold centStepR centStep
  cases x[i+n]? <;> cases x[i]? <;> cases x[i-m]? <;> try rfl
  rename_i a b c
  by_cases h : 0 < slide id s.lta b c
  · have h' : 0 < s.lta + (b - c) := h
    simp only [if_pos h, if_pos h', ratio_id]
    simp only [slide, id_eq]
    split <;> simp_all
  · have h' : ¬ 0 < s.lta + (b - c) := h
    simp only [if_neg h, if_neg h']
    simp only [slide, id_eq]
    split <;> simp_all

theorem overlappingR_id (x : List ℚ) (n m : ℕ) : overlappingR id x n m = overlappingC x n m := by
  unfold overlappingR overlappingC
  rw [addAtR_id, overFillR_id, overStepR_id]
  simp only [ratio_id]
  cases forLoop 0 n (addAt x) 0 with
  | none => rfl
  | some v =>
    dsimp only
    cases forLoop n m (overFill x n) (v, v) with
    | none => rfl
    | some w =>
      dsimp only
      split
      · simp_all
      · simp only [*]
        split <;> simp_all

theorem centredR_id (x : List ℚ) (n m : ℕ) : centredR id x n m = centredC x n m := by
  unfold centredR centredC
  rw [addAtR_id, centStepR_id]
  simp only [ratio_id]
  cases forLoop 0 m (addAt x) 0 with
  | none => rfl
  | some v =>
    dsimp only
    cases forLoop m (m + n) (addAt x) 0 with
    | none => rfl
    | some w =>
      dsimp only
      split
      · simp_all
      · simp only [*]
        split <;> simp_all

/-! ### Exact sums -/

/-- The exact sum of the window that ends before sample `i`. -/
def win (x : List ℚ) (n i : ℕ) : ℚ := winSum x (i - n) (min i n)

theorem P_succ' (x : List ℚ) {i : ℕ} (h : i < x.length) : P x (i + 1) = P x i + x.getD i 0 := by
  rw [P_succ x h, List.getD_eq_getElem?_getD, List.getElem?_eq_getElem h]; rfl

theorem win_eq (x : List ℚ) (n i : ℕ) : win x n i = P x i - P x (i - n) := by
  unfold win
  rw [winSum_eq, show i - n + min i n = i by omega]

theorem win_succ_lt (x : List ℚ) {n i : ℕ} (hx : i < x.length) (h : i < n) :
    win x n (i + 1) = win x n i + x.getD i 0 := by
  rw [win_eq, win_eq, P_succ' x hx, show i + 1 - n = 0 by omega, show i - n = 0 by omega]
  ring

theorem win_succ_ge (x : List ℚ) {n i : ℕ} (hx : i < x.length) (hn : 1 ≤ n) (h : n ≤ i) :
    win x n (i + 1) = win x n i + (x.getD i 0 - x.getD (i - n) 0) := by
  rw [win_eq, win_eq, P_succ' x hx, show i + 1 - n = (i - n) + 1 by omega, P_succ' x (by omega)]
  ring

theorem winSum_bounds (x : List ℚ) {X : ℚ} (hX : 0 ≤ X) (hx : ∀ v ∈ x, 0 ≤ v ∧ v ≤ X) (a n : ℕ) :
    0 ≤ winSum x a n ∧ winSum x a n ≤ n * X := by
  unfold winSum
  have h : ∀ v ∈ (x.drop a).take n, 0 ≤ v ∧ v ≤ X := fun v hv =>
    hx v (List.mem_of_mem_drop (List.mem_of_mem_take hv))
  have key : ∀ l : List ℚ, (∀ v ∈ l, 0 ≤ v ∧ v ≤ X) → 0 ≤ l.sum ∧ l.sum ≤ l.length * X := by
    intro l hl
    induction l with
    | nil => simp
    | cons v l ih =>
      have h1 := hl v (by simp)
      have h2 := ih fun w hw => hl w (by simp [hw])
      simp only [List.sum_cons, List.length_cons]
      push_cast
      constructor <;> linarith
  have := key _ h
  refine ⟨this.1, this.2.trans (mul_le_mul_of_nonneg_right ?_ hX)⟩
  have : ((x.drop a).take n).length ≤ n := by simp
  exact_mod_cast this

theorem win_bounds (x : List ℚ) {X : ℚ} (hX : 0 ≤ X) (hx : ∀ v ∈ x, 0 ≤ v ∧ v ≤ X) (n i : ℕ) :
    0 ≤ win x n i ∧ win x n i ≤ n * X := by
  have h := winSum_bounds x hX hx (i - n) (min i n)
  refine ⟨h.1, h.2.trans (mul_le_mul_of_nonneg_right ?_ hX)⟩
  exact_mod_cast min_le_right i n

theorem getD_bounds (x : List ℚ) {X : ℚ} (hX : 0 ≤ X) (hx : ∀ v ∈ x, 0 ≤ v ∧ v ≤ X) (i : ℕ) :
    0 ≤ x.getD i 0 ∧ x.getD i 0 ≤ X := by
  rw [List.getD_eq_getElem?_getD]
  by_cases h : i < x.length
  · rw [List.getElem?_eq_getElem h]; exact hx _ (List.getElem_mem h)
  · rw [List.getElem?_eq_none (by omega)]; exact ⟨le_rfl, hX⟩

/-- Error of the running sums in double precision. -/
theorem run_error (x : List ℚ) {X : ℚ} (hX : 0 ≤ X) (hx : ∀ v ∈ x, 0 ≤ v ∧ v ≤ X) {n : ℕ} (hn : 1 ≤ n) {i : ℕ}
    (hi : i ≤ x.length) :
    |run fl x n i - win x n i| ≤ ((1 + 1 / 2 ^ 53) ^ i - 1) * ((n + 2) * X) := by
  induction i with
  | zero => simp [run, win, winSum]
  | succ i ih =>
    have ih := ih (by omega)
    set u : ℚ := 1 / 2 ^ 53 with hu
    have hu0 : 0 < u := by rw [hu]; positivity
    have hu1 : u ≤ 1 := by rw [hu]; norm_num
    set s := run fl x n i with hs
    set w := win x n i with hw
    set B : ℚ := (n + 2) * X with hB
    set E : ℚ := ((1 + u) ^ i - 1) * B with hE
    have fe : ∀ y, |fl y - y| ≤ u * |y| := fun y => by
      have := fl_error y
      rw [hu]; linarith [show |y| / 2 ^ 53 = 1 / 2 ^ 53 * |y| by ring]
    have hgoal : E * (1 + u) + u * B = ((1 + u) ^ (i + 1) - 1) * B := by rw [hE, pow_succ]; ring
    rw [← hgoal]
    have hb := win_bounds x hX hx n (i + 1)
    have hv := getD_bounds x hX hx i
    have ho := getD_bounds x hX hx (i - n)
    set v := x.getD i 0 with hvd
    set o := x.getD (i - n) 0 with hod
    have hnX : (n : ℚ) * X ≤ B := by rw [hB]; nlinarith
    rw [run]
    by_cases h : i < n
    · rw [if_pos h, win_succ_lt x (by omega) h]
      rw [win_succ_lt x (by omega) h] at hb
      have h1 := fe (s + v)
      have h2 : |s + v| ≤ E + B := by
        calc |s + v| = |(s - w) + (w + v)| := by ring_nf
          _ ≤ |s - w| + |w + v| := abs_add_le _ _
          _ ≤ E + B := by
            have : |w + v| ≤ B := by rw [abs_of_nonneg hb.1]; exact hb.2.trans hnX
            linarith
      calc |fl (s + v) - (w + v)| = |(fl (s + v) - (s + v)) + (s - w)| := by ring_nf
        _ ≤ |fl (s + v) - (s + v)| + |s - w| := abs_add_le _ _
        _ ≤ u * (E + B) + E := add_le_add (h1.trans (mul_le_mul_of_nonneg_left h2 hu0.le)) ih
        _ = _ := by ring
    · rw [if_neg h, win_succ_ge x (by omega) hn (by omega)]
      rw [win_succ_ge x (by omega) hn (by omega)] at hb
      unfold slide
      have h0 := fe (v - o)
      have hvo : |v - o| ≤ X := by rw [abs_le]; constructor <;> linarith
      set d := fl (v - o) with hd
      have h0' : |d - (v - o)| ≤ u * X := h0.trans (mul_le_mul_of_nonneg_left hvo hu0.le)
      have h1 := fe (s + d)
      have hsd : |(s + d) - (w + (v - o))| ≤ E + u * X := by
        calc |(s + d) - (w + (v - o))| = |(s - w) + (d - (v - o))| := by ring_nf
          _ ≤ |s - w| + |d - (v - o)| := abs_add_le _ _
          _ ≤ _ := add_le_add ih h0'
      have h2 : |s + d| ≤ E + u * X + n * X := by
        calc |s + d| = |((s + d) - (w + (v - o))) + (w + (v - o))| := by ring_nf
          _ ≤ |(s + d) - (w + (v - o))| + |w + (v - o)| := abs_add_le _ _
          _ ≤ _ := by
            have : |w + (v - o)| ≤ n * X := by rw [abs_of_nonneg hb.1]; exact hb.2
            linarith
      calc |fl (s + d) - (w + (v - o))|
          = |(fl (s + d) - (s + d)) + ((s + d) - (w + (v - o)))| := by ring_nf
        _ ≤ |fl (s + d) - (s + d)| + |(s + d) - (w + (v - o))| := abs_add_le _ _
        _ ≤ u * (E + u * X + n * X) + (E + u * X) :=
            add_le_add (h1.trans (mul_le_mul_of_nonneg_left h2 hu0.le)) hsd
        _ ≤ E * (1 + u) + u * B := by
          have : u * (u * X) ≤ u * X := by
            have := mul_le_mul_of_nonneg_left (mul_le_mul_of_nonneg_right hu1 hX) hu0.le
            linarith
          rw [hB]; nlinarith

theorem growth {N i : ℕ} (hi : i ≤ N) (hN : N ≤ 2 ^ 52) :
    ((1 + 1 / 2 ^ 53 : ℚ)) ^ i - 1 ≤ N / 2 ^ 52 := by
  have hu : (0 : ℚ) < 1 / 2 ^ 53 := by positivity
  set u : ℚ := 1 / 2 ^ 53 with hud
  clear_value u
  have key : ∀ k : ℕ, (k : ℚ) * u ≤ 1 / 2 → (1 + u) ^ k ≤ 1 + 2 * (k * u) := by
    intro k
    induction k with
    | zero => intro _; simp
    | succ k ih =>
      intro hk
      push_cast at hk ⊢
      have := ih (by nlinarith)
      rw [pow_succ]
      have h2 : 2 * ((k : ℚ) * u) * u ≤ 1 * u := mul_le_mul_of_nonneg_right (by nlinarith) hu.le
      calc (1 + u) ^ k * (1 + u) ≤ (1 + 2 * (k * u)) * (1 + u) :=
            mul_le_mul_of_nonneg_right this (by linarith)
        _ = 1 + 2 * (k * u) + u + 2 * (k * u) * u := by ring
        _ ≤ _ := by linarith
  have hNu : (N : ℚ) * u ≤ 1 / 2 := by
    have : (N : ℚ) ≤ 2 ^ 52 := by exact_mod_cast hN
    rw [hud]; linarith [show (N : ℚ) * (1 / 2 ^ 53) = N / 2 ^ 53 by ring,
      show (N : ℚ) / 2 ^ 53 ≤ 2 ^ 52 / 2 ^ 53 from div_le_div_of_nonneg_right this (by positivity)]
  have hiN : (i : ℚ) ≤ N := by exact_mod_cast hi
  have h := key i (le_trans (mul_le_mul_of_nonneg_right hiN hu.le) hNu)
  have : 2 * ((i : ℚ) * u) ≤ N / 2 ^ 52 := by
    calc 2 * ((i : ℚ) * u) ≤ 2 * (N * u) := by nlinarith
      _ = N / 2 ^ 52 := by rw [hud]; ring
  exact sub_le_iff_le_add'.mpr (h.trans (add_le_add le_rfl this))

theorem run_error' (x : List ℚ) {X : ℚ} (hX : 0 ≤ X) (hx : ∀ v ∈ x, 0 ≤ v ∧ v ≤ X) {n : ℕ} (hn : 1 ≤ n) {i N : ℕ}
    (hi : i ≤ x.length) (hN : x.length ≤ N) (hN2 : N ≤ 2 ^ 52) :
    |run fl x n i - win x n i| ≤ N * (n + 2) * X / 2 ^ 52 := by
  refine (run_error x hX hx hn hi).trans ?_
  calc _ ≤ (N : ℚ) / 2 ^ 52 * ((n + 2) * X) :=
        mul_le_mul_of_nonneg_right (growth (hi.trans hN) hN2) (by positivity)
    _ = _ := by ring

/-- Error of the ratio. -/
theorem ratio_error {nsta nlta : ℕ} (h1 : 1 ≤ nsta) (h2 : 1 ≤ nlta) {S L s l δ : ℚ} (hS : 0 ≤ S) (hL : 0 < L)
    (hs : |s - S| ≤ δ) (hl : |l - L| ≤ δ) (hδ : 4 * δ ≤ L) (hu : 1 / 2 ^ 52 * L ≤ δ) :
    ∃ q, ratio fl nsta nlta s l = some q ∧
      |q - (S / nsta) / (L / nlta)| ≤ 4 * (δ / L) * (1 + S / L) * (nlta / nsta) := by
  have hl0 : 3 / 4 * L ≤ l := by have := (abs_le.mp hl).1; linarith
  have hlpos : 0 < l := by linarith
  refine ⟨_, by unfold ratio cdiv; rw [if_neg hlpos.ne']; rfl, ?_⟩
  have hn1 : (0 : ℚ) < nsta := by exact_mod_cast h1
  have hn2 : (0 : ℚ) < nlta := by exact_mod_cast h2
  set f : ℚ := (nlta : ℚ) / nsta with hf
  have hf0 : 0 < f := by rw [hf]; positivity
  have he : (S / nsta) / (L / nlta) = S / L * f := by rw [hf]; field_simp
  rw [he]
  set r := S / L with hr
  have hr0 : 0 ≤ r := by rw [hr]; positivity
  set ε := δ / L with hε
  have hδL : δ = ε * L := by rw [hε]; field_simp
  have hε1 : 4 * ε ≤ 1 := by rw [hε]; rw [mul_div_assoc']; exact (div_le_one hL).mpr hδ
  have hε0 : 1 / 2 ^ 52 ≤ ε := by rw [hε, le_div_iff₀ hL]; exact hu
  have hεp : 0 < ε := lt_of_lt_of_le (by positivity) hε0
  set u : ℚ := 1 / 2 ^ 53 with hud
  have hu0 : 0 < u := by rw [hud]; positivity
  have huε : 2 * u ≤ ε := by rw [hud]; linarith [show (2 : ℚ) * (1 / 2 ^ 53) = 1 / 2 ^ 52 by norm_num]
  have husm : u ≤ 1 / 1000 := by rw [hud]; norm_num
  have fe : ∀ y, |fl y - y| ≤ u * |y| := fun y => by
    have := fl_error y
    rw [hud]; linarith [show |y| / 2 ^ 53 = 1 / 2 ^ 53 * |y| by ring]
  -- the quotient of the sums
  set t := s / l with ht
  have hSr : S = r * L := by rw [hr]; field_simp
  have ht1 : |t - r| ≤ 4 / 3 * ε * (1 + r) := by
    have e : t - r = ((s - S) - r * (l - L)) / l := by rw [ht, hSr]; field_simp; ring
    rw [e, abs_div, abs_of_pos hlpos, div_le_iff₀ hlpos]
    have a1 : |(s - S) - r * (l - L)| ≤ δ + r * δ := by
      calc _ ≤ |s - S| + |r * (l - L)| := abs_sub _ _
        _ = |s - S| + r * |l - L| := by rw [abs_mul, abs_of_nonneg hr0]
        _ ≤ _ := add_le_add hs (mul_le_mul_of_nonneg_left hl hr0)
    refine a1.trans ?_
    have : δ + r * δ = 4 / 3 * ε * (1 + r) * (3 / 4 * L) := by rw [hδL]; ring
    rw [this]
    exact mul_le_mul_of_nonneg_left hl0 (by positivity)
  have ht2 : |t| ≤ 4 / 3 * (1 + r) := by
    have : |t| ≤ |t - r| + |r| := by simpa using abs_add_le (t - r) r
    rw [abs_of_nonneg hr0] at this
    have : 4 / 3 * ε * (1 + r) ≤ 1 / 3 * (1 + r) := by nlinarith
    linarith
  -- three roundings
  have g1 := fe t
  have g2 := fe f
  rw [abs_of_pos hf0] at g2
  set a := fl t with ha
  set b := fl f with hb
  have g3 := fe (a * b)
  have hat : |a - t| ≤ u * (4 / 3 * (1 + r)) := g1.trans (mul_le_mul_of_nonneg_left ht2 hu0.le)
  have haa : |a| ≤ (1 + u) * (4 / 3 * (1 + r)) := by
    have : |a| ≤ |a - t| + |t| := by simpa using abs_add_le (a - t) t
    linarith
  have hbb : |b| ≤ (1 + u) * f := by
    have : |b| ≤ |b - f| + |f| := by simpa using abs_add_le (b - f) f
    rw [abs_of_pos hf0] at this
    linarith
  set M := 4 / 3 * (1 + r) with hM
  have hM0 : 0 < M := by rw [hM]; positivity
  have hab : |a * b - t * f| ≤ (2 * u + u * u) * M * f := by
    have e : a * b - t * f = a * (b - f) + (a - t) * f := by ring
    rw [e]
    calc _ ≤ |a * (b - f)| + |(a - t) * f| := abs_add_le _ _
      _ = |a| * |b - f| + |a - t| * f := by rw [abs_mul, abs_mul, abs_of_pos hf0]
      _ ≤ ((1 + u) * M) * (u * f) + (u * M) * f :=
          add_le_add (mul_le_mul haa g2 (abs_nonneg _) (by positivity)) (mul_le_mul_of_nonneg_right hat hf0.le)
      _ = _ := by ring
  have hab2 : |a * b| ≤ ((1 + u) * (1 + u)) * M * f := by
    rw [abs_mul]
    calc _ ≤ ((1 + u) * M) * ((1 + u) * f) := mul_le_mul haa hbb (abs_nonneg _) (by positivity)
      _ = _ := by ring
  have htf : |t * f - r * f| ≤ ε * M * f := by
    rw [← sub_mul, abs_mul, abs_of_pos hf0]
    refine mul_le_mul_of_nonneg_right (ht1.trans (le_of_eq ?_)) hf0.le
    rw [hM]; ring
  calc |fl (a * b) - r * f| = |(fl (a * b) - a * b) + (a * b - t * f) + (t * f - r * f)| := by ring_nf
    _ ≤ |fl (a * b) - a * b| + |a * b - t * f| + |t * f - r * f| := abs_add_three _ _ _
    _ ≤ u * (((1 + u) * (1 + u)) * M * f) + (2 * u + u * u) * M * f + ε * M * f :=
        add_le_add (add_le_add (g3.trans (mul_le_mul_of_nonneg_left hab2 hu0.le)) hab) htf
    _ = (u * ((1 + u) * (1 + u)) + (2 * u + u * u) + ε) * (M * f) := by ring
    _ ≤ (3 * ε) * (M * f) := by
        refine mul_le_mul_of_nonneg_right ?_ (by positivity)
        nlinarith [mul_pos hu0 hu0, mul_pos (mul_pos hu0 hu0) hu0]
    _ = _ := by rw [hM]; ring

end QM.StaLtaD

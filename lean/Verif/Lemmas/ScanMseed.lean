import Verif.Model.ScanMseed
import Verif.Lemmas.Days

namespace QM.ScanMseed
open QM

theorem roundAway_int (n : ℤ) : roundAway (n : ℚ) = n := by
  unfold roundAway
  split
  · rw [Int.floor_eq_iff]; constructor <;> linarith
  · rw [Int.ceil_eq_iff]; constructor <;> linarith

variable {V : Type}

section
variable {N : ℕ} {δ : ℚ} (hN : 0 < N) (hδ : DAY = N * δ)
include hN hδ

theorem delta_pos : 0 < δ := by
  have h : (0 : ℚ) < N := by exact_mod_cast hN
  have h2 : (0 : ℚ) < N * δ := by rw [← hδ]; unfold DAY; norm_num
  exact (mul_pos_iff_of_pos_left h).mp h2

theorem dayOf_idx (k : ℤ) : dayOf ((k : ℚ) * δ) = k / (N : ℤ) := by
  unfold dayOf
  rw [hδ, mul_div_mul_right _ _ (delta_pos hN hδ).ne', Rat.floor_intCast_div_natCast]

theorem dayStart_idx (k : ℤ) : dayStart ((k : ℚ) * δ) = ((k / (N : ℤ) * N : ℤ) : ℚ) * δ := by
  have := dayOf_idx hN hδ k
  unfold dayOf at this
  unfold dayStart
  rw [this, hδ]; push_cast; ring

theorem roundAway_idx (a b : ℤ) : roundAway (((a : ℚ) * δ - (b : ℚ) * δ) / δ) = a - b := by
  rw [← sub_mul, mul_div_cancel_right₀ _ (delta_pos hN hδ).ne', ← Int.cast_sub, roundAway_int]
end

/-- Samples of day `d` of the trace starting at index `k0` with values `all`. -/
def dayTr (N : ℕ) (δ : ℚ) (k0 : ℤ) (all : List V) (d : ℤ) : Option (Trace V) :=
  let lo := max k0 (d * N)
  let hi := min (k0 + all.length) (d * N + N)
  if lo < hi then some ⟨(lo : ℚ) * δ, (all.take (hi - k0).toNat).drop (lo - k0).toNat⟩ else none

/-- State of the writer after `all` has been appended from index `k0`. -/
def expected (N : ℕ) (δ : ℚ) (cw : Bool) (f0 : Files V) (k0 : ℤ) (all : List V) : St V :=
  let D := (k0 + all.length) / (N : ℤ)
  { stream := dayTr N δ k0 all D
    written := !all.isEmpty && ((dayTr N δ k0 all D).isNone || cw)
    files := fun d => if d < D ∨ (cw = true ∧ d = D) then (dayTr N δ k0 all d).or (f0 d) else f0 d }

theorem dayTr_append_lt {N : ℕ} (hN : 0 < N) (δ : ℚ) (k0 : ℤ) (all w : List V) (d : ℤ)
    (hd : d < (k0 + all.length) / (N : ℤ)) :
    dayTr N δ k0 (all ++ w) d = dayTr N δ k0 all d := by
  have h1 : d * N + N ≤ k0 + all.length := by
    have h2 : (k0 + all.length) / (N : ℤ) * N ≤ k0 + all.length := Int.ediv_mul_le _ (by omega)
    have h3 : (d + 1) * (N : ℤ) ≤ (k0 + all.length) / (N : ℤ) * N :=
      mul_le_mul_of_nonneg_right (by omega) (by omega)
    rw [add_mul, one_mul] at h3
    omega
  unfold dayTr
  simp only [List.length_append, Nat.cast_add]
  have h4 : min (k0 + ((all.length : ℤ) + w.length)) (d * N + N) = d * N + N := by omega
  have h5 : min (k0 + (all.length : ℤ)) (d * N + N) = d * N + N := by omega
  rw [h4, h5]
  split
  · congr 3
    rw [List.take_append_of_le_length (by omega)]
  · rfl

/-- Day of an index known to lie in `[D*N, D*N+N)`. -/
theorem ediv_eq_of {N : ℕ} {D k : ℤ} (h1 : D * N ≤ k) (h2 : k < D * N + N) : k / (N : ℤ) = D := by
  have hN : (0 : ℤ) < N := by omega
  rw [Int.ediv_eq_iff_of_pos hN]
  exact ⟨h1, h2⟩

theorem ediv_bounds {N : ℕ} (hN : 0 < N) (k : ℤ) :
    k / (N : ℤ) * N ≤ k ∧ k < k / (N : ℤ) * N + N := by
  have hN' : (0 : ℤ) < N := by omega
  have h1 := Int.ediv_mul_le k (b := (N : ℤ)) (by omega)
  have h2 := Int.lt_ediv_add_one_mul_self k hN'
  rw [add_mul, one_mul] at h2
  exact ⟨h1, h2⟩

theorem addBlock_expected {N : ℕ} {δ : ℚ} (hN : 0 < N) (cw : Bool)
    (f0 : Files V) (k0 : ℤ) (all w : List V) (hw : w ≠ []) :
    addBlock δ (expected N δ cw f0 k0 all).stream ⟨((k0 + all.length : ℤ) : ℚ) * δ, w⟩ =
      some ⟨((max k0 ((k0 + all.length) / (N : ℤ) * N) : ℤ) : ℚ) * δ,
        (all ++ w).drop (max k0 ((k0 + all.length) / (N : ℤ) * N) - k0).toNat⟩ := by
  obtain ⟨h1, h2⟩ := ediv_bounds hN (k0 + all.length)
  unfold addBlock expected dayTr
  simp only [hw, if_false]
  generalize hD : (k0 + all.length) / (N : ℤ) = D at *
  have hmin : min (k0 + (all.length : ℤ)) (D * N + N) = k0 + all.length := by omega
  rw [hmin]
  have htake : all.take (k0 + (all.length : ℤ) - k0).toNat = all := by
    apply List.take_of_length_le; omega
  rw [htake]
  split
  · rename_i h
    split at h
    · simp at h
    · rename_i hlt
      have : max k0 (D * N) = k0 + all.length := by omega
      rw [this]
      congr 2
      rw [show (k0 + (all.length : ℤ) - k0).toNat = all.length by omega, List.drop_left]
  · rename_i tr h
    split at h
    · rename_i hlt
      simp only [Option.some.injEq] at h
      subst h
      simp only
      rw [if_pos]
      · rw [List.drop_append_of_le_length (by omega)]
      · rw [List.length_drop, ← add_mul]
        congr 1
        have : (((all.length - (max k0 (D * N) - k0).toNat : ℕ) : ℤ) : ℤ) =
            k0 + all.length - max k0 (D * N) := by omega
        have h3 : ((all.length - (max k0 (D * N) - k0).toNat : ℕ) : ℚ) =
            ((k0 + all.length - max k0 (D * N) : ℤ) : ℚ) := by
          rw [← this]; push_cast; rfl
        rw [h3]; push_cast; ring
    · simp at h

theorem append_expected {N : ℕ} {δ : ℚ} (hN : 0 < N) (hδ : DAY = N * δ) (jul : ℤ → ℕ)
    (hjul : ∀ d, jul d ≠ jul (d + 1)) (cw : Bool) (f0 : Files V) (k0 : ℤ) (all w : List V)
    (hw : w ≠ []) (hwN : w.length ≤ N) :
    append δ jul cw (expected N δ cw f0 k0 all) ⟨((k0 + all.length : ℤ) : ℚ) * δ, w⟩ =
      some (expected N δ cw f0 k0 (all ++ w)) := by
  have hwl : 0 < w.length := List.length_pos_iff.mpr hw
  obtain ⟨h1, h2⟩ := ediv_bounds hN (k0 + all.length)
  unfold append
  rw [addBlock_expected hN cw f0 k0 all w hw]
  simp only
  have hfl : ∀ d, d < (k0 + all.length) / (N : ℤ) →
      dayTr N δ k0 (all ++ w) d = dayTr N δ k0 all d :=
    fun d hd => dayTr_append_lt hN δ k0 all w d hd
  have hfiles : ∀ d, d < (k0 + all.length) / (N : ℤ) → (expected N δ cw f0 k0 all).files d =
      (dayTr N δ k0 (all ++ w) d).or (f0 d) := by
    intro d hd
    unfold expected
    simp only
    rw [if_pos (Or.inl hd), hfl d hd]
  have hfiles' : ∀ d, (k0 + all.length) / (N : ℤ) < d →
      (expected N δ cw f0 k0 all).files d = f0 d := by
    intro d hd
    unfold expected
    simp only
    rw [if_neg]; omega
  have hfilesD : cw = false → ∀ d, (k0 + all.length) / (N : ℤ) ≤ d →
      (expected N δ cw f0 k0 all).files d = f0 d := by
    intro hcw d hd
    unfold expected
    simp only
    rw [if_neg]; simp [hcw]; omega
  generalize hD : (k0 + all.length) / (N : ℤ) = D at *
  generalize hlo : max k0 (D * N) = lo at *
  generalize hV : (all ++ w).drop (lo - k0).toNat = W
  have hlod : lo / (N : ℤ) = D := ediv_eq_of (by omega) (by omega)
  have hWl : (W.length : ℤ) = k0 + all.length + w.length - lo := by
    rw [← hV, List.length_drop, List.length_append]; omega
  have hWne : W ≠ [] := by
    intro h; rw [h] at hWl; simp at hWl; omega
  have hstop : (⟨(lo : ℚ) * δ, W⟩ : Trace V).stop δ =
      ((k0 + all.length + w.length - 1 : ℤ) : ℚ) * δ := by
    unfold Trace.stop
    simp only
    have : (W.length : ℚ) = ((k0 + all.length + w.length - lo : ℤ) : ℚ) := by
      rw [← hWl]; push_cast; rfl
    rw [this]; push_cast; ring
  have hdp := delta_pos hN hδ
  have hcond : ((k0 + all.length + w.length - 1 : ℤ) : ℚ) * δ =
      dayStart ((lo : ℚ) * δ) + DAY - δ ↔ k0 + all.length + w.length - 1 = D * N + N - 1 := by
    rw [dayStart_idx hN hδ, hlod, hδ]
    constructor
    · intro h
      have h3 : (((k0 + all.length + w.length - 1 : ℤ) : ℚ)) * δ = ((D * N + N - 1 : ℤ) : ℚ) * δ := by
        rw [h]; push_cast; ring
      have := mul_right_cancel₀ hdp.ne' h3
      exact_mod_cast this
    · intro h
      rw [h]; push_cast; ring
  have hdayD : dayTr N δ k0 (all ++ w) D = some ⟨(lo : ℚ) * δ,
      ((all ++ w).take (min (k0 + all.length + w.length) (D * N + N) - k0).toNat).drop
        (lo - k0).toNat⟩ := by
    unfold dayTr
    simp only [List.length_append, Nat.cast_add, hlo]
    rw [if_pos (by omega), ← add_assoc]
  unfold afterMerge
  simp only [hstop, hcond, dayOf_idx hN hδ, hlod]
  by_cases hc1 : k0 + all.length + w.length - 1 = D * N + N - 1
  · -- the block completes the day
    have hD' : (k0 + ((all ++ w).length : ℤ)) / (N : ℤ) = D + 1 := by
      apply ediv_eq_of
      · rw [List.length_append, add_mul]; push_cast; omega
      · rw [List.length_append, add_mul]; push_cast; omega
    have hnone : dayTr N δ k0 (all ++ w) (D + 1) = none := by
      unfold dayTr
      simp only [List.length_append, Nat.cast_add, add_mul, one_mul]
      rw [if_neg (by omega)]
    simp only [hc1, if_true, write, hWne, if_false, dayOf_idx hN hδ, hlod]
    simp only [Option.bind_eq_bind, Option.bind_some, pure, Bool.not_true, Bool.and_false,
      Bool.false_eq_true, if_false]
    congr 1
    have hE : expected N δ cw f0 k0 (all ++ w) = ⟨none, true,
        fun d => if d < D + 1 ∨ (cw = true ∧ d = D + 1) then
          (dayTr N δ k0 (all ++ w) d).or (f0 d) else f0 d⟩ := by
      unfold expected
      simp only [hD', hnone]
      congr 1
      simp [hw]
    rw [hE]
    congr 1
    · funext d
      by_cases hdd : d = D
      · subst hdd
        rw [if_pos rfl, if_pos (Or.inl (by omega)), hdayD]
        simp only [Option.some_or]
        congr 2
        rw [← hV]
        congr 1
        symm
        apply List.take_of_length_le
        rw [List.length_append]; omega
      · rw [if_neg hdd]
        by_cases hlt : d < D
        · rw [hfiles d hlt, if_pos (Or.inl (by omega))]
        · rw [hfiles' d (by omega)]
          split
          · rename_i hh
            have : d = D + 1 := by omega
            rw [this, hnone, Option.none_or]
          · rfl
  · simp only [hc1, if_false]
    by_cases hc2 : k0 + all.length + w.length - 1 < D * N + N
    · -- still inside the day
      have he : (k0 + all.length + w.length - 1) / (N : ℤ) = D := ediv_eq_of (by omega) (by omega)
      have hD' : (k0 + ((all ++ w).length : ℤ)) / (N : ℤ) = D := by
        apply ediv_eq_of
        · rw [List.length_append]; push_cast; omega
        · rw [List.length_append]; push_cast; omega
      have hdayD' : dayTr N δ k0 (all ++ w) D = some ⟨(lo : ℚ) * δ, W⟩ := by
        rw [hdayD]
        congr 2
        rw [← hV]; congr 1
        apply List.take_of_length_le
        rw [List.length_append]; omega
      simp only [he, ne_eq, not_true_eq_false, if_false]
      simp only [Option.bind_eq_bind, Option.bind_some, pure, Bool.not_false, Bool.and_true]
      cases cw with
      | true =>
        simp only [if_true, write, hWne, if_false, dayOf_idx hN hδ, hlod]
        congr 1
        have hE : expected N δ true f0 k0 (all ++ w) = ⟨some ⟨(lo : ℚ) * δ, W⟩, true,
            fun d => if d < D ∨ (true = true ∧ d = D) then
              (dayTr N δ k0 (all ++ w) d).or (f0 d) else f0 d⟩ := by
          unfold expected
          simp only [hD', hdayD']
          congr 1
          simp [hw]
        rw [hE]
        congr 1
        · funext d
          by_cases hdd : d = D
          · subst hdd
            rw [if_pos rfl, if_pos (Or.inr ⟨rfl, rfl⟩), hdayD', Option.some_or]
          · rw [if_neg hdd]
            by_cases hlt : d < D
            · rw [if_pos (Or.inl hlt), hfiles d hlt]
            · rw [hfiles' d (by omega), if_neg (by omega)]
      | false =>
        simp only [Bool.false_eq_true, if_false]
        congr 1
        unfold expected
        simp only [hD', hdayD', hD]
        congr 1
        · simp
        · funext d
          by_cases hlt : d < D
          · rw [if_pos (Or.inl hlt), if_pos (Or.inl hlt), hfl d hlt]
          · rw [if_neg (by simp; omega), if_neg (by simp; omega)]
    · -- crosses midnight
      have he : (k0 + all.length + w.length - 1) / (N : ℤ) = D + 1 := by
        apply ediv_eq_of <;> rw [add_mul, one_mul] <;> omega
      have hD' : (k0 + ((all ++ w).length : ℤ)) / (N : ℤ) = D + 1 := by
        apply ediv_eq_of
        · rw [List.length_append, add_mul]; push_cast; omega
        · rw [List.length_append, add_mul]; push_cast; omega
      have hwe : dayStart (((k0 + all.length + w.length - 1 : ℤ) : ℚ) * δ) - δ =
          ((D * N + N - 1 : ℤ) : ℚ) * δ := by
        rw [dayStart_idx hN hδ, he]; push_cast; ring
      have hwe1 : ((D * N + N - 1 : ℤ) : ℚ) * δ + δ = ((D * N + N : ℤ) : ℚ) * δ := by
        push_cast; ring
      have hslice : (⟨(lo : ℚ) * δ, W⟩ : Trace V).slice δ ((lo : ℚ) * δ)
          (((D * N + N - 1 : ℤ) : ℚ) * δ) = ⟨(lo : ℚ) * δ, W.take (D * N + N - lo).toNat⟩ := by
        unfold Trace.slice Trace.ltrim Trace.rtrim
        simp only [roundAway_idx hN hδ]
        simp only [sub_self, le_refl, if_true, roundAway_idx hN hδ]
        rw [if_neg (by omega), if_neg]
        · congr 2; omega
        · push Not
          apply mul_le_mul_of_nonneg_right _ hdp.le
          exact_mod_cast (show lo ≤ D * N + N - 1 by omega)
      have hrest : (⟨(lo : ℚ) * δ, W⟩ : Trace V).ltrim δ (((D * N + N : ℤ) : ℚ) * δ) =
          ⟨((D * N + N : ℤ) : ℚ) * δ, W.drop (D * N + N - lo).toNat⟩ := by
        unfold Trace.ltrim
        simp only [roundAway_idx hN hδ]
        rw [if_neg (by omega)]
        congr 1
        push_cast; ring
      have hne1 : W.take (D * N + N - lo).toNat ≠ [] := by
        rw [← List.length_pos_iff, List.length_take]; omega
      have hne2 : W.drop (D * N + N - lo).toNat ≠ [] := by
        rw [← List.length_pos_iff, List.length_drop]; omega
      have hdayD' : dayTr N δ k0 (all ++ w) D =
          some ⟨(lo : ℚ) * δ, W.take (D * N + N - lo).toNat⟩ := by
        rw [hdayD]
        congr 2
        rw [← hV, List.drop_take]
        congr 1; omega
      have hdayD1 : dayTr N δ k0 (all ++ w) (D + 1) =
          some ⟨((D * N + N : ℤ) : ℚ) * δ, W.drop (D * N + N - lo).toNat⟩ := by
        unfold dayTr
        simp only [List.length_append, Nat.cast_add, add_mul, one_mul]
        have e1 : max k0 (D * N + N) = D * N + N := by omega
        have e2 : min (k0 + ((all.length : ℤ) + w.length)) (D * N + N + N) =
            k0 + all.length + w.length := by omega
        rw [e1, e2, if_pos (by omega)]
        congr 2
        rw [← hV, List.drop_drop, List.take_of_length_le (by rw [List.length_append]; omega)]
        congr 1
        omega
      have hedN : (D * N + N) / (N : ℤ) = D + 1 := by
        apply ediv_eq_of <;> rw [add_mul, one_mul]
        omega
      have hf0D1 : (expected N δ cw f0 k0 all).files (D + 1) = f0 (D + 1) :=
        hfiles' _ (by omega)
      have hmain : ∀ d, d ≠ D + 1 →
          (if d = D then some (⟨(lo : ℚ) * δ, W.take (D * N + N - lo).toNat⟩ : Trace V)
            else (expected N δ cw f0 k0 all).files d) =
          (if d < D + 1 ∨ (cw = true ∧ d = D + 1) then (dayTr N δ k0 (all ++ w) d).or (f0 d)
            else f0 d) := by
        intro d hd
        by_cases hdd : d = D
        · subst hdd
          rw [if_pos rfl, if_pos (Or.inl (by omega)), hdayD', Option.some_or]
        · rw [if_neg hdd]
          by_cases hlt : d < D
          · rw [hfiles d hlt, if_pos (Or.inl (by omega))]
          · rw [hfiles' d (by omega), if_neg (by omega)]
      simp only [he, ne_eq, hjul D, not_false_eq_true, if_true, hwe, hwe1, hslice, hrest, write, hne1,
        hne2, if_false, dayOf_idx hN hδ, hlod]
      simp only [Option.bind_eq_bind, Option.bind_some, pure, Bool.not_false, Bool.and_true]
      cases cw with
      | true =>
        simp only [if_true, hne2, if_false, dayOf_idx hN hδ, hedN]
        congr 1
        have hE : expected N δ true f0 k0 (all ++ w) =
            ⟨some ⟨((D * N + N : ℤ) : ℚ) * δ, W.drop (D * N + N - lo).toNat⟩, true,
             fun d => if d < D + 1 ∨ (true = true ∧ d = D + 1) then
              (dayTr N δ k0 (all ++ w) d).or (f0 d) else f0 d⟩ := by
          unfold expected
          simp only [hD', hdayD1]
          congr 1
          simp [hw]
        rw [hE]
        congr 1
        funext d
        by_cases hdd : d = D + 1
        · subst hdd
          rw [if_pos rfl, if_pos (Or.inr ⟨rfl, rfl⟩), hdayD1, Option.some_or]
        · rw [if_neg hdd]
          exact hmain d hdd
      | false =>
        simp only [Bool.false_eq_true, if_false]
        congr 1
        have hE : expected N δ false f0 k0 (all ++ w) =
            ⟨some ⟨((D * N + N : ℤ) : ℚ) * δ, W.drop (D * N + N - lo).toNat⟩, false,
             fun d => if d < D + 1 ∨ (false = true ∧ d = D + 1) then
              (dayTr N δ k0 (all ++ w) d).or (f0 d) else f0 d⟩ := by
          unfold expected
          simp only [hD', hdayD1]
          congr 1
          simp
        rw [hE]
        congr 1
        funext d
        by_cases hdd : d = D + 1
        · subst hdd
          rw [if_neg (by omega), hf0D1, if_neg (by simp)]
        · exact hmain d hdd

/-! ## Sequences of appends -/

theorem init_eq_expected {N : ℕ} {δ : ℚ} (hN : 0 < N) (cw : Bool) (f0 : Files V) (k0 : ℤ) :
    init f0 = expected N δ cw f0 k0 [] := by
  have hnone : ∀ d, dayTr N δ k0 ([] : List V) d = none := by
    intro d
    unfold dayTr
    simp only [List.length_nil, Nat.cast_zero, add_zero]
    rw [if_neg (by omega)]
  unfold init expected
  simp only [hnone, Option.none_or, ite_self]
  simp

/-- Blocks that follow one another from time `t` without gap or overlap. -/
def Contig (δ : ℚ) : ℚ → List (Trace V) → Prop
  | _, [] => True
  | t, b :: bs => b.start = t ∧ Contig δ (t + (b.vals.length : ℚ) * δ) bs

theorem appendAll_expected {N : ℕ} {δ : ℚ} (hN : 0 < N) (hδ : DAY = N * δ) (jul : ℤ → ℕ)
    (hjul : ∀ d, jul d ≠ jul (d + 1)) (cw : Bool) (f0 : Files V) (k0 : ℤ) (bs : List (Trace V)) :
    ∀ (all : List V), Contig δ (((k0 + all.length : ℤ) : ℚ) * δ) bs →
      (∀ b ∈ bs, b.vals ≠ [] ∧ b.vals.length ≤ N) →
      appendAll δ jul cw (expected N δ cw f0 k0 all) bs =
        some (expected N δ cw f0 k0 (all ++ bs.flatMap Trace.vals)) := by
  induction bs with
  | nil => intro all _ _; simp [appendAll]
  | cons b bs ih =>
    intro all hc hb
    obtain ⟨h1, h2⟩ := hc
    obtain ⟨h3, h4⟩ := hb b List.mem_cons_self
    have hbe : b = ⟨((k0 + all.length : ℤ) : ℚ) * δ, b.vals⟩ := by
      cases b; simp only at h1; subst h1; rfl
    rw [appendAll, hbe, append_expected hN hδ jul hjul cw f0 k0 all b.vals h3 h4]
    simp only
    rw [ih (all ++ b.vals) _ (fun b' hb' => hb b' (List.mem_cons_of_mem _ hb'))]
    · rw [List.flatMap_cons, List.append_assoc]
    · convert h2 using 1
      rw [List.length_append]; push_cast; ring

theorem finish_expected {N : ℕ} {δ : ℚ} (hN : 0 < N) (hδ : DAY = N * δ) (cw : Bool)
    (f0 : Files V) (k0 : ℤ) (all : List V) (hall : all ≠ []) :
    ∃ s, finish (expected N δ cw f0 k0 all) = some s ∧
      s.files = fun d => (dayTr N δ k0 all d).or (f0 d) := by
  obtain ⟨h1, h2⟩ := ediv_bounds hN (k0 + all.length)
  have hgt : ∀ d, (k0 + all.length) / (N : ℤ) < d → dayTr N δ k0 all d = none := by
    intro d hd
    have h3 : ((k0 + all.length) / (N : ℤ) + 1) * (N : ℤ) ≤ d * N :=
      mul_le_mul_of_nonneg_right (by omega) (by omega)
    rw [add_mul, one_mul] at h3
    unfold dayTr
    simp only
    rw [if_neg (by omega)]
  generalize hD : (k0 + all.length) / (N : ℤ) = D at *
  unfold finish
  split
  · rename_i hw
    refine ⟨_, rfl, ?_⟩
    unfold expected at hw ⊢
    simp only [hD] at hw ⊢
    funext d
    by_cases hlt : d < D
    · rw [if_pos (Or.inl hlt)]
    · by_cases hdd : d = D
      · cases cw with
        | true => rw [if_pos (Or.inr ⟨rfl, hdd⟩)]
        | false =>
          simp at hw
          rw [if_neg (by simp; omega), hdd, hw.2, Option.none_or]
      · rw [if_neg (by omega), hgt d (by omega), Option.none_or]
  · rename_i hw
    unfold expected at hw ⊢
    simp only [hD] at hw ⊢
    have hcw : cw = false := by
      cases cw with
      | true => simp [hall] at hw
      | false => rfl
    subst hcw
    have hs : (dayTr N δ k0 all D).isSome := by
      cases h : dayTr N δ k0 all D with
      | none => simp [h, hall] at hw
      | some t => rfl
    obtain ⟨t, ht⟩ := Option.isSome_iff_exists.mp hs
    rw [ht]
    have ht' := ht
    unfold dayTr at ht'
    simp only at ht'
    split at ht'
    · rename_i hlt
      simp only [Option.some.injEq] at ht'
      have hts : dayOf t.start = D := by
        rw [← ht']
        simp only [dayOf_idx hN hδ]
        apply ediv_eq_of <;> omega
      have htne : t.vals ≠ [] := by
        rw [← List.length_pos_iff, ← ht']
        simp only [List.length_drop, List.length_take]
        omega
      unfold write
      simp only [htne, if_false]
      refine ⟨_, rfl, ?_⟩
      simp only [hts]
      funext d
      by_cases hdd : d = D
      · rw [if_pos hdd, hdd, ht, Option.some_or]
      · rw [if_neg hdd]
        by_cases hlt : d < D
        · rw [if_pos (Or.inl hlt)]
        · rw [if_neg (by simp; omega), hgt d (by omega), Option.none_or]
    · simp at ht'

/-! ## Samples of a trace -/

theorem samples_append (δ t : ℚ) (u v : List V) :
    (⟨t, u ++ v⟩ : Trace V).samples δ =
      (⟨t, u⟩ : Trace V).samples δ ++ (⟨t + (u.length : ℚ) * δ, v⟩ : Trace V).samples δ := by
  unfold Trace.samples
  simp only [List.zipIdx_append, List.map_append]
  congr 1
  rw [List.zipIdx_eq_map_add, List.map_map]
  simp only [Nat.zero_add]
  apply List.map_congr_left
  intro p _
  simp only [Function.comp]
  congr 1
  push_cast; ring

theorem mem_samples {δ : ℚ} {k : ℤ} {v : List V} {p : ℚ × V}
    (h : p ∈ (⟨(k : ℚ) * δ, v⟩ : Trace V).samples δ) :
    ∃ i : ℤ, k ≤ i ∧ i < k + v.length ∧ p.1 = (i : ℚ) * δ := by
  unfold Trace.samples at h
  simp only [List.mem_map] at h
  obtain ⟨⟨a, i⟩, hi, rfl⟩ := h
  have := List.mem_zipIdx_iff_getElem?.mp hi
  obtain ⟨hlt, -⟩ := List.getElem?_eq_some_iff.mp this
  refine ⟨k + i, by omega, by omega, ?_⟩
  push_cast; ring

theorem samples_ne_nil {δ : ℚ} {tr : Trace V} : tr.samples δ = [] ↔ tr.vals = [] := by
  unfold Trace.samples
  simp

theorem samples_filter_range {δ : ℚ} (k0 lo hi : ℤ) (all : List V) (h1 : k0 ≤ lo)
    (h2 : lo ≤ hi) (h3 : hi ≤ k0 + all.length) (P : ℚ → Bool)
    (hP : ∀ i : ℤ, k0 ≤ i → i < k0 + all.length → (P ((i : ℚ) * δ) = true ↔ lo ≤ i ∧ i < hi)) :
    ((⟨(k0 : ℚ) * δ, all⟩ : Trace V).samples δ).filter (fun p => P p.1) =
      (⟨(lo : ℚ) * δ, (all.take (hi - k0).toNat).drop (lo - k0).toNat⟩ : Trace V).samples δ := by
  set mid := (all.take (hi - k0).toNat).drop (lo - k0).toNat with hmid
  set pre := all.take (lo - k0).toNat with hpre
  set post := all.drop (hi - k0).toNat with hpost
  have hsplit : all = pre ++ (mid ++ post) := by
    have e1 : all = all.take (hi - k0).toNat ++ post := (List.take_append_drop _ _).symm
    have e2 : all.take (hi - k0).toNat = pre ++ mid := by
      rw [hpre, hmid]
      conv_lhs => rw [← List.take_append_drop (lo - k0).toNat (all.take (hi - k0).toNat)]
      rw [List.take_take]
      congr 2
      omega
    rw [← List.append_assoc, ← e2, ← e1]
  have l1 : (pre.length : ℤ) = lo - k0 := by rw [hpre, List.length_take]; omega
  have l2 : (mid.length : ℤ) = hi - lo := by
    rw [hmid, List.length_drop, List.length_take]; omega
  have l3 : (post.length : ℤ) = k0 + all.length - hi := by rw [hpost, List.length_drop]; omega
  have e1 : (k0 : ℚ) * δ + (pre.length : ℚ) * δ = (lo : ℚ) * δ := by
    have : (pre.length : ℚ) = ((lo - k0 : ℤ) : ℚ) := by rw [← l1]; push_cast; rfl
    rw [this]; push_cast; ring
  have e2 : (lo : ℚ) * δ + (mid.length : ℚ) * δ = (hi : ℚ) * δ := by
    have : (mid.length : ℚ) = ((hi - lo : ℤ) : ℚ) := by rw [← l2]; push_cast; rfl
    rw [this]; push_cast; ring
  conv_lhs => rw [hsplit]
  rw [samples_append, samples_append, e1, e2, List.filter_append, List.filter_append]
  have f1 : ((⟨(k0 : ℚ) * δ, pre⟩ : Trace V).samples δ).filter (fun p => P p.1) = [] := by
    rw [List.filter_eq_nil_iff]
    intro p hp
    obtain ⟨i, hi1, hi2, hi3⟩ := mem_samples hp
    rw [hi3, hP i hi1 (by omega)]; omega
  have f2 : ((⟨(lo : ℚ) * δ, mid⟩ : Trace V).samples δ).filter (fun p => P p.1) =
      (⟨(lo : ℚ) * δ, mid⟩ : Trace V).samples δ := by
    rw [List.filter_eq_self]
    intro p hp
    obtain ⟨i, hi1, hi2, hi3⟩ := mem_samples hp
    rw [hi3, hP i (by omega) (by omega)]; omega
  have f3 : ((⟨(hi : ℚ) * δ, post⟩ : Trace V).samples δ).filter (fun p => P p.1) = [] := by
    rw [List.filter_eq_nil_iff]
    intro p hp
    obtain ⟨i, hi1, hi2, hi3⟩ := mem_samples hp
    rw [hi3, hP i (by omega) (by omega)]; omega
  rw [f1, f2, f3, List.nil_append, List.append_nil]

/-- The samples of one day. -/
theorem dayTr_samples {N : ℕ} {δ : ℚ} (hN : 0 < N) (hδ : DAY = N * δ) (k0 : ℤ) (all : List V)
    (d : ℤ) :
    ((dayTr N δ k0 all d).map (Trace.samples δ)).getD [] =
      ((⟨(k0 : ℚ) * δ, all⟩ : Trace V).samples δ).filter (fun p => decide (dayOf p.1 = d)) := by
  have hday : ∀ i : ℤ, (dayOf ((i : ℚ) * δ) = d ↔ d * N ≤ i ∧ i < d * N + N) := by
    intro i
    rw [dayOf_idx hN hδ]
    constructor
    · intro h; subst h; exact ediv_bounds hN i
    · intro h; exact ediv_eq_of h.1 h.2
  unfold dayTr
  simp only
  split
  · rename_i hlt
    rw [Option.map_some, Option.getD_some]
    symm
    apply samples_filter_range k0 _ _ all (by omega) (by omega) (by omega)
      (fun t => decide (dayOf t = d))
    intro i hi1 hi2
    rw [decide_eq_true_eq, hday i]
    omega
  · rename_i hlt
    rw [Option.map_none, Option.getD_none]
    symm
    rw [List.filter_eq_nil_iff]
    intro p hp
    obtain ⟨i, hi1, hi2, hi3⟩ := mem_samples hp
    rw [hi3, decide_eq_true_eq, hday i]
    omega

theorem dayTr_ne {N : ℕ} {δ : ℚ} {k0 : ℤ} {all : List V} {d : ℤ} {tr : Trace V}
    (h : dayTr N δ k0 all d = some tr) : tr.vals ≠ [] := by
  unfold dayTr at h
  simp only at h
  split at h
  · simp only [Option.some.injEq] at h
    rw [← List.length_pos_iff, ← h]
    simp only [List.length_drop, List.length_take]
    omega
  · simp at h

end QM.ScanMseed

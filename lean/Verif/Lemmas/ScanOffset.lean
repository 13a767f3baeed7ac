import Verif.Lemmas.ScanMseed

/-!
The writer of `scanmseed.py` on sample times `k * δ + r`, `0 < r < δ / 2`: the run starts less than
half a sample after a point of the sample grid.
-/

namespace QM.ScanMseed
open QM

variable {V : Type}

theorem roundAway_near {q : ℚ} {n : ℤ} (h : |q - n| < 1 / 2) : roundAway q = n := by
  rw [abs_lt] at h
  unfold roundAway
  split
  · rw [Int.floor_eq_iff]; constructor <;> linarith
  · rw [Int.ceil_eq_iff]; constructor <;> linarith

section
variable {N : ℕ} {δ r : ℚ} (hN : 0 < N) (hδ : DAY = N * δ) (hr : 0 < r) (hr2 : 2 * r < δ)
include hN hδ hr hr2

theorem dayOf_off (k : ℤ) : dayOf ((k : ℚ) * δ + r) = k / (N : ℤ) := by
  have hdp := delta_pos hN hδ
  have hNq : (0 : ℚ) < N := by exact_mod_cast hN
  obtain ⟨h1, h2⟩ := ediv_bounds hN k
  unfold dayOf
  rw [hδ, Int.floor_eq_iff]
  generalize k / (N : ℤ) = D at *
  have h1' : (D : ℚ) * N ≤ k := by exact_mod_cast h1
  have h2' : (k : ℚ) + 1 ≤ D * N + N := by exact_mod_cast h2
  constructor
  · rw [le_div_iff₀ (by positivity)]; nlinarith
  · rw [div_lt_iff₀ (by positivity)]; nlinarith

theorem dayStart_off (k : ℤ) :
    dayStart ((k : ℚ) * δ + r) = ((k / (N : ℤ) * N : ℤ) : ℚ) * δ := by
  have := dayOf_off hN hδ hr hr2 k
  unfold dayOf at this
  unfold dayStart
  rw [this, hδ]; push_cast; ring

theorem roundAway_off (a b : ℤ) :
    roundAway (((a : ℚ) * δ - ((b : ℚ) * δ + r)) / δ) = a - b := by
  have hdp := delta_pos hN hδ
  apply roundAway_near
  have : ((a : ℚ) * δ - ((b : ℚ) * δ + r)) / δ - ((a - b : ℤ) : ℚ) = -(r / δ) := by
    push_cast; field_simp; ring
  rw [this, abs_neg, abs_of_pos (by positivity), div_lt_iff₀ hdp]
  linarith
end

/-- Samples of day `d`. -/
def dayTrO (N : ℕ) (δ r : ℚ) (k0 : ℤ) (all : List V) (d : ℤ) : Option (Trace V) :=
  (dayTr N δ k0 all d).map fun t => ⟨t.start + r, t.vals⟩

/-- State of the writer after `all ≠ []` has been appended from index `k0`. -/
def expectedO (N : ℕ) (δ r : ℚ) (cw : Bool) (f0 : Files V) (k0 : ℤ) (all : List V) : St V :=
  let D := (k0 + all.length - 1) / (N : ℤ)
  { stream := dayTrO N δ r k0 all D
    written := cw
    files := fun d => if d < D ∨ (cw = true ∧ d = D) then (dayTrO N δ r k0 all d).or (f0 d)
      else f0 d }

theorem dayTr_some (N : ℕ) (δ : ℚ) (k0 : ℤ) (all : List V) (d lo hi : ℤ)
    (hlo : lo = max k0 (d * N)) (hhi : hi = min (k0 + all.length) (d * N + N)) (h : lo < hi) :
    dayTr N δ k0 all d = some ⟨(lo : ℚ) * δ, (all.take (hi - k0).toNat).drop (lo - k0).toNat⟩ := by
  unfold dayTr
  simp only [← hlo, ← hhi, if_pos h]

theorem afterMerge_off {N : ℕ} {δ r : ℚ} (hN : 0 < N) (hδ : DAY = N * δ) (hr : 0 < r)
    (hr2 : 2 * r < δ) (jul : ℤ → ℕ) (hjul : ∀ d, jul d ≠ jul (d + 1)) (cw : Bool) (f0 : Files V)
    (k0 D lo : ℤ) (all : List V) (s : St V)
    (hk0 : k0 % (N : ℤ) ≠ N - 1)
    (hlo : lo = max k0 (D * N)) (hlo2 : lo < D * N + N) (hlt : lo < k0 + all.length)
    (hend : k0 + all.length ≤ D * N + N + N)
    (hf1 : ∀ d, d < D → s.files d = (dayTrO N δ r k0 all d).or (f0 d))
    (hf2 : ∀ d, D < d → s.files d = f0 d)
    (hf3 : cw = false → s.files D = f0 D) :
    afterMerge δ jul cw s ⟨(lo : ℚ) * δ + r, all.drop (lo - k0).toNat⟩ =
      some (expectedO N δ r cw f0 k0 all) := by
  have hdp := delta_pos hN hδ
  generalize hW : all.drop (lo - k0).toNat = W
  have hlod : lo / (N : ℤ) = D := ediv_eq_of (by omega) (by omega)
  have hWl : (W.length : ℤ) = k0 + all.length - lo := by
    rw [← hW, List.length_drop]; omega
  have hWne : W ≠ [] := by
    intro h; rw [h] at hWl; simp at hWl; omega
  have hstop : (⟨(lo : ℚ) * δ + r, W⟩ : Trace V).stop δ =
      ((k0 + all.length - 1 : ℤ) : ℚ) * δ + r := by
    unfold Trace.stop
    simp only
    have : (W.length : ℚ) = ((k0 + all.length - lo : ℤ) : ℚ) := by
      rw [← hWl]; push_cast; rfl
    rw [this]; push_cast; ring
  have hcond : ¬ (((k0 + all.length - 1 : ℤ) : ℚ) * δ + r = dayStart ((lo : ℚ) * δ + r) + DAY - δ) := by
    rw [dayStart_off hN hδ hr hr2, hlod, hδ]
    intro h
    have h3 : (((k0 + all.length - 1 - (D * N + N - 1) : ℤ) : ℚ)) * δ = -r := by
      push_cast at h ⊢; linarith
    have h4 : ((k0 + all.length - 1 - (D * N + N - 1) : ℤ) : ℚ) < 0 := by
      by_contra hc
      have := mul_nonneg (not_lt.1 hc) hdp.le
      linarith
    have h5 : k0 + all.length - 1 - (D * N + N - 1) ≤ -1 := by
      have : k0 + all.length - 1 - (D * N + N - 1) < 0 := by exact_mod_cast h4
      omega
    have h6 : ((k0 + all.length - 1 - (D * N + N - 1) : ℤ) : ℚ) ≤ -1 := by exact_mod_cast h5
    nlinarith
  unfold afterMerge
  simp only [hstop, hcond, if_false, dayOf_off hN hδ hr hr2, hlod]
  by_cases hc2 : k0 + all.length - 1 < D * N + N
  · -- still inside the day
    have he : (k0 + all.length - 1) / (N : ℤ) = D := ediv_eq_of (by omega) (by omega)
    have hdayD : dayTrO N δ r k0 all D = some ⟨(lo : ℚ) * δ + r, W⟩ := by
      unfold dayTrO
      rw [dayTr_some N δ k0 all D lo (k0 + all.length) hlo (by omega) hlt, Option.map_some]
      simp only
      rw [← hW, List.take_of_length_le (by omega)]
    simp only [he, ne_eq, not_true_eq_false, if_false]
    simp only [Option.bind_eq_bind, Option.bind_some, pure, Bool.not_false, Bool.and_true]
    cases cw with
    | true =>
      simp only [if_true, write, hWne, if_false, dayOf_off hN hδ hr hr2, hlod]
      congr 1
      unfold expectedO
      simp only [he, hdayD]
      congr 1
      funext d
      by_cases hdd : d = D
      · subst hdd
        rw [if_pos rfl, if_pos (Or.inr ⟨trivial, rfl⟩), hdayD, Option.some_or]
      · rw [if_neg hdd]
        by_cases hl : d < D
        · rw [if_pos (Or.inl hl), hf1 d hl]
        · rw [hf2 d (by omega), if_neg (by omega)]
    | false =>
      simp only [Bool.false_eq_true, if_false]
      congr 1
      unfold expectedO
      simp only [he, hdayD]
      congr 1
      funext d
      by_cases hl : d < D
      · rw [if_pos (Or.inl hl), hf1 d hl]
      · rw [if_neg (by simp; omega)]
        by_cases hdd : d = D
        · rw [hdd, hf3 rfl]
        · rw [hf2 d (by omega)]
  · -- crosses midnight
    have hlo3 : lo ≤ D * N + N - 2 := by
      rcases le_or_gt k0 (D * N) with h | h
      · have : lo = D * N := by omega
        rw [this]
        rcases Nat.lt_or_ge 1 N with h1 | h1
        · omega
        · exfalso
          have : N = 1 := by omega
          subst this
          omega
      · have hl : lo = k0 := by omega
        have hm : k0 % (N : ℤ) = k0 - D * N := by
          have := Int.emod_add_mul_ediv k0 (N : ℤ)
          rw [← hl, hlod] at this
          rw [← hl]; linarith [mul_comm (N : ℤ) D]
        omega
    have he : (k0 + all.length - 1) / (N : ℤ) = D + 1 := by
      apply ediv_eq_of <;> rw [add_mul, one_mul] <;> omega
    have hwe : dayStart (((k0 + all.length - 1 : ℤ) : ℚ) * δ + r) - δ =
        ((D * N + N - 1 : ℤ) : ℚ) * δ := by
      rw [dayStart_off hN hδ hr hr2, he]; push_cast; ring
    have hwe1 : ((D * N + N - 1 : ℤ) : ℚ) * δ + δ = ((D * N + N : ℤ) : ℚ) * δ := by
      push_cast; ring
    have hslice : (⟨(lo : ℚ) * δ + r, W⟩ : Trace V).slice δ ((lo : ℚ) * δ + r)
        (((D * N + N - 1 : ℤ) : ℚ) * δ) = ⟨(lo : ℚ) * δ + r, W.take (D * N + N - lo).toNat⟩ := by
      have e0 : roundAway (((lo : ℚ) * δ + r - ((lo : ℚ) * δ + r)) / δ) = 0 := by
        rw [sub_self, zero_div]; exact roundAway_int 0
      unfold Trace.slice Trace.ltrim Trace.rtrim
      simp only [e0, le_refl, if_true, roundAway_off hN hδ hr hr2]
      rw [if_neg (by omega), if_neg]
      · congr 2; omega
      · push Not
        have : ((lo : ℚ) + 1) ≤ ((D * N + N - 1 : ℤ) : ℚ) := by
          exact_mod_cast (show lo + 1 ≤ D * N + N - 1 by omega)
        nlinarith
    have hrest : (⟨(lo : ℚ) * δ + r, W⟩ : Trace V).ltrim δ (((D * N + N : ℤ) : ℚ) * δ) =
        ⟨((D * N + N : ℤ) : ℚ) * δ + r, W.drop (D * N + N - lo).toNat⟩ := by
      unfold Trace.ltrim
      simp only [roundAway_off hN hδ hr hr2]
      rw [if_neg (by omega)]
      congr 1
      push_cast; ring
    have hne1 : W.take (D * N + N - lo).toNat ≠ [] := by
      rw [← List.length_pos_iff, List.length_take]; omega
    have hne2 : W.drop (D * N + N - lo).toNat ≠ [] := by
      rw [← List.length_pos_iff, List.length_drop]; omega
    have hdayD : dayTrO N δ r k0 all D =
        some ⟨(lo : ℚ) * δ + r, W.take (D * N + N - lo).toNat⟩ := by
      unfold dayTrO
      rw [dayTr_some N δ k0 all D lo (D * N + N) hlo (by omega) (by omega), Option.map_some]
      simp only
      rw [← hW, List.drop_take]
      congr 3; omega
    have hdayD1 : dayTrO N δ r k0 all (D + 1) =
        some ⟨((D * N + N : ℤ) : ℚ) * δ + r, W.drop (D * N + N - lo).toNat⟩ := by
      unfold dayTrO
      rw [dayTr_some N δ k0 all (D + 1) (D * N + N) (k0 + all.length)
        (by rw [add_mul, one_mul]; omega) (by rw [add_mul, one_mul]; omega) (by omega),
        Option.map_some]
      simp only
      rw [← hW, List.drop_drop, List.take_of_length_le (by omega)]
      congr 3; omega
    have hedN : (D * N + N) / (N : ℤ) = D + 1 := by
      apply ediv_eq_of <;> rw [add_mul, one_mul]
      omega
    have hmain : ∀ d, d ≠ D + 1 →
        (if d = D then some (⟨(lo : ℚ) * δ + r, W.take (D * N + N - lo).toNat⟩ : Trace V)
          else s.files d) =
        (if d < D + 1 ∨ (cw = true ∧ d = D + 1) then (dayTrO N δ r k0 all d).or (f0 d)
          else f0 d) := by
      intro d hd
      by_cases hdd : d = D
      · subst hdd
        rw [if_pos rfl, if_pos (Or.inl (by omega)), hdayD, Option.some_or]
      · rw [if_neg hdd]
        by_cases hl : d < D
        · rw [hf1 d hl, if_pos (Or.inl (by omega))]
        · rw [hf2 d (by omega), if_neg (by omega)]
    simp only [he, ne_eq, hjul D, not_false_eq_true, if_true, hwe, hwe1, hslice, hrest, write, hne1,
      hne2, if_false, dayOf_off hN hδ hr hr2, hlod]
    simp only [Option.bind_eq_bind, Option.bind_some, pure, Bool.not_false, Bool.and_true]
    cases cw with
    | true =>
      simp only [if_true, hne2, if_false, dayOf_off hN hδ hr hr2, hedN]
      congr 1
      unfold expectedO
      simp only [he, hdayD1]
      congr 1
      funext d
      by_cases hdd : d = D + 1
      · subst hdd
        rw [if_pos rfl, if_pos (Or.inr ⟨trivial, rfl⟩), hdayD1, Option.some_or]
      · rw [if_neg hdd]
        simpa using hmain d hdd
    | false =>
      simp only [Bool.false_eq_true, if_false]
      congr 1
      unfold expectedO
      simp only [he, hdayD1]
      congr 1
      funext d
      by_cases hdd : d = D + 1
      · subst hdd
        rw [if_neg (by omega), hf2 _ (by omega), if_neg (by simp)]
      · simpa using hmain d hdd

theorem dayTrO_append_lt {N : ℕ} (hN : 0 < N) (δ r : ℚ) (k0 : ℤ) (all w : List V) (d : ℤ)
    (hd : d < (k0 + all.length - 1) / (N : ℤ)) :
    dayTrO N δ r k0 (all ++ w) d = dayTrO N δ r k0 all d := by
  unfold dayTrO
  rw [dayTr_append_lt hN]
  exact lt_of_lt_of_le hd (Int.ediv_le_ediv (by omega) (by omega))

theorem append_off {N : ℕ} {δ r : ℚ} (hN : 0 < N) (hδ : DAY = N * δ) (hr : 0 < r)
    (hr2 : 2 * r < δ) (jul : ℤ → ℕ) (hjul : ∀ d, jul d ≠ jul (d + 1)) (cw : Bool) (f0 : Files V)
    (k0 : ℤ) (hk0 : k0 % (N : ℤ) ≠ N - 1) (all w : List V) (hall : all ≠ [])
    (hw : w ≠ []) (hwN : w.length ≤ N) :
    append δ jul cw (expectedO N δ r cw f0 k0 all) ⟨((k0 + all.length : ℤ) : ℚ) * δ + r, w⟩ =
      some (expectedO N δ r cw f0 k0 (all ++ w)) := by
  have hal : 0 < all.length := List.length_pos_iff.mpr hall
  have hwl : 0 < w.length := List.length_pos_iff.mpr hw
  obtain ⟨h1, h2⟩ := ediv_bounds hN (k0 + all.length - 1)
  generalize hD : (k0 + all.length - 1) / (N : ℤ) = D at *
  obtain ⟨lo, hlo⟩ : ∃ lo, lo = max k0 (D * N) := ⟨_, rfl⟩
  have hst : (expectedO N δ r cw f0 k0 all).stream =
      some ⟨(lo : ℚ) * δ + r, all.drop (lo - k0).toNat⟩ := by
    unfold expectedO dayTrO
    simp only [hD]
    rw [dayTr_some N δ k0 all D lo (k0 + all.length) hlo (by omega) (by omega), Option.map_some]
    simp only
    rw [List.take_of_length_le (by omega)]
  have hadd : addBlock δ (expectedO N δ r cw f0 k0 all).stream
      ⟨((k0 + all.length : ℤ) : ℚ) * δ + r, w⟩ =
      some ⟨(lo : ℚ) * δ + r, (all ++ w).drop (lo - k0).toNat⟩ := by
    unfold addBlock
    rw [hst]
    simp only [hw, if_false]
    rw [if_pos, List.drop_append_of_le_length (by omega)]
    have : (((all.drop (lo - k0).toNat).length : ℕ) : ℚ) = ((k0 + all.length - lo : ℤ) : ℚ) := by
      have : (((all.drop (lo - k0).toNat).length : ℕ) : ℤ) = k0 + all.length - lo := by
        rw [List.length_drop]; omega
      rw [← this]; push_cast; rfl
    rw [this]; push_cast; ring
  unfold append
  rw [hadd]
  simp only
  apply afterMerge_off hN hδ hr hr2 jul hjul cw f0 k0 D lo (all ++ w) _ hk0 hlo (by omega)
    (by rw [List.length_append]; omega) (by rw [List.length_append]; push_cast; omega)
  · intro d hd
    unfold expectedO
    simp only [hD]
    rw [if_pos (Or.inl hd), dayTrO_append_lt hN δ r k0 all w d (by omega)]
  · intro d hd
    unfold expectedO
    simp only [hD]
    rw [if_neg (by omega)]
  · intro hcw
    unfold expectedO
    simp only [hD]
    rw [if_neg (by simp [hcw])]

theorem append_off_first {N : ℕ} {δ r : ℚ} (hN : 0 < N) (hδ : DAY = N * δ) (hr : 0 < r)
    (hr2 : 2 * r < δ) (jul : ℤ → ℕ) (hjul : ∀ d, jul d ≠ jul (d + 1)) (cw : Bool) (f0 : Files V)
    (k0 : ℤ) (hk0 : k0 % (N : ℤ) ≠ N - 1) (w : List V) (hw : w ≠ []) (hwN : w.length ≤ N) :
    append δ jul cw (init f0) ⟨(k0 : ℚ) * δ + r, w⟩ = some (expectedO N δ r cw f0 k0 w) := by
  have hwl : 0 < w.length := List.length_pos_iff.mpr hw
  obtain ⟨h1, h2⟩ := ediv_bounds hN k0
  generalize hD : k0 / (N : ℤ) = D at *
  unfold append addBlock init
  simp only [hw, if_false]
  have := afterMerge_off hN hδ hr hr2 jul hjul cw f0 k0 D k0 w ⟨none, false, f0⟩ hk0 (by omega)
    (by omega) (by omega) (by omega) ?_ (fun _ _ => rfl) (fun _ => rfl)
  · simpa using this
  · intro d hd
    have h3 : d * N + N ≤ D * N := by
      have := mul_le_mul_of_nonneg_right (show d + 1 ≤ D by omega) (show (0 : ℤ) ≤ N by omega)
      linarith [add_mul d 1 (N : ℤ)]
    have : dayTrO N δ r k0 w d = none := by
      unfold dayTrO dayTr
      simp only
      rw [if_neg (by omega), Option.map_none]
    rw [this, Option.none_or]

theorem appendAll_off {N : ℕ} {δ r : ℚ} (hN : 0 < N) (hδ : DAY = N * δ) (hr : 0 < r)
    (hr2 : 2 * r < δ) (jul : ℤ → ℕ) (hjul : ∀ d, jul d ≠ jul (d + 1)) (cw : Bool) (f0 : Files V)
    (k0 : ℤ) (hk0 : k0 % (N : ℤ) ≠ N - 1) (bs : List (Trace V)) :
    ∀ (all : List V), all ≠ [] → Contig δ (((k0 + all.length : ℤ) : ℚ) * δ + r) bs →
      (∀ b ∈ bs, b.vals ≠ [] ∧ b.vals.length ≤ N) →
      appendAll δ jul cw (expectedO N δ r cw f0 k0 all) bs =
        some (expectedO N δ r cw f0 k0 (all ++ bs.flatMap Trace.vals)) := by
  induction bs with
  | nil => intro all _ _ _; simp [appendAll]
  | cons b bs ih =>
    intro all hall hc hb
    obtain ⟨h1, h2⟩ := hc
    obtain ⟨h3, h4⟩ := hb b List.mem_cons_self
    have hbe : b = ⟨((k0 + all.length : ℤ) : ℚ) * δ + r, b.vals⟩ := by
      cases b; simp only at h1; subst h1; rfl
    rw [appendAll, hbe, append_off hN hδ hr hr2 jul hjul cw f0 k0 hk0 all b.vals hall h3 h4]
    simp only
    rw [ih (all ++ b.vals) (by simp [hall]) _ (fun b' hb' => hb b' (List.mem_cons_of_mem _ hb'))]
    · rw [List.flatMap_cons, List.append_assoc]
    · convert h2 using 1
      rw [List.length_append]; push_cast; ring

theorem finish_off {N : ℕ} {δ r : ℚ} (hN : 0 < N) (hδ : DAY = N * δ) (hr : 0 < r)
    (hr2 : 2 * r < δ) (cw : Bool) (f0 : Files V) (k0 : ℤ) (all : List V) (hall : all ≠ []) :
    ∃ s, finish (expectedO N δ r cw f0 k0 all) = some s ∧
      s.files = fun d => (dayTrO N δ r k0 all d).or (f0 d) := by
  have hal : 0 < all.length := List.length_pos_iff.mpr hall
  obtain ⟨h1, h2⟩ := ediv_bounds hN (k0 + all.length - 1)
  generalize hD : (k0 + all.length - 1) / (N : ℤ) = D at *
  obtain ⟨lo, hlo⟩ : ∃ lo, lo = max k0 (D * N) := ⟨_, rfl⟩
  have hst : dayTrO N δ r k0 all D =
      some ⟨(lo : ℚ) * δ + r, all.drop (lo - k0).toNat⟩ := by
    unfold dayTrO
    rw [dayTr_some N δ k0 all D lo (k0 + all.length) hlo (by omega) (by omega), Option.map_some]
    simp only
    rw [List.take_of_length_le (by omega)]
  have hgt : ∀ d, D < d → dayTrO N δ r k0 all d = none := by
    intro d hd
    have h3 : (D + 1) * (N : ℤ) ≤ d * N := mul_le_mul_of_nonneg_right (by omega) (by omega)
    rw [add_mul, one_mul] at h3
    unfold dayTrO dayTr
    simp only
    rw [if_neg (by omega), Option.map_none]
  unfold finish
  cases cw with
  | true =>
    refine ⟨_, if_pos rfl, ?_⟩
    unfold expectedO
    simp only [hD]
    funext d
    by_cases hl : d < D ∨ d = D
    · rw [if_pos (by rcases hl with h | h; exacts [Or.inl h, Or.inr ⟨trivial, h⟩])]
    · rw [if_neg (by simpa using hl), hgt d (by omega), Option.none_or]
  | false =>
    have hlod : lo / (N : ℤ) = D := ediv_eq_of (by omega) (by omega)
    have hne : all.drop (lo - k0).toNat ≠ [] := by
      rw [← List.length_pos_iff, List.length_drop]; omega
    unfold expectedO
    simp only [hD, hst, Bool.false_eq_true, if_false, write, hne]
    refine ⟨_, rfl, ?_⟩
    simp only [dayOf_off hN hδ hr hr2, hlod]
    funext d
    by_cases hdd : d = D
    · rw [if_pos hdd, hdd, hst, Option.some_or]
    · rw [if_neg hdd]
      by_cases hl : d < D
      · rw [if_pos (by simp [hl])]
      · rw [if_neg (by simp; omega), hgt d (by omega), Option.none_or]

/-- The samples of one day. -/
theorem dayTrO_samples {N : ℕ} {δ r : ℚ} (hN : 0 < N) (hδ : DAY = N * δ) (hr : 0 < r)
    (hr2 : 2 * r < δ) (k0 : ℤ) (all : List V) (d : ℤ) :
    ((dayTrO N δ r k0 all d).map (Trace.samples δ)).getD [] =
      ((⟨(k0 : ℚ) * δ + r, all⟩ : Trace V).samples δ).filter (fun p => decide (dayOf p.1 = d)) := by
  have hshift : ∀ t : Trace V, (⟨t.start + r, t.vals⟩ : Trace V).samples δ =
      (t.samples δ).map (fun p => (p.1 + r, p.2)) := by
    intro t
    unfold Trace.samples
    rw [List.map_map]
    apply List.map_congr_left
    intro p _
    simp only [Function.comp]
    congr 1; ring
  have h1 := dayTr_samples hN hδ k0 all d
  have h2 : ((dayTrO N δ r k0 all d).map (Trace.samples δ)).getD [] =
      (((dayTr N δ k0 all d).map (Trace.samples δ)).getD []).map (fun p => (p.1 + r, p.2)) := by
    unfold dayTrO
    cases dayTr N δ k0 all d with
    | none => rfl
    | some t => simp [hshift]
  rw [h2, h1, hshift ⟨(k0 : ℚ) * δ, all⟩, List.filter_map]
  congr 1
  apply List.filter_congr
  intro p hp
  obtain ⟨i, -, -, hi⟩ := mem_samples hp
  simp only [Function.comp, hi, dayOf_off hN hδ hr hr2, dayOf_idx hN hδ]

end QM.ScanMseed

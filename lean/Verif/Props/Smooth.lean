import Verif.Model.Smooth
import Verif.Props.Midnight

/-!
# Smoothing of the coalescence before triggering (C122), and events around midnight with it (C110)
-/

namespace QM

open QM.Trigger QM.Smooth QM.Spec

/-- Weights of a smoothing filter: not negative, adding up to one, the same on both sides. -/
structure Spec.Weights {K : Type} [Field K] [LinearOrder K] (w : ℕ → K) (r : ℕ) : Prop where
  nonneg : ∀ k ≤ 2 * r, 0 ≤ w k
  total : ((List.range (2 * r + 1)).map w).sum = 1
  symmetric : ∀ k ≤ 2 * r, w (2 * r - k) = w k

section General

variable {K : Type} [Field K] [LinearOrder K] [IsStrictOrderedRing K]

theorem reflect_lt {n : ℕ} (hn : 0 < n) (i : ℤ) : reflect n i < n := by
  unfold reflect
  have h1 := Int.emod_nonneg i (show (2 * n : ℤ) ≠ 0 by omega)
  have h2 := Int.emod_lt_of_pos i (show (0 : ℤ) < 2 * n by omega)
  split <;> omega

theorem reflect_inside {n : ℕ} {i : ℤ} (h0 : 0 ≤ i) (h1 : i < n) : reflect n i = i.toNat := by
  unfold reflect
  rw [Int.emod_eq_of_lt h0 (by omega), if_pos h1]

theorem reflect_left {n : ℕ} {i : ℤ} (h0 : i < 0) (h1 : -i ≤ n) : reflect n i = (-i - 1).toNat := by
  unfold reflect
  have e : i % (2 * n : ℤ) = i + 2 * n := by
    rw [← Int.add_mul_emod_self_left i (2 * n) 1, mul_one]
    exact Int.emod_eq_of_lt (by omega) (by omega)
  rw [e, if_neg (by omega)]
  congr 1
  ring

theorem reflect_right {n : ℕ} {i : ℤ} (h0 : (n : ℤ) ≤ i) (h1 : i < 2 * n) :
    reflect n i = (2 * n - 1 - i).toNat := by
  unfold reflect
  rw [Int.emod_eq_of_lt (by omega) h1, if_neg (by omega)]

/-- A reflected position is not further away than the position itself. -/
theorem reflect_near {n i r : ℕ} (hi : i < n) {j : ℤ} (h1 : -(r : ℤ) ≤ j) (h2 : j ≤ r) :
    (reflect n (i + j) : ℤ) ≤ i + r ∧ (i : ℤ) ≤ reflect n (i + j) + r := by
  rcases lt_or_ge r n with hr | hr
  · rcases lt_or_ge ((i : ℤ) + j) 0 with h | h
    · rw [reflect_left h (by omega)]; omega
    · rcases lt_or_ge ((i : ℤ) + j) n with h' | h'
      · rw [reflect_inside h h']; omega
      · rw [reflect_right h' (by omega)]; omega
  · have := reflect_lt (by omega : 0 < n) ((i : ℤ) + j)
    omega

theorem weighted_sum_bounds (l : List ℕ) (w v : ℕ → K) (lo hi : K) (hw : ∀ k ∈ l, 0 ≤ w k)
    (h1 : ∀ k ∈ l, lo ≤ v k) (h2 : ∀ k ∈ l, v k ≤ hi) :
    (l.map w).sum * lo ≤ (l.map fun k => w k * v k).sum ∧
      (l.map fun k => w k * v k).sum ≤ (l.map w).sum * hi := by
  induction l with
  | nil => simp
  | cons a l ih =>
    obtain ⟨i1, i2⟩ := ih (fun k h => hw k (by simp [h])) (fun k h => h1 k (by simp [h]))
      (fun k h => h2 k (by simp [h]))
    have ha := hw a (by simp)
    have b1 := mul_le_mul_of_nonneg_left (h1 a (by simp)) ha
    have b2 := mul_le_mul_of_nonneg_left (h2 a (by simp)) ha
    simp only [List.map_cons, List.sum_cons, add_mul]
    constructor <;> linarith

theorem correlate_length (w : ℕ → K) (r : ℕ) (x : List K) : (correlate w r x).length = x.length := by
  simp [correlate]

theorem correlate_getElem? (w : ℕ → K) (r : ℕ) (x : List K) {i : ℕ} (hi : i < x.length) :
    (correlate w r x)[i]? = some (correlateAt w r x i) := by
  simp [correlate, hi]

/-- **C122**: a smoothed value lies between the least and the greatest of the samples at most `r` samples
away. -/
theorem C122_between (w : ℕ → K) (r : ℕ) (hw : Spec.Weights w r) (x : List K) (i : ℕ) (hi : i < x.length)
    (lo hi' : K) (hlo : ∀ j v, i ≤ j + r → j ≤ i + r → x[j]? = some v → lo ≤ v)
    (hhi : ∀ j v, i ≤ j + r → j ≤ i + r → x[j]? = some v → v ≤ hi') :
    ∃ y, (correlate w r x)[i]? = some y ∧ lo ≤ y ∧ y ≤ hi' := by
  refine ⟨_, correlate_getElem? w r x hi, ?_⟩
  have hval : ∀ k ∈ List.range (2 * r + 1), ∃ j v, i ≤ j + r ∧ j ≤ i + r ∧ x[j]? = some v ∧
      (x[reflect x.length ((i : ℤ) + k - r)]?).getD 0 = v := by
    intro k hk
    rw [List.mem_range] at hk
    have hn := reflect_near (r := r) hi (j := (k : ℤ) - r) (by omega) (by omega)
    have hl := reflect_lt (by omega : 0 < x.length) ((i : ℤ) + (k - r))
    have e : (i : ℤ) + k - r = i + (k - r) := by ring
    rw [e]
    exact ⟨_, x[reflect x.length ((i : ℤ) + (k - r))], by omega, by omega, List.getElem?_eq_getElem hl,
      by simp [hl]⟩
  have := weighted_sum_bounds (List.range (2 * r + 1)) w
    (fun k => (x[reflect x.length ((i : ℤ) + k - r)]?).getD 0) lo hi'
    (fun k hk => hw.nonneg k (by rw [List.mem_range] at hk; omega))
    (fun k hk => by obtain ⟨j, v, a, b, c, d⟩ := hval k hk; rw [d]; exact hlo j v a b c)
    (fun k hk => by obtain ⟨j, v, a, b, c, d⟩ := hval k hk; rw [d]; exact hhi j v a b c)
  rw [hw.total, one_mul, one_mul] at this
  exact this

/-- **C122**: smoothing keeps the number of samples, and leaves a constant trace as it is. -/
theorem C122_constant (w : ℕ → K) (r : ℕ) (hw : Spec.Weights w r) (n : ℕ) (c : K) :
    correlate w r (List.replicate n c) = List.replicate n c := by
  apply List.ext_getElem?
  intro i
  by_cases hi : i < n
  · have hx : ∀ (j : ℕ) (v : K), (List.replicate n c)[j]? = some v → v = c := by
      intro j v h
      exact (List.mem_replicate.mp (List.mem_of_getElem? h)).2
    obtain ⟨y, hy, h1, h2⟩ := C122_between w r hw (List.replicate n c) i (by simpa using hi) c c
      (fun j v _ _ h => (hx j v h).ge) (fun j v _ _ h => (hx j v h).le)
    rw [hy, le_antisymm h2 h1]
    simp [hi]
  · rw [List.getElem?_eq_none (by simp [correlate_length]; omega), List.getElem?_eq_none (by simp; omega)]

/-- A value does not depend on where the record is cut, as long as the cut is at least `r` samples away
(or is the end of the data). -/
theorem correlateAt_local (w : ℕ → K) (r : ℕ) (x : List K) (m k i : ℕ) (hmk : m + k ≤ x.length) (hi : i < k)
    (hl : r ≤ i ∨ m = 0) (hr : i + r < k ∨ m + k = x.length) :
    correlateAt w r ((x.drop m).take k) i = correlateAt w r x (m + i) := by
  have hlen : ((x.drop m).take k).length = k := by simp; omega
  unfold correlateAt
  congr 1
  apply List.map_congr_left
  intro j hj
  rw [List.mem_range] at hj
  rw [hlen]
  have key : m + reflect k ((i : ℤ) + j - r) = reflect x.length (((m + i : ℕ) : ℤ) + j - r) := by
    rcases Nat.lt_or_ge r k with hrk | hrk
    · rcases lt_or_ge ((i : ℤ) + j - r) 0 with h | h
      · have hm : m = 0 := by omega
        subst hm
        rw [reflect_left h (by omega), reflect_left (by push_cast; omega) (by push_cast; omega)]
        push_cast; omega
      · rcases lt_or_ge ((i : ℤ) + j - r) k with h' | h'
        · rw [reflect_inside h h', reflect_inside (by push_cast; omega) (by push_cast; omega)]
          push_cast; omega
        · have hm : m + k = x.length := by omega
          rw [reflect_right h' (by omega), reflect_right (by push_cast; omega) (by push_cast; omega)]
          push_cast; omega
    · have hm : m = 0 := by omega
      have hk : k = x.length := by omega
      subst hm
      rw [hk]
      simp
  have hrl : reflect k ((i : ℤ) + j - r) < k := reflect_lt (by omega) _
  rw [List.getElem?_take, if_pos hrl, List.getElem?_drop, key]

/-- **C122**: smoothing is local.  Cutting a piece of `k` samples out of a record before smoothing changes
only the values less than `r` samples from a cut. -/
theorem C122_local (w : ℕ → K) (r : ℕ) (x : List K) (m k i : ℕ) (hmk : m + k ≤ x.length) (hi : i < k)
    (hl : r ≤ i ∨ m = 0) (hr : i + r < k ∨ m + k = x.length) :
    (correlate w r ((x.drop m).take k))[i]? = (correlate w r x)[m + i]? := by
  rw [correlate_getElem? w r _ (by simp; omega), correlate_getElem? w r x (by omega),
    correlateAt_local w r x m k i hmk hi hl hr]

theorem reflect_mirror {n : ℕ} (hn : 0 < n) (i : ℤ) : reflect n (n - 1 - i) = n - 1 - reflect n i := by
  have h1 := Int.emod_nonneg i (show (2 * n : ℤ) ≠ 0 by omega)
  have h2 := Int.emod_lt_of_pos i (show (0 : ℤ) < 2 * n by omega)
  have e : ((n : ℤ) - 1 - i) % (2 * n) =
      if i % (2 * n) < n then n - 1 - i % (2 * n) else 3 * n - 1 - i % (2 * n) := by
    have h3 : ((n : ℤ) - 1 - i) % (2 * n) = ((n : ℤ) - 1 - i % (2 * n)) % (2 * n) := by
      rw [Int.sub_emod, Int.sub_emod (n - 1) (i % (2 * n)), Int.emod_emod_of_dvd _ dvd_rfl]
    rw [h3]
    split
    · exact Int.emod_eq_of_lt (by omega) (by omega)
    · rw [← Int.add_mul_emod_self_left _ (2 * (n : ℤ)) 1, mul_one]
      rw [Int.emod_eq_of_lt (by omega) (by omega)]
      ring
  unfold reflect
  rw [e]
  generalize i % (2 * n : ℤ) = a at *
  by_cases ha : a < n
  · rw [if_pos ha, if_pos ha, if_pos (by omega)]; omega
  · rw [if_neg ha, if_neg ha, if_neg (by omega)]; omega

theorem sum_range_mirror (n : ℕ) (f : ℕ → K) :
    ((List.range (n + 1)).map f).sum = ((List.range (n + 1)).map fun k => f (n - k)).sum := by
  rw [← List.sum_reverse, ← List.map_reverse]
  congr 1
  apply List.ext_getElem?
  intro i
  by_cases hi : i < n + 1
  · rw [List.getElem?_map, List.getElem?_map, List.getElem?_reverse (by simpa using hi)]
    simp [hi]
  · rw [List.getElem?_eq_none (by simp; omega), List.getElem?_eq_none (by simp; omega)]

/-- **C122**: smoothing does not shift: a trace run backwards gives the smoothed trace run backwards. -/
theorem C122_no_shift (w : ℕ → K) (r : ℕ) (hw : Spec.Weights w r) (x : List K) :
    correlate w r x.reverse = (correlate w r x).reverse := by
  apply List.ext_getElem?
  intro i
  by_cases hi : i < x.length
  · rw [correlate_getElem? w r _ (by simpa using hi),
      List.getElem?_reverse (by rw [correlate_length]; exact hi), correlate_length,
      correlate_getElem? w r x (by omega)]
    congr 1
    unfold correlateAt
    rw [sum_range_mirror]
    congr 1
    apply List.map_congr_left
    intro k hk
    rw [List.mem_range] at hk
    rw [hw.symmetric k (by omega), List.length_reverse,
      List.getElem?_reverse (reflect_lt (by omega) _), ← reflect_mirror (by omega)]
    congr 4
    omega
  · rw [List.getElem?_eq_none (by simp [correlate_length]; omega),
      List.getElem?_eq_none (by simp [correlate_length]; omega)]

/-- **C122**: smoothing keeps order: what is nowhere larger stays nowhere larger. -/
theorem C122_monotone (w : ℕ → K) (r : ℕ) (hw : Spec.Weights w r) (x y : List K) (h : List.Forall₂ (· ≤ ·) x y) :
    List.Forall₂ (· ≤ ·) (correlate w r x) (correlate w r y) := by
  have hlen := h.length_eq
  rw [List.forall₂_iff_get] at h ⊢
  refine ⟨by rw [correlate_length, correlate_length, hlen], ?_⟩
  intro i h1 h2
  rw [correlate_length] at h1 h2
  simp only [correlate, List.get_eq_getElem, List.getElem_map, List.getElem_range]
  unfold correlateAt
  apply List.sum_le_sum
  intro k hk
  rw [List.mem_range] at hk
  rw [← hlen]
  have hl := reflect_lt (by omega : 0 < x.length) ((i : ℤ) + k - r)
  have := h.2 (reflect x.length ((i : ℤ) + k - r)) hl (by omega)
  simp only [List.get_eq_getElem] at this
  apply mul_le_mul_of_nonneg_left _ (hw.nonneg k (by omega))
  rw [List.getElem?_eq_getElem hl, List.getElem?_eq_getElem (by omega)]
  exact this

end General

/-- **C122**: the weights of the Gaussian filter are those of a smoothing filter, for every width and
truncation. -/
theorem C122_gaussian (sigma : ℝ) (r : ℕ) : Spec.Weights (gaussianWeights sigma r) r := by
  have hpos : 0 < ((List.range (2 * r + 1)).map
      (fun j : ℕ => Real.exp (-(1 / 2) / (sigma * sigma) * ((j : ℝ) - r) ^ 2))).sum := by
    apply List.sum_pos
    · intro v hv
      obtain ⟨k, -, rfl⟩ := List.mem_map.mp hv
      exact Real.exp_pos _
    · simp
  refine ⟨?_, ?_, ?_⟩
  · intro k _
    exact div_nonneg (Real.exp_pos _).le hpos.le
  · unfold gaussianWeights
    dsimp only
    set S := ((List.range (2 * r + 1)).map
      (fun j : ℕ => Real.exp (-(1 / 2) / (sigma * sigma) * ((j : ℝ) - r) ^ 2))).sum with hS
    have e : (List.range (2 * r + 1)).map (fun k : ℕ =>
        Real.exp (-(1 / 2) / (sigma * sigma) * (((2 * r - k : ℕ) : ℝ) - r) ^ 2) / S) =
        (List.range (2 * r + 1)).map (fun k : ℕ =>
        Real.exp (-(1 / 2) / (sigma * sigma) * (((2 * r - k : ℕ) : ℝ) - r) ^ 2) * S⁻¹) := by
      simp only [div_eq_mul_inv]
    rw [e, List.sum_map_mul_right, ← sum_range_mirror (2 * r)
      (fun j : ℕ => Real.exp (-(1 / 2) / (sigma * sigma) * ((j : ℝ) - r) ^ 2)), ← hS]
    exact mul_inv_cancel₀ hpos.ne'
  · intro k hk
    unfold gaussianWeights
    dsimp only
    congr 2
    have h1 : 2 * r - (2 * r - k) = k := by omega
    rw [h1, Nat.cast_sub hk]
    push_cast
    ring

/-- **C122**: the weights fall off from the middle: a sample further away counts less. -/
theorem C122_gaussian_falls (sigma : ℝ) (hs : sigma ≠ 0) (r j k : ℕ) (hj : j ≤ 2 * r) (hk : k ≤ 2 * r)
    (h : |(j : ℝ) - r| < |(k : ℝ) - r|) : gaussianWeights sigma r k < gaussianWeights sigma r j := by
  have hpos : 0 < ((List.range (2 * r + 1)).map
      (fun j : ℕ => Real.exp (-(1 / 2) / (sigma * sigma) * ((j : ℝ) - r) ^ 2))).sum := by
    apply List.sum_pos
    · intro v hv
      obtain ⟨k, -, rfl⟩ := List.mem_map.mp hv
      exact Real.exp_pos _
    · simp
  unfold gaussianWeights
  dsimp only
  apply div_lt_div_of_pos_right _ hpos
  rw [Real.exp_lt_exp]
  have h2 : ((j : ℝ) - r) ^ 2 < ((k : ℝ) - r) ^ 2 := sq_lt_sq.mpr h
  have e1 : (((2 * r - k : ℕ) : ℝ) - r) ^ 2 = ((k : ℝ) - r) ^ 2 := by
    rw [Nat.cast_sub hk]; push_cast; ring
  have e2 : (((2 * r - j : ℕ) : ℝ) - r) ^ 2 = ((j : ℝ) - r) ^ 2 := by
    rw [Nat.cast_sub hj]; push_cast; ring
  rw [e1, e2]
  have hc : (-(1 / 2) / (sigma * sigma) : ℝ) < 0 := by
    exact div_neg_of_neg_of_pos (by norm_num) (mul_self_pos.mpr hs)
  exact mul_lt_mul_of_neg_left h2 hc

/-- **C122**: the reach of the filter, in seconds, is `truncate * sigma` to within half a sample. -/
theorem C122_reach (sigma sr truncate : ℚ) (h0 : 0 ≤ truncate) (h1 : 0 ≤ sigma) (h2 : 0 < sr) :
    |(radius sigma sr truncate : ℚ) / sr - truncate * sigma| ≤ 1 / (2 * sr) := by
  have hp : 0 ≤ truncate * (sigma * sr) + 1 / 2 := by positivity
  have e : (radius sigma sr truncate : ℚ) = (⌊truncate * (sigma * sr) + 1 / 2⌋ : ℤ) := by
    unfold radius
    rw [pyInt, if_pos hp]
    have := Int.toNat_of_nonneg (Int.floor_nonneg.mpr hp)
    exact_mod_cast congrArg (Int.cast (R := ℚ)) this
  have f1 := Int.floor_le (truncate * (sigma * sr) + 1 / 2)
  have f2 := Int.lt_floor_add_one (truncate * (sigma * sr) + 1 / 2)
  rw [← e] at f1 f2
  have e2 : (radius sigma sr truncate : ℚ) / sr - truncate * sigma =
      ((radius sigma sr truncate : ℚ) - truncate * (sigma * sr)) / sr := by field_simp
  have e3 : 1 / (2 * sr) = (1 / 2) / sr := by field_simp
  rw [e2, abs_div, abs_of_pos h2, e3]
  apply div_le_div_of_nonneg_right _ h2.le
  rw [abs_le]
  constructor <;> linarith

/-- A case of everything above: weights 1/4, 1/2, 1/4 over a spike at the edge. -/
example : Spec.Weights (K := ℚ) (fun k => if k = 1 then 1 / 2 else 1 / 4) 1 ∧
    correlate (fun k => if k = 1 then (1 / 2 : ℚ) else 1 / 4) 1 [8, 0, 0, 4] = [6, 2, 1, 3] := by
  refine ⟨⟨?_, by decide +kernel, ?_⟩, by decide +kernel⟩
  · intro k _; split <;> norm_num
  · intro k hk
    have : k = 0 ∨ k = 1 ∨ k = 2 := by omega
    rcases this with rfl | rfl | rfl <;> decide +kernel

/-! ## Events around midnight, with smoothing -/

/-- Times at a constant interval `δ`, without gaps. -/
def Spec.Regular (D : List Row) (t0 δ : ℚ) : Prop := ∀ (i : ℕ) (r : Row), D[i]? = some r → r.dt = t0 + i * δ

/-- No run of samples at or above the threshold is longer than `L`: between two sample times, any interval
of this length holds a sample below it. -/
def Spec.RunsWithin (norm : Bool) (t L : ℚ) (D : List Row) : Prop :=
  ∀ x, (∃ r ∈ D, r.dt ≤ x) → (∃ r ∈ D, x + L ≤ r.dt) →
    ∃ r ∈ D, x ≤ r.dt ∧ r.dt ≤ x + L ∧ trigValue norm r < t

theorem across_agree (cfg : Trigger.Cfg) (hmw : 0 ≤ cfg.mw) (t sr sr' : ℚ) (D W W' : List Row)
    (hD : D.Pairwise (fun r s => r.dt < s.dt)) (hW : W.Pairwise (fun r s => r.dt < s.dt))
    (hW' : W'.Pairwise (fun r s => r.dt < s.dt)) {A B L : ℚ} (hL : 0 ≤ L)
    (hag : ∀ r, A ≤ r.dt → r.dt ≤ B → (r ∈ W ↔ r ∈ D)) (hag' : ∀ r, A ≤ r.dt → r.dt ≤ B → (r ∈ W' ↔ r ∈ D))
    (ht : ∀ r ∈ W, ∃ q ∈ D, q.dt = r.dt) (ht' : ∀ r ∈ W', ∃ q ∈ D, q.dt = r.dt)
    (hruns : Spec.RunsWithin cfg.norm t L D)
    {e f : Cand} (he : e ∈ refineCandidates cfg (staticCands cfg t sr W))
    (hf : f ∈ refineCandidates cfg (staticCands cfg t sr' W'))
    (hlt : e.coaTime < f.coaTime) (hle : f.coaTime ≤ e.coaTime + cfg.mei)
    (hae : A + L ≤ e.coaTime) (hfb : f.coaTime + L ≤ B) : False := by
  obtain ⟨ce, hce, p, hp, hep, hcp, htp⟩ := event_peak cfg t sr _ hW he
  obtain ⟨cf, hcf, q, hq, hfq, hcq, htq⟩ := event_peak cfg t sr' _ hW' hf
  have hpD : p ∈ D := (hag p (by linarith) (by linarith)).mp hp.mem
  have hqD : q ∈ D := (hag' q (by linarith) (by linarith)).mp hq.mem
  have hp' : p ∈ W' := (hag' p (by linarith) (by linarith)).mpr hpD
  have hq' : q ∈ W := (hag q (by linarith) (by linarith)).mpr hqD
  have hinj : ∀ x ∈ D, ∀ y ∈ D, x.dt = y.dt → x = y := by
    intro x hx y hy hxy
    rcases pairwise_or hD hx hy with h | h | h
    · exact h
    · linarith
    · linarith
  -- a sample linked to one well inside is inside
  have inside : ∀ V : List Row, (∀ r, A ≤ r.dt → r.dt ≤ B → (r ∈ V ↔ r ∈ D)) →
      (∀ r ∈ V, ∃ q ∈ D, q.dt = r.dt) → ∀ x ∈ D, A + L ≤ x.dt → x.dt + L ≤ B → ∀ u ∈ V,
      Linked cfg.norm t V x u → A ≤ u.dt ∧ u.dt ≤ B := by
    intro V hV hVt x hx hx1 hx2 u hu hl
    constructor
    · by_contra hn
      push Not at hn
      obtain ⟨u', hu', hut⟩ := hVt u hu
      obtain ⟨r, hr, h1, h2, h3⟩ := hruns A ⟨u', hu', by linarith⟩ ⟨x, hx, hx1⟩
      have := hl r ((hV r h1 (by linarith)).mpr hr) (Or.inr (by linarith)) (Or.inl (by linarith))
      linarith
    · by_contra hn
      push Not at hn
      obtain ⟨u', hu', hut⟩ := hVt u hu
      obtain ⟨r, hr, h1, h2, h3⟩ := hruns (B - L) ⟨x, hx, by linarith⟩ ⟨u', hu', by linarith⟩
      have := hl r ((hV r (by linarith) (by linarith)).mpr hr) (Or.inl (by linarith)) (Or.inr (by linarith))
      linarith
  -- the peak of the first event is a peak in the second window
  obtain ⟨c1, hc1, u, hu, hlu, h1, h2⟩ := cand_of_above cfg t sr' _ hW' hp' hp.above
  have hup : u = p := by
    obtain ⟨u1, u2⟩ := inside W' hag' ht' p hpD (by linarith) (by linarith) u hu.mem hlu
    have huD : u ∈ D := (hag' u u1 u2).mp hu.mem
    have huw : u ∈ W := (hag u u1 u2).mpr huD
    have hul : Linked cfg.norm t W p u := by
      intro r hr hr1 hr2
      have b1 : A ≤ r.dt := by rcases hr1 with h | h <;> linarith
      have b2 : r.dt ≤ B := by rcases hr2 with h | h <;> linarith
      exact hlu r ((hag' r b1 b2).mpr ((hag r b1 b2).mp hr)) hr1 hr2
    have hsym : Linked cfg.norm t W' u p := fun r hr hr1 hr2 => hlu r hr hr1.symm hr2.symm
    have h3 := hp.max u huw hul
    have h4 := hu.max p hp' hsym
    rcases lt_trichotomy u.dt p.dt with h | h | h
    · have := hp.first u huw hul h; linarith
    · exact hinj u huD p hpD h
    · have := hu.first p hp' hsym h; linarith
  subst hup
  -- and the other way round
  obtain ⟨c2, hc2, v, hv, hlv, h3, h4⟩ := cand_of_above cfg t sr _ hW hq' hq.above
  have hvq : v = q := by
    obtain ⟨v1, v2⟩ := inside W hag ht q hqD (by linarith) (by linarith) v hv.mem hlv
    have hvD : v ∈ D := (hag v v1 v2).mp hv.mem
    have hvw : v ∈ W' := (hag' v v1 v2).mpr hvD
    have hvl : Linked cfg.norm t W' q v := by
      intro r hr hr1 hr2
      have b1 : A ≤ r.dt := by rcases hr1 with h | h <;> linarith
      have b2 : r.dt ≤ B := by rcases hr2 with h | h <;> linarith
      exact hlv r ((hag r b1 b2).mpr ((hag' r b1 b2).mp hr)) hr1 hr2
    have hsym : Linked cfg.norm t W v q := fun r hr hr1 hr2 => hlv r hr hr1.symm hr2.symm
    have h5 := hq.max v hvw hvl
    have h6 := hv.max q hq' hsym
    rcases lt_trichotomy v.dt q.dt with h | h | h
    · have := hq.first v hvw hvl h; linarith
    · exact hinj v hvD q hqD h
    · have := hv.first q hq' hsym h; linarith
  subst hvq
  have hk1 := (same_group cfg hmw t sr _ hW hce hc2 (by rw [hcp, h3, ← hep, ← hfq]; exact hlt)
    (by rw [hcp, h3, ← hep, ← hfq]; exact hle) he).1 (by rw [hep, hcp])
  have hk2 := (same_group cfg hmw t sr' _ hW' hc1 hcf (by rw [h1, hcq, ← hep, ← hfq]; exact hlt)
    (by rw [h1, hcq, ← hep, ← hfq]; exact hle) hf).2 (by rw [hfq, hcq])
  rw [h4, htp] at hk1
  rw [h2, htq] at hk2
  linarith

theorem smoothCoa_length (w : ℕ → ℚ) (r : ℕ) (D : List Row) : (smoothCoa w r D).length = D.length := by
  simp [smoothCoa]

theorem smoothCoa_getElem? (w : ℕ → ℚ) (r : ℕ) (D : List Row) {i : ℕ} {x : Row} (h : D[i]? = some x) :
    (smoothCoa w r D)[i]? = some { x with
      coa := correlateAt w r (D.map Row.coa) i, coaN := correlateAt w r (D.map Row.coaN) i } := by
  simp [smoothCoa, h]

theorem smoothCoa_getElem?' (w : ℕ → ℚ) (r : ℕ) (D : List Row) {i : ℕ} {y : Row}
    (h : (smoothCoa w r D)[i]? = some y) : ∃ x, D[i]? = some x ∧ y = { x with
      coa := correlateAt w r (D.map Row.coa) i, coaN := correlateAt w r (D.map Row.coaN) i } := by
  have hi : i < D.length := by
    have := (List.getElem?_eq_some_iff.mp h).1
    rwa [smoothCoa_length] at this
  refine ⟨D[i], List.getElem?_eq_getElem hi, ?_⟩
  rw [smoothCoa_getElem? w r D (List.getElem?_eq_getElem hi), Option.some.injEq] at h
  exact h.symm

theorem smoothCoa_sorted (w : ℕ → ℚ) (r : ℕ) (D : List Row) (hD : D.Pairwise (fun r s => r.dt < s.dt)) :
    (smoothCoa w r D).Pairwise (fun r s => r.dt < s.dt) := by
  rw [List.pairwise_iff_getElem] at hD ⊢
  intro i j hi hj hij
  rw [smoothCoa_length] at hi hj
  have := hD i j hi hj hij
  simpa [smoothCoa] using this

/-- The samples of a window are consecutive ones. -/
theorem win_piece (D : List Row) (hD : D.Pairwise (fun r s => r.dt < s.dt)) {a b : ℚ} (hab : a ≤ b) :
    ∃ m k, m + k ≤ D.length ∧ win D a b = (D.drop m).take k ∧ (∀ i x, i < m → D[i]? = some x → x.dt < a) ∧
      (∀ i x, m + k ≤ i → D[i]? = some x → b < x.dt) := by
  have split : ∀ D : List Row, D.Pairwise (fun r s => r.dt < s.dt) →
      D = D.filter (fun r => decide (r.dt < a)) ++ (win D a b ++ D.filter (fun r => decide (b < r.dt))) := by
    intro D
    induction D with
    | nil => intro _; simp
    | cons x D ih =>
      intro h
      rw [List.pairwise_cons] at h
      have hi := ih h.2
      by_cases h1 : x.dt < a
      · have h2 : ¬ (a ≤ x.dt ∧ x.dt ≤ b) := fun h => by linarith [h.1]
        have h3 : ¬ b < x.dt := by linarith
        simp only [win, List.filter_cons, h1, h2, h3, decide_true, decide_false, if_true,
          Bool.false_eq_true, if_false, List.cons_append]
        congr 1
      · have e1 : (x :: D).filter (fun r => decide (r.dt < a)) = [] := by
          rw [List.filter_eq_nil_iff]
          intro y hy
          rcases List.mem_cons.mp hy with rfl | hy
          · simpa using h1
          · have := h.1 y hy
            push Not at h1
            simp only [decide_eq_true_eq, not_lt]
            linarith
        have e1' : D.filter (fun r => decide (r.dt < a)) = [] := by
          rw [List.filter_cons] at e1
          split at e1
          · simp at e1
          · exact e1
        rw [e1', List.nil_append] at hi
        rw [e1, List.nil_append]
        by_cases h2 : x.dt ≤ b
        · have h3 : (a ≤ x.dt ∧ x.dt ≤ b) := ⟨by linarith, h2⟩
          have h4 : ¬ b < x.dt := by linarith
          simp only [win, List.filter_cons, h3, h4, decide_true, decide_false, if_true,
            Bool.false_eq_true, if_false, List.cons_append, and_self]
          congr 1
        · have e2 : win (x :: D) a b = [] := by
            rw [List.filter_eq_nil_iff]
            intro y hy
            rcases List.mem_cons.mp hy with rfl | hy
            · simp [h2]
            · have := h.1 y hy
              push Not at h2
              simp only [decide_eq_true_eq, not_and, not_le]
              intro; linarith
          rw [e2, List.nil_append]
          symm
          rw [List.filter_eq_self]
          intro y hy
          push Not at h2
          rcases List.mem_cons.mp hy with rfl | hy
          · simpa using h2
          · have := h.1 y hy
            simp only [decide_eq_true_eq]
            linarith
  have hs := split D hD
  set P := D.filter (fun r => decide (r.dt < a)) with hP
  set Q := D.filter (fun r => decide (b < r.dt)) with hQ
  have hlen : D.length = P.length + ((win D a b).length + Q.length) := by
    conv_lhs => rw [hs]
    simp
  refine ⟨P.length, (win D a b).length, by omega, ?_, ?_, ?_⟩
  · have h1 : D.drop P.length = win D a b ++ Q := by
      have := congrArg (List.drop P.length) hs
      rwa [List.drop_left] at this
    rw [h1, List.take_left]
  · intro i x hi hx
    rw [hs, List.getElem?_append_left hi] at hx
    have := List.mem_of_getElem? hx
    rw [hP, List.mem_filter] at this
    simpa using this.2
  · intro i x hi hx
    rw [hs, List.getElem?_append_right (by omega), List.getElem?_append_right (by omega)] at hx
    have := List.mem_of_getElem? hx
    rw [hQ, List.mem_filter] at this
    simpa using this.2

theorem regular_sorted {D : List Row} {t0 δ : ℚ} (hδ : 0 < δ) (hD : Spec.Regular D t0 δ) :
    D.Pairwise (fun r s => r.dt < s.dt) := by
  rw [List.pairwise_iff_getElem]
  intro i j hi hj hij
  rw [hD i _ (List.getElem?_eq_getElem hi), hD j _ (List.getElem?_eq_getElem hj)]
  have : (i : ℚ) < j := by exact_mod_cast hij
  nlinarith

/-- Away from the ends of a window, smoothing the window gives what smoothing the whole record gives. -/
theorem smooth_agree (w : ℕ → ℚ) (r : ℕ) (D : List Row) {t0 δ : ℚ} (hδ : 0 < δ) (hD : Spec.Regular D t0 δ)
    {a b : ℚ} (hab : a ≤ b) (y : Row) (h1 : a + r * δ ≤ y.dt) (h2 : y.dt ≤ b - r * δ) :
    y ∈ smoothCoa w r (win D a b) ↔ y ∈ smoothCoa w r D := by
  obtain ⟨m, k, hmk, hwin, hlo, hhi⟩ := win_piece D (regular_sorted hδ hD) hab
  have hrδ : 0 ≤ (r : ℚ) * δ := by positivity
  rw [hwin]
  -- the value at sample `i` of the piece
  have val : ∀ i x, D[m + i]? = some x → i < k → a + r * δ ≤ x.dt → x.dt ≤ b - r * δ →
      (smoothCoa w r ((D.drop m).take k))[i]? = (smoothCoa w r D)[m + i]? := by
    intro i x hx hi h1 h2
    have hxp : ((D.drop m).take k)[i]? = some x := by
      rw [List.getElem?_take, if_pos hi, List.getElem?_drop, hx]
    have hl : r ≤ i ∨ m = 0 := by
      rcases Nat.eq_zero_or_pos m with h | h
      · exact Or.inr h
      · left
        have hlt : m - 1 < D.length := by omega
        have h3 := hlo (m - 1) _ (by omega) (List.getElem?_eq_getElem hlt)
        rw [hD (m - 1) _ (List.getElem?_eq_getElem hlt)] at h3
        rw [hD (m + i) _ hx] at h1
        rw [Nat.cast_sub h] at h3
        push_cast at h1 h3
        by_contra hn
        have : (i : ℚ) + 1 ≤ r := by exact_mod_cast (by omega : i + 1 ≤ r)
        nlinarith
    have hr : i + r < k ∨ m + k = D.length := by
      rcases Nat.lt_or_ge (m + k) D.length with h | h
      · left
        have h3 := hhi (m + k) _ le_rfl (List.getElem?_eq_getElem h)
        rw [hD (m + k) _ (List.getElem?_eq_getElem h)] at h3
        rw [hD (m + i) _ hx] at h2
        push_cast at h2 h3
        by_contra hn
        have : (k : ℚ) ≤ i + r := by exact_mod_cast (by omega : k ≤ i + r)
        nlinarith
      · right; omega
    rw [smoothCoa_getElem? w r _ hxp, smoothCoa_getElem? w r _ hx]
    have e : ∀ f : Row → ℚ, correlateAt w r (((D.drop m).take k).map f) i = correlateAt w r (D.map f) (m + i) := by
      intro f
      rw [List.map_take, List.map_drop]
      exact correlateAt_local w r (D.map f) m k i (by simpa using hmk) hi hl (by simpa using hr)
    rw [e, e]
  constructor
  · intro hy
    obtain ⟨i, hi⟩ := List.mem_iff_getElem?.mp hy
    obtain ⟨x, hx, hxy⟩ := smoothCoa_getElem?' w r _ hi
    have hik : i < k := by
      have := (List.getElem?_eq_some_iff.mp hx).1
      rw [List.length_take] at this
      omega
    rw [List.getElem?_take, if_pos hik, List.getElem?_drop] at hx
    have hdt : x.dt = y.dt := by rw [hxy]
    rw [val i x hx hik (by rw [hdt]; exact h1) (by rw [hdt]; exact h2)] at hi
    exact List.mem_of_getElem? hi
  · intro hy
    obtain ⟨j, hj⟩ := List.mem_iff_getElem?.mp hy
    obtain ⟨x, hx, hxy⟩ := smoothCoa_getElem?' w r _ hj
    have hdt : x.dt = y.dt := by rw [hxy]
    have hjm : m ≤ j := by
      by_contra hn
      have := hlo j x (by omega) hx
      linarith
    have hjk : j < m + k := by
      by_contra hn
      have := hhi j x (by omega) hx
      linarith
    obtain ⟨i, rfl⟩ : ∃ i, j = m + i := ⟨j - m, by omega⟩
    rw [← val i x hx (by omega) (by rw [hdt]; exact h1) (by rw [hdt]; exact h2)] at hj
    exact List.mem_of_getElem? hj

theorem exists_bound {t : ℚ} (l : List ℚ) (h : ∀ v ∈ l, v < t) : ∃ b < t, ∀ v ∈ l, v ≤ b := by
  induction l with
  | nil => exact ⟨t - 1, by linarith, by simp⟩
  | cons a l ih =>
    obtain ⟨b, hb, h2⟩ := ih (fun v hv => h v (by simp [hv]))
    have ha := h a (by simp)
    rcases le_total a b with hab | hab
    · exact ⟨b, hb, by intro v hv; rcases List.mem_cons.mp hv with rfl | hv; exacts [hab, h2 v hv]⟩
    · exact ⟨a, ha, by intro v hv; rcases List.mem_cons.mp hv with rfl | hv; exacts [le_rfl, (h2 v hv).trans hab]⟩

/-- A smoothed value reaches `t` only if some sample at most `r` samples away does. -/
theorem reaches (w : ℕ → ℚ) (r : ℕ) (hw : Spec.Weights w r) (x : List ℚ) (i : ℕ) (hi : i < x.length) (t : ℚ)
    (h : t ≤ correlateAt w r x i) : ∃ j v, i ≤ j + r ∧ j ≤ i + r ∧ x[j]? = some v ∧ t ≤ v := by
  by_contra hn
  push Not at hn
  obtain ⟨b, hb, hle⟩ := exists_bound (t := t)
    ((x.zipIdx.filter fun p => decide (i ≤ p.2 + r ∧ p.2 ≤ i + r)).map Prod.fst) (by
      intro v hv
      obtain ⟨⟨v', j⟩, hp, rfl⟩ := List.mem_map.mp hv
      rw [List.mem_filter] at hp
      have := hp.2
      simp only [decide_eq_true_eq] at this
      exact hn j v' this.1 this.2 (List.mk_mem_zipIdx_iff_getElem?.mp hp.1))
  obtain ⟨c, hc, hle'⟩ := exists_bound (t := 1 + (x.map fun v => |v|).sum) (x.map fun v => - v) (by
    intro v hv
    obtain ⟨u, hu, rfl⟩ := List.mem_map.mp hv
    have := List.single_le_sum (l := x.map fun v => |v|) (by simp) |u| (List.mem_map.mpr ⟨u, hu, rfl⟩)
    have := neg_le_abs u
    linarith)
  obtain ⟨y, hy, -, h2⟩ := C122_between w r hw x i hi (-c) b
    (fun j v _ _ hv => by
      have := hle' (-v) (List.mem_map.mpr ⟨v, List.mem_of_getElem? hv, rfl⟩)
      linarith)
    (fun j v h1 h2 hv => hle v (List.mem_map.mpr ⟨(v, j), by
      rw [List.mem_filter]
      exact ⟨List.mk_mem_zipIdx_iff_getElem?.mpr hv, by simp [h1, h2]⟩, rfl⟩))
  rw [correlate_getElem? w r x hi, Option.some.injEq] at hy
  linarith

/-- **C122**, for triggering with a static threshold: every event comes from the data themselves.  Some
sample read for the batch, at most the reach of the filter from the time of the event, was at or above the
threshold before smoothing. -/
theorem C122_event_from_data (cfg : Trigger.Cfg) (t : ℚ) (w : ℕ → ℚ) (r : ℕ) (hw : Spec.Weights w r)
    (region : Option Region) (a b : ℚ) (sd : ScanData) (t0 δ : ℚ) (hδ : 0 < δ)
    (hD : Spec.Regular sd.rows t0 δ) (e : Cand)
    (he : e ∈ (triggerBatch cfg (.static t) (smoothCoa w r) region a b sd).1) :
    ∃ x ∈ sd.rows, t ≤ trigValue cfg.norm x ∧ |x.dt - e.coaTime| ≤ r * δ := by
  rw [mem_triggerBatch] at he
  obtain ⟨p, hp, hpt⟩ : ∃ p, PeakIn cfg.norm t (smoothCoa w r sd.rows) p ∧ e.coaTime = p.dt := by
    obtain ⟨-, -, p, h1, h2, -⟩ := event_peak cfg t sd.sr _ (smoothCoa_sorted w r _ (regular_sorted hδ hD)) he.1
    exact ⟨p, h1, h2⟩
  obtain ⟨i, hi⟩ := List.mem_iff_getElem?.mp hp.mem
  obtain ⟨z, hz, hzp⟩ := smoothCoa_getElem?' w r _ hi
  have hil := (List.getElem?_eq_some_iff.mp hz).1
  have key : ∀ f : Row → ℚ, t ≤ correlateAt w r (sd.rows.map f) i →
      ∃ x ∈ sd.rows, t ≤ f x ∧ |x.dt - e.coaTime| ≤ r * δ := by
    intro f hf
    obtain ⟨j, v, h1, h2, h3, h4⟩ := reaches w r hw _ i (by simpa using hil) t hf
    rw [List.getElem?_map, Option.map_eq_some_iff] at h3
    obtain ⟨x, hx, rfl⟩ := h3
    refine ⟨x, List.mem_of_getElem? hx, h4, ?_⟩
    have hzt : p.dt = z.dt := by rw [hzp]
    rw [hpt, hzt, hD j x hx, hD i z hz]
    have q1 : (i : ℚ) ≤ j + r := by exact_mod_cast h1
    have q2 : (j : ℚ) ≤ i + r := by exact_mod_cast h2
    rw [abs_le]
    constructor <;> nlinarith
  have habove := hp.above
  rw [hzp] at habove
  unfold trigValue at habove ⊢
  cases hn : cfg.norm
  · rw [hn] at habove
    exact key Row.coa habove
  · rw [hn] at habove
    exact key Row.coaN habove

/-- **C110** (partial), with smoothing: for a record without gaps, a static threshold, and a pad of at least
the minimum event interval, the reach of the smoothing and the longest run of smoothed values at or above
the threshold, any two events of a whole trigger run differ in time by more than the minimum event
interval.  Missing: other thresholds and shorter pads. -/
theorem C110_smoothed_partial (cfg : Trigger.Cfg) (hmw : 0 ≤ cfg.mw) (t : ℚ)
    (region : Option Region) (w : ℕ → ℚ) (r : ℕ) (D : List Row) (t0 δ : ℚ) (hδ : 0 < δ)
    (hD : Spec.Regular D t0 δ) (L : ℚ) (hL : 0 ≤ L)
    (hruns : Spec.RunsWithin cfg.norm t L (smoothCoa w r D)) (pad : ℚ) (hpad : cfg.mei + r * δ + L ≤ pad)
    (read : ℚ → ℚ → Option ScanData) (hread : Spec.ReadsFrom D pad read) (s e : ℚ) (hse : s ≤ e) :
    ((trigger cfg (.static t) (smoothCoa w r) region read s e).1.flatMap Prod.snd).Pairwise
      (fun x y => x.coaTime + cfg.mei < y.coaTime) := by
  have hDs := regular_sorted hδ hD
  obtain ⟨hpw, -⟩ := C13_no_event_twice cfg (.static t) (smoothCoa w r) region read s e hse
    (fun a b sd h => (hread a b sd h).2)
  obtain ⟨bs, hbs, hpre, -, -⟩ := C07_batches_partition cfg (.static t) (smoothCoa w r) region read s e hse
  have hord : bs.Pairwise (fun b c => b.1 ≤ c.1 ∧ b.2 ≤ c.1 ∧ b.1 < b.2 ∧ c.1 < c.2) := by
    have htr : IsTrans (ℚ × ℚ) (fun b c => b.1 ≤ c.1 ∧ b.2 ≤ c.1 ∧ b.1 < b.2 ∧ c.1 < c.2) :=
      ⟨fun a b c h1 h2 => ⟨by linarith [h1.1, h2.1], by linarith [h1.2.1, h2.1], h1.2.2.1,
        h2.2.2.2⟩⟩
    refine List.isChain_iff_pairwise.mp (hbs.consecutive.imp_of_mem_imp ?_)
    intro x y hx hy hxy
    have := hbs.nonempty x hx
    exact ⟨by linarith, hxy.le, this, hbs.nonempty y hy⟩
  have hord' := hord.sublist hpre.sublist
  have hev : ∀ p ∈ (trigger cfg (.static t) (smoothCoa w r) region read s e).1,
      ∃ sd, read p.1.1 p.1.2 = some sd ∧
        p.2 = (triggerBatch cfg (.static t) (smoothCoa w r) region p.1.1 p.1.2 sd).1 := by
    unfold trigger
    rw [if_neg (not_lt.mpr hse)]
    exact (runBatches_prefix cfg (.static t) (smoothCoa w r) region read (batches s e)).2.2.2
  have hrδ : 0 ≤ (r : ℚ) * δ := by positivity
  have htimes : ∀ a b x, x ∈ smoothCoa w r (win D a b) → ∃ q ∈ smoothCoa w r D, q.dt = x.dt := by
    intro a b x hx
    obtain ⟨i, hi⟩ := List.mem_iff_getElem?.mp hx
    obtain ⟨z, hz, hzx⟩ := smoothCoa_getElem?' w r _ hi
    obtain ⟨j, hj⟩ := List.mem_iff_getElem?.mp (mem_win.mp (List.mem_of_getElem? hz)).1
    exact ⟨_, List.mem_of_getElem? (smoothCoa_getElem? w r D hj), by rw [hzx]⟩
  generalize (trigger cfg (.static t) (smoothCoa w r) region read s e).1 = res at *
  rw [List.pairwise_map] at hord'
  rw [List.pairwise_flatMap]
  constructor
  · intro p hp
    obtain ⟨sd, h1, h2⟩ := hev p hp
    rw [h2]
    refine C10_reported_events_separated cfg (.static t) (smoothCoa w r) region _ _ sd hmw ?_
    rw [(hread _ _ _ h1).1]
    exact smoothCoa_sorted w r _ (hDs.sublist List.filter_sublist)
  · refine List.Pairwise.imp_of_mem ?_ (hpw.and hord')
    rintro p q hp hq ⟨hlt, -, h12, h1, h2⟩ x hx y hy
    have hxy := hlt x hx y hy
    by_contra hn
    push Not at hn
    obtain ⟨sd, hr, he⟩ := hev p hp
    obtain ⟨sd', hr', he'⟩ := hev q hq
    rw [he, mem_triggerBatch] at hx
    rw [he', mem_triggerBatch] at hy
    obtain ⟨hx1, hx2, hx3, -⟩ := hx
    obtain ⟨hy1, hy2, hy3, -⟩ := hy
    obtain ⟨hsd, hδ1⟩ := hread _ _ _ hr
    obtain ⟨hsd', hδ2⟩ := hread _ _ _ hr'
    simp only [hsd] at hx1
    simp only [hsd'] at hy1
    have hx4 : x.coaTime ≤ p.1.2 := by split at hx3 <;> linarith
    refine across_agree cfg hmw t sd.sr sd'.sr (smoothCoa w r D) _ _ (smoothCoa_sorted w r _ hDs)
      (smoothCoa_sorted w r _ (hDs.sublist List.filter_sublist))
      (smoothCoa_sorted w r _ (hDs.sublist List.filter_sublist))
      (A := q.1.1 - pad + r * δ) (B := p.1.2 + pad - r * δ) hL ?_ ?_ (htimes _ _) (htimes _ _) hruns
      hx1 hy1 hxy hn (by linarith) (by linarith)
    · intro z hz1 hz2
      exact smooth_agree w r D hδ hD (by linarith) z (by linarith) (by linarith)
    · intro z hz1 hz2
      exact smooth_agree w r D hδ hD (by linarith) z (by linarith) (by linarith)

/-- An earthquake at midnight, a background of 1, one sample a second. -/
def spikeScan : List Row :=
  (List.range 41).map fun i : ℕ =>
    if i = 20 then ⟨86400, 9, 9, 0, 0, 0⟩ else ⟨86380 + i, 1, 1, 0, 0, 0⟩

/-- The hypotheses of `C110_smoothed_partial` are met, with weights 1/4, 1/2, 1/4 (reach one second), a
threshold of 2, runs of less than four seconds, and a pad of seven seconds; the run gives one event. -/
example : Spec.Regular spikeScan 86380 1 ∧
    Spec.RunsWithin true 2 4 (smoothCoa (fun k => if k = 1 then 1 / 2 else 1 / 4) 1 spikeScan) ∧
    Spec.ReadsFrom spikeScan 7 (readScan spikeScan 7) ∧
    ((trigger ⟨1, 2, true⟩ (.static 2) (smoothCoa (fun k => if k = 1 then 1 / 2 else 1 / 4) 1) none
      (readScan spikeScan 7) 86390 86410).1.flatMap Prod.snd).map Cand.coaTime = [86400] := by
  refine ⟨?_, ?_, readScan_reads _ _, ?_⟩
  · intro i r h
    have hi := (List.getElem?_eq_some_iff.mp h).1
    simp only [spikeScan, List.length_map, List.length_range] at hi
    simp only [spikeScan, List.getElem?_map, List.getElem?_range hi, Option.map_some,
      Option.some.injEq] at h
    rw [← h]
    split
    · subst i; norm_num
    · ring
  · intro x ⟨r, hr, h1⟩ ⟨q, hq, h2⟩
    have hlow : ∀ i < 41, (i = 19 ∨ i = 20 ∨ i = 21) ∨
        ∃ r ∈ smoothCoa (fun k => if k = 1 then 1 / 2 else 1 / 4) 1 spikeScan,
          r.dt = 86380 + (i : ℕ) ∧ trigValue true r < 2 := by decide +kernel
    have hr0 : ∀ r ∈ smoothCoa (fun k => if k = 1 then 1 / 2 else 1 / 4) 1 spikeScan,
        86380 ≤ r.dt ∧ r.dt ≤ 86420 := by decide +kernel
    have hx1 := (hr0 r hr).1
    have hx2 := (hr0 q hq).2
    obtain ⟨i, hi⟩ : ∃ i : ℕ, ⌈x⌉ = 86380 + i :=
      ⟨(⌈x⌉ - 86380).toNat, by
        have : (86380 : ℤ) ≤ ⌈x⌉ := by
          have : (86380 : ℚ) ≤ ⌈x⌉ := le_trans (by linarith) (Int.le_ceil x)
          exact_mod_cast this
        omega⟩
    have c1 := Int.le_ceil x
    have c2 := Int.ceil_lt_add_one x
    rw [hi] at c1 c2
    push_cast at c1 c2
    have hi2 : i < 37 := by
      have : (i : ℚ) < 37 := by linarith
      exact_mod_cast this
    rcases hlow i (by omega) with h | ⟨y, hy, h3, h4⟩
    · rcases hlow 22 (by norm_num) with h' | ⟨y, hy, h3, h4⟩
      · omega
      · push_cast at h3
        have g1 : (i : ℚ) ≤ 21 := by exact_mod_cast (by omega : i ≤ 21)
        have g2 : (19 : ℚ) ≤ i := by exact_mod_cast (by omega : 19 ≤ i)
        exact ⟨y, hy, by linarith, by linarith, h4⟩
    · exact ⟨y, hy, by linarith, by linarith, h4⟩
  · unfold trigger
    rw [if_neg (by norm_num), two_batches]
    simp only [runBatches, readScan]
    decide +kernel

end QM

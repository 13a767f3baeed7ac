import Verif.Model.WoodAnderson
import Mathlib.Analysis.SpecialFunctions.ExpDeriv
import Mathlib.Analysis.Real.Pi.Bounds
import Mathlib.Analysis.SpecialFunctions.Sqrt
import Mathlib.Tactic.FieldSimp

/-!
# C193: the Wood-Anderson seismograph
-/

namespace QM
open QM.WoodAnderson Complex

/-! ## Specification -/

/-- A harmonic motion of amplitude `a` and angular frequency `w`. -/
noncomputable def Spec.harmonic (a : ℂ) (w : ℝ) (t : ℝ) : ℂ := a * Complex.exp (I * w * t)

/-- The equation of motion of a damped seismometer with period `T`, damping `h` and magnification `V`: ground
displacement `u`, trace `x`. -/
def Spec.Seismometer (T h V : ℝ) (u x : ℝ → ℂ) : Prop :=
  ∀ t, deriv (deriv x) t + (2 * h * (2 * Real.pi / T) : ℝ) * deriv x t + ((2 * Real.pi / T) ^ 2 : ℝ) * x t =
    V * deriv (deriv u) t

/-! ## Proof -/

private theorem d1 (a : ℂ) (w : ℝ) : deriv (Spec.harmonic a w) = Spec.harmonic (a * (I * w)) w := by
  funext t
  have h1 : HasDerivAt (fun t : ℝ => I * w * (t : ℂ)) (I * w) t := by
    simpa using ((hasDerivAt_id (t : ℂ)).comp_ofReal).const_mul (I * w)
  have h2 := (h1.cexp).const_mul a
  have h3 : deriv (fun t : ℝ => a * Complex.exp (I * w * t)) t = a * (Complex.exp (I * w * t) * (I * w)) := h2.deriv
  change deriv (fun t : ℝ => a * Complex.exp (I * w * t)) t = _
  rw [h3]
  unfold Spec.harmonic
  ring

/-- Decay rate and frequency of the free oscillation. -/
private noncomputable def ab : Bool → ℝ × ℝ
  | true => (6283185 / 1000000, 4712 / 1000)
  | false => (549779 / 100000, 560886 / 100000)

private theorem resp (o : Bool) (s : ℂ) :
    (waResponse .dis2dis o).response s = 2080 * s ^ 2 / ((s + (ab o).1) ^ 2 + ((ab o).2 : ℂ) ^ 2) ∧
    (waResponse .vel2vel o).response s = 2080 * s ^ 2 / ((s + (ab o).1) ^ 2 + ((ab o).2 : ℂ) ^ 2) ∧
    (waResponse .vel2dis o).response s = 2080 * s / ((s + (ab o).1) ^ 2 + ((ab o).2 : ℂ) ^ 2) := by
  have hI : I ^ 2 = -1 := I_sq
  have mk : ∀ a b : ℝ, (⟨a, b⟩ : ℂ) = a + b * I := fun a b => Complex.mk_eq_add_mul_I a b
  cases o
  · have e : (s - (⟨-549779 / 100000, 560886 / 100000⟩ : ℂ)) * (s - (⟨-549779 / 100000, -560886 / 100000⟩ : ℂ)) =
        (s + ((549779 / 100000 : ℝ) : ℂ)) ^ 2 + (((560886 / 100000 : ℝ)) : ℂ) ^ 2 := by
      rw [mk, mk]
      push_cast
      linear_combination (-(560886 / 100000) ^ 2 : ℂ) * hI
    simp only [waResponse, Paz.response, ab, Bool.false_eq_true, if_false, List.cons_append, List.nil_append, List.map_cons,
      List.map_nil, List.prod_cons, List.prod_nil, mul_one, sub_zero, e]
    refine ⟨?_, ?_, ?_⟩ <;> push_cast <;> ring
  · have e : (s - (⟨-6283185 / 1000000, -4712 / 1000⟩ : ℂ)) * (s - (⟨-6283185 / 1000000, 4712 / 1000⟩ : ℂ)) =
        (s + ((6283185 / 1000000 : ℝ) : ℂ)) ^ 2 + (((4712 / 1000 : ℝ)) : ℂ) ^ 2 := by
      rw [mk, mk]
      push_cast
      linear_combination (-(4712 / 1000) ^ 2 : ℂ) * hI
    simp only [waResponse, Paz.response, ab, if_true, List.cons_append, List.nil_append, List.map_cons,
      List.map_nil, List.prod_cons, List.prod_nil, mul_one, sub_zero, e]
    refine ⟨?_, ?_, ?_⟩ <;> push_cast <;> ring

private theorem ab_pos (o : Bool) : 0 < (ab o).1 ∧ 0 < (ab o).2 := by
  cases o <;> simp only [ab] <;> norm_num

private theorem den_ne (o : Bool) (w : ℝ) : (I * w + (ab o).1) ^ 2 + ((ab o).2 : ℂ) ^ 2 ≠ 0 := by
  intro h
  obtain ⟨ha, hb⟩ := ab_pos o
  have e : (I * w + (ab o).1) ^ 2 + ((ab o).2 : ℂ) ^ 2 =
      (((ab o).1 ^ 2 + (ab o).2 ^ 2 - w ^ 2 : ℝ) : ℂ) + ((2 * (ab o).1 * w : ℝ) : ℂ) * I := by
    push_cast
    linear_combination (w ^ 2 : ℂ) * I_sq
  rw [e, ← Complex.mk_eq_add_mul_I] at h
  have h1 := congrArg Complex.re h
  have h2 := congrArg Complex.im h
  simp only [Complex.zero_re, Complex.zero_im] at h1 h2
  have hw : w = 0 := by
    rcases mul_eq_zero.1 h2 with h3 | h3
    · linarith
    · exact h3
  rw [hw] at h1
  nlinarith [sq_nonneg (ab o).2, mul_pos ha ha]

/-- C193: for ground displacement of any frequency, the trace of `wa_response` is a motion of a seismometer of
magnification 2080, with a period of 0.8 s and a damping of 0.8 (0.7 with `obspy_def=False`) within 0.0001. -/
theorem C193_seismometer (o : Bool) : ∃ T h : ℝ, |T - 8 / 10| < 1 / 10000 ∧
    |h - (if o then 8 / 10 else 7 / 10)| < 1 / 10000 ∧
    ∀ (w : ℝ) (a : ℂ), Spec.Seismometer T h 2080 (Spec.harmonic a w)
      (Spec.harmonic (a * (waResponse .dis2dis o).response (I * w)) w) := by
  obtain ⟨ha, hb⟩ := ab_pos o
  set k : ℝ := (ab o).1 ^ 2 + (ab o).2 ^ 2 with hk
  have hk0 : 0 < k := by positivity
  have hs : 0 < √k := Real.sqrt_pos.2 hk0
  have hpi := Real.pi_pos
  have e1 : 2 * Real.pi / (2 * Real.pi / √k) = √k := by field_simp
  refine ⟨2 * Real.pi / √k, (ab o).1 / √k, ?_, ?_, ?_⟩
  · have p1 := Real.pi_gt_d6
    have p2 := Real.pi_lt_d6
    have b1 : (78535 / 10000 : ℝ) < √k ∧ √k < 78545 / 10000 := by
      constructor
      · refine Real.lt_sqrt_of_sq_lt ?_
        rw [hk]; cases o <;> simp only [ab] <;> norm_num
      · rw [Real.sqrt_lt' (by norm_num), hk]
        cases o <;> simp only [ab] <;> norm_num
    rw [abs_lt, lt_sub_iff_add_lt, sub_lt_iff_lt_add, lt_div_iff₀ hs, div_lt_iff₀ hs]
    constructor <;> nlinarith [b1.1, b1.2]
  · have b1 : (78535 / 10000 : ℝ) < √k ∧ √k < 78545 / 10000 := by
      constructor
      · refine Real.lt_sqrt_of_sq_lt ?_
        rw [hk]; cases o <;> simp only [ab] <;> norm_num
      · rw [Real.sqrt_lt' (by norm_num), hk]
        cases o <;> simp only [ab] <;> norm_num
    rw [abs_lt, lt_sub_iff_add_lt, sub_lt_iff_lt_add, lt_div_iff₀ hs, div_lt_iff₀ hs]
    cases o <;> simp only [ab, if_true, Bool.false_eq_true, if_false] <;> constructor <;> nlinarith [b1.1, b1.2]
  · intro w a t
    rw [e1, Real.sq_sqrt hk0.le, d1, d1, d1, d1]
    have e2 : 2 * ((ab o).1 / √k) * √k = 2 * (ab o).1 := by field_simp
    rw [e2, (resp o _).1]
    unfold Spec.harmonic
    have hd := den_ne o w
    rw [hk]
    push_cast
    field_simp
    linear_combination (0 : ℂ) * I_sq

/-- C193: the trace for ground velocity with `VEL2DIS` is that for the displacement with `DIS2DIS`. -/
theorem C193_velocity (o : Bool) (w : ℝ) (u : ℂ) :
    u * (I * w) * (waResponse .vel2dis o).response (I * w) = u * (waResponse .dis2dis o).response (I * w) ∧
    (waResponse .vel2vel o).response (I * w) = (waResponse .dis2dis o).response (I * w) := by
  obtain ⟨h1, h2, h3⟩ := resp o (I * w)
  rw [h1, h2, h3]
  exact ⟨by ring, rfl⟩

/-- C193: real ground motion gives a real trace (the responses at opposite frequencies are conjugate), and free
oscillations die out. -/
theorem C193_real_stable (c : Convert) (o : Bool) :
    (∀ w : ℝ, (waResponse c o).response (I * (-w : ℝ)) = (starRingEnd ℂ) ((waResponse c o).response (I * w))) ∧
    ∀ p ∈ (waResponse c o).poles, p.re < 0 := by
  constructor
  · intro w
    obtain ⟨h1, h2, h3⟩ := resp o (I * w)
    obtain ⟨h1', h2', h3'⟩ := resp o (I * (-w : ℝ))
    have hn : (starRingEnd ℂ) 2080 = 2080 := map_ofNat (starRingEnd ℂ) 2080
    cases c
    · rw [h1, h1']; simp [hn]
    · rw [h2, h2']; simp [hn]
    · rw [h3, h3']; simp [hn]
  · intro p hp
    cases c <;> cases o <;> simp only [waResponse, if_true, Bool.false_eq_true, if_false, List.mem_cons,
      List.not_mem_nil, or_false] at hp <;> rcases hp with rfl | rfl <;> norm_num

private theorem normSq_resp (o : Bool) (w : ℝ) : ‖(waResponse .dis2dis o).response (I * w)‖ ^ 2 =
    2080 ^ 2 * (w ^ 2) ^ 2 / ((w ^ 2) ^ 2 + 2 * ((ab o).1 ^ 2 - (ab o).2 ^ 2) * w ^ 2 + ((ab o).1 ^ 2 + (ab o).2 ^ 2) ^ 2) := by
  rw [(resp o _).1, ← Complex.normSq_eq_norm_sq, map_div₀]
  have e : (I * w + (ab o).1) ^ 2 + ((ab o).2 : ℂ) ^ 2 =
      (((ab o).1 ^ 2 + (ab o).2 ^ 2 - w ^ 2 : ℝ) : ℂ) + ((2 * (ab o).1 * w : ℝ) : ℂ) * I := by
    push_cast
    linear_combination (w ^ 2 : ℂ) * I_sq
  rw [e, Complex.normSq_add_mul_I]
  have e2 : (2080 : ℂ) * (I * w) ^ 2 = ((-2080 * w ^ 2 : ℝ) : ℂ) := by
    push_cast
    linear_combination (2080 * w ^ 2 : ℂ) * I_sq
  rw [e2, Complex.normSq_ofReal]
  congr 1 <;> ring

/-- C193: with the definition in use, the magnification grows with the frequency and stays below 2080, which it
approaches: at angular frequencies above 8000 / s it is 2079 at least. -/
theorem C193_magnification :
    (∀ w : ℝ, ‖(waResponse .dis2dis true).response (I * w)‖ < 2080) ∧
    (∀ w w' : ℝ, 0 ≤ w → w ≤ w' →
      ‖(waResponse .dis2dis true).response (I * w)‖ ≤ ‖(waResponse .dis2dis true).response (I * w')‖) ∧
    ∀ w : ℝ, 8000 ≤ w → 2079 ≤ ‖(waResponse .dis2dis true).response (I * w)‖ := by
  have hc : (0 : ℝ) < 2 * ((ab true).1 ^ 2 - (ab true).2 ^ 2) := by simp only [ab]; norm_num
  have hd : (0 : ℝ) < ((ab true).1 ^ 2 + (ab true).2 ^ 2) ^ 2 := by simp only [ab]; norm_num
  have hcu : 2 * ((ab true).1 ^ 2 - (ab true).2 ^ 2) < 40 := by simp only [ab]; norm_num
  have hdu : ((ab true).1 ^ 2 + (ab true).2 ^ 2) ^ 2 < 4000 := by simp only [ab]; norm_num
  have N := normSq_resp true
  generalize 2 * ((ab true).1 ^ 2 - (ab true).2 ^ 2) = c at N hc hcu
  generalize ((ab true).1 ^ 2 + (ab true).2 ^ 2) ^ 2 = d at N hd hdu
  have pos : ∀ x : ℝ, 0 ≤ x → 0 < x ^ 2 + c * x + d := fun x hx => by positivity
  refine ⟨?_, ?_, ?_⟩
  · intro w
    refine lt_of_pow_lt_pow_left₀ 2 (by norm_num) ?_
    rw [N, div_lt_iff₀ (pos _ (sq_nonneg w))]
    nlinarith [sq_nonneg w, mul_nonneg hc.le (sq_nonneg w)]
  · intro w w' h0 h
    refine le_of_sq_le_sq ?_ (norm_nonneg _)
    rw [N, N, div_le_div_iff₀ (pos _ (sq_nonneg w)) (pos _ (sq_nonneg w'))]
    have hx : w ^ 2 ≤ w' ^ 2 := by nlinarith
    have hx0 := sq_nonneg w
    generalize w ^ 2 = x at hx hx0
    generalize w' ^ 2 = y at hx
    have h1 : 0 ≤ c * (x * y) * (y - x) := mul_nonneg (mul_nonneg hc.le (mul_nonneg hx0 (hx0.trans hx))) (by linarith)
    have h2 : 0 ≤ d * ((y - x) * (y + x)) := mul_nonneg hd.le (mul_nonneg (by linarith) (by linarith))
    nlinarith
  · intro w hw
    refine le_of_sq_le_sq ?_ (norm_nonneg _)
    rw [N, le_div_iff₀ (pos _ (sq_nonneg w))]
    have hx : 64000000 ≤ w ^ 2 := by nlinarith
    generalize w ^ 2 = x at hx
    have hx0 : 0 ≤ x := by linarith
    have : c * x ≤ 40 * x := mul_le_mul_of_nonneg_right hcu.le hx0
    nlinarith

/-- Constant ground motion gives no trace; slow motion gives one. -/
example : (waResponse .dis2dis true).response 0 = 0 ∧ (waResponse .dis2dis true).response (I * (1 : ℝ)) ≠ 0 := by
  constructor
  · rw [(resp true 0).1]; simp
  · rw [(resp true _).1]
    have := den_ne true 1
    simp only [ne_eq, div_eq_zero_iff, this, or_false]
    simp

end QM

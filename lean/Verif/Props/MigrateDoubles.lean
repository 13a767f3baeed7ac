import Verif.Model.MigrateDoubles
import Verif.Props.Migrate
import Mathlib.Analysis.SpecialFunctions.Exp
import Mathlib.Analysis.Complex.ExponentialBounds
import Mathlib.Data.Int.Log

/-!
# C136: the coalescence in double precision

English: computed in doubles, each value of the coalescence map is the geometric mean of the delayed onset
values up to a stated relative error, which grows with the number of onset functions and the logarithm of
the largest onset value, whatever the number of threads; the node reported has a coalescence within that
error of the largest, and so has the normalised coalescence.
-/

namespace QM
open QM.Migrate Finset

/-- Specification of the arithmetic: `u` is the relative error of a rounding (2^-53 for doubles), `v` that
of `log` and `exp` (a few times more for common libraries). -/
structure Spec.AccurateFpu (D : Fpu) (u v : ℝ) : Prop where
  u_nonneg : 0 ≤ u
  v_nonneg : 0 ≤ v
  fl : ∀ x, |D.fl x - x| ≤ u * |x|
  log : ∀ x, 0 < x → |D.log x - Real.log x| ≤ v * |Real.log x|
  exp : ∀ x, |D.exp x - Real.exp x| ≤ v * Real.exp x

private theorem abs_foldl_sub (fl : ℝ → ℝ) (u : ℝ) (hu : 0 ≤ u) (hfl : ∀ x, |fl x - x| ≤ u * |x|)
    (a : ℕ → ℝ) (n : ℕ) :
    |((List.range n).map a).foldl (fun x y => fl (x + y)) 0 - ∑ k ∈ range n, a k|
      ≤ ((1 + u) ^ n - 1) * ∑ k ∈ range n, |a k| := by
  induction n with
  | zero => simp
  | succ n ih =>
    rw [List.range_succ, List.map_append, List.foldl_append, Finset.sum_range_succ,
      Finset.sum_range_succ]
    simp only [List.map_cons, List.map_nil, List.foldl_cons, List.foldl_nil]
    generalize ((List.range n).map a).foldl (fun x y => fl (x + y)) 0 = S at ih ⊢
    have hT : |∑ k ∈ range n, a k| ≤ ∑ k ∈ range n, |a k| := Finset.abs_sum_le_sum_abs _ _
    have hB : 0 ≤ ∑ k ∈ range n, |a k| := Finset.sum_nonneg fun _ _ => abs_nonneg _
    generalize (∑ k ∈ range n, a k) = T at ih hT ⊢
    generalize (∑ k ∈ range n, |a k|) = B at ih hT hB ⊢
    have hp : 1 ≤ (1 + u) ^ n := one_le_pow₀ (by linarith)
    have h1 := hfl (S + a n)
    have h2 : |S + a n| ≤ |S - T| + (B + |a n|) := by
      have : S + a n = (S - T) + (T + a n) := by ring
      rw [this]
      refine (abs_add_le _ _).trans ?_
      have := abs_add_le T (a n)
      linarith
    have h3 : |fl (S + a n) - (T + a n)| ≤ |fl (S + a n) - (S + a n)| + |S - T| := by
      have : fl (S + a n) - (T + a n) = (fl (S + a n) - (S + a n)) + (S - T) := by ring
      rw [this]; exact abs_add_le _ _
    have h4 : u * |S + a n| ≤ u * (|S - T| + (B + |a n|)) := mul_le_mul_of_nonneg_left h2 hu
    have h5 : (1 + u) * |S - T| ≤ (1 + u) * (((1 + u) ^ n - 1) * B) :=
      mul_le_mul_of_nonneg_left ih (by linarith)
    have h6 : 0 ≤ |a n| := abs_nonneg _
    have h7 : 0 ≤ (1 + u) * ((1 + u) ^ n - 1) * |a n| :=
      mul_nonneg (mul_nonneg (by linarith) (by linarith)) h6
    rw [pow_succ]
    nlinarith

/-- The exponent computed for a node and sample. -/
private theorem exponent_near (D : Fpu) {u v : ℝ} (hD : Spec.AccurateFpu D u v) (x : ℕ → ℝ)
    (hx : ∀ k, 0 < x k) (n : ℕ) (hn : 0 < n) (Λ : ℝ) (hΛ : ∀ k < n, |Real.log (x k)| ≤ Λ) :
    |D.fl (((List.range n).map fun k => D.log (x k)).foldl (fun a b => D.fl (a + b)) 0 / (n : ℝ))
        - (∑ k ∈ range n, Real.log (x k)) / n| ≤ ((1 + u) ^ (n + 1) * (1 + v) - 1) * Λ := by
  have hn' : (0 : ℝ) < n := by exact_mod_cast hn
  have hu := hD.u_nonneg
  have hv := hD.v_nonneg
  have h1 := abs_foldl_sub D.fl u hu hD.fl (fun k => D.log (x k)) n
  generalize ((List.range n).map fun k => D.log (x k)).foldl (fun a b => D.fl (a + b)) 0 = S at h1 ⊢
  have hB : ∑ k ∈ range n, |D.log (x k)| ≤ (1 + v) * (n * Λ) := by
    calc ∑ k ∈ range n, |D.log (x k)| ≤ ∑ _k ∈ range n, (1 + v) * Λ := by
          apply Finset.sum_le_sum
          intro k hk
          have h2 := hD.log (x k) (hx k)
          have h3 := hΛ k (Finset.mem_range.1 hk)
          have h4 : |D.log (x k)| ≤ |D.log (x k) - Real.log (x k)| + |Real.log (x k)| := by
            have := abs_add_le (D.log (x k) - Real.log (x k)) (Real.log (x k))
            simpa using this
          nlinarith
      _ = (1 + v) * (n * Λ) := by simp; ring
  have hE : |∑ k ∈ range n, D.log (x k) - ∑ k ∈ range n, Real.log (x k)| ≤ v * (n * Λ) := by
    rw [← Finset.sum_sub_distrib]
    calc |∑ k ∈ range n, (D.log (x k) - Real.log (x k))|
        ≤ ∑ k ∈ range n, |D.log (x k) - Real.log (x k)| := Finset.abs_sum_le_sum_abs _ _
      _ ≤ ∑ _k ∈ range n, v * Λ := by
          apply Finset.sum_le_sum
          intro k hk
          exact (hD.log (x k) (hx k)).trans
            (mul_le_mul_of_nonneg_left (hΛ k (Finset.mem_range.1 hk)) hv)
      _ = v * (n * Λ) := by simp; ring
  have hL : |∑ k ∈ range n, Real.log (x k)| ≤ n * Λ := by
    calc |∑ k ∈ range n, Real.log (x k)| ≤ ∑ k ∈ range n, |Real.log (x k)| :=
          Finset.abs_sum_le_sum_abs _ _
      _ ≤ ∑ _k ∈ range n, Λ := Finset.sum_le_sum fun k hk => hΛ k (Finset.mem_range.1 hk)
      _ = n * Λ := by simp
  generalize (∑ k ∈ range n, Real.log (x k)) = T at hE hL ⊢
  generalize (∑ k ∈ range n, D.log (x k)) = T' at hE h1
  generalize (∑ k ∈ range n, |D.log (x k)|) = B at h1 hB
  have hp : 1 ≤ (1 + u) ^ n := one_le_pow₀ (by linarith)
  have hST : |S - T| ≤ ((1 + u) ^ n * (1 + v) - 1) * (n * Λ) := by
    have e : S - T = (S - T') + (T' - T) := by ring
    have h2 := abs_add_le (S - T') (T' - T)
    rw [← e] at h2
    have h3 : ((1 + u) ^ n - 1) * B ≤ ((1 + u) ^ n - 1) * ((1 + v) * (n * Λ)) :=
      mul_le_mul_of_nonneg_left hB (by linarith)
    nlinarith
  have hS : |S| ≤ (1 + u) ^ n * (1 + v) * (n * Λ) := by
    have := abs_add_le (S - T) T
    rw [sub_add_cancel] at this
    nlinarith
  have h6 := hD.fl (S / n)
  have e : D.fl (S / n) - T / n = (D.fl (S / n) - S / n) + (S - T) / n := by ring
  rw [e]
  refine (abs_add_le _ _).trans ?_
  have h7 : |S / (n : ℝ)| ≤ (1 + u) ^ n * (1 + v) * Λ := by
    rw [abs_div, abs_of_pos hn', div_le_iff₀ hn']
    linarith
  have h8 : |(S - T) / (n : ℝ)| ≤ ((1 + u) ^ n * (1 + v) - 1) * Λ := by
    rw [abs_div, abs_of_pos hn', div_le_iff₀ hn']
    linarith
  have h9 : u * |S / (n : ℝ)| ≤ u * ((1 + u) ^ n * (1 + v) * Λ) := mul_le_mul_of_nonneg_left h7 hu
  rw [pow_succ]
  nlinarith

/-- The relative error of a coalescence value below: `n` onset functions with values up to `e^Λ`. -/
noncomputable def Spec.coaError (u v Λ : ℝ) (n : ℕ) : ℝ :=
  (1 + u) * (1 + v) * Real.exp (((1 + u) ^ (n + 1) * (1 + v) - 1) * Λ) - 1

private theorem geoMean_exp {n : ℕ} (hn : 0 < n) (x : ℕ → ℝ) (hx : ∀ k, 0 < x k) :
    Spec.geoMean n x = Real.exp ((∑ k ∈ range n, Real.log (x k)) / n) := by
  have hprod : 0 < ∏ k ∈ range n, x k := Finset.prod_pos fun k _ => hx k
  unfold Spec.geoMean
  rw [Real.rpow_def_of_pos hprod, Real.log_prod (fun k _ => (hx k).ne')]
  congr 1
  ring

private theorem geoMean_scale {n : ℕ} (hn : 0 < n) (x y : ℕ → ℝ) (hx : ∀ k, 0 < x k) (hy : ∀ k, 0 < y k)
    (c : ℝ) (hc : 0 < c) (h : ∀ k < n, y k ≤ c * x k) : Spec.geoMean n y ≤ c * Spec.geoMean n x := by
  have hn' : (0 : ℝ) < n := by exact_mod_cast hn
  have hcc : c * Real.exp ((∑ k ∈ range n, Real.log (x k)) / n)
      = Real.exp (Real.log c + (∑ k ∈ range n, Real.log (x k)) / n) := by
    rw [Real.exp_add, Real.exp_log hc]
  rw [geoMean_exp hn x hx, geoMean_exp hn y hy, hcc, Real.exp_le_exp, div_le_iff₀ hn', add_mul,
    div_mul_cancel₀ _ hn'.ne']
  calc ∑ k ∈ range n, Real.log (y k) ≤ ∑ k ∈ range n, (Real.log c + Real.log (x k)) := by
        apply Finset.sum_le_sum
        intro k hk
        rw [← Real.log_mul hc.ne' (hx k).ne']
        exact Real.log_le_log (hy k) (h k (Finset.mem_range.1 hk))
    _ = Real.log c * n + ∑ k ∈ range n, Real.log (x k) := by
        rw [Finset.sum_add_distrib]; simp; ring

private theorem two_sided (u v E F : ℝ) (hu0 : 0 ≤ u) (hv0 : 0 ≤ v) (hE1 : 1 ≤ E) (hF : F * E = 1)
    (hF0 : 0 < F) : 2 - (1 + u) * (1 + v) * E ≤ (1 - u) * (1 - v) * F := by
  have hEF : 2 ≤ E + F := by
    by_contra hc
    push Not at hc
    have : E * (E + F) < E * 2 := mul_lt_mul_of_pos_left hc (by linarith)
    nlinarith [sq_nonneg (E - 1)]
  have hFE : F ≤ E := by nlinarith
  have a1 : 0 ≤ (1 + u * v) * (E + F - 2) :=
    mul_nonneg (by have := mul_nonneg hu0 hv0; linarith) (by linarith)
  have a2 : 0 ≤ (u + v) * (E - F) := mul_nonneg (by linarith) (by linarith)
  have a3 : 0 ≤ u * v := mul_nonneg hu0 hv0
  linarith

/-- **C136.**  In doubles, for every schedule of the threads, each value of the map is the geometric mean
of the delayed onset values (the one of C28) up to the relative error `coaError`: with `n` onset functions
with values up to `e^Λ`. -/
theorem C136_geometric_mean (D : Fpu) (u v : ℝ) (hD : Spec.AccurateFpu D u v) (hu : u ≤ 1 / 10)
    (hv : v ≤ 1 / 10) (on : Arr2 ℝ) (tt : Arr2 ℤ) (first last : ℕ) (h : MigrateOK on tt first last)
    (Λ : ℝ) (hΛ : 5 ≤ Λ) (hon : ∀ k < on.rows, ∀ j < on.cols, on.get k j ≤ Real.exp Λ)
    (sched : List (ℕ × Op))
    (hs : IsInterleaving tt.rows (nodeProg (mkArgsWith D.arith on tt first last on.rows)) sched) :
    ∃ m, migrateWith D.arith on tt first last on.rows sched = .ok m ∧
      ∀ node < tt.rows, ∀ s < on.cols - first - last,
        |m node s - Spec.geoMean on.rows (Spec.stacked on.get tt.get first node s)|
          ≤ Spec.coaError u v Λ on.rows
            * Spec.geoMean on.rows (Spec.stacked on.get tt.get first node s) := by
  obtain ⟨m, h1, h2⟩ := migrateWith_value D.arith h on.rows hs
  refine ⟨m, h1, fun node hn s hss => ?_⟩
  have hu0 := hD.u_nonneg
  have hv0 := hD.v_nonneg
  set c := D.fl (1 / 100) with hc
  have hcb := hD.fl (1 / 100)
  rw [← hc, abs_le, abs_of_pos (by norm_num : (0 : ℝ) < 1 / 100)] at hcb
  have hc1 : (1 - u) * (1 / 100) ≤ c := by linarith [hcb.1]
  have hc2 : c ≤ (1 + u) * (1 / 100) := by linarith [hcb.2]
  clear_value c
  have hc0 : 0 < c := by nlinarith
  set x : ℕ → ℝ := fun k => on.get k (first + s + (max 0 (tt.get node k)).toNat) with hxdef
  have hval : m node s = D.exp (D.fl (((List.range on.rows).map fun k => D.log (max c (x k))).foldl
      (fun a b => D.fl (a + b)) 0 / (on.rows : ℝ))) := by
    rw [h2 node hn s hss, hc]
    show D.exp (D.fl (_ / ((on.rows : ℤ) : ℝ))) = _
    rw [Int.cast_natCast]
    rfl
  have hx : ∀ k, 0 < max c (x k) := fun k => lt_of_lt_of_le hc0 (le_max_left _ _)
  have he5 : Real.exp 5 ≥ 112 := by
    have h1 : Real.exp 5 = Real.exp 1 ^ 5 := by rw [← Real.exp_nat_mul]; norm_num
    have h2 := Real.exp_one_gt_d9
    rw [h1]
    have : (2.7182818283 : ℝ) ^ 5 ≤ Real.exp 1 ^ 5 := by gcongr
    have h3 : (112 : ℝ) ≤ 2.7182818283 ^ 5 := by norm_num
    linarith
  have heΛ : 112 ≤ Real.exp Λ := he5.trans (Real.exp_le_exp.2 hΛ)
  have hlog : ∀ k < on.rows, |Real.log (max c (x k))| ≤ Λ := by
    intro k hk
    have hpad := h.pad node hn k hk
    have hfit := h.fits
    have hxle : x k ≤ Real.exp Λ := hon k hk _ (by omega)
    rw [abs_le]
    constructor
    · rw [Real.le_log_iff_exp_le (hx k), Real.exp_neg]
      refine le_trans ?_ (le_max_left _ _)
      refine le_trans ?_ hc1
      rw [inv_le_comm₀ (Real.exp_pos _) (by nlinarith)]
      refine le_trans ?_ heΛ
      rw [inv_le_comm₀ (by nlinarith) (by norm_num)]
      nlinarith
    · rw [Real.log_le_iff_le_exp (hx k)]
      exact max_le (hc2.trans (by nlinarith)) hxle
  have hy := exponent_near D hD (fun k => max c (x k)) hx on.rows h.pos Λ hlog
  rw [hval]
  generalize D.fl (((List.range on.rows).map fun k => D.log (max c (x k))).foldl
      (fun a b => D.fl (a + b)) 0 / (on.rows : ℝ)) = y at hy ⊢
  have hG := geoMean_exp h.pos (fun k => max c (x k)) hx
  set ε := ((1 + u) ^ (on.rows + 1) * (1 + v) - 1) * Λ with hε
  have hex := hD.exp y
  rw [abs_le] at hy hex
  -- the two geometric means
  have hst : ∀ k, 0 < Spec.stacked on.get tt.get first node s k := fun k =>
    lt_of_lt_of_le (by norm_num) (le_max_left _ _)
  have hst' : ∀ k, Spec.stacked on.get tt.get first node s k = max (1 / 100) (x k) := fun k => rfl
  have g1 : Spec.geoMean on.rows (fun k => max c (x k))
      ≤ (1 + u) * Spec.geoMean on.rows (Spec.stacked on.get tt.get first node s) := by
    refine geoMean_scale h.pos _ _ hst hx _ (by linarith) fun k _ => ?_
    rw [hst']
    refine max_le (hc2.trans (mul_le_mul_of_nonneg_left (le_max_left _ _) (by linarith))) ?_
    have h1 : x k ≤ max (1 / 100) (x k) := le_max_right _ _
    have h2 : 0 < max (1 / 100) (x k) := by rw [← hst']; exact hst k
    nlinarith
  have g2 : (1 - u) * Spec.geoMean on.rows (Spec.stacked on.get tt.get first node s)
      ≤ Spec.geoMean on.rows (fun k => max c (x k)) := by
    have := geoMean_scale h.pos _ _ hx hst (1 - u)⁻¹ (by rw [inv_pos]; linarith)
      (fun k (_ : k < on.rows) => by
        rw [hst', ← div_eq_inv_mul, le_div_iff₀ (by linarith)]
        rcases le_total (1 / 100) (x k) with h3 | h3
        · rw [max_eq_right h3]
          have : x k ≤ max c (x k) := le_max_right _ _
          nlinarith
        · rw [max_eq_left h3]
          have : c ≤ max c (x k) := le_max_left _ _
          nlinarith)
    rwa [← div_eq_inv_mul, le_div_iff₀ (by linarith), mul_comm] at this
  have hSpos : 0 < Spec.geoMean on.rows (Spec.stacked on.get tt.get first node s) := by
    rw [geoMean_exp h.pos _ hst]; exact Real.exp_pos _
  generalize Spec.geoMean on.rows (Spec.stacked on.get tt.get first node s) = G at g1 g2 hSpos ⊢
  rw [hG] at g1 g2
  generalize (∑ k ∈ range on.rows, Real.log (max c (x k))) / (on.rows : ℝ) = z at hy g1 g2
  have e1 : Real.exp y ≤ Real.exp ε * Real.exp z := by
    rw [← Real.exp_add, Real.exp_le_exp]; linarith [hy.2]
  have e2 : Real.exp z ≤ Real.exp ε * Real.exp y := by
    rw [← Real.exp_add, Real.exp_le_exp]; linarith [hy.1]
  have hE : 0 < Real.exp ε := Real.exp_pos _
  have hY : 0 < Real.exp y := Real.exp_pos _
  have hZ : 0 < Real.exp z := Real.exp_pos _
  unfold Spec.coaError
  rw [← hε]
  have hp : 1 ≤ (1 + u) ^ (on.rows + 1) := one_le_pow₀ (by linarith)
  have hε0 : 0 ≤ ε := by
    rw [hε]
    exact mul_nonneg (by nlinarith) (by linarith)
  have hE1 : 1 ≤ Real.exp ε := Real.one_le_exp hε0
  have hF : Real.exp (-ε) * Real.exp ε = 1 := by rw [← Real.exp_add]; simp
  have hF0 : 0 < Real.exp (-ε) := Real.exp_pos _
  have e3 : Real.exp (-ε) * Real.exp z ≤ Real.exp y := by
    rw [← Real.exp_add, Real.exp_le_exp]; linarith [hy.1]
  have up : D.exp y ≤ (1 + u) * (1 + v) * Real.exp ε * G :=
    calc D.exp y ≤ (1 + v) * Real.exp y := by linarith [hex.2]
      _ ≤ (1 + v) * (Real.exp ε * Real.exp z) := mul_le_mul_of_nonneg_left e1 (by linarith)
      _ ≤ (1 + v) * (Real.exp ε * ((1 + u) * G)) := by gcongr
      _ = _ := by ring
  have low : (1 - u) * (1 - v) * Real.exp (-ε) * G ≤ D.exp y :=
    calc (1 - u) * (1 - v) * Real.exp (-ε) * G = (1 - v) * (Real.exp (-ε) * ((1 - u) * G)) := by ring
      _ ≤ (1 - v) * (Real.exp (-ε) * Real.exp z) :=
          mul_le_mul_of_nonneg_left (mul_le_mul_of_nonneg_left g2 hF0.le) (by linarith)
      _ ≤ (1 - v) * Real.exp y := mul_le_mul_of_nonneg_left e3 (by linarith)
      _ ≤ D.exp y := by linarith [hex.1]
  have key := mul_le_mul_of_nonneg_right (two_sided u v (Real.exp ε) (Real.exp (-ε)) hu0 hv0 hE1 hF hF0)
    hSpos.le
  rw [abs_le]
  constructor
  · linarith
  · linarith

/-- The error in the usual case: up to ten thousand onset functions with values up to `e^12` (160 000), in
doubles with a library good to eight units in the last place: ten significant digits. -/
theorem C136_ten_digits (v : ℝ) (hv0 : 0 ≤ v) (hv : v ≤ 1 / 2 ^ 50) (n : ℕ) (hn : n ≤ 10000) :
    Spec.coaError (1 / 2 ^ 53) v 12 n ≤ 1 / 10 ^ 10 := by
  unfold Spec.coaError
  set u : ℝ := 1 / 2 ^ 53 with hu
  have hu0 : 0 < u := by rw [hu]; positivity
  have hv' : v ≤ 8 * u := by rw [hu]; linarith
  have h1 : (1 + u) ^ (n + 1) * (1 + v) ≤ Real.exp (((n : ℝ) + 1) * u + v) := by
    rw [Real.exp_add]
    have a1 : 1 + u ≤ Real.exp u := by linarith [Real.add_one_le_exp u]
    have a2 : 1 + v ≤ Real.exp v := by linarith [Real.add_one_le_exp v]
    have a3 : (1 + u) ^ (n + 1) ≤ Real.exp u ^ (n + 1) := by gcongr
    rw [← Real.exp_nat_mul] at a3
    push_cast at a3
    gcongr
  have hexp : ∀ t : ℝ, 0 ≤ t → t ≤ 1 / 2 → Real.exp t ≤ 1 + 2 * t := by
    intro t h0 h1
    have a1 := Real.add_one_le_exp (-t)
    have a2 : Real.exp t * Real.exp (-t) = 1 := by rw [← Real.exp_add]; simp
    have a3 := Real.exp_pos t
    have a4 : Real.exp t * (1 - t) ≤ 1 := by nlinarith
    by_contra hcon
    push Not at hcon
    nlinarith
  have hnr : (n : ℝ) ≤ 10000 := by exact_mod_cast hn
  have hn0 : (0 : ℝ) ≤ n := by positivity
  have hunum : u ≤ 1 / 9000000000000000 := by rw [hu]; norm_num
  clear hu hv
  clear_value u
  have ht : ((n : ℝ) + 1) * u + v ≤ 10009 * u := by nlinarith
  have ht0 : 0 ≤ ((n : ℝ) + 1) * u + v := by positivity
  have h2 := hexp _ ht0 (by nlinarith)
  have h3 : ((1 + u) ^ (n + 1) * (1 + v) - 1) * 12 ≤ 240216 * u := by nlinarith
  have h4 : 0 ≤ ((1 + u) ^ (n + 1) * (1 + v) - 1) * 12 := by
    have : 1 ≤ (1 + u) ^ (n + 1) := one_le_pow₀ (by linarith)
    nlinarith
  have h5 := hexp _ h4 (by linarith)
  have h6 : Real.exp (((1 + u) ^ (n + 1) * (1 + v) - 1) * 12) ≤ 1 + 480432 * u := by linarith
  have h7 : (1 + u) * (1 + v) ≤ 1 + 10 * u := by nlinarith
  have h8 : (1 + u) * (1 + v) * Real.exp (((1 + u) ^ (n + 1) * (1 + v) - 1) * 12)
      ≤ (1 + 10 * u) * (1 + 480432 * u) := by
    apply mul_le_mul h7 h6 (Real.exp_pos _).le (by linarith)
  have h9 : u * u ≤ u * (1 / 1000000000) := mul_le_mul_of_nonneg_left (by linarith) hu0.le
  have h10 : (1 + 10 * u) * (1 + 480432 * u) = 1 + 480442 * u + 4804320 * (u * u) := by ring
  linarith

private theorem fl_between (D : Fpu) {u v : ℝ} (hD : Spec.AccurateFpu D u v) {x : ℝ} (hx : 0 ≤ x) :
    (1 - u) * x ≤ D.fl x ∧ D.fl x ≤ (1 + u) * x := by
  have := hD.fl x
  rw [abs_le, abs_of_nonneg hx] at this
  constructor <;> linarith [this.1, this.2]

private theorem foldl_between (D : Fpu) {u v : ℝ} (hD : Spec.AccurateFpu D u v) (hu : u ≤ 1 / 10)
    (f : ℕ → ℝ) (hf : ∀ n, 0 ≤ f n) (m : ℕ) :
    (1 - u) ^ m * ∑ i ∈ range (m + 1), f i
        ≤ ((List.range m).map fun i => f (i + 1)).foldl (fun x y => D.fl (x + y)) (f 0) ∧
    ((List.range m).map fun i => f (i + 1)).foldl (fun x y => D.fl (x + y)) (f 0)
        ≤ (1 + u) ^ m * ∑ i ∈ range (m + 1), f i := by
  have hu0 := hD.u_nonneg
  induction m with
  | zero => simp
  | succ m ih =>
    rw [List.range_succ, List.map_append, List.foldl_append, Finset.sum_range_succ _ (m + 1)]
    simp only [List.map_cons, List.map_nil, List.foldl_cons, List.foldl_nil]
    generalize ((List.range m).map fun i => f (i + 1)).foldl (fun x y => D.fl (x + y)) (f 0) = S at ih ⊢
    have hB : 0 ≤ ∑ i ∈ range (m + 1), f i := Finset.sum_nonneg fun _ _ => hf _
    generalize (∑ i ∈ range (m + 1), f i) = B at ih hB ⊢
    have hp : 0 < (1 - u) ^ m := pow_pos (by linarith) _
    have hp1 : (1 - u) ^ m ≤ 1 := pow_le_one₀ (by linarith) (by linarith)
    have hq : 1 ≤ (1 + u) ^ m := one_le_pow₀ (by linarith)
    have ha := hf (m + 1)
    have hS : 0 ≤ S := le_trans (mul_nonneg hp.le hB) ih.1
    obtain ⟨h1, h2⟩ := fl_between D hD (add_nonneg hS ha)
    constructor
    · refine le_trans ?_ h1
      rw [pow_succ, mul_comm ((1 - u) ^ m), mul_assoc]
      apply mul_le_mul_of_nonneg_left _ (by linarith)
      nlinarith [ih.1]
    · refine le_trans h2 ?_
      rw [pow_succ, mul_comm ((1 + u) ^ m), mul_assoc]
      apply mul_le_mul_of_nonneg_left _ (by linarith)
      nlinarith [ih.2]

/-- **C136.**  In doubles, for every schedule of the threads: if a map is within a relative error `δ` of
positive values `g`, the node reported for a sample has a value of `g` not less than the largest by more
than the factor `(1 + δ) / (1 - δ)`, the maximum reported is within `δ` of that value, and the normalised
value is that of the node up to the rounding of the sum over the nodes. -/
theorem C136_maximum (D : Fpu) (u v : ℝ) (hD : Spec.AccurateFpu D u v) (hu : u ≤ 1 / 10)
    (m : Arr2 ℝ) (hN : 0 < m.rows) (g : ℕ → ℕ → ℝ) (δ : ℝ) (hδ : δ < 1)
    (hg : ∀ n < m.rows, ∀ s < m.cols, 0 < g n s)
    (hm : ∀ n < m.rows, ∀ s < m.cols, |m.get n s - g n s| ≤ δ * g n s)
    (sched : List (ℕ × FOp)) (hs : IsInterleaving m.cols (sampleProg m.rows) sched) :
    ∃ r, findMaxCoaWith D.maxArith m sched = some r ∧ ∀ s < m.cols,
      r.idx s < m.rows ∧ (∀ n < m.rows, (1 - δ) * g n s ≤ (1 + δ) * g (r.idx s) s) ∧
      |r.maxCoa s - g (r.idx s) s| ≤ δ * g (r.idx s) s ∧
      r.norm s ≤ (1 + u) ^ 3 * (1 + δ) / ((1 - u) ^ m.rows * (1 - δ))
        * (g (r.idx s) s * m.rows / ∑ n ∈ range m.rows, g n s) ∧
      (1 - u) ^ 3 * (1 - δ) / ((1 + u) ^ m.rows * (1 + δ))
        * (g (r.idx s) s * m.rows / ∑ n ∈ range m.rows, g n s) ≤ r.norm s := by
  have hu0 := hD.u_nonneg
  obtain ⟨r, h1, h2⟩ := findMax_interleaved (ar := D.maxArith) m hN hs
  refine ⟨r, h1, fun s hss => ?_⟩
  obtain ⟨e1, e2, e3⟩ := h2 s hss
  obtain ⟨g1, g2, g3, -⟩ := scanReg_spec (ar := D.maxArith) (fun a b => by simp [Fpu.maxArith])
    (fun n => m.get n s) (m.rows - 1)
  have hδ0 : 0 ≤ δ := by
    have a1 := hm 0 hN s hss
    have a2 := hg 0 hN s hss
    by_contra hc
    push Not at hc
    have := abs_nonneg (m.get 0 s - g 0 s)
    nlinarith
  have hi : r.idx s < m.rows := by rw [e3]; omega
  have hmx : r.maxCoa s = m.get (r.idx s) s := by rw [e1, e3]; exact g2
  have hle : ∀ n < m.rows, m.get n s ≤ r.maxCoa s := by
    intro n hn
    rw [e1]
    exact g3 n (by omega)
  have hb : ∀ n < m.rows, (1 - δ) * g n s ≤ m.get n s ∧ m.get n s ≤ (1 + δ) * g n s := by
    intro n hn
    have := hm n hn s hss
    rw [abs_le] at this
    constructor <;> linarith [this.1, this.2]
  have hsum : (1 - u) ^ m.rows * ((1 - δ) * ∑ n ∈ range m.rows, g n s)
        ≤ (scanReg D.maxArith (fun n => m.get n s) (m.rows - 1)).sm ∧
      (scanReg D.maxArith (fun n => m.get n s) (m.rows - 1)).sm
        ≤ (1 + u) ^ m.rows * ((1 + δ) * ∑ n ∈ range m.rows, g n s) := by
    have hpos : ∀ n < m.rows, 0 ≤ m.get n s := fun n hn =>
      le_trans (mul_nonneg (by linarith) (hg n hn s hss).le) (hb n hn).1
    have hcong : ((List.range (m.rows - 1)).map fun i => m.get (i + 1) s)
        = (List.range (m.rows - 1)).map fun i => (if i + 1 < m.rows then m.get (i + 1) s else 0) := by
      apply List.map_congr_left
      intro i hi
      rw [List.mem_range] at hi
      rw [if_pos (by omega)]
    have := foldl_between D hD hu (fun n => if n < m.rows then m.get n s else 0)
      (fun n => by
        by_cases h : n < m.rows
        · simp only [h, if_true]; exact hpos n h
        · simp [h]) (m.rows - 1)
    rw [show m.rows - 1 + 1 = m.rows by omega] at this
    simp only [hN, if_true] at this
    rw [← hcong] at this
    have hS : ∑ n ∈ range m.rows, (if n < m.rows then m.get n s else 0) = ∑ n ∈ range m.rows, m.get n s :=
      Finset.sum_congr rfl fun n hn => by rw [if_pos (Finset.mem_range.1 hn)]
    rw [hS] at this
    rw [scanReg_sm]
    have hG0 : 0 ≤ ∑ n ∈ range m.rows, m.get n s :=
      Finset.sum_nonneg fun n hn => hpos n (Finset.mem_range.1 hn)
    have l1 : (1 - δ) * ∑ n ∈ range m.rows, g n s ≤ ∑ n ∈ range m.rows, m.get n s := by
      rw [Finset.mul_sum]
      exact Finset.sum_le_sum fun n hn => (hb n (Finset.mem_range.1 hn)).1
    have l2 : ∑ n ∈ range m.rows, m.get n s ≤ (1 + δ) * ∑ n ∈ range m.rows, g n s := by
      rw [Finset.mul_sum]
      exact Finset.sum_le_sum fun n hn => (hb n (Finset.mem_range.1 hn)).2
    have p1 : (1 - u) ^ m.rows ≤ (1 - u) ^ (m.rows - 1) :=
      pow_le_pow_of_le_one (by linarith) (by linarith) (by omega)
    have p2 : (1 + u) ^ (m.rows - 1) ≤ (1 + u) ^ m.rows := pow_le_pow_right₀ (by linarith) (by omega)
    have p0 : 0 ≤ (1 - u) ^ m.rows := pow_nonneg (by linarith) _
    have p3 : 0 ≤ (1 + u) ^ m.rows := pow_nonneg (by linarith) _
    refine ⟨le_trans ?_ this.1, le_trans this.2 ?_⟩
    · exact (mul_le_mul_of_nonneg_left l1 p0).trans (mul_le_mul_of_nonneg_right p1 hG0)
    · exact (mul_le_mul_of_nonneg_right p2 hG0).trans (mul_le_mul_of_nonneg_left l2 p3)
  have hnorm : r.norm s = D.fl (D.fl (r.maxCoa s * D.fl m.rows)
      / (scanReg D.maxArith (fun n => m.get n s) (m.rows - 1)).sm) := by
    rw [e2, e1]
    rfl
  have hGpos : 0 < ∑ n ∈ range m.rows, g n s :=
    Finset.sum_pos (fun n hn => hg n (Finset.mem_range.1 hn) s hss) ⟨0, Finset.mem_range.2 hN⟩
  have hgi := hg _ hi s hss
  have hbi := hb _ hi
  have hRpos : (0 : ℝ) < m.rows := by exact_mod_cast hN
  refine ⟨hi, ?_, ?_, ?_⟩
  · intro n hn
    have a1 := hle n hn
    rw [hmx] at a1
    linarith [(hb n hn).1, hbi.2]
  · rw [hmx]; exact hm _ hi s hss
  · rw [hnorm, hmx]
    generalize (scanReg D.maxArith (fun n => m.get n s) (m.rows - 1)).sm = S at hsum ⊢
    generalize (∑ n ∈ range m.rows, g n s) = G at hsum hGpos ⊢
    generalize m.get (r.idx s) s = x at hbi ⊢
    generalize g (r.idx s) s = y at hgi hbi ⊢
    have q0 : 0 < (1 - u) ^ m.rows := pow_pos (by linarith) _
    have q1 : 0 < (1 + u) ^ m.rows := pow_pos (by linarith) _
    generalize (1 - u) ^ m.rows = P at hsum q0 ⊢
    generalize (1 + u) ^ m.rows = Q at hsum q1 ⊢
    generalize (m.rows : ℝ) = R at hRpos ⊢
    have hx : 0 ≤ x := le_trans (mul_nonneg (by linarith) hgi.le) hbi.1
    obtain ⟨a1, a2⟩ := fl_between D hD hRpos.le
    have hR' : 0 ≤ D.fl R := le_trans (mul_nonneg (by linarith) hRpos.le) a1
    obtain ⟨b1, b2⟩ := fl_between D hD (mul_nonneg hx hR')
    have hxR : 0 ≤ D.fl (x * D.fl R) := le_trans (mul_nonneg (by linarith) (mul_nonneg hx hR')) b1
    have hP : 0 < P * ((1 - δ) * G) := mul_pos q0 (mul_pos (by linarith) hGpos)
    have hS : 0 < S := lt_of_lt_of_le hP hsum.1
    obtain ⟨c1, c2⟩ := fl_between D hD (div_nonneg hxR hS.le)
    constructor
    · refine c2.trans ?_
      have k1 : D.fl (x * D.fl R) ≤ (1 + u) ^ 2 * (1 + δ) * (y * R) := by
        calc D.fl (x * D.fl R) ≤ (1 + u) * (x * D.fl R) := b2
          _ ≤ (1 + u) * (((1 + δ) * y) * ((1 + u) * R)) :=
              mul_le_mul_of_nonneg_left (mul_le_mul hbi.2 a2 hR'
                (mul_nonneg (by linarith) hgi.le)) (by linarith)
          _ = _ := by ring
      have k2 : D.fl (x * D.fl R) / S ≤ (1 + u) ^ 2 * (1 + δ) * (y * R) / (P * ((1 - δ) * G)) :=
        div_le_div₀ (by positivity) k1 hP hsum.1
      refine (mul_le_mul_of_nonneg_left k2 (by linarith)).trans (le_of_eq ?_)
      have : (1 - δ) ≠ 0 := by linarith
      field_simp
    · refine le_trans ?_ c1
      have k1 : (1 - u) ^ 2 * (1 - δ) * (y * R) ≤ D.fl (x * D.fl R) := by
        calc (1 - u) ^ 2 * (1 - δ) * (y * R) = (1 - u) * (((1 - δ) * y) * ((1 - u) * R)) := by ring
          _ ≤ (1 - u) * (x * D.fl R) :=
              mul_le_mul_of_nonneg_left (mul_le_mul hbi.1 a1
                (mul_nonneg (by linarith) hRpos.le) hx) (by linarith)
          _ ≤ _ := b1
      have k2 : (1 - u) ^ 2 * (1 - δ) * (y * R) / (Q * ((1 + δ) * G)) ≤ D.fl (x * D.fl R) / S :=
        div_le_div₀ hxR k1 hS hsum.2
      refine le_trans (le_of_eq ?_) (mul_le_mul_of_nonneg_left k2 (by linarith))
      have : (1 + δ) ≠ 0 := by linarith
      field_simp

/-- **C136.**  `migrate` followed by `find_max_coa`, in doubles, for every schedule: the node reported has
an exact coalescence (C28) within the relative error of the largest. -/
theorem C136_scan (D : Fpu) (u v : ℝ) (hD : Spec.AccurateFpu D u v) (hu : u ≤ 1 / 10)
    (hv : v ≤ 1 / 10) (on : Arr2 ℝ) (tt : Arr2 ℤ) (hnodes : 0 < tt.rows) (first last : ℕ)
    (h : MigrateOK on tt first last)
    (Λ : ℝ) (hΛ : 5 ≤ Λ) (hon : ∀ k < on.rows, ∀ j < on.cols, on.get k j ≤ Real.exp Λ)
    (hsmall : Spec.coaError u v Λ on.rows < 1) (sched : List (ℕ × Op))
    (hs : IsInterleaving tt.rows (nodeProg (mkArgsWith D.arith on tt first last on.rows)) sched)
    (sched' : List (ℕ × FOp))
    (hs' : IsInterleaving (on.cols - first - last) (sampleProg tt.rows) sched') :
    ∃ m r, migrateWith D.arith on tt first last on.rows sched = .ok m ∧
      findMaxCoaWith D.maxArith ⟨tt.rows, on.cols - first - last, m⟩ sched' = some r ∧
      ∀ s < on.cols - first - last, r.idx s < tt.rows ∧
        (∀ node < tt.rows, (1 - Spec.coaError u v Λ on.rows)
            * Spec.geoMean on.rows (Spec.stacked on.get tt.get first node s)
          ≤ (1 + Spec.coaError u v Λ on.rows)
            * Spec.geoMean on.rows (Spec.stacked on.get tt.get first (r.idx s) s)) ∧
        |r.maxCoa s - Spec.geoMean on.rows (Spec.stacked on.get tt.get first (r.idx s) s)|
          ≤ Spec.coaError u v Λ on.rows
            * Spec.geoMean on.rows (Spec.stacked on.get tt.get first (r.idx s) s) := by
  obtain ⟨m, h1, h2⟩ := C136_geometric_mean D u v hD hu hv on tt first last h Λ hΛ hon sched hs
  obtain ⟨r, h3, h4⟩ := C136_maximum D u v hD hu ⟨tt.rows, on.cols - first - last, m⟩ hnodes
    (fun node s => Spec.geoMean on.rows (Spec.stacked on.get tt.get first node s)) _ hsmall
    (fun n _ s _ => by
      rw [geoMean_exp h.pos (Spec.stacked on.get tt.get first n s)
        (fun k => lt_of_lt_of_le (by norm_num : (0 : ℝ) < 1 / 100) (le_max_left _ _))]
      exact Real.exp_pos _)
    h2 sched' hs'
  exact ⟨m, r, h1, h3, fun s hss => ⟨(h4 s hss).1, (h4 s hss).2.1, (h4 s hss).2.2.1⟩⟩

/-! ### The hypotheses can be met: rounding to 53 bits -/

/-- Rounding to the nearest number with 53 significant bits. -/
noncomputable def exRound (x : ℝ) : ℝ :=
  if x = 0 then 0 else (round (x / 2 ^ (Int.log 2 |x| - 52)) : ℝ) * 2 ^ (Int.log 2 |x| - 52)

theorem exRound_near (x : ℝ) : |exRound x - x| ≤ 1 / 2 ^ 53 * |x| := by
  unfold exRound
  by_cases hx : x = 0
  · simp [hx]
  rw [if_neg hx]
  have hax : 0 < |x| := abs_pos.2 hx
  have h1 : ((2 : ℕ) : ℝ) ^ Int.log 2 |x| ≤ |x| := Int.zpow_log_le_self (by norm_num) hax
  push_cast at h1
  have hp : (0 : ℝ) < 2 ^ (Int.log 2 |x| - 52) := by positivity
  have h2 : x = (x / 2 ^ (Int.log 2 |x| - 52)) * 2 ^ (Int.log 2 |x| - 52) := by
    field_simp
  have h3 := abs_sub_round (x / 2 ^ (Int.log 2 |x| - 52))
  have h4 : (2 : ℝ) ^ (Int.log 2 |x| - 52) = 2 ^ Int.log 2 |x| / 2 ^ 52 := by
    rw [zpow_sub₀ (by norm_num)]; norm_num
  generalize (2 : ℝ) ^ (Int.log 2 |x| - 52) = P at *
  have h5 : |(round (x / P) : ℝ) * P - x| = |x / P - round (x / P)| * P := by
    conv_lhs => rw [h2, ← sub_mul, abs_mul, abs_of_pos hp, abs_sub_comm]
    field_simp
  rw [h5]
  have h6 : P ≤ |x| / 2 ^ 52 := by rw [h4]; gcongr
  nlinarith

/-- A correctly rounding processor and library. -/
noncomputable def exFpu : Fpu := ⟨exRound, fun x => exRound (Real.log x), fun x => exRound (Real.exp x)⟩

example : Spec.AccurateFpu exFpu (1 / 2 ^ 53) (1 / 2 ^ 53) :=
  ⟨by positivity, by positivity, exRound_near, fun x _ => exRound_near _, fun x => by
    have := exRound_near (Real.exp x)
    rwa [abs_of_pos (Real.exp_pos x)] at this⟩

example : MigrateOK exOn exTT 1 2 ∧ 0 < exTT.rows ∧
    (∀ k < exOn.rows, ∀ j < exOn.cols, exOn.get k j ≤ Real.exp 12) ∧
    Spec.coaError (1 / 2 ^ 53) (1 / 2 ^ 53) 12 exOn.rows < 1 := by
  refine ⟨exMigrateOK, by simp [exTT], ?_, ?_⟩
  · intro k hk j hj
    simp only [exOn] at hk hj ⊢
    have h1 : (k : ℝ) < 2 := by exact_mod_cast hk
    have h2 : (j : ℝ) < 5 := by exact_mod_cast hj
    have := Real.add_one_le_exp (12 : ℝ)
    linarith
  · refine lt_of_le_of_lt (C136_ten_digits _ (by positivity) (by norm_num) _ (by simp [exOn])) (by norm_num)

end QM

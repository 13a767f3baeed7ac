import Verif.Model.GauFit
import Mathlib.LinearAlgebra.Matrix.PosDef
import Mathlib.Analysis.Matrix.Spectrum
import Mathlib.Algebra.Order.Star.Real
import Mathlib.Analysis.Complex.ExponentialBounds
import Mathlib.Tactic.LinearCombination
import Mathlib.Tactic.FieldSimp
import Mathlib.Tactic.FinCases

/-!
# The Gaussian fit (C94)
-/

namespace QM
open QM.Grid QM.GauFit Matrix

/-! ## Specification -/

/-- A 3-D Gaussian with amplitude `A`, centre `c` and covariance matrix `S`, in units of nodes. -/
noncomputable def gauss3 (A : ℝ) (c : V3 ℝ) (S : Matrix (Fin 3) (Fin 3) ℝ) (x : V3 ℝ) : ℝ :=
  A * Real.exp (-((x - c) ⬝ᵥ (S⁻¹ *ᵥ (x - c))) / 2)

/-- What is assumed of the pseudo-inverse: the conditions of Moore and Penrose. -/
structure IsPinv (lib : Lib) : Prop where
  one : ∀ n (X : Matrix (Fin 10) (Fin n) ℝ), X * lib.pinv n X * X = X
  two : ∀ n (X : Matrix (Fin 10) (Fin n) ℝ), lib.pinv n X * X * lib.pinv n X = lib.pinv n X
  three : ∀ n (X : Matrix (Fin 10) (Fin n) ℝ), (X * lib.pinv n X)ᵀ = X * lib.pinv n X
  four : ∀ n (X : Matrix (Fin 10) (Fin n) ℝ), (lib.pinv n X * X)ᵀ = lib.pinv n X * X

/-- What is assumed of the eigenvalue routine, for symmetric matrices: it lists the eigenvalues, in no
particular order. -/
def IsEig (lib : Lib) : Prop :=
  ∀ M : Matrix (Fin 3) (Fin 3) ℝ, Mᵀ = M →
    M.charpoly = ∏ a, (Polynomial.X - Polynomial.C (lib.eig M a))

/-- The nodes used for the fit hold a block of 3 by 3 by 3 nodes. -/
def HasBlock (l : List (V3 ℕ)) : Prop :=
  ∃ b : V3 ℕ, ∀ t : V3 ℕ, (∀ a, t a < 3) → (fun a => b a + t a) ∈ l

/-- After subtraction of its mean the map is a Gaussian at all nodes used for the fit (and not so small
that it is clipped). -/
def IsGaussianAt (n : V3 ℕ) (m : MapR) (l : List (V3 ℕ)) (A : ℝ) (c : V3 ℝ)
    (S : Matrix (Fin 3) (Fin 3) ℝ) : Prop :=
  0 < A ∧ S.PosDef ∧
    ∀ v ∈ l, m v - mean n m = gauss3 A c S (fun a => (v a : ℝ)) ∧
      (10 : ℝ) ^ (-300 : ℤ) ≤ m v - mean n m

/-! ## Lemmas -/

theorem quadratic_unisolvent (l : List (V3 ℕ)) (i : V3 ℕ) (h : HasBlock l) (r : Fin 10 → ℝ)
    (hr : vecMul r (design i l) = 0) : r = 0 := by
  obtain ⟨b, hb⟩ := h
  have key : ∀ p q s : ℕ, p < 3 → q < 3 → s < 3 →
      r 0 * ((b 0 + p - i 0) * (b 0 + p - i 0)) + r 1 * ((b 1 + q - i 1) * (b 1 + q - i 1)) +
      r 2 * ((b 2 + s - i 2) * (b 2 + s - i 2)) + r 3 * ((b 0 + p - i 0) * (b 1 + q - i 1)) +
      r 4 * ((b 0 + p - i 0) * (b 2 + s - i 2)) + r 5 * ((b 1 + q - i 1) * (b 2 + s - i 2)) +
      r 6 * (b 0 + p - i 0) + r 7 * (b 1 + q - i 1) + r 8 * (b 2 + s - i 2) + r 9 = (0 : ℝ) := by
    intro p q s hp hq hs
    have hmem := hb ![p, q, s] (by intro a; fin_cases a <;> simpa)
    obtain ⟨k, hk⟩ := List.get_of_mem hmem
    have := congrFun hr k
    simp only [vecMul, dotProduct, design, Pi.zero_apply, hk] at this
    simp [Fin.sum_univ_succ, terms, rel] at this
    linarith
  have e := fun p q s hp hq hs => key p q s hp hq hs
  have h000 := e 0 0 0 (by norm_num) (by norm_num) (by norm_num)
  have h100 := e 1 0 0 (by norm_num) (by norm_num) (by norm_num)
  have h200 := e 2 0 0 (by norm_num) (by norm_num) (by norm_num)
  have h010 := e 0 1 0 (by norm_num) (by norm_num) (by norm_num)
  have h020 := e 0 2 0 (by norm_num) (by norm_num) (by norm_num)
  have h001 := e 0 0 1 (by norm_num) (by norm_num) (by norm_num)
  have h002 := e 0 0 2 (by norm_num) (by norm_num) (by norm_num)
  have h110 := e 1 1 0 (by norm_num) (by norm_num) (by norm_num)
  have h101 := e 1 0 1 (by norm_num) (by norm_num) (by norm_num)
  have h011 := e 0 1 1 (by norm_num) (by norm_num) (by norm_num)
  push_cast at h000 h100 h200 h010 h020 h001 h002 h110 h101 h011
  have r0 : r 0 = 0 := by linear_combination (h200 - 2 * h100 + h000) / 2
  have r1 : r 1 = 0 := by linear_combination (h020 - 2 * h010 + h000) / 2
  have r2 : r 2 = 0 := by linear_combination (h002 - 2 * h001 + h000) / 2
  have r3 : r 3 = 0 := by linear_combination h110 - h100 - h010 + h000
  have r4 : r 4 = 0 := by linear_combination h101 - h100 - h001 + h000
  have r5 : r 5 = 0 := by linear_combination h011 - h010 - h001 + h000
  simp only [r0, r1, r2, r3, r4, r5, zero_mul, zero_add] at h000 h100 h010 h001
  have r6 : r 6 = 0 := by linear_combination h100 - h000
  have r7 : r 7 = 0 := by linear_combination h010 - h000
  have r8 : r 8 = 0 := by linear_combination h001 - h000
  simp only [r6, r7, r8, zero_mul, zero_add] at h000
  funext a
  fin_cases a <;> simp_all

theorem design_pinv (lib : Lib) (hp : IsPinv lib) (l : List (V3 ℕ)) (i : V3 ℕ) (h : HasBlock l) :
    design i l * lib.pinv l.length (design i l) = 1 := by
  have h1 := hp.one l.length (design i l)
  have h2 : (design i l * lib.pinv l.length (design i l) - 1) * design i l = 0 := by
    rw [Matrix.sub_mul, h1, Matrix.one_mul, sub_self]
  have h3 : design i l * lib.pinv l.length (design i l) - 1 = 0 := by
    ext p q
    have := quadratic_unisolvent l i h
      ((design i l * lib.pinv l.length (design i l) - 1 : Matrix (Fin 10) (Fin 10) ℝ) p) (by
        funext k
        have := congrFun (congrFun h2 p) k
        rw [Matrix.mul_apply] at this
        exact this)
    exact congrFun this q
  exact sub_eq_zero.mp h3

/-- The coefficients of the logarithm of a Gaussian. -/
noncomputable def gaussCoeff (A : ℝ) (e : V3 ℝ) (Q : Matrix (Fin 3) (Fin 3) ℝ) : Fin 10 → ℝ :=
  ![Q 0 0 / 2, Q 1 1 / 2, Q 2 2 / 2, Q 0 1, Q 0 2, Q 1 2, -(Q *ᵥ e) 0, -(Q *ᵥ e) 1, -(Q *ᵥ e) 2,
    (e ⬝ᵥ (Q *ᵥ e)) / 2 - Real.log A]

theorem rhs_gauss (n : V3 ℕ) (m : MapR) (i : V3 ℕ) (l : List (V3 ℕ)) (A : ℝ) (c : V3 ℝ)
    (S : Matrix (Fin 3) (Fin 3) ℝ) (h : IsGaussianAt n m l A c S) :
    rhs n m l = vecMul (gaussCoeff A (fun a => c a - i a) S⁻¹) (design i l) := by
  obtain ⟨hA, hS, hl⟩ := h
  have hsym : ∀ a b, S⁻¹ a b = S⁻¹ b a := by
    intro a b
    have := hS.inv.isHermitian.apply b a
    simpa using this
  funext k
  obtain ⟨h1, h2⟩ := hl (l.get k) (List.get_mem l k)
  unfold rhs clipPos
  rw [max_eq_left h2, h1, gauss3, Real.log_mul hA.ne' (Real.exp_pos _).ne', Real.log_exp]
  simp [vecMul, dotProduct, design, Fin.sum_univ_succ, terms, rel, gaussCoeff, mulVec]
  simp only [hsym 1 0, hsym 2 0, hsym 2 1]
  ring

theorem params_gauss (lib : Lib) (hp : IsPinv lib) (n : V3 ℕ) (m : MapR) (i : V3 ℕ) (l : List (V3 ℕ))
    (A : ℝ) (c : V3 ℝ) (S : Matrix (Fin 3) (Fin 3) ℝ) (hb : HasBlock l)
    (h : IsGaussianAt n m l A c S) :
    params lib n m i l = gaussCoeff A (fun a => c a - i a) S⁻¹ := by
  unfold params
  rw [rhs_gauss n m i l A c S h, Matrix.vecMul_vecMul, design_pinv lib hp l i hb, Matrix.vecMul_one]

theorem inv_symm {S : Matrix (Fin 3) (Fin 3) ℝ} (hS : S.PosDef) (a b : Fin 3) :
    S⁻¹ a b = S⁻¹ b a := by
  have := hS.inv.isHermitian.apply b a
  simpa using this

theorem matG_gauss (A : ℝ) (e : V3 ℝ) {S : Matrix (Fin 3) (Fin 3) ℝ} (hS : S.PosDef) :
    matG (gaussCoeff A e S⁻¹) = -S⁻¹ := by
  ext a b
  fin_cases a <;> fin_cases b <;>
    simp [matG, gaussCoeff, inv_symm hS 1 0, inv_symm hS 2 0, inv_symm hS 2 1] <;> ring

theorem matM_gauss (A : ℝ) (e : V3 ℝ) {S : Matrix (Fin 3) (Fin 3) ℝ} (hS : S.PosDef) :
    matM (gaussCoeff A e S⁻¹) = (1 / 2 : ℝ) • S⁻¹ := by
  ext a b
  fin_cases a <;> fin_cases b <;>
    simp [matM, gaussCoeff, inv_symm hS 1 0, inv_symm hS 2 0, inv_symm hS 2 1] <;> ring

theorem vecH_gauss (A : ℝ) (e : V3 ℝ) (Q : Matrix (Fin 3) (Fin 3) ℝ) :
    vecH (gaussCoeff A e Q) = -(Q *ᵥ e) := by
  funext a
  fin_cases a <;> rfl

theorem gaufit_gauss (lib : Lib) (hp : IsPinv lib) (spacing : V3 ℝ) (n : V3 ℕ) (m : MapR)
    (thresh : ℝ) (win : ℕ) (i : V3 ℕ) (hi : GauFit.peak n m = some i) (A : ℝ) (c : V3 ℝ)
    (S : Matrix (Fin 3) (Fin 3) ℝ) (hb : HasBlock (flagged n m thresh win i))
    (h : IsGaussianAt n m (flagged n m thresh win i) A c S) :
    gaufit lib spacing n m thresh win =
      some (c, fun a => sgm (lib.eig ((1 / 2 : ℝ) • S⁻¹) a) * spacing a) := by
  have hS := h.2.1
  have hdet : (S⁻¹).det ≠ 0 := isUnit_iff_ne_zero.mp ((Matrix.isUnit_iff_isUnit_det _).mp hS.inv.isUnit)
  unfold gaufit
  simp only [hi]
  rw [params_gauss lib hp n m i _ A c S hb h, matG_gauss A _ hS, matM_gauss A _ hS, vecH_gauss]
  have hneg : (-S⁻¹).det ≠ 0 := by
    rw [Matrix.det_neg]
    simpa using hdet
  rw [if_neg hneg]
  congr 2
  funext a
  have : (-S⁻¹)⁻¹ *ᵥ -(S⁻¹ *ᵥ fun a => c a - i a) = fun a => c a - (i a : ℝ) := by
    rw [← Matrix.neg_mulVec, Matrix.mulVec_mulVec, Matrix.nonsing_inv_mul _ (isUnit_iff_ne_zero.mpr hneg),
      Matrix.one_mulVec]
  rw [this]
  ring

theorem roots_linear_factors (f : Fin 3 → ℝ) :
    (∏ a, (Polynomial.X - Polynomial.C (f a))).roots = Multiset.map f Finset.univ.val := by
  have : ∏ a, (Polynomial.X - Polynomial.C (f a)) =
      ((Multiset.map f Finset.univ.val).map fun x => Polynomial.X - Polynomial.C x).prod := by
    rw [Multiset.map_map]
    rfl
  rw [this]
  exact Polynomial.roots_multiset_prod_X_sub_C _

/-! ## C94 -/

/-- C94, location: if the map is a Gaussian around its maximum, the location is the centre of the
Gaussian, wherever it lies between the nodes. -/
theorem C94_location (lib : Lib) (hp : IsPinv lib) (spacing : V3 ℝ) (n : V3 ℕ) (m : MapR)
    (thresh : ℝ) (win : ℕ) (i : V3 ℕ) (hi : GauFit.peak n m = some i) (A : ℝ) (c : V3 ℝ)
    (S : Matrix (Fin 3) (Fin 3) ℝ) (hb : HasBlock (flagged n m thresh win i))
    (h : IsGaussianAt n m (flagged n m thresh win i) A c S) :
    ∃ unc, gaufit lib spacing n m thresh win = some (c, unc) :=
  ⟨_, gaufit_gauss lib hp spacing n m thresh win i hi A c S hb h⟩

/-- C94, uncertainty: for a Gaussian along the axes with standard deviations `σ` the values reported
are half of the standard deviations (in units of the node spacing), in some order. -/
theorem C94_uncertainty_partial (lib : Lib) (hp : IsPinv lib) (he : IsEig lib) (spacing : V3 ℝ)
    (hsp : ∀ a, 0 < spacing a) (n : V3 ℕ)
    (m : MapR) (thresh : ℝ) (win : ℕ) (i : V3 ℕ) (hi : GauFit.peak n m = some i) (A : ℝ) (c : V3 ℝ)
    (σ : V3 ℝ) (hσ : ∀ a, 0 < σ a ∧ σ a ≤ 10 ^ (4 : ℕ))
    (hb : HasBlock (flagged n m thresh win i))
    (h : IsGaussianAt n m (flagged n m thresh win i) A c (Matrix.diagonal fun a => σ a ^ 2)) :
    ∃ loc unc, gaufit lib spacing n m thresh win = some (loc, unc) ∧
      List.Perm [unc 0 / spacing 0, unc 1 / spacing 1, unc 2 / spacing 2]
        [σ 0 / 2, σ 1 / 2, σ 2 / 2] := by
  refine ⟨_, _, gaufit_gauss lib hp spacing n m thresh win i hi A c _ hb h, ?_⟩
  set M : Matrix (Fin 3) (Fin 3) ℝ := (1 / 2 : ℝ) • (Matrix.diagonal fun a => σ a ^ 2)⁻¹ with hM
  have hMd : M = Matrix.diagonal fun a => 1 / (2 * σ a ^ 2) := by
    have hne : ∀ a, σ a ^ 2 ≠ 0 := fun a => (pow_pos (hσ a).1 2).ne'
    have hinv : (Matrix.diagonal fun a => σ a ^ 2)⁻¹ = Matrix.diagonal fun a => (σ a ^ 2)⁻¹ := by
      apply Matrix.inv_eq_right_inv
      rw [Matrix.diagonal_mul_diagonal]
      rw [← Matrix.diagonal_one]
      congr 1
      funext a
      exact mul_inv_cancel₀ (hne a)
    rw [hM, hinv, ← Matrix.diagonal_smul]
    congr 1
    funext a
    simp only [Pi.smul_apply, smul_eq_mul]
    have := hne a
    field_simp
  have hchar := he M (by rw [hMd, Matrix.diagonal_transpose])
  have hroots : Multiset.map (lib.eig M) Finset.univ.val =
      Multiset.map (fun a : Fin 3 => 1 / (2 * σ a ^ 2)) Finset.univ.val := by
    have e1 : M.charpoly.roots = Multiset.map (lib.eig M) Finset.univ.val := by
      rw [hchar, roots_linear_factors]
    have e2 : M.charpoly.roots = Multiset.map (fun a : Fin 3 => 1 / (2 * σ a ^ 2)) Finset.univ.val := by
      rw [hMd, Matrix.charpoly_diagonal, roots_linear_factors]
    rw [← e1, e2]
  have hperm : List.Perm [lib.eig M 0, lib.eig M 1, lib.eig M 2]
      [1 / (2 * σ 0 ^ 2), 1 / (2 * σ 1 ^ 2), 1 / (2 * σ 2 ^ 2)] := by
    rw [← Multiset.coe_eq_coe]
    exact hroots
  have hsgm : ∀ a, sgm (1 / (2 * σ a ^ 2)) = σ a / 2 := by
    intro a
    obtain ⟨h1, h2⟩ := hσ a
    have hpos : 0 < 1 / (2 * σ a ^ 2) := by positivity
    have hle : (10 : ℝ) ^ (-10 : ℤ) ≤ 1 / (2 * σ a ^ 2) := by
      rw [le_div_iff₀ (by positivity)]
      have : σ a ^ 2 ≤ (10 ^ 4) ^ 2 := by gcongr
      have e : (10 : ℝ) ^ (-10 : ℤ) = 1 / 10 ^ 10 := by norm_num
      rw [e]
      norm_num at this ⊢
      linarith
    unfold sgm
    rw [abs_of_pos hpos, max_eq_left hle]
    have : (0.5 : ℝ) / (1 / (2 * σ a ^ 2)) = σ a ^ 2 := by
      have := h1.ne'
      field_simp
      norm_num
    rw [this, Real.sqrt_sq h1.le]
  have hcancel : ∀ a, sgm (lib.eig M a) * spacing a / spacing a = sgm (lib.eig M a) := by
    intro a
    have := (hsp a).ne'
    field_simp
  simp only [hcancel]
  have := hperm.map sgm
  simp only [List.map_cons, List.map_nil, hsgm] at this
  exact this

/-- C94, uncertainty of any Gaussian: each value reported is half of the square root of a principal
variance, times the node spacing of an axis. -/
theorem C94_uncertainty_principal_partial (lib : Lib) (hp : IsPinv lib) (he : IsEig lib)
    (spacing : V3 ℝ) (n : V3 ℕ)
    (m : MapR) (thresh : ℝ) (win : ℕ) (i : V3 ℕ) (hi : GauFit.peak n m = some i) (A : ℝ) (c : V3 ℝ)
    (S : Matrix (Fin 3) (Fin 3) ℝ)
    (hclip : ∀ (μ : ℝ) (v : V3 ℝ), v ≠ 0 → S *ᵥ v = μ • v → μ ≤ 5 * 10 ^ (9 : ℕ))
    (hb : HasBlock (flagged n m thresh win i))
    (h : IsGaussianAt n m (flagged n m thresh win i) A c S) :
    ∃ loc unc, gaufit lib spacing n m thresh win = some (loc, unc) ∧
      ∀ a, ∃ (s : ℝ) (v : V3 ℝ), 0 < s ∧ v ≠ 0 ∧ S *ᵥ v = s ^ 2 • v ∧
        unc a = s / 2 * spacing a := by
  refine ⟨_, _, gaufit_gauss lib hp spacing n m thresh win i hi A c _ hb h, ?_⟩
  intro a
  have hS := h.2.1
  have hSdet : S.det ≠ 0 := isUnit_iff_ne_zero.mp ((Matrix.isUnit_iff_isUnit_det _).mp hS.isUnit)
  set M : Matrix (Fin 3) (Fin 3) ℝ := (1 / 2 : ℝ) • S⁻¹ with hM
  have hsymM : Mᵀ = M := by
    ext p q
    simp [hM, inv_symm hS q p]
  have hroot : M.charpoly.IsRoot (lib.eig M a) := by
    rw [he M hsymM, Polynomial.IsRoot, Polynomial.eval_prod]
    exact Finset.prod_eq_zero (Finset.mem_univ a) (by simp)
  have hdet : (Matrix.scalar (Fin 3) (lib.eig M a) - M).det = 0 := by
    rw [← Matrix.eval_charpoly]; exact hroot
  obtain ⟨v, hv, hMv⟩ := Matrix.exists_mulVec_eq_zero_iff.mpr hdet
  set lam := lib.eig M a with hlam
  have hMv' : M *ᵥ v = lam • v := by
    rw [Matrix.sub_mulVec, sub_eq_zero] at hMv
    rw [← hMv]
    funext b
    simp [Matrix.scalar_apply, Matrix.mulVec_diagonal]
  have hSv : v = (2 * lam) • (S *ᵥ v) := by
    have h1 : S *ᵥ (M *ᵥ v) = (1 / 2 : ℝ) • v := by
      rw [hM, Matrix.smul_mulVec, Matrix.mulVec_smul, Matrix.mulVec_mulVec,
        Matrix.mul_nonsing_inv _ (isUnit_iff_ne_zero.mpr hSdet), Matrix.one_mulVec]
    rw [hMv', Matrix.mulVec_smul] at h1
    have := congrArg (fun w => (2 : ℝ) • w) h1
    simp only [smul_smul] at this
    rw [show (2 : ℝ) * (1 / 2) = 1 by norm_num, one_smul] at this
    exact this.symm
  have hlpos : 0 < lam := by
    have hq := hS.dotProduct_mulVec_pos hv
    have hvv : 0 < v ⬝ᵥ v := by
      refine lt_of_le_of_ne (Finset.sum_nonneg fun b _ => mul_self_nonneg _) (Ne.symm ?_)
      rw [Ne, dotProduct_self_eq_zero]
      exact hv
    have e : v ⬝ᵥ v = 2 * lam * (v ⬝ᵥ (S *ᵥ v)) := by
      conv_lhs => rhs; rw [hSv]
      rw [dotProduct_smul, smul_eq_mul]
    have hq' : 0 < v ⬝ᵥ (S *ᵥ v) := by simpa using hq
    by_contra hneg
    push Not at hneg
    nlinarith
  have hmu : S *ᵥ v = (1 / (2 * lam)) • v := by
    conv_rhs => rw [hSv]
    rw [smul_smul]
    have : 1 / (2 * lam) * (2 * lam) = 1 := by field_simp
    rw [this, one_smul]
  have hcl := hclip _ v hv hmu
  refine ⟨Real.sqrt (1 / (2 * lam)), v, Real.sqrt_pos.mpr (by positivity), hv, ?_, ?_⟩
  · rw [Real.sq_sqrt (by positivity)]; exact hmu
  · unfold sgm
    have hle : (10 : ℝ) ^ (-10 : ℤ) ≤ lam := by
      rw [div_le_iff₀ (by positivity)] at hcl
      have e : (10 : ℝ) ^ (-10 : ℤ) = 1 / 10 ^ 10 := by norm_num
      rw [e]
      norm_num at hcl ⊢
      linarith
    rw [abs_of_pos hlpos, max_eq_left hle]
    congr 3
    have := hlpos.ne'
    field_simp
    norm_num

theorem peakR_mem {n : V3 ℕ} {m : MapR} {i : V3 ℕ} (h : GauFit.peak n m = some i) : i ∈ allNodes n := by
  classical
  unfold GauFit.peak at h
  cases hl : allNodes n with
  | nil => rw [hl] at h; cases h
  | cons a l =>
    rw [hl] at h
    simp only [Option.some.injEq] at h
    subst h
    have : ∀ (l : List (V3 ℕ)) (a : V3 ℕ),
        l.foldl (fun best b => if m best < m b then b else best) a ∈ a :: l := by
      intro l
      induction l with
      | nil => simp
      | cons b l ih =>
        intro a
        simp only [List.foldl_cons]
        rcases List.mem_cons.mp (ih (if m a < m b then b else a)) with h | h
        · rw [h]; split_ifs <;> simp
        · simp [h]
    exact this l a

theorem peakR_of_max {n : V3 ℕ} {m : MapR} {i : V3 ℕ} (hi : i ∈ allNodes n)
    (h : ∀ v ∈ allNodes n, v ≠ i → m v < m i) : GauFit.peak n m = some i := by
  classical
  have key : ∀ (l : List (V3 ℕ)) (a : V3 ℕ), i ∈ a :: l → (∀ v ∈ a :: l, v ≠ i → m v < m i) →
      l.foldl (fun best b => if m best < m b then b else best) a = i := by
    intro l
    induction l with
    | nil => intro a h1 _; simpa using Eq.symm (by simpa using h1)
    | cons b l ih =>
      intro a h1 h2
      simp only [List.foldl_cons]
      apply ih
      · by_cases hab : m a < m b
        · rw [if_pos hab]
          rcases List.mem_cons.mp h1 with e | e
          · subst e
            by_cases hb : b = i
            · simp [hb]
            · exact absurd (h2 b (by simp) hb) (not_lt.mpr hab.le)
          · exact e
        · rw [if_neg hab]
          rcases List.mem_cons.mp h1 with e | e
          · simp [e]
          · rcases List.mem_cons.mp e with e | e
            · subst e
              by_cases ha : a = i
              · simp [ha]
              · exact absurd (h2 a (by simp) ha) hab
            · simp [e]
      · intro v hv
        apply h2
        rcases List.mem_cons.mp hv with e | e
        · subst e; split_ifs <;> simp
        · simp [e]
  unfold GauFit.peak
  cases hl : allNodes n with
  | nil => rw [hl] at hi; cases hi
  | cons a l =>
    rw [hl] at hi h
    simp only [Option.some.injEq]
    exact key l a hi h

theorem mem_allNodes_iff (n v : V3 ℕ) : v ∈ allNodes n ↔ ∀ a, v a < n a := by
  unfold allNodes
  simp only [List.mem_flatMap, List.mem_range, List.mem_map]
  constructor
  · rintro ⟨p, hp, q, hq, s, hs, rfl⟩ a
    fin_cases a <;> simpa
  · intro h
    refine ⟨v 0, h 0, v 1, h 1, v 2, h 2, ?_⟩
    funext a
    fin_cases a <;> rfl

theorem params_zero (lib : Lib) (hp : IsPinv lib) (n : V3 ℕ) (m : MapR) (i : V3 ℕ)
    (l : List (V3 ℕ)) (t : Fin 10) (h : ∀ k, design i l t k = 0) : params lib n m i l t = 0 := by
  have h2 := hp.two l.length (design i l)
  have h3 := hp.three l.length (design i l)
  have hcol : ∀ k, lib.pinv l.length (design i l) k t = 0 := by
    intro k
    have e : lib.pinv l.length (design i l) =
        lib.pinv l.length (design i l) * (lib.pinv l.length (design i l))ᵀ * (design i l)ᵀ := by
      conv_lhs => rw [← h2, Matrix.mul_assoc, ← h3, Matrix.transpose_mul, ← Matrix.mul_assoc]
    rw [e, Matrix.mul_apply]
    apply Finset.sum_eq_zero
    intro j _
    rw [Matrix.transpose_apply, h j, mul_zero]
  unfold params vecMul dotProduct
  refine Finset.sum_eq_zero fun k _ => ?_
  change rhs n m l k * lib.pinv l.length (design i l) k t = 0
  rw [hcol k, mul_zero]

/-- C94: a grid with a single node on some axis has no Gaussian location, the fit raises. -/
theorem C94_flat_grid (lib : Lib) (hp : IsPinv lib) (spacing : V3 ℝ) (n : V3 ℕ) (m : MapR)
    (thresh : ℝ) (win : ℕ) (a : Fin 3) (ha : n a = 1) :
    gaufit lib spacing n m thresh win = none := by
  unfold gaufit
  cases hi : GauFit.peak n m with
  | none => rfl
  | some i =>
    have hia : i a = 0 := by
      have := (mem_allNodes_iff n i).mp (peakR_mem hi) a
      omega
    have hrel : ∀ k, rel i ((flagged n m thresh win i).get k) a = 0 := by
      intro k
      have hmem := List.get_mem (flagged n m thresh win i) k
      have hv : (flagged n m thresh win i).get k a < n a :=
        (mem_allNodes_iff n _).mp (List.mem_filter.mp hmem).1 a
      rw [ha] at hv
      unfold rel
      rw [hia, Nat.lt_one_iff.mp hv]
      simp
    have hz : ∀ t, (∀ d : V3 ℝ, d a = 0 → terms d t = 0) →
        params lib n m i (flagged n m thresh win i) t = 0 := fun t ht =>
      params_zero lib hp n m i _ t fun k => ht _ (hrel k)
    simp only
    rw [if_pos]
    apply Matrix.det_eq_zero_of_row_eq_zero a
    intro b
    fin_cases a
    · have h0 := hz 0 (by intro d hd; simp at hd; simp [terms, hd])
      have h3 := hz 3 (by intro d hd; simp at hd; simp [terms, hd])
      have h4 := hz 4 (by intro d hd; simp at hd; simp [terms, hd])
      fin_cases b <;> simp [matG, h0, h3, h4]
    · have h1 := hz 1 (by intro d hd; simp at hd; simp [terms, hd])
      have h3 := hz 3 (by intro d hd; simp at hd; simp [terms, hd])
      have h5 := hz 5 (by intro d hd; simp at hd; simp [terms, hd])
      fin_cases b <;> simp [matG, h1, h3, h5]
    · have h2 := hz 2 (by intro d hd; simp at hd; simp [terms, hd])
      have h4 := hz 4 (by intro d hd; simp at hd; simp [terms, hd])
      have h5 := hz 5 (by intro d hd; simp at hd; simp [terms, hd])
      fin_cases b <;> simp [matG, h2, h4, h5]

/-! ## Concrete cases -/

theorem symm_ginv (B : Matrix (Fin 10) (Fin 10) ℝ) (hB : Bᵀ = B) :
    ∃ C : Matrix (Fin 10) (Fin 10) ℝ, Cᵀ = C ∧ B * C * B = B ∧ C * B * C = C ∧ (B * C)ᵀ = B * C := by
  have hH : B.IsHermitian := by
    unfold Matrix.IsHermitian
    rw [Matrix.conjTranspose_eq_transpose_of_trivial, hB]
  have hs := hH.spectral_theorem
  set U : Matrix (Fin 10) (Fin 10) ℝ := (hH.eigenvectorUnitary : Matrix (Fin 10) (Fin 10) ℝ) with hU
  set e := hH.eigenvalues
  have hUU : Uᵀ * U = 1 := by
    have := Unitary.coe_star_mul_self hH.eigenvectorUnitary
    rwa [Matrix.star_eq_conjTranspose, Matrix.conjTranspose_eq_transpose_of_trivial] at this
  have hBs : B = U * Matrix.diagonal e * Uᵀ := by
    rw [Unitary.conjStarAlgAut_apply, Matrix.star_eq_conjTranspose,
      Matrix.conjTranspose_eq_transpose_of_trivial] at hs
    exact hs
  have mul3 : ∀ x y : Fin 10 → ℝ, U * Matrix.diagonal x * Uᵀ * (U * Matrix.diagonal y * Uᵀ) =
      U * Matrix.diagonal (fun i => x i * y i) * Uᵀ := by
    intro x y
    calc _ = U * Matrix.diagonal x * (Uᵀ * U) * Matrix.diagonal y * Uᵀ := by
          simp only [Matrix.mul_assoc]
      _ = _ := by
          rw [hUU, Matrix.mul_one, Matrix.mul_assoc U, Matrix.diagonal_mul_diagonal]
  have htr : ∀ x : Fin 10 → ℝ, (U * Matrix.diagonal x * Uᵀ)ᵀ = U * Matrix.diagonal x * Uᵀ := by
    intro x
    rw [Matrix.transpose_mul, Matrix.transpose_mul, Matrix.transpose_transpose,
      Matrix.diagonal_transpose, Matrix.mul_assoc]
  refine ⟨U * Matrix.diagonal (fun i => (e i)⁻¹) * Uᵀ, htr _, ?_, ?_, ?_⟩
  · have e1 : (fun i => e i * (e i)⁻¹ * e i) = e := funext fun i => mul_inv_mul_cancel (e i)
    rw [hBs, mul3, mul3, e1]
  · have e1 : (fun i => (e i)⁻¹ * e i * (e i)⁻¹) = fun i => (e i)⁻¹ := funext fun i => by
      have := mul_inv_mul_cancel (e i)⁻¹
      rwa [inv_inv] at this
    rw [hBs, mul3, mul3, e1]
  · rw [hBs, mul3, htr]

/-- Pseudo-inverses and eigenvalues exist. -/
theorem exists_lib : ∃ lib : Lib, IsPinv lib ∧ IsEig lib := by
  classical
  have hp : ∀ n (X : Matrix (Fin 10) (Fin n) ℝ), ∃ Y : Matrix (Fin n) (Fin 10) ℝ,
      X * Y * X = X ∧ Y * X * Y = Y ∧ (X * Y)ᵀ = X * Y ∧ (Y * X)ᵀ = Y * X := by
    intro n X
    obtain ⟨C, h1, h2, h3, h4⟩ := symm_ginv (X * Xᵀ) (by
      rw [Matrix.transpose_mul, Matrix.transpose_transpose])
    have hX : X * Xᵀ * C * X = X := by
      have hz : (X * Xᵀ * C * X - X) * (X * Xᵀ * C * X - X)ᴴ = 0 := by
        rw [Matrix.conjTranspose_eq_transpose_of_trivial]
        have e : X * Xᵀ * C * X - X = (X * Xᵀ * C - 1) * X := by
          rw [Matrix.sub_mul, Matrix.one_mul]
        rw [e, Matrix.transpose_mul]
        have : (X * Xᵀ * C - 1) * X * (Xᵀ * (X * Xᵀ * C - 1)ᵀ) =
            (X * Xᵀ * C * (X * Xᵀ) - X * Xᵀ) * (X * Xᵀ * C - 1)ᵀ := by
          rw [← Matrix.mul_assoc, Matrix.mul_assoc _ X Xᵀ, Matrix.sub_mul, Matrix.one_mul]
        rw [this, h2, sub_self, Matrix.zero_mul]
      exact sub_eq_zero.mp (Matrix.self_mul_conjTranspose_eq_zero.mp hz)
    refine ⟨Xᵀ * C, ?_, ?_, ?_, ?_⟩
    · rw [← Matrix.mul_assoc]; exact hX
    · calc Xᵀ * C * X * (Xᵀ * C) = Xᵀ * (C * (X * Xᵀ) * C) := by simp only [Matrix.mul_assoc]
        _ = Xᵀ * C := by rw [h3]
    · rw [← Matrix.mul_assoc]; exact h4
    · rw [Matrix.transpose_mul, Matrix.transpose_mul, Matrix.transpose_transpose, h1,
        Matrix.mul_assoc]
  choose pinv hpinv using hp
  refine ⟨⟨pinv, fun M => if h : M.IsHermitian then h.eigenvalues else 0⟩,
    ⟨fun n X => (hpinv n X).1, fun n X => (hpinv n X).2.1, fun n X => (hpinv n X).2.2.1,
      fun n X => (hpinv n X).2.2.2⟩, ?_⟩
  intro M hM
  have hH : M.IsHermitian := by
    unfold Matrix.IsHermitian
    rw [Matrix.conjTranspose_eq_transpose_of_trivial, hM]
  simp only [dif_pos hH]
  exact hH.charpoly_eq

/-- A grid of 8 by 3 by 3 nodes. -/
def exGauCount : V3 ℕ := ![8, 3, 3]

/-- Half a node outside the grid. -/
noncomputable def exGauCentre : V3 ℝ := ![-1 / 2, 1, 1]

/-- Gaussian with standard deviation of one node in all directions. -/
noncomputable def exGauss (v : V3 ℕ) : ℝ := gauss3 1 exGauCentre 1 (fun a => (v a : ℝ))

/-- Sum of the Gaussian over the nodes near its centre. -/
noncomputable def exGauSum : ℝ :=
  (((allNodes exGauCount).filter fun v => v 0 < 4).map exGauss).sum

/-- A map with mean 1 that is 1 plus the Gaussian at the nodes near its centre. -/
noncomputable def exGauMap : MapR := fun v => if v 0 < 4 then 1 + exGauss v else 1 - exGauSum / 36

theorem sum_map_ite (l : List (V3 ℕ)) (g : V3 ℕ → ℝ) (b : ℝ) :
    (l.map fun v => if v 0 < 4 then 1 + g v else b).sum =
      (l.filter fun v => v 0 < 4).length + ((l.filter fun v => v 0 < 4).map g).sum +
        (l.filter fun v => ¬ v 0 < 4).length * b := by
  induction l with
  | nil => simp
  | cons v l ih =>
    by_cases h : v 0 < 4
    · simp only [List.map_cons, List.sum_cons, ih, h, if_true, List.filter_cons, decide_true,
        not_true, decide_false, List.length_cons]
      push_cast
      simp
      ring
    · simp only [List.map_cons, List.sum_cons, ih, h, if_false, List.filter_cons, decide_true,
        not_false_eq_true, decide_false]
      push_cast
      simp
      ring

theorem exGau_mean : GauFit.mean exGauCount exGauMap = 1 := by
  unfold GauFit.mean exGauMap
  rw [sum_map_ite]
  have h1 : ((allNodes exGauCount).filter fun v => v 0 < 4).length = 36 := by decide +kernel
  have h2 : ((allNodes exGauCount).filter fun v => ¬ v 0 < 4).length = 36 := by decide +kernel
  have h3 : (allNodes exGauCount).length = 72 := by decide +kernel
  rw [h1, h2, h3]
  change ((36 : ℕ) + exGauSum + (36 : ℕ) * (1 - exGauSum / 36)) / ((72 : ℕ) : ℝ) = 1
  push_cast
  ring

theorem exGauss_eq (v : V3 ℕ) : exGauss v =
    Real.exp (-(((v 0 : ℝ) + 1 / 2) ^ 2 + ((v 1 : ℝ) - 1) ^ 2 + ((v 2 : ℝ) - 1) ^ 2) / 2) := by
  unfold exGauss gauss3 exGauCentre
  rw [inv_one, Matrix.one_mulVec, one_mul]
  congr 2
  simp [dotProduct, Fin.sum_univ_succ]
  ring

theorem exGau_sum_nonneg : 0 ≤ exGauSum := by
  apply List.sum_nonneg
  intro x hx
  obtain ⟨v, -, rfl⟩ := List.mem_map.mp hx
  rw [exGauss_eq]
  exact (Real.exp_pos _).le

theorem exGau_peak : GauFit.peak exGauCount exGauMap = some ![0, 1, 1] := by
  apply peakR_of_max
  · rw [mem_allNodes_iff]; decide
  · intro v hv hne
    have hi : exGauMap ![0, 1, 1] = 1 + exGauss ![0, 1, 1] := by
      unfold exGauMap; rw [if_pos (by decide)]
    rw [hi]
    have hpos : 0 < exGauss ![0, 1, 1] := by rw [exGauss_eq]; exact Real.exp_pos _
    unfold exGauMap
    by_cases h : v 0 < 4
    · rw [if_pos h, exGauss_eq, exGauss_eq]
      have : Real.exp (-(((v 0 : ℝ) + 1 / 2) ^ 2 + ((v 1 : ℝ) - 1) ^ 2 + ((v 2 : ℝ) - 1) ^ 2) / 2) <
          Real.exp (-((((![0, 1, 1] : V3 ℕ) 0 : ℝ) + 1 / 2) ^ 2 +
            (((![0, 1, 1] : V3 ℕ) 1 : ℝ) - 1) ^ 2 + (((![0, 1, 1] : V3 ℕ) 2 : ℝ) - 1) ^ 2) / 2) := by
        rw [Real.exp_lt_exp]
        simp only [Matrix.cons_val_zero, Matrix.cons_val_one, Matrix.cons_val]
        have h0 : (0 : ℝ) ≤ v 0 := Nat.cast_nonneg _
        have hcase : v 0 ≠ 0 ∨ v 1 ≠ 1 ∨ v 2 ≠ 1 := by
          by_contra hc
          push Not at hc
          apply hne
          funext a
          fin_cases a
          · exact hc.1
          · exact hc.2.1
          · exact hc.2.2
        have hsq : ∀ k : ℕ, k ≠ 1 → (0 : ℝ) < ((k : ℝ) - 1) ^ 2 := by
          intro k hk
          refine lt_of_le_of_ne (sq_nonneg _) (Ne.symm (pow_ne_zero 2 ?_))
          intro h
          apply hk
          have : (k : ℝ) = 1 := by linarith
          exact_mod_cast this
        rcases hcase with hc | hc | hc
        · have : (1 : ℝ) ≤ v 0 := by exact_mod_cast Nat.one_le_iff_ne_zero.mpr hc
          norm_num
          nlinarith [sq_nonneg ((v 1 : ℝ) - 1), sq_nonneg ((v 2 : ℝ) - 1)]
        · have := hsq _ hc
          norm_num
          nlinarith [sq_nonneg ((v 2 : ℝ) - 1)]
        · have := hsq _ hc
          norm_num
          nlinarith [sq_nonneg ((v 1 : ℝ) - 1)]
      linarith
    · rw [if_neg h]
      have := exGau_sum_nonneg
      linarith [div_nonneg this (by norm_num : (0 : ℝ) ≤ 36)]

theorem exGau_flagged (v : V3 ℕ) (hv : v ∈ flagged exGauCount exGauMap 0 7 ![0, 1, 1]) :
    v 0 < 4 ∧ v 1 < 3 ∧ v 2 < 3 := by
  have h := List.mem_filter.mp hv
  have hn := (mem_allNodes_iff _ _).mp h.1
  have hm := (@of_decide_eq_true _ (_) h.2).2 0
  refine ⟨?_, hn 1, hn 2⟩
  have : Locate.winHi (exGauCount 0) ((![0, 1, 1] : V3 ℕ) 0) 7 = 4 := by decide
  rw [this] at hm
  omega

theorem exGau_block : HasBlock (flagged exGauCount exGauMap 0 7 ![0, 1, 1]) := by
  refine ⟨0, fun t ht => ?_⟩
  have h0 := ht 0
  have h1 := ht 1
  have h2 := ht 2
  refine List.mem_filter.mpr ⟨(mem_allNodes_iff _ _).mpr ?_, @decide_eq_true _ (_) ⟨?_, ?_⟩⟩
  · intro a
    fin_cases a <;> simp [exGauCount] <;> omega
  · unfold exGauMap
    rw [if_pos (by simp; omega), exGauss_eq]
    linarith [Real.exp_pos (-((((0 : V3 ℕ) 0 + t 0 : ℕ) + 1 / 2 : ℝ) ^ 2 +
      (((0 : V3 ℕ) 1 + t 1 : ℕ) - 1 : ℝ) ^ 2 + (((0 : V3 ℕ) 2 + t 2 : ℕ) - 1 : ℝ) ^ 2) / 2)]
  · intro a
    have hlo : ∀ a, Locate.winLo (exGauCount a) ((![0, 1, 1] : V3 ℕ) a) 7 = 0 := by decide
    have hhi : ∀ a, 3 ≤ Locate.winHi (exGauCount a) ((![0, 1, 1] : V3 ℕ) a) 7 := by decide
    have := hlo a
    have := hhi a
    have := ht a
    simp only [Pi.zero_apply]
    omega

theorem exGau_gaussian : IsGaussianAt exGauCount exGauMap
    (flagged exGauCount exGauMap 0 7 ![0, 1, 1]) 1 exGauCentre
    (Matrix.diagonal fun _ => (1 : ℝ) ^ 2) := by
  have h1 : (Matrix.diagonal fun _ : Fin 3 => (1 : ℝ) ^ 2) = 1 := by simp
  rw [h1]
  refine ⟨one_pos, Matrix.PosDef.one, fun v hv => ?_⟩
  obtain ⟨h0, h1, h2⟩ := exGau_flagged v hv
  have e : exGauMap v - GauFit.mean exGauCount exGauMap = exGauss v := by
    rw [exGau_mean]
    unfold exGauMap
    rw [if_pos h0]
    ring
  rw [e]
  refine ⟨rfl, ?_⟩
  rw [exGauss_eq]
  have hx : (-8 : ℝ) ≤
      -(((v 0 : ℝ) + 1 / 2) ^ 2 + ((v 1 : ℝ) - 1) ^ 2 + ((v 2 : ℝ) - 1) ^ 2) / 2 := by
    have a0 : (v 0 : ℝ) ≤ 3 := by exact_mod_cast Nat.lt_succ_iff.mp h0
    have a1 : (v 1 : ℝ) ≤ 2 := by exact_mod_cast Nat.lt_succ_iff.mp h1
    have a2 : (v 2 : ℝ) ≤ 2 := by exact_mod_cast Nat.lt_succ_iff.mp h2
    have b0 : (0 : ℝ) ≤ v 0 := Nat.cast_nonneg _
    have b1 : (0 : ℝ) ≤ v 1 := Nat.cast_nonneg _
    have b2 : (0 : ℝ) ≤ v 2 := Nat.cast_nonneg _
    nlinarith
  refine le_trans ?_ (Real.exp_le_exp.mpr hx)
  have h8 : Real.exp (-8) = (Real.exp 1 ^ 8)⁻¹ := by
    rw [Real.exp_neg, ← Real.exp_nat_mul]
    norm_num
  rw [h8, _root_.zpow_neg]
  apply inv_anti₀ (by positivity)
  have h3 : Real.exp 1 ≤ 10 := by linarith [Real.exp_one_lt_d9]
  calc Real.exp 1 ^ 8 ≤ 10 ^ 8 := by gcongr
    _ ≤ (10 : ℝ) ^ (300 : ℤ) := by
      rw [show (300 : ℤ) = ((300 : ℕ) : ℤ) from rfl, zpow_natCast]
      exact pow_le_pow_right₀ (by norm_num) (by norm_num)

/-- C94 fails for the uncertainty: a Gaussian with a standard deviation of one node in all
directions has reported uncertainties of half a node.  Also, its centre and so the location lie outside
the grid. -/
theorem C94_violated : ∃ (lib : Lib) (n : V3 ℕ) (m : MapR) (i : V3 ℕ) (c unc : V3 ℝ),
    IsPinv lib ∧ IsEig lib ∧ GauFit.peak n m = some i ∧
    IsGaussianAt n m (flagged n m 0 7 i) 1 c (Matrix.diagonal fun _ => (1 : ℝ) ^ 2) ∧
    gaufit lib (fun _ => 1) n m 0 7 = some (c, unc) ∧ (∀ a, unc a = 1 / 2) ∧ c 0 < 0 := by
  obtain ⟨lib, hp, he⟩ := exists_lib
  obtain ⟨loc, unc, h1, h2⟩ := C94_uncertainty_partial lib hp he (fun _ => 1) (fun _ => one_pos)
    exGauCount exGauMap 0 7 ![0, 1, 1] exGau_peak 1 exGauCentre (fun _ => 1) (fun _ => by norm_num)
    exGau_block exGau_gaussian
  obtain ⟨unc', h3⟩ := C94_location lib hp (fun _ => 1) exGauCount exGauMap 0 7 ![0, 1, 1] exGau_peak 1
    exGauCentre _ exGau_block exGau_gaussian
  have heq := h1.symm.trans h3
  simp only [Option.some.injEq, Prod.mk.injEq] at heq
  obtain ⟨rfl, rfl⟩ := heq
  refine ⟨lib, exGauCount, exGauMap, ![0, 1, 1], exGauCentre, unc, hp, he, exGau_peak, exGau_gaussian,
    h1, ?_, ?_⟩
  · have hall : ∀ x ∈ [unc 0 / 1, unc 1 / 1, unc 2 / 1], x = 1 / 2 := by
      intro x hx
      have := h2.mem_iff.mp hx
      simpa using this
    intro a
    fin_cases a
    · simpa using hall (unc 0 / 1) (by simp)
    · simpa using hall (unc 1 / 1) (by simp)
    · simpa using hall (unc 2 / 1) (by simp)
  · norm_num [exGauCentre]

example (lib : Lib) (hp : IsPinv lib) (m : MapR) :
    gaufit lib (fun _ => 1) ![10, 10, 1] m 0 7 = none :=
  C94_flat_grid lib hp _ _ m 0 7 2 rfl

end QM

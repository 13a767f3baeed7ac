import Verif.Props.FindPeaks
import Verif.Props.WoodAnderson
import Mathlib.Analysis.SpecialFunctions.Complex.Arg
import Mathlib.Analysis.SpecialFunctions.Trigonometric.Bounds
import Mathlib.Tactic.IntervalCases

/-!
# C195: the amplitude measured of a clean signal
-/

namespace QM
open QM.Amplitude QM.Spec QM.FindPeaks

/-! ## Specification -/

/-- The samples `x` do not fall from `a` to `b`. -/
def Spec.Rises (x : ℕ → ℚ) (a b : ℕ) : Prop := ∀ i, a ≤ i → i < b → x i ≤ x (i + 1)

/-- The samples `x` do not rise from `a` to `b`. -/
def Spec.Falls (x : ℕ → ℚ) (a b : ℕ) : Prop := ∀ i, a ≤ i → i < b → x (i + 1) ≤ x i

/-! ## Proof -/

private theorem rises_le {x : ℕ → ℚ} {a b : ℕ} (h : Rises x a b) : ∀ {i j}, a ≤ i → i ≤ j → j ≤ b → x i ≤ x j := by
  intro i j hi hij hj
  induction j, hij using Nat.le_induction with
  | base => exact le_rfl
  | succ j hij ih => exact (ih (by omega)).trans (h j (by omega) (by omega))

private theorem falls_le {x : ℕ → ℚ} {a b : ℕ} (h : Falls x a b) : ∀ {i j}, a ≤ i → i ≤ j → j ≤ b → x j ≤ x i := by
  intro i j hi hij hj
  induction j, hij using Nat.le_induction with
  | base => exact le_rfl
  | succ j hij ih => exact (h j (by omega) (by omega)).trans (ih (by omega))

private theorem top {x : ℕ → ℚ} {n a p q : ℕ} (h1 : Rises x a p) (h2 : Falls x p q) (hap : a < p) (hpq : p < q)
    (hq : q < n) (l1 : x a < x p) (l2 : x q < x p) :
    ∃ l r, IsPeak x n l r ∧ a < l ∧ l ≤ p ∧ p ≤ r ∧ r < q := by
  classical
  have e1 : ∃ i, a ≤ i ∧ x i = x p := ⟨p, hap.le, rfl⟩
  have e2 : ∃ i, p < i ∧ x i < x p := ⟨q, hpq, l2⟩
  set l := Nat.find e1 with hl
  set s := Nat.find e2 with hs
  have f1 := Nat.find_spec e1
  have f2 := Nat.find_spec e2
  rw [← hl] at f1
  rw [← hs] at f2
  have m1 : l ≤ p := Nat.find_min' e1 ⟨hap.le, rfl⟩
  have m2 : s ≤ q := Nat.find_min' e2 ⟨hpq, l2⟩
  have hla : a < l := by
    rcases Nat.lt_or_ge a l with h | h
    · exact h
    · have : l = a := le_antisymm h f1.1
      rw [this] at f1
      exact absurd f1.2 l1.ne
  refine ⟨l, s - 1, ⟨by omega, by omega, by omega, ?_, ?_, ?_⟩, hla, m1, by omega, by omega⟩
  · have h3 : x (l - 1) ≤ x p := rises_le h1 (by omega) (by omega) le_rfl
    rw [f1.2]
    refine lt_of_le_of_ne h3 fun h4 => ?_
    exact Nat.find_min e1 (m := l - 1) (by omega) ⟨by omega, h4⟩
  · intro k hk1 hk2
    rw [f1.2]
    rcases Nat.le_total k p with h | h
    · refine le_antisymm (rises_le h1 (by omega) h le_rfl) ?_
      rw [← f1.2]
      exact rises_le h1 f1.1 hk1 h
    · refine le_antisymm (falls_le h2 le_rfl h (by omega)) ?_
      rcases Nat.eq_or_lt_of_le h with h5 | h5
      · rw [h5]
      · by_contra h6
        exact Nat.find_min e2 (m := k) (by omega) ⟨h5, not_le.1 h6⟩
  · have : s - 1 + 1 = s := by omega
    rw [this, f1.2]
    exact f2.2

private theorem mem_neighbours_of : ∀ (E : List ℕ) (e f : ℕ), E.Pairwise (· < ·) → e ∈ E → f ∈ E → e < f →
    (∀ g ∈ E, e < g → ¬ g < f) → (e, f) ∈ neighbours E
  | [], e, f, _, he, _, _, _ => absurd he (by simp)
  | [a], e, f, _, he, hf, hlt, _ => by
    simp only [List.mem_singleton] at he hf
    omega
  | a :: b :: l, e, f, hs, he, hf, hlt, hno => by
    have e0 : neighbours (a :: b :: l) = (a, b) :: neighbours (b :: l) := by simp [neighbours]
    rw [e0]
    have hs' := hs
    rw [List.pairwise_cons] at hs
    rcases List.mem_cons.1 he with rfl | he'
    · have hf' : f ∈ b :: l := by
        rcases List.mem_cons.1 hf with h | h
        · omega
        · exact h
      have hb := hs.1 b (by simp)
      have : f = b := by
        rcases List.mem_cons.1 hf' with h | h
        · exact h
        · have := (List.pairwise_cons.1 hs.2).1 f h
          exact absurd this (hno b (by simp) hb)
      rw [this]
      exact List.mem_cons_self
    · have hf' : f ∈ b :: l := by
        rcases List.mem_cons.1 hf with h | h
        · have := hs.1 e he'
          omega
        · exact h
      exact List.mem_cons_of_mem _ (mem_neighbours_of (b :: l) e f hs.2 he' hf' hlt
        fun g hg => hno g (List.mem_cons_of_mem _ hg))

private theorem adjacent {x : ℕ → ℚ} {n l r L R : ℕ} (hp : IsPeak x n l r) (ht : IsPeak (fun i => - x i) n L R)
    (hf : Falls x l R) {g : ℕ}
    (hg : IsPeakAt x n g ∨ IsPeakAt (fun i => - x i) n g) (h1 : (l + r) / 2 < g) : ¬ g < (L + R) / 2 := by
  intro h2
  have a1 := hp.le
  have a2 := ht.le
  rcases hg with ⟨l', r', h, rfl⟩ | ⟨l', r', h, rfl⟩
  · have a3 := h.le
    rcases Nat.lt_or_ge l l' with c | c
    · have := hf (l' - 1) (by omega) (by omega)
      have e : l' - 1 + 1 = l' := by omega
      rw [e] at this
      exact absurd h.before (not_lt.2 this)
    · have c1 : x l = x l' := h.flat l c (by omega)
      rcases Nat.eq_or_lt_of_le c with c2 | c2
      · subst c2
        rw [h.right_unique hp] at h1
        omega
      · have c3 : x (l - 1) = x l' := h.flat (l - 1) (by omega) (by omega)
        have := hp.before
        rw [c1, c3] at this
        exact lt_irrefl _ this
  · have a3 := h.le
    have fl : ∀ k, l' ≤ k → k ≤ r' → x k = x l' := fun k hk1 hk2 => neg_injective (h.flat k hk1 hk2)
    have FL : ∀ k, L ≤ k → k ≤ R → x k = x L := fun k hk1 hk2 => neg_injective (ht.flat k hk1 hk2)
    rcases Nat.lt_or_ge r' R with c | c
    · have := hf r' (by omega) c
      have h3 := h.after
      have h4 := fl r' a3 le_rfl
      linarith
    · have c0 : l' ≤ R := by omega
      have c1 : x R = x l' := fl R c0 c
      rcases Nat.eq_or_lt_of_le c with c2 | c2
      · have c3 : l' = L := by
          rcases Nat.lt_trichotomy l' L with d | d | d
          · have h3 := ht.before
            have h4 := fl (L - 1) (by omega) (by omega)
            have h5 := fl L (by omega) (by omega)
            rw [h4, h5] at h3
            exact absurd h3 (lt_irrefl _)
          · exact d
          · have h3 := h.before
            have h4 := FL (l' - 1) (by omega) (by omega)
            have h5 := FL l' (by omega) (by omega)
            rw [h4, h5] at h3
            exact absurd h3 (lt_irrefl _)
        omega
      · have h3 := ht.after
        have h4 := fl (R + 1) (by omega) (by omega)
        have h5 := FL R a2 le_rfl
        rw [h4, ← c1, h5] at h3
        exact absurd h3 (lt_irrefl _)

/-- C195: if the data of a window rise to a sample `p`, fall to a sample `q` and rise again, the measurement succeeds; the
amplitude is half the difference of two samples, and half the swing from `p` to `q` at least. -/
theorem C195_swing (data : List ℚ) (delta start : ℚ) (hdelta : 0 < delta) (a p q b : ℕ) (hap : a < p) (hpq : p < q)
    (hqb : q < b) (hb : b < data.length) (h1 : Rises (signal data) a p) (h2 : Falls (signal data) p q)
    (h3 : Rises (signal data) q b) (l1 : signal data a < signal data p) (l2 : signal data q < signal data p)
    (l3 : signal data q < signal data b) :
    ∃ m, windowAmplitude 0 data delta start = .ok m ∧ 1000 * ((signal data p - signal data q) / 2) ≤ m.half ∧
      ∃ v ∈ data, ∃ w ∈ data, m.half = 1000 * ((v - w) / 2) := by
  obtain ⟨l, r, hP, c1, c2, c3, c4⟩ := top (n := data.length) h1 h2 hap hpq (by omega) l1 l2
  have n2 : Rises (flipped data) p q := fun i hi hi' => neg_le_neg (h2 i hi hi')
  have n3 : Falls (flipped data) q b := fun i hi hi' => neg_le_neg (h3 i hi hi')
  obtain ⟨L, R, hT, d1, d2, d3, d4⟩ := top n2 n3 hpq hqb hb (neg_lt_neg l2) (neg_lt_neg l3)
  obtain ⟨E, hE, hmem, i, j, hij, hmax, hres⟩ := (C83_default_measurement data delta start hdelta).1
    ⟨⟨_, l, r, hP, rfl⟩, ⟨_, L, R, hT, rfl⟩⟩
  have xp : signal data ((l + r) / 2) = signal data p := by
    rw [hP.flat _ (by omega) (by omega), hP.flat p c2 c3]
  have xq : signal data ((L + R) / 2) = signal data q :=
    neg_injective ((hT.flat _ (by omega) (by omega)).trans (hT.flat q d2 d3).symm)
  have hf : Falls (signal data) l R := by
    intro k hk1 hk2
    rcases Nat.lt_or_ge k p with e | e
    · rw [hP.flat k hk1 (by omega), hP.flat (k + 1) (by omega) (by omega)]
    · rcases Nat.lt_or_ge k q with e' | e'
      · exact h2 k e e'
      · have f1 : signal data k = signal data L := neg_injective (hT.flat k (by omega) (by omega))
        have f2 : signal data (k + 1) = signal data L := neg_injective (hT.flat (k + 1) (by omega) (by omega))
        rw [f1, f2]
  have hne : (l + r) / 2 ≠ (L + R) / 2 := by
    intro h
    rw [h, xq] at xp
    exact l2.ne xp
  have hnb := mem_neighbours_of E ((l + r) / 2) ((L + R) / 2) hE ((hmem _).2 (Or.inl ⟨l, r, hP, rfl⟩))
    ((hmem _).2 (Or.inr ⟨L, R, hT, rfl⟩)) (by omega) fun g hg hlt => adjacent hP hT hf ((hmem g).1 hg) hlt
  have hsw := hmax _ hnb
  simp only [xp, xq] at hsw
  refine ⟨_, hres, ?_, ?_⟩
  · have := le_abs_self (signal data p - signal data q)
    simp only
    linarith
  · have inside : ∀ e ∈ E, signal data e ∈ data := by
      intro e he
      have hlen : e < data.length := by
        rcases (hmem e).1 he with ⟨u, v, h, rfl⟩ | ⟨u, v, h, rfl⟩ <;> have := h.lt <;> have := h.le <;> omega
      have he' : signal data e = data[e] := by simp [signal, hlen]
      rw [he']
      exact List.getElem_mem hlen
    obtain ⟨m1, m2, -, -⟩ := neighbours_adjacent E hE _ hij
    rcases le_total (signal data j) (signal data i) with h | h
    · refine ⟨_, inside i m1, _, inside j m2, ?_⟩
      simp only [abs_of_nonneg (sub_nonneg.2 h)]
      ring
    · refine ⟨_, inside j m2, _, inside i m1, ?_⟩
      simp only [abs_of_nonpos (sub_nonpos.2 h)]
      ring

/-! ### Harmonic signals -/

open Real in
private theorem cos_step {u th : ℝ} (h0 : 0 ≤ th) (h1 : th ≤ π) :
    (-π ≤ u + th / 2 → u + th / 2 ≤ 0 → cos u ≤ cos (u + th)) ∧
    (0 ≤ u + th / 2 → u + th / 2 ≤ π → cos (u + th) ≤ cos u) := by
  have e : cos (u + th) - cos u = -2 * sin (u + th / 2) * sin (th / 2) := by
    rw [cos_sub_cos]
    congr 2
    · congr 1; ring_nf
    · ring_nf
  have hs : 0 ≤ sin (th / 2) := sin_nonneg_of_nonneg_of_le_pi (by linarith) (by linarith)
  constructor
  · intro a b
    have : sin (u + th / 2) ≤ 0 := by
      exact sin_nonpos_of_nonpos_of_neg_pi_le b a
    nlinarith [mul_nonneg (neg_nonneg.2 this) hs]
  · intro a b
    have : 0 ≤ sin (u + th / 2) := sin_nonneg_of_nonneg_of_le_pi a b
    nlinarith [mul_nonneg this hs]

open Real in
/-- C195: of a harmonic signal of amplitude `A` below the Nyquist frequency (phase step `th` below `π`), stored by a monotone
rounding with an error of at most `eps`, in a window of two and a half periods and two samples at least, the measurement
gives the amplitude in millimetres: at most `A + eps`, at least `A cos (th / 2) - eps`. -/
theorem C195_harmonic (A th phi eps : ℝ) (store : ℝ → ℚ) (n : ℕ) (hA : 0 ≤ A) (hth0 : 0 < th) (hth1 : th < π)
    (hmono : Monotone store) (herr : ∀ v, |(store v : ℝ) - v| ≤ eps) (hclear : eps < A * cos (th / 2))
    (hn : 5 * π ≤ (n - 2) * th) (delta start : ℚ) (hdelta : 0 < delta) :
    ∃ m, windowAmplitude 0 ((List.range n).map fun i : ℕ => store (A * cos (th * i + phi))) delta start = .ok m ∧
      1000 * (A * cos (th / 2) - eps) ≤ m.half ∧ m.half ≤ 1000 * (A + eps) := by
  have hpi := pi_pos
  -- the crest before which the trough before it is still in the window
  set k : ℤ := ⌈(phi + π + th / 2) / (2 * π)⌉ with hk
  have k1 : phi + π + th / 2 ≤ k * (2 * π) := by
    have := Int.le_ceil ((phi + π + th / 2) / (2 * π))
    rwa [div_le_iff₀ (by positivity)] at this
  have k2 : (k : ℝ) * (2 * π) < phi + π + th / 2 + 2 * π := by
    have := Int.ceil_lt_add_one ((phi + π + th / 2) / (2 * π))
    rw [← hk, ← sub_lt_iff_lt_add, lt_div_iff₀ (by positivity)] at this
    linarith
  set u : ℕ → ℝ := fun i => th * i + phi - k * (2 * π) with hu
  have hcos : ∀ i : ℕ, cos (th * i + phi) = cos (u i) := fun i => (cos_sub_int_mul_two_pi _ k).symm
  have hstep : ∀ i, u (i + 1) = u i + th := fun i => by simp only [hu]; push_cast; ring
  have hmonou : ∀ {i j : ℕ}, i ≤ j → u i ≤ u j := by
    intro i j hij
    have : (i : ℝ) ≤ j := by exact_mod_cast hij
    simp only [hu]
    nlinarith
  have hlt : ∀ {i j : ℕ}, u i < u j → i < j := by
    intro i j hij
    by_contra h
    exact absurd (hmonou (not_lt.1 h)) (not_le.2 hij)
  have near : ∀ c : ℝ, -π ≤ c → ∃ i : ℕ, c - th / 2 ≤ u i ∧ u i ≤ c + th / 2 := by
    intro c hc
    set t : ℝ := (c + k * (2 * π) - phi) / th with ht
    have ht0 : 0 ≤ t := div_nonneg (by linarith) hth0.le
    have ht1 : th * t = c + k * (2 * π) - phi := by rw [ht]; field_simp
    refine ⟨⌊t + 1 / 2⌋₊, ?_, ?_⟩
    · have := Nat.lt_floor_add_one (t + 1 / 2)
      simp only [hu]
      nlinarith
    · have := Nat.floor_le (a := t + 1 / 2) (by linarith)
      simp only [hu]
      nlinarith
  have level : ∀ v : ℝ, |v| ≤ th / 2 → cos (th / 2) ≤ cos v := by
    intro v hv
    rw [← cos_abs v]
    exact cos_le_cos_of_nonneg_of_le_pi (abs_nonneg v) (by linarith) hv
  obtain ⟨a, a1, a2⟩ := near (-π) le_rfl
  obtain ⟨p, p1, p2⟩ := near 0 (by linarith)
  obtain ⟨q, q1, q2⟩ := near π (by linarith)
  obtain ⟨b, b1, b2⟩ := near (2 * π) (by linarith)
  have hap : a < p := hlt (by linarith)
  have hpq : p < q := hlt (by linarith)
  have hqb : q < b := hlt (by linarith)
  have hbn : b < n := by
    have : th * b < th * ((n : ℝ) - 1) := by
      simp only [hu] at b2
      nlinarith
    have h3 : (b : ℝ) < n - 1 := lt_of_mul_lt_mul_left this hth0.le
    have h4 : (b : ℝ) < n := by linarith
    exact_mod_cast h4
  set data := (List.range n).map fun i : ℕ => store (A * cos (th * i + phi)) with hdata
  have hlen : data.length = n := by simp [hdata]
  have hsig : ∀ i, i < n → signal data i = store (A * cos (u i)) := by
    intro i hi
    rw [← hcos]
    simp [signal, hdata, hi]
  have r1 : Rises (signal data) a p := by
    intro i hi hi'
    rw [hsig i (by omega), hsig (i + 1) (by omega), hstep]
    refine hmono (mul_le_mul_of_nonneg_left ((cos_step hth0.le hth1.le).1 ?_ ?_) hA)
    · have := hmonou hi
      linarith
    · have := hmonou (show i + 1 ≤ p from hi')
      rw [hstep] at this
      linarith
  have r2 : Falls (signal data) p q := by
    intro i hi hi'
    rw [hsig i (by omega), hsig (i + 1) (by omega), hstep]
    refine hmono (mul_le_mul_of_nonneg_left ((cos_step hth0.le hth1.le).2 ?_ ?_) hA)
    · have := hmonou hi
      linarith
    · have := hmonou (show i + 1 ≤ q from hi')
      rw [hstep] at this
      linarith
  have r3 : Rises (signal data) q b := by
    intro i hi hi'
    rw [hsig i (by omega), hsig (i + 1) (by omega), hstep]
    refine hmono (mul_le_mul_of_nonneg_left ?_ hA)
    have h5 := (cos_step (u := u i - 2 * π) hth0.le hth1.le).1 (by have := hmonou hi; linarith) (by
      have := hmonou (show i + 1 ≤ b from hi')
      rw [hstep] at this
      linarith)
    have e5 : u i - 2 * π + th = u i + th - 2 * π := by ring
    rwa [e5, cos_sub_two_pi, cos_sub_two_pi] at h5
  have up : ∀ i, i < n → cos (th / 2) ≤ cos (u i) → A * cos (th / 2) - eps ≤ ((signal data i : ℚ) : ℝ) := by
    intro i hi h
    rw [hsig i hi]
    have h6 := (abs_le.1 (herr (A * cos (u i)))).1
    have h7 := mul_le_mul_of_nonneg_left h hA
    linarith
  have down : ∀ i, i < n → cos (u i) ≤ -cos (th / 2) → ((signal data i : ℚ) : ℝ) ≤ -(A * cos (th / 2) - eps) := by
    intro i hi h
    rw [hsig i hi]
    have h6 := (abs_le.1 (herr (A * cos (u i)))).2
    have h7 := mul_le_mul_of_nonneg_left h hA
    linarith
  have va := down a (by omega) (by
    have := level (u a + π) (abs_le.2 ⟨by linarith, by linarith⟩)
    rw [cos_add_pi] at this
    linarith)
  have vp := up p (by omega) (level _ (abs_le.2 ⟨by linarith, by linarith⟩))
  have vq := down q (by omega) (by
    have := level (u q - π) (abs_le.2 ⟨by linarith, by linarith⟩)
    rw [cos_sub_pi] at this
    linarith)
  have vb := up b (by omega) (by
    have := level (u b - 2 * π) (abs_le.2 ⟨by linarith, by linarith⟩)
    rwa [cos_sub_two_pi] at this)
  obtain ⟨m, hm, hlo, v, hv, w, hw, hvw⟩ := C195_swing data delta start hdelta a p q b hap hpq hqb (by omega) r1 r2 r3
    (by have : ((signal data a : ℚ) : ℝ) < signal data p := by linarith
        exact_mod_cast this)
    (by have : ((signal data q : ℚ) : ℝ) < signal data p := by linarith
        exact_mod_cast this)
    (by have : ((signal data q : ℚ) : ℝ) < signal data b := by linarith
        exact_mod_cast this)
  refine ⟨m, hm, ?_, ?_⟩
  · have : ((1000 * ((signal data p - signal data q) / 2) : ℚ) : ℝ) ≤ m.half := by exact_mod_cast hlo
    push_cast at this
    linarith
  · have bound : ∀ v ∈ data, |(v : ℝ)| ≤ A + eps := by
      intro v hv
      obtain ⟨i, -, rfl⟩ := List.mem_map.1 hv
      have h8 := abs_le.1 (herr (A * cos (th * i + phi)))
      have h9 : |A * cos (th * i + phi)| ≤ A := by
        rw [abs_mul, abs_of_nonneg hA]
        exact mul_le_of_le_one_right hA (abs_cos_le_one _)
      have h10 := abs_le.1 h9
      rw [abs_le]
      constructor <;> linarith [h8.1, h8.2, h10.1, h10.2]
    have e1 := (abs_le.1 (bound v hv)).2
    have e2 := (abs_le.1 (bound w hw)).1
    have : ((m.half : ℚ) : ℝ) = 1000 * ((v - w) / 2) := by rw [hvw]; push_cast; ring
    rw [this]
    linarith

open Complex in
/-- C195: for ground displacement `a e^(iwt)` (in metres; its real part) recorded by the Wood-Anderson seismograph of
`wa_response`, sampled every `delta` seconds and stored with an error of at most `eps`, in a window of two and a half periods
and two samples at least, the amplitude measured is that of the seismograph in millimetres, up to the storage error and
the distance of the samples from the crests. -/
theorem C195_seismograph (a : ℂ) (w : ℝ) (o : Bool) (eps : ℝ) (store : ℝ → ℚ) (n : ℕ) (delta start t0 : ℚ)
    (hdelta : 0 < delta) (hw : 0 < w) (hnyq : w * delta < Real.pi) (hmono : Monotone store)
    (herr : ∀ v, |(store v : ℝ) - v| ≤ eps)
    (hclear : eps < ‖a‖ * ‖(WoodAnderson.waResponse .dis2dis o).response (I * w)‖ * Real.cos (w * delta / 2))
    (hn : 5 * Real.pi ≤ (n - 2) * (w * delta)) :
    ∃ m, windowAmplitude 0 ((List.range n).map fun i : ℕ =>
        store (Spec.harmonic (a * (WoodAnderson.waResponse .dis2dis o).response (I * w)) w (t0 + i * delta)).re) delta start =
          .ok m ∧
      1000 * (‖a‖ * ‖(WoodAnderson.waResponse .dis2dis o).response (I * w)‖ * Real.cos (w * delta / 2) - eps) ≤ m.half ∧
      m.half ≤ 1000 * (‖a‖ * ‖(WoodAnderson.waResponse .dis2dis o).response (I * w)‖ + eps) := by
  rw [← norm_mul] at *
  generalize a * (WoodAnderson.waResponse .dis2dis o).response (I * w) = c at *
  have hd : (0 : ℝ) < delta := by exact_mod_cast hdelta
  have key := C195_harmonic ‖c‖ (w * delta) (w * t0 + c.arg) eps store n (norm_nonneg c) (by positivity) hnyq hmono herr
    hclear hn delta start hdelta
  have e : ∀ i : ℕ, (Spec.harmonic c w (t0 + i * delta)).re = ‖c‖ * Real.cos (w * delta * i + (w * t0 + c.arg)) := by
    intro i
    unfold Spec.harmonic
    conv_lhs => rw [← Complex.norm_mul_exp_arg_mul_I c]
    rw [mul_assoc, ← Complex.exp_add, Complex.re_ofReal_mul]
    have : (c.arg : ℂ) * I + I * w * ((t0 + i * delta : ℝ) : ℂ) = ((w * delta * i + (w * t0 + c.arg) : ℝ) : ℂ) * I := by
      push_cast; ring
    rw [this, Complex.exp_ofReal_mul_I_re]
  simp only [e]
  exact key

/-- A window that meets the conditions of `C195_swing`, with a level crest; half its swing of 7. -/
example : Rises (signal [1, 3, 5, 5, 2, -2, 0]) 0 2 ∧ Falls (signal [1, 3, 5, 5, 2, -2, 0]) 2 5 ∧
    Rises (signal [1, 3, 5, 5, 2, -2, 0]) 5 6 ∧
    windowAmplitude 0 [1, 3, 5, 5, 2, -2, 0] 1 0 = .ok ⟨3500, 1 / 6, 7 / 2⟩ := by
  refine ⟨?_, ?_, ?_, by decide +kernel⟩
  · intro i h1 h2; interval_cases i <;> decide +kernel
  · intro i h1 h2; interval_cases i <;> decide +kernel
  · intro i h1 h2; interval_cases i <;> decide +kernel

/-- Rounding down to whole thousandths and a signal of amplitude 1 with a phase step of 1 meet the conditions of
`C195_harmonic`. -/
example : Monotone (fun v : ℝ => (⌊v * 1000⌋ : ℚ) / 1000) ∧
    (∀ v : ℝ, |(((⌊v * 1000⌋ : ℚ) / 1000 : ℚ) : ℝ) - v| ≤ 1 / 1000) ∧ (1 : ℝ) / 1000 < 1 * Real.cos (1 / 2) ∧
    (1 : ℝ) < Real.pi ∧ 5 * Real.pi ≤ (((18 : ℕ) : ℝ) - 2) * 1 := by
  refine ⟨?_, ?_, ?_, ?_, ?_⟩
  · intro a b h
    have h1 : ⌊a * 1000⌋ ≤ ⌊b * 1000⌋ := Int.floor_le_floor (by linarith)
    have h2 : ((⌊a * 1000⌋ : ℤ) : ℚ) ≤ (⌊b * 1000⌋ : ℤ) := by exact_mod_cast h1
    exact div_le_div_of_nonneg_right h2 (by norm_num)
  · intro v
    push_cast
    have h1 := Int.floor_le (v * 1000)
    have h2 := Int.lt_floor_add_one (v * 1000)
    rw [abs_le]
    constructor <;> linarith
  · have := Real.one_sub_sq_div_two_le_cos (x := 1 / 2)
    norm_num at this ⊢
    linarith
  · linarith [Real.pi_gt_three]
  · have := Real.pi_lt_d2
    norm_num
    linarith

end QM

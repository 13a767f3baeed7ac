import Verif.Props.FindPeaks

/-!
# Gain, clock, offset and polarity of a window of data: C188
-/

namespace QM
open QM.Amplitude QM.Spec QM.FindPeaks

/-! ## Specification -/

/-- A measurement with the amplitude multiplied by `k` and the time moved by `τ`; errors as they are. -/
def Spec.measured (k τ : ℚ) : Except Err Meas → Except Err Meas
  | .ok m => .ok ⟨k * m.half, m.freq, m.time + τ⟩
  | .error e => .error e

/-! ## Lemmas -/

namespace AmplitudeScale

variable {k b : ℚ}

/-- `y` is `x` multiplied by `k > 0`, with an offset. -/
def Aff (k b : ℚ) (x y : ℕ → ℚ) : Prop := 0 < k ∧ ∀ i, y i = k * x i + b

theorem Aff.lt {x y : ℕ → ℚ} (h : Aff k b x y) (i j : ℕ) : y i < y j ↔ x i < x j := by
  rw [h.2, h.2, add_lt_add_iff_right, mul_lt_mul_iff_right₀ h.1]

theorem Aff.eq {x y : ℕ → ℚ} (h : Aff k b x y) (i j : ℕ) : y i = y j ↔ x i = x j := by
  rw [h.2, h.2, add_left_inj, mul_right_inj' h.1.ne']

theorem ahead_aff {x y : ℕ → ℚ} (h : Aff k b x y) (imax i : ℕ) : ∀ f j, ahead y imax i f j = ahead x imax i f j
  | 0, _ => rfl
  | f + 1, j => by simp only [ahead, h.eq, ahead_aff h imax i f]

theorem maximaFrom_aff {x y : ℕ → ℚ} (h : Aff k b x y) (imax : ℕ) : ∀ f i, maximaFrom y imax f i = maximaFrom x imax f i
  | 0, _ => rfl
  | f + 1, i => by simp only [maximaFrom, h.lt, ahead_aff h, maximaFrom_aff h imax f]

theorem leftMin_aff {x y : ℕ → ℚ} (h : Aff k b x y) (v : ℚ) : ∀ i m,
    leftMin y (k * v + b) i (k * m + b) = k * leftMin x v i m + b
  | 0, m => by
    simp only [leftMin, h.2, add_le_add_iff_right, add_lt_add_iff_right, mul_le_mul_iff_right₀ h.1,
      mul_lt_mul_iff_right₀ h.1]
    split_ifs <;> rfl
  | i + 1, m => by
    simp only [leftMin, h.2, add_le_add_iff_right, add_lt_add_iff_right, mul_le_mul_iff_right₀ h.1,
      mul_lt_mul_iff_right₀ h.1]
    rw [← apply_ite (fun z => k * z + b), leftMin_aff h v i]
    split_ifs <;> rfl

theorem rightMin_aff {x y : ℕ → ℚ} (h : Aff k b x y) (v : ℚ) : ∀ f i m,
    rightMin y (k * v + b) f i (k * m + b) = k * rightMin x v f i m + b
  | 0, _, m => rfl
  | f + 1, i, m => by
    simp only [rightMin, h.2, add_le_add_iff_right, add_lt_add_iff_right, mul_le_mul_iff_right₀ h.1,
      mul_lt_mul_iff_right₀ h.1]
    rw [← apply_ite (fun z => k * z + b), rightMin_aff h v f]
    split_ifs <;> rfl

theorem prominence_aff {x y : ℕ → ℚ} (h : Aff k b x y) (n p : ℕ) : prominence y n p = k * prominence x n p := by
  simp only [prominence]
  rw [h.2 p, leftMin_aff h, rightMin_aff h]
  simp only [add_lt_add_iff_right, mul_lt_mul_iff_right₀ h.1]
  split_ifs <;> ring

theorem findPeaks_aff {x y : ℕ → ℚ} (h : Aff k b x y) (n : ℕ) (pmin : ℚ) :
    findPeaks y n (k * pmin) = findPeaks x n pmin := by
  simp only [findPeaks, maxima, maximaFrom_aff h, prominence_aff h, mul_le_mul_iff_right₀ h.1]

theorem Aff.neg {x y : ℕ → ℚ} (h : Aff k b x y) : Aff k (-b) (fun i => - x i) (fun i => - y i) :=
  ⟨h.1, fun i => by show - y i = k * - x i + -b; rw [h.2]; ring⟩

theorem Aff.diff {x y : ℕ → ℚ} (h : Aff k b x y) (i j : ℕ) : |y i - y j| = k * |x i - x j| := by
  rw [h.2, h.2, show k * x i + b - (k * x j + b) = k * (x i - x j) by ring, abs_mul, abs_of_pos h.1]

theorem foldl_key {α : Type} (f g : α → ℚ) (l : List α) (h : ∀ a b, g a < g b ↔ f a < f b) (a : α) :
    l.foldl (fun best b => if g best < g b then b else best) a =
      l.foldl (fun best b => if f best < f b then b else best) a := by
  simp only [h]

theorem firstMaxBy_key {α : Type} (f g : α → ℚ) (h : ∀ a b, g a < g b ↔ f a < f b) (l : List α) :
    firstMaxBy g l = firstMaxBy f l := by
  cases l with
  | nil => rfl
  | cons a l => simp only [firstMaxBy, foldl_key f g l h]

theorem measure_aff {x y : ℕ → ℚ} (h : Aff k b x y) (delta start τ : ℚ) (pt : ℕ × ℕ) :
    Except.ok (Amplitude.measure y delta (start + τ) pt) = Spec.measured k τ (.ok (Amplitude.measure x delta start pt)) := by
  simp only [Amplitude.measure, Spec.measured, h.diff]
  congr 2
  · ring
  · ring

theorem peakToTrough_aff {x y : ℕ → ℚ} (h : Aff k b x y) (delta start τ : ℚ) (P T : List ℕ) :
    peakToTrough y delta (start + τ) P T = Spec.measured k τ (peakToTrough x delta start P T) := by
  unfold peakToTrough
  have hk : ∀ a b : ℕ × ℕ, |y a.1 - y a.2| < |y b.1 - y b.2| ↔ |x a.1 - x a.2| < |x b.1 - x b.2| := by
    intro a b
    rw [h.diff, h.diff, mul_lt_mul_iff_right₀ h.1]
  have h0 : ∀ i j, |y i - y j| = 0 ↔ |x i - x j| = 0 := fun i j => by
    rw [h.diff, mul_eq_zero, or_iff_right h.1.ne']
  by_cases h1 : P = [] ∨ T = []
  · rw [if_pos h1, if_pos h1]; rfl
  rw [if_neg h1, if_neg h1]
  by_cases h2 : P.length = 1 ∧ T.length = 1
  · rw [if_pos h2, if_pos h2]
    simp only [h0]
    by_cases h3 : |x (P.headD 0) - x (T.headD 0)| = 0
    · rw [if_pos h3, if_pos h3]; rfl
    · rw [if_neg h3, if_neg h3]; exact measure_aff h delta start τ _
  · rw [if_neg h2, if_neg h2]
    cases pairings P T with
    | error e => rfl
    | ok r =>
      obtain ⟨ab, cd⟩ := r
      simp only
      rw [firstMaxBy_key (fun pt : ℕ × ℕ => |x pt.1 - x pt.2|) (fun pt : ℕ × ℕ => |y pt.1 - y pt.2|) hk ab,
        firstMaxBy_key (fun pt : ℕ × ℕ => |x pt.1 - x pt.2|) (fun pt : ℕ × ℕ => |y pt.1 - y pt.2|) hk cd]
      cases firstMaxBy (fun pt : ℕ × ℕ => |x pt.1 - x pt.2|) ab with
      | none => rfl
      | some m1 =>
        cases firstMaxBy (fun pt : ℕ × ℕ => |x pt.1 - x pt.2|) cd with
        | none => rfl
        | some m2 =>
          simp only [ge_iff_le, h.diff, mul_le_mul_iff_right₀ h.1]
          exact measure_aff h delta start τ _

theorem foldl_max_scale (k : ℚ) (hk : k ≠ 0) : ∀ (l : List ℚ) (m : ℚ),
    (l.map (k * ·)).foldl (fun m v => if m < |v| then |v| else m) (|k| * m) =
      |k| * l.foldl (fun m v => if m < |v| then |v| else m) m
  | [], m => rfl
  | v :: l, m => by
    simp only [List.map_cons, List.foldl_cons, abs_mul, mul_lt_mul_iff_right₀ (abs_pos.2 hk)]
    rw [← foldl_max_scale k hk l, apply_ite (fun z => |k| * z)]

theorem maxAbs_scale (k : ℚ) (hk : k ≠ 0) (l : List ℚ) : maxAbs (l.map (k * ·)) = |k| * maxAbs l := by
  have := foldl_max_scale k hk l 0
  rw [mul_zero] at this
  exact this

theorem aff_scale (hk : 0 < k) (l : List ℚ) : Aff k 0 (fun i => l.getD i 0) (fun i => (l.map (k * ·)).getD i 0) := by
  refine ⟨hk, fun i => ?_⟩
  simp only [List.getD_eq_getElem?_getD, List.getElem?_map]
  cases l[i]? <;> simp

theorem firstMaxBy_map {α β : Type} (g : β → α) (key : α → ℚ) (l : List β) :
    firstMaxBy key (l.map g) = (firstMaxBy (fun b => key (g b)) l).map g := by
  cases l with
  | nil => rfl
  | cons a l =>
    simp only [firstMaxBy, List.map_cons, Option.map_some, Option.some.injEq]
    induction l generalizing a with
    | nil => rfl
    | cons c l ih =>
      simp only [List.map_cons, List.foldl_cons]
      rw [← apply_ite g, ih]

/-- The pairs of peaks and troughs when the two are exchanged. -/
theorem pairings_swap (P T : List ℕ) (h : P.headD 0 ≠ T.headD 0) :
    pairings T P = (pairings P T).map fun r =>
      if P.length = T.length then (r.1.map Prod.swap, r.2.map Prod.swap) else (r.2.map Prod.swap, r.1.map Prod.swap) := by
  have z : ∀ A B : List ℕ, (A.zip B).map Prod.swap = B.zip A := fun A B => List.zip_swap A B
  unfold pairings
  rcases lt_trichotomy P.length T.length with hl | hl | hl
  · have c1 : ¬ T.length = P.length := by omega
    have c2 : ¬ P.length = T.length := by omega
    have c3 : T.length > P.length := hl
    have c4 : ¬ P.length > T.length := by omega
    by_cases h1 : T.length = P.length + 1
    · have d1 : ¬ ¬ (T.length = P.length + 1 ∨ P.length = T.length + 1) := fun c => c (Or.inl h1)
      have d2 : ¬ ¬ (P.length = T.length + 1 ∨ T.length = P.length + 1) := fun c => c (Or.inr h1)
      rw [if_neg c1, if_neg d1, if_pos c3, if_neg c2, if_neg d2, if_neg c4]
      by_cases h2 : T.headD 0 < P.headD 0
      · rw [if_pos h2, if_pos (show P.headD 0 > T.headD 0 from h2)]
        simp only [Except.map, if_neg c2, z]
      · rw [if_neg h2, if_neg (show ¬ P.headD 0 > T.headD 0 from h2)]
        rfl
    · have d1 : ¬ (T.length = P.length + 1 ∨ P.length = T.length + 1) := by omega
      have d2 : ¬ (P.length = T.length + 1 ∨ T.length = P.length + 1) := by omega
      rw [if_neg c1, if_pos d1, if_neg c2, if_pos d2]
      rfl
  · rw [if_pos hl.symm, if_pos hl]
    by_cases h2 : P.headD 0 < T.headD 0
    · have h3 : ¬ T.headD 0 < P.headD 0 := by omega
      rw [if_pos h2, if_neg h3]
      simp only [Except.map, if_pos hl, z]
    · have h3 : T.headD 0 < P.headD 0 := by omega
      rw [if_neg h2, if_pos h3]
      simp only [Except.map, if_pos hl, z]
  · have c1 : ¬ T.length = P.length := by omega
    have c2 : ¬ P.length = T.length := by omega
    have c3 : ¬ T.length > P.length := by omega
    have c4 : P.length > T.length := hl
    by_cases h1 : P.length = T.length + 1
    · have d1 : ¬ ¬ (T.length = P.length + 1 ∨ P.length = T.length + 1) := fun c => c (Or.inr h1)
      have d2 : ¬ ¬ (P.length = T.length + 1 ∨ T.length = P.length + 1) := fun c => c (Or.inl h1)
      rw [if_neg c1, if_neg d1, if_neg c3, if_neg c2, if_neg d2, if_pos c4]
      by_cases h2 : P.headD 0 < T.headD 0
      · rw [if_pos h2, if_pos (show T.headD 0 > P.headD 0 from h2)]
        simp only [Except.map, if_neg c2, z]
      · rw [if_neg h2, if_neg (show ¬ T.headD 0 > P.headD 0 from h2)]
        rfl
    · have d1 : ¬ (T.length = P.length + 1 ∨ P.length = T.length + 1) := by omega
      have d2 : ¬ (P.length = T.length + 1 ∨ T.length = P.length + 1) := by omega
      rw [if_neg c1, if_pos d1, if_neg c2, if_pos d2]
      rfl

theorem pairings_mem {P T : List ℕ} {r : List (ℕ × ℕ) × List (ℕ × ℕ)} (h : pairings P T = .ok r) (q : ℕ × ℕ)
    (hq : q ∈ r.1 ∨ q ∈ r.2) : q.1 ∈ P ∧ q.2 ∈ T := by
  have key : ∀ {A B : List ℕ}, (∀ a ∈ A, a ∈ P) → (∀ b ∈ B, b ∈ T) → q ∈ A.zip B → q.1 ∈ P ∧ q.2 ∈ T := by
    intro A B hA hB hz
    obtain ⟨a, b⟩ := q
    have := List.of_mem_zip hz
    exact ⟨hA _ this.1, hB _ this.2⟩
  have t : ∀ l : List ℕ, ∀ a ∈ l.tail, a ∈ l := fun l a => List.mem_of_mem_tail
  have d : ∀ l : List ℕ, ∀ a ∈ l.dropLast, a ∈ l := fun l a h => List.dropLast_subset l h
  have i : ∀ l : List ℕ, ∀ a ∈ l, a ∈ l := fun l a h => h
  unfold pairings at h
  split_ifs at h <;> cases h <;> rcases hq with hq | hq <;>
    first
    | exact key (i _) (i _) hq | exact key (t _) (d _) hq | exact key (d _) (t _) hq | exact key (d _) (i _) hq
    | exact key (t _) (i _) hq | exact key (i _) (t _) hq | exact key (i _) (d _) hq

theorem measure_swap (x : ℕ → ℚ) (delta start : ℚ) (pt : ℕ × ℕ) :
    Amplitude.measure (fun i => - x i) delta start pt.swap = Amplitude.measure x delta start pt := by
  simp only [Amplitude.measure, Prod.fst_swap, Prod.snd_swap]
  congr 1
  · rw [show -x pt.2 - -x pt.1 = x pt.1 - x pt.2 by ring]
  · rw [abs_sub_comm]
  · ring

/-- Peaks and troughs exchanged and the signal reversed: the same error, or the same pair up to a tie. -/
theorem peakToTrough_swap (x : ℕ → ℚ) (delta start : ℚ) (P T : List ℕ) (h : P ≠ [] → T ≠ [] → P.headD 0 ≠ T.headD 0) :
    (∃ e, peakToTrough x delta start P T = .error e ∧ peakToTrough (fun i => - x i) delta start T P = .error e) ∨
    ∃ q q', q.1 ∈ P ∧ q.2 ∈ T ∧ q'.1 ∈ P ∧ q'.2 ∈ T ∧ |x q.1 - x q.2| = |x q'.1 - x q'.2| ∧
      (P.length = T.length → q = q') ∧
      peakToTrough x delta start P T = .ok (Amplitude.measure x delta start q) ∧
      peakToTrough (fun i => - x i) delta start T P = .ok (Amplitude.measure x delta start q') := by
  unfold peakToTrough
  by_cases h1 : P = [] ∨ T = []
  · rw [if_pos h1, if_pos h1.symm]
    exact Or.inl ⟨_, rfl, rfl⟩
  rw [if_neg h1, if_neg fun c : T = [] ∨ P = [] => h1 c.symm]
  push Not at h1
  have hh := h h1.1 h1.2
  by_cases h2 : P.length = 1 ∧ T.length = 1
  · rw [if_pos h2, if_pos h2.symm]
    obtain ⟨p, rfl⟩ := List.length_eq_one_iff.1 h2.1
    obtain ⟨t, rfl⟩ := List.length_eq_one_iff.1 h2.2
    have e3 : |-x t - -x p| = |x p - x t| := by rw [show -x t - -x p = x p - x t by ring]
    by_cases h3 : |x p - x t| = 0
    · simp only [List.headD_cons, e3, h3, ↓reduceIte]
      exact Or.inl ⟨_, rfl, rfl⟩
    · simp only [List.headD_cons, e3, h3, ↓reduceIte]
      refine Or.inr ⟨(p, t), (p, t), by simp, by simp, by simp, by simp, rfl, fun _ => rfl, rfl, ?_⟩
      rw [← measure_swap x delta start (p, t)]
      rfl
  · rw [if_neg h2, if_neg fun c : T.length = 1 ∧ P.length = 1 => h2 c.symm, pairings_swap P T hh]
    cases hp : pairings P T with
    | error e => exact Or.inl ⟨_, rfl, rfl⟩
    | ok r =>
      obtain ⟨ab, cd⟩ := r
      have hm := pairings_mem hp
      have hf : ∀ l : List (ℕ × ℕ), firstMaxBy (fun pt : ℕ × ℕ => |-x pt.1 - -x pt.2|) (l.map Prod.swap) =
          (firstMaxBy (fun pt : ℕ × ℕ => |x pt.1 - x pt.2|) l).map Prod.swap := by
        intro l
        rw [firstMaxBy_map]
        congr 1
        apply firstMaxBy_key
        intro a b
        simp only [Prod.fst_swap, Prod.snd_swap]
        rw [show -x a.2 - -x a.1 = x a.1 - x a.2 by ring, show -x b.2 - -x b.1 = x b.1 - x b.2 by ring]
      have hin : ∀ l m, firstMaxBy (fun pt : ℕ × ℕ => |x pt.1 - x pt.2|) l = some m → m ∈ l := by
        intro l m h
        obtain ⟨pre, post, rfl, -⟩ := firstMaxBy_spec h
        simp
      have hs : ∀ a : ℕ × ℕ, |-x a.swap.1 - -x a.swap.2| = |x a.1 - x a.2| := by
        intro a
        simp only [Prod.fst_swap, Prod.snd_swap]
        rw [show -x a.2 - -x a.1 = x a.1 - x a.2 by ring]
      by_cases he : P.length = T.length
      · simp only [Except.map, if_pos he, hf]
        cases e1 : firstMaxBy (fun pt : ℕ × ℕ => |x pt.1 - x pt.2|) ab with
        | none => exact Or.inl ⟨_, rfl, rfl⟩
        | some m1 =>
          cases e2 : firstMaxBy (fun pt : ℕ × ℕ => |x pt.1 - x pt.2|) cd with
          | none => exact Or.inl ⟨_, rfl, rfl⟩
          | some m2 =>
            have a1 := hm m1 (Or.inl (hin _ _ e1))
            have a2 := hm m2 (Or.inr (hin _ _ e2))
            simp only [Option.map_some, hs, ge_iff_le]
            right
            by_cases hc : |x m2.1 - x m2.2| ≤ |x m1.1 - x m1.2|
            · simp only [if_pos hc]
              exact ⟨m1, m1, a1.1, a1.2, a1.1, a1.2, rfl, fun _ => rfl, rfl, by rw [measure_swap]⟩
            · simp only [if_neg hc]
              exact ⟨m2, m2, a2.1, a2.2, a2.1, a2.2, rfl, fun _ => rfl, rfl, by rw [measure_swap]⟩
      · simp only [Except.map, if_neg he, hf]
        cases e1 : firstMaxBy (fun pt : ℕ × ℕ => |x pt.1 - x pt.2|) ab with
        | none =>
          cases e2 : firstMaxBy (fun pt : ℕ × ℕ => |x pt.1 - x pt.2|) cd with
          | none => exact Or.inl ⟨_, rfl, rfl⟩
          | some m2 => exact Or.inl ⟨_, rfl, rfl⟩
        | some m1 =>
          cases e2 : firstMaxBy (fun pt : ℕ × ℕ => |x pt.1 - x pt.2|) cd with
          | none => exact Or.inl ⟨_, rfl, rfl⟩
          | some m2 =>
            have a1 := hm m1 (Or.inl (hin _ _ e1))
            have a2 := hm m2 (Or.inr (hin _ _ e2))
            simp only [Option.map_some, hs, ge_iff_le]
            right
            by_cases hc : |x m2.1 - x m2.2| ≤ |x m1.1 - x m1.2|
            · by_cases hc' : |x m1.1 - x m1.2| ≤ |x m2.1 - x m2.2|
              · simp only [if_pos hc, if_pos hc']
                exact ⟨m1, m2, a1.1, a1.2, a2.1, a2.2, le_antisymm hc' hc, fun h => absurd h he, rfl, by
                  rw [measure_swap]⟩
              · simp only [if_pos hc, if_neg hc']
                exact ⟨m1, m1, a1.1, a1.2, a1.1, a1.2, rfl, fun _ => rfl, rfl, by rw [measure_swap]⟩
            · simp only [if_neg hc, if_pos (not_le.1 hc).le]
              exact ⟨m2, m2, a2.1, a2.2, a2.1, a2.2, rfl, fun _ => rfl, rfl, by rw [measure_swap]⟩

theorem window_swap (mult : ℚ) (data : List ℚ) (delta start : ℚ) :
    windowAmplitude mult (data.map (-·)) delta start =
      peakToTrough (fun i => - signal data i) delta start
        (findPeaks (flipped data) data.length (mult * maxAbs data))
        (findPeaks (signal data) data.length (mult * maxAbs data)) := by
  have e : (fun i => (data.map (-·)).getD i 0) = fun i => - signal data i := by
    funext i
    simp only [signal, List.getD_eq_getElem?_getD, List.getElem?_map]
    cases data[i]? <;> simp
  have m : maxAbs (data.map (-·)) = maxAbs data := by
    have := maxAbs_scale (-1) (by norm_num) data
    simpa using this
  simp only [windowAmplitude]
  have e' : (fun i => -(data.map (-·)).getD i 0) = signal data := by
    funext i
    rw [congrFun e i, neg_neg]
  rw [m, e', e, List.length_map]
  rfl

theorem heads_differ (data : List ℚ) (P : ℚ) (h1 : findPeaks (signal data) data.length P ≠ [])
    (h2 : findPeaks (flipped data) data.length P ≠ []) :
    (findPeaks (signal data) data.length P).headD 0 ≠ (findPeaks (flipped data) data.length P).headD 0 := by
  intro h
  have hd : ∀ l : List ℕ, l ≠ [] → l.headD 0 ∈ l := by
    intro l hl
    cases l with
    | nil => exact absurd rfl hl
    | cons a l => simp
  have a := hd _ h1
  have b := hd _ h2
  rw [← h] at b
  exact not_peak_and_trough a b

end AmplitudeScale

open AmplitudeScale

/-! ## Gain and clock -/

/-- C188: with data `k > 0` times as large the amplitude is `k` times as large, and frequency and time are the same; with
a window that begins `τ` later the time is `τ` later, and amplitude and frequency are the same; errors are the same
errors. -/
theorem C188_gain_and_clock (mult : ℚ) (data : List ℚ) (delta start k τ : ℚ) (hk : 0 < k) :
    windowAmplitude mult (data.map (k * ·)) delta (start + τ) =
      Spec.measured k τ (windowAmplitude mult data delta start) := by
  simp only [windowAmplitude]
  rw [maxAbs_scale k hk.ne', abs_of_pos hk, mul_left_comm, List.length_map, findPeaks_aff (aff_scale hk data),
    findPeaks_aff (aff_scale hk data).neg, peakToTrough_aff (aff_scale hk data)]

example : windowAmplitude (1 / 10) ([0, 3, -1, 2, 0].map ((5 : ℚ) * ·)) (1 / 50) (100 + 86400) =
    .ok ⟨5 * 2000, 25, 100 + 3 / 100 + 86400⟩ := by
  rw [C188_gain_and_clock _ _ _ _ _ _ (by norm_num)]
  have : windowAmplitude (1 / 10) [0, 3, -1, 2, 0] (1 / 50) 100 = .ok ⟨2000, 25, 100 + 3 / 100⟩ := by decide +kernel
  rw [this]
  rfl

/-! ## Polarity -/

/-- C188: with the polarity reversed the amplitude is the same, or the error is the same error; and the whole
measurement is the same if there are as many peaks as troughs. -/
theorem C188_polarity (mult : ℚ) (data : List ℚ) (delta start : ℚ) :
    (windowAmplitude mult (data.map (-·)) delta start).map Meas.half =
      (windowAmplitude mult data delta start).map Meas.half ∧
    ((findPeaks (signal data) data.length (mult * maxAbs data)).length =
        (findPeaks (flipped data) data.length (mult * maxAbs data)).length →
      windowAmplitude mult (data.map (-·)) delta start = windowAmplitude mult data delta start) := by
  rw [window_swap]
  have hw : windowAmplitude mult data delta start = peakToTrough (signal data) delta start
      (findPeaks (signal data) data.length (mult * maxAbs data))
      (findPeaks (flipped data) data.length (mult * maxAbs data)) := rfl
  rw [hw]
  rcases peakToTrough_swap (signal data) delta start _ _ (heads_differ data (mult * maxAbs data)) with
    ⟨e, h1, h2⟩ | ⟨q, q', -, -, -, -, h5, h6, h7, h8⟩
  · rw [h1, h2]
    exact ⟨rfl, fun _ => rfl⟩
  · rw [h7, h8]
    refine ⟨?_, fun h => by rw [h6 h]⟩
    simp only [Except.map, Amplitude.measure, h5]

/-- C188 for the reversed polarity: the whole measurement, with frequency and time, is the same as long as no two pairs
of a peak and a trough differ by the same height.  Missing: see `C188_violated_polarity`. -/
theorem C188_polarity_partial (mult : ℚ) (data : List ℚ) (delta start : ℚ)
    (h : ∀ p p' t t', IsPeakAt (signal data) data.length p → IsPeakAt (signal data) data.length p' →
      IsPeakAt (flipped data) data.length t → IsPeakAt (flipped data) data.length t' →
      |signal data p - signal data t| = |signal data p' - signal data t'| → p = p' ∧ t = t') :
    windowAmplitude mult (data.map (-·)) delta start = windowAmplitude mult data delta start := by
  rw [window_swap]
  have hw : windowAmplitude mult data delta start = peakToTrough (signal data) delta start
      (findPeaks (signal data) data.length (mult * maxAbs data))
      (findPeaks (flipped data) data.length (mult * maxAbs data)) := rfl
  rw [hw]
  rcases peakToTrough_swap (signal data) delta start _ _ (heads_differ data (mult * maxAbs data)) with
    ⟨e, h1, h2⟩ | ⟨q, q', h1, h2, h3, h4, h5, -, h7, h8⟩
  · rw [h1, h2]
  · rw [h7, h8]
    obtain ⟨a, b⟩ := h _ _ _ _ ((C83_prominence_filters _ _ _ _).1 h1).1 ((C83_prominence_filters _ _ _ _).1 h3).1
      ((C83_prominence_filters _ _ _ _).1 h2).1 ((C83_prominence_filters _ _ _ _).1 h4).1 h5
    rw [Prod.ext a b]

/-- The hypothesis of `C188_polarity_partial` is met: `[0, 3, -1, 2, 0]` has the peaks 1 and 3 and the trough 2. -/
example : ∀ mult delta start, windowAmplitude mult ([0, 3, -1, 2, 0].map ((-·) : ℚ → ℚ)) delta start =
    windowAmplitude mult [0, 3, -1, 2, 0] delta start := by
  intro mult delta start
  apply C188_polarity_partial
  have e1 : findPeaks (signal [0, 3, -1, 2, 0]) 5 0 = [1, 3] := by decide +kernel
  have e2 : findPeaks (flipped [0, 3, -1, 2, 0]) 5 0 = [2] := by decide +kernel
  intro p p' t t' hp hp' ht ht' h
  have a := ((C83_peaks_are_local_maxima _ _).1 _).2 hp
  have a' := ((C83_peaks_are_local_maxima _ _).1 _).2 hp'
  have c := ((C83_peaks_are_local_maxima _ _).1 _).2 ht
  have c' := ((C83_peaks_are_local_maxima _ _).1 _).2 ht'
  simp only [List.length_cons, List.length_nil, e1, e2, List.mem_cons, List.not_mem_nil, or_false, zero_add,
    Nat.reduceAdd] at a a' c c'
  subst c c'
  refine ⟨?_, rfl⟩
  rcases a with rfl | rfl <;> rcases a' with rfl | rfl <;> first | rfl | (exfalso; revert h; decide +kernel)

/-- C188 is violated for the frequency and the time when two swings are equally large: of the first and the last swing of
`0, 1, 0, 0, 1, 0` the first is taken, and with the polarity reversed the last, at half the frequency. -/
theorem C188_violated_polarity :
    windowAmplitude 0 [0, 1, 0, 0, 1, 0] (1 / 100) 0 = .ok ⟨500, 50, 15 / 1000⟩ ∧
    windowAmplitude 0 ([0, 1, 0, 0, 1, 0].map ((-·) : ℚ → ℚ)) (1 / 100) 0 = .ok ⟨500, 25, 3 / 100⟩ := by
  constructor <;> decide +kernel

end QM

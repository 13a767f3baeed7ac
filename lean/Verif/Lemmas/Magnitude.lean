import Verif.Model.Magnitude
import Verif.Spec.Magnitude
import Mathlib.Tactic.Linarith
import Mathlib.Tactic.FieldSimp
import Mathlib.Algebra.BigOperators.Group.List.Lemmas
import Mathlib.Algebra.Order.BigOperators.Group.List

namespace QM.Magnitude
open Classical

/-- A magnitude that is NaN has an error that is NaN. -/
theorem err_nan_of_ml_none (c : Cfg) (t : List Obs) (o : Obs) (h : ml c t o = none) :
    mlErr c t o = .nan := by
  unfold ml at h
  unfold mlErr
  cases hs : signalAmp c t o with
  | none => simp
  | some a =>
    cases hn : (noiseGain t o).map (· * c.mult) with
    | none => simp
    | some n =>
      cases ha : atten c o with
      | none => simp
      | some att =>
        simp only
        rw [hs, ha] at h
        have hlog : log10 a = none := by
          cases hl : log10 a with
          | none => rfl
          | some l => simp [hl] at h
        have ha0 : ¬ 0 < a := by
          intro hp
          unfold log10 at hlog
          rw [if_pos hp] at hlog
          simp at hlog
        by_cases h1 : a + n ≤ 0
        · rw [if_pos h1]
        · rw [if_neg h1, if_pos (by linarith)]

/-- The rows that are used carry the magnitude and error of an observation. -/
theorem mem_filterMags {c : Cfg} {t : List Obs} {r : Row} (h : r ∈ filterMags (calculate c t)) :
    ∃ o ∈ t, r.ml = ml c t o ∧ r.err = mlErr c t o := by
  unfold filterMags dropna corrected calculate at h
  simp only [List.mem_filter, List.mem_map] at h
  obtain ⟨⟨r', ⟨o, ho, rfl⟩, rfl⟩, -⟩ := h
  exact ⟨o, ho, rfl, rfl⟩

theorem sum_map_sub {α : Type} (l : List α) (f g : α → ℝ) :
    (l.map fun e => f e - g e).sum = (l.map f).sum - (l.map g).sum := by
  induction l with
  | nil => simp
  | cons a l ih => simp only [List.map_cons, List.sum_cons, ih]; ring

theorem sum_map_mul_const {α : Type} (l : List α) (f : α → ℝ) (k : ℝ) :
    (l.map fun e => f e * k).sum = (l.map f).sum * k := by
  induction l with
  | nil => simp
  | cons a l ih => simp only [List.map_cons, List.sum_cons, ih]; ring

theorem sum_nonneg_map {α : Type} (l : List α) (f : α → ℝ) (h : ∀ a ∈ l, 0 ≤ f a) :
    0 ≤ (l.map f).sum := by
  induction l with
  | nil => simp
  | cons a l ih =>
    rw [List.map_cons, List.sum_cons]
    have := h a (by simp)
    have := ih fun b hb => h b (by simp [hb])
    linarith

theorem sum_eq_zero_map {α : Type} (l : List α) (f : α → ℝ) (h : ∀ a ∈ l, 0 ≤ f a)
    (hs : (l.map f).sum = 0) : ∀ a ∈ l, f a = 0 := by
  induction l with
  | nil => simp
  | cons a l ih =>
    rw [List.map_cons, List.sum_cons] at hs
    have h1 := h a (by simp)
    have h2 := sum_nonneg_map l f fun b hb => h b (by simp [hb])
    intro b hb
    simp only [List.mem_cons] at hb
    rcases hb with rfl | hb
    · linarith
    · exact ih (fun b hb => h b (by simp [hb])) (by linarith) b hb

/-- A weighted average with non-negative weights is not below (above) all values of positive weight. -/
theorem average_between {α : Type} (l : List α) (m w : α → ℝ) (hw : ∀ a ∈ l, 0 ≤ w a)
    (hs : (l.map w).sum ≠ 0) :
    (∃ a ∈ l, 0 < w a ∧ m a ≤ (l.map fun e => m e * w e).sum / (l.map w).sum) ∧
    ∃ a ∈ l, 0 < w a ∧ (l.map fun e => m e * w e).sum / (l.map w).sum ≤ m a := by
  set μ := (l.map fun e => m e * w e).sum / (l.map w).sum with hμ
  have hzero : (l.map fun e => (m e - μ) * w e).sum = 0 := by
    have e : (l.map fun e => (m e - μ) * w e) = l.map fun e => m e * w e - w e * μ := by
      apply List.map_congr_left; intro a _; ring
    rw [e, sum_map_sub, sum_map_mul_const, hμ]
    field_simp
    ring
  have hpos : ∃ a ∈ l, 0 < w a := by
    by_contra hc
    push Not at hc
    apply hs
    have : l.map w = l.map fun _ => (0 : ℝ) := by
      apply List.map_congr_left
      intro a ha
      exact le_antisymm (hc a ha) (hw a ha)
    rw [this]
    simp
  obtain ⟨a0, ha0, hw0⟩ := hpos
  constructor
  · by_contra hc
    push Not at hc
    have hz := sum_eq_zero_map l (fun e => (m e - μ) * w e) (by
      intro a ha
      rcases eq_or_lt_of_le (hw a ha) with h | h
      · rw [← h]; simp
      · exact mul_nonneg (by linarith [hc a ha h]) h.le) hzero a0 ha0
    have := mul_pos (sub_pos.2 (hc a0 ha0 hw0)) hw0
    linarith
  · by_contra hc
    push Not at hc
    have hneg : (l.map fun e => (μ - m e) * w e).sum = 0 := by
      have e : (l.map fun e => (μ - m e) * w e) = l.map fun e => 0 - (m e - μ) * w e := by
        apply List.map_congr_left; intro a _; ring
      rw [e, sum_map_sub, hzero]
      simp
    have hz := sum_eq_zero_map l (fun e => (μ - m e) * w e) (by
      intro a ha
      rcases eq_or_lt_of_le (hw a ha) with h | h
      · rw [← h]; simp
      · exact mul_nonneg (by linarith [hc a ha h]) h.le) hneg a0 ha0
    have := mul_pos (sub_pos.2 (hc a0 ha0 hw0)) hw0
    linarith

/-- Finite part of a weight. -/
noncomputable def finW (e : Err) : ℝ :=
  match weight e with
  | .fin w => w
  | _ => 0

theorem finW_nonneg (e : Err) : 0 ≤ finW e := by
  unfold finW weight
  cases e with
  | nan => simp
  | inf => simp
  | fin x => by_cases hx : x = 0 <;> simp [hx]; positivity

theorem sumW_some {l : List (Option ℝ × Err)} {w : ℝ} (h : sumW l = some w) :
    w = (l.map fun e => finW e.2).sum ∧ ∀ e ∈ l, weight e.2 ≠ .inf := by
  unfold sumW at h
  split_ifs at h with h1
  simp only [Option.some.injEq] at h
  refine ⟨h ▸ rfl, ?_⟩
  intro e he hc
  apply h1
  rw [List.any_eq_true]
  exact ⟨e, he, by rw [hc]⟩

theorem sumW_of_finite {l : List (Option ℝ × Err)} (h : ∀ e ∈ l, weight e.2 ≠ .inf) :
    sumW l = some (l.map fun e => finW e.2).sum := by
  unfold sumW
  rw [if_neg]
  · rfl
  · rw [List.any_eq_true]
    rintro ⟨e, he, h1⟩
    have := h e he
    cases hw : weight e.2 with
    | inf => exact this hw
    | nan => rw [hw] at h1; simp at h1
    | fin x => rw [hw] at h1; simp at h1

/-- When NaN magnitudes have NaN errors, the pandas sum is the sum over all rows. -/
theorem sumMW_eq {l : List (Option ℝ × Err)} (hn : ∀ e ∈ l, e.1 = none → e.2 = .nan) :
    sumMW id l = (l.map fun e => e.1.getD 0 * finW e.2).sum := by
  unfold sumMW
  congr 1
  apply List.map_congr_left
  intro e he
  obtain ⟨m, er⟩ := e
  cases m with
  | none =>
    have := hn _ he rfl
    simp only at this
    subst this
    simp [finW, weight]
  | some m =>
    simp only [Option.getD_some, finW]
    cases weight er <;> simp

theorem weightedMean_some {l : List (Option ℝ × Err)} (hn : ∀ e ∈ l, e.1 = none → e.2 = .nan) {μ : ℝ}
    (h : weightedMean l = some μ) :
    ((∃ e ∈ l, e.1 = some 0) ∧ μ = 0) ∨
    ((l.map fun e => finW e.2).sum ≠ 0 ∧
      μ = (l.map fun e => e.1.getD 0 * finW e.2).sum / (l.map fun e => finW e.2).sum) := by
  unfold weightedMean at h
  cases hs : sumW l with
  | none =>
    rw [hs] at h
    simp only at h
    split_ifs at h with h1
    simp only [Option.some.injEq] at h
    left
    refine ⟨?_, h.symm⟩
    unfold sumW at hs
    split_ifs at hs with h2
    rw [List.any_eq_true] at h2
    obtain ⟨e, he, h3⟩ := h2
    refine ⟨e, he, ?_⟩
    have hwe : weight e.2 = .inf := by
      cases hw : weight e.2 with
      | inf => rfl
      | nan => rw [hw] at h3; simp at h3
      | fin x => rw [hw] at h3; simp at h3
    cases hm : e.1 with
    | none =>
      have := hn e he hm
      rw [this] at hwe
      simp [weight] at hwe
    | some m =>
      by_cases hm0 : m = 0
      · rw [hm0]
      · exfalso
        apply h1
        rw [List.any_eq_true]
        exact ⟨e, he, by rw [hm, hwe]; simp [hm0]⟩
  | some w =>
    rw [hs] at h
    simp only at h
    split_ifs at h with h1
    simp only [Option.some.injEq] at h
    right
    obtain ⟨e1, -⟩ := sumW_some hs
    rw [← e1, ← h, sumMW_eq hn]
    exact ⟨h1, rfl⟩

theorem plainMean_some {l : List (Option ℝ)} {μ : ℝ} (h : plainMean l = some μ) :
    (∀ m ∈ l, ∃ x, m = some x) ∧ μ = (l.map fun m => m.getD 0).sum / l.length := by
  unfold plainMean at h
  split_ifs at h with h1
  simp only [Option.some.injEq] at h
  refine ⟨?_, h.symm⟩
  intro m hm
  rw [List.all_eq_true] at h1
  exact Option.isSome_iff_exists.1 (h1 m hm)

/-! ### Order of the rows -/

theorem noiseGain_perm {t t' : List Obs} (h : t.Perm t') : noiseGain t = noiseGain t' := by
  funext o
  unfold noiseGain
  rw [h.any_eq]

theorem calculate_perm (c : Cfg) {t t' : List Obs} (h : t.Perm t') :
    (calculate c t).Perm (calculate c t') := by
  have e : (fun o => (⟨if c.view ∧ ¬ c.useHyp then { o with epi := nonZero o.epi } else o, ml c t o,
      mlErr c t o⟩ : Row)) = fun o => ⟨if c.view ∧ ¬ c.useHyp then { o with epi := nonZero o.epi } else o,
      ml c t' o, mlErr c t' o⟩ := by
    funext o
    unfold ml mlErr signalAmp
    rw [noiseGain_perm h]
  unfold calculate
  rw [e]
  exact h.map _

theorem filterMags_perm {rows rows' : List Row} (h : rows.Perm rows') :
    (filterMags rows).Perm (filterMags rows') := by
  unfold filterMags dropna corrected
  apply List.Perm.filter
  rw [noiseGain_perm (h.map Row.obs)]
  exact h.map _

theorem plainMean_perm {l l' : List (Option ℝ)} (h : l.Perm l') : plainMean l = plainMean l' := by
  unfold plainMean
  rw [h.all_eq, (h.map _).sum_eq, h.length_eq]

theorem plainStd_perm {l l' : List (Option ℝ)} (h : l.Perm l') : plainStd l = plainStd l' := by
  unfold plainStd
  rw [plainMean_perm h, h.length_eq]
  cases plainMean l' with
  | none => rfl
  | some μ => simp only [(h.map _).sum_eq]

theorem sumW_perm {l l' : List (Option ℝ × Err)} (h : l.Perm l') : sumW l = sumW l' := by
  unfold sumW
  rw [h.any_eq, (h.map _).sum_eq]

theorem sumMW_perm (f : ℝ → ℝ) {l l' : List (Option ℝ × Err)} (h : l.Perm l') :
    sumMW f l = sumMW f l' := by
  unfold sumMW
  rw [(h.map _).sum_eq]

theorem weightedMean_perm {l l' : List (Option ℝ × Err)} (h : l.Perm l') :
    weightedMean l = weightedMean l' := by
  unfold weightedMean
  rw [sumW_perm h, h.any_eq, sumMW_perm id h]

theorem weightedStd_perm {l l' : List (Option ℝ × Err)} (h : l.Perm l') :
    weightedStd l = weightedStd l' := by
  unfold weightedStd
  rw [sumW_perm h, weightedMean_perm h]
  cases sumW l' with
  | none => rfl
  | some w =>
    simp only
    cases weightedMean l' with
    | none => rfl
    | some μ => simp only [sumMW_perm _ (h.map _)]

theorem r2Stat_perm (c : Cfg) (m : Option ℝ) {l l' : List Row} (h : l.Perm l') :
    r2Stat c m l = r2Stat c m l' := by
  unfold r2Stat
  simp only
  rw [h.length_eq]
  have hm : ∀ a, a ∈ l.map (r2Amp c) ↔ a ∈ l'.map (r2Amp c) := fun a => (h.map _).mem_iff
  simp only [hm]
  have e1 : ((l.map (r2Amp c)).map (Real.logb 10)).sum = ((l'.map (r2Amp c)).map (Real.logb 10)).sum :=
    ((h.map _).map _).sum_eq
  have e2 : ((l.map (r2Amp c)).map (Real.logb 10)).length =
    ((l'.map (r2Amp c)).map (Real.logb 10)).length := ((h.map _).map _).length_eq
  rw [e1, e2]
  rw [(((h.map (r2Amp c)).map (Real.logb 10)).map _).sum_eq, (h.map _).sum_eq]

theorem r2Rows_perm (c : Cfg) {l l' : List Row} (h : l.Perm l') :
    (r2Rows c l = none ∧ r2Rows c l' = none) ∨
    ∃ s s', r2Rows c l = some s ∧ r2Rows c l' = some s' ∧ s.Perm s' := by
  unfold r2Rows
  split_ifs with h1 h2
  · exact Or.inr ⟨_, _, rfl, rfl, h.filter _⟩
  · exact Or.inl ⟨rfl, rfl⟩
  · exact Or.inr ⟨_, _, rfl, rfl, ((h.filter _).filter _).filter _⟩

/-! ### The attenuation function shifted by a constant -/

/-- The configuration with another attenuation function. -/
noncomputable def Cfg.shift (c : Cfg) (k : ℝ) : Cfg := { c with A0 := fun d => c.A0 d + k }

theorem atten_shift (c : Cfg) (k : ℝ) (o : Obs) : atten (c.shift k) o = (atten c o).map (· + k) := by
  unfold atten
  rw [Option.map_map]
  rfl

theorem ml_shift (c : Cfg) (k : ℝ) (t : List Obs) (o : Obs) :
    ml (c.shift k) t o = (ml c t o).map (· + k) := by
  unfold ml
  rw [atten_shift]
  have hs : signalAmp (c.shift k) t o = signalAmp c t o := rfl
  have hc : correction (c.shift k) o.id = correction c o.id := rfl
  rw [hs, hc]
  cases (signalAmp c t o).bind log10 with
  | none => rfl
  | some l =>
    cases atten c o with
    | none => rfl
    | some a =>
      simp only [Option.map_some]
      congr 1
      ring

theorem mlErr_shift (c : Cfg) (k : ℝ) (t : List Obs) (o : Obs) :
    mlErr (c.shift k) t o = mlErr c t o := by
  unfold mlErr
  rw [atten_shift]
  have hs : signalAmp (c.shift k) t o = signalAmp c t o := rfl
  have hc : (c.shift k).mult = c.mult := rfl
  rw [hs, hc]
  cases signalAmp c t o with
  | none => rfl
  | some a =>
    cases (noiseGain t o).map (· * c.mult) with
    | none => rfl
    | some n =>
      cases atten c o with
      | none => rfl
      | some a => rfl

/-- A row with its magnitude shifted. -/
noncomputable def Row.shift (k : ℝ) (r : Row) : Row := { r with ml := r.ml.map (· + k) }

theorem calculate_shift (c : Cfg) (k : ℝ) (t : List Obs) :
    calculate (c.shift k) t = (calculate c t).map (Row.shift k) := by
  unfold calculate
  rw [List.map_map]
  apply List.map_congr_left
  intro o _
  rw [ml_shift, mlErr_shift]
  rfl

theorem filterMags_shift (k : ℝ) (rows : List Row) :
    filterMags (rows.map (Row.shift k)) = (filterMags rows).map (Row.shift k) := by
  unfold filterMags dropna corrected
  rw [List.filter_map, List.map_map, List.filter_map, List.filter_map, List.map_map, List.map_map]
  have : (Row.obs ∘ Row.shift k) = Row.obs := rfl
  rw [this]
  rfl

theorem plainMean_shift (k : ℝ) {l : List (Option ℝ)} (hl : l ≠ []) :
    plainMean (l.map (Option.map (· + k))) = (plainMean l).map (· + k) := by
  unfold plainMean
  have e : (l.map (Option.map (· + k))).all Option.isSome = l.all Option.isSome := by
    rw [List.all_map]
    congr 1
    funext x
    cases x <;> rfl
  rw [e]
  by_cases h : l.all Option.isSome = true
  · rw [if_pos h, if_pos h, Option.map_some, List.length_map, List.map_map]
    congr 1
    have e2 : (l.map ((fun m : Option ℝ => m.getD 0) ∘ Option.map (· + k))) =
        l.map fun m => m.getD 0 - (-k) := by
      apply List.map_congr_left
      intro m hm
      obtain ⟨x, rfl⟩ := Option.isSome_iff_exists.1 (List.all_eq_true.1 h m hm)
      simp
    rw [e2, sum_map_sub, List.map_const', List.sum_replicate, nsmul_eq_mul]
    have : (l.length : ℝ) ≠ 0 := by
      have := fun e => hl (List.length_eq_zero_iff.1 e)
      exact_mod_cast this
    field_simp
    ring
  · rw [if_neg h, if_neg h]
    rfl

theorem plainStd_shift (k : ℝ) {l : List (Option ℝ)} (hl : l ≠ []) :
    plainStd (l.map (Option.map (· + k))) = plainStd l := by
  unfold plainStd
  rw [plainMean_shift k hl]
  cases h : plainMean l with
  | none => rfl
  | some μ =>
    simp only [Option.map_some, List.length_map, List.map_map]
    congr 4
    apply List.map_congr_left
    intro m hm
    obtain ⟨x, rfl⟩ := (plainMean_some h).1 m hm
    simp

theorem sumW_congr {l l' : List (Option ℝ × Err)} (h : l.map Prod.snd = l'.map Prod.snd) :
    sumW l = sumW l' := by
  have key : ∀ l : List (Option ℝ × Err),
      sumW l = sumW ((l.map Prod.snd).map fun e => ((none : Option ℝ), e)) := by
    intro l
    unfold sumW
    rw [List.map_map, List.any_map, List.map_map]
    rfl
  rw [key l, key l', h]

/-- Pairs with the magnitude shifted. -/
noncomputable def shiftP (k : ℝ) (e : Option ℝ × Err) : Option ℝ × Err := (e.1.map (· + k), e.2)

theorem sumW_shift (k : ℝ) (l : List (Option ℝ × Err)) : sumW (l.map (shiftP k)) = sumW l := by
  apply sumW_congr
  rw [List.map_map]
  rfl

theorem weightedMean_shift (k : ℝ) {l : List (Option ℝ × Err)} (hn : ∀ e ∈ l, e.1 = none → e.2 = .nan)
    (hinf : ∀ e ∈ l, e.2 ≠ .fin 0) :
    weightedMean (l.map (shiftP k)) = (weightedMean l).map (· + k) := by
  unfold weightedMean
  rw [sumW_shift]
  have hs : sumW l = some (l.map fun e => finW e.2).sum := by
    apply sumW_of_finite
    intro e he hc
    apply hinf e he
    unfold weight at hc
    split at hc
    · exact absurd hc (by simp)
    · exact absurd hc (by simp)
    · rename_i x hx
      split_ifs at hc with h0
      rw [hx, h0]
  rw [hs]
  simp only
  by_cases h0 : (l.map fun e => finW e.2).sum = 0
  · rw [if_pos h0, if_pos h0]; rfl
  · rw [if_neg h0, if_neg h0, Option.map_some]
    congr 1
    rw [sumMW_eq hn, sumMW_eq (by
      intro e he h1
      rw [List.mem_map] at he
      obtain ⟨e', he', rfl⟩ := he
      exact hn e' he' (by simpa [shiftP] using h1)), List.map_map]
    have e2 : l.map ((fun e : Option ℝ × Err => e.1.getD 0 * finW e.2) ∘ shiftP k) =
        l.map fun e => e.1.getD 0 * finW e.2 - finW e.2 * (-k) := by
      apply List.map_congr_left
      intro e he
      cases h1 : e.1 with
      | none =>
        have := hn e he h1
        simp [shiftP, this, finW, weight]
      | some x =>
        simp only [Function.comp, shiftP, h1, Option.map_some, Option.getD_some]
        ring
    rw [e2, sum_map_sub, sum_map_mul_const]
    field_simp
    ring

theorem weightedStd_shift (k : ℝ) {l : List (Option ℝ × Err)} (hn : ∀ e ∈ l, e.1 = none → e.2 = .nan)
    (hinf : ∀ e ∈ l, e.2 ≠ .fin 0) :
    weightedStd (l.map (shiftP k)) = weightedStd l := by
  unfold weightedStd
  rw [sumW_shift, weightedMean_shift k hn hinf]
  cases hs : sumW l with
  | none => rfl
  | some w =>
    simp only
    cases weightedMean l with
    | none => rfl
    | some μ =>
      simp only [Option.map_some, List.map_map]
      have : l.map ((fun e : Option ℝ × Err => (e.1.map (· - (μ + k)), e.2)) ∘ shiftP k) =
          l.map fun e => (e.1.map (· - μ), e.2) := by
        apply List.map_congr_left
        intro e _
        obtain ⟨m, er⟩ := e
        cases m with
        | none => rfl
        | some x => simp [shiftP]
      rw [this]

theorem r2Stat_shift (c : Cfg) (k : ℝ) (m : Option ℝ) (rows : List Row) :
    r2Stat (c.shift k) (m.map (· + k)) (rows.map (Row.shift k)) = r2Stat c m rows := by
  unfold r2Stat
  have e1 : (rows.map (Row.shift k)).map (r2Amp (c.shift k)) = rows.map (r2Amp c) := by
    rw [List.map_map]; rfl
  have e2 : (rows.map (Row.shift k)).map (modTerm (c.shift k) (m.map (· + k))) =
      rows.map (modTerm c m) := by
    rw [List.map_map]
    apply List.map_congr_left
    intro r _
    have h1 : r2Amp (c.shift k) (r.shift k) = r2Amp c r := rfl
    have h2 : (r.shift k).obs = r.obs := rfl
    simp only [Function.comp, modTerm, atten_shift, h1, h2]
    cases m with
    | none => rfl
    | some m =>
      cases atten c r.obs with
      | none => rfl
      | some a => simp
  simp only [e1, e2, List.length_map]

theorem r2Rows_shift (c : Cfg) (k : ℝ) (rows : List Row) :
    r2Rows (c.shift k) (rows.map (Row.shift k)) = (r2Rows c rows).map (List.map (Row.shift k)) := by
  unfold r2Rows
  simp only [List.filter_map]
  change (if c.onlyUsed then some ((rows.filter (used c)).map (Row.shift k)) else
    if c.noiseF ≤ 0 then none else
      some ((((rows.filter (traceOK c)).filter (stationOK c)).filter (distOK c)).map (Row.shift k))) = _
  split_ifs <;> rfl

end QM.Magnitude

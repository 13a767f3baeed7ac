import Verif.Props.StaLta
import Verif.Lemmas.Compute

/-!
# Onset functions: C37-C40
-/

namespace QM
open QM.StaLta QM.Spec QM.Onset

theorem rms_between (vs : List ℝ) (hne : vs ≠ []) (lo hi : ℝ) (hlo : 0 ≤ lo)
    (h : ∀ v ∈ vs, lo ≤ v ∧ v ≤ hi) : lo ≤ rms vs ∧ rms vs ≤ hi := by
  have hn : (0 : ℝ) < vs.length := by
    have := List.length_pos_of_ne_nil hne
    exact_mod_cast this
  have hhi : 0 ≤ hi := by
    cases vs with
    | nil => exact absurd rfl hne
    | cons v l => have := h v (by simp); linarith
  have h1 : ∀ l : List ℝ, (∀ v ∈ l, lo ≤ v ∧ v ≤ hi) →
      l.length * lo ^ 2 ≤ (l.map (fun v => v ^ 2)).sum ∧
      (l.map (fun v => v ^ 2)).sum ≤ l.length * hi ^ 2 := by
    intro l
    induction l with
    | nil => simp
    | cons v l ih =>
      intro hl
      obtain ⟨a, b⟩ := ih (fun w hw => hl w (List.mem_cons_of_mem _ hw))
      obtain ⟨c, d⟩ := hl v (by simp)
      have e1 : lo ^ 2 ≤ v ^ 2 := pow_le_pow_left₀ hlo c 2
      have e2 : v ^ 2 ≤ hi ^ 2 := pow_le_pow_left₀ (hlo.trans c) d 2
      simp only [List.map_cons, List.sum_cons, List.length_cons, Nat.cast_add, Nat.cast_one]
      constructor <;> nlinarith
  obtain ⟨a, b⟩ := h1 vs h
  unfold rms
  constructor
  · apply Real.le_sqrt_of_sq_le
    rw [le_div_iff₀ hn]; linarith
  · apply Real.sqrt_le_iff.2
    refine ⟨hhi, ?_⟩
    rw [div_le_iff₀ hn]; linarith

/-- C37: with the `min_onset_value` `m` accepted by the constructor, every sample of an
onset function is at least `m`, hence at least 0.01, and migration's own floor of 0.01
does not alter it. -/
theorem C37_floor (v m : ℝ) (hm : initMinOnset v = some m) (n : ℕ) (onsets : List (ℕ → ℝ)) :
    ∀ o ∈ combine m n onsets, v ≤ o ∧ 1 / 100 ≤ o ∧ max (1 / 100) o = o := by
  intro o ho
  unfold initMinOnset at hm
  split at hm
  · simp at hm
  · next h =>
    have hv : v = m := by simpa using hm
    obtain ⟨i, -, rfl⟩ := List.mem_map.1 ho
    have h1 : m ≤ max m (rms (onsets.map (fun o => o i))) := le_max_left _ _
    have h2 : 1 / 100 ≤ max m (rms (onsets.map (fun o => o i))) := by
      rw [hv] at h; linarith
    exact ⟨by rw [hv]; exact h1, h2, max_eq_right h2⟩

/-- C37: a `min_onset_value` below 0.01 is refused. -/
theorem C37_low_floor_refused (v : ℝ) (hv : v < 1 / 100) : initMinOnset v = none := if_pos hv

/-- C37: above the floor, the combined onset lies between the smallest and the largest
component. -/
theorem C37_between_components (m : ℝ) (n : ℕ) (onsets : List (ℕ → ℝ)) (hne : onsets ≠ [])
    (i : ℕ) (hi : i < n) (lo hi' : ℝ) (hlo : 0 ≤ lo)
    (h : ∀ o ∈ onsets, lo ≤ o i ∧ o i ≤ hi') :
    ∃ v, (combine m n onsets)[i]? = some v ∧ max m lo ≤ v ∧ v ≤ max m hi' := by
  refine ⟨_, by rw [combine, List.getElem?_map, List.getElem?_range hi]; rfl, ?_⟩
  obtain ⟨a, b⟩ := rms_between (onsets.map (fun o => o i)) (by simpa using hne) lo hi' hlo (by
    intro v hv
    obtain ⟨o, ho, rfl⟩ := List.mem_map.1 hv
    exact h o ho)
  exact ⟨max_le_max le_rfl a, max_le_max le_rfl b⟩

/-- C37: components that agree are not altered above the floor, and the output has one
value per sample. -/
theorem C37_equal_components (m : ℝ) (n : ℕ) (o : ℕ → ℝ) (k : ℕ) (hk : 0 < k)
    (ho : ∀ i < n, 0 ≤ o i ∧ m ≤ o i) :
    combine m n (List.replicate k o) = (List.range n).map o := by
  unfold combine
  apply List.map_congr_left
  intro i hi
  obtain ⟨h0, h1⟩ := ho i (List.mem_range.1 hi)
  obtain ⟨a, b⟩ := rms_between ((List.replicate k o).map (fun o => o i)) (by
      simpa using hk.ne') (o i) (o i) h0 (by
    intro v hv
    simp only [List.map_replicate, List.mem_replicate] at hv
    rw [hv.2]; simp)
  rw [le_antisymm b a, max_eq_right h1]

example : initMinOnset (4 / 10) = some (4 / 10) ∧
    combine (4 / 10) 1 [fun _ => 1, fun _ => 7] = [5] := by
  constructor
  · unfold initMinOnset; norm_num
  · unfold combine rms
    norm_num


section
variable {K : Type} [Field K] [LinearOrder K] [IsStrictOrderedRing K]

/-- Specification: a transform of the envelope family commutes with gain up to the
absolute value of the gain (true of the modulus of the analytic signal). -/
def Homogeneous (m : List K → List K) : Prop :=
  ∀ (g : K) (x : List K), m (x.map (fun v => g * v)) = (m x).map (fun v => |g| * v)

/-- The transforms to which C38 applies. -/
def Transform.Ok : Transform K → Prop
  | .energy => True
  | .abs => True
  | .env m => Homogeneous m
  | .envSquared m => Homogeneous m

theorem overlappingC_scale (x : List K) {k : K} (hk : 0 < k) {nsta nlta : ℕ} (h1 : 1 ≤ nsta)
    (h2 : nsta ≤ nlta) :
    overlappingC (x.map (fun v => k * v)) nsta nlta = overlappingC x nsta nlta := by
  by_cases h : nlta ≤ x.length
  · rw [overlappingC_eq _ h1 h2 (by simpa using h), overlappingC_eq _ h1 h2 h, List.length_map]
    congr 1
    apply List.map_congr_left
    intro i _
    unfold overVal
    rw [winSum_scale, winSum_scale, cdiv_scale hk.ne']
  · rw [overlappingC_short _ h1 h2 (by simpa using h), overlappingC_short _ h1 h2 (by omega)]

theorem centredC_scale (x : List K) {k : K} (hk : 0 < k) {nsta nlta : ℕ} (h1 : 1 ≤ nsta)
    (h2 : 1 ≤ nlta) :
    centredC (x.map (fun v => k * v)) nsta nlta = centredC x nsta nlta := by
  by_cases h : nlta + nsta ≤ x.length
  · rw [centredC_eq _ h1 h2 (by simpa using h), centredC_eq _ h1 h2 h, List.length_map]
    congr 1
    apply List.map_congr_left
    intro i _
    unfold centVal
    rw [winSum_scale, winSum_scale, cdiv_scale hk.ne', List.length_map]
    simp only [mul_pos_iff_of_pos_left hk]
  · rw [centredC_short _ (by simpa using h), centredC_short _ (by omega)]

/-- C38: a non-zero gain does not change the onset function, for every signal
transform and both window positions (faulting calls included). -/
theorem C38_gain_invariant (T : Transform K) (hT : Transform.Ok T) (pos : Position) (g : K)
    (hg : g ≠ 0) (x : List K) (stw ltw : ℕ) (h1 : 1 ≤ stw) (h2 : stw ≤ ltw) :
    onsetC pos (T.apply (x.map (fun v => g * v))) stw ltw = onsetC pos (T.apply x) stw ltw := by
  have key : ∃ k : K, 0 < k ∧ T.apply (x.map (fun v => g * v)) = (T.apply x).map (fun v => k * v) := by
    have hg2 : 0 < g ^ 2 := by positivity
    have hga : 0 < |g| := abs_pos.2 hg
    cases T with
    | energy =>
      exact ⟨g ^ 2, hg2, by simp [Transform.apply, Function.comp_def, mul_pow]⟩
    | abs =>
      refine ⟨|g|, hga, ?_⟩
      have e : ∀ v : K, (if v < 0 then -v else v) = |v| := by
        intro v
        by_cases h : v < 0
        · rw [if_pos h, abs_of_neg h]
        · rw [if_neg h, abs_of_nonneg (not_lt.1 h)]
      simp [Transform.apply, Function.comp_def, e, abs_mul]
    | env m => exact ⟨|g|, hga, hT g x⟩
    | envSquared m =>
      refine ⟨g ^ 2, hg2, ?_⟩
      simp only [Transform.apply]
      rw [hT g x]
      simp [Function.comp_def, mul_pow]
  obtain ⟨k, hk, e⟩ := key
  rw [e]
  cases pos with
  | classic => exact overlappingC_scale _ hk h1 h2
  | centred => exact centredC_scale _ hk h1 (by omega)

example : Transform.Ok (Transform.env (fun x : List ℚ => x.map (fun v => |v|))) ∧
    onsetC .centred ((Transform.abs).apply (exSig.map (fun v => -7 * v))) 2 3 =
      some ([1, 1, 13/4, 5/3, 9/32, 1, 1].map some) := by
  refine ⟨?_, by decide +kernel⟩
  intro g x
  simp [Function.comp_def, abs_mul]

omit [LinearOrder K] [IsStrictOrderedRing K] in
theorem winSum_congr {x y : List K} (hl : x.length = y.length) {a len : ℕ}
    (h : ∀ k, a ≤ k → k < a + len → x[k]? = y[k]?) : winSum x a len = winSum y a len := by
  unfold winSum
  congr 1
  apply List.ext_getElem?
  intro i
  rw [List.getElem?_take, List.getElem?_take, List.getElem?_drop, List.getElem?_drop]
  by_cases hi : i < len
  · rw [if_pos hi, if_pos hi]; exact h _ (by omega) (by omega)
  · rw [if_neg hi, if_neg hi]

omit [IsStrictOrderedRing K] in
/-- C39, classic: two recordings that agree on the nlta samples up to and including `i`
have the same onset at `i`. -/
theorem C39_classic_local (x y : List K) (hl : x.length = y.length) (nsta nlta : ℕ) (h1 : 1 ≤ nsta)
    (h2 : nsta ≤ nlta) (i : ℕ)
    (h : ∀ k, i < k + nlta → k ≤ i → x[k]? = y[k]?) :
    (overlappingC x nsta nlta).map (·[i]?) = (overlappingC y nsta nlta).map (·[i]?) := by
  by_cases hn : nlta ≤ x.length
  · rw [overlappingC_eq x h1 h2 hn, overlappingC_eq y h1 h2 (by omega), ← hl]
    simp only [Option.map_some, List.getElem?_map]
    by_cases hi : i < x.length
    · rw [List.getElem?_range hi]
      simp only [Option.map_some]
      unfold overVal
      by_cases hb : i + 1 < nlta
      · rw [if_pos hb, if_pos hb]
      · rw [if_neg hb, if_neg hb,
          winSum_congr hl (a := i + 1 - nsta) (fun k ha hb => h k (by omega) (by omega)),
          winSum_congr hl (a := i + 1 - nlta) (fun k ha hb => h k (by omega) (by omega))]
    · rw [List.getElem?_eq_none (by simpa using hi)]; rfl
  · rw [overlappingC_short x h1 h2 (by omega), overlappingC_short y h1 h2 (by omega)]

omit [IsStrictOrderedRing K] in
/-- C39, centred: two recordings that agree on the nlta samples up to and including `i`
and the nsta samples after it have the same onset at `i`. -/
theorem C39_centred_local (x y : List K) (hl : x.length = y.length) (nsta nlta : ℕ) (h1 : 1 ≤ nsta)
    (h2 : 1 ≤ nlta) (i : ℕ)
    (h : ∀ k, i < k + nlta → k ≤ i + nsta → x[k]? = y[k]?) :
    (centredC x nsta nlta).map (·[i]?) = (centredC y nsta nlta).map (·[i]?) := by
  by_cases hn : nlta + nsta ≤ x.length
  · rw [centredC_eq x h1 h2 hn, centredC_eq y h1 h2 (by omega), ← hl]
    simp only [Option.map_some, List.getElem?_map]
    by_cases hi : i < x.length
    · rw [List.getElem?_range hi]
      simp only [Option.map_some]
      unfold centVal
      rw [← hl]
      by_cases hb : i + 1 < nlta ∨ x.length < i + 1 + nsta
      · rw [if_pos hb, if_pos hb]
      · rw [if_neg hb, if_neg hb,
          winSum_congr hl (a := i + 1) (fun k ha hb => h k (by omega) (by omega)),
          winSum_congr hl (a := i + 1 - nlta) (fun k ha hb => h k (by omega) (by omega))]
    · rw [List.getElem?_eq_none (by simpa using hi)]; rfl
  · rw [centredC_short x (by omega), centredC_short y (by omega)]
end

example : (∀ k, 2 < k + 2 → k ≤ 2 → exSig[k]? = ([100, 2, 3, 50, 9, 1, 2] : List ℚ)[k]?) ∧
    (overlappingC ([100, 2, 3, 50, 9, 1, 2] : List ℚ) 1 2).map (·[2]?) =
      (overlappingC exSig 1 2).map (·[2]?) := by
  refine ⟨?_, by decide +kernel⟩
  intro k h1 h2
  have : k = 1 ∨ k = 2 := by omega
  rcases this with rfl | rfl <;> rfl

/-- C39 (scan): with the pads used by a scan stage, every onset sample read by the
migration has its complete windows inside the padded data: index `first + s + t` for
`s < n` output samples and any traveltime `t` (in samples) not above the largest.
`(sta, lta)` are the windows, in seconds, of any phase. -/
theorem C39_migrated_windows_full (w : Pads.Windows) (hw : w.Nonneg) (sta lta ttmax tt : ℚ)
    (hsta : 0 ≤ sta) (hsl : sta ≤ lta) (hlta : 0 < lta) (hmax : lta ≤ w.ltaMax)
    (htt0 : 0 ≤ ttmax) (htt : tt ≤ ttmax)
    (sr : ℕ) (hsr : 2 ≤ sr) (timespan : ℚ) (hts : 0 ≤ timespan)
    (pads : ℚ × ℚ) (hpads : pads = Pads.scanPads w ttmax sr timespan)
    (first last stw ltw t s n cols : ℤ)
    (hfirst : first = Pads.time2sample pads.1 sr) (hlast : last = Pads.time2sample pads.2 sr)
    (hstw : stw = Pads.time2sample sta sr + 1) (hltw : ltw = Pads.time2sample lta sr + 1)
    (ht : t = max 0 (pyRound (tt * sr))) (hs0 : 0 ≤ s) (hs : s < n) (hcols : cols = first + n + last) :
    ltw ≤ (first + s + t) + 1 ∧ (first + s + t) + stw < cols := by
  have hsr0 : 0 < sr := by omega
  have hsr' : (2 : ℚ) ≤ sr := by exact_mod_cast hsr
  have hpre := Pads.prePad_nonneg hw
  have hsn := Pads.Windows.staMax_nonneg hw
  have hpost : ttmax + 2 * w.ltaMax ≤ Pads.postPad w ttmax := Int.le_ceil _
  have hc : 1 ≤ ⌈(timespan + (Pads.prePad w + Pads.postPad w ttmax)) * (6 / 100)⌉ := by
    have : 0 < ⌈(timespan + (Pads.prePad w + Pads.postPad w ttmax)) * (6 / 100)⌉ := by
      apply Int.ceil_pos.2
      have : 0 < Pads.postPad w ttmax := by linarith
      positivity
    omega
  have hc' : (1 : ℚ) ≤ (⌈(timespan + (Pads.prePad w + Pads.postPad w ttmax)) * (6 / 100)⌉ : ℤ) := by
    exact_mod_cast hc
  constructor
  · have hmono : Pads.time2sample lta sr ≤ first := by
      rw [hfirst, hpads, Pads.time2sample_nat, Pads.time2sample_nat]
      apply pyRound_mono
      apply mul_le_mul_of_nonneg_right _ (by linarith)
      simp only [Pads.scanPads, Pads.pad]
      obtain ⟨k, hk, -, h2, -⟩ := Pads.trim2sample_spec (t := Pads.prePad w +
        (⌈(timespan + (Pads.prePad w + Pads.postPad w ttmax)) * (6 / 100)⌉ : ℤ))
        (by linarith) hsr0
      have h3 : Pads.prePad w +
          (⌈(timespan + (Pads.prePad w + Pads.postPad w ttmax)) * (6 / 100)⌉ : ℤ) ≤ (k : ℚ) / sr := by
        rw [le_div_iff₀ (by linarith), hk]
        exact Int.le_ceil _
      have h4 : lta ≤ Pads.prePad w := by unfold Pads.prePad; linarith
      linarith
    have : 0 ≤ t := by rw [ht]; exact le_max_left _ _
    omega
  · have key : t + stw ≤ last := by
      have h1 := abs_le.1 (abs_pyRound_sub_le (tt * sr))
      have h2 := abs_le.1 (abs_pyRound_sub_le (sta * sr))
      have h3 : (t : ℚ) ≤ ttmax * sr + 1 / 2 := by
        rw [ht, Int.cast_max, max_le_iff]
        have e1 : tt * sr ≤ ttmax * sr := mul_le_mul_of_nonneg_right htt (by linarith)
        have e2 : 0 ≤ ttmax * sr := by positivity
        constructor
        · push_cast; linarith
        · linarith [h1.2]
      have h4 : Pads.time2sample pads.2 sr =
          (⌈ttmax + 2 * w.ltaMax⌉ +
            ⌈(timespan + (Pads.prePad w + Pads.postPad w ttmax)) * (6 / 100)⌉) * sr := by
        rw [hpads, Pads.scanPads_snd w ttmax timespan hsr0, Pads.time2sample_nat]
        have := pyRound_int ((⌈ttmax + 2 * w.ltaMax⌉ +
            ⌈(timespan + (Pads.prePad w + Pads.postPad w ttmax)) * (6 / 100)⌉) * sr)
        push_cast at this ⊢
        exact this
      have h5 : (t : ℚ) + stw ≤ last := by
        rw [hstw, hlast, h4, Pads.time2sample_nat]
        push_cast
        have e1 : ttmax + 2 * w.ltaMax ≤ (⌈ttmax + 2 * w.ltaMax⌉ : ℤ) := Int.le_ceil _
        have e2 : (ttmax + 2 * w.ltaMax + 1) * sr ≤ ((⌈ttmax + 2 * w.ltaMax⌉ : ℤ) +
            (⌈(timespan + (Pads.prePad w + Pads.postPad w ttmax)) * (6 / 100)⌉ : ℤ) : ℚ) * sr :=
          mul_le_mul_of_nonneg_right (by linarith) (by linarith)
        have e3 : sta * sr ≤ w.ltaMax * sr := mul_le_mul_of_nonneg_right (by linarith) (by linarith)
        have e4 : 0 ≤ w.ltaMax * sr := mul_nonneg (by linarith) (by linarith)
        linarith [h2.2]
      exact_mod_cast h5
    omega

/-- default windows, 50 Hz -/
example : Pads.time2sample (Pads.scanPads ⟨(1/5, 1), [(1/5, 1)]⟩ 4 50 120).1 50 = 480 ∧
    Pads.time2sample 1 50 + 1 = 51 ∧ Pads.time2sample (1/5) 50 + 1 = 11 := by decide +kernel

section
variable {K : Type} [Field K] [LinearOrder K]

/-- C40: blanking sets exactly the first `taper + ltw - 1` and the last `taper + stw`
samples to 1 and keeps every other sample and the length. -/
theorem C40_taper_blanked (taper stw ltw : ℕ) (onset : List K) :
    (trimTaperPad taper stw ltw onset).length = onset.length ∧
    ∀ i (hi : i < onset.length), (trimTaperPad taper stw ltw onset)[i]? =
      if i < taper + ltw - 1 ∨ onset.length - (taper + stw) ≤ i then some 1 else some onset[i] := by
  refine ⟨by simp [trimTaperPad, onesLast_length, onesTo_length], fun i hi => ?_⟩
  unfold trimTaperPad
  rw [onesLast_get _ _ _ (by rw [onesTo_length]; exact hi), onesTo_length, onesTo_get _ _ _ hi,
    List.getElem?_eq_getElem hi]
  by_cases h1 : i < taper + ltw - 1 <;> by_cases h2 : onset.length - (taper + stw) ≤ i
  · rw [if_pos (by omega), if_pos (by omega)]
  · rw [if_neg (by omega), if_pos (by omega), if_pos (by omega)]
  · rw [if_pos (by omega), if_pos (by omega)]
  · rw [if_neg (by omega), if_neg (by omega), if_neg (by omega)]

example : trimTaperPad 1 2 3 ([5, 6, 7, 8, 9, 10, 11, 12] : List ℚ) = [1, 1, 1, 8, 9, 1, 1, 1] := by
  decide +kernel
/-- the blanked stretches may meet -/
example : trimTaperPad 1 2 3 ([5, 6] : List ℚ) = [1, 1] := by decide +kernel

/-- C40: the taper pad is never negative, and is the 6 % taper of the timespan in samples
up to rounding to a whole sample plus one sample. -/
theorem C40_taper_length (w : Pads.Windows) (hw : w.Nonneg) (post timespan : ℚ) (hpost : 0 ≤ post)
    (hts : 0 ≤ timespan) (sr : ℕ) (hsr : 0 < sr) (hrate : sr ≤ 500) :
    0 ≤ taperPad (Pads.prePad w) post sr timespan ∧
    ((⌈(timespan + (Pads.prePad w + post)) * (6 / 100)⌉ * sr - 1 : ℤ) ≤
        taperPad (Pads.prePad w) post sr timespan ∧
      taperPad (Pads.prePad w) post sr timespan ≤
        ⌈(timespan + (Pads.prePad w + post)) * (6 / 100)⌉ * sr + 1) := by
  have hsr' : (0 : ℚ) < sr := by positivity
  have hpre := Pads.prePad_nonneg hw
  set T := ⌈(timespan + (Pads.prePad w + post)) * (6 / 100)⌉ with hT
  have hc : 0 ≤ T := Int.ceil_nonneg (by positivity)
  have hc' : (0 : ℚ) ≤ (T : ℚ) := by exact_mod_cast hc
  obtain ⟨k, hk, h1, h2, -⟩ := Pads.trim2sample_spec (t := Pads.prePad w + (T : ℚ)) (by linarith) hsr
  have hk1 : (Pads.prePad w + T) * sr ≤ k := by rw [hk]; exact Int.le_ceil _
  have hk2 : (k : ℚ) < (Pads.prePad w + T) * sr + 1 := by rw [hk]; exact Int.ceil_lt_add_one _
  have e : taperPad (Pads.prePad w) post sr timespan =
      pyRound ((Pads.trim2sample (Pads.prePad w + (T : ℚ)) sr - Pads.prePad w) * sr) := by
    unfold taperPad Pads.pad
    rw [Pads.time2sample_nat]
  have hk3 : (k : ℚ) / sr * sr = k := by field_simp
  have hr : (sr : ℚ) ≤ 500 := by exact_mod_cast hrate
  have hlo : ((T * sr : ℤ) : ℚ) - 1 / 2 ≤ (Pads.trim2sample (Pads.prePad w + (T : ℚ)) sr - Pads.prePad w) * sr := by
    push_cast
    have := mul_le_mul_of_nonneg_right h2.le hsr'.le
    nlinarith
  have hhi : (Pads.trim2sample (Pads.prePad w + (T : ℚ)) sr - Pads.prePad w) * sr ≤ ((T * sr : ℤ) : ℚ) + 1 := by
    push_cast
    have := mul_le_mul_of_nonneg_right h1 hsr'.le
    nlinarith
  have hup : pyRound ((Pads.trim2sample (Pads.prePad w + (T : ℚ)) sr - Pads.prePad w) * sr) ≤ T * sr + 1 := by
    have := pyRound_mono hhi
    have e2 := pyRound_int (T * sr + 1)
    push_cast at e2 this
    rwa [e2] at this
  have hdn : (T * sr - 1 : ℤ) ≤ pyRound ((Pads.trim2sample (Pads.prePad w + (T : ℚ)) sr - Pads.prePad w) * sr) := by
    have h0 := abs_le.1 (abs_pyRound_sub_le ((Pads.trim2sample (Pads.prePad w + (T : ℚ)) sr - Pads.prePad w) * sr))
    have : ((T * sr - 1 : ℤ) : ℚ) ≤ (pyRound ((Pads.trim2sample (Pads.prePad w + (T : ℚ)) sr - Pads.prePad w) * sr) : ℚ) := by
      push_cast at hlo ⊢
      linarith [h0.1]
    exact_mod_cast this
  rw [e]
  refine ⟨?_, hdn, hup⟩
  by_cases hz : T = 0
  · have hge : (-(1/2) : ℚ) ≤ (Pads.trim2sample (Pads.prePad w + (T : ℚ)) sr - Pads.prePad w) * sr := by
      rw [hz] at hlo ⊢; push_cast at hlo ⊢; linarith
    have := pyRound_mono hge
    have e2 : pyRound (-(1/2) : ℚ) = 0 := by decide +kernel
    rwa [e2] at this
  · have : 1 ≤ T := by omega
    have : 1 ≤ T * sr := by
      have : (1 : ℤ) ≤ sr := by exact_mod_cast hsr
      nlinarith
    omega

example : taperPad (Pads.prePad ⟨(1/5, 1), []⟩) 6 50 120 = 400 := by decide +kernel
end

end QM

import Verif.Model.AmpsWrite
import Verif.Lemmas.EventFile

/-!
# C108, C109: the `.amps` and `.picks` files
-/

namespace QM

open QM.AmpsWrite
open QM.EventFile (Cell sigDigits sigDigits_error roundTo)

/-! ## C108: precision of the files -/

/-- `shown` is what the file shows for a number: nothing if it is not finite, the text as it is, else a
number of `n` significant digits with the relative error these allow, of the same sign. -/
def ShownTo (n : ℕ) (v shown : Cell) : Prop :=
  match v with
  | .num q => ∃ p : ℚ, shown = .num p ∧ |p - q| ≤ |q| * (10 : ℚ) ^ (1 - (n : ℤ)) / 2 ∧
      (0 < q → 0 < p) ∧ (q < 0 → p < 0) ∧ ∃ k m : ℤ, p = k * (10 : ℚ) ^ m ∧ |k| ≤ 10 ^ n
  | c => shown = c

theorem log10_bounds {q : ℚ} (hq : q ≠ 0) :
    (10 : ℚ) ^ Int.log 10 |q| ≤ |q| ∧ |q| < (10 : ℚ) ^ (Int.log 10 |q| + 1) := by
  have h1 := Int.zpow_log_le_self (b := 10) (r := |q|) (by norm_num) (abs_pos.mpr hq)
  have h2 := Int.lt_zpow_succ_log_self (b := 10) (by norm_num) |q|
  constructor
  · exact_mod_cast h1
  · exact_mod_cast h2

/-- The integer of `n` digits behind a rounded number. -/
theorem sigDigits_digits (n : ℕ) (hn : 0 < n) (q : ℚ) (hq : q ≠ 0) :
    ∃ k : ℤ, sigDigits n q = k * (10 : ℚ) ^ (Int.log 10 |q| + 1 - n) ∧ 10 ^ (n - 1) ≤ |k| ∧
      |k| ≤ 10 ^ n ∧ (0 < q → 0 < k) ∧ (q < 0 → k < 0) := by
  obtain ⟨h1, h2⟩ := log10_bounds hq
  set e := Int.log 10 |q| with he
  set d : ℤ := (n : ℤ) - 1 - e with hd
  set x := q * (10 : ℚ) ^ d with hx
  have hp : (0 : ℚ) < (10 : ℚ) ^ d := zpow_pos (by norm_num) d
  have hxabs : |x| = |q| * (10 : ℚ) ^ d := by rw [hx, abs_mul, abs_of_pos hp]
  have lo : (10 : ℚ) ^ (n - 1) ≤ |x| := by
    rw [hxabs]
    calc (10 : ℚ) ^ (n - 1) = (10 : ℚ) ^ e * (10 : ℚ) ^ d := by
          rw [← zpow_add₀ (by norm_num), ← zpow_natCast]
          congr 1
          push_cast [hd, Nat.cast_sub hn]
          ring
      _ ≤ _ := mul_le_mul_of_nonneg_right h1 hp.le
  have hi : |x| < (10 : ℚ) ^ n := by
    rw [hxabs]
    calc |q| * (10 : ℚ) ^ d < (10 : ℚ) ^ (e + 1) * (10 : ℚ) ^ d := mul_lt_mul_of_pos_right h2 hp
      _ = (10 : ℚ) ^ n := by
          rw [← zpow_add₀ (by norm_num), ← zpow_natCast]
          congr 1
          rw [hd]; ring
  have hround := abs_pyRound_sub_le x
  set k := pyRound x with hk
  have hlo1 : (1 : ℚ) ≤ (10 : ℚ) ^ (n - 1) := one_le_pow₀ (by norm_num)
  have habs := abs_le.mp hround
  have hkcast : ((|k| : ℤ) : ℚ) = |(k : ℚ)| := by push_cast; rfl
  have hpos : 0 < q → 0 < x := fun h => mul_pos h hp
  have hneg : q < 0 → x < 0 := fun h => mul_neg_of_neg_of_pos h hp
  -- compare with integers
  have big : ∀ N : ℤ, (N : ℚ) ≤ |x| → N ≤ |k| := by
    intro N hN
    have : (N : ℚ) - 1 / 2 ≤ ((|k| : ℤ) : ℚ) := by
      rw [hkcast]
      have := abs_sub_abs_le_abs_sub x (k : ℚ)
      rw [abs_sub_comm] at this
      linarith
    have : (N : ℚ) - 1 < ((|k| : ℤ) : ℚ) := by linarith
    have : N - 1 < |k| := by exact_mod_cast this
    omega
  have small : ∀ N : ℤ, |x| < (N : ℚ) → |k| ≤ N := by
    intro N hN
    have : ((|k| : ℤ) : ℚ) < (N : ℚ) + 1 := by
      rw [hkcast]
      have := abs_sub_abs_le_abs_sub (k : ℚ) x
      linarith
    have : |k| < N + 1 := by exact_mod_cast this
    omega
  refine ⟨k, ?_, ?_, ?_, ?_, ?_⟩
  · unfold sigDigits roundTo
    rw [← he, ← hd, ← hx, ← hk, div_eq_mul_inv, ← zpow_neg]
    congr 2
    rw [hd]; ring
  · exact big (10 ^ (n - 1)) (by push_cast; exact lo)
  · exact small (10 ^ n) (by push_cast; exact hi)
  · intro h
    have : 1 ≤ x := by rw [abs_of_pos (hpos h)] at lo; linarith
    have : (0 : ℚ) < k := by linarith
    exact_mod_cast this
  · intro h
    have : x ≤ -1 := by rw [abs_of_neg (hneg h)] at lo; linarith
    have : (k : ℚ) < 0 := by linarith
    exact_mod_cast this

theorem sigDigits_zero (n : ℕ) : sigDigits n 0 = 0 := by simp [sigDigits, roundTo, pyRound]

theorem shownTo_sig (n : ℕ) (hn : 0 < n) (v : Cell) : ShownTo n v (v.sig n) := by
  cases v with
  | text s => rfl
  | nonfinite => rfl
  | num q =>
    refine ⟨sigDigits n q, rfl, sigDigits_error n q, ?_⟩
    by_cases hq : q = 0
    · subst hq
      exact ⟨fun h => absurd h (lt_irrefl _), fun h => absurd h (lt_irrefl _), 0, 0,
        by simp [sigDigits_zero], by positivity⟩
    · obtain ⟨k, h1, h2, h3, h4, h5⟩ := sigDigits_digits n hn q hq
      have hp : (0 : ℚ) < (10 : ℚ) ^ (Int.log 10 |q| + 1 - n) := zpow_pos (by norm_num) _
      refine ⟨fun h => ?_, fun h => ?_, k, _, h1, h3⟩
      · rw [h1]; exact mul_pos (by exact_mod_cast h4 h) hp
      · rw [h1]; exact mul_neg_of_neg_of_pos (by exact_mod_cast h5 h) hp

/-- Applying the formats in turn to a cell of column `c`. -/
def applyFmts (c : EventFile.Str) : List (EventFile.Str × ℕ) → Cell → Cell
  | [], v => v
  | (c', n) :: rest, v => applyFmts c rest (if c = c' then Cell.sig n v else v)

theorem applyFmts_none (c : EventFile.Str) (fmts : List (EventFile.Str × ℕ))
    (h : ∀ f ∈ fmts, f.1 ≠ c) (v : Cell) : applyFmts c fmts v = v := by
  induction fmts generalizing v with
  | nil => rfl
  | cons f fmts ih =>
    obtain ⟨c', n⟩ := f
    rw [applyFmts, if_neg (fun e => h (c', n) List.mem_cons_self e.symm)]
    exact ih (fun f hf => h f (List.mem_cons_of_mem _ hf)) v

theorem applyFmts_some (c : EventFile.Str) (n : ℕ) (fmts : List (EventFile.Str × ℕ))
    (hnd : (fmts.map Prod.fst).Nodup) (hc : (c, n) ∈ fmts) (v : Cell) :
    applyFmts c fmts v = Cell.sig n v := by
  induction fmts generalizing v with
  | nil => simp at hc
  | cons f fmts ih =>
    obtain ⟨c', n'⟩ := f
    rw [List.map_cons, List.nodup_cons] at hnd
    rw [applyFmts]
    rcases List.mem_cons.mp hc with he | hc'
    · obtain ⟨rfl, rfl⟩ := Prod.mk.inj he
      rw [if_pos rfl]
      apply applyFmts_none
      intro f hf hfc
      exact hnd.1 (List.mem_map.mpr ⟨f, hf, hfc⟩)
    · have : c ≠ c' := by
        rintro rfl
        exact hnd.1 (List.mem_map.mpr ⟨_, hc', rfl⟩)
      rw [if_neg this]
      exact ih hnd.2 hc' v

/-- A table whose rows have a cell for each column. -/
def _root_.QM.AmpsWrite.Table.WF (t : AmpsWrite.Table) : Prop := ∀ r ∈ t.rows, r.length = t.cols.length

theorem sigCols_spec (fmts : List (EventFile.Str × ℕ)) (t : AmpsWrite.Table) (hwf : t.WF)
    (hc : ∀ f ∈ fmts, f.1 ∈ t.cols) :
    ∃ t', t.sigCols fmts = some t' ∧ t'.cols = t.cols ∧ t'.WF ∧ t'.rows.length = t.rows.length ∧
      ∀ (i : ℕ) (r : List Cell), t.rows[i]? = some r → ∃ r' : List Cell, t'.rows[i]? = some r' ∧
        ∀ (j : ℕ) (c : EventFile.Str) (v : Cell), t.cols[j]? = some c →
        r[j]? = some v → r'[j]? = some (applyFmts c fmts v) := by
  induction fmts generalizing t with
  | nil =>
    exact ⟨t, rfl, rfl, hwf, rfl, fun i r h => ⟨r, h, fun j c v _ hv => hv⟩⟩
  | cons f fmts ih =>
    obtain ⟨c0, n⟩ := f
    have hc0 : c0 ∈ t.cols := hc (c0, n) List.mem_cons_self
    set t1 : AmpsWrite.Table := ⟨t.cols, t.rows.map fun r =>
      List.zipWith (fun c v => if c = c0 then Cell.sig n v else v) t.cols r⟩ with ht1
    have hwf1 : t1.WF := by
      intro r hr
      obtain ⟨r0, hr0, rfl⟩ := List.mem_map.mp hr
      simp [ht1, hwf r0 hr0]
    obtain ⟨t', h1, h2, h3, h4, h5⟩ := ih t1 hwf1 fun f hf => hc f (List.mem_cons_of_mem _ hf)
    refine ⟨t', ?_, h2, h3, by rw [h4]; simp [ht1], ?_⟩
    · rw [Table.sigCols]
      unfold Table.sigCol
      rw [if_pos hc0]
      exact h1
    · intro i r hr
      obtain ⟨r', h6, h7⟩ := h5 i (List.zipWith (fun c v => if c = c0 then Cell.sig n v else v) t.cols r)
        (by simp [ht1, hr])
      refine ⟨r', h6, fun j c v hjc hjv => ?_⟩
      rw [h7 j c (if c = c0 then Cell.sig n v else v) hjc (by
        rw [List.getElem?_zipWith, hjc, hjv])]
      rfl

theorem sigCols_missing (fmts : List (EventFile.Str × ℕ)) (t : AmpsWrite.Table)
    (h : ∃ f ∈ fmts, f.1 ∉ t.cols) : t.sigCols fmts = none := by
  induction fmts generalizing t with
  | nil => simp at h
  | cons f fmts ih =>
    obtain ⟨c0, n⟩ := f
    rw [Table.sigCols]
    unfold Table.sigCol
    by_cases hc : c0 ∈ t.cols
    · rw [if_pos hc]
      obtain ⟨f, hf, hfc⟩ := h
      rcases List.mem_cons.mp hf with rfl | hf
      · exact absurd hc hfc
      · exact ih _ ⟨f, hf, hfc⟩
    · rw [if_neg hc]

/-- The significant digits of the columns of an `.amps` file: five for distances and amplitudes, two
for frequencies, three for filter gains and magnitudes.  Identifiers, times and `is_picked` are
written as they are. -/
def ampDigits : List (String × ℕ) :=
  [("epi_dist", 5), ("z_dist", 5), ("P_amp", 5), ("S_amp", 5), ("P_avg_amp", 5), ("S_avg_amp", 5),
   ("Noise_amp", 5), ("P_freq", 2), ("S_freq", 2), ("P_filter_gain", 3), ("S_filter_gain", 3),
   ("ML", 3), ("ML_Err", 3)]

/-- `file` shows all the cells of `t`, in the same rows and columns: to the given digits in the columns
that have them, as they are in the others. -/
def Shows' (digits : List (String × ℕ)) (t file : AmpsWrite.Table) : Prop :=
  file.cols = t.cols ∧ file.rows.length = t.rows.length ∧
  ∀ (i j : ℕ) (r : List Cell) (c : EventFile.Str) (v : Cell), t.rows[i]? = some r → t.cols[j]? = some c →
    r[j]? = some v → ∃ r' shown, file.rows[i]? = some r' ∧ r'[j]? = some shown ∧
      ((∀ d ∈ digits, d.1.toList ≠ c) → shown = v) ∧ ∀ d ∈ digits, d.1.toList = c → ShownTo d.2 v shown

theorem shows_of_formats {digits : List (String × ℕ)} {fmts : List (EventFile.Str × ℕ)}
    {t t' : AmpsWrite.Table} (hwf : t.WF) (hc : ∀ f ∈ fmts, f.1 ∈ t.cols) (hnd : (fmts.map Prod.fst).Nodup)
    (h0 : ∀ f ∈ fmts, 0 < f.2) (hf : ∀ f ∈ fmts, ∃ d ∈ digits, d.1.toList = f.1)
    (hd : ∀ d ∈ digits, d.1.toList ∈ t.cols → (d.1.toList, d.2) ∈ fmts) (h : t.sigCols fmts = some t') :
    Shows' digits t t' := by
  obtain ⟨t'', h1, h2, -, h4, h5⟩ := sigCols_spec fmts t hwf hc
  rw [h] at h1
  obtain rfl := Option.some.inj h1
  refine ⟨h2, h4, fun i j r c v hi hj hv => ?_⟩
  obtain ⟨r', h6, h7⟩ := h5 i r hi
  refine ⟨r', _, h6, h7 j c v hj hv, fun hno => ?_, fun d hd' hdc => ?_⟩
  · apply applyFmts_none
    intro f hff hfc
    obtain ⟨d, hd1, hd2⟩ := hf f hff
    exact hno d hd1 (hd2.trans hfc)
  · subst hdc
    have := hd d hd' (List.mem_of_getElem? hj)
    rw [applyFmts_some _ d.2 fmts hnd this]
    exact shownTo_sig _ (h0 _ this) v

/-- C108: the `.amps` file shows every value of the table, to the documented digits, whether or not
magnitudes were calculated; a number that is missing stays missing, and no number changes its sign.
The table from which the magnitude of the event is then calculated is not rounded.  Without one of the
columns, nothing is written. -/
theorem C108_amps (t : AmpsWrite.Table) (hwf : t.WF)
    (hml : "ML".toList ∈ t.cols ↔ "ML_Err".toList ∈ t.cols) :
    ((∀ d ∈ ampDigits, d.1 ≠ "ML" → d.1 ≠ "ML_Err" → d.1.toList ∈ t.cols) →
      ∃ file, writeAmplitudes t = some (file, t) ∧ Shows' ampDigits t file) ∧
    ∀ d ∈ ampDigits, d.1 ≠ "ML" → d.1 ≠ "ML_Err" → d.1.toList ∉ t.cols → writeAmplitudes t = none := by
  constructor
  · intro hcols
    have hc : ∀ f ∈ ampFormats ++ magFormats t.cols, f.1 ∈ t.cols := by
      intro f hf
      rcases List.mem_append.mp hf with hf | hf
      · have key : ∀ f ∈ ampFormats, ∃ d ∈ ampDigits, d.1 ≠ "ML" ∧ d.1 ≠ "ML_Err" ∧ d.1.toList = f.1 := by
          decide +kernel
        obtain ⟨d, h1, h2, h3, h4⟩ := key f hf
        rw [← h4]; exact hcols d h1 h2 h3
      · unfold magFormats at hf
        split at hf
        · rename_i h
          simp only [List.mem_cons, List.not_mem_nil, or_false] at hf
          rcases hf with rfl | rfl
          · exact h
          · exact hml.mp h
        · simp at hf
    obtain ⟨t', h1, -⟩ := sigCols_spec _ t hwf hc
    refine ⟨t', by unfold writeAmplitudes; rw [h1], ?_⟩
    by_cases h : "ML".toList ∈ t.cols
    · have hm : magFormats t.cols = [("ML".toList, 3), ("ML_Err".toList, 3)] := if_pos h
      refine shows_of_formats hwf hc ?_ ?_ ?_ ?_ h1 <;> rw [hm]
      · decide +kernel
      · decide +kernel
      · decide +kernel
      · have key : ∀ d ∈ ampDigits, (d.1.toList, d.2) ∈
            ampFormats ++ [("ML".toList, 3), ("ML_Err".toList, 3)] := by decide +kernel
        exact fun d hd _ => key d hd
    · have hm : magFormats t.cols = [] := if_neg h
      refine shows_of_formats hwf hc ?_ ?_ ?_ ?_ h1 <;> rw [hm]
      · decide +kernel
      · decide +kernel
      · decide +kernel
      · intro d hd hdc
        have h' : "ML_Err".toList ∉ t.cols := fun e => h (hml.mpr e)
        have key : ∀ d ∈ ampDigits, d.1.toList = "ML".toList ∨ d.1.toList = "ML_Err".toList ∨
            (d.1.toList, d.2) ∈ ampFormats ++ [] := by decide +kernel
        rcases key d hd with e | e | e
        · rw [e] at hdc; exact absurd hdc h
        · rw [e] at hdc; exact absurd hdc h'
        · exact e
  · intro d hd h1 h2 h3
    unfold writeAmplitudes
    rw [sigCols_missing]
    have key : ∀ d ∈ ampDigits, d.1 ≠ "ML" → d.1 ≠ "ML_Err" → (d.1.toList, d.2) ∈ ampFormats := by
      decide +kernel
    exact ⟨_, List.mem_append_left _ (key d hd h1 h2), h3⟩

/-- C108: the `.picks` file shows errors and signal-to-noise ratios to three digits, and everything else
as it is, and leaves the picks of the event unrounded. -/
theorem C108_picks (t : AmpsWrite.Table) (hwf : t.WF) (h1 : "PickError".toList ∈ t.cols)
    (h2 : "SNR".toList ∈ t.cols) :
    ∃ file, writePicks t = some (file, t) ∧ Shows' [("PickError", 3), ("SNR", 3)] t file := by
  have hc : ∀ f ∈ [("PickError".toList, 3), ("SNR".toList, 3)], f.1 ∈ t.cols := by
    intro f hf
    simp only [List.mem_cons, List.not_mem_nil, or_false] at hf
    rcases hf with rfl | rfl
    · exact h1
    · exact h2
  obtain ⟨t', h3, -⟩ := sigCols_spec _ t hwf hc
  refine ⟨t', by unfold writePicks; rw [h3], shows_of_formats hwf hc ?_ ?_ ?_ ?_ h3⟩
  · decide +kernel
  · decide +kernel
  · decide +kernel
  · have key : ∀ d ∈ [("PickError", 3), ("SNR", 3)],
        (d.1.toList, d.2) ∈ [("PickError".toList, 3), ("SNR".toList, 3)] := by decide +kernel
    exact fun d hd _ => key d hd

/-- C108: writing what was read back changes nothing: a number that has been rounded to `n` digits is
the same when rounded again. -/
theorem C108_stable (n : ℕ) (hn : 0 < n) (q : ℚ) : sigDigits n (sigDigits n q) = sigDigits n q := by
  by_cases hq : q = 0
  · subst hq; rw [sigDigits_zero, sigDigits_zero]
  obtain ⟨k, h1, h2, h3, h4, h5⟩ := sigDigits_digits n hn q hq
  set e := Int.log 10 |q| with he
  have hten : ∀ m : ℤ, (0 : ℚ) < (10 : ℚ) ^ m := fun m => zpow_pos (by norm_num) m
  have habs : |sigDigits n q| = ((|k| : ℤ) : ℚ) * (10 : ℚ) ^ (e + 1 - n) := by
    rw [h1, abs_mul, abs_of_pos (hten _)]; push_cast; rfl
  -- rounding is exact once the decimals suffice
  have exact : ∀ (d : ℤ) (p : ℤ), sigDigits n q * (10 : ℚ) ^ d = p → roundTo d (sigDigits n q) = sigDigits n q := by
    intro d p hp
    unfold roundTo
    rw [hp, pyRound_int, ← hp]
    field_simp
  have hlogge : e ≤ Int.log 10 |sigDigits n q| := by
    rw [← Int.zpow_le_iff_le_log (by norm_num) (by
      rw [habs]
      have : (0 : ℚ) < ((|k| : ℤ) : ℚ) := by
        have : (0 : ℤ) < |k| := lt_of_lt_of_le (by positivity) h2
        exact_mod_cast this
      exact mul_pos this (hten _))]
    rw [habs]
    have : ((10 : ℕ) : ℚ) ^ e = (10 : ℚ) ^ (n - 1) * (10 : ℚ) ^ (e + 1 - n) := by
      rw [← zpow_natCast, ← zpow_add₀ (by norm_num)]
      norm_num
      push_cast [Nat.cast_sub hn]
      ring
    rw [this]
    refine mul_le_mul_of_nonneg_right ?_ (hten _).le
    exact_mod_cast h2
  by_cases hk : |k| = 10 ^ n
  · -- the number is a power of ten
    have hval : |sigDigits n q| = (10 : ℚ) ^ (e + 1) := by
      rw [habs, hk]
      push_cast
      rw [← zpow_natCast, ← zpow_add₀ (by norm_num)]
      congr 1; ring
    have hlog : Int.log 10 |sigDigits n q| = e + 1 := by
      rw [hval]
      exact_mod_cast Int.log_zpow (R := ℚ) (b := 10) (by norm_num) (e + 1)
    change roundTo ((n : ℤ) - 1 - Int.log 10 |sigDigits n q|) (sigDigits n q) = _
    rw [hlog]
    have hk2 : ∃ s : ℤ, k = s * 10 ^ n := by
      rcases abs_choice k with h | h
      · exact ⟨1, by rw [← hk, h]; ring⟩
      · exact ⟨-1, by rw [← hk, h]; ring⟩
    obtain ⟨s, hs⟩ := hk2
    apply exact _ (s * 10 ^ (n - 1))
    rw [h1, hs]
    push_cast
    rw [mul_assoc, mul_assoc, ← zpow_add₀ (by norm_num), ← zpow_natCast, ← zpow_add₀ (by norm_num),
      ← zpow_natCast]
    congr 2
    push_cast [Nat.cast_sub hn]
    ring
  · have hk' : |k| < 10 ^ n := lt_of_le_of_ne h3 hk
    have hloglt : Int.log 10 |sigDigits n q| < e + 1 := by
      rw [← Int.lt_zpow_iff_log_lt (by norm_num) (by
        rw [habs]
        have : (0 : ℚ) < ((|k| : ℤ) : ℚ) := by
          have : (0 : ℤ) < |k| := lt_of_lt_of_le (by positivity) h2
          exact_mod_cast this
        exact mul_pos this (hten _))]
      rw [habs]
      have : ((10 : ℕ) : ℚ) ^ (e + 1) = (10 : ℚ) ^ n * (10 : ℚ) ^ (e + 1 - n) := by
        rw [← zpow_natCast, ← zpow_add₀ (by norm_num)]
        norm_num
      rw [this]
      refine mul_lt_mul_of_pos_right ?_ (hten _)
      exact_mod_cast hk'
    have hlog : Int.log 10 |sigDigits n q| = e := by omega
    change roundTo ((n : ℤ) - 1 - Int.log 10 |sigDigits n q|) (sigDigits n q) = _
    rw [hlog]
    apply exact _ k
    rw [h1, mul_assoc, ← zpow_add₀ (by norm_num), show e + 1 - (n : ℤ) + ((n : ℤ) - 1 - e) = 0 by ring]
    simp

/-- A table of one row without magnitudes. -/
def exAmpTable : AmpsWrite.Table :=
  ⟨["id".toList, "epi_dist".toList, "z_dist".toList, "P_amp".toList, "P_freq".toList, "P_time".toList,
    "P_avg_amp".toList, "P_filter_gain".toList, "S_amp".toList, "S_freq".toList, "S_time".toList,
    "S_avg_amp".toList, "S_filter_gain".toList, "Noise_amp".toList, "is_picked".toList],
   [[.text "A".toList, .num (123456789 / 1000000), .num (-5), .num 1, .num (1044 / 100), .text "t".toList, .num 1,
     .nonfinite, .nonfinite, .nonfinite, .text [], .nonfinite, .nonfinite, .num 1, .text "True".toList]]⟩

example : exAmpTable.WF ∧ ("ML".toList ∈ exAmpTable.cols ↔ "ML_Err".toList ∈ exAmpTable.cols) ∧
    ∀ d ∈ ampDigits, d.1 ≠ "ML" → d.1 ≠ "ML_Err" → d.1.toList ∈ exAmpTable.cols := by
  refine ⟨?_, by decide +kernel, by decide +kernel⟩
  intro r hr
  simp only [exAmpTable, List.mem_singleton] at hr
  subst hr
  rfl

/-! ## C109: distances -/

/-- C109: with the station file's elevation (positive up, in the units of the lookup table), the
distances used for magnitudes are in kilometres in either unit: the epicentral distance is that between
the event and the station, and the vertical distance is the depth of the event below the station.  The
same places described in kilometres and in metres have the same distances. -/
theorem C109_distances (gps : ℚ → ℚ → ℚ → ℚ → ℚ) (evlo evla evdpKm stla stlo elevKm : ℚ)
    (f : Stations.File) (u : ℚ) (hu : u = 1000 ∨ u = 1)
    (hf : f = ⟨["Latitude", "Longitude", "Elevation", "Name"], [[stla, stlo, elevKm * 1000 / u, 1]]⟩) :
    ∃ g row, Stations.readStations f = .ok g ∧ g.rows = [row] ∧
      getDistances gps u evlo evla (evdpKm * 1000 / u) (row.getD 0 0) (row.getD 1 0) (row.getD 2 0) =
        (gps evla evlo stla stlo / 1000, evdpKm + elevKm) := by
  subst hf
  refine ⟨_, _, rfl, rfl, ?_⟩
  unfold getDistances
  rcases hu with rfl | rfl
  · refine Prod.ext rfl ?_
    change (evdpKm * 1000 / 1000 - -1 * (elevKm * 1000 / 1000)) / (1000 / 1000) = _
    ring
  · refine Prod.ext rfl ?_
    change (evdpKm * 1000 / 1 - -1 * (elevKm * 1000 / 1)) / (1000 / 1) = _
    ring

example : getDistances (fun _ _ _ _ => 3000) 1000 7 45 10 45 7 (-2) = (3, 12) ∧
    getDistances (fun _ _ _ _ => 3000) 1 7 45 10000 45 7 (-2000) = (3, 12) := by
  constructor <;> decide +kernel

end QM

import Verif.Props.Detect
import Verif.Lemmas.ScanOffset

/-! # C05, C06: encoding and reading back of the continuous scan output; C03 for off-grid times -/

namespace QM
open QM.Detect QM.ScanMseed

/-! ## C05 -/

theorem toInt32_id {n : ℤ} (h1 : -2 ^ 31 ≤ n) (h2 : n < 2 ^ 31) : toInt32 n = n := by
  unfold toInt32; omega

/-- **C05**: any value whose scaled size is at most `2^31 - 1` is stored as a
32-bit integer without wrap-around, and dividing by the factor gives it back to
half a quantum. -/
theorem C05_roundtrip_half_quantum (v f : ℚ) (hf : 0 < f) (hv : |v * f| ≤ 2 ^ 31 - 1) :
    -2 ^ 31 ≤ data2int v f ∧ data2int v f < 2 ^ 31 ∧ |(data2int v f : ℚ) / f - v| ≤ 1 / (2 * f) := by
  have h1 := abs_pyRound_sub_le (v * f)
  rw [abs_le] at h1 hv
  have h2 : -(2 : ℤ) ^ 31 ≤ pyRound (v * f) := by
    have : -(2 : ℚ) ^ 31 ≤ pyRound (v * f) := by linarith
    exact_mod_cast this
  have h3 : pyRound (v * f) < (2 : ℤ) ^ 31 := by
    have : (pyRound (v * f) : ℚ) < 2 ^ 31 := by linarith
    exact_mod_cast this
  unfold data2int
  rw [toInt32_id h2 h3]
  refine ⟨h2, h3, ?_⟩
  rw [abs_le]
  have e : (pyRound (v * f) : ℚ) / f - v = ((pyRound (v * f) : ℚ) - v * f) / f := by
    field_simp
  have e2 : (1 : ℚ) / (2 * f) = (1 / 2) / f := by field_simp
  rw [e, e2, ← neg_div]
  exact ⟨div_le_div_of_nonneg_right h1.1 hf.le, div_le_div_of_nonneg_right h1.2 hf.le⟩

/-- **C05**: every non-negative coalescence value - of any size - is stored in
range and read back within half of 1e-5 of the value clipped at 21474. -/
theorem C05_coalescence_never_overflows (ucf : ℚ) (s : Sample) (h : 0 ≤ s.coa) (h' : 0 ≤ s.coaN) :
    (0 ≤ (encode ucf s).coa ∧ (encode ucf s).coa < 2 ^ 31 ∧
      |(decode ucf (encode ucf s)).coa - min s.coa 21474| ≤ 1 / 200000) ∧
    (0 ≤ (encode ucf s).coaN ∧ (encode ucf s).coaN < 2 ^ 31 ∧
      |(decode ucf (encode ucf s)).coaN - min s.coaN 21474| ≤ 1 / 200000) := by
  have key : ∀ v : ℚ, 0 ≤ v → 0 ≤ data2int (clip v) 100000 ∧ data2int (clip v) 100000 < 2 ^ 31 ∧
      |(data2int (clip v) 100000 : ℚ) / 100000 - min v 21474| ≤ 1 / 200000 := by
    intro v hv
    have hc : clip v = min v 21474 := by
      unfold clip; split
      · rw [min_eq_right (by linarith)]
      · rw [min_eq_left (by linarith)]
    have h0 : 0 ≤ min v 21474 := le_min hv (by norm_num)
    have h1 : min v 21474 ≤ 21474 := min_le_right _ _
    have hb : |min v 21474 * 100000| ≤ 2 ^ 31 - 1 := by
      rw [abs_of_nonneg (by positivity)]; norm_num; linarith
    obtain ⟨a, b, c⟩ := C05_roundtrip_half_quantum (min v 21474) 100000 (by norm_num) hb
    rw [hc]
    refine ⟨?_, b, by norm_num at c ⊢; exact c⟩
    have hm : pyRound 0 ≤ pyRound (min v 21474 * 100000) := pyRound_mono (by positivity)
    have hz : pyRound 0 = 0 := by have := pyRound_int 0; simpa using this
    rw [hz] at hm
    unfold data2int at *
    have h3 : pyRound (min v 21474 * 100000) < (2 : ℤ) ^ 31 := by
      have h4 := abs_pyRound_sub_le (min v 21474 * 100000)
      rw [abs_le] at h4
      have : (pyRound (min v 21474 * 100000) : ℚ) < 2 ^ 31 := by norm_num; linarith
      exact_mod_cast this
    rw [toInt32_id (by omega) h3]
    exact hm
  exact ⟨key _ h, key _ h'⟩

/-- **C05**: storage preserves the order of coalescence values. -/
theorem C05_order_preserved (ucf : ℚ) (s t : Sample) (h : 0 ≤ s.coa) (hst : s.coa ≤ t.coa) :
    (encode ucf s).coa ≤ (encode ucf t).coa := by
  have key : ∀ v : ℚ, 0 ≤ v → data2int (clip v) 100000 = pyRound (clip v * 100000) := by
    intro v hv
    unfold data2int
    have h0 : 0 ≤ clip v := by unfold clip; split <;> linarith
    have h1 : clip v ≤ 21474 := by unfold clip; split <;> linarith
    have h4 := abs_pyRound_sub_le (clip v * 100000)
    rw [abs_le] at h4
    apply toInt32_id
    · have : -(2 : ℚ) ^ 31 ≤ pyRound (clip v * 100000) := by norm_num; linarith
      exact_mod_cast this
    · have : (pyRound (clip v * 100000) : ℚ) < 2 ^ 31 := by norm_num; linarith
      exact_mod_cast this
  unfold encode
  simp only
  rw [key _ h, key _ (le_trans h hst)]
  apply pyRound_mono
  have : clip s.coa ≤ clip t.coa := by
    unfold clip; split <;> split <;> linarith
  linarith

/-- **C05**: coordinates round-trip to half a quantum: longitude/latitude (or any
X, Y up to 2147 in size) to 5e-7, depth to half of `1 / (1000*ucf)`. -/
theorem C05_coordinates_roundtrip (ucf : ℚ) (hu : 0 < ucf) (s : Sample) (hx : |s.x| ≤ 2147)
    (hy : |s.y| ≤ 2147) (hz : |s.z * (1000 * ucf)| ≤ 2 ^ 31 - 1) :
    |(decode ucf (encode ucf s)).x - s.x| ≤ 1 / 2000000 ∧
    |(decode ucf (encode ucf s)).y - s.y| ≤ 1 / 2000000 ∧
    |(decode ucf (encode ucf s)).z - s.z| ≤ 1 / (2000 * ucf) := by
  have key : ∀ v : ℚ, |v| ≤ 2147 → |v * 1000000| ≤ 2 ^ 31 - 1 := by
    intro v hv
    rw [abs_mul]; norm_num; linarith
  refine ⟨?_, ?_, ?_⟩
  · have := (C05_roundtrip_half_quantum s.x 1000000 (by norm_num) (key _ hx)).2.2
    norm_num at this ⊢; exact this
  · have := (C05_roundtrip_half_quantum s.y 1000000 (by norm_num) (key _ hy)).2.2
    norm_num at this ⊢; exact this
  · have := (C05_roundtrip_half_quantum s.z (1000 * ucf) (by positivity) hz).2.2
    have e : (2 : ℚ) * (1000 * ucf) = 2000 * ucf := by ring
    rw [e] at this; exact this

/-- **C05**: the bound on X and Y is needed: a projected X coordinate of 2148
wraps to a negative number (only COA and COA_N are clipped). -/
theorem C05_large_coordinate_wraps :
    (decode 1 (encode 1 ⟨1, 1, 2148, 0, 0⟩)).x = -2146967296 / 1000000 := by decide +kernel

example : encode 1000 ⟨30000, 3/2, -16, 64, 5⟩ = ⟨2147400000, 150000, -16000000, 64000000, 5000000⟩ := by
  decide +kernel

/-! ## C06 -/

section
variable {V : Type}

/-- Day files as a detect run leaves them: each holds samples of its own day, on
the sample grid. -/
def Spec.DayFiles (sr : ℕ) (f : Files V) : Prop :=
  ∀ d tr, f d = some tr → (∃ k : ℤ, tr.start = k / (sr : ℚ)) ∧
    ∀ p ∈ tr.samples (1 / (sr : ℚ)), 86400 * (d : ℚ) ≤ p.1 ∧ p.1 < 86400 * ((d : ℚ) + 1)

/-- `L` lists the samples stored in `f` with times in `[a, b]`, in time order,
each once. -/
structure Spec.IsStoredIn (sr : ℕ) (f : Files V) (a b : ℚ) (L : List (ℚ × V)) : Prop where
  sorted : L.Pairwise (fun p q => p.1 < q.1)
  mem : ∀ p, p ∈ L ↔ (∃ d tr, f d = some tr ∧ p ∈ tr.samples (1 / (sr : ℚ))) ∧ a ≤ p.1 ∧ p.1 ≤ b

theorem collected_spec (sr : ℕ) (hsr : 0 < sr) (f : Files V) (hf : Spec.DayFiles sr f) (i j : ℤ)
    (hij : i ≤ j) :
    Spec.IsStoredIn sr f ((i : ℚ) / sr) ((j : ℚ) / sr)
      (collected (1 / (sr : ℚ)) f ((i : ℚ) / sr) ((j : ℚ) / sr)) := by
  have hsr' : (sr : ℚ) ≠ 0 := by exact_mod_cast hsr.ne'
  have hN : 0 < 86400 * sr := by omega
  have hD : DAY = ((86400 * sr : ℕ) : ℚ) * (1 / (sr : ℚ)) := by
    unfold DAY; push_cast; field_simp
  have hdp := delta_pos hN hD
  have hmul : ∀ k : ℤ, (k : ℚ) / sr = (k : ℚ) * (1 / (sr : ℚ)) := by intro k; field_simp
  have hslice : ∀ d tr, f d = some tr →
      (tr.slice (1 / (sr : ℚ)) ((i : ℚ) / sr) ((j : ℚ) / sr)).samples (1 / (sr : ℚ)) =
        (tr.samples (1 / (sr : ℚ))).filter
          (fun p => decide ((i : ℚ) / sr ≤ p.1) && decide (p.1 ≤ (j : ℚ) / sr)) := by
    intro d tr h
    obtain ⟨⟨k, hk⟩, -⟩ := hf d tr h
    have := slice_samples hN hD k i j tr.vals hij
    rw [← hmul, ← hmul, ← hmul, ← hk] at this
    exact this
  have hinday : ∀ d tr, f d = some tr → ∀ p ∈ tr.samples (1 / (sr : ℚ)), dayOf p.1 = d := by
    intro d tr h p hp
    have := (hf d tr h).2 p hp
    unfold dayOf DAY
    rw [Int.floor_eq_iff, le_div_iff₀ (by norm_num), div_lt_iff₀ (by norm_num)]
    constructor <;> linarith [this.1, this.2]
  constructor
  · unfold collected
    rw [List.pairwise_flatten]
    constructor
    · intro l hl
      rw [List.mem_map] at hl
      obtain ⟨tr, -, rfl⟩ := hl
      exact samples_pairwise_lt hdp _
    · rw [List.pairwise_map, List.pairwise_filterMap, List.pairwise_map]
      refine List.pairwise_lt_range.imp ?_
      intro m n hmn tr h tr' h' p hp q hq
      rw [hslice _ _ h] at hp
      rw [hslice _ _ h'] at hq
      have h1 := hinday _ _ h p (List.mem_filter.mp hp).1
      have h2 := hinday _ _ h' q (List.mem_filter.mp hq).1
      by_contra hc
      push Not at hc
      have h3 : dayOf q.1 ≤ dayOf p.1 := by
        unfold dayOf DAY; apply Int.floor_le_floor; linarith
      omega
  · intro p
    unfold collected
    simp only [List.mem_flatten, List.mem_map, List.mem_filterMap, List.mem_range]
    constructor
    · rintro ⟨l, ⟨tr, ⟨d, ⟨n, hn, rfl⟩, hd⟩, rfl⟩, hp⟩
      rw [hslice _ _ hd, List.mem_filter, Bool.and_eq_true, decide_eq_true_eq, decide_eq_true_eq] at hp
      exact ⟨⟨_, tr, hd, hp.1⟩, hp.2⟩
    · rintro ⟨⟨d, tr, hd, hp⟩, h1, h2⟩
      refine ⟨_, ⟨tr, ⟨d, ⟨(d - dayOf ((i : ℚ) / sr)).toNat, ?_, ?_⟩, hd⟩, rfl⟩, ?_⟩
      · have := hinday d tr hd p hp
        have ha : dayOf ((i : ℚ) / sr) ≤ d := by
          rw [← this]; unfold dayOf DAY; apply Int.floor_le_floor; linarith
        have hb : d ≤ dayOf ((j : ℚ) / sr) := by
          rw [← this]; unfold dayOf DAY; apply Int.floor_le_floor; linarith
        omega
      · have := hinday d tr hd p hp
        have ha : dayOf ((i : ℚ) / sr) ≤ d := by
          rw [← this]; unfold dayOf DAY; apply Int.floor_le_floor; linarith
        omega
      · rw [hslice _ _ hd, List.mem_filter, Bool.and_eq_true, decide_eq_true_eq, decide_eq_true_eq]
        exact ⟨hp, h1, h2⟩

/-- **C06** (partial: false when the stored data have a gap inside the window, see
`C06_violated_after_gap`).  For windows on the sample grid: the exception is
raised iff nothing is stored in the padded window, and if what is stored there is
contiguous, exactly it is returned, in time order. -/
theorem C06_read_returns_stored_partial (sr : ℕ) (hsr : 0 < sr) (f : Files V)
    (hf : Spec.DayFiles sr f) (s e pad : ℚ) (i j : ℤ) (hi : s - pad = i / (sr : ℚ))
    (hj : e + pad = j / (sr : ℚ)) (hij : i ≤ j) :
    ∃ L, Spec.IsStoredIn sr f (s - pad) (e + pad) L ∧
      (readScanMseed (1 / (sr : ℚ)) f s e pad = none ↔ L = []) ∧
      (L ≠ [] → L.IsChain (fun p q => q.1 = p.1 + 1 / (sr : ℚ)) →
        readScanMseed (1 / (sr : ℚ)) f s e pad = some L) := by
  refine ⟨_, by rw [hi, hj]; exact collected_spec sr hsr f hf i j hij, ?_, ?_⟩
  · rw [readScanMseed_eq, hi, hj]
    split <;> simp_all
  · intro hne hch
    rw [readScanMseed_eq, hi, hj, if_neg hne, firstSegment_eq_self _ _ hch]

/-- **C06 is violated** whenever the stored samples of the window have a gap
after `p`: everything from `q` on is silently dropped. -/
theorem C06_violated_after_gap (sr : ℕ) (hsr : 0 < sr) (f : Files V) (hf : Spec.DayFiles sr f)
    (s e pad : ℚ) (i j : ℤ) (hi : s - pad = i / (sr : ℚ)) (hj : e + pad = j / (sr : ℚ))
    (hij : i ≤ j) (A M : List (ℚ × V)) (p q : ℚ × V)
    (hL : Spec.IsStoredIn sr f (s - pad) (e + pad) (A ++ p :: q :: M))
    (hch : (A ++ [p]).IsChain (fun p q => q.1 = p.1 + 1 / (sr : ℚ)))
    (hgap : q.1 ≠ p.1 + 1 / (sr : ℚ)) :
    readScanMseed (1 / (sr : ℚ)) f s e pad = some (A ++ [p]) := by
  have hc := collected_spec sr hsr f hf i j hij
  rw [← hi, ← hj] at hc
  have heq : collected (1 / (sr : ℚ)) f (s - pad) (e + pad) = A ++ p :: q :: M := by
    have hnd1 : (collected (1 / (sr : ℚ)) f (s - pad) (e + pad)).Nodup :=
      hc.sorted.imp (fun h he => by rw [he] at h; exact lt_irrefl _ h)
    have hnd2 : (A ++ p :: q :: M).Nodup :=
      hL.sorted.imp (fun h he => by rw [he] at h; exact lt_irrefl _ h)
    have hp : (collected (1 / (sr : ℚ)) f (s - pad) (e + pad)).Perm (A ++ p :: q :: M) :=
      (List.perm_ext_iff_of_nodup hnd1 hnd2).mpr (fun x => (hc.mem x).trans (hL.mem x).symm)
    exact hp.eq_of_pairwise (fun a b _ _ h1 h2 => absurd h1 (lt_asymm h2)) hc.sorted hL.sorted
  rw [readScanMseed_eq, heq, if_neg (by simp), firstSegment_gap _ _ _ _ _ hch hgap]

/-- **C06**: in particular, reading back any on-grid window after a detect run
into a fresh directory returns exactly the appended samples of that window. -/
theorem C06_read_after_detect (sr : ℕ) (t0 : ℚ) (bs : List (Trace V))
    (h : Spec.GoodAppends sr t0 bs) (hne : bs ≠ []) (jul : ℤ → ℕ)
    (hjul : ∀ d, jul d ≠ jul (d + 1)) (cw : Bool) (s e pad : ℚ) (i j : ℤ)
    (hi : s - pad = i / (sr : ℚ)) (hj : e + pad = j / (sr : ℚ)) (hij : i ≤ j) :
    ∃ st, (appendAll (1 / (sr : ℚ)) jul cw (init (fun _ => none)) bs).bind finish = some st ∧
      readScanMseed (1 / (sr : ℚ)) st.files s e pad =
        let L := (Spec.appended (1 / (sr : ℚ)) bs).filter
          (fun p => decide (s - pad ≤ p.1 ∧ p.1 ≤ e + pad))
        if L = [] then none else some L := by
  obtain ⟨k0, ht, hN, hD, happ, hall⟩ := good_expected h jul hjul cw (fun _ => none)
  have hsr := h.sr_pos
  have hsr' : (sr : ℚ) ≠ 0 := by exact_mod_cast hsr.ne'
  have hdp := delta_pos hN hD
  have hmul : ∀ k : ℤ, (k : ℚ) / sr = (k : ℚ) * (1 / (sr : ℚ)) := by intro k; field_simp
  have hvne : bs.flatMap Trace.vals ≠ [] := by
    cases bs with
    | nil => exact absurd rfl hne
    | cons b bs =>
      have := h.nonempty b List.mem_cons_self
      simp [this]
  obtain ⟨st, hst, hf⟩ := finish_expected hN hD cw (fun _ => none) k0 _ hvne
  refine ⟨st, by rw [happ]; exact hst, ?_⟩
  set all := bs.flatMap Trace.vals with hallv
  have hfd : ∀ d, st.files d = dayTr (86400 * sr) (1 / (sr : ℚ)) k0 all d := by
    intro d; rw [hf]; simp
  have hsamp : ∀ d tr, st.files d = some tr → tr.samples (1 / (sr : ℚ)) =
      ((⟨(k0 : ℚ) * (1 / (sr : ℚ)), all⟩ : Trace V).samples (1 / (sr : ℚ))).filter
        (fun p => decide (dayOf p.1 = d)) := by
    intro d tr hd
    rw [hfd] at hd
    have := dayTr_samples hN hD k0 all d
    rw [hd] at this
    simpa using this
  have hdf : Spec.DayFiles sr st.files := by
    intro d tr hd
    constructor
    · have hd' := hd
      rw [hfd] at hd'
      unfold dayTr at hd'
      simp only at hd'
      split at hd'
      · simp only [Option.some.injEq] at hd'
        exact ⟨_, by rw [← hd']; exact (hmul _).symm⟩
      · simp at hd'
    · intro p hp
      rw [hsamp d tr hd, ← ofDay_eq] at hp
      have := (List.mem_filter.mp hp).2
      rwa [decide_eq_true_eq] at this
  have hc := collected_spec sr hsr st.files hdf i j hij
  have hS := samples_pairwise_lt hdp (⟨(k0 : ℚ) * (1 / (sr : ℚ)), all⟩ : Trace V)
  rw [← hi, ← hj] at hc
  have heq : collected (1 / (sr : ℚ)) st.files (s - pad) (e + pad) =
      (Spec.appended (1 / (sr : ℚ)) bs).filter (fun p => decide (s - pad ≤ p.1 ∧ p.1 ≤ e + pad)) := by
    have hs2 : ((Spec.appended (1 / (sr : ℚ)) bs).filter
        (fun p => decide (s - pad ≤ p.1 ∧ p.1 ≤ e + pad))).Pairwise (fun p q => p.1 < q.1) := by
      rw [hall]; exact hS.filter _
    have hnd1 := hc.sorted.imp (S := (· ≠ ·)) (fun h he => by rw [he] at h; exact lt_irrefl _ h)
    have hnd2 := hs2.imp (S := (· ≠ ·)) (fun h he => by rw [he] at h; exact lt_irrefl _ h)
    refine ((List.perm_ext_iff_of_nodup hnd1 hnd2).mpr ?_).eq_of_pairwise
      (fun a b _ _ h1 h2 => absurd h1 (lt_asymm h2)) hc.sorted hs2
    intro p
    rw [hc.mem, List.mem_filter, decide_eq_true_eq, hall]
    constructor
    · rintro ⟨⟨d, tr, hd, hp⟩, hw⟩
      rw [hsamp d tr hd] at hp
      exact ⟨(List.mem_filter.mp hp).1, hw⟩
    · rintro ⟨hp, hw⟩
      refine ⟨?_, hw⟩
      have hmem : p ∈ ((⟨(k0 : ℚ) * (1 / (sr : ℚ)), all⟩ : Trace V).samples (1 / (sr : ℚ))).filter
          (fun q => decide (dayOf q.1 = dayOf p.1)) :=
        List.mem_filter.mpr ⟨hp, by simp⟩
      have hdt := dayTr_samples hN hD k0 all (dayOf p.1)
      cases hd : dayTr (86400 * sr) (1 / (sr : ℚ)) k0 all (dayOf p.1) with
      | none => rw [← hdt, hd] at hmem; simp at hmem
      | some tr =>
        refine ⟨dayOf p.1, tr, by rw [hfd]; exact hd, ?_⟩
        rw [hsamp _ _ (by rw [hfd]; exact hd)]
        exact hmem
  have hslice := slice_samples hN hD k0 i j all hij
  rw [readScanMseed_eq, heq]
  simp only
  split
  · rfl
  · congr 1
    have e1 : (Spec.appended (1 / (sr : ℚ)) bs).filter
        (fun p => decide (s - pad ≤ p.1 ∧ p.1 ≤ e + pad)) =
        ((⟨(k0 : ℚ) * (1 / (sr : ℚ)), all⟩ : Trace V).slice (1 / (sr : ℚ)) (s - pad)
          (e + pad)).samples (1 / (sr : ℚ)) := by
      rw [hall, hi, hj, hmul i, hmul j, hslice]
      apply List.filter_congr
      intro p _
      rw [Bool.decide_and]
    rw [e1]
    exact firstSegment_cons_samples _ _ _

end

/-- Files with a gap at the start of the second day. -/
def exGap : Files ℕ := fun d =>
  if d = 0 then some ⟨86398, [1, 2]⟩ else if d = 1 then some ⟨86402, [3]⟩ else none
example : readScanMseed 1 exGap 86398 86410 0 = some [(86398, 1), (86399, 2)] := by decide +kernel
example : Spec.DayFiles 1 exGap := by
  intro d tr h
  unfold exGap at h
  split at h
  · rename_i hd; simp at h; subst h hd
    refine ⟨⟨86398, by norm_num⟩, ?_⟩
    intro p hp; simp [Trace.samples] at hp; rcases hp with rfl | rfl <;> norm_num
  · split at h
    · rename_i hd; simp at h; subst h hd
      refine ⟨⟨86402, by norm_num⟩, ?_⟩
      intro p hp; simp [Trace.samples] at hp; subst hp; norm_num
    · simp at h

/-! ## Detect runs satisfy the assumptions of C03, C04, C06 -/

theorem loop_blocks_good (c : Detect.Cfg) (start : ℚ) (outcome : ℚ × ℚ → Outcome) (m : ℕ)
    (hsr : 0 < c.scanRate) (hm : c.timestep * c.scanRate = m)
    (hok : ∀ (i : ℕ) data avail, outcome (window c start i) = .ok data avail → data.length = m) :
    ∀ n i : ℕ, Spec.ContiguousFrom (1 / (c.scanRate : ℚ)) (start + c.timestep * i)
        ((loop c start outcome n i).blocks.map (encBlock c.ucf)) ∧
      ∀ b ∈ (loop c start outcome n i).blocks.map (encBlock c.ucf), b.vals.length = m := by
  have hsr' : (c.scanRate : ℚ) ≠ 0 := by exact_mod_cast hsr.ne'
  have hts : c.timestep = (m : ℚ) * (1 / (c.scanRate : ℚ)) := by
    rw [← hm]; field_simp
  intro n
  induction n with
  | zero => intro i; exact ⟨trivial, by simp [loop]⟩
  | succ n ih =>
    intro i
    have key : ∀ (b : Trace Sample) (r : ℚ × List ℕ), b.start = start + c.timestep * i →
        b.vals.length = m →
        loop c start outcome (n + 1) i =
          { loop c start outcome n (i + 1) with
              blocks := b :: (loop c start outcome n (i + 1)).blocks,
              rows := r :: (loop c start outcome n (i + 1)).rows } →
        Spec.ContiguousFrom (1 / (c.scanRate : ℚ)) (start + c.timestep * i)
          ((loop c start outcome (n + 1) i).blocks.map (encBlock c.ucf)) ∧
        ∀ b ∈ (loop c start outcome (n + 1) i).blocks.map (encBlock c.ucf), b.vals.length = m := by
      intro b r hb hl heq
      obtain ⟨h1, h2⟩ := ih (i + 1)
      rw [heq]
      simp only [List.map_cons]
      refine ⟨⟨hb, ?_⟩, ?_⟩
      · have : start + c.timestep * (i : ℚ) + ((encBlock c.ucf b).vals.length : ℚ) *
            (1 / (c.scanRate : ℚ)) = start + c.timestep * ((i + 1 : ℕ) : ℚ) := by
          unfold encBlock
          simp only [List.length_map, hl]
          rw [← hts]; push_cast; ring
        rw [this]; exact h1
      · intro b' hb'
        rcases List.mem_cons.mp hb' with rfl | hb'
        · unfold encBlock; simpa using hl
        · exact h2 b' hb'
    have hempty : (emptyBlock c start i).vals.length = m := by
      unfold emptyBlock
      simp only [List.length_replicate, hm]
      have := pyRound_int (m : ℤ)
      push_cast at this
      rw [this]; simp
    cases hw : outcome (window c start i) with
    | ok data avail =>
      refine key ⟨(window c start i).1 + c.prePad, data⟩ (start + c.timestep * i, c.cols.map avail)
        ?_ (hok _ _ _ hw) (by simp only [loop, hw])
      simp only [window]; ring
    | other =>
      have hl : loop c start outcome (n + 1) i = ⟨[], [], false⟩ := by simp only [loop, hw]
      rw [hl]; exact ⟨trivial, by simp⟩
    | archiveEmpty =>
      exact key _ (start + c.timestep * i, List.replicate c.cols.length 0) rfl hempty (by
        simp only [loop, hw])
    | dataGap =>
      exact key _ (start + c.timestep * i, List.replicate c.cols.length 0) rfl hempty (by
        simp only [loop, hw])
    | dataAvailability =>
      exact key _ (start + c.timestep * i, List.replicate c.cols.length 0) rfl hempty (by
        simp only [loop, hw])

/-- **C03**: the blocks of every detect run satisfy `Spec.GoodAppends`, so the
theorems above apply to it - whether it completes or is cut short, and whatever
the archive does - provided the timestep is a whole number of samples (at most a
day), the start is on the sample grid, and successful timesteps yield
`timestep * scan_rate` samples (C22). -/
theorem C03_detect_appends_good (c : Detect.Cfg) (start : ℚ) (outcome : ℚ × ℚ → Outcome)
    (n m : ℕ) (hsr : 0 < c.scanRate) (hm : c.timestep * c.scanRate = m) (hm0 : 0 < m)
    (hday : c.timestep ≤ 86400) (k : ℤ) (hk : start = k / (c.scanRate : ℚ))
    (hok : ∀ (i : ℕ) data avail, outcome (window c start i) = .ok data avail → data.length = m) :
    Spec.GoodAppends c.scanRate start ((loop c start outcome n 0).blocks.map (encBlock c.ucf)) := by
  obtain ⟨h1, h2⟩ := loop_blocks_good c start outcome m hsr hm hok n 0
  have hmle : m ≤ 86400 * c.scanRate := by
    have hp : (0 : ℚ) ≤ c.scanRate := by positivity
    have : (m : ℚ) ≤ 86400 * c.scanRate := by rw [← hm]; nlinarith
    exact_mod_cast this
  refine ⟨hsr, ⟨k, hk⟩, by simpa using h1, ?_, ?_⟩
  · intro b hb hc
    have := h2 b hb
    rw [hc] at this
    simp at this; omega
  · intro b hb
    rw [h2 b hb]; exact hmle

/-- **C03**, for whole detect runs: after a completed run of at least one
timestep, each touched day's file holds exactly the encoded samples of that day. -/
theorem C03_detect_run_files (c : Detect.Cfg) (start : ℚ) (outcome : ℚ × ℚ → Outcome)
    (n m : ℕ) (hn : 0 < n) (hsr : 0 < c.scanRate) (hm : c.timestep * c.scanRate = m) (hm0 : 0 < m)
    (hday : c.timestep ≤ 86400) (k : ℤ) (hk : start = k / (c.scanRate : ℚ))
    (hok : ∀ (i : ℕ) data avail, outcome (window c start i) = .ok data avail → data.length = m)
    (hno : ∀ i < n, outcome (window c start i) ≠ .other)
    (jul : ℤ → ℕ) (hjul : ∀ d, jul d ≠ jul (d + 1)) (cw : Bool) (f0 : Files Enc) :
    ∃ s, detectFiles c jul cw f0 (loop c start outcome n 0) = some s ∧
      ∀ d, Spec.content (1 / (c.scanRate : ℚ)) (s.files d) =
        let A := Spec.ofDay d (Spec.appended (1 / (c.scanRate : ℚ))
          ((loop c start outcome n 0).blocks.map (encBlock c.ucf)))
        if A = [] then Spec.content (1 / (c.scanRate : ℚ)) (f0 d) else some A := by
  have hg := C03_detect_appends_good c start outcome n m hsr hm hm0 hday k hk hok
  obtain ⟨hc1, hc2⟩ := C02_one_row_and_block_per_timestep c start outcome n
  have hcomp := hc1.mpr hno
  have hlen := (hc2 hcomp).2.1
  have hne : (loop c start outcome n 0).blocks.map (encBlock c.ucf) ≠ [] := by
    rw [← List.length_pos_iff, List.length_map, hlen]; exact hn
  obtain ⟨s, s', h1, h2, h3⟩ := C03_day_files_hold_each_sample_once _ _ _ hg hne jul hjul cw f0
  refine ⟨s', ?_, h3⟩
  unfold detectFiles Cfg.delta
  rw [h1]
  simp only [hcomp, if_true]
  exact h2

/-- One-second samples, two-second timesteps across midnight, the first without data. -/
def exDetCfg2 : Detect.Cfg := ⟨2, 1, 10, 20, ["A_P"], 1⟩
def exDetOutcome2 : ℚ × ℚ → Outcome := fun w =>
  if w.1 = 86399 - 10 then .ok [⟨2, 1, 0, 0, 0⟩, ⟨3, 1, 0, 0, 0⟩] (fun _ => 1) else .archiveEmpty
example : exDetCfg2.timestep * exDetCfg2.scanRate = (2 : ℕ) ∧ exDetCfg2.timestep ≤ 86400 ∧
    (86397 : ℚ) = (86397 : ℤ) / (exDetCfg2.scanRate : ℚ) := by
  refine ⟨?_, ?_, ?_⟩ <;> norm_num [exDetCfg2]
example : (detectFiles exDetCfg2 (fun d => (d % 365).toNat) false (fun _ => none)
    (loop exDetCfg2 86397 exDetOutcome2 2 0)).map (fun s => (s.files 0, s.files 1)) =
    some (some ⟨86397, [⟨0, 0, 0, 0, 0⟩, ⟨0, 0, 0, 0, 0⟩, ⟨200000, 100000, 0, 0, 0⟩]⟩,
      some ⟨86400, [⟨300000, 100000, 0, 0, 0⟩]⟩) := by decide +kernel

/-! ## C73: start times off the sample grid -/

/-- **C73**, offsets below half a sample: when the run starts less than half a sample after a grid
point other than the last one of a day, the file of every day on which samples were appended holds
exactly that day's samples, in order, and other files are as before.  Missing: larger offsets and
runs starting with the last sample of a day (below). -/
theorem C73_small_offset_partial (sr : ℕ) (hsr : 0 < sr) (k0 : ℤ) (r : ℚ) (hr : 0 < r)
    (hr2 : 2 * r < 1 / (sr : ℚ)) (hk0 : (k0 + 1) % (86400 * sr : ℕ) ≠ 0) (bs : List (Trace V))
    (hne : bs ≠ []) (hc : Spec.ContiguousFrom (1 / (sr : ℚ)) (k0 / (sr : ℚ) + r) bs)
    (hb : ∀ b ∈ bs, b.vals ≠ [] ∧ b.vals.length ≤ 86400 * sr) (jul : ℤ → ℕ)
    (hjul : ∀ d, jul d ≠ jul (d + 1)) (cw : Bool) (f0 : Files V) :
    ∃ s s', appendAll (1 / (sr : ℚ)) jul cw (init f0) bs = some s ∧ finish s = some s' ∧
      ∀ d, Spec.content (1 / (sr : ℚ)) (s'.files d) =
        if Spec.ofDay d (Spec.appended (1 / (sr : ℚ)) bs) = []
        then Spec.content (1 / (sr : ℚ)) (f0 d)
        else some (Spec.ofDay d (Spec.appended (1 / (sr : ℚ)) bs)) := by
  have hsr' : (sr : ℚ) ≠ 0 := by exact_mod_cast hsr.ne'
  have hN : 0 < 86400 * sr := by omega
  have hD : DAY = ((86400 * sr : ℕ) : ℚ) * (1 / (sr : ℚ)) := by
    unfold DAY; push_cast; field_simp
  have ht : (k0 : ℚ) / sr + r = (k0 : ℚ) * (1 / (sr : ℚ)) + r := by ring
  rw [ht] at hc
  have hc' : Contig (1 / (sr : ℚ)) ((k0 : ℚ) * (1 / (sr : ℚ)) + r) bs := by
    rw [← contig_of_spec]; exact hc
  have hmod : k0 % ((86400 * sr : ℕ) : ℤ) ≠ (86400 * sr : ℕ) - 1 := by
    intro h
    apply hk0
    have := Int.emod_add_mul_ediv k0 ((86400 * sr : ℕ) : ℤ)
    rw [h] at this
    have e : k0 + 1 = ((86400 * sr : ℕ) : ℤ) * (k0 / ((86400 * sr : ℕ) : ℤ) + 1) := by
      rw [mul_add, mul_one]; omega
    rw [e]; exact Int.mul_emod_right _ _
  have happ : appendAll (1 / (sr : ℚ)) jul cw (init f0) bs =
      some (expectedO (86400 * sr) (1 / (sr : ℚ)) r cw f0 k0 (bs.flatMap Trace.vals)) := by
    cases bs with
    | nil => exact absurd rfl hne
    | cons b bs =>
      obtain ⟨h1, h2⟩ := hc'
      obtain ⟨h3, h4⟩ := hb b List.mem_cons_self
      have hbe : b = ⟨(k0 : ℚ) * (1 / (sr : ℚ)) + r, b.vals⟩ := by
        cases b; simp only at h1; subst h1; rfl
      rw [appendAll, hbe, append_off_first hN hD hr hr2 jul hjul cw f0 k0 hmod b.vals h3 h4]
      simp only
      rw [appendAll_off hN hD hr hr2 jul hjul cw f0 k0 hmod bs b.vals h3 _
        (fun b' hb' => hb b' (List.mem_cons_of_mem _ hb')), List.flatMap_cons]
      convert h2 using 1
      push_cast; ring
  have hvne : bs.flatMap Trace.vals ≠ [] := by
    cases bs with
    | nil => exact absurd rfl hne
    | cons b bs =>
      have := (hb b List.mem_cons_self).1
      simp [this]
  obtain ⟨s', hs', hf⟩ := finish_off hN hD hr hr2 cw f0 k0 _ hvne
  refine ⟨_, s', happ, hs', ?_⟩
  intro d
  rw [hf, appended_eq _ _ _ hc', ofDay_eq, ← dayTrO_samples hN hD hr hr2]
  simp only
  cases h : dayTrO (86400 * sr) (1 / (sr : ℚ)) r k0 (bs.flatMap Trace.vals) d with
  | none => simp [Spec.content]
  | some tr =>
    have hv : tr.vals ≠ [] := by
      unfold dayTrO at h
      rw [Option.map_eq_some_iff] at h
      obtain ⟨t, ht, rfl⟩ := h
      have := dayTr_ne ht
      exact this
    simp only [Option.some_or, Option.map_some, Option.getD_some, samples_ne_nil, hv, if_false,
      Spec.content]

/-- a run across midnight a tenth of a sample off the grid -/
example : Spec.ContiguousFrom 1 (86397 + 1 / 10) [⟨86397 + 1 / 10, [1, 2]⟩, ⟨86399 + 1 / 10, [3, 4]⟩] ∧
    ((appendAll 1 (fun d => (d % 365).toNat) false (init (fun _ => none))
      [⟨86397 + 1 / 10, [1, 2]⟩, ⟨86399 + 1 / 10, [3, 4]⟩]).bind finish).map
        (fun s => (Spec.content 1 (s.files 0), Spec.content 1 (s.files 1))) =
      some (some [(86397 + 1 / 10, 1), (86398 + 1 / 10, 2), (86399 + 1 / 10, 3)],
        some [(86400 + 1 / 10, 4)]) := by
  refine ⟨⟨rfl, by norm_num, trivial⟩, ?_⟩
  decide +kernel

/-- **C73 is violated** for any offset by a run that starts with the last sample of a day: the write
at midnight finds no sample of the old day and raises. -/
theorem C73_violated_last_sample : appendAll 1 (fun d => (d % 365).toNat) false
    (init (fun _ => none)) [⟨86399 + 1 / 10, [1, 2]⟩] = (none : Option (St ℕ)) := by
  unfold appendAll append afterMerge
  decide +kernel

/-- **C73 is violated**: contiguous appends whose sample times are not whole
samples after midnight.  The residual after the midnight split still starts on
the old day, so its write replaces that day's file and the sample at 86398.9 is
lost. -/
theorem C73_violated_off_grid_start :
    ∃ bs : List (Trace ℕ), Spec.ContiguousFrom 1 (863989 / 10) bs ∧
      Spec.appended 1 bs = [(863989 / 10, 1), (863999 / 10, 2), (864009 / 10, 3)] ∧
      ((appendAll 1 (fun d => (d % 365).toNat) false (init (fun _ => none)) bs).bind finish).map
        (fun s => (Spec.content 1 (s.files 0), Spec.content 1 (s.files 1))) =
        some (some [(863999 / 10, 2), (864009 / 10, 3)], none) := by
  refine ⟨[⟨863989 / 10, [1]⟩, ⟨863999 / 10, [2, 3]⟩], ⟨rfl, by norm_num, trivial⟩, ?_, ?_⟩
  all_goals decide +kernel

end QM

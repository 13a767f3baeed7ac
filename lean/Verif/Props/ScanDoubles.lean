import Verif.Model.ScanDoubles
import Verif.Props.ScanIO
import Verif.Props.TriggerDoubles

/-! # C185: storing the scan in double precision -/

namespace QM

open QM.ScanMseed Spec

namespace ScanDoubles

open QM.Doubles

/-- Writing a value of moderate size: no wrap-around, and the stored number is within half of the scaled value,
but for the rounding of the product. -/
theorem write_near (v f : ℚ) (hv : |v * f| ≤ 2 ^ 31 - 1) :
    Doubles.data2int v f = pyRound (fl (v * f)) ∧ |(Doubles.data2int v f : ℚ) - v * f| ≤ 1 / 2 + 1 / 2 ^ 22 := by
  have h0 := abs_le.1 hv
  have h1 := abs_le.1 ((fl_error (v * f)).trans (div_le_div_of_nonneg_right hv (by norm_num)))
  have h2 := abs_le.1 (abs_pyRound_sub_le (fl (v * f)))
  norm_num at h0 h1
  have h3 : -(2 : ℤ) ^ 31 ≤ pyRound (fl (v * f)) := by
    have : -(2 : ℚ) ^ 31 ≤ pyRound (fl (v * f)) := by norm_num; linarith [h0.1, h1.1, h2.1]
    exact_mod_cast this
  have h4 : pyRound (fl (v * f)) < (2 : ℤ) ^ 31 := by
    have : (pyRound (fl (v * f)) : ℚ) < 2 ^ 31 := by norm_num; linarith [h0.2, h1.2, h2.2]
    exact_mod_cast this
  have e : Doubles.data2int v f = pyRound (fl (v * f)) := by
    unfold Doubles.data2int
    exact toInt32_id h3 h4
  refine ⟨e, ?_⟩
  rw [e, abs_le]
  norm_num
  constructor <;> linarith [h1.1, h1.2, h2.1, h2.2]

/-- Reading back what was written. -/
theorem write_read (v f : ℚ) (hf : 1000 ≤ f) (hv : |v * f| ≤ 2 ^ 31 - 1) :
    |fl ((Doubles.data2int v f : ℚ) / f) - v| ≤ (1 / 2 + 1 / 2 ^ 20) / f := by
  have hp : 0 < f := by linarith
  obtain ⟨-, h⟩ := write_near v f hv
  generalize (Doubles.data2int v f : ℚ) = n at *
  have hn : |n| ≤ 2 ^ 31 := by
    have a1 := abs_le.1 h
    have a2 := abs_le.1 hv
    norm_num at a1 a2 ⊢
    rw [abs_le]
    constructor <;> linarith [a1.1, a1.2, a2.1, a2.2]
  have h1 := fl_error (n / f)
  have h2 : |n / f| / 2 ^ 53 ≤ (1 / 2 ^ 22) / f := by
    rw [abs_div, abs_of_pos hp, div_div, mul_comm, ← div_div]
    apply div_le_div_of_nonneg_right _ hp.le
    rw [div_le_iff₀ (by norm_num)]
    norm_num at hn ⊢
    exact hn
  have h3 : |n / f - v| ≤ (1 / 2 + 1 / 2 ^ 22) / f := by
    have : n / f - v = (n - v * f) / f := by field_simp
    rw [this, abs_div, abs_of_pos hp]
    exact div_le_div_of_nonneg_right h hp.le
  have h4 : fl (n / f) - v = (fl (n / f) - n / f) + (n / f - v) := by ring
  rw [h4]
  refine (abs_add_le _ _).trans ((add_le_add (h1.trans h2) h3).trans ?_)
  rw [← add_div]
  apply div_le_div_of_nonneg_right _ hp.le
  norm_num

/-- Writing what was read. -/
theorem read_write (n : ℤ) (f : ℚ) (hf : 1000 ≤ f) (hn : |n| ≤ 2 ^ 31 - 1) :
    Doubles.data2int (fl (n / f)) f = n := by
  have hp : 0 < f := by linarith
  have hn' : |(n : ℚ)| ≤ 2 ^ 31 - 1 := by exact_mod_cast hn
  have h1 := fl_error ((n : ℚ) / f)
  have h2 : |fl ((n : ℚ) / f) * f - n| ≤ 1 / 2 ^ 22 := by
    have : fl ((n : ℚ) / f) * f - n = (fl ((n : ℚ) / f) - n / f) * f := by field_simp
    rw [this, abs_mul, abs_of_pos hp]
    refine (mul_le_mul_of_nonneg_right h1 hp.le).trans ?_
    rw [abs_div, abs_of_pos hp]
    have : |(n : ℚ)| / f / 2 ^ 53 * f = |(n : ℚ)| / 2 ^ 53 := by field_simp
    rw [this, div_le_iff₀ (by norm_num)]
    norm_num at hn' ⊢
    linarith
  have h3 : |fl ((n : ℚ) / f) * f| ≤ 2 ^ 31 := by
    have a1 := abs_le.1 h2
    have a2 := abs_le.1 hn'
    norm_num at a1 a2
    rw [abs_le]
    norm_num
    constructor <;> linarith [a1.1, a1.2, a2.1, a2.2]
  have h4 := abs_le.1 ((fl_error (fl ((n : ℚ) / f) * f)).trans (div_le_div_of_nonneg_right h3 (by norm_num)))
  have h2 := abs_le.1 h2
  unfold Doubles.data2int
  have h5 : pyRound (fl (fl ((n : ℚ) / f) * f)) = n := by
    apply pyRound_eq
    norm_num at h2 h4
    rw [abs_lt]
    constructor <;> linarith [h2.1, h2.2, h4.1, h4.2]
  rw [h5]
  have := abs_le.1 hn
  exact toInt32_id (by linarith [this.1]) (by linarith [this.2])

theorem clip_bounds {v : ℚ} (h : 0 ≤ v) : clip v = min v 21474 ∧ |clip v * 100000| ≤ 2 ^ 31 - 1 := by
  have hc : clip v = min v 21474 := by
    unfold clip; split
    · rw [min_eq_right (by linarith)]
    · rw [min_eq_left (by linarith)]
  refine ⟨hc, ?_⟩
  have h0 : 0 ≤ min v 21474 := le_min h (by norm_num)
  have h1 : min v 21474 ≤ 21474 := min_le_right _ _
  rw [hc, abs_of_nonneg (by positivity)]
  norm_num
  linarith

theorem clip_mono {v w : ℚ} (h : v ≤ w) : clip v ≤ clip w := by
  unfold clip; split <;> split <;> linarith

end ScanDoubles

/-- C185: in double precision, every non-negative coalescence value, of any size, is stored without overflow and
read back within half of 1e-5, plus 1e-10, of the value clipped at 21474. -/
theorem C185_coalescence (ucf : ℚ) (s : Sample) (h : 0 ≤ s.coa) (h' : 0 ≤ s.coaN) :
    |(Doubles.decode ucf (Doubles.encode ucf s)).coa - min s.coa 21474| ≤ 1 / 200000 + 1 / 10 ^ 10 ∧
    |(Doubles.decode ucf (Doubles.encode ucf s)).coaN - min s.coaN 21474| ≤ 1 / 200000 + 1 / 10 ^ 10 := by
  have key : ∀ v : ℚ, 0 ≤ v → |Doubles.fl ((Doubles.data2int (clip v) 100000 : ℚ) / 100000) - min v 21474| ≤
      1 / 200000 + 1 / 10 ^ 10 := by
    intro v hv
    obtain ⟨hc, hb⟩ := ScanDoubles.clip_bounds hv
    rw [← hc]
    refine (ScanDoubles.write_read (clip v) 100000 (by norm_num) hb).trans ?_
    norm_num
  exact ⟨key _ h, key _ h'⟩

/-- C185: coordinates are read back to half a quantum plus a 500,000th of a quantum: X and Y up to 2147 in size,
and depth on a grid in metres (`ucf` 1) or kilometres (`ucf` 1000). -/
theorem C185_coordinates (ucf : ℚ) (hu : ucf = 1 ∨ ucf = 1000) (s : Sample) (hx : |s.x| ≤ 2147)
    (hy : |s.y| ≤ 2147) (hz : |s.z * (1000 * ucf)| ≤ 2 ^ 31 - 1) :
    |(Doubles.decode ucf (Doubles.encode ucf s)).x - s.x| ≤ 1 / 2000000 + 1 / 10 ^ 11 ∧
    |(Doubles.decode ucf (Doubles.encode ucf s)).y - s.y| ≤ 1 / 2000000 + 1 / 10 ^ 11 ∧
    |(Doubles.decode ucf (Doubles.encode ucf s)).z - s.z| ≤ (1 / 2 + 1 / 500000) / (1000 * ucf) := by
  have key : ∀ v : ℚ, |v| ≤ 2147 → |v * 1000000| ≤ 2 ^ 31 - 1 := by
    intro v hv
    rw [abs_mul]; norm_num; linarith
  have hfl : Doubles.fl (1000 * ucf) = 1000 * ucf := by
    rcases hu with rfl | rfl
    · rw [mul_one]
      exact Doubles.fl_nat (n := 1000) (by norm_num)
    · have : (1000 * 1000 : ℚ) = ((1000000 : ℕ) : ℚ) := by norm_num
      rw [this]
      exact Doubles.fl_nat (by norm_num)
  have hu1 : 1 ≤ ucf := by rcases hu with rfl | rfl <;> norm_num
  refine ⟨?_, ?_, ?_⟩
  · refine (ScanDoubles.write_read s.x 1000000 (by norm_num) (key _ hx)).trans ?_
    norm_num
  · refine (ScanDoubles.write_read s.y 1000000 (by norm_num) (key _ hy)).trans ?_
    norm_num
  · show |Doubles.fl ((Doubles.data2int s.z (Doubles.fl (1000 * ucf)) : ℚ) / Doubles.fl (1000 * ucf)) - s.z| ≤ _
    rw [hfl]
    refine (ScanDoubles.write_read s.z (1000 * ucf) (by linarith) hz).trans ?_
    apply div_le_div_of_nonneg_right _ (by linarith)
    norm_num

/-- C185: storing preserves the order of coalescence values, so the largest value of a scan is the largest of its
file. -/
theorem C185_order (ucf : ℚ) (s t : Sample) (h : 0 ≤ s.coa) (hst : s.coa ≤ t.coa) :
    (Doubles.encode ucf s).coa ≤ (Doubles.encode ucf t).coa ∧
    (Doubles.decode ucf (Doubles.encode ucf s)).coa ≤ (Doubles.decode ucf (Doubles.encode ucf t)).coa := by
  have h1 : (Doubles.encode ucf s).coa ≤ (Doubles.encode ucf t).coa := by
    show Doubles.data2int _ _ ≤ Doubles.data2int _ _
    rw [(ScanDoubles.write_near _ _ (ScanDoubles.clip_bounds h).2).1,
      (ScanDoubles.write_near _ _ (ScanDoubles.clip_bounds (h.trans hst)).2).1]
    apply pyRound_mono
    apply Doubles.fl_mono
    have := ScanDoubles.clip_mono hst
    linarith
  refine ⟨h1, Doubles.fl_mono (div_le_div_of_nonneg_right ?_ (by norm_num))⟩
  exact_mod_cast h1

/-- C185: numbers that were read from a file are stored again as the same whole numbers: reading and writing scan
data any number of times loses nothing further. -/
theorem C185_stored_again (ucf : ℚ) (hu : ucf = 1 ∨ ucf = 1000) (e : Enc)
    (hc : 0 ≤ e.coa ∧ e.coa ≤ 2147400000) (hn : 0 ≤ e.coaN ∧ e.coaN ≤ 2147400000)
    (hx : |e.x| < 2 ^ 31) (hy : |e.y| < 2 ^ 31) (hz : |e.z| < 2 ^ 31) :
    Doubles.encode ucf (Doubles.decode ucf e) = e := by
  have hu1 : 1 ≤ ucf := by rcases hu with rfl | rfl <;> norm_num
  have hfl : Doubles.fl (1000 * ucf) = 1000 * ucf := by
    rcases hu with rfl | rfl
    · rw [mul_one]
      exact Doubles.fl_nat (n := 1000) (by norm_num)
    · have : (1000 * 1000 : ℚ) = ((1000000 : ℕ) : ℚ) := by norm_num
      rw [this]
      exact Doubles.fl_nat (by norm_num)
  have hclip : ∀ n : ℤ, n ≤ 2147400000 → clip (Doubles.fl ((n : ℚ) / 100000)) = Doubles.fl ((n : ℚ) / 100000) := by
    intro n h
    have h1 : (n : ℚ) / 100000 ≤ ((21474 : ℕ) : ℚ) := by
      rw [div_le_iff₀ (by norm_num)]
      norm_num
      exact_mod_cast h
    have h2 := Doubles.fl_mono h1
    rw [Doubles.fl_nat (by norm_num)] at h2
    unfold clip
    rw [if_neg (by push_cast at h2; linarith)]
  have hcoa : ∀ n : ℤ, 0 ≤ n ∧ n ≤ 2147400000 → |n| ≤ 2 ^ 31 - 1 := by
    intro n h
    rw [abs_le]
    constructor <;> linarith [h.1, h.2]
  obtain ⟨coa, coaN, x, y, z⟩ := e
  simp only [Doubles.encode, Doubles.decode, Enc.mk.injEq, hfl] at *
  rw [hclip _ hc.2, hclip _ hn.2]
  exact ⟨ScanDoubles.read_write _ _ (by norm_num) (hcoa _ hc), ScanDoubles.read_write _ _ (by norm_num) (hcoa _ hn),
    ScanDoubles.read_write _ _ (by norm_num) (by omega), ScanDoubles.read_write _ _ (by norm_num) (by omega),
    ScanDoubles.read_write _ _ (by linarith) (by omega)⟩

/-- A stored sample as a row of the scan data, in exact arithmetic. -/
def Spec.storedRow (ucf t : ℚ) (e : Enc) : Trigger.Row :=
  { dt := t, coa := e.coa / 100000, coaN := e.coaN / 100000, x := e.x / 1000000, y := e.y / 1000000,
    z := e.z / (1000 * ucf) }

/-- C184: whatever 32-bit numbers a .scanmseed file holds, for a grid in metres or kilometres, they are decimals
of the kind `C184_static` asks for. -/
theorem C184_stored_numbers (ucf : ℚ) (hu : ucf = 1 ∨ ucf = 1000) (t : ℚ) (e : Enc) (hc : |e.coa| ≤ 2 ^ 31)
    (hn : |e.coaN| ≤ 2 ^ 31) (hx : |e.x| ≤ 2 ^ 31) (hy : |e.y| ≤ 2 ^ 31) (hz : |e.z| ≤ 2 ^ 31) :
    DecimalRow (Spec.storedRow ucf t e) := by
  have key : ∀ (n : ℤ) (f : ℚ) (k : ℤ), 1000 ≤ f → f * k = 10 ^ 9 → |n| ≤ 2 ^ 31 → Decimal (n / f) := by
    intro n f k hf hk h
    have hp : 0 < f := by linarith
    have h' : |(n : ℚ)| ≤ 2 ^ 31 := by exact_mod_cast h
    refine ⟨⟨n * k, ?_⟩, ?_⟩
    · rw [← hk, div_eq_div_iff hp.ne' (by rw [hk]; norm_num)]
      push_cast
      ring
    · rw [abs_div, abs_of_pos hp, div_le_iff₀ hp]
      have : (2 : ℚ) ^ 22 * 1000 ≤ 2 ^ 22 * f := mul_le_mul_of_nonneg_left hf (by norm_num)
      norm_num at h' this ⊢
      linarith
  refine ⟨key _ _ 10000 (by norm_num) (by norm_num) hc, key _ _ 10000 (by norm_num) (by norm_num) hn,
    key _ _ 1000 (by norm_num) (by norm_num) hx, key _ _ 1000 (by norm_num) (by norm_num) hy, ?_⟩
  rcases hu with rfl | rfl
  · exact key _ _ 1000000 (by norm_num) (by norm_num) hz
  · exact key _ _ 1000 (by norm_num) (by norm_num) hz

/-- C184: and what `read_scanmseed` makes of them are those decimals rounded to doubles. -/
theorem C184_read_rounds (ucf : ℚ) (hu : ucf = 1 ∨ ucf = 1000) (t : ℚ) (e : Enc) :
    Doubles.readRow (Spec.storedRow ucf t e) =
      { dt := t, coa := (Doubles.decode ucf e).coa, coaN := (Doubles.decode ucf e).coaN,
        x := (Doubles.decode ucf e).x, y := (Doubles.decode ucf e).y, z := (Doubles.decode ucf e).z } := by
  have hfl : Doubles.fl (1000 * ucf) = 1000 * ucf := by
    rcases hu with rfl | rfl
    · rw [mul_one]
      exact Doubles.fl_nat (n := 1000) (by norm_num)
    · have : (1000 * 1000 : ℚ) = ((1000000 : ℕ) : ℚ) := by norm_num
      rw [this]
      exact Doubles.fl_nat (by norm_num)
  simp only [Doubles.readRow, Spec.storedRow, Doubles.decode, hfl]

/-- C185: "half of 1e-5" cannot be kept to the letter: the double 0.000005, which is a little more than half of
1e-5, is stored as 0, because its product with 1e5 rounds to 0.5 and that to the even number. -/
theorem C185_violated_half :
    IsDouble (Doubles.fl (5 / 1000000)) ∧
    1 / 200000 < |Doubles.fl ((Doubles.data2int (Doubles.fl (5 / 1000000)) 100000 : ℚ) / 100000) -
      Doubles.fl (5 / 1000000)| ∧
    data2int (Doubles.fl (5 / 1000000)) 100000 = 1 :=
  ⟨Doubles.fl_isDouble _, by decide +kernel, by decide +kernel⟩

/-- Not vacuous: a sample with fractions of a quantum. -/
example : Doubles.encode 1 ⟨123456 / 100000 + 1 / 300000, 1, -3 / 7, 5 / 3, 1234 / 7⟩ =
    ⟨123456, 100000, -428571, 1666667, 176286⟩ := by decide +kernel

/-- Not vacuous: values that are not doubles themselves. -/
example : Doubles.encode 1000 (Doubles.decode 1000 ⟨1234567, 7, -1666667, 12345, 17⟩) =
    ⟨1234567, 7, -1666667, 12345, 17⟩ :=
  C185_stored_again 1000 (Or.inr rfl) _ ⟨by norm_num, by norm_num⟩ ⟨by norm_num, by norm_num⟩ (by norm_num)
    (by norm_num) (by norm_num)

end QM

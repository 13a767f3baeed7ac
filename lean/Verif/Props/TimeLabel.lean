import Verif.Model.TimeLabel
import Mathlib.Tactic.IntervalCases
import Mathlib.Tactic.Ring

/-!
# C197: the time labels of the figures
-/

namespace QM
open QM.TimeLabel

/-! ## Specification -/

/-- The number that a text of digits stands for. -/
def Spec.digitsValue (s : List Char) : ℕ := s.foldl (fun acc c => 10 * acc + (c.toNat - 48)) 0

/-- The text is made of digits. -/
def Spec.AllDigits (s : List Char) : Prop := ∀ c ∈ s, c ∈ "0123456789".toList

/-! ## Proof -/

private theorem digit_toNat (n : ℕ) : (digit n).toNat - 48 = n % 10 := by
  unfold digit
  have : n % 10 < 10 := Nat.mod_lt _ (by norm_num)
  generalize n % 10 = d at this
  interval_cases d <;> rfl

private theorem digit_mem (n : ℕ) : digit n ∈ "0123456789".toList := by
  unfold digit
  have : n % 10 < 10 := Nat.mod_lt _ (by norm_num)
  generalize n % 10 = d at this
  interval_cases d <;> decide

private theorem two_value {n : ℕ} (h : n < 100) : Spec.digitsValue (two n) = n := by
  simp only [two, Spec.digitsValue, List.foldl_cons, List.foldl_nil, digit_toNat]
  omega

private theorem two_digits (n : ℕ) : Spec.AllDigits (two n) := by
  intro c hc
  simp only [two, List.mem_cons, List.not_mem_nil, or_false] at hc
  rcases hc with rfl | rfl <;> exact digit_mem _

private theorem six_digits (n : ℕ) : Spec.AllDigits (six n) := by
  intro c hc
  simp only [six, List.mem_cons, List.not_mem_nil, or_false] at hc
  rcases hc with rfl | rfl | rfl | rfl | rfl | rfl <;> exact digit_mem _

private theorem six_value {n p : ℕ} (h : n < 1000000) (hp : p ≤ 6) :
    Spec.digitsValue ((six n).take p) = n / 10 ^ (6 - p) := by
  interval_cases p <;>
    simp only [six, List.take_succ_cons, List.take_zero, Spec.digitsValue, List.foldl_cons, List.foldl_nil, digit_toNat] <;>
    norm_num <;> omega

/-- C197: a label gives the time rounded down to its last digit: hours, minutes and seconds in two digits, and as many
digits of the second as asked for. -/
theorem C197_label (p t : ℕ) (hp : p ≤ 6) (ht : t < 86400 * 1000000) :
    ∃ hh mm ss ff : List Char, label p t = hh ++ [':'] ++ mm ++ [':'] ++ ss ++ ['.'] ++ ff ∧
      hh.length = 2 ∧ mm.length = 2 ∧ ss.length = 2 ∧ ff.length = p ∧
      Spec.AllDigits (hh ++ mm ++ ss ++ ff) ∧
      Spec.digitsValue hh < 24 ∧ Spec.digitsValue mm < 60 ∧ Spec.digitsValue ss < 60 ∧
      ((Spec.digitsValue hh * 60 + Spec.digitsValue mm) * 60 + Spec.digitsValue ss) * 10 ^ p + Spec.digitsValue ff =
        t / 10 ^ (6 - p) := by
  refine ⟨_, _, _, _, rfl, rfl, rfl, rfl, ?_, ?_, ?_⟩
  · rw [List.length_take]
    simp only [six, List.length_cons, List.length_nil]
    omega
  · intro c hc
    simp only [List.mem_append] at hc
    rcases hc with ((hc | hc) | hc) | hc
    · exact two_digits _ c hc
    · exact two_digits _ c hc
    · exact two_digits _ c hc
    · exact six_digits _ c (List.mem_of_mem_take hc)
  · rw [two_value (by omega), two_value (by omega), two_value (by omega), six_value (by omega) hp]
    refine ⟨by omega, by omega, by omega, ?_⟩
    have e : (t / 1000000 / 3600 * 60 + t / 1000000 / 60 % 60) * 60 + t / 1000000 % 60 = t / 1000000 := by omega
    rw [e]
    interval_cases p <;> norm_num <;> omega

/-- C197: two times of one day have the same label exactly when they agree up to the last digit shown; so ticks that are
a unit of that digit or more apart never share a label. -/
theorem C197_same_label (p t t' : ℕ) (hp : p ≤ 6) (ht : t < 86400 * 1000000) (ht' : t' < 86400 * 1000000) :
    (label p t = label p t' ↔ t / 10 ^ (6 - p) = t' / 10 ^ (6 - p)) ∧
      (t + 10 ^ (6 - p) ≤ t' → label p t ≠ label p t') := by
  have key : label p t = label p t' → t / 10 ^ (6 - p) = t' / 10 ^ (6 - p) := by
    intro e
    obtain ⟨h1, m1, s1, f1, e1, a1, b1, c1, d1, -, -, -, -, v1⟩ := C197_label p t hp ht
    obtain ⟨h2, m2, s2, f2, e2, a2, b2, c2, d2, -, -, -, -, v2⟩ := C197_label p t' hp ht'
    rw [e1, e2] at e
    simp only [List.append_assoc] at e
    obtain ⟨q1, e⟩ := List.append_inj e (by omega)
    obtain ⟨-, e⟩ := List.append_inj e rfl
    obtain ⟨q2, e⟩ := List.append_inj e (by omega)
    obtain ⟨-, e⟩ := List.append_inj e rfl
    obtain ⟨q3, e⟩ := List.append_inj e (by omega)
    obtain ⟨-, q4⟩ := List.append_inj e rfl
    rw [q1, q2, q3, q4, v2] at v1
    exact v1.symm
  refine ⟨⟨key, ?_⟩, ?_⟩
  · intro e
    have es : t / 1000000 = t' / 1000000 := by
      interval_cases p <;> norm_num at e <;> omega
    have ef : (six (t % 1000000)).take p = (six (t' % 1000000)).take p := by
      interval_cases p <;> norm_num at e <;>
        simp only [six, List.take_succ_cons, List.take_zero, List.cons.injEq, and_true] <;>
        (repeat' constructor) <;> (congr 1; omega)
    simp only [label, es, ef]
  · intro h e
    have hd : 0 < 10 ^ (6 - p) := by positivity
    have h5 : t / 10 ^ (6 - p) + 1 ≤ t' / 10 ^ (6 - p) := by
      rw [← Nat.add_div_right _ hd]
      exact Nat.div_le_div_right h
    have := key e
    omega

/-- A time near midnight, to hundredths. -/
example : label 2 86399059999 = "23:59:59.05".toList := by decide +kernel

/-- Two times within one hundredth, and two that are not. -/
example : label 2 5009999 = label 2 5000001 ∧ label 2 5009999 ≠ label 2 5010000 := by decide +kernel

end QM

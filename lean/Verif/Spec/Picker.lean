import Verif.Py

/-!
# Specification of the picked peak, without the model's helpers
-/

namespace QM.Spec

/-- `m` is the first position of the largest value. -/
def FirstMax (w : List ℚ) (m : ℕ) : Prop :=
  m < w.length ∧ (∀ i < w.length, w.getD i 0 ≤ w.getD m 0) ∧ ∀ i < m, w.getD i 0 < w.getD m 0

/-- `[s, e)` is a maximal run of samples above `t`. -/
def IsRunAbove (w : List ℚ) (t : ℚ) (s e : ℕ) : Prop :=
  s < e ∧ e ≤ w.length ∧ (∀ i, s ≤ i → i < e → t < w.getD i 0) ∧
    (s = 0 ∨ w.getD (s - 1) 0 ≤ t) ∧ (e = w.length ∨ w.getD e 0 ≤ t)

end QM.Spec

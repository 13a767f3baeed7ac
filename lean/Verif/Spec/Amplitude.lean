import Mathlib.Data.Rat.Defs
import Mathlib.Data.List.Basic

/-!
# Specification: alternating peaks and troughs
-/

namespace QM.Spec

/-- The elements at even positions of a list. -/
def evens : List ℕ → List ℕ
  | [] => []
  | [a] => [a]
  | a :: _ :: l => a :: evens l

/-- The elements at odd positions. -/
def odds (l : List ℕ) : List ℕ := evens l.tail

/-- `extrema` are the sample numbers of all extrema in order of time; peaks and troughs
take turns, beginning with a peak or with a trough. -/
def Alternate (extrema peaks troughs : List ℕ) : Prop :=
  extrema.Pairwise (· < ·) ∧
    ((peaks = evens extrema ∧ troughs = odds extrema) ∨
      (troughs = evens extrema ∧ peaks = odds extrema))

/-- Neighbouring extrema. -/
def neighbours (extrema : List ℕ) : List (ℕ × ℕ) := extrema.zip extrema.tail

end QM.Spec

namespace QM.Spec

/-- The samples `l … r` of a signal of `n` samples form a local maximum: they have one value, and the
samples before and after, which have to exist, are lower. -/
structure IsPeak (x : ℕ → ℚ) (n l r : ℕ) : Prop where
  pos : 1 ≤ l
  le : l ≤ r
  lt : r + 1 < n
  before : x (l - 1) < x l
  flat : ∀ k, l ≤ k → k ≤ r → x k = x l
  after : x (r + 1) < x l

end QM.Spec

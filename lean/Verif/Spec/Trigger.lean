import Verif.Model.Trigger

/-!
# Specification vocabulary for the trigger stage

Only the data types (`Row`, `Cand`) are taken from the model.
-/

namespace QM.Spec

open QM.Trigger (Row Cand)

/-- The value the trigger threshold is compared with. -/
def trigValue (norm : Bool) (r : Row) : ℚ := if norm then r.coaN else r.coa

/-- Sample `i` of the scan is at or above its threshold. -/
def Above (norm : Bool) (data : List Row) (thr : List ℚ) (i : ℕ) : Prop :=
  ∃ r t, data[i]? = some r ∧ thr[i]? = some t ∧ t ≤ trigValue norm r

/-- `a..b` is a maximal run of consecutive indices satisfying `P`. -/
structure IsMaxRun (P : ℕ → Prop) (a b : ℕ) : Prop where
  le : a ≤ b
  all : ∀ i, a ≤ i → i ≤ b → P i
  left : ∀ j, j + 1 = a → ¬ P j
  right : ¬ P (b + 1)

/-- Sample `p` is the first sample of largest COA in `a..b`. -/
structure IsFirstPeak (data : List Row) (a b p : ℕ) (peak : Row) : Prop where
  lo : a ≤ p
  hi : p ≤ b
  at_p : data[p]? = some peak
  max : ∀ i r, a ≤ i → i ≤ b → data[i]? = some r → r.coa ≤ peak.coa
  first : ∀ i r, a ≤ i → i < p → data[i]? = some r → r.coa < peak.coa

/-- Candidate `c` is the documented candidate for the run `a..b`. -/
def IsCandidateOf (mw mei : ℚ) (norm : Bool) (data : List Row) (a b : ℕ) (c : Cand) : Prop :=
  ∃ p peak first last, IsFirstPeak data a b p peak ∧
    data[a]? = some first ∧ data[b]? = some last ∧
    c.coaTime = peak.dt ∧ c.trigCoa = trigValue norm peak ∧
    c.x = peak.x ∧ c.y = peak.y ∧ c.z = peak.z ∧ c.coa = peak.coa ∧ c.coaN = peak.coaN ∧
    (peak.dt - first.dt < mw → c.minTime = peak.dt - mei) ∧
    (mw ≤ peak.dt - first.dt → c.minTime = first.dt - (mei - mw)) ∧
    (last.dt - peak.dt < mw → c.maxTime = peak.dt + mei) ∧
    (mw ≤ last.dt - peak.dt → c.maxTime = last.dt + (mei - mw))

/-- Two adjacent candidates are far enough apart to be different events: the
search window of each ends before the marginal window of the other begins. -/
def Apart (mw : ℚ) (c d : Cand) : Prop :=
  c.maxTime < d.coaTime - mw ∧ d.minTime > c.coaTime + mw

/-- `e` is the event reported for a group of merged candidates: the first
candidate of largest TRIG_COA, with the hull of the group's windows. -/
def IsEventOf (g : List Cand) (e : QM.Trigger.Cand) : Prop :=
  ∃ pre best post, g = pre ++ best :: post ∧
    (∀ c ∈ pre, c.trigCoa < best.trigCoa) ∧ (∀ c ∈ post, c.trigCoa ≤ best.trigCoa) ∧
    e.coaTime = best.coaTime ∧ e.trigCoa = best.trigCoa ∧ e.x = best.x ∧ e.y = best.y ∧
    e.z = best.z ∧ e.coa = best.coa ∧ e.coaN = best.coaN ∧
    (∃ c ∈ g, e.minTime = c.minTime) ∧ (∀ c ∈ g, e.minTime ≤ c.minTime) ∧
    (∃ c ∈ g, e.maxTime = c.maxTime) ∧ (∀ c ∈ g, c.maxTime ≤ e.maxTime)

end QM.Spec

namespace QM.Spec

/-- `bs` cuts `[s, e)` at every midnight strictly inside it, and nowhere else. -/
structure IsDayPartition (s e : ℚ) (bs : List (ℚ × ℚ)) : Prop where
  nonempty : ∀ b ∈ bs, b.1 < b.2
  one_day : ∀ b ∈ bs, ∃ k : ℤ, 86400 * (k : ℚ) ≤ b.1 ∧ b.2 ≤ 86400 * ((k : ℚ) + 1)
  cut_at_midnight : ∀ b ∈ bs, b.2 = e ∨ ∃ k : ℤ, b.2 = 86400 * (k : ℚ)
  consecutive : bs.IsChain (fun b c => b.2 = c.1)
  first : ∀ b ∈ bs.head?, b.1 = s
  last : ∀ b ∈ bs.getLast?, b.2 = e
  covers : ∀ t, s ≤ t → t < e → ∃ b ∈ bs, b.1 ≤ t ∧ t < b.2
  inside : ∀ b ∈ bs, s ≤ b.1 ∧ b.2 ≤ e

/-- Event `e` lies in the closed box (or there is no box). -/
def InRegion (region : Option QM.Trigger.Region) (e : QM.Trigger.Cand) : Prop :=
  ∀ r, region = some r → (r.xmin ≤ e.x ∧ e.x ≤ r.xmax) ∧ (r.ymin ≤ e.y ∧ e.y ≤ r.ymax) ∧
    (r.zmin ≤ e.z ∧ e.z ≤ r.zmax)

end QM.Spec

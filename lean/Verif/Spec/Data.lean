import Verif.Model.Data

/-!
# Specification of the data quality criteria

Written from the documentation of `check_availability`, in terms of traces only.
-/

namespace QM.Spec
open QM.Data (Trace Opts)

/-- Time from the expected next sample of `a` to the start of `b`. -/
def lag (a b : Trace) : ℚ := b.start - (a.start + a.data.length / a.rate)

/-- `b` comes after `a` without an overlap: it starts at most half a sample early (for
different sampling rates: less than a microsecond early). -/
def Follows (a b : Trace) : Prop :=
  if a.rate = b.rate then -(1 / 2) ≤ lag a b * a.rate else -(1 / 1000000) < lag a b

/-- `b` continues `a`: same sampling rate, start within half a sample of the expected
next sample. -/
def Continues (a b : Trace) : Prop := a.rate = b.rate ∧ |lag a b| * a.rate ≤ 1 / 2

/-- The traces can be put in an order without overlaps. -/
def NoOverlap (trs : List Trace) : Prop := ∃ s : List Trace, s.Perm trs ∧ s.IsChain Follows

/-- The traces can be put in an order without overlaps and gaps. -/
def NoGap (trs : List Trace) : Prop := ∃ s : List Trace, s.Perm trs ∧ s.IsChain Continues

/-- The quality criteria for the traces of one channel. -/
structure ChannelOK (o : Opts) (start stop : ℚ) (trs : List Trace) : Prop where
  notFlat : ∀ t ∈ trs, ∃ x ∈ t.data, ∃ y ∈ t.data, x ≠ y
  overlap : NoOverlap trs
  gap : o.allowGaps = false → NoGap trs
  rate : o.checkRate = true → ∀ t ∈ trs, t.rate = o.rate
  span : o.fullTimespan = true →
    ∃ t, trs = [t] ∧ (stop - start) * t.rate + 1 ≤ (t.data.length : ℚ)
  times : o.checkTimes = true →
    ∃ t, trs = [t] ∧ t.start = start ∧ t.start + ((t.data.length : ℚ) - 1) / t.rate = stop

end QM.Spec

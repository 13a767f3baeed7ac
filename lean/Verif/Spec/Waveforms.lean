import Verif.Model.Waveforms

/-!
# Specification: what an archive contains and what a query returns
-/

namespace QM.Spec

open QM.Waveforms (Rec Req Str stationCode)

/-- Record `r` has the value `v` at time `t`. -/
def HasSample {V : Type} (r : Rec V) (t : ℚ) (v : V) : Prop :=
  ∃ n : ℕ, r.tr.vals[n]? = some v ∧ t = r.tr.start + (n : ℚ) / r.rate

/-- Channel `i` has the value `v` at time `t` in one of the readable files. -/
def Recorded {V : Type} (files : List (Option (List (Rec V)))) (i : Str) (t : ℚ) (v : V) : Prop :=
  ∃ recs, some recs ∈ files ∧ ∃ r ∈ recs, r.id = i ∧ HasSample r t v

/-- Channel `i` has the value `v` at time `t` in a stream. -/
def InStream {V : Type} (st : List (Rec V)) (i : Str) (t : ℚ) (v : V) : Prop :=
  ∃ r ∈ st, r.id = i ∧ HasSample r t v

/-- Every record of channel `i` in the files satisfies `P`. -/
def ChannelAll {V : Type} (files : List (Option (List (Rec V)))) (i : Str)
    (P : Rec V → Prop) : Prop :=
  ∀ recs, some recs ∈ files → ∀ r ∈ recs, r.id = i → P r

/-- A record timestamped a whole number of samples after the epoch. -/
def OnSample {V : Type} (r : Rec V) : Prop := ∃ k : ℤ, r.tr.start = (k : ℚ) / r.rate

/-- The station in a SEED id `network.station.location.channel`: what is between the first and the
second dot. -/
def stationOf (id : Str) : Str :=
  (id.dropWhile fun c => decide (c ≠ '.')).tail.takeWhile fun c => decide (c ≠ '.')

/-- The station of channel `i` is one of those selected; only enforced here if the files of all
stations were read, otherwise by the choice of files (C77). -/
def Selected (q : Req) (i : Str) : Prop := q.readAll = true → stationOf i ∈ q.stations

/-- The files never give channel `i` two values at one time. -/
def Unambiguous {V : Type} (files : List (Option (List (Rec V)))) (i : Str) : Prop :=
  ∀ (t : ℚ) (v w : V), Recorded files i t v → Recorded files i t w → v = w

/-- The sample times of channel `i` in a stream, in order. -/
def times {V : Type} (st : List (Rec V)) (i : Str) : List ℚ :=
  (st.filter fun r : Rec V => decide (r.id = i)).flatMap fun r : Rec V =>
    (List.range r.tr.vals.length).map fun n : ℕ => r.tr.start + (n : ℚ) / r.rate

/-- A file without the records of other channels than `i`. -/
def onlyChannel {V : Type} (i : Str) (files : List (Option (List (Rec V)))) :
    List (Option (List (Rec V))) :=
  files.map fun f => f.map fun recs => recs.filter fun r : Rec V => decide (r.id = i)

/-- All records of channel `i` in the readable files. -/
def channelRecords {V : Type} (i : Str) (files : List (Option (List (Rec V)))) : List (Rec V) :=
  files.flatMap fun f => (f.getD []).filter fun r : Rec V => decide (r.id = i)

end QM.Spec

import Mathlib.Data.List.Basic

/-!
# Parallel loops as interleavings (OpenMP `parallel for`, `core/src/migratelib.c:50,93`)

A parallel `for` loop is a family of sequential programs (one per iteration).
A schedule is any list of tagged micro-steps which, restricted to one iteration,
is that iteration's program: it covers every number of threads, every assignment
of iterations to threads, and every interleaving.
-/

namespace QM

/-- Run tagged micro-steps in order; `none` if one of them faults.  Stands for abstract schedule of
the OpenMP loops at core/src/migratelib.c:49-51, 93-95. -/
def runAll {ι Op S : Type} (step : ι × Op → S → Option S) : List (ι × Op) → S → Option S
  | [], s => some s
  | o :: os, s => (step o s).bind (runAll step os)

/-- `sched` is an interleaving of the programs `prog 0, …, prog (n-1)`.  Stands for abstract schedule
of the OpenMP loops at core/src/migratelib.c:49-51, 93-95. -/
def IsInterleaving {Op : Type} (n : ℕ) (prog : ℕ → List Op) (sched : List (ℕ × Op)) : Prop :=
  (∀ o ∈ sched, o.1 < n) ∧
  ∀ i < n, (sched.filter (fun o => o.1 = i)).map Prod.snd = prog i

/-- The serial loop: iteration 0, then 1, … (abstract schedule of the OpenMP loops at
core/src/migratelib.c:49-51, 93-95) -/
def serial {Op : Type} (n : ℕ) (prog : ℕ → List Op) : List (ℕ × Op) :=
  (List.range n).flatMap (fun i => (prog i).map (fun o => (i, o)))

end QM

import Verif.Model.Migrate
import Verif.Lemmas.Interleave
import Mathlib.Algebra.BigOperators.Group.Finset.Basic
import Mathlib.Algebra.BigOperators.Intervals

namespace QM.Migrate
open Finset

/-- Tag a program with its iteration. -/
def tag {Op : Type} (i : ℕ) (l : List Op) : List (ℕ × Op) := l.map (fun o => (i, o))

theorem tag_append {Op : Type} (i : ℕ) (l m : List Op) : tag i (l ++ m) = tag i l ++ tag i m := by
  simp [tag]

theorem flat_length {α : Type} (a : Arr2 α) : a.flat.length = a.rows * a.cols := by
  simp [Arr2.flat]

theorem idx_lt {i j r c : ℕ} (hi : i < r) (hj : j < c) : i * c + j < r * c := by
  calc i * c + j < i * c + c := by omega
    _ = (i + 1) * c := by ring
    _ ≤ r * c := Nat.mul_le_mul_right _ hi

theorem flat_get {α : Type} (a : Arr2 α) {i j : ℕ} (hi : i < a.rows) (hj : j < a.cols) :
    a.flat[i * a.cols + j]? = some (a.get i j) := by
  have h := idx_lt hi hj
  have hc : 0 < a.cols := by omega
  have h1 : (i * a.cols + j) / a.cols = i := by
    rw [Nat.mul_comm, Nat.mul_add_div hc, Nat.div_eq_of_lt hj]; simp
  have h2 : (i * a.cols + j) % a.cols = j := by
    rw [Nat.mul_comm, Nat.mul_add_mod, Nat.mod_eq_of_lt hj]
  simp [Arr2.flat, h, h1, h2]

/-- What the kernel needs of its arguments. -/
structure Good {V : Type} (A : ArgsOf V) (G : ℕ → ℕ → V) (TT : ℕ → ℕ → ℤ) : Prop where
  on : ∀ st < A.nStations, ∀ j < A.fsmp + A.lsmp + A.nSamples,
    A.onsets[st * (A.fsmp + A.lsmp + A.nSamples) + j]? = some (G st j)
  tts : ∀ n < A.nNodes, ∀ st < A.nStations, A.tts[n * A.nStations + st]? = some (TT n st)
  fit : ∀ n < A.nNodes, ∀ st < A.nStations, TT n st ≤ A.lsmp
  size : A.nStations * (A.fsmp + A.lsmp + A.nSamples) ≤ INT32

section
variable {V : Type} {ar : Arith V} {A : ArgsOf V} {G : ℕ → ℕ → V} {TT : ℕ → ℕ → ℤ}

theorem run_add (hA : Good A G TT) {node st k : ℕ} (hn : node < A.nNodes)
    (hst : st < A.nStations) (hk : k < A.nSamples) (s : StateOf V) (ht : s.tt node ≤ A.lsmp) :
    ∃ s', runAll (stepWith ar A) (tag node (addProg A node st k)) s = some s' ∧ s'.tt = s.tt ∧
      s'.mem = Function.update s.mem (node * A.nSamples + k)
        (ar.add (s.mem (node * A.nSamples + k)) (G st (A.fsmp + k + s.tt node))) := by
  have hj : A.fsmp + k + s.tt node < A.fsmp + A.lsmp + A.nSamples := by omega
  have hon := hA.on st hst _ hj
  have haddr := idx_lt hn hk
  have hlt := idx_lt hst hj
  have hsz := hA.size
  have he : st * (A.fsmp + A.lsmp + A.nSamples) + A.fsmp + k + s.tt node =
      st * (A.fsmp + A.lsmp + A.nSamples) + (A.fsmp + k + s.tt node) := by omega
  have hI : st * (A.fsmp + A.lsmp + A.nSamples) + (A.fsmp + k + s.tt node) < INT32 := by omega
  refine ⟨{ mem := Function.update s.mem (node * A.nSamples + k)
              (ar.add (s.mem (node * A.nSamples + k)) (G st (A.fsmp + k + s.tt node))),
            reg := Function.update s.reg node
              (ar.add (s.mem (node * A.nSamples + k)) (G st (A.fsmp + k + s.tt node))),
            tt := s.tt }, ?_, rfl, rfl⟩
  simp [tag, addProg, runAll, stepWith, haddr, he, hI, hon]

theorem run_addLoop (hA : Good A G TT) {node st : ℕ} (hn : node < A.nNodes)
    (hst : st < A.nStations) (s : StateOf V) (ht : s.tt node ≤ A.lsmp) (m : ℕ) (hm : m ≤ A.nSamples) :
    ∃ s', runAll (stepWith ar A) (tag node ((List.range m).flatMap (addProg A node st))) s = some s' ∧
      s'.tt = s.tt ∧
      (∀ k < m, s'.mem (node * A.nSamples + k) =
        ar.add (s.mem (node * A.nSamples + k)) (G st (A.fsmp + k + s.tt node))) ∧
      (∀ k, m ≤ k → s'.mem (node * A.nSamples + k) = s.mem (node * A.nSamples + k)) := by
  induction m with
  | zero => exact ⟨s, rfl, rfl, by simp, by simp⟩
  | succ m ih =>
    obtain ⟨s1, h1, h2, h3, h4⟩ := ih (by omega)
    obtain ⟨s2, g1, g2, g3⟩ := run_add hA hn hst (k := m) (by omega) s1 (by rw [h2]; exact ht)
    refine ⟨s2, ?_, by rw [g2, h2], ?_, ?_⟩
    · rw [List.range_succ, List.flatMap_append, tag_append, runAll_append, h1]
      simpa using g1
    · intro k hk
      rw [g3, h2]
      by_cases hkm : k = m
      · subst hkm; simp [h4]
      · rw [Function.update_of_ne (by omega), h3 k (by omega)]
    · intro k hk
      rw [g3, Function.update_of_ne (by omega), h4 k (by omega)]

theorem run_station (hA : Good A G TT) {node st : ℕ} (hn : node < A.nNodes)
    (hst : st < A.nStations) (s : StateOf V) :
    ∃ s', runAll (stepWith ar A) (tag node (stationProg A node st)) s = some s' ∧
      (∀ k < A.nSamples, s'.mem (node * A.nSamples + k) =
        ar.add (s.mem (node * A.nSamples + k)) (G st (A.fsmp + k + (max 0 (TT node st)).toNat))) := by
  have hfit := hA.fit node hn st hst
  have htt := hA.tts node hn st hst
  set s0 : StateOf V := { s with tt := Function.update s.tt node (max 0 (TT node st)).toNat } with hs0
  have h0 : s0.tt node = (max 0 (TT node st)).toNat := by simp [hs0]
  obtain ⟨s1, h1, _, h3, _⟩ := run_addLoop hA hn hst s0 (by rw [h0]; omega) A.nSamples le_rfl
  refine ⟨s1, ?_, ?_⟩
  · have : tag node (stationProg A node st) = (node, Op.readTT (node * A.nStations + st)) ::
      tag node ((List.range A.nSamples).flatMap (addProg A node st)) := by
      simp [tag, stationProg]
    rw [this]
    simp only [runAll]
    have : stepWith ar A (node, Op.readTT (node * A.nStations + st)) s = some s0 := by
      simp [stepWith, htt, hs0]
    rw [this]
    simpa using h1
  · intro k hk
    rw [h3 k hk, h0]

theorem run_stations (hA : Good A G TT) {node : ℕ} (hn : node < A.nNodes) (s : StateOf V)
    (m : ℕ) (hm : m ≤ A.nStations) :
    ∃ s', runAll (stepWith ar A) (tag node ((List.range m).flatMap (stationProg A node))) s = some s' ∧
      (∀ k < A.nSamples, s'.mem (node * A.nSamples + k) =
        ((List.range m).map fun st => G st (A.fsmp + k + (max 0 (TT node st)).toNat)).foldl ar.add
          (s.mem (node * A.nSamples + k))) := by
  induction m with
  | zero => exact ⟨s, rfl, by simp⟩
  | succ m ih =>
    obtain ⟨s1, h1, h2⟩ := ih (by omega)
    obtain ⟨s2, g1, g2⟩ := run_station hA hn (st := m) (by omega) s1
    refine ⟨s2, ?_, ?_⟩
    · rw [List.range_succ, List.flatMap_append, tag_append, runAll_append, h1]
      simpa using g1
    · intro k hk
      rw [g2 k hk, h2 k hk, List.range_succ, List.map_append, List.foldl_append]
      rfl

theorem run_expLoop {node : ℕ} (hn : node < A.nNodes) (s : StateOf V)
    (m : ℕ) (hm : m ≤ A.nSamples) :
    ∃ s', runAll (stepWith ar A) (tag node ((List.range m).flatMap (expProg A node))) s = some s' ∧
      (∀ k < m, s'.mem (node * A.nSamples + k) =
        ar.expDiv (s.mem (node * A.nSamples + k)) A.available) ∧
      (∀ k, m ≤ k → s'.mem (node * A.nSamples + k) = s.mem (node * A.nSamples + k)) := by
  induction m with
  | zero => exact ⟨s, rfl, by simp, by simp⟩
  | succ m ih =>
    obtain ⟨s1, h1, h3, h4⟩ := ih (by omega)
    have haddr := idx_lt hn (show m < A.nSamples by omega)
    refine ⟨{ mem := Function.update s1.mem (node * A.nSamples + m)
                (ar.expDiv (s1.mem (node * A.nSamples + m)) A.available),
              reg := Function.update s1.reg node
                (ar.expDiv (s1.mem (node * A.nSamples + m)) A.available), tt := s1.tt },
      ?_, ?_, ?_⟩
    · rw [List.range_succ, List.flatMap_append, tag_append, runAll_append, h1]
      simp [tag, expProg, runAll, stepWith, haddr]
    · intro k hk
      by_cases hkm : k = m
      · subst hkm; simp [h4]
      · simp only
        rw [Function.update_of_ne (by omega), h3 k (by omega)]
    · intro k hk
      simp only
      rw [Function.update_of_ne (by omega), h4 k (by omega)]

/-- One iteration, run alone. -/
theorem run_node (hA : Good A G TT) {node : ℕ} (hn : node < A.nNodes) :
    ∃ s', runAll (stepWith ar A) (tag node (nodeProg A node)) (initWith ar) = some s' ∧
      (∀ k < A.nSamples, s'.mem (node * A.nSamples + k) =
        ar.expDiv (((List.range A.nStations).map fun st =>
          G st (A.fsmp + k + (max 0 (TT node st)).toNat)).foldl ar.add ar.zero) A.available) := by
  obtain ⟨s1, h1, h2⟩ := run_stations hA hn (initWith ar) A.nStations le_rfl
  obtain ⟨s2, g1, g2, _⟩ := run_expLoop hn s1 A.nSamples le_rfl
  refine ⟨s2, ?_, ?_⟩
  · rw [nodeProg, tag_append, runAll_append, h1]; simpa using g1
  · intro k hk
    rw [g2 k hk, h2 k hk]
    simp [initWith]

/-- What iteration `n` owns. -/
def Ag (A : ArgsOf V) (n : ℕ) (s t : StateOf V) : Prop :=
  s.reg n = t.reg n ∧ s.tt n = t.tt n ∧
    ∀ k < A.nSamples, s.mem (n * A.nSamples + k) = t.mem (n * A.nSamples + k)

def Ok (A : ArgsOf V) (o : ℕ × Op) : Prop :=
  match o.2 with
  | .load a => ∃ k < A.nSamples, a = o.1 * A.nSamples + k
  | .store a => ∃ k < A.nSamples, a = o.1 * A.nSamples + k
  | _ => True

theorem addr_inj {m n N k k' : ℕ} (hk : k < N) (hk' : k' < N) (h : m * N + k = n * N + k') :
    m = n := by
  have hN : 0 < N := by omega
  have h1 : (m * N + k) / N = m := by
    rw [Nat.mul_comm, Nat.mul_add_div hN, Nat.div_eq_of_lt hk]; simp
  have h2 : (n * N + k') / N = n := by
    rw [Nat.mul_comm, Nat.mul_add_div hN, Nat.div_eq_of_lt hk']; simp
  rw [← h1, h, h2]

theorem nodeProg_ok (node : ℕ) {o : Op} (ho : o ∈ nodeProg A node) : Ok A (node, o) := by
  simp only [nodeProg, stationProg, addProg, expProg, List.mem_append, List.mem_flatMap,
    List.mem_range, List.mem_cons, List.not_mem_nil, or_false] at ho
  rcases ho with ⟨st, _, h | ⟨k, hk, h | h | h⟩⟩ | ⟨k, hk, h | h | h⟩ <;> subst h <;>
    first
    | trivial
    | exact ⟨k, hk, rfl⟩

theorem step_other (o : ℕ × Op) (n : ℕ) (s s' : StateOf V) (ho : Ok A o) (hne : o.1 ≠ n)
    (h : stepWith ar A o s = some s') : Ag A n s' s := by
  obtain ⟨m, op⟩ := o
  cases op with
  | readTT i =>
    simp only [stepWith] at h
    split at h
    · simp at h
    · simp only [Option.some.injEq] at h
      subst h
      exact ⟨rfl, by simp [Function.update_of_ne (Ne.symm hne)], fun _ _ => rfl⟩
  | load a =>
    simp only [stepWith] at h
    split at h
    · simp only [Option.some.injEq] at h
      subst h
      exact ⟨by simp [Function.update_of_ne (Ne.symm hne)], rfl, fun _ _ => rfl⟩
    · simp at h
  | addOnset b =>
    simp only [stepWith] at h
    split at h
    · split at h
      · simp at h
      · simp only [Option.some.injEq] at h
        subst h
        exact ⟨by simp [Function.update_of_ne (Ne.symm hne)], rfl, fun _ _ => rfl⟩
    · simp at h
  | expDiv =>
    simp only [stepWith, Option.some.injEq] at h
    subst h
    exact ⟨by simp [Function.update_of_ne (Ne.symm hne)], rfl, fun _ _ => rfl⟩
  | store a =>
    simp only [stepWith] at h
    split at h
    · simp only [Option.some.injEq] at h
      subst h
      refine ⟨rfl, rfl, fun k hk => ?_⟩
      obtain ⟨k', hk', ha⟩ := ho
      simp only at ha
      subst ha
      simp only
      rw [Function.update_of_ne]
      intro h
      exact hne (addr_inj hk hk' h).symm
    · simp at h

theorem step_same (o : ℕ × Op) (s t t' : StateOf V) (ho : Ok A o) (hag : Ag A o.1 s t)
    (h : stepWith ar A o t = some t') : ∃ s', stepWith ar A o s = some s' ∧ Ag A o.1 s' t' := by
  obtain ⟨m, op⟩ := o
  obtain ⟨hr, ht, hm⟩ := hag
  simp only at hr ht hm
  cases op with
  | readTT i =>
    simp only [stepWith] at h ⊢
    split at h
    · simp at h
    · simp only [Option.some.injEq] at h
      subst h
      exact ⟨_, rfl, by simpa using hr, by simp, by simpa using hm⟩
  | load a =>
    obtain ⟨k, hk, ha⟩ := ho
    simp only at ha
    subst ha
    simp only [stepWith] at h ⊢
    split at h
    · next hlt =>
      simp only [Option.some.injEq] at h
      subst h
      rw [if_pos hlt]
      exact ⟨_, rfl, by simpa using hm k hk, by simpa using ht, by simpa using hm⟩
    · simp at h
  | addOnset b =>
    simp only [stepWith] at h ⊢
    rw [ht]
    split at h
    · next hlt =>
      rw [if_pos hlt]
      split at h
      · simp at h
      · simp only [Option.some.injEq] at h
        subst h
        exact ⟨_, rfl, by simp [hr], by simpa using ht, by simpa using hm⟩
    · simp at h
  | expDiv =>
    simp only [stepWith, Option.some.injEq] at h ⊢
    subst h
    exact ⟨_, rfl, by simp [hr], by simpa using ht, by simpa using hm⟩
  | store a =>
    obtain ⟨k, hk, ha⟩ := ho
    simp only at ha
    subst ha
    simp only [stepWith] at h ⊢
    split at h
    · next hlt =>
      simp only [Option.some.injEq] at h
      subst h
      rw [if_pos hlt]
      refine ⟨_, rfl, by simpa using hr, by simpa using ht, fun k' hk' => ?_⟩
      simp only [Function.update_apply]
      rw [hr, hm k' hk']
    · simp at h

/-- Every interleaving of the parallel loop computes the same map. -/
theorem run_interleaved (hA : Good A G TT) {sched : List (ℕ × Op)}
    (hs : IsInterleaving A.nNodes (nodeProg A) sched) :
    ∃ s', runAll (stepWith ar A) sched (initWith ar) = some s' ∧
      ∀ node < A.nNodes, ∀ k < A.nSamples, s'.mem (node * A.nSamples + k) =
        ar.expDiv (((List.range A.nStations).map fun st =>
          G st (A.fsmp + k + (max 0 (TT node st)).toNat)).foldl ar.add ar.zero) A.available := by
  have : Nonempty (StateOf V) := ⟨initWith ar⟩
  choose! u hu using fun node (hn : node < A.nNodes) => run_node hA hn
  obtain ⟨s', h1, h2⟩ := runAll_interleave (stepWith ar A) (Ag A) (Ok A)
    (fun n a b c h h' => ⟨h.1.trans h'.1, h.2.1.trans h'.2.1,
      fun k hk => (h.2.2 k hk).trans (h'.2.2 k hk)⟩)
    step_other step_same sched
    (fun o ho => by
      obtain ⟨_, h⟩ := hs.mem ho
      exact nodeProg_ok o.1 h)
    (initWith ar) (fun _ => initWith ar) u A.nNodes (fun o ho => (hs.mem ho).1)
    (fun n _ => ⟨rfl, rfl, fun _ _ => rfl⟩)
    (fun n hn => by rw [hs.filter_eq hn]; exact (hu n hn).1)
  exact ⟨s', h1, fun node hn k hk => by rw [(h2 node hn).2.2 k hk, (hu node hn).2 k hk]⟩

theorem Ag.refl (n : ℕ) (a : StateOf V) : Ag A n a a := ⟨rfl, rfl, fun _ _ => rfl⟩
theorem Ag.symm (n : ℕ) (a b : StateOf V) (h : Ag A n a b) : Ag A n b a :=
  ⟨h.1.symm, h.2.1.symm, fun k hk => (h.2.2 k hk).symm⟩
theorem Ag.trans (n : ℕ) (a b c : StateOf V) (h : Ag A n a b) (h' : Ag A n b c) : Ag A n a c :=
  ⟨h.1.trans h'.1, h.2.1.trans h'.2.1, fun k hk => (h.2.2 k hk).trans (h'.2.2 k hk)⟩

/-- Two schedules fault together, and otherwise compute the same map. -/
theorem schedules_agree {s₁ s₂ : List (ℕ × Op)}
    (h₁ : IsInterleaving A.nNodes (nodeProg A) s₁) (h₂ : IsInterleaving A.nNodes (nodeProg A) s₂)
    {a : StateOf V} (h : runAll (stepWith ar A) s₁ (initWith ar) = some a) :
    ∃ b, runAll (stepWith ar A) s₂ (initWith ar) = some b ∧ ∀ n < A.nNodes, Ag A n b a :=
  interleavings_agree (stepWith ar A) (Ag A) (Ok A) Ag.refl Ag.trans Ag.symm step_other step_same
    (fun n _ ho => nodeProg_ok n ho) h₁ h₂ (initWith ar) a h

/-! ### A traveltime beyond the padding faults -/

def noTT : Op → Prop
  | .readTT _ => False
  | _ => True

theorem step_noTT {o : ℕ × Op} (ho : noTT o.2) {s s' : StateOf V} (h : stepWith ar A o s = some s') :
    s'.tt = s.tt := by
  obtain ⟨n, op⟩ := o
  cases op with
  | readTT i => exact ho.elim
  | load a =>
    simp only [stepWith] at h; split at h <;> simp at h; subst h; rfl
  | addOnset b =>
    simp only [stepWith] at h; split at h
    · split at h <;> simp at h; subst h; rfl
    · simp at h
  | expDiv => simp only [stepWith, Option.some.injEq] at h; subst h; rfl
  | store a =>
    simp only [stepWith] at h; split at h <;> simp at h; subst h; rfl

theorem run_noTT (l : List (ℕ × Op)) (hl : ∀ o ∈ l, noTT o.2) {s s' : StateOf V}
    (h : runAll (stepWith ar A) l s = some s') : s'.tt = s.tt := by
  induction l generalizing s with
  | nil => simp [runAll] at h; subst h; rfl
  | cons o l ih =>
    simp only [runAll] at h
    cases hst : stepWith ar A o s with
    | none => rw [hst] at h; simp at h
    | some s1 =>
      rw [hst] at h
      simp only [Option.bind_some] at h
      rw [ih (fun o' h' => hl o' (List.mem_cons_of_mem _ h')) h,
        step_noTT (hl o (List.mem_cons_self)) hst]

theorem runAll_append_some {l₁ l₂ : List (ℕ × Op)} {s s' : StateOf V}
    (h : runAll (stepWith ar A) (l₁ ++ l₂) s = some s') :
    ∃ s1, runAll (stepWith ar A) l₁ s = some s1 ∧ runAll (stepWith ar A) l₂ s1 = some s' := by
  rw [runAll_append] at h
  cases h1 : runAll (stepWith ar A) l₁ s with
  | none => rw [h1] at h; simp at h
  | some s1 => rw [h1] at h; exact ⟨s1, rfl, by simpa using h⟩

/-- The last station's last sample with a traveltime beyond the padding reads
past the end of the onset array, or overflows the index. -/
theorem run_node_fault {node : ℕ} {t : ℤ} (hst : 0 < A.nStations) (hS : 0 < A.nSamples)
    (hlen : A.onsets.length = A.nStations * (A.fsmp + A.lsmp + A.nSamples))
    (ht : A.tts[node * A.nStations + (A.nStations - 1)]? = some t)
    (hbig : (A.lsmp : ℤ) < t ∨
      (INT32 : ℤ) ≤ ((A.nStations - 1) * (A.fsmp + A.lsmp + A.nSamples) + A.fsmp + (A.nSamples - 1) : ℕ) + t) :
    runAll (stepWith ar A) (tag node (nodeProg A node)) (initWith ar) = none := by
  obtain ⟨N, hN⟩ : ∃ N, A.nStations = N + 1 := ⟨A.nStations - 1, by omega⟩
  obtain ⟨S, hS'⟩ : ∃ S, A.nSamples = S + 1 := ⟨A.nSamples - 1, by omega⟩
  by_contra hne
  obtain ⟨s', hs'⟩ := Option.ne_none_iff_exists'.1 hne
  have he : nodeProg A node = (List.range N).flatMap (stationProg A node) ++
      ([Op.readTT (node * A.nStations + N)] ++ ((List.range S).flatMap (addProg A node N) ++
        (addProg A node N S ++ (List.range A.nSamples).flatMap (expProg A node)))) := by
    unfold nodeProg
    rw [hN, List.range_succ, List.flatMap_append]
    simp only [List.flatMap_cons, List.flatMap_nil, List.append_nil, List.append_assoc]
    congr 1
    unfold stationProg
    rw [hS', List.range_succ, List.flatMap_append, hN]
    simp
  rw [he, tag_append, tag_append, tag_append, tag_append] at hs'
  obtain ⟨s1, _, hs'⟩ := runAll_append_some hs'
  obtain ⟨s2, h2, hs'⟩ := runAll_append_some hs'
  obtain ⟨s3, h3, hs'⟩ := runAll_append_some hs'
  obtain ⟨s4, h4, hs'⟩ := runAll_append_some hs'
  have hN1 : A.nStations - 1 = N := by omega
  rw [hN1] at ht
  have htt2 : s2.tt node = (max 0 t).toNat := by
    simp only [tag, List.map_cons, List.map_nil, runAll, stepWith, ht, Option.bind_some,
      Option.some.injEq] at h2
    subst h2
    simp
  have htt3 : s3.tt = s2.tt := by
    refine run_noTT _ ?_ h3
    intro o ho
    simp only [tag, List.mem_map, List.mem_flatMap, addProg, List.mem_cons, List.not_mem_nil,
      or_false] at ho
    obtain ⟨op, ⟨k, _, h | h | h⟩, rfl⟩ := ho <;> subst h <;> trivial
  have hcontra : runAll (stepWith ar A) (tag node (addProg A node N S)) s3 = none := by
    simp only [tag, addProg, List.map_cons, List.map_nil, runAll, stepWith]
    split
    · simp only [Option.bind_some]
      split
      · next hlt =>
        split
        · rfl
        · next v hv =>
          exfalso
          simp only [htt3, htt2] at hlt
          rw [hN1, hS'] at hbig
          have h6 : (A.lsmp : ℤ) < t := by
            rcases hbig with h | h
            · exact h
            · exfalso
              rw [hS'] at hlt
              generalize N * (A.fsmp + A.lsmp + (S + 1)) = u at h hlt
              push_cast at h
              omega
          have := (List.getElem?_eq_some_iff.1 hv).1
          rw [hlen, htt3, htt2, hN] at this
          have h5 : (N + 1) * (A.fsmp + A.lsmp + A.nSamples) =
            N * (A.fsmp + A.lsmp + A.nSamples) + (A.fsmp + A.lsmp + A.nSamples) := by ring
          omega
      · rfl
    · rfl
  rw [hcontra] at h4
  simp at h4

theorem fault_interleaved {node : ℕ} {t : ℤ} (hn : node < A.nNodes) (hst : 0 < A.nStations)
    (hS : 0 < A.nSamples)
    (hlen : A.onsets.length = A.nStations * (A.fsmp + A.lsmp + A.nSamples))
    (ht : A.tts[node * A.nStations + (A.nStations - 1)]? = some t)
    (hbig : (A.lsmp : ℤ) < t ∨
      (INT32 : ℤ) ≤ ((A.nStations - 1) * (A.fsmp + A.lsmp + A.nSamples) + A.fsmp + (A.nSamples - 1) : ℕ) + t)
    {sched : List (ℕ × Op)} (hs : IsInterleaving A.nNodes (nodeProg A) sched) :
    runAll (stepWith ar A) sched (initWith ar) = none := by
  by_contra hne
  obtain ⟨s', hs'⟩ := Option.ne_none_iff_exists'.1 hne
  obtain ⟨u, hu, _⟩ := runAll_interleave_conv (stepWith ar A) (Ag A) (Ok A) Ag.trans Ag.symm step_other
    step_same sched (fun o ho => nodeProg_ok o.1 (hs.mem ho).2) (initWith ar) s' (initWith ar) node (Ag.refl _ _) hs'
  rw [hs.filter_eq hn] at hu
  have := run_node_fault (ar := ar) hst hS hlen ht hbig
  unfold tag at this
  rw [this] at hu
  simp at hu

end

/-! ## find_max_coa -/

section
variable {K : Type} {ar : MaxArith K}

/-- Registers after visiting nodes `0..m` (`m ≥ 1` nodes) of column `f`. -/
def scanReg (ar : MaxArith K) (f : ℕ → K) : ℕ → FReg K
  | 0 => ⟨f 0, 0, f 0⟩
  | m + 1 =>
    let r := scanReg ar f m
    if ar.gt (f (m + 1)) r.mx then ⟨f (m + 1), m + 1, ar.add r.sm (f (m + 1))⟩
    else ⟨r.mx, r.idx, ar.add r.sm (f (m + 1))⟩

theorem scanReg_sm (f : ℕ → K) (m : ℕ) :
    (scanReg ar f m).sm = ((List.range m).map fun i => f (i + 1)).foldl ar.add (f 0) := by
  induction m with
  | zero => rfl
  | succ m ih =>
    rw [List.range_succ, List.map_append, List.foldl_append, ← ih]
    simp only [scanReg]; split <;> rfl

theorem scanReg_spec [LinearOrder K] (hgt : ∀ a b, ar.gt a b = true ↔ a > b) (f : ℕ → K) (m : ℕ) :
    (scanReg ar f m).idx ≤ m ∧ (scanReg ar f m).mx = f (scanReg ar f m).idx ∧
    (∀ i ≤ m, f i ≤ (scanReg ar f m).mx) ∧ (∀ i < (scanReg ar f m).idx, f i < (scanReg ar f m).mx) := by
  induction m with
  | zero =>
    refine ⟨le_rfl, rfl, ?_, ?_⟩
    · intro i hi
      have : i = 0 := by omega
      subst this; exact le_rfl
    · intro i hi; simp [scanReg] at hi
  | succ m ih =>
    obtain ⟨h1, h2, h3, h4⟩ := ih
    simp only [scanReg]
    split
    · next h =>
      have h := (hgt _ _).1 h
      refine ⟨le_rfl, rfl, ?_, ?_⟩
      · intro i hi
        rcases Nat.lt_or_ge i (m + 1) with hlt | hge
        · exact (h3 i (by omega)).trans h.le
        · have : i = m + 1 := by omega
          subst this; exact le_rfl
      · intro i hi
        exact (h3 i (by simp only at hi; omega)).trans_lt h
    · next h =>
      rw [hgt] at h
      refine ⟨by simp only; omega, h2, ?_, h4⟩
      intro i hi
      rcases Nat.lt_or_ge i (m + 1) with hlt | hge
      · exact h3 i (by omega)
      · have : i = m + 1 := by omega
        subst this; exact not_lt.1 h

/-- The sum with exact arithmetic. -/
theorem foldl_add_eq_sum {R : Type} [AddCommMonoid R] (g : ℕ → R) (m : ℕ) (z : R) :
    ((List.range m).map g).foldl (fun x y => x + y) z = z + ∑ i ∈ range m, g i := by
  induction m with
  | zero => simp
  | succ m ih =>
    rw [List.range_succ, List.map_append, List.foldl_append, ih, Finset.sum_range_succ, ← add_assoc]
    rfl

theorem run_visits {map4d : List K} {nS nN : ℕ} {f : ℕ → K} {smp : ℕ}
    (hread : ∀ node < nN, map4d[node * nS + smp]? = some (f node))
    (m : ℕ) (hm : m < nN) (s : FState K) :
    runAll (fstepWith ar map4d nS nN)
      (tag smp (FOp.start :: (List.range' 1 m).map FOp.visit)) s =
      some { s with reg := Function.update s.reg smp (scanReg ar f m) } := by
  induction m with
  | zero =>
    have := hread 0 hm
    simp only [Nat.zero_mul, Nat.zero_add] at this
    simp [tag, runAll, fstepWith, this, scanReg]
  | succ m ih =>
    have h := hread (m + 1) hm
    have he : tag smp (FOp.start :: (List.range' 1 (m + 1)).map FOp.visit) =
        tag smp (FOp.start :: (List.range' 1 m).map FOp.visit) ++ [(smp, FOp.visit (m + 1))] := by
      simp [tag, List.range'_concat, Nat.add_comm]
    rw [he, runAll_append, ih (by omega)]
    simp only [Option.bind_some, runAll, fstepWith, h]
    simp only [Function.update_self, Function.update_idem, scanReg]

/-- One iteration, run alone. -/
theorem run_sample {map4d : List K} {nS nN : ℕ} {f : ℕ → K} {smp : ℕ} (hsmp : smp < nS)
    (hN : 0 < nN) (hread : ∀ node < nN, map4d[node * nS + smp]? = some (f node)) (s : FState K) :
    ∃ s', runAll (fstepWith ar map4d nS nN) (tag smp (sampleProg nN smp)) s = some s' ∧
      s'.maxCoa smp = (scanReg ar f (nN - 1)).mx ∧
      s'.norm smp = ar.norm (scanReg ar f (nN - 1)).mx nN (scanReg ar f (nN - 1)).sm ∧
      s'.idx smp = (scanReg ar f (nN - 1)).idx := by
  have he : tag smp (sampleProg nN smp) =
      tag smp (FOp.start :: (List.range' 1 (nN - 1)).map FOp.visit) ++
        tag smp [FOp.writeMax, FOp.writeNorm, FOp.writeIdx] := by
    simp [tag, sampleProg]
  rw [he, runAll_append, run_visits hread (nN - 1) (by omega)]
  simp [tag, runAll, fstepWith, hsmp]

def FAg (n : ℕ) (s t : FState K) : Prop :=
  s.reg n = t.reg n ∧ s.maxCoa n = t.maxCoa n ∧ s.norm n = t.norm n ∧ s.idx n = t.idx n

theorem fstep_other {map4d : List K} {nS nN : ℕ} (o : ℕ × FOp) (n : ℕ) (s s' : FState K)
    (hne : o.1 ≠ n) (h : fstepWith ar map4d nS nN o s = some s') : FAg n s' s := by
  obtain ⟨m, op⟩ := o
  have hne' := Ne.symm hne
  simp only at hne'
  cases op <;> simp only [fstepWith] at h <;> split at h <;> simp at h <;> subst h <;>
    simp [FAg, Function.update_of_ne hne']

theorem fstep_same {map4d : List K} {nS nN : ℕ} (o : ℕ × FOp) (s t t' : FState K)
    (hag : FAg o.1 s t) (h : fstepWith ar map4d nS nN o t = some t') :
    ∃ s', fstepWith ar map4d nS nN o s = some s' ∧ FAg o.1 s' t' := by
  obtain ⟨m, op⟩ := o
  obtain ⟨h1, h2, h3, h4⟩ := hag
  simp only at h1 h2 h3 h4
  cases op <;> simp only [fstepWith] at h ⊢ <;> split at h <;> simp at h <;> subst h <;>
    simp_all [FAg]

theorem fschedules_agree (m : Arr2 K) {s₁ s₂ : List (ℕ × FOp)}
    (h₁ : IsInterleaving m.cols (sampleProg m.rows) s₁)
    (h₂ : IsInterleaving m.cols (sampleProg m.rows) s₂)
    {a : FState K} (h : findMaxCoaWith ar m s₁ = some a) :
    ∃ b, findMaxCoaWith ar m s₂ = some b ∧ ∀ n < m.cols, FAg n b a :=
  interleavings_agree (fstepWith ar m.flat m.cols m.rows) FAg (fun _ => True)
    (fun n a => ⟨rfl, rfl, rfl, rfl⟩)
    (fun n a b c h h' => ⟨h.1.trans h'.1, h.2.1.trans h'.2.1, h.2.2.1.trans h'.2.2.1,
      h.2.2.2.trans h'.2.2.2⟩)
    (fun n a b h => ⟨h.1.symm, h.2.1.symm, h.2.2.1.symm, h.2.2.2.symm⟩)
    (fun o n s s' _ hne h => fstep_other o n s s' hne h)
    (fun o s t t' _ hag h => fstep_same o s t t' hag h)
    (fun _ _ _ => trivial) h₁ h₂ (finitWith ar) a h

theorem findMax_interleaved (m : Arr2 K) (hN : 0 < m.rows) {sched : List (ℕ × FOp)}
    (hs : IsInterleaving m.cols (sampleProg m.rows) sched) :
    ∃ s', findMaxCoaWith ar m sched = some s' ∧ ∀ smp < m.cols,
      s'.maxCoa smp = (scanReg ar (fun n => m.get n smp) (m.rows - 1)).mx ∧
      s'.norm smp = ar.norm (scanReg ar (fun n => m.get n smp) (m.rows - 1)).mx m.rows
        (scanReg ar (fun n => m.get n smp) (m.rows - 1)).sm ∧
      s'.idx smp = (scanReg ar (fun n => m.get n smp) (m.rows - 1)).idx := by
  have : Nonempty (FState K) := ⟨(finitWith ar)⟩
  choose! u hu using fun smp (hsmp : smp < m.cols) =>
    run_sample (nS := m.cols) (nN := m.rows) (map4d := m.flat) hsmp hN
      (fun node hn => flat_get m hn hsmp) (finitWith ar)
  obtain ⟨s', h1, h2⟩ := runAll_interleave (fstepWith ar m.flat m.cols m.rows) FAg (fun _ => True)
    (fun n a b c h h' => ⟨h.1.trans h'.1, h.2.1.trans h'.2.1, h.2.2.1.trans h'.2.2.1,
      h.2.2.2.trans h'.2.2.2⟩)
    (fun o n s s' _ hne h => fstep_other o n s s' hne h)
    (fun o s t t' _ hag h => fstep_same o s t t' hag h) sched
    (fun o ho => trivial)
    (finitWith ar) (fun _ => (finitWith ar)) u m.cols (fun o ho => (hs.mem ho).1)
    (fun n _ => ⟨rfl, rfl, rfl, rfl⟩)
    (fun n hn => by rw [hs.filter_eq hn]; exact (hu n hn).1)
  refine ⟨s', h1, fun smp hsmp => ?_⟩
  obtain ⟨-, g1, g2, g3⟩ := h2 smp hsmp
  obtain ⟨-, k1, k2, k3⟩ := hu smp hsmp
  exact ⟨g1.trans k1, g2.trans k2, g3.trans k3⟩

end

end QM.Migrate

import Verif.Props.Source

/-!
# C139-C141: the order of the stations, stations that record nothing, noise
-/

namespace QM
open QM.Compute QM.Migrate QM.Pads QM.ComputeStep Finset

/-- What a step of detect reports for one of its samples. -/
private theorem step_peak {L : Lut} {g : Grid.Grid} {w : Windows} {ttmax : ℚ} {sr : ℕ}
    {phases stations : List Str} {av : Str → Str → ℕ} {G : Str → Str → ℕ → ℚ}
    (S : Spec.ScanSetup L g w ttmax sr phases stations av G) {O : Str → Str → ℤ → ℝ}
    {origin start timestep : ℚ} {a : ℤ} {n i : ℕ} {out : List Out}
    (h : Spec.DetectStep L g w ttmax sr phases stations av O origin start timestep a n i out) :
    out.length = n ∧ ∀ m < n, ∃ o, out[m]? = some o ∧
      Spec.ReportsPeak g (fun node => Spec.coalescence (Spec.migratedPairs phases stations av) O
        (fun s p node => pyRound (G s p node * sr)) node (a + i * n + m)) o := by
  obtain ⟨cols, onset, sc, sc', h1, h2, h3, h4, h5⟩ := h.run
  obtain ⟨o, e1, e2, e3⟩ := C114_detect_value_partial L g w ttmax sr phases stations av G S origin start
    timestep a h.onGrid n h.whole i _ rfl h.tie _ rfl cols h1 h2 O onset h3 sc sc' h4
  rw [h5] at e1
  cases e1
  exact ⟨e2, e3⟩

private theorem migrated_perm {phases phases' stations stations' : List Str} (hp : phases.Perm phases')
    (hs : stations.Perm stations') (av : Str → Str → ℕ) :
    (Spec.migratedPairs phases stations av).Perm (Spec.migratedPairs phases' stations' av) := by
  unfold Spec.migratedPairs
  refine (List.Perm.flatMap_right _ hp).trans ?_
  exact List.Perm.flatMap_left _ fun p _ => (hs.filter _).map _

private theorem coalescence_perm {pairs pairs' : List (Str × Str)} (h : pairs.Perm pairs')
    (O : Str → Str → ℤ → ℝ) {delay delay' : Str → Str → ℕ → ℤ} {node : ℕ}
    (hd : ∀ sp ∈ pairs, delay sp.1 sp.2 node = delay' sp.1 sp.2 node) (T : ℤ) :
    Spec.coalescence pairs O delay node T = Spec.coalescence pairs' O delay' node T := by
  unfold Spec.coalescence
  rw [List.map_congr_left (fun sp hsp => by rw [hd sp hsp]), (h.map _).prod_eq, h.length_eq]

/-- **C139.**  The order of the stations and of the phases makes no difference: two runs that list them in
different orders, with tables that list them in different orders, report the same value, normalised value
and position for an instant, whatever their timesteps and the order of their threads. -/
theorem C139_order (L L' : Lut) (g : Grid.Grid) (w w' : Windows) (ttmax ttmax' : ℚ) (sr : ℕ)
    (phases phases' stations stations' : List Str) (hp : phases.Perm phases')
    (hst : stations.Perm stations') (av : Str → Str → ℕ) (G G' : Str → Str → ℕ → ℚ)
    (hG : ∀ s ∈ stations, ∀ p ∈ phases, av s p = 1 → G s p = G' s p)
    (S : Spec.ScanSetup L g w ttmax sr phases stations av G)
    (S' : Spec.ScanSetup L' g w' ttmax' sr phases' stations' av G') (O : Str → Str → ℤ → ℝ) (origin : ℚ)
    (start timestep : ℚ) (a : ℤ) (n i : ℕ) (out : List Out)
    (h : Spec.DetectStep L g w ttmax sr phases stations av O origin start timestep a n i out)
    (start' timestep' : ℚ) (a' : ℤ) (n' i' : ℕ) (out' : List Out)
    (h' : Spec.DetectStep L' g w' ttmax' sr phases' stations' av O origin start' timestep' a' n' i' out')
    (m m' : ℕ) (hm : m < n) (hm' : m' < n') (hT : a + i * n + m = a' + i' * n' + m') :
    out[m]? = out'[m']? ∧ out[m]?.isSome := by
  obtain ⟨-, e⟩ := step_peak S h
  obtain ⟨-, e'⟩ := step_peak S' h'
  obtain ⟨x, q1, q2⟩ := e m hm
  obtain ⟨x', q1', q2'⟩ := e' m' hm'
  have hf : (fun node => Spec.coalescence (Spec.migratedPairs phases' stations' av) O
        (fun s p node => pyRound (G' s p node * sr)) node (a' + i' * n' + m'))
      = fun node => Spec.coalescence (Spec.migratedPairs phases stations av) O
        (fun s p node => pyRound (G s p node * sr)) node (a + i * n + m) := by
    funext node
    rw [← hT]
    refine (coalescence_perm (migrated_perm hp hst av) O ?_ _).symm
    intro sp hsp
    unfold Spec.migratedPairs at hsp
    simp only [List.mem_flatMap, List.mem_map, List.mem_filter, decide_eq_true_eq] at hsp
    obtain ⟨p, hp, s, ⟨hs, ha⟩, rfl⟩ := hsp
    simp only [hG s hs p hp ha]
  rw [hf] at q2'
  rw [q1, q1', reportsPeak_unique q2 q2']
  simp

/-! ### Stations that record nothing of an event -/

private theorem split_pairs (phases stations : List Str) (av av' : Str → Str → ℕ)
    (hle : ∀ s p, av s p = 1 → av' s p = 1) :
    (Spec.migratedPairs phases stations av').Perm (Spec.migratedPairs phases stations av ++
      Spec.migratedPairs phases stations fun s p => if av' s p = 1 ∧ av s p ≠ 1 then 1 else 0) := by
  have h1 : Spec.migratedPairs phases stations av
      = (Spec.migratedPairs phases stations av').filter fun sp => av sp.1 sp.2 = 1 := by
    rw [migratedPairs_eq, migratedPairs_eq, List.filter_filter]
    apply List.filter_congr
    intro sp _
    by_cases h : av sp.1 sp.2 = 1
    · simp [h, hle _ _ h]
    · simp [h]
  have h2 : (Spec.migratedPairs phases stations fun s p => if av' s p = 1 ∧ av s p ≠ 1 then 1 else 0)
      = (Spec.migratedPairs phases stations av').filter fun sp => !decide (av sp.1 sp.2 = 1) := by
    rw [migratedPairs_eq, migratedPairs_eq, List.filter_filter]
    apply List.filter_congr
    intro sp _
    by_cases h : av sp.1 sp.2 = 1
    · simp [h]
    · by_cases h' : av' sp.1 sp.2 = 1 <;> simp [h, h']
  rw [h1, h2]
  exact (List.filter_append_perm _ _).symm

/-- **C140.**  Onset functions that are constant do not change where the coalescence peaks: if a run uses
more onset functions than another, and the additional ones have the same value at all times, then both
report the same position at every instant, and the coalescence is the geometric mean that includes the
constant values. -/
theorem C140_constant (L : Lut) (g : Grid.Grid) (w : Windows) (ttmax : ℚ) (sr : ℕ)
    (phases stations : List Str) (av av' : Str → Str → ℕ) (G : Str → Str → ℕ → ℚ)
    (hle : ∀ s p, av s p = 1 → av' s p = 1)
    (S : Spec.ScanSetup L g w ttmax sr phases stations av G)
    (S' : Spec.ScanSetup L g w ttmax sr phases stations av' G) (O : Str → Str → ℤ → ℝ)
    (c : Str → Str → ℝ)
    (hc : ∀ s ∈ stations, ∀ p ∈ phases, av' s p = 1 → av s p ≠ 1 → ∀ t, O s p t = c s p)
    (origin : ℚ) (start timestep : ℚ) (a : ℤ) (n i : ℕ) (out : List Out)
    (h : Spec.DetectStep L g w ttmax sr phases stations av O origin start timestep a n i out)
    (start' timestep' : ℚ) (a' : ℤ) (n' i' : ℕ) (out' : List Out)
    (h' : Spec.DetectStep L g w ttmax sr phases stations av' O origin start' timestep' a' n' i' out')
    (m m' : ℕ) (hm : m < n) (hm' : m' < n') (hT : a + i * n + m = a' + i' * n' + m') :
    ∃ o o', out[m]? = some o ∧ out'[m']? = some o' ∧ o'.xyz = o.xyz ∧
      ∃ used more : ℕ, 0 < used ∧ used = (Spec.migratedPairs phases stations av).length ∧
        used + more = (Spec.migratedPairs phases stations av').length ∧
        o'.maxCoa = (o.maxCoa ^ used * ((Spec.migratedPairs phases stations
            fun s p => if av' s p = 1 ∧ av s p ≠ 1 then 1 else 0).map
          fun sp => max (1 / 100) (c sp.1 sp.2)).prod) ^ (1 / ((used + more : ℕ) : ℝ)) := by
  obtain ⟨-, e⟩ := step_peak S h
  obtain ⟨-, e'⟩ := step_peak S' h'
  obtain ⟨o, q1, q2⟩ := e m hm
  obtain ⟨o', q1', q2'⟩ := e' m' hm'
  have hperm := split_pairs phases stations av av' hle
  have hne : Spec.migratedPairs phases stations av ≠ [] := migratedPairs_ne_nil S
  have hX : ∀ sp ∈ (Spec.migratedPairs phases stations
      fun s p => if av' s p = 1 ∧ av s p ≠ 1 then 1 else 0), ∀ t, O sp.1 sp.2 t = c sp.1 sp.2 := by
    intro sp hsp t
    unfold Spec.migratedPairs at hsp
    simp only [List.mem_flatMap, List.mem_map, List.mem_filter, decide_eq_true_eq] at hsp
    obtain ⟨p, hp, s, ⟨hs, ha⟩, rfl⟩ := hsp
    by_cases hh : av' s p = 1 ∧ av s p ≠ 1
    · exact hc s hs p hp hh.1 hh.2 t
    · rw [if_neg hh] at ha; omega
  generalize (Spec.migratedPairs phases stations
      fun s p => if av' s p = 1 ∧ av s p ≠ 1 then 1 else 0) = X at hperm hX ⊢
  generalize Spec.migratedPairs phases stations av = P at hperm q2 hne ⊢
  generalize Spec.migratedPairs phases stations av' = P' at hperm q2' ⊢
  have hlen : P'.length = P.length + X.length := by rw [hperm.length_eq, List.length_append]
  have hPpos : 0 < P.length := List.length_pos_of_ne_nil hne
  have hK : 0 < (X.map fun sp => max (1 / 100) (c sp.1 sp.2)).prod := by
    apply List.prod_pos
    intro y hy
    obtain ⟨sp, -, rfl⟩ := List.mem_map.1 hy
    exact lt_of_lt_of_le (by norm_num) (le_max_left _ _)
  generalize hKd : (X.map fun sp => max (1 / 100) (c sp.1 sp.2)).prod = K at hK ⊢
  -- the coalescence with the constant functions, from that without
  have hf : ∀ node, 0 < Spec.coalescence P O (fun s p node => pyRound (G s p node * sr)) node (a + i * n + m) ∧
      Spec.coalescence P' O (fun s p node => pyRound (G s p node * sr)) node (a' + i' * n' + m')
        = (Spec.coalescence P O (fun s p node => pyRound (G s p node * sr)) node (a + i * n + m) ^ P.length
            * K) ^ (1 / ((P.length + X.length : ℕ) : ℝ)) := by
    intro node
    rw [← hT, coalescence_perm hperm O (fun _ _ => rfl)]
    unfold Spec.coalescence
    rw [List.map_append, List.prod_append, List.length_append]
    have hA : 0 < (P.map fun sp => max (1 / 100)
        (O sp.1 sp.2 (a + i * n + m + max 0 (pyRound (G sp.1 sp.2 node * sr))))).prod := by
      apply List.prod_pos
      intro y hy
      obtain ⟨sp, -, rfl⟩ := List.mem_map.1 hy
      exact lt_of_lt_of_le (by norm_num) (le_max_left _ _)
    have hB : (X.map fun sp => max (1 / 100)
        (O sp.1 sp.2 (a + i * n + m + max 0 (pyRound (G sp.1 sp.2 node * sr))))).prod = K := by
      rw [← hKd]
      congr 1
      apply List.map_congr_left
      intro sp hsp
      rw [hX sp hsp]
    rw [hB]
    generalize (P.map fun sp => max (1 / 100)
        (O sp.1 sp.2 (a + i * n + m + max 0 (pyRound (G sp.1 sp.2 node * sr))))).prod = A at hA ⊢
    refine ⟨Real.rpow_pos_of_pos hA _, ?_⟩
    congr 2
    rw [← Real.rpow_natCast, ← Real.rpow_mul hA.le]
    have : (P.length : ℝ) ≠ 0 := by exact_mod_cast hPpos.ne'
    rw [one_div_mul_cancel this, Real.rpow_one]
  have hf1 : ∀ node, 0 < Spec.coalescence P O (fun s p node => pyRound (G s p node * sr)) node (a + i * n + m) :=
    fun node => (hf node).1
  have hf2 : (fun node => Spec.coalescence P' O (fun s p node => pyRound (G s p node * sr)) node
      (a' + i' * n' + m')) = fun node =>
        (Spec.coalescence P O (fun s p node => pyRound (G s p node * sr)) node (a + i * n + m) ^ P.length
            * K) ^ (1 / ((P.length + X.length : ℕ) : ℝ)) := funext fun node => (hf node).2
  rw [hf2] at q2'
  clear hf hf2
  obtain ⟨f, hfd⟩ : ∃ f : ℕ → ℝ, f = fun node => Spec.coalescence P O
    (fun s p node => pyRound (G s p node * sr)) node (a + i * n + m) := ⟨_, rfl⟩
  have r0 : ∀ node, 0 < f node := fun node => by rw [hfd]; exact hf1 node
  have r1 : Spec.ReportsPeak g f o := by rw [hfd]; exact q2
  have r2 : Spec.ReportsPeak g (fun node => (f node ^ P.length * K)
    ^ (1 / ((P.length + X.length : ℕ) : ℝ))) o' := by rw [hfd]; exact q2'
  clear q2 q2' hf1 hfd
  have hM : (0 : ℝ) < 1 / ((P.length + X.length : ℕ) : ℝ) := by positivity
  have hmono : ∀ x y, f x < f y → (f x ^ P.length * K) ^ (1 / ((P.length + X.length : ℕ) : ℝ))
      < (f y ^ P.length * K) ^ (1 / ((P.length + X.length : ℕ) : ℝ)) := by
    intro x y hxy
    apply Real.rpow_lt_rpow _ _ hM
    · exact mul_nonneg (pow_nonneg (r0 x).le _) hK.le
    · exact mul_lt_mul_of_pos_right (pow_lt_pow_left₀ hxy (r0 x).le hPpos.ne') hK
  obtain ⟨n1, k1, k2, k3, k4⟩ := r1.node
  obtain ⟨n2, l1, l2, l3, l4⟩ := r2.node
  have h12 : n1 = n2 := by
    have hle12 := r1.largest n2 l1
    rw [k2] at hle12
    have hle21 := r2.largest n1 k1
    rw [l2] at hle21
    rcases lt_trichotomy n1 n2 with hlt | he | hlt
    · exact absurd (l3 n1 hlt) (not_lt.2 (by
        rcases eq_or_lt_of_le hle12 with h | h
        · simp only [h]; exact le_rfl
        · exact (hmono n2 n1 h).le))
    · exact he
    · exact absurd (hmono n2 n1 (k3 n2 hlt)) (not_lt.2 hle21)
  subst h12
  refine ⟨o, o', q1, q1', ?_, P.length, X.length, hPpos, rfl, hlen.symm, ?_⟩
  · rw [k4] at l4
    exact (Option.some.inj l4).symm
  · rw [l2, k2]

/-! ### Noise and errors of the model -/

/-- The number of arrivals of a source at `source` with origin time `T` that are more than `tol` samples off
those of a source at `node` with origin time `T'`. -/
def Spec.unexplained (pairs : List (Str × Str)) (delay : Str → Str → ℕ → ℤ) (source : ℕ) (T : ℤ) (node : ℕ)
    (T' tol : ℤ) : ℕ :=
  (pairs.filter fun sp => tol < |T' + delay sp.1 sp.2 node - (T + delay sp.1 sp.2 source)|).length

/-- The onset functions of a source at `source` with origin time `T`, with noise: the value of each is at
least `A` at the arrival, never more than `C`, and at most `B` when more than `tol` samples from the
arrival. -/
structure Spec.NoisySource (pairs : List (Str × Str)) (O : Str → Str → ℤ → ℝ) (delay : Str → Str → ℕ → ℤ)
    (source : ℕ) (T : ℤ) (A B C : ℝ) (tol : ℤ) : Prop where
  arrival : ∀ sp ∈ pairs, A ≤ O sp.1 sp.2 (T + delay sp.1 sp.2 source)
  highest : ∀ sp ∈ pairs, ∀ t, O sp.1 sp.2 t ≤ C
  noise : ∀ sp ∈ pairs, ∀ t, tol < |t - (T + delay sp.1 sp.2 source)| → O sp.1 sp.2 t ≤ B
  floor : 1 / 100 ≤ B
  order : B ≤ C
  pos : 0 < A

private theorem prod_le_split {α : Type} (l : List α) (f : α → ℝ) (p : α → Bool) (B C : ℝ) (hB : 0 ≤ B)
    (hC : 0 ≤ C) (h0 : ∀ x ∈ l, 0 ≤ f x) (h1 : ∀ x ∈ l, p x = true → f x ≤ B) (h2 : ∀ x ∈ l, f x ≤ C) :
    (l.map f).prod ≤ B ^ (l.filter p).length * C ^ (l.length - (l.filter p).length) := by
  induction l with
  | nil => simp
  | cons x l ih =>
    have ih := ih (fun y hy => h0 y (List.mem_cons_of_mem _ hy)) (fun y hy => h1 y (List.mem_cons_of_mem _ hy))
      fun y hy => h2 y (List.mem_cons_of_mem _ hy)
    have hl : (l.filter p).length ≤ l.length := List.length_filter_le _ _
    have hp : 0 ≤ (l.map f).prod := List.prod_nonneg fun y hy => by
      obtain ⟨z, hz, rfl⟩ := List.mem_map.1 hy
      exact h0 z (List.mem_cons_of_mem _ hz)
    rw [List.map_cons, List.prod_cons, List.filter_cons]
    by_cases hx : p x = true
    · rw [if_pos hx, List.length_cons, List.length_cons, pow_succ,
        show l.length + 1 - ((l.filter p).length + 1) = l.length - (l.filter p).length by omega]
      calc f x * (l.map f).prod ≤ B * (B ^ (l.filter p).length * C ^ (l.length - (l.filter p).length)) :=
            mul_le_mul (h1 x List.mem_cons_self hx) ih hp hB
        _ = _ := by ring
    · rw [if_neg hx, List.length_cons,
        show l.length + 1 - (l.filter p).length = l.length - (l.filter p).length + 1 by omega, pow_succ]
      calc f x * (l.map f).prod ≤ C * (B ^ (l.filter p).length * C ^ (l.length - (l.filter p).length)) :=
            mul_le_mul (h2 x List.mem_cons_self) ih hp hC
        _ = _ := by ring

theorem explained_of_peak {g : Grid.Grid} {pairs : List (Str × Str)} {O : Str → Str → ℤ → ℝ}
    {delay : Str → Str → ℕ → ℤ} (hne : pairs ≠ []) {source : ℕ} {T : ℤ} {A B C : ℝ} {tol : ℤ}
    (hs : Spec.NoisySource pairs O delay source T A B C tol)
    (hdelay : ∀ sp ∈ pairs, ∀ node < g.count 0 * g.count 1 * g.count 2, 0 ≤ delay sp.1 sp.2 node)
    (hsrc : source < g.count 0 * g.count 1 * g.count 2) {T' : ℤ} {o : Out}
    (e2 : Spec.ReportsPeak g (fun node => Spec.coalescence pairs O delay node T') o)
    (h1 : Spec.coalescence pairs O delay source T ≤ o.maxCoa) :
    ∃ node < g.count 0 * g.count 1 * g.count 2, (Grid.gridXyz g)[node]? = some o.xyz ∧
      A ^ pairs.length ≤ B ^ Spec.unexplained pairs delay source T node T' tol
        * C ^ (pairs.length - Spec.unexplained pairs delay source T node T' tol) := by
  have hN : (pairs.length : ℝ) ≠ 0 := by
    exact_mod_cast (List.length_pos_of_ne_nil hne).ne'
  obtain ⟨node, k1, k2, -, k4⟩ := e2.node
  refine ⟨node, k1, k4, ?_⟩
  have hprodpos : ∀ (nd : ℕ) (t : ℤ), 0 ≤ (pairs.map fun sp =>
      max (1 / 100) (O sp.1 sp.2 (t + max 0 (delay sp.1 sp.2 nd)))).prod := by
    intro nd t
    apply List.prod_nonneg
    intro y hy
    obtain ⟨sp, -, rfl⟩ := List.mem_map.1 hy
    exact le_trans (by norm_num) (le_max_left _ _)
  have hpow : ∀ (nd : ℕ) (t : ℤ), Spec.coalescence pairs O delay nd t ^ pairs.length = (pairs.map fun sp =>
      max (1 / 100) (O sp.1 sp.2 (t + max 0 (delay sp.1 sp.2 nd)))).prod := by
    intro nd t
    unfold Spec.coalescence
    rw [← Real.rpow_natCast, ← Real.rpow_mul (hprodpos nd t), one_div_mul_cancel hN, Real.rpow_one]
  have hA : A ^ pairs.length ≤ Spec.coalescence pairs O delay source T ^ pairs.length := by
    rw [hpow]
    have : ∀ l : List (Str × Str), (∀ sp ∈ l, sp ∈ pairs) → A ^ l.length ≤ (l.map fun sp =>
        max (1 / 100) (O sp.1 sp.2 (T + max 0 (delay sp.1 sp.2 source)))).prod := by
      intro l hl
      induction l with
      | nil => simp
      | cons sp l ih =>
        rw [List.length_cons, pow_succ, List.map_cons, List.prod_cons, mul_comm]
        have hsp := hl sp List.mem_cons_self
        apply mul_le_mul _ (ih fun x hx => hl x (List.mem_cons_of_mem _ hx)) (pow_nonneg hs.pos.le _)
          (le_trans (by norm_num) (le_max_left _ _))
        rw [max_eq_right (hdelay sp hsp source hsrc)]
        exact (hs.arrival sp hsp).trans (le_max_right _ _)
    exact this pairs fun _ h => h
  have hB : 0 ≤ B := le_trans (by norm_num) hs.floor
  have hU : o.maxCoa ^ pairs.length ≤ B ^ Spec.unexplained pairs delay source T node T' tol
        * C ^ (pairs.length - Spec.unexplained pairs delay source T node T' tol) := by
    rw [k2, hpow]
    unfold Spec.unexplained
    apply prod_le_split _ _ _ _ _ hB (hB.trans hs.order)
    · intro sp _
      exact le_trans (by norm_num) (le_max_left _ _)
    · intro sp hsp hp
      rw [max_eq_right (hdelay sp hsp node k1)]
      exact max_le hs.floor (hs.noise sp hsp _ (by simpa using hp))
    · intro sp hsp
      exact max_le (hs.floor.trans hs.order) (hs.highest sp hsp _)
  have hpos : 0 ≤ Spec.coalescence pairs O delay source T := Real.rpow_nonneg (hprodpos _ _) _
  exact (hA.trans (pow_le_pow_left₀ hpos h1 _)).trans hU

private theorem explained_of_values {g : Grid.Grid} {pairs : List (Str × Str)} {O : Str → Str → ℤ → ℝ}
    {delay : Str → Str → ℕ → ℤ} (hne : pairs ≠ []) {source : ℕ} {T : ℤ} {A B C : ℝ} {tol : ℤ}
    (hs : Spec.NoisySource pairs O delay source T A B C tol)
    (hdelay : ∀ sp ∈ pairs, ∀ node < g.count 0 * g.count 1 * g.count 2, 0 ≤ delay sp.1 sp.2 node)
    (hsrc : source < g.count 0 * g.count 1 * g.count 2) {out : List Out} {n : ℕ} {base : ℤ}
    (hlen : out.length = n) (hv : ∀ m < n, ∃ o, out[m]? = some o ∧
      Spec.ReportsPeak g (fun node => Spec.coalescence pairs O delay node (base + m)) o)
    {m0 : ℕ} (hm0 : m0 < n) (hT : base + m0 = T) {m : ℕ} {o : Out} (ho : out[m]? = some o)
    (hmax : ∀ (m' : ℕ) (o' : Out), out[m']? = some o' → o'.maxCoa ≤ o.maxCoa) :
    ∃ node < g.count 0 * g.count 1 * g.count 2, (Grid.gridXyz g)[node]? = some o.xyz ∧
      A ^ pairs.length ≤ B ^ Spec.unexplained pairs delay source T node (base + m) tol
        * C ^ (pairs.length - Spec.unexplained pairs delay source T node (base + m) tol) := by
  have hmn : m < n := by rw [← hlen]; exact (List.getElem?_eq_some_iff.1 ho).1
  obtain ⟨o1, e1, e2⟩ := hv m hmn
  rw [ho] at e1
  cases e1
  obtain ⟨o0, e3, e4⟩ := hv m0 hm0
  refine explained_of_peak hne hs hdelay hsrc e2 ?_
  have := e4.largest source hsrc
  simp only [hT] at this
  exact this.trans (hmax m0 o0 e3)

private theorem delay_nonneg {G : Str → Str → ℕ → ℚ} {sr : ℕ} {s p : Str} {node : ℕ} (h : 0 ≤ G s p node) :
    0 ≤ pyRound (G s p node * sr) := by
  rw [← pyRound_int 0]
  apply pyRound_mono
  push_cast
  positivity

/-- **C141** (detect).  With noise and with errors of the traveltimes: the largest coalescence in the timestep
that covers the origin time is at a place and time that explain the arrivals within `tol` samples, but for
`k` of the `N` onset functions with `A ^ N ≤ B ^ k * C ^ (N - k)`. -/
theorem C141_detect_explains (L : Lut) (g : Grid.Grid) (w : Windows) (ttmax : ℚ) (sr : ℕ)
    (phases stations : List Str) (av : Str → Str → ℕ) (G : Str → Str → ℕ → ℚ)
    (S : Spec.ScanSetup L g w ttmax sr phases stations av G)
    (hG : ∀ sp ∈ Spec.migratedPairs phases stations av, ∀ node < L.nNodes, 0 ≤ G sp.1 sp.2 node)
    (O : Str → Str → ℤ → ℝ) (origin start timestep : ℚ) (a : ℤ) (n i : ℕ) (out : List Out)
    (h : Spec.DetectStep L g w ttmax sr phases stations av O origin start timestep a n i out)
    (source : ℕ) (hsrc : source < L.nNodes) (T : ℤ) (A B C : ℝ) (tol : ℤ)
    (hs : Spec.NoisySource (Spec.migratedPairs phases stations av) O (fun s p k => pyRound (G s p k * sr))
      source T A B C tol)
    (m0 : ℕ) (hm0 : m0 < n) (hT : a + i * n + m0 = T) (m : ℕ) (o : Out) (ho : out[m]? = some o)
    (hmax : ∀ (m' : ℕ) (o' : Out), out[m']? = some o' → o'.maxCoa ≤ o.maxCoa) :
    ∃ node < L.nNodes, (Grid.gridXyz g)[node]? = some o.xyz ∧
      A ^ (Spec.migratedPairs phases stations av).length
        ≤ B ^ Spec.unexplained (Spec.migratedPairs phases stations av) (fun s p k => pyRound (G s p k * sr))
            source T node (a + i * n + m) tol
          * C ^ ((Spec.migratedPairs phases stations av).length
            - Spec.unexplained (Spec.migratedPairs phases stations av) (fun s p k => pyRound (G s p k * sr))
              source T node (a + i * n + m) tol) := by
  obtain ⟨e1, e2⟩ := step_peak S h
  rw [S.nodes] at hsrc hG ⊢
  exact explained_of_values (migratedPairs_ne_nil S) hs (fun sp hsp node hn => delay_nonneg (hG sp hsp node hn))
    hsrc e1 e2 hm0 hT ho hmax

/-- If the arrivals are clear enough, the bound leaves none unexplained. -/
theorem all_explained {pairs : List (Str × Str)} {O : Str → Str → ℤ → ℝ} {delay : Str → Str → ℕ → ℤ} {source : ℕ}
    {T : ℤ} {A B C : ℝ} {tol : ℤ} (hs : Spec.NoisySource pairs O delay source T A B C tol)
    (hclear : B * C ^ (pairs.length - 1) < A ^ pairs.length) {node : ℕ} {T' : ℤ}
    (h3 : A ^ pairs.length ≤ B ^ Spec.unexplained pairs delay source T node T' tol
      * C ^ (pairs.length - Spec.unexplained pairs delay source T node T' tol)) :
    ∀ sp ∈ pairs, |T' + delay sp.1 sp.2 node - (T + delay sp.1 sp.2 source)| ≤ tol := by
  by_contra hc
  push Not at hc
  obtain ⟨sp, hsp, hlt⟩ := hc
  have hpos : 0 < Spec.unexplained pairs delay source T node T' tol := by
    unfold Spec.unexplained
    apply List.length_pos_of_mem (a := sp)
    rw [List.mem_filter]
    exact ⟨hsp, by simpa using hlt⟩
  have hle : Spec.unexplained pairs delay source T node T' tol
      ≤ pairs.length := List.length_filter_le _ _
  generalize Spec.unexplained pairs delay source T node T' tol = k at h3 hpos hle
  generalize pairs.length = N at h3 hle hclear
  have hB : 0 < B := lt_of_lt_of_le (by norm_num) hs.floor
  have hBC := hs.order
  obtain ⟨j, rfl⟩ : ∃ j, k = j + 1 := ⟨k - 1, by omega⟩
  obtain ⟨r, rfl⟩ : ∃ r, N = j + 1 + r := ⟨N - (j + 1), by omega⟩
  rw [show j + 1 + r - (j + 1) = r by omega] at h3
  rw [show j + 1 + r - 1 = j + r by omega] at hclear
  have : B ^ (j + 1) * C ^ r ≤ B * C ^ (j + r) := by
    rw [pow_succ, pow_add, mul_comm (B ^ j) B, mul_assoc]
    apply mul_le_mul_of_nonneg_left _ hB.le
    exact mul_le_mul_of_nonneg_right (pow_le_pow_left₀ hB.le hBC _) (pow_nonneg (hB.le.trans hBC) _)
  linarith

/-- **C141** (detect), the usual case: if the arrivals are clear enough, all are explained. -/
theorem C141_detect_explains_all (L : Lut) (g : Grid.Grid) (w : Windows) (ttmax : ℚ) (sr : ℕ)
    (phases stations : List Str) (av : Str → Str → ℕ) (G : Str → Str → ℕ → ℚ)
    (S : Spec.ScanSetup L g w ttmax sr phases stations av G)
    (hG : ∀ sp ∈ Spec.migratedPairs phases stations av, ∀ node < L.nNodes, 0 ≤ G sp.1 sp.2 node)
    (O : Str → Str → ℤ → ℝ) (origin start timestep : ℚ) (a : ℤ) (n i : ℕ) (out : List Out)
    (h : Spec.DetectStep L g w ttmax sr phases stations av O origin start timestep a n i out)
    (source : ℕ) (hsrc : source < L.nNodes) (T : ℤ) (A B C : ℝ) (tol : ℤ)
    (hs : Spec.NoisySource (Spec.migratedPairs phases stations av) O (fun s p k => pyRound (G s p k * sr))
      source T A B C tol)
    (hclear : B * C ^ ((Spec.migratedPairs phases stations av).length - 1)
      < A ^ (Spec.migratedPairs phases stations av).length)
    (m0 : ℕ) (hm0 : m0 < n) (hT : a + i * n + m0 = T) (m : ℕ) (o : Out) (ho : out[m]? = some o)
    (hmax : ∀ (m' : ℕ) (o' : Out), out[m']? = some o' → o'.maxCoa ≤ o.maxCoa) :
    ∃ node < L.nNodes, (Grid.gridXyz g)[node]? = some o.xyz ∧
      ∀ sp ∈ Spec.migratedPairs phases stations av,
        |a + i * n + m + pyRound (G sp.1 sp.2 node * sr) - (T + pyRound (G sp.1 sp.2 source * sr))| ≤ tol := by
  obtain ⟨node, h1, h2, h3⟩ := C141_detect_explains L g w ttmax sr phases stations av G S hG O origin start
    timestep a n i out h source hsrc T A B C tol hs m0 hm0 hT m o ho hmax
  refine ⟨node, h1, h2, ?_⟩
  exact all_explained hs hclear h3

/-- **C141** (locate).  The same for the window of an event, if the origin time is within two marginal windows of
the trigger time. -/
theorem C141_locate_explains (L : Lut) (g : Grid.Grid) (w : Windows) (ttmax : ℚ) (sr : ℕ)
    (phases stations : List Str) (av : Str → Str → ℕ) (G : Str → Str → ℕ → ℚ)
    (S : Spec.ScanSetup L g w ttmax sr phases stations av G)
    (hG : ∀ sp ∈ Spec.migratedPairs phases stations av, ∀ node < L.nNodes, 0 ≤ G sp.1 sp.2 node)
    (origin trigger mw : ℚ) (a : ℤ) (htrig : trigger = origin + a / sr) (n : ℕ) (hn : 2 * mw * sr = n)
    (pads : ℚ × ℚ) (hpads : pads = scanPads w ttmax sr (4 * mw)) (htie : ∀ z : ℤ, pads.1 * sr ≠ z + 1 / 2)
    (win : ℚ × ℚ) (hwin : win = locateWindow trigger mw pads)
    (cols : ℕ) (hcols : onsetLength origin sr win.1 win.2 = cols)
    (h32 : (Spec.migratedPairs phases stations av).length * cols ≤ 2 ^ 31)
    (O : Str → Str → ℤ → ℝ) (onset : Str → Str → ℕ → ℝ)
    (hO : Spec.OnsetsOf origin sr win pads ttmax (Spec.migratedPairs phases stations av) O onset)
    (sched : List (ℕ × Op)) (sched' : List (ℕ × FOp))
    (hsch : Spec.Schedules (Spec.migratedPairs phases stations av).length cols L.nNodes
      (time2sample pads.1 sr).toNat (time2sample pads.2 sr).toNat sched sched')
    (source : ℕ) (hsrc : source < L.nNodes) (T : ℤ) (A B C : ℝ) (tol : ℤ)
    (hs : Spec.NoisySource (Spec.migratedPairs phases stations av) O (fun s p k => pyRound (G s p k * sr))
      source T A B C tol)
    (m0 : ℕ) (hm0 : m0 < 2 * n + 1) (hT : a - n + m0 = T) :
    ∃ out, compute L g sr pads phases stations av onset cols sched sched' = .ok out ∧ out.length = 2 * n + 1 ∧
      ∀ (m : ℕ) (o : Out), out[m]? = some o →
        (∀ (m' : ℕ) (o' : Out), out[m']? = some o' → o'.maxCoa ≤ o.maxCoa) →
        ∃ node < L.nNodes, (Grid.gridXyz g)[node]? = some o.xyz ∧
          A ^ (Spec.migratedPairs phases stations av).length
            ≤ B ^ Spec.unexplained (Spec.migratedPairs phases stations av)
                (fun s p k => pyRound (G s p k * sr)) source T node (a - n + m) tol
              * C ^ ((Spec.migratedPairs phases stations av).length
                - Spec.unexplained (Spec.migratedPairs phases stations av)
                  (fun s p k => pyRound (G s p k * sr)) source T node (a - n + m) tol) := by
  obtain ⟨out, e1, e2, e3⟩ := C114_locate_value_partial L g w ttmax sr phases stations av G S origin trigger mw a
    htrig n hn pads hpads htie win hwin cols hcols h32 O onset hO sched sched' hsch
  refine ⟨out, e1, e2, ?_⟩
  intro m o ho hmax
  rw [S.nodes] at hsrc hG ⊢
  exact explained_of_values (migratedPairs_ne_nil S) hs (fun sp hsp node hn => delay_nonneg (hG sp hsp node hn))
    hsrc e2 e3 hm0 hT ho hmax

/-! ### Cases that meet the hypotheses -/

private def onlyA : Str → Str → ℕ := fun s _ => if s = ['A'] then 1 else 0

private theorem closeSetup_swapped : Spec.ScanSetup closeLut stepGrid stepWindows (1 + 1 / 250) 50 [['P']]
    [['B'], ['A']] allThere closeG where
  nodes := rfl
  pos := by decide
  win := closeSetup.win
  longest := by decide +kernel
  ttpos := by norm_num
  rate := by norm_num
  phNodup := by decide
  stNodup := by decide
  phName := by decide
  stName := by decide
  phLut := by decide
  stLut := by decide
  avail := fun s p => le_refl _
  someAvail := ⟨['A'], by decide, ['P'], by decide, by decide⟩
  table := by
    intro s hs p hp h1
    simp only [List.mem_cons, List.not_mem_nil, or_false] at hs hp
    subst hp
    rcases hs with rfl | rfl <;> rfl

private theorem closeSetup_onlyA : Spec.ScanSetup closeLut stepGrid stepWindows (1 + 1 / 250) 50 [['P']]
    [['A'], ['B']] onlyA closeG where
  nodes := rfl
  pos := by decide
  win := closeSetup.win
  longest := by decide +kernel
  ttpos := by norm_num
  rate := by norm_num
  phNodup := by decide
  stNodup := by decide
  phName := by decide
  stName := by decide
  phLut := by decide
  stLut := by decide
  avail := by intro s p; unfold onlyA; split <;> omega
  someAvail := ⟨['A'], by decide, ['P'], by decide, by decide⟩
  table := by
    intro s hs p hp h1
    simp only [List.mem_cons, List.not_mem_nil, or_false] at hs hp
    subst hp
    rcases hs with rfl | rfl <;> rfl

private theorem close_tie (ts : ℚ) (h : 0 ≤ ts) (z : ℤ) :
    (scanPads stepWindows (1 + 1 / 250) 50 ts).1 * (50 : ℕ) ≠ z + 1 / 2 :=
  C22_usual_rates stepWindows stepSetup.win (1 + 1 / 250) (by norm_num) 50 (by norm_num) (Or.inl ⟨20, rfl⟩) ts h z

/-- Stations in either order, timesteps of two seconds and of one: the same result for sample 153. -/
example (O : Str → Str → ℤ → ℝ) : ∃ out out',
    Spec.DetectStep closeLut stepGrid stepWindows (1 + 1 / 250) 50 [['P']] [['A'], ['B']] allThere O 0 1 2 50 100 1
      out ∧
    Spec.DetectStep closeLut stepGrid stepWindows (1 + 1 / 250) 50 [['P']] [['B'], ['A']] allThere O 0 1 1 50 50 2
      out' ∧ out[3]? = out'[3]? ∧ out[3]?.isSome := by
  obtain ⟨out, h⟩ := detectStep_exists closeSetup O 0 1 2 50 (by norm_num) 100 (by norm_num)
    (close_tie 2 (by norm_num)) 1 480 (by decide +kernel) (by decide +kernel)
  obtain ⟨out', h'⟩ := detectStep_exists closeSetup_swapped O 0 1 1 50 (by norm_num) 50 (by norm_num)
    (close_tie 1 (by norm_num)) 2 430 (by decide +kernel) (by decide +kernel)
  exact ⟨out, out', h, h', C139_order _ _ _ _ _ _ _ _ _ _ _ _ (List.Perm.refl _) (List.Perm.swap _ _ _) _ closeG
    closeG (fun _ _ _ _ _ => rfl) closeSetup closeSetup_swapped O _ _ _ _ _ _ _ h _ _ _ _ _ _ h' 3 3 (by norm_num)
    (by norm_num) (by norm_num)⟩

/-- A second station whose onset function is flat: the same position. -/
example (O : Str → Str → ℤ → ℝ) (hO : ∀ t, O ['B'] ['P'] t = 1) : ∃ out out' o o',
    Spec.DetectStep closeLut stepGrid stepWindows (1 + 1 / 250) 50 [['P']] [['A'], ['B']] onlyA O 0 1 2 50 100 1
      out ∧
    Spec.DetectStep closeLut stepGrid stepWindows (1 + 1 / 250) 50 [['P']] [['A'], ['B']] allThere O 0 1 2 50 100 1
      out' ∧ out[3]? = some o ∧ out'[3]? = some o' ∧ o'.xyz = o.xyz := by
  obtain ⟨out, h⟩ := detectStep_exists closeSetup_onlyA O 0 1 2 50 (by norm_num) 100 (by norm_num)
    (close_tie 2 (by norm_num)) 1 480 (by decide +kernel) (by decide +kernel)
  obtain ⟨out', h'⟩ := detectStep_exists closeSetup O 0 1 2 50 (by norm_num) 100 (by norm_num)
    (close_tie 2 (by norm_num)) 1 480 (by decide +kernel) (by decide +kernel)
  obtain ⟨o, o', h1, h2, h3, -⟩ := C140_constant _ _ _ _ _ _ _ onlyA allThere closeG (fun _ _ _ => rfl)
    closeSetup_onlyA closeSetup O (fun _ _ => 1) (by
      intro s hs p hp _ hA t
      simp only [List.mem_cons, List.not_mem_nil, or_false] at hs hp
      subst hp
      rcases hs with rfl | rfl
      · exact absurd rfl hA
      · exact hO t) _ _ _ _ _ _ _ h _ _ _ _ _ _ h' 3 3 (by norm_num) (by norm_num) (by norm_num)
  exact ⟨out, out', o, o', h, h', h1, h2, h3⟩

/-- A source with noise: onset functions of up to 4 near the arrivals, at least 3 at the arrivals and up to 1
elsewhere; all three arrivals are explained within two samples. -/
example (noise : Str → Str → ℤ → ℝ) (hnoise : ∀ s p t, 0 ≤ noise s p t ∧ noise s p t ≤ 1) :
    ∃ out, Spec.DetectStep exLut stepGrid stepWindows 4 50 [['P'], ['S']] [['A'], ['B']] exAv
      (fun s p t => noise s p t + if |t - (153 + pyRound (stepG s p 1 * (50 : ℕ)))| ≤ 2 then 3 else 0) 0 1 2 50 100 1
      out ∧
    ∀ (m : ℕ) (o : Out), out[m]? = some o →
      (∀ (m' : ℕ) (o' : Out), out[m']? = some o' → o'.maxCoa ≤ o.maxCoa) →
      ∃ node < 2, (Grid.gridXyz stepGrid)[node]? = some o.xyz ∧
        ∀ sp ∈ Spec.migratedPairs [['P'], ['S']] [['A'], ['B']] exAv,
          |50 + (1 : ℕ) * (100 : ℕ) + m + pyRound (stepG sp.1 sp.2 node * (50 : ℕ))
            - (153 + pyRound (stepG sp.1 sp.2 1 * (50 : ℕ)))| ≤ 2 := by
  obtain ⟨out, -, h, -, -⟩ := stepRuns
    (fun s p t => noise s p t + if |t - (153 + pyRound (stepG s p 1 * (50 : ℕ)))| ≤ 2 then 3 else 0)
  refine ⟨out, h, ?_⟩
  intro m o ho hmax
  have hG : ∀ sp ∈ Spec.migratedPairs [['P'], ['S']] [['A'], ['B']] exAv, ∀ node < 2, 0 ≤ stepG sp.1 sp.2 node := by
    decide +kernel
  have hl : (Spec.migratedPairs [['P'], ['S']] [['A'], ['B']] exAv).length = 3 := by decide +kernel
  refine C141_detect_explains_all _ _ _ _ _ _ _ _ _ stepSetup hG _ _ _ _ _ _ _ _ h 1 (by decide) 153 3 1 4 2 ?_ ?_
    3 (by norm_num) (by norm_num) m o ho hmax
  · refine ⟨?_, ?_, ?_, by norm_num, by norm_num, by norm_num⟩
    · intro sp _
      simp only [sub_self, abs_zero]
      rw [if_pos (by norm_num)]
      linarith [(hnoise sp.1 sp.2 (153 + pyRound (stepG sp.1 sp.2 1 * (50 : ℕ)))).1]
    · intro sp _ t
      have := (hnoise sp.1 sp.2 t).2
      split <;> linarith
    · intro sp _ t ht
      have := (hnoise sp.1 sp.2 t).2
      rw [if_neg (not_le.2 ht)]
      linarith
  · rw [hl]; norm_num

end QM

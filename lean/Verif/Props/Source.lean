import Verif.Props.ComputeStep

/-!
# C116: a source at a grid node is found at that node
-/

namespace QM
open QM.Compute QM.Migrate QM.Pads QM.ComputeStep Finset

/-! ## Specification -/

/-- The onset functions of a source at node `source` with origin time at sample `T` of the archive: the function of
each pair is above the floor, and larger than anywhere else, when a wave leaving the node at `T` arrives. -/
def Spec.SourceAt (pairs : List (Str × Str)) (O : Str → Str → ℤ → ℝ) (delay : Str → Str → ℕ → ℤ) (source : ℕ)
    (T : ℤ) : Prop :=
  ∀ sp ∈ pairs, 1 / 100 < O sp.1 sp.2 (T + delay sp.1 sp.2 source) ∧
    ∀ t, t ≠ T + delay sp.1 sp.2 source → O sp.1 sp.2 t < O sp.1 sp.2 (T + delay sp.1 sp.2 source)

/-- No other node has the traveltimes, in samples, of the node `source` up to one shift for all pairs. -/
def Spec.Resolved (pairs : List (Str × Str)) (delay : Str → Str → ℕ → ℤ) (nNodes source : ℕ) : Prop :=
  ∀ node < nNodes, node ≠ source →
    ∀ shift : ℤ, ∃ sp ∈ pairs, delay sp.1 sp.2 node ≠ delay sp.1 sp.2 source + shift

/-- Among the values reported for the samples of a window, the one for sample `m` is strictly the largest, is the
geometric mean of the values of the onset functions at their arrivals, and has the coordinates of the source. -/
structure Spec.FoundAt (g : Grid.Grid) (pairs : List (Str × Str)) (O : Str → Str → ℤ → ℝ)
    (delay : Str → Str → ℕ → ℤ) (source : ℕ) (T : ℤ) (out : List Out) (m : ℕ) : Prop where
  value : ∃ o, out[m]? = some o ∧ (Grid.gridXyz g)[source]? = some o.xyz ∧
    o.maxCoa = (pairs.map fun sp => O sp.1 sp.2 (T + delay sp.1 sp.2 source)).prod ^ (1 / (pairs.length : ℝ)) ∧
    ∀ m' o', out[m']? = some o' → m' ≠ m → o'.maxCoa < o.maxCoa

/-! ## Proof -/

theorem prod_le_of_le {α : Type} (l : List α) (f h : α → ℝ) (h0 : ∀ x ∈ l, 0 < f x) (hle : ∀ x ∈ l, f x ≤ h x) :
    0 < (l.map f).prod ∧ (l.map f).prod ≤ (l.map h).prod := by
  induction l with
  | nil => simp
  | cons x l ih =>
    obtain ⟨h1, h2⟩ := ih (fun y hy => h0 y (List.mem_cons_of_mem _ hy)) fun y hy => hle y (List.mem_cons_of_mem _ hy)
    have hx := h0 x List.mem_cons_self
    have hx' := hle x List.mem_cons_self
    simp only [List.map_cons, List.prod_cons]
    exact ⟨by positivity, mul_le_mul hx' h2 h1.le (hx.le.trans hx')⟩

theorem prod_lt_of_lt {α : Type} (l : List α) (f h : α → ℝ) (h0 : ∀ x ∈ l, 0 < f x) (hle : ∀ x ∈ l, f x ≤ h x)
    (hlt : ∃ x ∈ l, f x < h x) : (l.map f).prod < (l.map h).prod := by
  induction l with
  | nil => obtain ⟨x, hx, -⟩ := hlt; simp at hx
  | cons x l ih =>
    have h0' := fun y hy => h0 y (List.mem_cons_of_mem x hy)
    have hle' := fun y hy => hle y (List.mem_cons_of_mem x hy)
    obtain ⟨h1, h2⟩ := prod_le_of_le l f h h0' hle'
    have hx := h0 x List.mem_cons_self
    have hx' := hle x List.mem_cons_self
    simp only [List.map_cons, List.prod_cons]
    obtain ⟨y, hy, hlt⟩ := hlt
    rcases List.mem_cons.1 hy with rfl | hy
    · exact mul_lt_mul hlt h2 h1 (hx.le.trans hx')
    · have := ih h0' hle' ⟨y, hy, hlt⟩
      exact mul_lt_mul' hx' this h1.le (hx.trans_le hx')

section
variable {pairs : List (Str × Str)} {O : Str → Str → ℤ → ℝ} {delay : Str → Str → ℕ → ℤ} {source nNodes : ℕ} {T : ℤ}

theorem source_value (hd : ∀ sp ∈ pairs, 0 ≤ delay sp.1 sp.2 source) (hs : Spec.SourceAt pairs O delay source T) :
    Spec.coalescence pairs O delay source T =
      (pairs.map fun sp => O sp.1 sp.2 (T + delay sp.1 sp.2 source)).prod ^ (1 / (pairs.length : ℝ)) := by
  unfold Spec.coalescence
  congr 2
  apply List.map_congr_left
  intro sp hsp
  rw [max_eq_right (hd sp hsp), max_eq_right (hs sp hsp).1.le]

theorem source_larger (hne : pairs ≠ []) (hd : ∀ sp ∈ pairs, ∀ node < nNodes, 0 ≤ delay sp.1 sp.2 node)
    (hsrc : source < nNodes) (hs : Spec.SourceAt pairs O delay source T)
    (hr : Spec.Resolved pairs delay nNodes source) (node : ℕ) (hn : node < nNodes) (t : ℤ)
    (hdiff : node ≠ source ∨ t ≠ T) :
    Spec.coalescence pairs O delay node t < Spec.coalescence pairs O delay source T := by
  have hlen : 0 < pairs.length := List.length_pos_iff.2 hne
  have hmiss : ∃ sp ∈ pairs, t + delay sp.1 sp.2 node ≠ T + delay sp.1 sp.2 source := by
    by_cases hnode : node = source
    · obtain ⟨sp, l, rfl⟩ := List.exists_cons_of_ne_nil hne
      refine ⟨sp, List.mem_cons_self, ?_⟩
      have : t ≠ T := by
        rcases hdiff with h | h
        · exact absurd hnode h
        · exact h
      rw [hnode]; omega
    · obtain ⟨sp, h1, h2⟩ := hr node hn hnode (T - t)
      exact ⟨sp, h1, by omega⟩
  unfold Spec.coalescence
  have hle : ∀ sp ∈ pairs, max (1 / 100) (O sp.1 sp.2 (t + max 0 (delay sp.1 sp.2 node))) ≤
      max (1 / 100) (O sp.1 sp.2 (T + max 0 (delay sp.1 sp.2 source))) := by
    intro sp hsp
    obtain ⟨h1, h2⟩ := hs sp hsp
    rw [max_eq_right (hd sp hsp node hn), max_eq_right (hd sp hsp source hsrc), max_eq_right h1.le]
    apply max_le h1.le
    by_cases h : t + delay sp.1 sp.2 node = T + delay sp.1 sp.2 source
    · rw [h]
    · exact (h2 _ h).le
  have hlt := prod_lt_of_lt pairs
    (fun sp => max (1 / 100) (O sp.1 sp.2 (t + max 0 (delay sp.1 sp.2 node))))
    (fun sp => max (1 / 100) (O sp.1 sp.2 (T + max 0 (delay sp.1 sp.2 source))))
    (fun sp _ => lt_max_of_lt_left (by norm_num)) hle (by
      obtain ⟨sp, hsp, h⟩ := hmiss
      obtain ⟨h1, h2⟩ := hs sp hsp
      refine ⟨sp, hsp, ?_⟩
      rw [max_eq_right (hd sp hsp node hn), max_eq_right (hd sp hsp source hsrc), max_eq_right h1.le]
      exact max_lt h1 (h2 _ h))
  apply Real.rpow_lt_rpow (prod_le_of_le pairs _ _ (fun sp _ => lt_max_of_lt_left (by norm_num)) hle).1.le hlt
  positivity

theorem found_of_values (g : Grid.Grid) (hcount : nNodes = g.count 0 * g.count 1 * g.count 2) (hne : pairs ≠ [])
    (hd : ∀ sp ∈ pairs, ∀ node < nNodes, 0 ≤ delay sp.1 sp.2 node)
    (hsrc : source < nNodes) (hs : Spec.SourceAt pairs O delay source T)
    (hr : Spec.Resolved pairs delay nNodes source) (out : List Out) (n : ℕ) (A : ℤ) (hlen : out.length = n)
    (hout : ∀ m < n, ∃ o, out[m]? = some o ∧
      Spec.ReportsPeak g (fun node => Spec.coalescence pairs O delay node (A + m)) o)
    (m : ℕ) (hm : m < n) (hT : A + m = T) : Spec.FoundAt g pairs O delay source T out m := by
  obtain ⟨o, h1, h2⟩ := hout m hm
  obtain ⟨k, hk, e1, -, e3⟩ := h2.node
  have hks : k = source := by
    by_contra hks
    have h3 := source_larger hne hd hsrc hs hr k (by rw [hcount]; exact hk) (A + m) (Or.inl hks)
    have h4 := h2.largest source (by rw [← hcount]; exact hsrc)
    rw [e1] at h4
    simp only [hT] at h3 h4
    linarith
  subst hks
  refine ⟨o, h1, e3, ?_, ?_⟩
  · rw [e1]
    simp only [hT]
    exact source_value (fun sp hsp => hd sp hsp _ hsrc) hs
  · intro m' o' h3 hne'
    have hm' : m' < n := by
      rw [← hlen]
      exact (List.getElem?_eq_some_iff.1 h3).1
    obtain ⟨o'', h4, h5⟩ := hout m' hm'
    rw [h3] at h4
    cases h4
    obtain ⟨k', hk', e1', -, -⟩ := h5.node
    rw [e1', e1]
    simp only [hT]
    exact source_larger hne hd hsrc hs hr k' (by rw [hcount]; exact hk') _ (Or.inr (by omega))

end

theorem migratedPairs_ne_nil {L : Lut} {g : Grid.Grid} {w : Windows} {ttmax : ℚ} {sr : ℕ} {phases stations : List Str}
    {av : Str → Str → ℕ} {G : Str → Str → ℕ → ℚ} (S : Spec.ScanSetup L g w ttmax sr phases stations av G) :
    Spec.migratedPairs phases stations av ≠ [] := by
  obtain ⟨s, hs, p, hp, h⟩ := S.someAvail
  apply List.ne_nil_of_mem (a := (s, p))
  simp only [Spec.migratedPairs, List.mem_flatMap, List.mem_map, List.mem_filter, decide_eq_true_eq]
  exact ⟨p, hp, s, ⟨hs, h⟩, rfl⟩

/-! ## The property -/

/-- **C116** (detect).  If the onset functions are those of a source at a grid node, and no other node has its
traveltimes up to a shift, then the timestep that covers the origin time reports the node at that sample, with a
coalescence larger than at every other sample of the timestep. -/
theorem C116_detect_finds_source_partial (L : Lut) (g : Grid.Grid) (w : Windows) (ttmax : ℚ) (sr : ℕ)
    (phases stations : List Str) (av : Str → Str → ℕ) (G : Str → Str → ℕ → ℚ)
    (S : Spec.ScanSetup L g w ttmax sr phases stations av G)
    (hG : ∀ sp ∈ Spec.migratedPairs phases stations av, ∀ node < L.nNodes, 0 ≤ G sp.1 sp.2 node)
    (O : Str → Str → ℤ → ℝ) (origin start timestep : ℚ) (a : ℤ) (n i : ℕ) (out : List Out)
    (h : Spec.DetectStep L g w ttmax sr phases stations av O origin start timestep a n i out)
    (source : ℕ) (hsrc : source < L.nNodes) (T : ℤ)
    (hs : Spec.SourceAt (Spec.migratedPairs phases stations av) O (fun s p k => pyRound (G s p k * sr)) source T)
    (hr : Spec.Resolved (Spec.migratedPairs phases stations av) (fun s p k => pyRound (G s p k * sr)) L.nNodes source)
    (m : ℕ) (hm : m < n) (hT : a + i * n + m = T) :
    Spec.FoundAt g (Spec.migratedPairs phases stations av) O (fun s p k => pyRound (G s p k * sr)) source T out m := by
  obtain ⟨cols, onset, sc, sc', h1, h2, h3, h4, h5⟩ := h.run
  obtain ⟨o, e1, e2, e3⟩ := C114_detect_value_partial L g w ttmax sr phases stations av G S origin start timestep a
    h.onGrid n h.whole i _ rfl h.tie _ rfl cols h1 h2 O onset h3 sc sc' h4
  rw [h5] at e1
  cases e1
  refine found_of_values g S.nodes (migratedPairs_ne_nil S) ?_ hsrc hs hr out n (a + i * n) e2 e3 m hm hT
  intro sp hsp node hn
  rw [← pyRound_int 0]
  apply pyRound_mono
  have := hG sp hsp node hn
  push_cast
  positivity

/-- Every other timestep, of any run over the same data, reports smaller values. -/
theorem C116_detect_smaller_elsewhere_partial (L : Lut) (g : Grid.Grid) (w : Windows) (ttmax : ℚ) (sr : ℕ)
    (phases stations : List Str) (av : Str → Str → ℕ) (G : Str → Str → ℕ → ℚ)
    (S : Spec.ScanSetup L g w ttmax sr phases stations av G)
    (hG : ∀ sp ∈ Spec.migratedPairs phases stations av, ∀ node < L.nNodes, 0 ≤ G sp.1 sp.2 node)
    (O : Str → Str → ℤ → ℝ) (origin start timestep : ℚ) (a : ℤ) (n i : ℕ) (out : List Out)
    (h : Spec.DetectStep L g w ttmax sr phases stations av O origin start timestep a n i out)
    (source : ℕ) (hsrc : source < L.nNodes) (T : ℤ)
    (hs : Spec.SourceAt (Spec.migratedPairs phases stations av) O (fun s p k => pyRound (G s p k * sr)) source T)
    (hr : Spec.Resolved (Spec.migratedPairs phases stations av) (fun s p k => pyRound (G s p k * sr)) L.nNodes source)
    (m : ℕ) (hm : m < n) (hT : a + i * n + m ≠ T) :
    ∃ o, out[m]? = some o ∧ o.maxCoa <
      ((Spec.migratedPairs phases stations av).map fun sp => O sp.1 sp.2 (T + pyRound (G sp.1 sp.2 source * sr))).prod ^
        (1 / ((Spec.migratedPairs phases stations av).length : ℝ)) := by
  obtain ⟨cols, onset, sc, sc', h1, h2, h3, h4, h5⟩ := h.run
  obtain ⟨o, e1, e2, e3⟩ := C114_detect_value_partial L g w ttmax sr phases stations av G S origin start timestep a
    h.onGrid n h.whole i _ rfl h.tie _ rfl cols h1 h2 O onset h3 sc sc' h4
  rw [h5] at e1
  cases e1
  have hd : ∀ sp ∈ Spec.migratedPairs phases stations av, ∀ node < L.nNodes, 0 ≤ pyRound (G sp.1 sp.2 node * sr) := by
    intro sp hsp node hn
    rw [← pyRound_int 0]
    apply pyRound_mono
    have := hG sp hsp node hn
    push_cast
    positivity
  obtain ⟨x, q1, q2⟩ := e3 m hm
  obtain ⟨k, hk, r1, -, -⟩ := q2.node
  refine ⟨x, q1, ?_⟩
  have := source_larger (migratedPairs_ne_nil S) hd hsrc hs hr k (by rw [S.nodes]; exact hk) _ (Or.inr hT)
  rw [source_value (fun sp hsp => hd sp hsp _ hsrc) hs] at this
  rw [r1]
  exact this

/-- **C116** (locate).  The same for the window of an event: if the origin time is within two marginal windows of the
trigger time, the peak of the coalescence in the window is at the origin time and at the node of the source. -/
theorem C116_locate_finds_source_partial (L : Lut) (g : Grid.Grid) (w : Windows) (ttmax : ℚ) (sr : ℕ)
    (phases stations : List Str) (av : Str → Str → ℕ) (G : Str → Str → ℕ → ℚ)
    (S : Spec.ScanSetup L g w ttmax sr phases stations av G)
    (hG : ∀ sp ∈ Spec.migratedPairs phases stations av, ∀ node < L.nNodes, 0 ≤ G sp.1 sp.2 node)
    (origin trigger mw : ℚ) (a : ℤ) (htrig : trigger = origin + a / sr) (n : ℕ) (hn : 2 * mw * sr = n)
    (pads : ℚ × ℚ) (hpads : pads = scanPads w ttmax sr (4 * mw)) (htie : ∀ z : ℤ, pads.1 * sr ≠ z + 1 / 2)
    (win : ℚ × ℚ) (hwin : win = locateWindow trigger mw pads)
    (cols : ℕ) (hcols : onsetLength origin sr win.1 win.2 = cols)
    (h32 : (Spec.migratedPairs phases stations av).length * cols ≤ 2 ^ 31)
    (O : Str → Str → ℤ → ℝ) (onset : Str → Str → ℕ → ℝ)
    (hO : Spec.OnsetsOf origin sr win pads ttmax (Spec.migratedPairs phases stations av) O onset)
    (sched : List (ℕ × Op)) (sched' : List (ℕ × FOp))
    (hsch : Spec.Schedules (Spec.migratedPairs phases stations av).length cols L.nNodes
      (time2sample pads.1 sr).toNat (time2sample pads.2 sr).toNat sched sched')
    (source : ℕ) (hsrc : source < L.nNodes) (T : ℤ)
    (hs : Spec.SourceAt (Spec.migratedPairs phases stations av) O (fun s p k => pyRound (G s p k * sr)) source T)
    (hr : Spec.Resolved (Spec.migratedPairs phases stations av) (fun s p k => pyRound (G s p k * sr)) L.nNodes source)
    (m : ℕ) (hm : m < 2 * n + 1) (hT : a - n + m = T) :
    ∃ out, compute L g sr pads phases stations av onset cols sched sched' = .ok out ∧ out.length = 2 * n + 1 ∧
      Spec.FoundAt g (Spec.migratedPairs phases stations av) O (fun s p k => pyRound (G s p k * sr)) source T out
        m := by
  obtain ⟨out, e1, e2, e3⟩ := C114_locate_value_partial L g w ttmax sr phases stations av G S origin trigger mw a
    htrig n hn pads hpads htie win hwin cols hcols h32 O onset hO sched sched' hsch
  refine ⟨out, e1, e2, ?_⟩
  refine found_of_values g S.nodes (migratedPairs_ne_nil S) ?_ hsrc hs hr out (2 * n + 1) (a - n) e2 e3 m hm hT
  intro sp hsp node hn
  rw [← pyRound_int 0]
  apply pyRound_mono
  have := hG sp hsp node hn
  push_cast
  positivity

/-! ## A case that meets the hypotheses -/

/-- Impulses at the arrivals of a source at the second node of `stepGrid` at sample 153. -/
noncomputable def impulses : Str → Str → ℤ → ℝ := fun s p t => if t = 153 + pyRound (stepG s p 1 * (50 : ℕ)) then 1 else 0

theorem impulses_source (pairs : List (Str × Str)) :
    Spec.SourceAt pairs impulses (fun s p k => pyRound (stepG s p k * (50 : ℕ))) 1 153 := by
  intro sp _
  refine ⟨by norm_num [impulses], ?_⟩
  intro t ht
  unfold impulses
  rw [if_neg ht, if_pos rfl]
  norm_num

theorem stepGrid_resolved : Spec.Resolved (Spec.migratedPairs [['P'], ['S']] [['A'], ['B']] exAv)
    (fun s p k => pyRound (stepG s p k * (50 : ℕ))) exLut.nNodes 1 := by
  intro node hn hne shift
  have h2 : node < 2 := hn
  have h0 : node = 0 := by omega
  subst h0
  by_cases h : shift = -50
  · exact ⟨(['B'], ['S']), by decide +kernel, by subst h; decide +kernel⟩
  · refine ⟨(['A'], ['P']), by decide +kernel, ?_⟩
    have e1 : pyRound (stepG ['A'] ['P'] 0 * (50 : ℕ)) = 0 := by decide +kernel
    have e2 : pyRound (stepG ['A'] ['P'] 1 * (50 : ℕ)) = 50 := by decide +kernel
    simp only [e1, e2]
    omega

/-- The second timestep of two seconds finds the source at its second node, at its fourth sample. -/
example : ∃ out, Spec.DetectStep exLut stepGrid stepWindows 4 50 [['P'], ['S']] [['A'], ['B']] exAv impulses 0 1 2 50
      100 1 out ∧
    Spec.FoundAt stepGrid (Spec.migratedPairs [['P'], ['S']] [['A'], ['B']] exAv) impulses
      (fun s p k => pyRound (stepG s p k * (50 : ℕ))) 1 153 out 3 := by
  obtain ⟨out, -, h, -, -⟩ := stepRuns impulses
  refine ⟨out, h, C116_detect_finds_source_partial _ _ _ _ _ _ _ _ _ stepSetup ?_ _ _ _ _ _ _ _ _ h 1 (by decide) 153
    (impulses_source _) stepGrid_resolved 3 (by norm_num) (by norm_num)⟩
  have : ∀ sp ∈ Spec.migratedPairs [['P'], ['S']] [['A'], ['B']] exAv, ∀ node < 2, 0 ≤ stepG sp.1 sp.2 node := by
    decide +kernel
  exact this

/-! ## What is false -/

/-- A timestep can be run whatever the onset functions. -/
theorem detectStep_exists {L : Lut} {g : Grid.Grid} {w : Windows} {ttmax : ℚ} {sr : ℕ} {phases stations : List Str}
    {av : Str → Str → ℕ} {G : Str → Str → ℕ → ℚ} (S : Spec.ScanSetup L g w ttmax sr phases stations av G)
    (O : Str → Str → ℤ → ℝ) (origin start timestep : ℚ) (a : ℤ) (hstart : start = origin + a / sr) (n : ℕ)
    (hn : timestep * sr = n) (htie : ∀ z : ℤ, (scanPads w ttmax sr timestep).1 * sr ≠ z + 1 / 2) (i cols : ℕ)
    (hcols : onsetLength origin sr (detectWindow start timestep sr (scanPads w ttmax sr timestep) i).1
      (detectWindow start timestep sr (scanPads w ttmax sr timestep) i).2 = cols)
    (h32 : (Spec.migratedPairs phases stations av).length * cols ≤ 2 ^ 31) :
    ∃ out, Spec.DetectStep L g w ttmax sr phases stations av O origin start timestep a n i out := by
  have hO : Spec.OnsetsOf origin sr (detectWindow start timestep sr (scanPads w ttmax sr timestep) i)
      (scanPads w ttmax sr timestep) ttmax (Spec.migratedPairs phases stations av) O (fun s p j => O s p
        ((readRange origin sr (detectWindow start timestep sr (scanPads w ttmax sr timestep) i).1
          (detectWindow start timestep sr (scanPads w ttmax sr timestep) i).2).1 + j)) := fun _ _ _ _ _ => rfl
  have hs := And.intro (serial_isInterleaving L.nNodes (nodeProg (V := ℝ) ⟨[], [],
      (time2sample (scanPads w ttmax sr timestep).1 sr).toNat,
      (time2sample (scanPads w ttmax sr timestep).2 sr).toNat,
      cols - (time2sample (scanPads w ttmax sr timestep).1 sr).toNat -
      (time2sample (scanPads w ttmax sr timestep).2 sr).toNat,
      (Spec.migratedPairs phases stations av).length, (Spec.migratedPairs phases stations av).length, L.nNodes⟩))
    (serial_isInterleaving (cols - (time2sample (scanPads w ttmax sr timestep).1 sr).toNat -
      (time2sample (scanPads w ttmax sr timestep).2 sr).toNat) (sampleProg L.nNodes))
  obtain ⟨out, h7, -⟩ := C114_detect_value_partial L g w ttmax sr phases stations av G S origin start
    timestep a hstart n hn i _ rfl htie _ rfl cols hcols h32 O _ hO _ _ hs
  exact ⟨out, hstart, hn, htie, cols, _, _, _, hcols, h32, hO, hs, h7⟩

/-- Traveltimes from two nodes that differ, and differ differently, by fractions of a sample at 50 Hz. -/
def closeLut : Lut where
  stations := [['A'], ['B']]
  phases := [['P']]
  nNodes := 2
  table := fun s =>
    if s = ['A'] then some (fun p => if p = ['P'] then some (fun n => 1 + n / 250) else none)
    else if s = ['B'] then some (fun p => if p = ['P'] then some (fun n => 1 + n / 500) else none)
    else none
def closeG : Str → Str → ℕ → ℚ := fun s _ n => if s = ['A'] then 1 + n / 250 else 1 + n / 500
def allThere : Str → Str → ℕ := fun _ _ => 1

theorem closeSetup : Spec.ScanSetup closeLut stepGrid stepWindows (1 + 1 / 250) 50 [['P']] [['A'], ['B']] allThere
    closeG where
  nodes := rfl
  pos := by decide
  win := ⟨by norm_num [stepWindows], by simp [stepWindows]⟩
  longest := by decide +kernel
  ttpos := by norm_num
  rate := by norm_num
  phNodup := by decide
  stNodup := by decide
  phName := by decide
  stName := by decide
  phLut := by decide
  stLut := by decide
  avail := fun s p => le_refl _
  someAvail := ⟨['A'], by decide, ['P'], by decide, by decide⟩
  table := by
    intro s hs p hp h1
    simp only [List.mem_cons, List.not_mem_nil, or_false] at hs hp
    subst hp
    rcases hs with rfl | rfl <;> rfl

/-- Onset functions of a source at the second of the two nodes. -/
noncomputable def closeImpulses : Str → Str → ℤ → ℝ := fun _ _ t => if t = 203 then 1 else 0

/-- **C116**, without the condition that the node is resolved: the onset functions peak at the arrivals from the second
node, and its traveltimes are not those of the first up to a shift, but since traveltimes are rounded to samples the
first node is reported. -/
theorem C116_violated_rounding : ∃ out,
    Spec.DetectStep closeLut stepGrid stepWindows (1 + 1 / 250) 50 [['P']] [['A'], ['B']] allThere closeImpulses
      0 1 2 50 100 1 out ∧
    Spec.SourceAt (Spec.migratedPairs [['P']] [['A'], ['B']] allThere) closeImpulses
      (fun s p k => pyRound (closeG s p k * (50 : ℕ))) 1 153 ∧
    (∀ shift : ℚ, ∃ sp ∈ Spec.migratedPairs [['P']] [['A'], ['B']] allThere,
      closeG sp.1 sp.2 0 ≠ closeG sp.1 sp.2 1 + shift) ∧
    ∃ o, out[3]? = some o ∧ (Grid.gridXyz stepGrid)[0]? = some o.xyz ∧
      (Grid.gridXyz stepGrid)[1]? ≠ some o.xyz := by
  obtain ⟨out, h⟩ := detectStep_exists closeSetup closeImpulses 0 1 2 50 (by norm_num) 100 (by norm_num)
    (fun z => C22_usual_rates stepWindows stepSetup.win (1 + 1 / 250) (by norm_num) 50 (by norm_num)
      (Or.inl ⟨20, rfl⟩) 2 (by norm_num) z) 1 480 (by decide +kernel) (by decide +kernel)
  have hT : (50 : ℤ) + (1 : ℕ) * (100 : ℕ) + (3 : ℕ) = 153 := by norm_num
  have hp : Spec.migratedPairs [['P']] [['A'], ['B']] allThere = [(['A'], ['P']), (['B'], ['P'])] := by decide +kernel
  have d : ∀ sp ∈ [((['A'], ['P']) : Str × Str), (['B'], ['P'])], ∀ k < 2, pyRound (closeG sp.1 sp.2 k * (50 : ℕ)) = 50 := by
    decide +kernel
  refine ⟨out, h, ?_, ?_, ?_⟩
  · rw [hp]
    intro sp hsp
    simp only [d sp hsp 1 (by norm_num)]
    refine ⟨by norm_num [closeImpulses], ?_⟩
    intro t ht
    unfold closeImpulses
    rw [if_neg (by omega), if_pos (by norm_num)]
    norm_num
  · intro shift
    rw [hp]
    by_cases hs : shift = -(1 / 250)
    · exact ⟨(['B'], ['P']), by simp, by subst hs; decide +kernel⟩
    · refine ⟨(['A'], ['P']), by simp, ?_⟩
      intro hc
      apply hs
      norm_num [closeG] at hc
      linarith
  · obtain ⟨cols, onset, sc, sc', h1, h2, h3, h4, h5⟩ := h.run
    obtain ⟨o, e1, e2, e3⟩ := C114_detect_value_partial _ _ _ _ _ _ _ _ _ closeSetup 0 1 2 50
      h.onGrid 100 h.whole 1 _ rfl h.tie _ rfl cols h1 h2 closeImpulses onset h3 sc sc' h4
    rw [h5] at e1
    cases e1
    obtain ⟨x, q1, q2⟩ := e3 3 (by norm_num)
    obtain ⟨k, hk, r1, r2, r3⟩ := q2.node
    have hk2 : k < 2 := hk
    have hcoa : ∀ k < 2, Spec.coalescence [(['A'], ['P']), (['B'], ['P'])] closeImpulses
        (fun s p node => pyRound (closeG s p node * (50 : ℕ))) k (50 + (1 : ℕ) * (100 : ℕ) + (3 : ℕ)) =
        Spec.coalescence [(['A'], ['P']), (['B'], ['P'])] closeImpulses (fun _ _ _ => 50) 0 (50 + (1 : ℕ) * (100 : ℕ) + (3 : ℕ)) := by
      intro k hk
      unfold Spec.coalescence
      congr 2
      apply List.map_congr_left
      intro sp hsp
      simp only [d sp hsp k hk]
    have h0 : k = 0 := by
      by_contra hne
      have := r2 0 (by omega)
      simp only [hp] at this
      rw [hcoa 0 (by norm_num), hcoa k hk2] at this
      exact lt_irrefl _ this
    subst h0
    refine ⟨x, q1, r3, ?_⟩
    rw [← r3]
    decide +kernel

end QM

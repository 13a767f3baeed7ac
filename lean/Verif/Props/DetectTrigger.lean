import Verif.Model.DetectTrigger
import Verif.Props.DetectRuns
import Verif.Props.Isolated
import Verif.Lemmas.Waveforms

/-!
# From coalescence to triggered events (C113)
-/

namespace QM

open QM.Trigger QM.Spec QM.DetectRuns QM.DetectTrigger QM.ScanMseed QM.Detect

/-! ## Specification -/

/-- The number of timesteps of a call. -/
def Spec.steps (k : Call) : ℕ := ⌈(adjustedEnd k.cfg k.stop - k.start) / k.cfg.timestep⌉.toNat

/-- The samples of one timestep, with their times: those computed, or zeros. -/
def Spec.stepComputed (k : Call) (i : ℕ) : List (ℚ × Sample) :=
  (match k.outcome (window k.cfg k.start i) with
    | .ok data _ => data
    | _ => List.replicate ⌊k.cfg.timestep * k.cfg.scanRate⌋.toNat ⟨0, 0, 0, 0, 0⟩).zipIdx.map
    fun p : Sample × ℕ => (k.start + k.cfg.timestep * i + (p.2 : ℚ) / k.cfg.scanRate, p.1)

/-- The coalescence of all timesteps of a call. -/
def Spec.computed (k : Call) : List (ℚ × Sample) :=
  (List.range (Spec.steps k)).flatMap (Spec.stepComputed k)

/-- The value that is compared with the threshold. -/
def Spec.level (norm : Bool) (s : Sample) : ℚ := if norm then s.coaN else s.coa

/-- Between `u` and `v` the coalescence is above `t`, elsewhere within `gap` below it, each by more than what is
lost when it is stored; the sample at `τ` is larger than the others of the burst by more than that. -/
structure Spec.ClearBurst (norm : Bool) (t gap : ℚ) (S : List (ℚ × Sample)) (u v τ : ℚ) (q : Sample) :
    Prop where
  mem : (τ, q) ∈ S
  lo : u ≤ τ
  hi : τ ≤ v
  storable : q.coa ≤ 21474
  threshold : t + 1 / 200000 ≤ 21474
  above : ∀ p ∈ S, u ≤ p.1 → p.1 ≤ v → t + 1 / 200000 ≤ Spec.level norm p.2
  largest : ∀ p ∈ S, u ≤ p.1 → p.1 ≤ v → p.1 ≠ τ → p.2.coa + 1 / 100000 < q.coa
  after : ∀ p ∈ S, v < p.1 → t - 1 / 200000 ≤ Spec.level norm p.2 →
    v + gap < p.1 ∧ ∃ b ∈ S, v < b.1 ∧ b.1 < p.1 ∧ Spec.level norm b.2 < t - 1 / 200000
  before : ∀ p ∈ S, p.1 < u → t - 1 / 200000 ≤ Spec.level norm p.2 →
    p.1 + gap < u ∧ ∃ b ∈ S, p.1 < b.1 ∧ b.1 < u ∧ Spec.level norm b.2 < t - 1 / 200000

/-- Inside the box, by more than what is lost when it is stored. -/
def Spec.WellInside (ucf : ℚ) (region : Option Region) (q : Sample) : Prop :=
  ∀ r, region = some r →
    (r.xmin + 1 / 2000000 ≤ q.x ∧ q.x ≤ r.xmax - 1 / 2000000) ∧
    (r.ymin + 1 / 2000000 ≤ q.y ∧ q.y ≤ r.ymax - 1 / 2000000) ∧
    (r.zmin + 1 / (2000 * ucf) ≤ q.z ∧ q.z ≤ r.zmax - 1 / (2000 * ucf))

/-! ## Reading -/

/-- A run depends on what is read for its own batches only. -/
theorem runBatches_congr (cfg : Trigger.Cfg) (m : Method) (smooth : List Row → List Row)
    (region : Option Region) (read read' : ℚ → ℚ → Option ScanData) (bs : List (ℚ × ℚ))
    (h : ∀ b ∈ bs, read b.1 b.2 = read' b.1 b.2) :
    runBatches cfg m smooth region read bs = runBatches cfg m smooth region read' bs := by
  induction bs with
  | nil => rfl
  | cons b bs ih =>
    unfold runBatches
    rw [h b List.mem_cons_self, ih (fun c hc => h c (List.mem_cons_of_mem _ hc))]

theorem chain_start {bs : List (ℚ × ℚ)} (hc : bs.IsChain (fun b c => b.2 = c.1)) {s : ℚ}
    (hs : ∀ b ∈ bs.head?, b.1 = s) : ∀ b ∈ bs, b.1 = s ∨ ∃ c ∈ bs, c.2 = b.1 := by
  induction bs generalizing s with
  | nil => simp
  | cons b bs ih =>
    intro c hcm
    rcases List.mem_cons.mp hcm with rfl | hcm
    · exact Or.inl (hs c rfl)
    · right
      cases bs with
      | nil => simp at hcm
      | cons d bs =>
        rw [List.isChain_cons_cons] at hc
        rcases ih hc.2 (s := b.2) (fun x hx => by
          rw [List.head?_cons, Option.mem_some_iff] at hx; rw [← hx]; exact hc.1.symm) c hcm with h | ⟨x, hx, h⟩
        · exact ⟨b, by simp, h.symm⟩
        · exact ⟨x, List.mem_cons_of_mem _ hx, h⟩

/-- The batches of a period on the grid are on the grid. -/
theorem batches_on_grid {sr : ℕ} (hsr : 0 < sr) {s e : ℚ} {bs : List (ℚ × ℚ)}
    (hbs : IsDayPartition s e bs) (hs : ∃ i : ℤ, s = i / (sr : ℚ)) (he : ∃ i : ℤ, e = i / (sr : ℚ)) :
    ∀ b ∈ bs, (∃ i : ℤ, b.1 = i / (sr : ℚ)) ∧ ∃ i : ℤ, b.2 = i / (sr : ℚ) := by
  have hsr' : (sr : ℚ) ≠ 0 := by exact_mod_cast hsr.ne'
  have h2 : ∀ b ∈ bs, ∃ i : ℤ, b.2 = i / (sr : ℚ) := by
    intro b hb
    rcases hbs.cut_at_midnight b hb with h | ⟨d, h⟩
    · rw [h]; exact he
    · exact ⟨86400 * d * sr, by rw [h]; push_cast; field_simp⟩
  intro b hb
  refine ⟨?_, h2 b hb⟩
  rcases chain_start hbs.consecutive hbs.first b hb with h | ⟨c, hc, h⟩
  · rw [h]; exact hs
  · rw [← h]; exact h2 c hc

/-! ## The scan of a call -/

/-- The samples as they are read back. -/
def storedRow (ucf : ℚ) (p : ℚ × Sample) : Row := rowAt ucf (p.1, encode ucf p.2)

theorem steps_clean {k : Call} (hclean : Spec.Clean k) (halive : k.killed = .never) :
    Spec.stepsDone k = List.range (Spec.steps k) := by
  unfold Spec.stepsDone Spec.steps
  simp only [halive]
  rw [List.takeWhile_eq_self_iff]
  intro i hi
  have := hclean i (List.mem_range.mp hi)
  cases hw : k.outcome (window k.cfg k.start i) <;> simp_all

theorem stepSamples_computed (k : Call) (i : ℕ) :
    Spec.stepSamples k i = (Spec.stepComputed k i).map fun p => (p.1, encode k.cfg.ucf p.2) := by
  unfold Spec.stepSamples Spec.stepComputed
  rw [List.map_map]
  have hz : ∀ (l : List Sample), ((l.map (encode k.cfg.ucf)).zipIdx.map
      fun p : Enc × ℕ => (k.start + k.cfg.timestep * i + (p.2 : ℚ) / k.cfg.scanRate, p.1)) =
      l.zipIdx.map ((fun p : ℚ × Sample => (p.1, encode k.cfg.ucf p.2)) ∘
        fun p : Sample × ℕ => (k.start + k.cfg.timestep * i + (p.2 : ℚ) / k.cfg.scanRate, p.1)) := by
    intro l
    rw [List.zipIdx_map, List.map_map]
    rfl
  rw [← hz]
  cases k.outcome (window k.cfg k.start i) <;> simp

theorem scanOf_computed {k : Call} (hclean : Spec.Clean k) (halive : k.killed = .never) :
    Spec.scanOf k = (Spec.computed k).map fun p => (p.1, encode k.cfg.ucf p.2) := by
  unfold Spec.scanOf Spec.computed
  rw [steps_clean hclean halive, List.map_flatMap]
  congr 1
  funext i
  exact stepSamples_computed k i

/-- The directory of a new run. -/
def Spec.newDir : Dir := ⟨fun _ => none, fun _ => none⟩

/-- The scan is one sample every `1 / sr` seconds from the start to the end of the last timestep. -/
theorem scan_samples {sr : ℕ} {k : Call} (h : Spec.GoodCall sr k) (hclean : Spec.Clean k)
    (halive : k.killed = .never) :
    ∃ (k0 : ℤ) (all : List Enc), k.start = k0 / (sr : ℚ) ∧
      (all.length : ℚ) / sr = k.cfg.timestep * (Spec.steps k : ℚ) ∧
      Spec.scanOf k = (⟨(k0 : ℚ) * (1 / (sr : ℚ)), all⟩ : Trace Enc).samples (1 / (sr : ℚ)) := by
  obtain ⟨k0, ht, -, -, -, hall⟩ := good_expected (good_doneOf h) (fun d => (d % 2).toNat)
    (fun d => by omega) false (fun _ => none)
  refine ⟨k0, ((doneOf k).blocks.map (encBlock k.cfg.ucf)).flatMap Trace.vals, ?_, ?_, ?_⟩
  · rw [ht]; ring
  · have := vals_length h
    rw [steps_clean hclean halive, List.length_range] at this
    rw [← this]; ring
  · rw [← appended_doneOf h]; exact hall

/-- After a complete call into a new directory, each window on the grid gives the samples of the call in it. -/
theorem read_call {sr : ℕ} {k : Call} (h : Spec.GoodCall sr k) (hclean : Spec.Clean k)
    (halive : k.killed = .never) (jul : ℤ → ℕ) (hjul : ∀ d, jul d ≠ jul (d + 1))
    (order : Availability.Table → List ℤ) :
    ∃ dir, call jul order Spec.newDir k = some dir ∧
      ∀ (a b pad : ℚ) (i j : ℤ), a - pad = i / (sr : ℚ) → b + pad = j / (sr : ℚ) → i ≤ j →
        readScanMseed (1 / (sr : ℚ)) dir.scan a b pad =
          if (Spec.scanOf k).filter (fun p => decide (a - pad ≤ p.1 ∧ p.1 ≤ b + pad)) = [] then none
          else some ((Spec.scanOf k).filter (fun p => decide (a - pad ≤ p.1 ∧ p.1 ≤ b + pad))) := by
  have hg := good_doneOf h
  have hδ : k.cfg.delta = 1 / (sr : ℚ) := by unfold Detect.Cfg.delta; rw [h.rate]
  have hdone : Spec.ScanDone k := ⟨hclean, fun n => by rw [halive]; simp⟩
  have hc := (doneOf_completed k).mpr hdone
  have hne : (doneOf k).blocks.map (encBlock k.cfg.ucf) ≠ [] := by
    have hp := steps_pos h
    rw [doneOf_blocks, steps_clean hclean halive, Ne, List.map_eq_nil_iff, List.map_eq_nil_iff,
      List.range_eq_nil]
    exact hp.ne'
  have hread := fun (a b pad : ℚ) (i j : ℤ) hi hj hij =>
    C06_read_after_detect sr k.start _ hg hne jul hjul k.cw a b pad i j hi hj hij
  obtain ⟨st, hst, -⟩ := hread 0 0 0 0 0 (by simp) (by simp) le_rfl
  have hfiles : detectFiles k.cfg jul k.cw (fun _ => none) (doneOf k) = some st := by
    unfold detectFiles
    rw [hδ]
    cases happ : appendAll (1 / (sr : ℚ)) jul k.cw (ScanMseed.init (fun _ => none))
        ((doneOf k).blocks.map (encBlock k.cfg.ucf)) with
    | none => rw [happ] at hst; simp at hst
    | some s =>
      rw [happ] at hst
      simp only [hc, if_true]
      exact hst
  have hcall : ∃ dir, call jul order Spec.newDir k = some dir ∧ dir.scan = st.files := by
    unfold call
    rw [detect_good h]
    have : cut (loop k.cfg k.start k.outcome
        ⌈(adjustedEnd k.cfg k.stop - k.start) / k.cfg.timestep⌉.toNat 0) k.killed = doneOf k := rfl
    simp only [this, Spec.newDir, hfiles]
    split <;> exact ⟨_, rfl, rfl⟩
  obtain ⟨dir, hdir, hscan⟩ := hcall
  refine ⟨dir, hdir, ?_⟩
  intro a b pad i j hi hj hij
  obtain ⟨st', hst', hr⟩ := hread a b pad i j hi hj hij
  rw [hst, Option.some.injEq] at hst'
  subst hst'
  rw [hscan, hr, appended_doneOf h]

/-! ## Stored values -/

theorem stored_level (ucf : ℚ) (norm : Bool) (p : ℚ × Sample) (h1 : 0 ≤ p.2.coa) (h2 : 0 ≤ p.2.coaN) :
    |trigValue norm (storedRow ucf p) - min (Spec.level norm p.2) 21474| ≤ 1 / 200000 := by
  obtain ⟨⟨-, -, h3⟩, ⟨-, -, h4⟩⟩ := C05_coalescence_never_overflows ucf p.2 h1 h2
  unfold trigValue Spec.level storedRow rowAt
  cases norm
  · exact h3
  · exact h4

theorem stored_coa (ucf : ℚ) (p : ℚ × Sample) (h1 : 0 ≤ p.2.coa) (h2 : 0 ≤ p.2.coaN) :
    |(storedRow ucf p).coa - min p.2.coa 21474| ≤ 1 / 200000 :=
  (C05_coalescence_never_overflows ucf p.2 h1 h2).1.2.2

/-- A clear burst is an isolated burst of what is stored. -/
theorem clear_isolated {norm : Bool} {t gap : ℚ} {S : List (ℚ × Sample)} {u v τ : ℚ} {q : Sample}
    (hS : S.Pairwise (fun p q => p.1 < q.1)) (hpos : ∀ p ∈ S, 0 ≤ p.2.coa ∧ 0 ≤ p.2.coaN) (ucf : ℚ)
    (hb : Spec.ClearBurst norm t gap S u v τ q) :
    Spec.IsolatedBurst norm t gap (S.map (storedRow ucf)) u v (storedRow ucf (τ, q)) := by
  have hl := fun p hp => abs_le.mp (stored_level ucf norm p (hpos p hp).1 (hpos p hp).2)
  have hco := fun p hp => abs_le.mp (stored_coa ucf p (hpos p hp).1 (hpos p hp).2)
  have hdt : ∀ p, (storedRow ucf p).dt = p.1 := fun _ => rfl
  have hbig : ∀ p ∈ S, u ≤ p.1 → p.1 ≤ v → p.1 ≠ τ →
      (storedRow ucf p).coa < (storedRow ucf (τ, q)).coa := by
    intro p hp h1 h2 h3
    have h4 := hb.largest p hp h1 h2 h3
    have h5 := hco p hp
    have h6 := hco _ hb.mem
    have h7 : min q.coa 21474 = q.coa := min_eq_left hb.storable
    have h8 : min p.2.coa 21474 ≤ p.2.coa := min_le_left _ _
    simp only at h6
    rw [h7] at h6
    linarith [h5.2, h6.1]
  have hbelow : ∀ p ∈ S, Spec.level norm p.2 < t - 1 / 200000 → trigValue norm (storedRow ucf p) < t := by
    intro p hp h1
    have h2 := hl p hp
    have h3 : min (Spec.level norm p.2) 21474 ≤ Spec.level norm p.2 := min_le_left _ _
    linarith [h2.2]
  have habove : ∀ p ∈ S, t ≤ trigValue norm (storedRow ucf p) → t - 1 / 200000 ≤ Spec.level norm p.2 := by
    intro p hp h1
    by_contra hn
    push Not at hn
    linarith [hbelow p hp hn]
  have huniq : ∀ p ∈ S, p.1 = τ → p = (τ, q) := by
    intro p hp h
    rcases pairwise_or hS hp hb.mem with h' | h' | h'
    · exact h'
    · simp only at h'; linarith
    · simp only at h'; linarith
  refine ⟨List.mem_map.mpr ⟨_, hb.mem, rfl⟩, hb.lo, hb.hi, ?_, ?_, ?_, ?_, ?_⟩
  · intro r hr h1 h2
    obtain ⟨p, hp, rfl⟩ := List.mem_map.mp hr
    have h3 := hb.above p hp h1 h2
    have h4 : t + 1 / 200000 ≤ min (Spec.level norm p.2) 21474 := le_min h3 hb.threshold
    linarith [(hl p hp).1]
  · intro r hr h1 h2
    obtain ⟨p, hp, rfl⟩ := List.mem_map.mp hr
    by_cases h3 : p.1 = τ
    · rw [huniq p hp h3]
    · exact le_of_lt (hbig p hp h1 h2 h3)
  · intro r hr h1 h2
    obtain ⟨p, hp, rfl⟩ := List.mem_map.mp hr
    have h3 : p.1 < τ := h2
    exact hbig p hp h1 (by linarith [hb.hi]) h3.ne
  · intro r hr h1 h2
    obtain ⟨p, hp, rfl⟩ := List.mem_map.mp hr
    obtain ⟨h3, b, hbm, h4, h5, h6⟩ := hb.after p hp h1 (habove p hp h2)
    exact ⟨h3, _, List.mem_map.mpr ⟨b, hbm, rfl⟩, h4, h5, hbelow b hbm h6⟩
  · intro r hr h1 h2
    obtain ⟨p, hp, rfl⟩ := List.mem_map.mp hr
    obtain ⟨h3, b, hbm, h4, h5, h6⟩ := hb.before p hp h1 (habove p hp h2)
    exact ⟨h3, _, List.mem_map.mpr ⟨b, hbm, rfl⟩, h4, h5, hbelow b hbm h6⟩

/-- What the batches of a trigger run get from the files of a detect call: the stored samples of their padded
windows. -/
theorem detect_read {sr : ℕ} {k : Call} (h : Spec.GoodCall sr k) (hclean : Spec.Clean k)
    (halive : k.killed = .never) (jul : ℤ → ℕ) (hjul : ∀ d, jul d ≠ jul (d + 1))
    (order : Availability.Table → List ℤ) (cfg : Trigger.Cfg) (m : Method) (sm : List Row → List Row) (region : Option Region)
    (pad s e : ℚ)
    (hpad : ∃ i : ℕ, pad = i / (sr : ℚ)) (hs : ∃ i : ℤ, s = i / (sr : ℚ)) (he : ∃ i : ℤ, e = i / (sr : ℚ))
    (hfrom : k.start ≤ s) (hto : e ≤ k.start + k.cfg.timestep * (Spec.steps k : ℚ)) (hse : s ≤ e) :
    ∃ (dir : Dir) (read' : ℚ → ℚ → Option ScanData), DetectRuns.call jul order Spec.newDir k = some dir ∧
      trigger cfg m sm region (readBatch k.cfg.scanRate k.cfg.ucf pad dir.scan) s e =
        trigger cfg m sm region read' s e ∧
      (trigger cfg m sm region read' s e).2 = none ∧
      Spec.ReadsFrom ((Spec.computed k).map (storedRow k.cfg.ucf)) pad read' ∧
      (∀ a b sd, read' a b = some sd → sd.delta = 1 / (sr : ℚ)) ∧
      ((Spec.computed k).map (storedRow k.cfg.ucf)).Pairwise (fun r s => r.dt < s.dt) ∧
      (Spec.computed k).Pairwise (fun p q => p.1 < q.1) ∧
      (∀ r ∈ (Spec.computed k).map (storedRow k.cfg.ucf), ∃ n : ℤ, r.dt = n * (1 / (sr : ℚ))) ∧
      (∀ a b sd, read' a b = some sd → sd.sr = sr) ∧
      ∀ (i : ℕ) (r : Row), ((Spec.computed k).map (storedRow k.cfg.ucf))[i]? = some r →
        r.dt = k.start + i * (1 / (sr : ℚ)) := by
  have hsr := h.rate_pos
  have hsr' : (0 : ℚ) < sr := by exact_mod_cast hsr
  obtain ⟨k0, all, hk0, hlen, hscan⟩ := scan_samples h hclean halive
  obtain ⟨dir, hdir, hread⟩ := read_call h hclean halive jul hjul order
  have hbs := batches_partition s e hse
  have hgridb := batches_on_grid hsr hbs hs he
  -- samples as stored
  set D : List Row := (Spec.scanOf k).map (rowAt k.cfg.ucf) with hDdef
  have hDc : D = (Spec.computed k).map (storedRow k.cfg.ucf) := by
    rw [hDdef, scanOf_computed hclean halive, List.map_map]
    rfl
  have hSsort : (Spec.scanOf k).Pairwise (fun p q => p.1 < q.1) := by
    rw [hscan]
    exact samples_pairwise_lt (by positivity) _
  have hDsort : D.Pairwise (fun r s => r.dt < s.dt) := by
    rw [hDdef, List.pairwise_map]
    exact hSsort
  have hCsort : (Spec.computed k).Pairwise (fun p q => p.1 < q.1) := by
    rw [scanOf_computed hclean halive, List.pairwise_map] at hSsort
    exact hSsort
  have hgrid : ∀ r ∈ D, ∃ n : ℤ, r.dt = n * (1 / (sr : ℚ)) := by
    intro r hr
    obtain ⟨p, hp, rfl⟩ := List.mem_map.mp hr
    rw [hscan, Waveforms.mem_samples_iff] at hp
    obtain ⟨i, -, hi⟩ := hp
    refine ⟨k0 + i, ?_⟩
    change p.1 = _
    rw [hi]; push_cast; ring
  -- what a batch reads, in terms of the stored samples
  set read' : ℚ → ℚ → Option ScanData := fun a b =>
    if D.filter (fun r => decide (a - pad ≤ r.dt ∧ r.dt ≤ b + pad)) = [] then none
    else some ⟨D.filter (fun r => decide (a - pad ≤ r.dt ∧ r.dt ≤ b + pad)), 1 / (sr : ℚ), sr⟩
    with hread'
  obtain ⟨pi, hpi⟩ := hpad
  have hagree : ∀ b ∈ batches s e, readBatch k.cfg.scanRate k.cfg.ucf pad dir.scan b.1 b.2 = read' b.1 b.2 := by
    intro b hbm
    obtain ⟨⟨i, hi⟩, ⟨j, hj⟩⟩ := hgridb b hbm
    have hlt := hbs.nonempty b hbm
    have hij : i - (pi : ℤ) ≤ j + (pi : ℤ) := by
      rw [hi, hj, div_lt_div_iff_of_pos_right hsr'] at hlt
      have : i < j := by exact_mod_cast hlt
      omega
    have := hread b.1 b.2 pad (i - pi) (j + pi) (by rw [hi, hpi]; push_cast; ring)
      (by rw [hj, hpi]; push_cast; ring) hij
    unfold readBatch
    rw [h.rate, this, hread']
    have hf : D.filter (fun r => decide (b.1 - pad ≤ r.dt ∧ r.dt ≤ b.2 + pad)) =
        ((Spec.scanOf k).filter (fun p => decide (b.1 - pad ≤ p.1 ∧ p.1 ≤ b.2 + pad))).map
          (rowAt k.cfg.ucf) := by
      rw [hDdef, List.filter_map]; rfl
    simp only [hf, List.map_eq_nil_iff]
    split <;> rfl
  have htrig : trigger cfg m sm region (readBatch k.cfg.scanRate k.cfg.ucf pad dir.scan) s e =
      trigger cfg m sm region read' s e := by
    unfold trigger
    rw [if_neg (not_lt.mpr hse), if_neg (not_lt.mpr hse), runBatches_congr _ _ _ _ _ _ _ hagree]
  have hreads : Spec.ReadsFrom D pad read' := by
    intro a b sd hsd
    simp only [hread'] at hsd
    split at hsd
    · simp at hsd
    · rw [Option.some.injEq] at hsd
      rw [← hsd]
      exact ⟨rfl, by positivity⟩
  have hpad0 : 0 ≤ pad := by rw [hpi]; positivity
  -- every batch has data
  have hok : (trigger cfg m sm region read' s e).2 = none := by
    unfold trigger
    rw [if_neg (not_lt.mpr hse)]
    apply (runBatches_prefix cfg m sm region read' (batches s e)).2.2.1.mpr
    intro b hbm
    obtain ⟨⟨i, hi⟩, -⟩ := hgridb b hbm
    have hlt := hbs.nonempty b hbm
    have hin := hbs.inside b hbm
    have hge : (k0 : ℚ) ≤ i := by
      have : k.start ≤ b.1 := by linarith [hin.1]
      rw [hk0, hi] at this
      exact (div_le_div_iff_of_pos_right hsr').mp this
    have hge' : k0 ≤ i := by exact_mod_cast hge
    have hlt' : (i : ℚ) < k0 + all.length := by
      have : b.1 < k.start + k.cfg.timestep * (Spec.steps k : ℚ) := by linarith [hin.2]
      rw [← hlen, hk0, hi, ← add_div] at this
      exact (div_lt_div_iff_of_pos_right hsr').mp this
    have hlt'' : i < k0 + all.length := by exact_mod_cast hlt'
    have hidx : (i - k0).toNat < all.length := by omega
    have hmem : (b.1, all[(i - k0).toNat]) ∈ Spec.scanOf k := by
      rw [hscan, Waveforms.mem_samples_iff]
      refine ⟨(i - k0).toNat, by simp [hidx], ?_⟩
      simp only
      have : (((i - k0).toNat : ℕ) : ℚ) = (i : ℚ) - k0 := by
        have h3 : (((i - k0).toNat : ℕ) : ℤ) = i - k0 := by omega
        have h4 : ((((i - k0).toNat : ℕ) : ℤ) : ℚ) = ((i - k0 : ℤ) : ℚ) := by rw [h3]
        push_cast at h4
        exact_mod_cast h4
      rw [this, hi]; ring
    simp only [hread']
    rw [if_neg]
    · rfl
    · intro hnil
      have : rowAt k.cfg.ucf (b.1, all[(i - k0).toNat]) ∈
          D.filter (fun r => decide (b.1 - pad ≤ r.dt ∧ r.dt ≤ b.2 + pad)) := by
        rw [List.mem_filter, decide_eq_true_eq]
        refine ⟨List.mem_map.mpr ⟨_, hmem, rfl⟩, ?_⟩
        change b.1 - pad ≤ b.1 ∧ b.1 ≤ b.2 + pad
        constructor <;> linarith
      rw [hnil] at this
      simp at this
  refine ⟨dir, read', hdir, htrig, hok, by rw [← hDc]; exact hreads, ?_, by rw [← hDc]; exact hDsort, hCsort,
    by rw [← hDc]; exact hgrid, ?_, ?_⟩
  · intro a b sd hsd
    simp only [hread'] at hsd
    split at hsd
    · simp at hsd
    · rw [Option.some.injEq] at hsd
      rw [← hsd]
  · intro a b sd hsd
    simp only [hread'] at hsd
    split at hsd
    · simp at hsd
    · rw [Option.some.injEq] at hsd
      rw [← hsd]
  · intro i r hr
    rw [← hDc, hDdef, hscan] at hr
    simp only [Trace.samples, List.map_map, List.getElem?_map, List.getElem?_zipIdx,
      Option.map_eq_some_iff] at hr
    obtain ⟨y, ⟨x, -, rfl⟩, rfl⟩ := hr
    simp [rowAt, hk0, div_eq_mul_inv]

/-! ## The property -/

/-- **C113** (partial).  `detect` into a new run directory, then `trigger` with a static threshold over a
part of the period scanned: every clear, isolated burst of the computed coalescence whose largest
sample is in the period and inside the region is reported by exactly one event, at the time of that
sample and with its value and location to the precision of the files.  Missing: other
thresholds, smoothing, times off the sampling grid, and detect calls that end early. -/
theorem C113_detect_then_trigger_partial (sr : ℕ) (k : Call) (h : Spec.GoodCall sr k)
    (hclean : Spec.Clean k) (halive : k.killed = .never) (hucf : 0 < k.cfg.ucf)
    (hpos : ∀ p ∈ Spec.computed k, 0 ≤ p.2.coa ∧ 0 ≤ p.2.coaN) (jul : ℤ → ℕ)
    (hjul : ∀ d, jul d ≠ jul (d + 1)) (order : Availability.Table → List ℤ) (cfg : Trigger.Cfg)
    (hmw : 0 ≤ cfg.mw) (hmei : 0 ≤ cfg.mei) (t : ℚ) (region : Option Region) (pad s e : ℚ)
    (hpad : ∃ i : ℕ, pad = i / (sr : ℚ)) (hs : ∃ i : ℤ, s = i / (sr : ℚ)) (he : ∃ i : ℤ, e = i / (sr : ℚ))
    (hfrom : k.start ≤ s) (hto : e ≤ k.start + k.cfg.timestep * (Spec.steps k : ℚ))
    (u v τ : ℚ) (q : Sample)
    (hb : Spec.ClearBurst cfg.norm t (cfg.mei + cfg.mw) (Spec.computed k) u v τ q)
    (hlong : v - u ≤ pad) (h1 : s ≤ τ) (h2 : τ < e) (hx : |q.x| ≤ 2147) (hy : |q.y| ≤ 2147)
    (hz : |q.z * (1000 * k.cfg.ucf)| ≤ 2 ^ 31 - 1) (hreg : Spec.WellInside k.cfg.ucf region q) :
    ∃ res, detectTrigger jul order Spec.newDir k cfg (.static t) id region pad s e = some (res, none) ∧
      ∃ ev, (res.flatMap Prod.snd).filter (fun x => decide (u ≤ x.coaTime ∧ x.coaTime ≤ v)) = [ev] ∧
        ev.coaTime = τ ∧ |ev.trigCoa - min (Spec.level cfg.norm q) 21474| ≤ 1 / 200000 ∧
        |ev.coa - q.coa| ≤ 1 / 200000 ∧ |ev.x - q.x| ≤ 1 / 2000000 ∧ |ev.y - q.y| ≤ 1 / 2000000 ∧
        |ev.z - q.z| ≤ 1 / (2000 * k.cfg.ucf) := by
  have hse : s ≤ e := by linarith
  have hsr := h.rate_pos
  have hsr' : (0 : ℚ) < sr := by exact_mod_cast hsr
  obtain ⟨dir, read', hdir, htrig, hok, hreads, hdelta, hDsort, hCsort, hgrid, -⟩ := detect_read h hclean halive jul
    hjul order cfg (.static t) id region pad s e hpad hs he hfrom hto hse
  have hiso : Spec.IsolatedBurst cfg.norm t (cfg.mei + cfg.mw)
      ((Spec.computed k).map (storedRow k.cfg.ucf)) u v (storedRow k.cfg.ucf (τ, q)) :=
    clear_isolated hCsort hpos k.cfg.ucf hb
  have hqp := hpos _ hb.mem
  obtain ⟨c1, c2, c3⟩ := C05_coordinates_roundtrip k.cfg.ucf hucf q hx hy hz
  have hin : Spec.RowIn region (storedRow k.cfg.ucf (τ, q)) := by
    intro r hr
    obtain ⟨⟨a1, a2⟩, ⟨a3, a4⟩, ⟨a5, a6⟩⟩ := hreg r hr
    rw [abs_le] at c1 c2 c3
    unfold storedRow rowAt
    exact ⟨⟨by linarith [c1.1], by linarith [c1.2]⟩, ⟨by linarith [c2.1], by linarith [c2.2]⟩,
      ⟨by linarith [c3.1], by linarith [c3.2]⟩⟩
  obtain ⟨ev, e1, e2, e3, e4, e5, e6, e7, -⟩ := (C112_isolated_reported_once_partial cfg hmw hmei t region _
    hDsort pad (1 / (sr : ℚ)) read' hreads
    hdelta
    ⟨86400 * sr, by push_cast; field_simp⟩ hgrid s e u v _ hiso hlong h1 h2 hok).1 hin
  refine ⟨(trigger cfg (.static t) id region read' s e).1, ?_, ev, e1, e2, ?_, ?_, ?_, ?_, ?_⟩
  · unfold detectTrigger
    rw [hdir]
    simp only
    rw [htrig, ← hok]
  · rw [e3]; exact stored_level k.cfg.ucf cfg.norm (τ, q) hqp.1 hqp.2
  · rw [e7]
    have := stored_coa k.cfg.ucf (τ, q) hqp.1 hqp.2
    simp only at this
    rwa [min_eq_left hb.storable] at this
  · rw [e4]; exact c1
  · rw [e5]; exact c2
  · rw [e6]; exact c3

/-! ## A concrete case -/

/-- One sample a second, timesteps of two seconds from ten seconds before to ten seconds after a midnight; no data
for one timestep; a burst over the midnight. -/
def burstCall : Call :=
  ⟨exDetCfg2, 86390, 86410, fun w =>
    if w.1 + exDetCfg2.prePad = 86398 then .ok [⟨1, 1, 0, 0, 0⟩, ⟨5, 4, 10, 20, 1⟩] (fun _ => 1)
    else if w.1 + exDetCfg2.prePad = 86400 then .ok [⟨4, 5, 10, 20, 1⟩, ⟨1, 1, 0, 0, 0⟩] (fun _ => 1)
    else if w.1 + exDetCfg2.prePad = 86404 then .archiveEmpty
    else .ok [⟨1, 1, 0, 0, 0⟩, ⟨1, 1, 0, 0, 0⟩] (fun _ => 1), false, .never⟩

theorem burstCall_good : Spec.GoodCall 1 burstCall := by
  refine ⟨rfl, by norm_num, ⟨2, by norm_num, by norm_num [burstCall, exDetCfg2], ?_⟩,
    by norm_num [burstCall, exDetCfg2], ⟨86390, by simp [burstCall]⟩, by decide +kernel⟩
  intro w data avail hw
  simp only [burstCall] at hw
  split at hw
  · simp only [Outcome.ok.injEq] at hw; rw [← hw.1]; rfl
  split at hw
  · simp only [Outcome.ok.injEq] at hw; rw [← hw.1]; rfl
  split at hw
  · simp at hw
  · simp only [Outcome.ok.injEq] at hw; rw [← hw.1]; rfl

theorem burstCall_clear :
    Spec.ClearBurst true 2 (2 + 1) (Spec.computed burstCall) 86399 86400 86399 ⟨5, 4, 10, 20, 1⟩ where
  mem := by decide +kernel
  lo := by norm_num
  hi := by norm_num
  storable := by norm_num
  threshold := by norm_num
  above := by decide +kernel
  largest := by decide +kernel
  after := by decide +kernel
  before := by decide +kernel

/-- All hypotheses of `C113_detect_then_trigger_partial` hold for it. -/
example (jul : ℤ → ℕ) (hjul : ∀ d, jul d ≠ jul (d + 1)) (order : Availability.Table → List ℤ) :
    ∃ res, detectTrigger jul order Spec.newDir burstCall ⟨1, 2, true⟩ (.static 2) id
        (some ⟨9, 19, 0, 11, 21, 2⟩) 2 86392 86408 = some (res, none) ∧
      ∃ ev, (res.flatMap Prod.snd).filter (fun x => decide (86399 ≤ x.coaTime ∧ x.coaTime ≤ 86400)) = [ev] ∧
        ev.coaTime = 86399 := by
  have hclean : Spec.Clean burstCall := by
    intro i _
    simp only [burstCall]
    split
    · simp
    split
    · simp
    split
    · simp
    · simp
  obtain ⟨res, h1, ev, h2, h3, -⟩ := C113_detect_then_trigger_partial 1 burstCall burstCall_good
    hclean rfl (by norm_num [burstCall, exDetCfg2]) (by decide +kernel) jul hjul order
    ⟨1, 2, true⟩ (by norm_num) (by norm_num) 2 (some ⟨9, 19, 0, 11, 21, 2⟩) 2 86392 86408 ⟨2, by norm_num⟩
    ⟨86392, by norm_num⟩ ⟨86408, by norm_num⟩ (by norm_num [burstCall]) (by decide +kernel) 86399 86400 86399
    ⟨5, 4, 10, 20, 1⟩ burstCall_clear (by norm_num) (by norm_num) (by norm_num) (by norm_num) (by norm_num)
    (by norm_num [burstCall, exDetCfg2])
    (by intro r hr; rw [Option.some.injEq] at hr; subst hr; norm_num [burstCall, exDetCfg2])
  exact ⟨res, h1, ev, h2, h3⟩

/-! ## What is false -/

/-- A burst at 86405 in a scan that starts at midnight. -/
def secondDay : Call :=
  ⟨exDetCfg2, 86400, 86410, fun w =>
    if w.1 + exDetCfg2.prePad = 86404 then .ok [⟨1, 1, 0, 0, 0⟩, ⟨5, 4, 10, 20, 1⟩] (fun _ => 1)
    else .ok [⟨1, 1, 0, 0, 0⟩, ⟨1, 1, 0, 0, 0⟩] (fun _ => 1), false, .never⟩

theorem one_batch : batches 86400 86410 = [(86400, 86410)] := by
  rw [batches_cons (by norm_num)]
  have h2 : dayStart 86400 = 86400 := by decide +kernel
  rw [h2]; simp only [DAY]; norm_num
  exact batches_of_le (by norm_num)

/-- **C113**, violated: if part of the day before was also scanned into the run, but not its end, and the pad of the
trigger run reaches into that part, then only the data before the gap are used: no event is
reported on the second day, and no error is raised. -/
theorem C113_violated_after_gap :
    Spec.ClearBurst true 2 (2 + 1) (Spec.computed secondDay) 86405 86405 86405 ⟨5, 4, 10, 20, 1⟩ ∧
    ∃ dir, calls exJul exOrder Spec.newDir [exCall 86388 86394 .never, secondDay] = some dir ∧
      trigger ⟨1, 2, true⟩ (.static 2) id none
        (readBatch 1 exDetCfg2.ucf 7 dir.scan) 86400 86410 = ([((86400, 86410), [])], none) := by
  refine ⟨⟨by decide +kernel, by norm_num, by norm_num, by norm_num, by norm_num, by decide +kernel,
    by decide +kernel, by decide +kernel, by decide +kernel⟩, ?_⟩
  have h1 : (calls exJul exOrder Spec.newDir [exCall 86388 86394 .never, secondDay]).map (fun dir =>
      (readBatch 1 exDetCfg2.ucf 7 dir.scan 86400 86410).map fun sd =>
        (triggerBatch ⟨1, 2, true⟩ (.static 2) id none 86400 86410 sd).1.length) = some (some 0) := by
    decide +kernel
  cases hc : calls exJul exOrder Spec.newDir [exCall 86388 86394 .never, secondDay] with
  | none => rw [hc] at h1; simp at h1
  | some dir =>
    rw [hc] at h1
    simp only [Option.map_some, Option.some.injEq] at h1
    refine ⟨dir, rfl, ?_⟩
    unfold trigger
    rw [if_neg (by norm_num), one_batch]
    unfold runBatches
    cases hr : readBatch 1 exDetCfg2.ucf 7 dir.scan 86400 86410 with
    | none => rw [hr] at h1; simp at h1
    | some sd =>
      rw [hr] at h1
      simp only [Option.map_some, Option.some.injEq, List.length_eq_zero_iff] at h1
      simp only [h1, runBatches]

end QM

import Verif.Model.ComputeStep
import Verif.Props.Compute
import Verif.Props.Lut

/-!
# C114: what one timestep of a scan computes
-/

namespace QM
open QM.Compute QM.Migrate QM.Pads QM.ComputeStep Finset

/-! ## Specification -/

/-- Coalescence of a grid node at sample number `T` of the archive, `O s p t` being the onset function of a station
and phase at sample `t`, and `delay s p node` the traveltime in samples: the geometric mean over the pairs of the
onset functions, floored at 0.01, each read when a wave leaving the node at `T` arrives. -/
noncomputable def Spec.coalescence (pairs : List (Str × Str)) (O : Str → Str → ℤ → ℝ)
    (delay : Str → Str → ℕ → ℤ) (node : ℕ) (T : ℤ) : ℝ :=
  (pairs.map fun sp => max (1 / 100) (O sp.1 sp.2 (T + max 0 (delay sp.1 sp.2 node)))).prod ^
    (1 / (pairs.length : ℝ))

/-- `o` reports the peak over the grid of the values `f node`: the largest value, the ratio of this value to the
mean of all values, and the coordinates of the first node that has this value. -/
structure Spec.ReportsPeak (g : Grid.Grid) (f : ℕ → ℝ) (o : Out) : Prop where
  node : ∃ n < g.count 0 * g.count 1 * g.count 2, o.maxCoa = f n ∧ (∀ n' < n, f n' < f n) ∧
    (Grid.gridXyz g)[n]? = some o.xyz
  largest : ∀ n < g.count 0 * g.count 1 * g.count 2, f n ≤ o.maxCoa
  ratio : o.norm = o.maxCoa / ((∑ n ∈ range (g.count 0 * g.count 1 * g.count 2), f n) /
    (g.count 0 * g.count 1 * g.count 2 : ℕ))

theorem reportsPeak_unique {g : Grid.Grid} {f : ℕ → ℝ} {o o' : Out} (h : Spec.ReportsPeak g f o)
    (h' : Spec.ReportsPeak g f o') : o = o' := by
  obtain ⟨n, hn, h1, h2, h3⟩ := h.node
  obtain ⟨n', hn', h1', h2', h3'⟩ := h'.node
  have e : n = n' := by
    rcases lt_trichotomy n n' with hlt | he | hlt
    · have := h2' n hlt
      have h5 := h.largest n' hn'
      rw [h1] at h5; linarith
    · exact he
    · have := h2 n' hlt
      have h5 := h'.largest n hn
      rw [h1'] at h5; linarith
  subst e
  have em : o.maxCoa = o'.maxCoa := by rw [h1, h1']
  have en : o.norm = o'.norm := by rw [h.ratio, h'.ratio, em]
  have ex : o.xyz = o'.xyz := by rw [h3] at h3'; exact Option.some.inj h3'
  cases o; cases o'; simp_all

/-! ## Proof -/

theorem coords_ok (g : Grid.Grid) (r : FState ℝ) (l : List ℕ)
    (h : ∀ s ∈ l, r.idx s < g.count 0 * g.count 1 * g.count 2) :
    ∃ out, coords g r l = .ok out ∧ out.length = l.length ∧
      ∀ (k s : ℕ), l[k]? = some s → ∃ o : Out, out[k]? = some o ∧ o.maxCoa = r.maxCoa s ∧ o.norm = r.norm s ∧
        (Grid.gridXyz g)[r.idx s]? = some o.xyz := by
  induction l with
  | nil => exact ⟨[], rfl, rfl, by simp⟩
  | cons s l ih =>
    obtain ⟨out, h1, h2, h3⟩ := ih (fun s hs => h s (List.mem_cons_of_mem _ hs))
    obtain ⟨xyz, hx1, hx2⟩ := (C47_listed_in_order g).2 (r.idx s) (h s List.mem_cons_self)
    refine ⟨⟨r.maxCoa s, r.norm s, xyz⟩ :: out, by simp only [coords, hx1, h1], by simp [h2], ?_⟩
    intro k t hk
    cases k with
    | zero =>
      simp only [List.getElem?_cons_zero, Option.some.injEq] at hk
      subst hk
      exact ⟨_, rfl, rfl, rfl, hx2⟩
    | succ k =>
      simp only [List.getElem?_cons_succ] at hk ⊢
      exact h3 k t hk

theorem prod_range_list {α : Type} (l : List α) (f : α → ℝ) (F : ℕ → ℝ)
    (h : ∀ k (hk : k < l.length), F k = f l[k]) :
    ∏ k ∈ range l.length, F k = (l.map f).prod := by
  induction l generalizing F with
  | nil => simp
  | cons a l ih =>
    rw [List.length_cons, Finset.prod_range_succ', List.map_cons, List.prod_cons, mul_comm]
    have h0 := h 0 (by simp)
    simp only [List.getElem_cons_zero] at h0
    rw [h0, ih (fun k => F (k + 1)) fun k hk => by
      have := h (k + 1) (by simpa using hk)
      simpa using this]

/-- `sched` and `sched'` are orders in which the threads of the two C functions can run their steps, for `rows`
onset functions of `cols` samples, of which `first` and `last` at the ends are padding. -/
def Spec.Schedules (rows cols nNodes first last : ℕ) (sched : List (ℕ × Op)) (sched' : List (ℕ × FOp)) : Prop :=
  IsInterleaving nNodes (nodeProg (V := ℝ) ⟨[], [], first, last, cols - first - last, rows, rows, nNodes⟩) sched ∧
  IsInterleaving (cols - first - last) (sampleProg nNodes) sched'

/-- What is asked of the lookup table, the configuration and the availability of the data. -/
structure Spec.ScanSetup (L : Lut) (g : Grid.Grid) (w : Windows) (ttmax : ℚ) (sr : ℕ) (phases stations : List Str)
    (av : Str → Str → ℕ) (G : Str → Str → ℕ → ℚ) : Prop where
  nodes : L.nNodes = g.count 0 * g.count 1 * g.count 2
  pos : 0 < L.nNodes
  win : w.Nonneg
  longest : maxTraveltime L = some ttmax
  ttpos : 0 ≤ ttmax
  rate : 0 < sr
  phNodup : phases.Nodup
  stNodup : stations.Nodup
  phName : ∀ p ∈ phases, '_' ∉ p
  stName : ∀ s ∈ stations, '_' ∉ s
  phLut : ∀ p ∈ phases, p ∈ L.phases
  stLut : ∀ s ∈ stations, s ∈ L.stations
  avail : ∀ s p, av s p ≤ 1
  someAvail : ∃ s ∈ stations, ∃ p ∈ phases, av s p = 1
  table : ∀ s ∈ stations, ∀ p ∈ phases, av s p = 1 → lookup L s p = .ok (G s p)

theorem mem_migratedPairs {phases stations : List Str} {av : Str → Str → ℕ} {sp : Str × Str}
    (h : sp ∈ Spec.migratedPairs phases stations av) :
    sp.1 ∈ stations ∧ sp.2 ∈ phases ∧ av sp.1 sp.2 = 1 := by
  simp only [Spec.migratedPairs, List.mem_flatMap, List.mem_map, List.mem_filter,
    decide_eq_true_eq] at h
  obtain ⟨p, hp, s, ⟨hs, h1⟩, rfl⟩ := h
  exact ⟨hs, hp, h1⟩

theorem scanPads_samples_nonneg {w : Windows} (hw : w.Nonneg) {ttmax : ℚ} (htt : 0 ≤ ttmax) {sr : ℕ}
    (hsr : 0 < sr) {ts : ℚ} (hts : 0 ≤ ts) :
    0 ≤ time2sample (scanPads w ttmax sr ts).1 sr ∧ 0 ≤ time2sample (scanPads w ttmax sr ts).2 sr := by
  have hsr' : (0 : ℚ) < sr := by positivity
  have hl := Windows.ltaMax_nonneg hw
  have hpre := prePad_nonneg hw
  have hpost : (0 : ℚ) ≤ postPad w ttmax := by
    unfold postPad
    have := Int.ceil_nonneg (show 0 ≤ ttmax + 2 * w.ltaMax by linarith)
    exact_mod_cast this
  have hc : (0 : ℚ) ≤ (⌈(ts + (prePad w + postPad w ttmax)) * (6 / 100)⌉ : ℤ) := by
    exact_mod_cast Int.ceil_nonneg (by positivity : (0 : ℚ) ≤ (ts + (prePad w + postPad w ttmax)) * (6 / 100))
  have htrim : ∀ x : ℚ, 0 ≤ x → 0 ≤ time2sample (trim2sample x sr) sr := by
    intro x hx
    have h1 : (0 : ℚ) ≤ (⌈x * sr⌉ : ℤ) := by exact_mod_cast Int.ceil_nonneg (by positivity : 0 ≤ x * sr)
    have h2 : (0 : ℤ) ≤ pyInt ((⌈x * sr⌉ : ℚ) / sr * 1000) := by
      unfold pyInt
      rw [if_pos (by positivity)]
      exact Int.floor_nonneg.2 (by positivity)
    have h3 : (0 : ℚ) ≤ (pyInt ((⌈x * sr⌉ : ℚ) / sr * 1000) : ℤ) := by exact_mod_cast h2
    rw [time2sample_nat, ← pyRound_int 0]
    apply pyRound_mono
    unfold trim2sample
    push_cast
    positivity
  exact ⟨htrim _ (by linarith), htrim _ (by linarith)⟩

theorem compute_value {L : Lut} {g : Grid.Grid} {w : Windows} {ttmax : ℚ} {sr : ℕ} {phases stations : List Str}
    {av : Str → Str → ℕ} {G : Str → Str → ℕ → ℚ} (S : Spec.ScanSetup L g w ttmax sr phases stations av G)
    (ts : ℚ) (hts : 0 ≤ ts) (pads : ℚ × ℚ) (hpads : pads = scanPads w ttmax sr ts)
    (first last : ℕ) (hfirst : time2sample pads.1 sr = first) (hlast : time2sample pads.2 sr = last)
    (cols : ℕ) (hcols : first + last ≤ cols)
    (h32 : (Spec.migratedPairs phases stations av).length * cols ≤ 2 ^ 31)
    (onset : Str → Str → ℕ → ℝ) (O : Str → Str → ℤ → ℝ) (r0 : ℤ)
    (hO : ∀ sp ∈ Spec.migratedPairs phases stations av, ∀ j < cols, first ≤ j →
      (j : ℤ) + last < cols + pyRound (ttmax * sr) →
      onset sp.1 sp.2 j = O sp.1 sp.2 (r0 + j))
    (sched : List (ℕ × Op)) (sched' : List (ℕ × FOp))
    (hsch : Spec.Schedules (Spec.migratedPairs phases stations av).length cols L.nNodes first last sched sched') :
    ∃ out, compute L g sr pads phases stations av onset cols sched sched' = .ok out ∧
      out.length = cols - first - last ∧
      ∀ m < cols - first - last, ∃ o, out[m]? = some o ∧
        Spec.ReportsPeak g (fun node => Spec.coalescence (Spec.migratedPairs phases stations av) O
          (fun s p node => pyRound (G s p node * sr)) node (r0 + first + m)) o := by
  obtain ⟨ons, tts, avail, hin, hav, hok⟩ := C27_scan_meets_migrate_precondition L w S.win ttmax S.longest S.ttpos sr
    S.rate ts hts phases stations S.phNodup S.stNodup S.phName S.stName S.phLut S.stLut av S.avail onset G S.table S.someAvail
    cols pads hpads first last hfirst hlast hcols
  have hin' := C32_rows_aligned L sr phases stations S.phNodup S.stNodup S.phName S.stName av S.avail onset G S.table
    S.someAvail
  rw [hin] at hin'
  simp only [Except.ok.injEq, Prod.mk.injEq] at hin'
  obtain ⟨he1, he2, -⟩ := hin'
  have hlen : ons.length = (Spec.migratedPairs phases stations av).length := by rw [he1]; simp
  have hlen2 : tts.length = ons.length := by rw [he1, he2]; simp
  have hM := hok (by rw [hlen]; exact h32)
  obtain ⟨m, hm1, hm2⟩ := C28_geometric_mean _ _ first last hM sched (by
    have := hsch.1
    rw [← hlen] at this
    exact this)
  obtain ⟨r, hr1, hr2⟩ := C31_find_max (⟨L.nNodes, cols - first - last, m⟩ : Arr2 ℝ) S.pos sched' hsch.2
  simp only at hr2 hm2
  obtain ⟨out, ho1, ho2, ho3⟩ := coords_ok g r (List.range (cols - first - last)) (by
    intro s hs
    rw [← S.nodes]
    exact (hr2 s (List.mem_range.1 hs)).1)
  have hval : ∀ node < L.nNodes, ∀ s < cols - first - last, m node s =
      Spec.coalescence (Spec.migratedPairs phases stations av) O
        (fun s p node => pyRound (G s p node * sr)) node (r0 + first + s) := by
    intro node hn s hs
    rw [hm2 node hn s hs, Spec.geoMean, Spec.coalescence, hlen]
    congr 1
    apply prod_range_list
    intro k hk
    have hk1 : k < ons.length := by rw [hlen]; exact hk
    have hp := hM.pad node hn k hk1
    simp only at hp
    rw [Spec.stacked]
    have e1 : ons[k]?.getD (fun _ => 0) = onset (Spec.migratedPairs phases stations av)[k].1
        (Spec.migratedPairs phases stations av)[k].2 := by
      rw [he1]; simp [hk]
    have e2 : tts[k]?.getD (fun _ => 0) = fun node => pyRound (G (Spec.migratedPairs phases stations av)[k].1
        (Spec.migratedPairs phases stations av)[k].2 node * sr) := by
      rw [he2]; simp [hk]
    rw [e2] at hp
    rw [e1, e2]
    simp only at hp ⊢
    obtain ⟨k1, k2, k3⟩ := mem_migratedPairs (List.getElem_mem hk)
    have hle := mul_le_mul_of_nonneg_right
      (le_maxTraveltime S.longest (S.stLut _ k1) (S.phLut _ k2) (S.table _ k1 _ k2 k3) hn) (Nat.cast_nonneg (α := ℚ) sr)
    have hle' := pyRound_mono hle
    have h0 : 0 ≤ pyRound (ttmax * sr) := by
      rw [← pyRound_int 0]
      apply pyRound_mono
      have := S.ttpos
      push_cast
      positivity
    rw [hO _ (List.getElem_mem hk) _ (by omega) (by omega) (by omega)]
    congr 2
    push_cast
    rw [Int.toNat_of_nonneg (le_max_left _ _)]
    ring
  refine ⟨out, ?_, by simpa using ho2, ?_⟩
  · simp only [compute, hin, hfirst, hlast, Int.toNat_natCast]
    rw [hav]
    simp only [hm1, hr1, ho1]
  · intro k hk
    obtain ⟨o, h1, h2, h3, h4⟩ := ho3 k k (by simp [hk])
    obtain ⟨q1, q2, q3, q4, q5⟩ := hr2 k hk
    refine ⟨o, h1, ⟨r.idx k, ?_, ?_, ?_, h4⟩, ?_, ?_⟩
    · rw [← S.nodes]; exact q1
    · rw [h2, q2, hval _ q1 k hk]
    · intro n' hn'
      have := q4 n' hn'
      rw [q2, hval _ q1 k hk, hval n' (hn'.trans q1) k hk] at this
      exact this
    · intro n hn
      rw [← S.nodes] at hn
      rw [h2, ← hval n hn k hk]
      exact q3 n hn
    · rw [h3, q5, h2, ← S.nodes, div_div_eq_mul_div]
      congr 1
      exact Finset.sum_congr rfl fun n hn => hval n (Finset.mem_range.1 hn) k hk

/-! ## The property -/

/-- Samples of the archive, numbered from `origin`, that are read for a window, and the onset functions computed from
them: `onset s p j` is the value for the `j`-th sample read, `O s p t` for sample `t` of the archive.  They agree from
the end of the pre-pad to the longest traveltime into the post-pad; near the ends of the window, where the short- and
long-term windows are incomplete, they need not. -/
def Spec.OnsetsOf (origin : ℚ) (sr : ℕ) (win pads : ℚ × ℚ) (ttmax : ℚ) (pairs : List (Str × Str)) (O : Str → Str → ℤ → ℝ)
    (onset : Str → Str → ℕ → ℝ) : Prop :=
  ∀ sp ∈ pairs, ∀ j : ℕ, time2sample pads.1 sr ≤ j →
    (j : ℤ) + time2sample pads.2 sr < onsetLength origin sr win.1 win.2 + pyRound (ttmax * sr) →
    onset sp.1 sp.2 j = O sp.1 sp.2 ((readRange origin sr win.1 win.2).1 + j)

theorem window_value {L : Lut} {g : Grid.Grid} {w : Windows} {ttmax : ℚ} {sr : ℕ} {phases stations : List Str}
    {av : Str → Str → ℕ} {G : Str → Str → ℕ → ℚ} (S : Spec.ScanSetup L g w ttmax sr phases stations av G)
    (ts : ℚ) (hts : 0 ≤ ts) (pads : ℚ × ℚ) (hpads : pads = scanPads w ttmax sr ts)
    (origin : ℚ) (win : ℚ × ℚ) (n : ℕ) (T0 : ℤ) (hn : coaSamples origin sr pads win.1 win.2 = n)
    (hT : (readRange origin sr win.1 win.2).1 + time2sample pads.1 sr = T0)
    (cols : ℕ) (hcols : onsetLength origin sr win.1 win.2 = cols)
    (h32 : (Spec.migratedPairs phases stations av).length * cols ≤ 2 ^ 31)
    (O : Str → Str → ℤ → ℝ) (onset : Str → Str → ℕ → ℝ)
    (hO : Spec.OnsetsOf origin sr win pads ttmax (Spec.migratedPairs phases stations av) O onset)
    (sched : List (ℕ × Op)) (sched' : List (ℕ × FOp))
    (hsch : Spec.Schedules (Spec.migratedPairs phases stations av).length cols L.nNodes
      (time2sample pads.1 sr).toNat (time2sample pads.2 sr).toNat sched sched') :
    ∃ out, compute L g sr pads phases stations av onset cols sched sched' = .ok out ∧
      out.length = n ∧
      ∀ m < n, ∃ o, out[m]? = some o ∧
        Spec.ReportsPeak g (fun node => Spec.coalescence (Spec.migratedPairs phases stations av) O
          (fun s p node => pyRound (G s p node * sr)) node (T0 + m)) o := by
  obtain ⟨hp1, hp2⟩ := scanPads_samples_nonneg S.win S.ttpos S.rate hts
  rw [← hpads] at hp1 hp2
  obtain ⟨first, hf⟩ := Int.eq_ofNat_of_zero_le hp1
  obtain ⟨last, hl⟩ := Int.eq_ofNat_of_zero_le hp2
  rw [hf, hl] at hsch
  simp only [coaSamples, hcols, hf, hl] at hn
  have hsub : cols - first - last = n := by omega
  obtain ⟨out, h1, h2, h3⟩ := compute_value S ts hts pads hpads first last hf hl cols (by omega) h32 onset O
    (readRange origin sr win.1 win.2).1 (fun sp hsp j _ hj hj' => hO sp hsp j (by rw [hf]; exact_mod_cast hj) (by rw [hcols, hl]; exact hj'))
    sched sched' (by simpa using hsch)
  rw [hsub] at h2 h3
  refine ⟨out, h1, h2, ?_⟩
  rw [hf] at hT
  rw [← hT]
  exact h3

/-- C114 (detect): timestep `i` of a detect run that starts on sample `a` of the archive gives one value per sample
of the timestep, and the value for a sample is the peak over the grid of the coalescence of the nodes at that
sample, computed from the onset functions of exactly the available pairs, under every order of the threads.
Missing: a pre-pad halfway between two samples, as in C22. -/
theorem C114_detect_value_partial (L : Lut) (g : Grid.Grid) (w : Windows) (ttmax : ℚ) (sr : ℕ)
    (phases stations : List Str) (av : Str → Str → ℕ) (G : Str → Str → ℕ → ℚ)
    (S : Spec.ScanSetup L g w ttmax sr phases stations av G)
    (origin start timestep : ℚ) (a : ℤ) (hstart : start = origin + a / sr) (n : ℕ) (hn : timestep * sr = n) (i : ℕ)
    (pads : ℚ × ℚ) (hpads : pads = scanPads w ttmax sr timestep) (htie : ∀ z : ℤ, pads.1 * sr ≠ z + 1 / 2)
    (win : ℚ × ℚ) (hwin : win = detectWindow start timestep sr pads i)
    (cols : ℕ) (hcols : onsetLength origin sr win.1 win.2 = cols)
    (h32 : (Spec.migratedPairs phases stations av).length * cols ≤ 2 ^ 31)
    (O : Str → Str → ℤ → ℝ) (onset : Str → Str → ℕ → ℝ)
    (hO : Spec.OnsetsOf origin sr win pads ttmax (Spec.migratedPairs phases stations av) O onset)
    (sched : List (ℕ × Op)) (sched' : List (ℕ × FOp))
    (hsch : Spec.Schedules (Spec.migratedPairs phases stations av).length cols L.nNodes
      (time2sample pads.1 sr).toNat (time2sample pads.2 sr).toNat sched sched') :
    ∃ out, compute L g sr pads phases stations av onset cols sched sched' = .ok out ∧ out.length = n ∧
      ∀ m < n, ∃ o, out[m]? = some o ∧
        Spec.ReportsPeak g (fun node => Spec.coalescence (Spec.migratedPairs phases stations av) O
          (fun s p node => pyRound (G s p node * sr)) node (a + i * n + m)) o := by
  obtain ⟨h1, h2⟩ := C22_detect_sample_count_partial w ttmax sr S.rate origin timestep a n hn i start hstart pads
    hpads htie win hwin
  have hsr' : (0 : ℚ) < sr := by have := S.rate; positivity
  have hts : 0 ≤ timestep := by
    by_contra h
    have h3 : timestep * sr < 0 := mul_neg_of_neg_of_pos (not_le.1 h) hsr'
    have h4 : (0 : ℚ) ≤ n := Nat.cast_nonneg n
    linarith
  exact window_value S timestep hts pads hpads origin win n _ h1 h2 cols hcols h32 O onset hO sched sched' hsch

/-- C114 (locate): the values computed for an event are, sample by sample, the peaks over the grid of the coalescence
of the nodes, from two marginal windows before the trigger time to two after.  Missing: as above. -/
theorem C114_locate_value_partial (L : Lut) (g : Grid.Grid) (w : Windows) (ttmax : ℚ) (sr : ℕ)
    (phases stations : List Str) (av : Str → Str → ℕ) (G : Str → Str → ℕ → ℚ)
    (S : Spec.ScanSetup L g w ttmax sr phases stations av G)
    (origin trigger mw : ℚ) (a : ℤ) (htrig : trigger = origin + a / sr) (n : ℕ) (hn : 2 * mw * sr = n)
    (pads : ℚ × ℚ) (hpads : pads = scanPads w ttmax sr (4 * mw)) (htie : ∀ z : ℤ, pads.1 * sr ≠ z + 1 / 2)
    (win : ℚ × ℚ) (hwin : win = locateWindow trigger mw pads)
    (cols : ℕ) (hcols : onsetLength origin sr win.1 win.2 = cols)
    (h32 : (Spec.migratedPairs phases stations av).length * cols ≤ 2 ^ 31)
    (O : Str → Str → ℤ → ℝ) (onset : Str → Str → ℕ → ℝ)
    (hO : Spec.OnsetsOf origin sr win pads ttmax (Spec.migratedPairs phases stations av) O onset)
    (sched : List (ℕ × Op)) (sched' : List (ℕ × FOp))
    (hsch : Spec.Schedules (Spec.migratedPairs phases stations av).length cols L.nNodes
      (time2sample pads.1 sr).toNat (time2sample pads.2 sr).toNat sched sched') :
    ∃ out, compute L g sr pads phases stations av onset cols sched sched' = .ok out ∧ out.length = 2 * n + 1 ∧
      ∀ m < 2 * n + 1, ∃ o, out[m]? = some o ∧
        Spec.ReportsPeak g (fun node => Spec.coalescence (Spec.migratedPairs phases stations av) O
          (fun s p node => pyRound (G s p node * sr)) node (a - n + m)) o := by
  have hsr' : (0 : ℚ) < sr := by have := S.rate; positivity
  have hts : 0 ≤ 4 * mw := by
    by_contra h
    have h1 : (4 * mw) * sr < 0 := mul_neg_of_neg_of_pos (not_le.1 h) hsr'
    have h2 : (0 : ℚ) ≤ n := Nat.cast_nonneg n
    linarith
  obtain ⟨h1, h2⟩ := C22_locate_times_partial w ttmax sr S.rate origin mw a n hn trigger htrig pads
    hpads htie win hwin
  have hlen : (mwTimes trigger mw sr).length = 2 * n + 1 := by
    have : (4 * mw * sr + 1 : ℚ) = ((2 * n + 1 : ℕ) : ℚ) := by
      push_cast; rw [← hn]; ring
    simp only [mwTimes, List.length_map, List.length_range]
    rw [this, pyInt_natCast]; omega
  rw [hlen] at h1
  have hT : (readRange origin sr win.1 win.2).1 + time2sample pads.1 sr = a - n := by
    have h3 := h2 0 (by rw [h1]; push_cast; omega)
    have h4 : (mwTimes trigger mw sr)[0]? = some (trigger - 2 * mw) := by
      have h5 : 0 < (mwTimes trigger mw sr).length := by omega
      simp only [mwTimes, List.length_map, List.length_range] at h5
      simp only [mwTimes, List.getElem?_map]
      rw [List.getElem?_range h5]
      simp
    rw [h4, htrig] at h3
    have h5 := Option.some.inj h3
    have h6 : (((readRange origin sr win.1 win.2).1 + time2sample pads.1 sr : ℤ) : ℚ) = ((a - n : ℤ) : ℚ) := by
      push_cast at h5 ⊢
      field_simp at h5
      linarith
    exact_mod_cast h6
  exact window_value S (4 * mw) hts pads hpads origin win (2 * n + 1) _ h1 hT cols hcols h32 O onset hO sched
    sched' hsch

/-- Timestep `i` of a detect run over `timestep` seconds from `start` returned `out`. -/
structure Spec.DetectStep (L : Lut) (g : Grid.Grid) (w : Windows) (ttmax : ℚ) (sr : ℕ) (phases stations : List Str)
    (av : Str → Str → ℕ) (O : Str → Str → ℤ → ℝ) (origin start timestep : ℚ) (a : ℤ) (n i : ℕ)
    (out : List Out) : Prop where
  onGrid : start = origin + a / sr
  whole : timestep * sr = n
  tie : ∀ z : ℤ, (scanPads w ttmax sr timestep).1 * sr ≠ z + 1 / 2
  run : ∃ (cols : ℕ) (onset : Str → Str → ℕ → ℝ) (sched : List (ℕ × Op)) (sched' : List (ℕ × FOp)),
    let pads := scanPads w ttmax sr timestep
    let win := detectWindow start timestep sr pads i
    onsetLength origin sr win.1 win.2 = cols ∧
    (Spec.migratedPairs phases stations av).length * cols ≤ 2 ^ 31 ∧
    Spec.OnsetsOf origin sr win pads ttmax (Spec.migratedPairs phases stations av) O onset ∧
    Spec.Schedules (Spec.migratedPairs phases stations av).length cols L.nNodes
      (time2sample pads.1 sr).toNat (time2sample pads.2 sr).toNat sched sched' ∧
    compute L g sr pads phases stations av onset cols sched sched' = .ok out

/-- C114: the value for an instant does not depend on the start of the run, the length of the timesteps, the timestep
it falls in or the order of the threads: two runs that cover the sample report the same for it, when the same pairs
are available and the onset functions are the same functions of absolute time. -/
theorem C114_same_value_any_timestep_partial (L : Lut) (g : Grid.Grid) (w : Windows) (ttmax : ℚ) (sr : ℕ)
    (phases stations : List Str) (av : Str → Str → ℕ) (G : Str → Str → ℕ → ℚ)
    (S : Spec.ScanSetup L g w ttmax sr phases stations av G) (O : Str → Str → ℤ → ℝ) (origin : ℚ)
    (start timestep : ℚ) (a : ℤ) (n i : ℕ) (out : List Out)
    (h : Spec.DetectStep L g w ttmax sr phases stations av O origin start timestep a n i out)
    (start' timestep' : ℚ) (a' : ℤ) (n' i' : ℕ) (out' : List Out)
    (h' : Spec.DetectStep L g w ttmax sr phases stations av O origin start' timestep' a' n' i' out')
    (m m' : ℕ) (hm : m < n) (hm' : m' < n') (hT : a + i * n + m = a' + i' * n' + m') :
    out[m]? = out'[m']? ∧ out[m]?.isSome := by
  obtain ⟨cols, onset, sc, sc', h1, h2, h3, h4, h5⟩ := h.run
  obtain ⟨cols', onset', sd, sd', h1', h2', h3', h4', h5'⟩ := h'.run
  obtain ⟨o, e1, -, e3⟩ := C114_detect_value_partial L g w ttmax sr phases stations av G S origin start timestep a
    h.onGrid n h.whole i _ rfl h.tie _ rfl cols h1 h2 O onset h3 sc sc' h4
  obtain ⟨o', e1', -, e3'⟩ := C114_detect_value_partial L g w ttmax sr phases stations av G S origin start' timestep'
    a' h'.onGrid n' h'.whole i' _ rfl h'.tie _ rfl cols' h1' h2' O onset' h3' sd sd' h4'
  rw [h5] at e1; rw [h5'] at e1'
  cases e1; cases e1'
  obtain ⟨x, q1, q2⟩ := e3 m hm
  obtain ⟨x', q1', q2'⟩ := e3' m' hm'
  rw [← hT] at q2'
  rw [q1, q1', reportsPeak_unique q2 q2']
  simp

/-- C114: for every instant of its window, locate computes what detect computed for it. -/
theorem C114_locate_repeats_detect_partial (L : Lut) (g : Grid.Grid) (w : Windows) (ttmax : ℚ) (sr : ℕ)
    (phases stations : List Str) (av : Str → Str → ℕ) (G : Str → Str → ℕ → ℚ)
    (S : Spec.ScanSetup L g w ttmax sr phases stations av G) (O : Str → Str → ℤ → ℝ) (origin : ℚ)
    (start timestep : ℚ) (a : ℤ) (n i : ℕ) (out : List Out)
    (h : Spec.DetectStep L g w ttmax sr phases stations av O origin start timestep a n i out)
    (trigger mw : ℚ) (t : ℤ) (htrig : trigger = origin + t / sr) (k : ℕ) (hk : 2 * mw * sr = k)
    (pads : ℚ × ℚ) (hpads : pads = scanPads w ttmax sr (4 * mw)) (htie : ∀ z : ℤ, pads.1 * sr ≠ z + 1 / 2)
    (win : ℚ × ℚ) (hwin : win = locateWindow trigger mw pads)
    (cols : ℕ) (hcols : onsetLength origin sr win.1 win.2 = cols)
    (h32 : (Spec.migratedPairs phases stations av).length * cols ≤ 2 ^ 31) (onset : Str → Str → ℕ → ℝ)
    (hO : Spec.OnsetsOf origin sr win pads ttmax (Spec.migratedPairs phases stations av) O onset)
    (sched : List (ℕ × Op)) (sched' : List (ℕ × FOp))
    (hsch : Spec.Schedules (Spec.migratedPairs phases stations av).length cols L.nNodes
      (time2sample pads.1 sr).toNat (time2sample pads.2 sr).toNat sched sched')
    (m m' : ℕ) (hm : m < n) (hm' : m' < 2 * k + 1) (hT : a + i * n + m = t - k + m') :
    ∃ out', compute L g sr pads phases stations av onset cols sched sched' = .ok out' ∧
      out'[m']? = out[m]? ∧ out[m]?.isSome := by
  obtain ⟨cols₀, onset₀, sc, sc', h1, h2, h3, h4, h5⟩ := h.run
  obtain ⟨o, e1, -, e3⟩ := C114_detect_value_partial L g w ttmax sr phases stations av G S origin start timestep a
    h.onGrid n h.whole i _ rfl h.tie _ rfl cols₀ h1 h2 O onset₀ h3 sc sc' h4
  rw [h5] at e1
  cases e1
  obtain ⟨out', e1', -, e3'⟩ := C114_locate_value_partial L g w ttmax sr phases stations av G S origin trigger mw t
    htrig k hk pads hpads htie win hwin cols hcols h32 O onset hO sched sched' hsch
  obtain ⟨x, q1, q2⟩ := e3 m hm
  obtain ⟨x', q1', q2'⟩ := e3' m' hm'
  rw [← hT] at q2'
  exact ⟨out', e1', by rw [q1, q1', reportsPeak_unique q2' q2], by simp [q1]⟩

/-! ## A case that meets the hypotheses -/

/-- Two nodes 2 km apart. -/
def stepGrid : Grid.Grid := ⟨fun _ => 0, fun _ => 2, ![2, 1, 1]⟩
def stepG : Str → Str → ℕ → ℚ := fun s p => match lookup exLut s p with
  | .ok f => f
  | .error _ => fun _ => 0
def stepWindows : Windows := ⟨(1 / 5, 1), []⟩

theorem stepSetup : Spec.ScanSetup exLut stepGrid stepWindows 4 50 [['P'], ['S']] [['A'], ['B']] exAv stepG where
  nodes := rfl
  pos := by decide
  win := ⟨by norm_num [stepWindows], by simp [stepWindows]⟩
  longest := by decide +kernel
  ttpos := by norm_num
  rate := by norm_num
  phNodup := by decide
  stNodup := by decide
  phName := by decide
  stName := by decide
  phLut := by decide
  stLut := by decide
  avail := fun s p => by unfold exAv; split <;> omega
  someAvail := ⟨['A'], by decide, ['P'], by decide, by decide⟩
  table := by
    intro s hs p hp h1
    have h : (lookup exLut s p).isOk = true := by
      revert s p; decide +kernel
    unfold stepG
    cases he : lookup exLut s p with
    | ok f => rfl
    | error e => rw [he] at h; simp [Except.isOk, Except.toBool] at h

/-- The second timestep of two seconds, and the second of one second: both cover sample 153 of the archive. -/
theorem stepRuns (O : Str → Str → ℤ → ℝ) : ∃ out out' : List Out,
    Spec.DetectStep exLut stepGrid stepWindows 4 50 [['P'], ['S']] [['A'], ['B']] exAv O 0 1 2 50 100 1 out ∧
    Spec.DetectStep exLut stepGrid stepWindows 4 50 [['P'], ['S']] [['A'], ['B']] exAv O 0 2 1 100 50 1 out' ∧
    (50 : ℤ) + (1 : ℕ) * (100 : ℕ) + (3 : ℕ) = 100 + (1 : ℕ) * (50 : ℕ) + (3 : ℕ) := by
  have key : ∀ (start ts : ℚ) (a : ℤ) (n : ℕ), start = 0 + a / (50 : ℕ) → ts * (50 : ℕ) = n → 0 ≤ ts →
      (∃ cols : ℕ, onsetLength 0 50 (detectWindow start ts 50 (scanPads stepWindows 4 (50 : ℕ) ts) 1).1
        (detectWindow start ts 50 (scanPads stepWindows 4 (50 : ℕ) ts) 1).2 = cols ∧ cols ≤ 10000) →
      ∃ out, Spec.DetectStep exLut stepGrid stepWindows 4 50 [['P'], ['S']] [['A'], ['B']] exAv O 0 start ts a n 1
        out := by
    intro start ts a n h1 h2 h3 ⟨cols, h4, h5⟩
    have htie := fun z => C22_usual_rates stepWindows stepSetup.win 4 (by norm_num) 50 (by norm_num)
      (Or.inl ⟨20, rfl⟩) ts h3 z
    have h6 : (Spec.migratedPairs [['P'], ['S']] [['A'], ['B']] exAv).length * cols ≤ 2 ^ 31 := by
      have : (Spec.migratedPairs [['P'], ['S']] [['A'], ['B']] exAv).length = 3 := by decide +kernel
      rw [this]; omega
    have hO : Spec.OnsetsOf 0 50 (detectWindow start ts 50 (scanPads stepWindows 4 (50 : ℕ) ts) 1)
        (scanPads stepWindows 4 (50 : ℕ) ts) 4 (Spec.migratedPairs [['P'], ['S']] [['A'], ['B']] exAv) O (fun s p j => O s p
          ((readRange 0 50 (detectWindow start ts 50 (scanPads stepWindows 4 (50 : ℕ) ts) 1).1
            (detectWindow start ts 50 (scanPads stepWindows 4 (50 : ℕ) ts) 1).2).1 + j)) := fun _ _ _ _ _ => rfl
    have hs := And.intro (serial_isInterleaving exLut.nNodes (nodeProg (V := ℝ) ⟨[], [],
        (time2sample (scanPads stepWindows 4 (50 : ℕ) ts).1 (50 : ℕ)).toNat,
        (time2sample (scanPads stepWindows 4 (50 : ℕ) ts).2 (50 : ℕ)).toNat,
        cols - (time2sample (scanPads stepWindows 4 (50 : ℕ) ts).1 (50 : ℕ)).toNat -
        (time2sample (scanPads stepWindows 4 (50 : ℕ) ts).2 (50 : ℕ)).toNat,
        (Spec.migratedPairs [['P'], ['S']] [['A'], ['B']] exAv).length,
        (Spec.migratedPairs [['P'], ['S']] [['A'], ['B']] exAv).length, exLut.nNodes⟩))
      (serial_isInterleaving (cols - (time2sample (scanPads stepWindows 4 (50 : ℕ) ts).1 (50 : ℕ)).toNat -
        (time2sample (scanPads stepWindows 4 (50 : ℕ) ts).2 (50 : ℕ)).toNat) (sampleProg exLut.nNodes))
    obtain ⟨out, h7, -⟩ := C114_detect_value_partial exLut stepGrid stepWindows 4 50 _ _ exAv stepG stepSetup 0 start
      ts a h1 n h2 1 _ rfl htie _ rfl cols h4 h6 O _ hO _ _ hs
    exact ⟨out, h1, h2, htie, cols, _, _, _, h4, h6, hO, hs, h7⟩
  obtain ⟨out, h⟩ := key 1 2 50 100 (by norm_num) (by norm_num) (by norm_num) ⟨580, by decide +kernel, by norm_num⟩
  obtain ⟨out', h'⟩ := key 2 1 100 50 (by norm_num) (by norm_num) (by norm_num) ⟨530, by decide +kernel, by norm_num⟩
  exact ⟨out, out', h, h', by norm_num⟩

end QM

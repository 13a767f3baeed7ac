import Verif.Model.AmplitudeTable
import Verif.Props.FindPeaks

/-!
# The table of amplitudes: C84, C85
-/

namespace QM
open QM.AmplitudeTable QM.Amplitude QM.Spec

/-! ## C84: three rows per station, measured on its own data with its own traveltimes -/

/-- A single peak and a single trough differ in height. -/
theorem single_differ (x : ℕ → ℚ) (n : ℕ) (P : ℚ) (p t : ℕ) (h1 : FindPeaks.findPeaks x n P = [p])
    (h2 : FindPeaks.findPeaks (fun i => - x i) n P = [t]) : x p ≠ x t := by
  intro heq
  have hp : p ∈ FindPeaks.findPeaks x n P := by rw [h1]; simp
  have ht : t ∈ FindPeaks.findPeaks (fun i => - x i) n P := by rw [h2]; simp
  rcases lt_trichotomy p t with hlt | rfl | hlt
  · obtain ⟨s, hs, s1, s2⟩ := FindPeaks.found_between_level hp ht hlt heq.le
    rw [h2, List.mem_singleton] at hs
    omega
  · exact FindPeaks.not_peak_and_trough hp ht
  · have hp' : p ∈ FindPeaks.findPeaks (fun i => - (fun i => - x i) i) n P := by
      rw [FindPeaks.neg_neg_fun]; exact hp
    obtain ⟨s, hs, s1, s2⟩ := FindPeaks.found_between_level ht hp' hlt (by simp [heq])
    rw [FindPeaks.neg_neg_fun, h1, List.mem_singleton] at hs
    omega

/-- The measurement in a window never fails in an undocumented way. -/
theorem windowAmplitude_bound (mult : ℚ) (data : List ℚ) (delta start : ℚ) :
    FindPeaks.windowAmplitude mult data delta start ≠ .error .unboundLocal := by
  intro h
  unfold FindPeaks.windowAmplitude at h
  obtain ⟨p, t, h1, h2, h3⟩ := (C62_failure_iff _ _ _ _ _).2.2.1.1 h
  exact single_differ _ _ _ p t h1 h2 h3

/-- The samples are all the same (or there are none). -/
def AllEqual (d : List ℚ) : Prop := ∀ v ∈ d, ∀ w ∈ d, v = w

theorem flat_iff (d : List ℚ) : flat d = true ↔ AllEqual d := by
  unfold flat AllEqual
  cases d with
  | nil => simp
  | cons a l =>
    simp only [List.all_eq_true, List.headD_cons]
    constructor
    · intro h v hv w hw; rw [of_decide_eq_true (h v hv), of_decide_eq_true (h w hw)]
    · intro h v hv; exact decide_eq_true (h v hv a (by simp))

/-- What a phase amplitude should be: absent if the window has no data, is flat, has no peak or no
trough (or consecutive ones) or lies where the filter lets nothing through; otherwise half the
peak-to-trough amplitude divided by the gain of the filter. -/
def IsPhaseAmp (c : Ctx) (t : Trace) (w : Window) (r : Option PhaseAmp) : Prop :=
  match r with
  | some a => ∃ m : Meas, FindPeaks.windowAmplitude c.mult (c.data t w).2 t.delta (c.data t w).1 = .ok m ∧
      ¬ AllEqual (c.data t w).2 ∧ a.freq = m.freq ∧ a.time = m.time ∧
      a.gain = c.gain.map (fun g => g t m.freq) ∧
      (∀ g, a.gain = some g → g ≠ 0 ∧ a.amp * g = m.half ∧ a.avg * g = c.average t w) ∧
      (a.gain = none → a.amp = m.half ∧ a.avg = c.average t w)
  | none => AllEqual (c.data t w).2 ∨
      (∃ e, FindPeaks.windowAmplitude c.mult (c.data t w).2 t.delta (c.data t w).1 = .error e) ∨
      ∃ m g, FindPeaks.windowAmplitude c.mult (c.data t w).2 t.delta (c.data t w).1 = .ok m ∧
        c.gain = some g ∧ g t m.freq = 0

theorem signalAmp_spec (c : Ctx) (t : Trace) (w : Window) :
    ∃ r, signalAmp c t w = .ok r ∧ IsPhaseAmp c t w r := by
  unfold signalAmp
  simp only
  split_ifs with h
  · refine ⟨none, rfl, Or.inl ?_⟩
    rw [Bool.or_eq_true] at h
    rcases h with h | h
    · have h' : (c.data t w).2 = [] := by simpa using h
      rw [h']; intro v hv; cases hv
    · exact (flat_iff _).mp h
  · have hf : ¬ AllEqual (c.data t w).2 := by
      intro hc; apply h; rw [Bool.or_eq_true]; exact Or.inr ((flat_iff _).mpr hc)
    cases hm : FindPeaks.windowAmplitude c.mult (c.data t w).2 t.delta (c.data t w).1 with
    | error e =>
      cases e with
      | unboundLocal => exact absurd hm (windowAmplitude_bound _ _ _ _)
      | _ => exact ⟨none, rfl, Or.inr (Or.inl ⟨_, hm⟩)⟩
    | ok m =>
      cases hg : c.gain with
      | none =>
        exact ⟨_, rfl, m, hm, hf, rfl, rfl, by rw [hg]; rfl, by simp, by simp⟩
      | some g =>
        by_cases h0 : g t m.freq = 0
        · exact ⟨none, by simp [h0], Or.inr (Or.inr ⟨m, g, hm, hg, h0⟩)⟩
        · refine ⟨some ⟨m.half / g t m.freq, m.freq, m.time, c.average t w / g t m.freq, some (g t m.freq)⟩, by simp [h0],
            m, hm, hf, rfl, rfl, by rw [hg]; rfl, ?_, by simp⟩
          rintro g' hg'
          simp only [Option.some.injEq] at hg'
          subst hg'
          exact ⟨h0, div_mul_cancel₀ _ h0, div_mul_cancel₀ _ h0⟩

/-- The component codes of the three rows of a station: E or 2 (or a comma, by the pattern), N or 1 (or
a comma), Z. -/
def rowCodes : ℕ → List Char
  | 0 => ['E', '2', ',']
  | 1 => ['N', '1', ',']
  | _ => ['Z']

/-- The component in the name of a row without data. -/
def rowName : ℕ → Picker.Str
  | 0 => "[E,2]".toList
  | 1 => "[N,1]".toList
  | _ => "Z".toList

/-- What row `j` (0, 1, 2 for E, N, Z) of a station with P and S traveltimes `p`, `s` should be. -/
def IsRow (c : Ctx) (station : Picker.Str) (p s : ℚ) (j : ℕ) (r : AmplitudeTable.Row) : Prop :=
  -- the station has one trace of that component and it covers the padded window
  (∃ t, (c.traces station).filter (fun t => decide (t.comp ∈ rowCodes j)) = [t] ∧
    t.start < c.span.1 + t.delta ∧ c.span.2 - t.delta < t.stop ∧ r.id = t.id ∧
    -- its response is known and P comes before S: amplitudes, noise and pick flag
    ((c.response t = true ∧ ∃ w picked,
        getWindows c.cfg c.picks station c.otime p s = .ok (w, picked) ∧
        IsPhaseAmp c t w.1 r.p ∧ IsPhaseAmp c t w.2 r.s ∧
        r.noise = c.noiseAmp t (noiseWindow c.cfg w) ∧ r.picked = picked) ∨
      -- otherwise nothing is measured
      ((c.response t = false ∨ ∃ e, getWindows c.cfg c.picks station c.otime p s = .error e) ∧
        r.p = none ∧ r.s = none ∧ r.noise = none ∧ r.picked = false))) ∨
  -- no such trace: nothing is measured
  ((∀ t, (c.traces station).filter (fun t => decide (t.comp ∈ rowCodes j)) = [t] →
      ¬ (t.start < c.span.1 + t.delta ∧ c.span.2 - t.delta < t.stop)) ∧
    r = ⟨'.' :: station ++ ['.', '.'] ++ rowName j, none, none, none, false⟩)

theorem comps_codes {j : ℕ} {k : Comp} (hk : comps[j]? = some k) :
    (∀ ch, k.sel ch = decide (ch ∈ rowCodes j)) ∧ k.text = rowName j := by
  match j, hk with
  | 0, hk =>
    obtain rfl : k = .e := by simpa [comps] using hk.symm
    refine ⟨fun ch => ?_, by decide⟩
    by_cases h1 : ch = 'E' <;> by_cases h2 : ch = ',' <;> by_cases h3 : ch = '2' <;>
      simp [Comp.sel, rowCodes, h1, h2, h3]
  | 1, hk =>
    obtain rfl : k = .n := by simpa [comps] using hk.symm
    refine ⟨fun ch => ?_, by decide⟩
    by_cases h1 : ch = 'N' <;> by_cases h2 : ch = ',' <;> by_cases h3 : ch = '1' <;>
      simp [Comp.sel, rowCodes, h1, h2, h3]
  | 2, hk =>
    obtain rfl : k = .z := by simpa [comps] using hk.symm
    exact ⟨fun ch => by simp [Comp.sel, rowCodes], by decide⟩
  | (j + 3), hk => simp [comps] at hk

theorem measureRow_spec (c : Ctx) (i : ℕ) (station : Picker.Str) (j : ℕ) (k : Comp)
    (hk : comps[j]? = some k) (p s : ℚ) (hp : c.ptt[i]? = some p) (hs : c.stt[i]? = some s) :
    ∃ r, measureRow c i station k = .ok r ∧ IsRow c station p s j r := by
  unfold measureRow IsRow
  simp only [← (comps_codes hk).1, ← (comps_codes hk).2]
  split
  · rename_i t ht
    by_cases hc : covers c.span t
    · have hc' : t.start < c.span.1 + t.delta ∧ c.span.2 - t.delta < t.stop := by
        simpa [covers] using hc
      rw [if_pos hc]
      by_cases hr : c.response t
      · rw [if_pos hr]
        have hw : windows c i station = .ok (getWindows c.cfg c.picks station c.otime p s) := by
          simp [windows, hp, hs]
        rw [hw]
        cases hg : getWindows c.cfg c.picks station c.otime p s with
        | error e =>
          exact ⟨_, rfl, Or.inl ⟨t, ht, hc'.1, hc'.2, rfl, Or.inr ⟨Or.inr ⟨e, rfl⟩, rfl, rfl, rfl, rfl⟩⟩⟩
        | ok wp =>
          obtain ⟨w, picked⟩ := wp
          obtain ⟨a, ha, ha'⟩ := signalAmp_spec c t w.1
          obtain ⟨b, hb, hb'⟩ := signalAmp_spec c t w.2
          simp only [ha, hb]
          exact ⟨_, rfl, Or.inl ⟨t, ht, hc'.1, hc'.2, rfl,
            Or.inl ⟨hr, w, picked, rfl, ha', hb', rfl, rfl⟩⟩⟩
      · rw [if_neg hr]
        exact ⟨_, rfl, Or.inl ⟨t, ht, hc'.1, hc'.2, rfl,
          Or.inr ⟨Or.inl (by simpa using hr), rfl, rfl, rfl, rfl⟩⟩⟩
    · rw [if_neg hc]
      refine ⟨_, rfl, Or.inr ⟨?_, rfl⟩⟩
      intro t' ht' hcc
      rw [ht] at ht'
      simp only [List.cons.injEq, and_true] at ht'
      subst ht'
      exact hc (by simpa [covers] using hcc)
  · rename_i hne
    refine ⟨_, rfl, Or.inr ⟨?_, rfl⟩⟩
    intro t ht
    exact absurd ht (hne t)

theorem setLoc_new (t : List (ℕ × AmplitudeTable.Row)) (k : ℕ) (r : AmplitudeTable.Row)
    (h : ∀ e ∈ t, e.1 ≠ k) : setLoc t k r = t ++ [(k, r)] := by
  unfold setLoc
  rw [if_neg]
  simp only [List.any_eq_true, decide_eq_true_eq, not_exists, not_and]
  exact h

/-- With labels that do not repeat, the loop adds one row per turn. -/
theorem rowsFrom_spec (c : Ctx) : ∀ (l : List (ℕ × Picker.Str × ℕ × Comp))
    (t : List (ℕ × AmplitudeTable.Row)),
    (∀ e ∈ l, ∃ r, measureRow c e.1 e.2.1 e.2.2.2 = .ok r) →
    (t.map Prod.fst ++ l.map fun e : ℕ × Picker.Str × ℕ × Comp => e.1 * 3 + e.2.2.1).Nodup →
    ∃ rs, rowsFrom c l t = .ok (t ++ rs) ∧
      List.Forall₂ (fun (e : ℕ × Picker.Str × ℕ × Comp) (r : ℕ × AmplitudeTable.Row) => r.1 = e.1 * 3 + e.2.2.1 ∧
        measureRow c e.1 e.2.1 e.2.2.2 = .ok r.2) l rs := by
  intro l
  induction l with
  | nil => intro t _ _; exact ⟨[], by simp [rowsFrom], List.Forall₂.nil⟩
  | cons e l ih =>
    intro t h1 h2
    obtain ⟨i, s, j, k⟩ := e
    obtain ⟨r, hr⟩ := h1 (i, s, j, k) (by simp)
    have hnew : ∀ e ∈ t, e.1 ≠ i * 3 + j := by
      intro e he heq
      exact (List.nodup_append.1 h2).2.2 e.1 (List.mem_map_of_mem he) (i * 3 + j) (by simp) heq
    obtain ⟨rs, h3, h4⟩ := ih (t ++ [(i * 3 + j, r)]) (fun e he => h1 e (List.mem_cons_of_mem _ he))
      (by simpa [List.append_assoc] using h2)
    refine ⟨(i * 3 + j, r) :: rs, ?_, List.Forall₂.cons ⟨rfl, hr⟩ h4⟩
    rw [rowsFrom]
    simp only at hr
    simp only [hr, setLoc_new _ _ _ hnew, h3]
    simp [List.append_assoc]

/-- C84 (partial: see `C84_violated_filtered`, `C84_violated_repeated`).  With a station table numbered
from 0 the table of amplitudes never fails and has the labels 0 … 3n − 1 in order; the rows 3i, 3i+1,
3i+2 are those of the E, N and Z component of station `i`, as they should be for its own traveltimes,
picks and traces. -/
theorem C84_rows_partial (c : Ctx) (names : List Picker.Str)
    (hst : c.stations = names.zipIdx.map Prod.swap)
    (hp : c.ptt.length = names.length) (hs : c.stt.length = names.length) :
    ∃ rows : List AmplitudeTable.Row, rows.length = 3 * names.length ∧
      getAmplitudes c = .ok (rows.zipIdx.map Prod.swap) ∧
      ∀ (i : ℕ) (hi : i < names.length) (j : ℕ), j < 3 →
        ∃ r, rows[3 * i + j]? = some r ∧
          IsRow c names[i] (c.ptt[i]'(by omega)) (c.stt[i]'(by omega)) j r := by
  have hok : ∀ (i : ℕ) (hi : i < names.length) (j : ℕ) (k : Comp), comps[j]? = some k →
      ∃ r, measureRow c i names[i] k = .ok r ∧
      IsRow c names[i] (c.ptt[i]'(by omega)) (c.stt[i]'(by omega)) j r := fun i hi j k hk =>
    measureRow_spec c i names[i] j k hk _ _ (List.getElem?_eq_getElem (by omega))
      (List.getElem?_eq_getElem (by omega))
  set l := c.stations.flatMap fun s => comps.zipIdx.map fun k => (s.1, s.2, k.2, k.1) with hl
  -- position 3 i + j of the loop
  have hlen : l.length = 3 * names.length := by
    rw [hl, List.length_flatMap]
    simp [hst, comps, mul_comm, Function.comp_def]
  have hpos : ∀ (i : ℕ) (hi : i < names.length) (j : ℕ) (k : Comp), comps[j]? = some k →
      l[3 * i + j]? = some (i, names[i], j, k) := by
    suffices H : ∀ (ns : List Picker.Str) (off : ℕ) (i : ℕ) (hi : i < ns.length) (j : ℕ) (k : Comp),
        comps[j]? = some k →
        (((ns.zipIdx off).map Prod.swap).flatMap fun s : ℕ × Picker.Str =>
          comps.zipIdx.map fun k => (s.1, s.2, k.2, k.1))[3 * i + j]? = some (off + i, ns[i], j, k) by
      intro i hi j k hk
      have := H names 0 i hi j k hk
      rw [hl, hst]
      simpa using this
    intro ns
    induction ns with
    | nil => intro off i hi; simp at hi
    | cons a ns ih =>
      intro off i hi j k hk
      have hj : j < 3 := by
        by_contra hc
        rw [List.getElem?_eq_none (by simp [comps]; omega)] at hk
        simp at hk
      rw [List.zipIdx_cons, List.map_cons, List.flatMap_cons]
      cases i with
      | zero =>
        rw [List.getElem?_append_left (by simp [comps]; omega)]
        rcases (by omega : j = 0 ∨ j = 1 ∨ j = 2) with rfl | rfl | rfl <;>
          simp [comps] at hk ⊢ <;> exact hk
      | succ i =>
        rw [List.getElem?_append_right (by simp [comps]; omega)]
        have e : 3 * (i + 1) + j - (List.map (fun k => ((a, off).swap.1, (a, off).swap.2, k.2, k.1))
            comps.zipIdx).length = 3 * i + j := by simp [comps]; omega
        rw [e, ih (off + 1) i (by simpa using hi) j k hk]
        simp [Nat.add_assoc, Nat.add_comm 1 i]
  have hdec : ∀ m < l.length, ∃ (i : ℕ) (_ : i < names.length) (j : ℕ) (k : Comp),
      comps[j]? = some k ∧ m = 3 * i + j := by
    intro m hm
    have h3 : m % 3 < 3 := Nat.mod_lt _ (by norm_num)
    refine ⟨m / 3, by omega, m % 3, comps[m % 3]'(by simpa [comps] using h3),
      List.getElem?_eq_getElem _, by omega⟩
  have hget : ∀ m (hm : m < l.length), ∃ (i : ℕ) (hi : i < names.length) (j : ℕ) (k : Comp),
      comps[j]? = some k ∧ m = 3 * i + j ∧ l[m] = (i, names[i], j, k) := by
    intro m hm
    obtain ⟨i, hi, j, k, hk, rfl⟩ := hdec m hm
    have h := hpos i hi j k hk
    rw [List.getElem?_eq_getElem hm] at h
    exact ⟨i, hi, j, k, hk, rfl, Option.some.inj h⟩
  have hlab : (l.map fun e => e.1 * 3 + e.2.2.1) = List.range l.length := by
    apply List.ext_getElem (by simp)
    intro m h1 h2
    simp only [List.length_map] at h1
    obtain ⟨i, hi, j, k, hk, e1, e2⟩ := hget m h1
    simp only [List.getElem_map, List.getElem_range, e2]
    omega
  obtain ⟨rs, h1, h2⟩ := rowsFrom_spec c l [] (by
      intro e he
      obtain ⟨m, hm, rfl⟩ := List.getElem_of_mem he
      obtain ⟨i, hi, j, k, hk, e1, e2⟩ := hget m hm
      obtain ⟨r, hr, -⟩ := hok i hi j k hk
      exact ⟨r, by rw [e2]; exact hr⟩)
    (by rw [List.map_nil, List.nil_append, hlab]; exact List.nodup_range)
  have hrl : rs.length = l.length := h2.length_eq.symm
  have hat : ∀ m (hm : m < l.length), (rs[m]'(by omega)).1 = m ∧
      measureRow c l[m].1 l[m].2.1 l[m].2.2.2 = .ok (rs[m]'(by omega)).2 := by
    intro m hm
    obtain ⟨a, b⟩ := (List.forall₂_iff_get.1 h2).2 m hm (by omega)
    simp only [List.get_eq_getElem] at a b
    obtain ⟨i, hi, j, k, hk, e1, e2⟩ := hget m hm
    refine ⟨?_, b⟩
    rw [a, e2]
    simp only
    omega
  refine ⟨rs.map Prod.snd, by rw [List.length_map, hrl, hlen], ?_, ?_⟩
  · unfold getAmplitudes
    rw [← hl, h1, List.nil_append]
    congr 1
    apply List.ext_getElem (by simp)
    intro m h3 h4
    have := (hat m (by omega)).1
    simp only [List.getElem_map, List.getElem_zipIdx, Prod.swap, Nat.zero_add]
    exact Prod.ext this rfl
  · intro i hi j hj
    obtain ⟨k, hk⟩ : ∃ k, comps[j]? = some k :=
      ⟨_, List.getElem?_eq_getElem (by simpa [comps] using hj)⟩
    have hm : 3 * i + j < l.length := by rw [hlen]; omega
    obtain ⟨r, hr, hrow⟩ := hok i hi j k hk
    refine ⟨r, ?_, hrow⟩
    obtain ⟨-, b⟩ := hat _ hm
    have e := hpos i hi j k hk
    rw [List.getElem?_eq_getElem hm] at e
    rw [Option.some.inj e] at b
    simp only [hr] at b
    rw [List.getElem?_map, List.getElem?_eq_getElem (by omega), Option.map_some, Except.ok.inj b]

/-- An event seen at two stations A (P after 1 s, S after 2 s) and B (P after 5 s, S after 9 s). -/
def exAmpCtx (stations : List (ℕ × Picker.Str)) : Ctx where
  cfg := ⟨1, 1 / 10, 0, 5⟩
  otime := 100
  mult := 0
  span := (90, 120)
  stations := stations
  ptt := [1, 5]
  stt := [3, 9]
  picks := []
  traces := fun s => [⟨s ++ ['Z'], 'Z', 90, 120, 1 / 100⟩, ⟨s ++ ['N'], 'N', 90, 110, 1 / 100⟩]
  response := fun _ => true
  data := fun _ w => (w.1, [0, w.2 - w.1, -1, 0])
  gain := none
  average := fun _ w => w.2
  noiseAmp := fun _ w => some w.1

/-- The hypotheses of `C84_rows_partial` are met, and the table is what one expects. -/
example : ∃ t, getAmplitudes (exAmpCtx ([['A'], ['B']].zipIdx.map Prod.swap)) = .ok t ∧ t =
    [(0, ⟨['.', 'A', '.', '.', '[', 'E', ',', '2', ']'], none, none, none, false⟩),
     (1, ⟨['.', 'A', '.', '.', '[', 'N', ',', '1', ']'], none, none, none, false⟩),
     (2, ⟨['A', 'Z'], some ⟨1500, 50, 19983 / 200, 1019 / 10, none⟩,
       some ⟨1700, 50, 20383 / 200, 1043 / 10, none⟩, some (949 / 10), false⟩),
     (3, ⟨['.', 'B', '.', '.', '[', 'E', ',', '2', ']'], none, none, none, false⟩),
     (4, ⟨['.', 'B', '.', '.', '[', 'N', ',', '1', ']'], none, none, none, false⟩),
     (5, ⟨['B', 'Z'], some ⟨2000, 50, 20703 / 200, 213 / 2, none⟩,
       some ⟨2400, 50, 21423 / 200, 1109 / 10, none⟩, some (197 / 2), false⟩)] := by
  refine ⟨_, ?_, rfl⟩
  decide +kernel

/-- C84 is violated by a station table whose labels are not the positions, e.g. one the user sorted: a
label is taken for a position in the list of traveltimes.  Here the table is in the order B, A with the
labels 1, 0, so that the traveltimes served for B are 1 s and 3 s; B is measured in the windows for 5 s
and 9 s, those of A. -/
theorem C84_violated_sorted : ∃ t r,
    getAmplitudes (exAmpCtx [(1, ['B']), (0, ['A'])]) = .ok t ∧ (5, r) ∈ t ∧ r.id = ['B', 'Z'] ∧
      (exAmpCtx [(1, ['B']), (0, ['A'])]).ptt[0]? = some 1 ∧
      (exAmpCtx [(1, ['B']), (0, ['A'])]).stt[0]? = some 3 ∧
      ¬ IsRow (exAmpCtx [(1, ['B']), (0, ['A'])]) ['B'] 1 3 2 r := by
  refine ⟨[(3, ⟨['.', 'B', '.', '.', '[', 'E', ',', '2', ']'], none, none, none, false⟩),
     (4, ⟨['.', 'B', '.', '.', '[', 'N', ',', '1', ']'], none, none, none, false⟩),
     (5, ⟨['B', 'Z'], some ⟨2000, 50, 20703 / 200, 213 / 2, none⟩,
       some ⟨2400, 50, 21423 / 200, 1109 / 10, none⟩, some (197 / 2), false⟩),
     (0, ⟨['.', 'A', '.', '.', '[', 'E', ',', '2', ']'], none, none, none, false⟩),
     (1, ⟨['.', 'A', '.', '.', '[', 'N', ',', '1', ']'], none, none, none, false⟩),
     (2, ⟨['A', 'Z'], some ⟨1500, 50, 19983 / 200, 1019 / 10, none⟩,
       some ⟨1700, 50, 20383 / 200, 1043 / 10, none⟩, some (949 / 10), false⟩)],
    ⟨['B', 'Z'], some ⟨2000, 50, 20703 / 200, 213 / 2, none⟩,
       some ⟨2400, 50, 21423 / 200, 1109 / 10, none⟩, some (197 / 2), false⟩,
    by decide +kernel, by simp, rfl, rfl, rfl, ?_⟩
  have hw : getWindows (exAmpCtx [(1, ['B']), (0, ['A'])]).cfg [] ['B'] 100 1 3 =
      .ok (((999 / 10, 1019 / 10), (1017 / 10, 1043 / 10)), false) ∨
    getWindows (exAmpCtx [(1, ['B']), (0, ['A'])]).cfg [] ['B'] 100 1 3 =
      .ok (((999 / 10, 1019 / 10), (1019 / 10, 1043 / 10)), false) := by decide +kernel
  rintro (⟨t, ht, -, -, -, ⟨-, w, picked, h1, -, -, h2, -⟩ | ⟨-, h, -⟩⟩ | ⟨-, h⟩)
  · have hn : (197 / 2 : ℚ) = w.1.1 - 5 := by
      simpa [exAmpCtx, noiseWindow] using h2
    have h1' : getWindows (exAmpCtx [(1, ['B']), (0, ['A'])]).cfg [] ['B'] 100 1 3 =
      .ok (w, picked) := h1
    rcases hw with hw | hw <;>
    · rw [hw] at h1'
      have := congrArg (fun v => v.1.1.1) (Except.ok.inj h1')
      simp only at this
      rw [← this] at hn
      norm_num at hn
  · simp at h
  · have := congrArg AmplitudeTable.Row.noise h
    simp at this

/-- C84 is violated by a table the user filtered: a label beyond the number of stations stops the whole
calculation. -/
theorem C84_violated_filtered :
    getAmplitudes (exAmpCtx [(0, ['A']), (2, ['B'])]) = .error .indexError := by decide +kernel

/-- C84 is violated by a table with a repeated label (e.g. two tables the user put together): the rows
of the first station are lost. -/
theorem C84_violated_repeated : ∃ t, getAmplitudes (exAmpCtx [(0, ['A']), (0, ['B'])]) = .ok t ∧
    t.length = 3 ∧ ∀ e ∈ t, e.2.id ≠ ['A', 'Z'] := by
  refine ⟨[(0, ⟨['.', 'B', '.', '.', '[', 'E', ',', '2', ']'], none, none, none, false⟩),
     (1, ⟨['.', 'B', '.', '.', '[', 'N', ',', '1', ']'], none, none, none, false⟩),
     (2, ⟨['B', 'Z'], some ⟨1500, 50, 19983 / 200, 1019 / 10, none⟩,
       some ⟨1700, 50, 20383 / 200, 1043 / 10, none⟩, some (949 / 10), false⟩)],
    by decide +kernel, rfl, by decide⟩

/-! ## C85: a filter without its frequency is refused -/

/-- C85 (partial: see `C85_violated`).  The constructor refuses a highpass filter without a frequency
and two filters at once, and nothing that is complete. -/
theorem C85_refused_partial (f : FilterParams) :
    (f.highpass = true → f.highpassFreq = none → AmplitudeTable.init f = .error .attributeError) ∧
    (f.highpass = true → f.bandpass = true → AmplitudeTable.init f = .error .attributeError) ∧
    (¬ (f.highpass = true ∧ f.bandpass = true) → (f.highpass = true → f.highpassFreq ≠ none) →
      AmplitudeTable.init f = .ok f) := by
  obtain ⟨hp, hf, bp, lo, hi⟩ := f
  cases hp <;> cases bp <;> cases hf <;> simp [AmplitudeTable.init]

example : AmplitudeTable.init ⟨true, some 2, false, none, none⟩ =
    .ok ⟨true, some 2, false, none, none⟩ := rfl
example : AmplitudeTable.init ⟨true, none, false, none, none⟩ = .error .attributeError := rfl

/-- C85 is violated by the bandpass filter: both frequencies may be missing. -/
theorem C85_violated : ∃ f : FilterParams, f.bandpass = true ∧ f.lowcut = none ∧ f.highcut = none ∧
    AmplitudeTable.init f = .ok f :=
  ⟨⟨false, none, true, none, none⟩, rfl, rfl, rfl, rfl⟩

end QM

import Verif.Lemmas.Migrate
import Verif.Spec.Coalescence

/-!
# Properties of the migration kernel: C26, C28-C31
-/

namespace QM
open QM.Migrate Finset

/-- The conditions under which `QuakeScan._compute` calls `migrate` (C27 and C32
prove them for the scan): at least one onset function, as many traveltime tables
as onset functions, non-negative number of samples, the onset array addressable
with `int32_t`, and no traveltime beyond the padding. -/
structure MigrateOK {V : Type} (on : Arr2 V) (tt : Arr2 ℤ) (first last : ℕ) : Prop where
  pos : 0 < on.rows
  luts : tt.cols = on.rows
  fits : first + last ≤ on.cols
  int32 : on.rows * on.cols ≤ 2 ^ 31
  pad : ∀ node < tt.rows, ∀ k < on.rows, tt.get node k ≤ last

theorem mkArgs_good {V : Type} (ar : Arith V) {on : Arr2 V} {tt : Arr2 ℤ} {first last : ℕ}
    (h : MigrateOK on tt first last) (av : ℤ) :
    Good (mkArgsWith ar on tt first last av) (fun k j => ar.logClip (on.get k j)) tt.get := by
  have hT : first + last + (on.cols - first - last) = on.cols := by have := h.fits; omega
  refine ⟨?_, ?_, ?_, ?_⟩
  · intro st hst j hj
    simp only [mkArgsWith] at hst hj ⊢
    rw [hT] at hj ⊢
    exact flat_get (logOnsets ar on) hst hj
  · intro n hn st hst
    simp only [mkArgsWith] at hn hst ⊢
    rw [← h.luts] at hst ⊢
    exact flat_get tt hn hst
  · intro n hn st hst
    exact h.pad n hn st hst
  · simp only [mkArgsWith]; rw [hT]; exact h.int32

/-- The value at a node and sample, whatever the arithmetic: the logarithms of the delayed onset values
are added in the order of the stations. -/
theorem migrateWith_value {V : Type} (ar : Arith V) {on : Arr2 V} {tt : Arr2 ℤ} {first last : ℕ}
    (h : MigrateOK on tt first last) (av : ℤ) {sched : List (ℕ × Op)}
    (hs : IsInterleaving tt.rows (nodeProg (mkArgsWith ar on tt first last av)) sched) :
    ∃ m, migrateWith ar on tt first last av sched = .ok m ∧
      ∀ node < tt.rows, ∀ s < on.cols - first - last,
        m node s = ar.expDiv (((List.range on.rows).map fun k =>
          ar.logClip (on.get k (first + s + (max 0 (tt.get node k)).toNat))).foldl ar.add ar.zero) av := by
  obtain ⟨st, h1, h2⟩ := run_interleaved (ar := ar) (mkArgs_good ar h av) hs
  refine ⟨fun node s => st.mem (node * (on.cols - first - last) + s), ?_, ?_⟩
  · have hf := h.fits
    have hp := h.pos
    have : on.cols ≤ on.rows * on.cols := Nat.le_mul_of_pos_left _ hp
    unfold migrateWith
    rw [if_neg (by omega), if_neg (by simp [h.luts]), if_neg (by omega), h1]
  · intro node hn s hss
    exact h2 node hn s hss

theorem migrate_value {on : Arr2 ℝ} {tt : Arr2 ℤ} {first last : ℕ} (h : MigrateOK on tt first last)
    (av : ℤ) {sched : List (ℕ × Op)}
    (hs : IsInterleaving tt.rows (nodeProg (mkArgs on tt first last av)) sched) :
    ∃ m, migrate on tt first last av sched = .ok m ∧
      ∀ node < tt.rows, ∀ s < on.cols - first - last,
        m node s = Real.exp ((∑ k ∈ range on.rows,
          Real.log (Spec.stacked on.get tt.get first node s k)) / (av : ℝ)) := by
  obtain ⟨m, h1, h2⟩ := migrateWith_value realArith h av hs
  refine ⟨m, h1, fun node hn s hss => ?_⟩
  rw [h2 node hn s hss]
  show Real.exp (((List.range on.rows).map fun k => Real.log (max (1 / 100)
    (on.get k (first + s + (max 0 (tt.get node k)).toNat)))).foldl (fun x y => x + y) 0 / (av : ℝ)) = _
  rw [foldl_add_eq_sum, zero_add]
  rfl

/-- C26: under the guard, no access leaves any array (every schedule). -/
theorem C26_no_out_of_bounds (on : Arr2 ℝ) (tt : Arr2 ℤ) (first last : ℕ)
    (h : MigrateOK on tt first last) (av : ℤ) (sched : List (ℕ × Op))
    (hs : IsInterleaving tt.rows (nodeProg (mkArgs on tt first last av)) sched) :
    migrate on tt first last av sched ≠ .error .undefinedBehaviour ∧
    ∃ m, migrate on tt first last av sched = .ok m := by
  obtain ⟨m, hm, _⟩ := migrate_value h av hs
  exact ⟨by rw [hm]; simp, m, hm⟩

/-- C26: for each station/phase only that station/phase's onset function is read,
and only at the delayed sample: two onset arrays that agree there give the same
coalescence at the node and sample. -/
theorem C26_reads_only_own_onset (on on' : Arr2 ℝ) (tt : Arr2 ℤ) (first last : ℕ)
    (h : MigrateOK on tt first last) (hrows : on'.rows = on.rows) (hcols : on'.cols = on.cols)
    (av : ℤ) (sched sched' : List (ℕ × Op))
    (hs : IsInterleaving tt.rows (nodeProg (mkArgs on tt first last av)) sched)
    (hs' : IsInterleaving tt.rows (nodeProg (mkArgs on' tt first last av)) sched')
    (m m' : ℕ → ℕ → ℝ) (hm : migrate on tt first last av sched = .ok m)
    (hm' : migrate on' tt first last av sched' = .ok m')
    (node s : ℕ) (hn : node < tt.rows) (hsn : s < on.cols - first - last)
    (hagree : ∀ k < on.rows, ∀ j < on.cols, (j : ℤ) = first + s + max 0 (tt.get node k) →
      on.get k j = on'.get k j) :
    m node s = m' node s := by
  have h' : MigrateOK on' tt first last :=
    ⟨by rw [hrows]; exact h.pos, by rw [hrows]; exact h.luts, by rw [hcols]; exact h.fits,
      by rw [hrows, hcols]; exact h.int32, by rw [hrows]; exact h.pad⟩
  obtain ⟨a, ha, hav⟩ := migrate_value h av hs
  obtain ⟨b, hb, hbv⟩ := migrate_value h' av hs'
  rw [hm] at ha; rw [hm'] at hb
  cases ha; cases hb
  rw [hav node hn s hsn, hbv node hn s (by rw [hcols]; exact hsn), hrows]
  congr 2
  refine Finset.sum_congr rfl fun k hk => ?_
  have hk' := Finset.mem_range.1 hk
  have hp := h.pad node hn k hk'
  have := h.fits
  unfold Spec.stacked
  rw [hagree k hk' _ (by omega) (by omega)]

/-- C26: the guard on the traveltimes is needed. If the traveltime of the last
onset function to some node exceeds the padding, the wrapper's own size check
does not stop the call and every schedule reads past the end of the array. -/
theorem C26_guard_needed (on : Arr2 ℝ) (tt : Arr2 ℤ) (first last : ℕ) (hpos : 0 < on.rows)
    (hluts : tt.cols = on.rows) (hfits : first + last < on.cols)
    (node : ℕ) (hn : node < tt.rows) (hbig : (last : ℤ) < tt.get node (on.rows - 1))
    (av : ℤ) (sched : List (ℕ × Op))
    (hs : IsInterleaving tt.rows (nodeProg (mkArgs on tt first last av)) sched) :
    migrate on tt first last av sched = .error .undefinedBehaviour := by
  have hT : first + last + (on.cols - first - last) = on.cols := by omega
  have hf := fault_interleaved (ar := realArith) (A := mkArgs on tt first last av) (node := node)
    (t := tt.get node (on.rows - 1)) hn hpos (by simp only [mkArgsWith]; omega)
    (by simp only [mkArgsWith]; rw [hT, flat_length]; simp [logOnsets])
    (by
      simp only [mkArgsWith]
      have := flat_get tt hn (show on.rows - 1 < tt.cols by omega)
      rw [hluts] at this
      exact this)
    (Or.inl (by simpa [mkArgsWith] using hbig)) hs
  have : on.cols ≤ on.rows * on.cols := Nat.le_mul_of_pos_left _ hpos
  unfold migrate migrateWith
  rw [if_neg (by omega), if_neg (by simp [hluts]), if_neg (by omega), hf]

/-- C26: the limit on the size of the onset array is needed. If the last sample read of the last onset function has an
index of 2^31 or more, every schedule overflows the index of the C function, whatever the padding. -/
theorem C26_size_limit_needed (on : Arr2 ℝ) (tt : Arr2 ℤ) (first last : ℕ) (hpos : 0 < on.rows)
    (hluts : tt.cols = on.rows) (hfits : first + last < on.cols)
    (node : ℕ) (hn : node < tt.rows)
    (hbig : 2 ^ 31 ≤ ((on.rows : ℤ) - 1) * on.cols + (on.cols - last - 1) + tt.get node (on.rows - 1))
    (av : ℤ) (sched : List (ℕ × Op))
    (hs : IsInterleaving tt.rows (nodeProg (mkArgs on tt first last av)) sched) :
    migrate on tt first last av sched = .error .undefinedBehaviour := by
  have hT : first + last + (on.cols - first - last) = on.cols := by omega
  have hf := fault_interleaved (ar := realArith) (A := mkArgs on tt first last av) (node := node)
    (t := tt.get node (on.rows - 1)) hn hpos (by simp only [mkArgsWith]; omega)
    (by simp only [mkArgsWith]; rw [hT, flat_length]; simp [logOnsets])
    (by
      simp only [mkArgsWith]
      have := flat_get tt hn (show on.rows - 1 < tt.cols by omega)
      rw [hluts] at this
      exact this)
    (Or.inr (by
      simp only [mkArgsWith]
      rw [hT]
      have e1 : ((on.rows - 1 : ℕ) : ℤ) = (on.rows : ℤ) - 1 := by omega
      have e2 : ((on.rows - 1) * on.cols : ℕ) = (((on.rows : ℤ) - 1) * on.cols : ℤ) := by push_cast; rw [e1]
      have e3 : (INT32 : ℤ) = 2 ^ 31 := by norm_num [INT32]
      rw [e3]
      generalize hgen : (on.rows - 1) * on.cols = u at e2
      rw [← e2] at hbig
      omega)) hs
  have : on.cols ≤ on.rows * on.cols := Nat.le_mul_of_pos_left _ hpos
  unfold migrate migrateWith
  rw [if_neg (by omega), if_neg (by simp [hluts]), if_neg (by omega), hf]

/-- One onset function of 2^31 + 1 samples without padding is too long. -/
example : let on : Arr2 ℝ := ⟨1, 2 ^ 31 + 1, fun _ _ => 1⟩
    let tt : Arr2 ℤ := ⟨1, 1, fun _ _ => 0⟩
    0 < on.rows ∧ tt.cols = on.rows ∧ 0 + 0 < on.cols ∧ 0 < tt.rows ∧
      2 ^ 31 ≤ ((on.rows : ℤ) - 1) * on.cols + (on.cols - (0 : ℕ) - 1) + tt.get 0 (on.rows - 1) := by
  norm_num

/-- C26: a mismatch between the number of onset functions and of traveltime tables
is rejected before the arrays are touched. -/
theorem C26_mismatch_rejected (on : Arr2 ℝ) (tt : Arr2 ℤ) (first last : ℕ)
    (hne : tt.cols ≠ on.rows) (av : ℤ) (sched : List (ℕ × Op)) :
    migrate on tt first last av sched = .error .valueError := by
  have h : ∀ r : Except Err (ℕ → ℕ → ℝ), (if tt.cols ≠ on.rows then .error .valueError else r) =
      .error .valueError := fun r => if_pos hne
  unfold migrate migrateWith
  rw [h]
  split <;> rfl

/-- A 2-node, 2-station example used below. -/
noncomputable def exOn : Arr2 ℝ := ⟨2, 5, fun i j => i + j + 1⟩
def exTT : Arr2 ℤ := ⟨2, 2, fun n k => (n : ℤ) - k⟩
theorem exMigrateOK : MigrateOK exOn exTT 1 2 := by
  refine ⟨by simp [exOn], by simp [exOn, exTT], by simp [exOn], by simp [exOn], ?_⟩
  intro n hn k _
  simp only [exTT] at hn ⊢
  omega

example : MigrateOK exOn exTT 1 2 ∧
    IsInterleaving exTT.rows (nodeProg (mkArgs exOn exTT 1 2 2))
      (serial exTT.rows (nodeProg (mkArgs exOn exTT 1 2 2))) :=
  ⟨exMigrateOK, serial_isInterleaving _ _⟩

/-- with one padding sample too few, node 1's traveltime to the only station leaves the array -/
example : (0 : ℤ) < (⟨2, 1, fun n _ => n⟩ : Arr2 ℤ).get 1 (1 - 1) ∧
    1 + 0 < (⟨1, 3, fun _ _ => 1⟩ : Arr2 ℝ).cols := by simp

/-- C28: every value of the map is the geometric mean of the stacked onset values;
`available` is the number of onset functions (C32). -/
theorem C28_geometric_mean (on : Arr2 ℝ) (tt : Arr2 ℤ) (first last : ℕ)
    (h : MigrateOK on tt first last) (sched : List (ℕ × Op))
    (hs : IsInterleaving tt.rows (nodeProg (mkArgs on tt first last on.rows)) sched) :
    ∃ m, migrate on tt first last on.rows sched = .ok m ∧
      ∀ node < tt.rows, ∀ s < on.cols - first - last,
        m node s = Spec.geoMean on.rows (Spec.stacked on.get tt.get first node s) := by
  obtain ⟨m, hm, hv⟩ := migrate_value h on.rows hs
  refine ⟨m, hm, fun node hn s hsn => ?_⟩
  rw [hv node hn s hsn]
  have hpos : ∀ k, 0 < Spec.stacked on.get tt.get first node s k := fun k =>
    lt_of_lt_of_le (by norm_num) (le_max_left _ _)
  have hprod : 0 < ∏ k ∈ range on.rows, Spec.stacked on.get tt.get first node s k :=
    Finset.prod_pos fun k _ => hpos k
  unfold Spec.geoMean
  rw [Real.rpow_def_of_pos hprod, Real.log_prod (fun k _ => (hpos k).ne')]
  congr 1
  push_cast
  ring

theorem stacked_pos (f : ℕ → ℕ → ℝ) (tt : ℕ → ℕ → ℤ) (a b c k : ℕ) :
    0 < Spec.stacked f tt a b c k := lt_of_lt_of_le (by norm_num) (le_max_left _ _)

theorem geoMean_le {n : ℕ} (hn : 0 < n) {x : ℕ → ℝ} (hx : ∀ k < n, 0 < x k) {c : ℝ} (hc : 0 < c)
    (h : ∀ k < n, x k ≤ c) : Spec.geoMean n x ≤ c := by
  unfold Spec.geoMean
  have hn' : (0:ℝ) < n := by exact_mod_cast hn
  have h1 : ∏ k ∈ range n, x k ≤ c ^ n := by
    calc ∏ k ∈ range n, x k ≤ ∏ k ∈ range n, c :=
          Finset.prod_le_prod (fun k hk => (hx k (Finset.mem_range.1 hk)).le)
            (fun k hk => h k (Finset.mem_range.1 hk))
      _ = c ^ n := by simp
  calc (∏ k ∈ range n, x k) ^ (1 / (n:ℝ)) ≤ (c ^ n) ^ (1 / (n:ℝ)) :=
        Real.rpow_le_rpow (Finset.prod_nonneg fun k hk => (hx k (Finset.mem_range.1 hk)).le) h1
          (by positivity)
    _ = c := by
      rw [← Real.rpow_natCast, ← Real.rpow_mul hc.le]
      field_simp
      simp

theorem le_geoMean {n : ℕ} (hn : 0 < n) {x : ℕ → ℝ} {c : ℝ} (hc : 0 < c)
    (h : ∀ k < n, c ≤ x k) : c ≤ Spec.geoMean n x := by
  unfold Spec.geoMean
  have hn' : (0:ℝ) < n := by exact_mod_cast hn
  have h1 : c ^ n ≤ ∏ k ∈ range n, x k := by
    calc c ^ n = ∏ k ∈ range n, c := by simp
      _ ≤ ∏ k ∈ range n, x k :=
          Finset.prod_le_prod (fun k _ => hc.le) (fun k hk => h k (Finset.mem_range.1 hk))
  calc c = (c ^ n) ^ (1 / (n:ℝ)) := by
        rw [← Real.rpow_natCast, ← Real.rpow_mul hc.le]
        field_simp
        simp
    _ ≤ (∏ k ∈ range n, x k) ^ (1 / (n:ℝ)) :=
        Real.rpow_le_rpow (by positivity) h1 (by positivity)

/-- C29: each coalescence value lies between the smallest and the largest of the
stacked onset values (both are attained). -/
theorem C29_between_extremes (on : Arr2 ℝ) (tt : Arr2 ℤ) (first last : ℕ)
    (h : MigrateOK on tt first last) (sched : List (ℕ × Op))
    (hs : IsInterleaving tt.rows (nodeProg (mkArgs on tt first last on.rows)) sched)
    (m : ℕ → ℕ → ℝ) (hm : migrate on tt first last on.rows sched = .ok m)
    (node : ℕ) (hn : node < tt.rows) (s : ℕ) (hsn : s < on.cols - first - last) :
    (∃ k < on.rows, Spec.stacked on.get tt.get first node s k ≤ m node s) ∧
    (∃ k < on.rows, m node s ≤ Spec.stacked on.get tt.get first node s k) := by
  obtain ⟨m', hm', hv⟩ := C28_geometric_mean on tt first last h sched hs
  rw [hm] at hm'; cases hm'
  rw [hv node hn s hsn]
  have hne : (range on.rows).Nonempty := ⟨0, Finset.mem_range.2 h.pos⟩
  obtain ⟨a, ha, hamin⟩ := Finset.exists_min_image _ (Spec.stacked on.get tt.get first node s) hne
  obtain ⟨b, hb, hbmax⟩ := Finset.exists_max_image _ (Spec.stacked on.get tt.get first node s) hne
  exact ⟨⟨a, Finset.mem_range.1 ha, le_geoMean h.pos (stacked_pos ..)
      (fun k hk => hamin k (Finset.mem_range.2 hk))⟩,
    ⟨b, Finset.mem_range.1 hb, geoMean_le h.pos (fun k _ => stacked_pos ..) (stacked_pos ..)
      (fun k hk => hbmax k (Finset.mem_range.2 hk))⟩⟩

/-- C29: raising onset samples never lowers any coalescence value. -/
theorem C29_monotone (on on' : Arr2 ℝ) (tt : Arr2 ℤ) (first last : ℕ)
    (h : MigrateOK on tt first last) (hrows : on'.rows = on.rows) (hcols : on'.cols = on.cols)
    (hle : ∀ k < on.rows, ∀ j < on.cols, on.get k j ≤ on'.get k j)
    (sched sched' : List (ℕ × Op))
    (hs : IsInterleaving tt.rows (nodeProg (mkArgs on tt first last on.rows)) sched)
    (hs' : IsInterleaving tt.rows (nodeProg (mkArgs on' tt first last on'.rows)) sched')
    (m m' : ℕ → ℕ → ℝ) (hm : migrate on tt first last on.rows sched = .ok m)
    (hm' : migrate on' tt first last on'.rows sched' = .ok m')
    (node : ℕ) (hn : node < tt.rows) (s : ℕ) (hsn : s < on.cols - first - last) :
    m node s ≤ m' node s := by
  have h' : MigrateOK on' tt first last :=
    ⟨by rw [hrows]; exact h.pos, by rw [hrows]; exact h.luts, by rw [hcols]; exact h.fits,
      by rw [hrows, hcols]; exact h.int32, by rw [hrows]; exact h.pad⟩
  obtain ⟨a, ha, hav⟩ := C28_geometric_mean on tt first last h sched hs
  obtain ⟨b, hb, hbv⟩ := C28_geometric_mean on' tt first last h' sched' hs'
  rw [hm] at ha; rw [hm'] at hb
  cases ha; cases hb
  rw [hav node hn s hsn, hbv node hn s (by rw [hcols]; exact hsn), hrows]
  unfold Spec.geoMean
  apply Real.rpow_le_rpow (Finset.prod_nonneg fun k _ => (stacked_pos ..).le) _ (by positivity)
  refine Finset.prod_le_prod (fun k _ => (stacked_pos ..).le) fun k hk => ?_
  have hk' := Finset.mem_range.1 hk
  have hp := h.pad node hn k hk'
  have := h.fits
  exact max_le_max le_rfl (hle k hk' _ (by omega))

example : ∃ m, migrate exOn exTT 1 2 exOn.rows
    (serial exTT.rows (nodeProg (mkArgs exOn exTT 1 2 exOn.rows))) = .ok m ∧
    m 1 1 = Spec.geoMean 2 (Spec.stacked exOn.get exTT.get 1 1 1) := by
  obtain ⟨m, h1, h2⟩ := C28_geometric_mean exOn exTT 1 2 exMigrateOK _ (serial_isInterleaving _ _)
  exact ⟨m, h1, h2 1 (by simp [exTT]) 1 (by simp [exOn])⟩

/-- the stacked values of the example: station 0 is read at 1+1+1, station 1 at 1+1+0. -/
example : Spec.stacked exOn.get exTT.get 1 1 1 0 = 4 ∧ Spec.stacked exOn.get exTT.get 1 1 1 1 = 4 := by
  constructor <;> simp [Spec.stacked, exOn, exTT] <;> norm_num

/-- C30 (`migrate`), bit for bit: whatever the arithmetic (in particular doubles, with rounding, infinities
and NaN), any two schedules of the parallel loop, in particular any
number of threads and the serial loop, either both fail in the same way or both
succeed with the same map. No condition on the inputs. -/
theorem C30_migrate_schedule_independent {V : Type} (ar : Arith V) (on : Arr2 V) (tt : Arr2 ℤ) (first last : ℕ) (av : ℤ)
    (s₁ s₂ : List (ℕ × Op))
    (h₁ : IsInterleaving tt.rows (nodeProg (mkArgsWith ar on tt first last av)) s₁)
    (h₂ : IsInterleaving tt.rows (nodeProg (mkArgsWith ar on tt first last av)) s₂) :
    (∃ e, migrateWith ar on tt first last av s₁ = .error e ∧ migrateWith ar on tt first last av s₂ = .error e) ∨
    (∃ m₁ m₂, migrateWith ar on tt first last av s₁ = .ok m₁ ∧ migrateWith ar on tt first last av s₂ = .ok m₂ ∧
      ∀ node < tt.rows, ∀ s < on.cols - first - last, m₁ node s = m₂ node s) := by
  unfold migrateWith
  split
  · exact .inl ⟨_, rfl, rfl⟩
  split
  · exact .inl ⟨_, rfl, rfl⟩
  split
  · exact .inl ⟨_, rfl, rfl⟩
  cases hr : runAll (stepWith ar (mkArgsWith ar on tt first last av)) s₁ (initWith ar) with
  | none =>
    cases hr2 : runAll (stepWith ar (mkArgsWith ar on tt first last av)) s₂ (initWith ar) with
    | none => exact .inl ⟨_, rfl, rfl⟩
    | some b =>
      obtain ⟨a, ha, _⟩ := schedules_agree h₂ h₁ hr2
      rw [hr] at ha; cases ha
  | some a =>
    obtain ⟨b, hb, hag⟩ := schedules_agree h₁ h₂ hr
    rw [hb]
    exact .inr ⟨_, _, rfl, rfl, fun node hn s hs => ((hag node hn).2.2 s hs).symm⟩

/-- C30 (`find_max_coa`): likewise for the loop over samples, whatever the arithmetic. -/
theorem C30_find_max_schedule_independent {V : Type} (ar : MaxArith V) (m : Arr2 V)
    (s₁ s₂ : List (ℕ × FOp))
    (h₁ : IsInterleaving m.cols (sampleProg m.rows) s₁)
    (h₂ : IsInterleaving m.cols (sampleProg m.rows) s₂) :
    (findMaxCoaWith ar m s₁ = none ∧ findMaxCoaWith ar m s₂ = none) ∨
    (∃ a b, findMaxCoaWith ar m s₁ = some a ∧ findMaxCoaWith ar m s₂ = some b ∧ ∀ s < m.cols,
      a.maxCoa s = b.maxCoa s ∧ a.norm s = b.norm s ∧ a.idx s = b.idx s) := by
  cases hr : findMaxCoaWith ar m s₁ with
  | none =>
    cases hr2 : findMaxCoaWith ar m s₂ with
    | none => exact .inl ⟨rfl, rfl⟩
    | some b =>
      obtain ⟨a, ha, _⟩ := fschedules_agree m h₂ h₁ hr2
      rw [hr] at ha; cases ha
  | some a =>
    obtain ⟨b, hb, hag⟩ := fschedules_agree m h₁ h₂ hr
    refine .inr ⟨a, b, rfl, hb, fun s hs => ?_⟩
    obtain ⟨-, g1, g2, g3⟩ := hag s hs
    exact ⟨g1.symm, g2.symm, g3.symm⟩

/-- Two genuinely different schedules of a two-iteration loop. -/
example : IsInterleaving 2 (sampleProg 2) (serial 2 (sampleProg 2)) ∧
    IsInterleaving 2 (sampleProg 2)
      [(1, .start), (0, .start), (0, .visit 1), (1, .visit 1), (1, .writeMax), (0, .writeMax),
       (0, .writeNorm), (1, .writeNorm), (0, .writeIdx), (1, .writeIdx)] := by
  refine ⟨serial_isInterleaving _ _, ?_, ?_⟩
  · simp
  · intro i hi
    have : i = 0 ∨ i = 1 := by omega
    rcases this with h | h <;> subst h <;> rfl

/-- C31: at every sample, the maximum over nodes, the smallest index attaining it,
and maximum × number of nodes / sum. -/
theorem C31_find_max {K : Type} [Field K] [LinearOrder K] (m : Arr2 K) (hN : 0 < m.rows)
    (sched : List (ℕ × FOp)) (hs : IsInterleaving m.cols (sampleProg m.rows) sched) :
    ∃ r, findMaxCoa m sched = some r ∧ ∀ s < m.cols,
      r.idx s < m.rows ∧ r.maxCoa s = m.get (r.idx s) s ∧
      (∀ n < m.rows, m.get n s ≤ r.maxCoa s) ∧ (∀ n < r.idx s, m.get n s < r.maxCoa s) ∧
      r.norm s = r.maxCoa s * m.rows / ∑ n ∈ range m.rows, m.get n s := by
  obtain ⟨r, h1, h2⟩ := findMax_interleaved m hN hs
  refine ⟨r, h1, fun s hss => ?_⟩
  obtain ⟨e1, e2, e3⟩ := h2 s hss
  obtain ⟨g1, g2, g3, g4⟩ := scanReg_spec (ar := fieldArith K)
    (fun a b => by simp [fieldArith]) (fun n => m.get n s) (m.rows - 1)
  have hsm : (scanReg (fieldArith K) (fun n => m.get n s) (m.rows - 1)).sm
      = ∑ n ∈ range m.rows, m.get n s := by
    rw [scanReg_sm]
    refine (foldl_add_eq_sum (fun i => m.get (i + 1) s) (m.rows - 1) _).trans ?_
    obtain ⟨N, hN'⟩ : ∃ N, m.rows = N + 1 := ⟨m.rows - 1, by omega⟩
    rw [hN', Finset.sum_range_succ']
    simp [add_comm]
  rw [e1, e2, e3]
  exact ⟨by omega, g2, fun n hn => g3 n (by omega), g4, by rw [hsm]; rfl⟩

/-- C31: for positive maps the normalised value is between 1 and the number of nodes. -/
theorem C31_normalised_bounds {K : Type} [Field K] [LinearOrder K] [IsStrictOrderedRing K]
    (m : Arr2 K) (hN : 0 < m.rows) (hpos : ∀ n < m.rows, ∀ s < m.cols, 0 < m.get n s)
    (sched : List (ℕ × FOp)) (hs : IsInterleaving m.cols (sampleProg m.rows) sched)
    (r : FState K) (hr : findMaxCoa m sched = some r) (s : ℕ) (hss : s < m.cols) :
    1 ≤ r.norm s ∧ r.norm s ≤ m.rows := by
  obtain ⟨r', h1, h2⟩ := C31_find_max m hN sched hs
  rw [hr] at h1; cases h1
  obtain ⟨hi, hmx, hall, -, hnorm⟩ := h2 s hss
  have hne : (range m.rows).Nonempty := ⟨0, Finset.mem_range.2 hN⟩
  have hsum : 0 < ∑ n ∈ range m.rows, m.get n s :=
    Finset.sum_pos (fun n hn => hpos n (Finset.mem_range.1 hn) s hss) hne
  rw [hnorm]
  constructor
  · rw [le_div_iff₀ hsum, one_mul]
    calc ∑ n ∈ range m.rows, m.get n s ≤ ∑ n ∈ range m.rows, r.maxCoa s :=
          Finset.sum_le_sum fun n hn => hall n (Finset.mem_range.1 hn)
      _ = r.maxCoa s * m.rows := by simp [mul_comm]
  · rw [div_le_iff₀ hsum, mul_comm]
    apply mul_le_mul_of_nonneg_left _ (Nat.cast_nonneg _)
    rw [hmx]
    exact Finset.single_le_sum (f := fun n => m.get n s)
      (fun n hn => (hpos n (Finset.mem_range.1 hn) s hss).le) (Finset.mem_range.2 hi)

/-- C31: multiplying the map by a positive constant leaves the node and the
normalised value unchanged and multiplies the maximum. -/
theorem C31_scale_invariant {K : Type} [Field K] [LinearOrder K] [IsStrictOrderedRing K]
    (m : Arr2 K) (hN : 0 < m.rows) (c : K) (hc : 0 < c)
    (sched sched' : List (ℕ × FOp)) (hs : IsInterleaving m.cols (sampleProg m.rows) sched)
    (hs' : IsInterleaving m.cols (sampleProg m.rows) sched')
    (r r' : FState K) (hr : findMaxCoa m sched = some r)
    (hr' : findMaxCoa ⟨m.rows, m.cols, fun n s => c * m.get n s⟩ sched' = some r')
    (s : ℕ) (hss : s < m.cols) :
    r'.idx s = r.idx s ∧ r'.maxCoa s = c * r.maxCoa s ∧ r'.norm s = r.norm s := by
  obtain ⟨a, h1, h2⟩ := C31_find_max m hN sched hs
  rw [hr] at h1; cases h1
  obtain ⟨b, h3, h4⟩ := C31_find_max ⟨m.rows, m.cols, fun n s => c * m.get n s⟩ hN sched' hs'
  rw [hr'] at h3; cases h3
  obtain ⟨hi, hmx, hall, hfirst, hnorm⟩ := h2 s hss
  obtain ⟨hi', hmx', hall', hfirst', hnorm'⟩ := h4 s hss
  simp only at hi' hmx' hall' hfirst' hnorm'
  have hidx : r'.idx s = r.idx s := by
    rcases Nat.lt_trichotomy (r'.idx s) (r.idx s) with h | h | h
    · exfalso
      have g1 := hfirst _ h
      have g2 := hall' _ hi
      rw [hmx', ← hmx] at g2
      exact absurd g2 (not_le.2 (mul_lt_mul_of_pos_left g1 hc))
    · exact h
    · exfalso
      have g1 := hfirst' _ h
      have g2 := hall _ hi'
      rw [hmx', ← hmx] at g1
      exact absurd (lt_of_mul_lt_mul_left g1 hc.le) (not_lt.2 g2)
  have hmx2 : r'.maxCoa s = c * r.maxCoa s := by rw [hmx', hidx, ← hmx]
  refine ⟨hidx, hmx2, ?_⟩
  rw [hnorm', hnorm, hmx2, ← Finset.mul_sum, mul_assoc, mul_div_mul_left _ _ hc.ne']

def exMap : Arr2 ℚ := ⟨3, 2, fun n s => if n = 1 then 5 else if s = 0 then 2 else 7⟩
example : (findMaxCoa exMap (serial 2 (sampleProg 3))).map
    (fun r => (r.maxCoa 0, r.idx 0, r.norm 0, r.maxCoa 1, r.idx 1, r.norm 1)) =
    some (5, 1, 5 * 3 / 9, 7, 0, 7 * 3 / 19) := by decide +kernel
example : ∀ n < exMap.rows, ∀ s < exMap.cols, 0 < exMap.get n s := by
  intro n _ s _
  simp only [exMap]
  split
  · norm_num
  · split <;> norm_num

end QM

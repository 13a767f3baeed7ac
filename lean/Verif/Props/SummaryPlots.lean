import Verif.Model.SummaryPlots
import Verif.Lemmas.Archive
import Verif.Lemmas.EventFile
import Mathlib.Order.WellFounded
import Mathlib.Data.Fintype.Order
import Mathlib.Order.Fin.Basic
import Mathlib.Data.Fin.VecNotation
import Mathlib.Tactic.FinCases
import Mathlib.Tactic.Linarith

/-!
# C146–C148: what the summary figures show
-/

namespace QM

open QM.SummaryPlots
open QM.Availability (Table splitUnderscore)

/-! ## Specification -/

/-- The name of the availability column of a station and a phase. -/
def Spec.colName (s p : List Char) : List Char := s ++ '_' :: p

/-- An availability table of these stations and phases: one column for each pair, the stations in
the same order for each phase, names without underscores, one value per column, and every
value 0, 1 or missing. -/
structure Spec.AvailTable (stations phases : List (List Char)) (t : Table) : Prop where
  stations_nodup : stations.Nodup
  phases_nodup : phases.Nodup
  station_names : ∀ s ∈ stations, '_' ∉ s
  phase_names : ∀ p ∈ phases, '_' ∉ p ∧ p ≠ ['*']
  cols : ∀ c ∈ t.cols, ∃ s ∈ stations, ∃ p ∈ phases, c = Spec.colName s p
  order : ∀ p ∈ phases, t.cols.filter (fun c => c ∈ stations.map (Spec.colName · p)) =
    stations.map (Spec.colName · p)
  width : ∀ r ∈ t.rows, r.2.length = t.cols.length
  values : ∀ r ∈ t.rows, ∀ v ∈ r.2, v = none ∨ v = some 0 ∨ v = some 1

/-- The station is available for the phase in this row of the table. -/
def Spec.Avail (t : Table) (r : ℚ × List (Option ℤ)) (s p : List Char) : Prop :=
  (Spec.colName s p, some 1) ∈ t.cols.zip r.2

instance (t : Table) (r : ℚ × List (Option ℤ)) (s p : List Char) : Decidable (Spec.Avail t r s p) := by
  unfold Spec.Avail; infer_instance

/-- The number of stations available for the phase. -/
def Spec.numAvail (stations : List (List Char)) (t : Table) (r : ℚ × List (Option ℤ)) (p : List Char) : ℕ :=
  stations.countP fun s => Spec.Avail t r s p

/-- The curve has the value `f r` from the time of each row on, and the last one until the end. -/
def Spec.StepsOf (c : Curve) (t : Table) (endtime : ℚ) (f : ℚ × List (Option ℤ) → ℤ) : Prop :=
  ∃ last, t.rows.getLast? = some last ∧
    c.points = (t.rows.map fun r => (r.1, f r)) ++ [(endtime, f last)]

/-! ## Lemmas -/

namespace SummaryPlotsAux

theorem colName_inj {s s' p p' : List Char} (hp : '_' ∉ p) (hp' : '_' ∉ p') (hs : '_' ∉ s) (hs' : '_' ∉ s')
    (h : Spec.colName s p = Spec.colName s' p') : s = s' ∧ p = p' := by
  have h2 := congrArg (fun l : List Char => l.splitOn '_') h
  simp only [Spec.colName, Archive.splitOn_sep, Archive.splitOn_plain hp, Archive.splitOn_plain hp',
    Archive.splitOn_plain hs, Archive.splitOn_plain hs'] at h2
  simp at h2
  exact h2

theorem phaseOf_colName {s p : List Char} (hp : '_' ∉ p) (hs : '_' ∉ s) : phaseOf (Spec.colName s p) = some p := by
  unfold phaseOf splitUnderscore Spec.colName
  rw [Archive.splitOn_sep, Archive.splitOn_plain hp, Archive.splitOn_plain hs]
  rfl

theorem sep_unique {a b c d : List Char} (ha : '_' ∉ a) (hc : '_' ∉ c) (h : a ++ '_' :: b = c ++ '_' :: d) :
    a = c ∧ b = d := by
  induction a generalizing c with
  | nil =>
    cases c with
    | nil => simpa using h
    | cons x c => simp at h; exact absurd (by rw [← h.1]; simp) hc
  | cons y a ih =>
    cases c with
    | nil => simp at h; exact absurd (by rw [h.1]; simp) ha
    | cons x c =>
      simp only [List.cons_append, List.cons.injEq] at h
      obtain ⟨h1, h2⟩ := ih (fun hm => ha (by simp [hm])) (fun hm => hc (by simp [hm])) h.2
      exact ⟨by rw [h.1, h1], h2⟩

/-- Where `_` ++ `p` can be inside a column name. -/
theorem infix_colName {s p q : List Char} (hq : '_' ∉ q) (hs : '_' ∉ s) :
    ('_' :: p) <:+: Spec.colName s q ↔ p <+: q := by
  constructor
  · rintro ⟨a, b, h⟩
    unfold Spec.colName at h
    have ha : '_' ∉ a := by
      intro hm
      have hc := congrArg (List.count '_') h
      have h1 : 1 ≤ a.count '_' := List.count_pos_iff.2 hm
      simp [List.count_append, List.count_eq_zero_of_not_mem hq, List.count_eq_zero_of_not_mem hs] at hc
      omega
    rw [List.append_assoc, List.cons_append] at h
    obtain ⟨-, h2⟩ := sep_unique ha hs h
    exact ⟨b, h2⟩
  · rintro ⟨b, h⟩
    exact ⟨s, b, by simp [Spec.colName, ← h]⟩

theorem suffix_colName {s p q : List Char} (hp : '_' ∉ p) (hq : '_' ∉ q) (hs : '_' ∉ s) :
    ('_' :: p) <:+ Spec.colName s q ↔ p = q := by
  constructor
  · rintro ⟨a, h⟩
    unfold Spec.colName at h
    have ha : '_' ∉ a := by
      intro hm
      have hc := congrArg (List.count '_') h
      have h1 : 1 ≤ a.count '_' := List.count_pos_iff.2 hm
      simp [List.count_append, List.count_eq_zero_of_not_mem hq, List.count_eq_zero_of_not_mem hs] at hc
      omega
    exact (sep_unique ha hs h).2
  · rintro rfl
    exact ⟨s, rfl⟩

/-- A list of pairs with distinct names, counted by name. -/
theorem count_names (f : List Char → List Char) (stations : List (List Char))
    (hinj : ∀ s ∈ stations, ∀ s' ∈ stations, f s = f s' → s = s') (hnd : stations.Nodup)
    (L : List (List Char × Option ℤ)) (hL : L.map Prod.fst = stations.map f)
    (hv : ∀ x ∈ L, x.2 = none ∨ x.2 = some 0 ∨ x.2 = some 1) :
    (L.map fun x => x.2.getD 0).sum = (stations.countP fun s => decide ((f s, some 1) ∈ L) : ℕ) := by
  induction stations generalizing L with
  | nil =>
    have : L = [] := by simpa using hL
    subst this
    rfl
  | cons s stations ih =>
    obtain ⟨x, L, rfl⟩ : ∃ x L', L = x :: L' := by
      cases L with
      | nil => simp at hL
      | cons x L => exact ⟨x, L, rfl⟩
    obtain ⟨c, v⟩ := x
    simp only [List.map_cons, List.cons.injEq] at hL
    obtain ⟨rfl, hL⟩ := hL
    have h1 := ih (fun a ha b hb => hinj a (by simp [ha]) b (by simp [hb])) (List.nodup_cons.1 hnd).2 L hL
      (fun x hx => hv x (by simp [hx]))
    have hs : ∀ s' ∈ stations, f s' ≠ f s := by
      intro s' hs' he
      have := hinj s' (by simp [hs']) s (by simp) he
      exact (List.nodup_cons.1 hnd).1 (this ▸ hs')
    have hno : (f s, some (1 : ℤ)) ∉ L := by
      intro hm
      have : f s ∈ L.map Prod.fst := List.mem_map.2 ⟨_, hm, rfl⟩
      rw [hL] at this
      obtain ⟨s', h2, h3⟩ := List.mem_map.1 this
      exact hs s' h2 h3
    have h2 : (stations.countP fun s' => decide ((f s', some (1 : ℤ)) ∈ (f s, v) :: L)) =
        stations.countP fun s' => decide ((f s', some (1 : ℤ)) ∈ L) := by
      apply List.countP_congr
      intro s' hs'
      have := hs s' hs'
      simp [this]
    rw [List.countP_cons, h2, List.map_cons, List.sum_cons, h1]
    have h3 : ((f s, some (1 : ℤ)) ∈ (f s, v) :: L) ↔ v = some 1 := by
      simp only [List.mem_cons, Prod.mk.injEq, true_and, hno, or_false]
      exact eq_comm
    rcases hv (f s, v) (by simp) with h | h | h <;> simp only at h <;> subst h <;> simp [hno]
    omega

theorem filter_fst {α β : Type} (cols : List α) (vals : List β) (h : vals.length = cols.length) (keep : α → Bool) :
    ((cols.zip vals).filter fun cv => keep cv.1).map Prod.fst = cols.filter keep := by
  induction cols generalizing vals with
  | nil => rfl
  | cons c cols ih =>
    cases vals with
    | nil => simp at h
    | cons v vals =>
      have := ih vals (by simpa using h)
      simp only [List.zip_cons_cons, List.filter_cons]
      split <;> simp [this]

theorem sum_pick_one (phases : List (List Char)) (hnd : phases.Nodup) (q : List Char) (hq : q ∈ phases) (g : ℤ) :
    (phases.map fun p => if p = q then g else 0).sum = g := by
  induction phases with
  | nil => simp at hq
  | cons p phases ih =>
    rw [List.map_cons, List.sum_cons]
    by_cases h : p = q
    · subst h
      have : (phases.map fun a => if a = p then g else 0).sum = 0 := by
        apply List.sum_eq_zero
        intro x hx
        obtain ⟨a, ha, rfl⟩ := List.mem_map.1 hx
        rw [if_neg]
        rintro rfl
        exact (List.nodup_cons.1 hnd).1 ha
      rw [if_pos rfl, this, add_zero]
    · rw [if_neg h, zero_add]
      exact ih (List.nodup_cons.1 hnd).2 (by
        rcases List.mem_cons.1 hq with h1 | h1
        · exact absurd h1.symm h
        · exact h1)

theorem sum_partition {α : Type} (L : List α) (phases : List (List Char)) (hnd : phases.Nodup)
    (k : List Char → α → Bool) (g : α → ℤ)
    (hone : ∀ x ∈ L, ∃ q ∈ phases, ∀ p ∈ phases, k p x = true ↔ p = q) :
    (L.map g).sum = (phases.map fun p => ((L.filter (k p)).map g).sum).sum := by
  induction L with
  | nil => simp
  | cons x L ih =>
    obtain ⟨q, hq, hk⟩ := hone x (by simp)
    have h1 : (phases.map fun p => (((x :: L).filter (k p)).map g).sum) =
        phases.map fun p => (if p = q then g x else 0) + ((L.filter (k p)).map g).sum := by
      apply List.map_congr_left
      intro p hp
      rw [List.filter_cons]
      by_cases h : p = q
      · rw [if_pos ((hk p hp).2 h), if_pos h]; simp
      · rw [if_neg (fun hc => h ((hk p hp).1 hc)), if_neg h, zero_add]
    rw [h1, List.sum_map_add, sum_pick_one phases hnd q hq, ← ih (fun y hy => hone y (by simp [hy]))]
    simp

variable {stations phases : List (List Char)} {t : Table}

theorem names (h : Spec.AvailTable stations phases t) {c : List Char} (hc : c ∈ t.cols) {p : List Char}
    (hp : p ∈ phases) : ends p c = decide (c ∈ stations.map (Spec.colName · p)) := by
  obtain ⟨s, hs, q, hq, rfl⟩ := h.cols c hc
  unfold ends
  rw [if_neg (h.phase_names p hp).2]
  apply decide_eq_decide.2
  rw [suffix_colName (h.phase_names p hp).1 (h.phase_names q hq).1 (h.station_names s hs)]
  constructor
  · rintro rfl
    exact List.mem_map.2 ⟨s, hs, rfl⟩
  · intro hm
    obtain ⟨s', hs', he⟩ := List.mem_map.1 hm
    exact (colName_inj (h.phase_names p hp).1 (h.phase_names q hq).1 (h.station_names s' hs')
      (h.station_names s hs) he).2

/-- The cells of a phase. -/
theorem cells (h : Spec.AvailTable stations phases t) {r : ℚ × List (Option ℤ)} (hr : r ∈ t.rows) {p : List Char}
    (hp : p ∈ phases) :
    ((t.cols.zip r.2).filter fun cv => ends p cv.1).map Prod.fst = stations.map (Spec.colName · p) := by
  rw [filter_fst _ _ (h.width r hr), ← h.order p hp]
  apply List.filter_congr
  intro c hc
  exact names h hc hp

theorem mem_cells (h : Spec.AvailTable stations phases t) {r : ℚ × List (Option ℤ)} {p : List Char}
    (hp : p ∈ phases) (s : List Char) :
    (Spec.colName s p, some (1 : ℤ)) ∈ (t.cols.zip r.2).filter (fun cv => ends p cv.1) ↔ Spec.Avail t r s p := by
  rw [List.mem_filter]
  refine and_iff_left ?_
  unfold ends
  rw [if_neg (h.phase_names p hp).2]
  exact decide_eq_true ⟨s, rfl⟩

theorem total_phase (h : Spec.AvailTable stations phases t) {r : ℚ × List (Option ℤ)} (hr : r ∈ t.rows) {p : List Char}
    (hp : p ∈ phases) : total (ends p) t.cols r.2 = Spec.numAvail stations t r p := by
  unfold total pick
  rw [List.map_map]
  have h1 := count_names (Spec.colName · p) stations (fun s _ s' _ he => List.append_left_injective _ he)
    h.stations_nodup _ (cells h hr hp) (fun x hx => h.values r hr x.2 (List.of_mem_zip (List.mem_filter.1 hx).1).2)
  refine h1.trans ?_
  unfold Spec.numAvail
  congr 1
  apply List.countP_congr
  intro s _
  simp only [decide_eq_true_eq]
  exact mem_cells h hp s

theorem total_all (h : Spec.AvailTable stations phases t) {r : ℚ × List (Option ℤ)} (hr : r ∈ t.rows) :
    total (ends ['*']) t.cols r.2 = (phases.map fun p => (Spec.numAvail stations t r p : ℤ)).sum := by
  have h1 : (phases.map fun p => (Spec.numAvail stations t r p : ℤ)) =
      phases.map fun p => total (ends p) t.cols r.2 :=
    List.map_congr_left fun p hp => (total_phase h hr hp).symm
  rw [h1]
  unfold total pick
  simp only [List.map_map]
  have h2 : (t.cols.zip r.2).filter (fun cv => ends ['*'] cv.1) = t.cols.zip r.2 := by
    rw [List.filter_eq_self]
    intro a _
    simp [ends]
  rw [h2]
  apply sum_partition _ _ h.phases_nodup
  intro x hx
  obtain ⟨s, hs, q, hq, he⟩ := h.cols x.1 (List.of_mem_zip hx).1
  refine ⟨q, hq, fun p hp => ?_⟩
  unfold ends
  rw [if_neg (h.phase_names p hp).2, decide_eq_true_eq, he]
  exact suffix_colName (h.phase_names p hp).1 (h.phase_names q hq).1 (h.station_names s hs)

theorem mapM_some {α β : Type} (f : α → Option β) (g : α → β) (l : List α) (h : ∀ x ∈ l, f x = some (g x)) :
    l.mapM f = some (l.map g) := by
  induction l with
  | nil => rfl
  | cons x l ih =>
    rw [List.mapM_cons, h x (by simp), ih (fun y hy => h y (by simp [hy]))]
    rfl

theorem phasesOf_perm (h : Spec.AvailTable stations phases t) (hne : stations ≠ []) :
    ∃ l, phasesOf t.cols = some l ∧ l.Perm phases := by
  have h1 : ∀ c ∈ t.cols, phaseOf c = some ((phaseOf c).getD []) := by
    intro c hc
    obtain ⟨s, hs, p, hp, rfl⟩ := h.cols c hc
    rw [phaseOf_colName (h.phase_names p hp).1 (h.station_names s hs)]
    rfl
  refine ⟨_, by unfold phasesOf; rw [mapM_some phaseOf _ _ h1]; rfl, ?_⟩
  refine (List.perm_insertionSort _ _).trans ?_
  rw [List.perm_ext_iff_of_nodup (List.nodup_dedup _) h.phases_nodup]
  intro p
  rw [List.mem_dedup, List.mem_map]
  constructor
  · rintro ⟨c, hc, rfl⟩
    obtain ⟨s, hs, p, hp, rfl⟩ := h.cols c hc
    rw [phaseOf_colName (h.phase_names p hp).1 (h.station_names s hs)]
    exact hp
  · intro hp
    obtain ⟨s, hs⟩ := List.exists_mem_of_ne_nil _ hne
    refine ⟨Spec.colName s p, ?_, ?_⟩
    · have : Spec.colName s p ∈ stations.map (Spec.colName · p) := List.mem_map.2 ⟨s, hs, rfl⟩
      rw [← h.order p hp] at this
      exact (List.mem_filter.1 this).1
    · rw [phaseOf_colName (h.phase_names p hp).1 (h.station_names s hs)]
      rfl

theorem curve_steps (t : Table) (hrows : t.rows ≠ []) (e : ℚ) (d : ℤ) (p : List Char) (f : ℚ × List (Option ℤ) → ℤ)
    (hf : ∀ r ∈ t.rows, (if p = ['*'] then (total (ends p) t.cols r.2).tdiv d else total (ends p) t.cols r.2) = f r) :
    ∃ c, curve t e d p = .ok c ∧ c.label = p ∧ Spec.StepsOf c t e f := by
  have h1 : (t.rows.map fun r =>
      (r.1, if p = ['*'] then (total (ends p) t.cols r.2).tdiv d else total (ends p) t.cols r.2)) =
      t.rows.map fun r => (r.1, f r) := List.map_congr_left fun r hr => by rw [hf r hr]
  obtain ⟨last, hlast⟩ : ∃ x, t.rows.getLast? = some x := ⟨_, List.getLast?_eq_some_getLast hrows⟩
  refine ⟨⟨p, (t.rows.map fun r => (r.1, f r)) ++ [(e, f last)]⟩, ?_, rfl, last, hlast, rfl⟩
  unfold curve
  simp only [h1]
  rw [List.getLast?_map, hlast]
  rfl

theorem like_ends (h : Spec.AvailTable stations phases t) {p : List Char} (hp : p ∈ phases)
    (hpre : ∀ q ∈ phases, p <+: q → p = q) {c : List Char} (hc : c ∈ t.cols) : like p c = ends p c := by
  obtain ⟨s, hs, q, hq, rfl⟩ := h.cols c hc
  unfold ends like
  rw [if_neg (h.phase_names p hp).2]
  apply decide_eq_decide.2
  rw [suffix_colName (h.phase_names p hp).1 (h.phase_names q hq).1 (h.station_names s hs),
    infix_colName (h.phase_names q hq).1 (h.station_names s hs)]
  constructor
  · exact hpre q hq
  · rintro rfl
    exact List.prefix_rfl

theorem pick_like (h : Spec.AvailTable stations phases t) {p : List Char} (hp : p ∈ phases)
    (hpre : ∀ q ∈ phases, p <+: q → p = q) (vals : List (Option ℤ)) :
    pick (like p) t.cols vals = pick (ends p) t.cols vals := by
  unfold pick
  congr 1
  apply List.filter_congr
  intro x hx
  exact like_ends h hp hpre (List.of_mem_zip hx).1

theorem eqCell_eq {a b : Option ℤ} (h : eqCell a b = true) : a = b := by
  cases a <;> cases b <;> simp_all [eqCell]

theorem all_eqCell {a b : List (Option ℤ)} (hl : a.length = b.length)
    (h : ((a.zip b).all fun x => eqCell x.1 x.2) = true) : a = b := by
  induction a generalizing b with
  | nil => cases b with
    | nil => rfl
    | cons => simp at hl
  | cons x a ih =>
    cases b with
    | nil => simp at hl
    | cons y b =>
      simp only [List.zip_cons_cons, List.all_cons, Bool.and_eq_true] at h
      rw [eqCell_eq h.1, ih (by simpa using hl) h.2]

theorem avail_of_pick (h : Spec.AvailTable stations phases t) {r : ℚ × List (Option ℤ)} (hr : r ∈ t.rows)
    {p q : List Char} (hp : p ∈ phases) (hq : q ∈ phases)
    (he : pick (ends p) t.cols r.2 = pick (ends q) t.cols r.2) (s : List Char) :
    Spec.Avail t r s p → Spec.Avail t r s q := by
  intro ha
  rw [← mem_cells h hp] at ha
  rw [← mem_cells h hq]
  have hz : ∀ x ∈ phases, (t.cols.zip r.2).filter (fun cv => ends x cv.1) =
      (stations.map (Spec.colName · x)).zip (pick (ends x) t.cols r.2) := by
    intro x hx
    rw [← cells h hr hx]
    unfold pick
    exact (List.zip_of_prod rfl rfl)
  rw [hz p hp, he, List.zip_map_left, List.mem_map] at ha
  obtain ⟨⟨s', v⟩, h1, h2⟩ := ha
  simp only [Prod.map_apply, id_eq, Prod.mk.injEq] at h2
  obtain ⟨h2, rfl⟩ := h2
  have h3 : s' = s := List.append_left_injective _ h2
  subst h3
  rw [hz q hq, List.zip_map_left, List.mem_map]
  exact ⟨(s', some 1), h1, rfl⟩

theorem mapM_all {α : Type} (f : α → Option Bool) (l : List α) (h : ∀ x ∈ l, (f x).isSome) :
    ∃ b, (l.mapM f).map (fun l => l.all id) = some b ∧ (b = true → ∀ x ∈ l, f x = some true) := by
  induction l with
  | nil => exact ⟨true, rfl, by simp⟩
  | cons x l ih =>
    obtain ⟨b, h1, h2⟩ := ih (fun y hy => h y (by simp [hy]))
    obtain ⟨c, hc⟩ := Option.isSome_iff_exists.1 (h x (by simp))
    obtain ⟨m, hm, hb⟩ := Option.map_eq_some_iff.1 h1
    refine ⟨c && b, ?_, ?_⟩
    · rw [List.mapM_cons, hc, hm]
      simp [← hb]
    · intro hcb y hy
      rw [Bool.and_eq_true] at hcb
      rcases List.mem_cons.1 hy with rfl | hy
      · rw [hc, hcb.1]
      · exact h2 hcb.2 y hy

end SummaryPlotsAux

open SummaryPlotsAux

/-! ## C146: the availability panel -/

/-- C146 for at most two phases, neither a prefix of the other: the panel is drawn, and either there is one curve per
phase giving the number of stations available for it at every step, or one curve for all, each
station being available for all phases or none, giving the number of stations available. -/
theorem C146_numbers_partial (stations phases : List (List Char)) (t : Table) (h : Spec.AvailTable stations phases t)
    (hst : stations ≠ []) (hph : phases ≠ []) (hrows : t.rows ≠ []) (htwo : phases.length ≤ 2)
    (hpre : ∀ p ∈ phases, ∀ q ∈ phases, p <+: q → p = q) (e : ℚ) :
    ∃ cs, panel t e = .ok cs ∧
      ((cs.length = phases.length ∧
          ∀ p ∈ phases, ∃ c ∈ cs, c.label = p ∧ Spec.StepsOf c t e fun r => Spec.numAvail stations t r p) ∨
        ∃ c, cs = [c] ∧ c.label = ['*'] ∧
          (∀ r ∈ t.rows, ∀ s ∈ stations, ∀ p ∈ phases, ∀ q ∈ phases, Spec.Avail t r s p ↔ Spec.Avail t r s q) ∧
          ∀ p ∈ phases, Spec.StepsOf c t e fun r => Spec.numAvail stations t r p) := by
  obtain ⟨l, h1, h2⟩ := phasesOf_perm h hst
  have hlen := h2.length_eq
  have hsingle : ∀ p ∈ phases, ∃ c, curve t e 1 p = .ok c ∧ c.label = p ∧
      Spec.StepsOf c t e fun r => Spec.numAvail stations t r p := by
    intro p hp
    apply curve_steps t hrows
    intro r hr
    rw [if_neg (h.phase_names p hp).2]
    exact total_phase h hr hp
  unfold panel
  rw [h1]
  simp only
  rw [if_neg (by omega)]
  match l, h2, hlen with
  | [], h2, hlen => exact absurd (List.length_eq_zero_iff.1 hlen.symm) hph
  | [p], h2, hlen =>
    have hp : p ∈ phases := h2.mem_iff.1 (by simp)
    obtain ⟨c, hc1, hc2, hc3⟩ := hsingle p hp
    refine ⟨[c], by simp [hc1], Or.inl ⟨hlen, fun q hq => ?_⟩⟩
    have : q = p := by simpa using h2.mem_iff.2 hq
    subst this
    exact ⟨c, by simp, hc2, hc3⟩
  | [p, q], h2, hlen =>
    have hp : p ∈ phases := h2.mem_iff.1 (by simp)
    have hq : q ∈ phases := h2.mem_iff.1 (by simp)
    have hrow : ∀ r ∈ t.rows, (pick (like p) t.cols r.2).length = (pick (like q) t.cols r.2).length := by
      intro r hr
      rw [pick_like h hp (hpre p hp), pick_like h hq (hpre q hq)]
      unfold pick
      have a := congrArg List.length (cells h hr hp)
      have b := congrArg List.length (cells h hr hq)
      simp only [List.length_map] at a b ⊢
      omega
    obtain ⟨b, hb1, hb2⟩ := mapM_all
      (fun r : ℚ × List (Option ℤ) => eqRow (pick (like p) t.cols r.2) (pick (like q) t.cols r.2)) t.rows
      (fun r hr => by unfold eqRow; rw [if_pos (hrow r hr)]; rfl)
    have hid : identical t p q = some b := hb1
    simp only [hid]
    cases b with
    | false =>
      obtain ⟨c, hc1, hc2, hc3⟩ := hsingle p hp
      obtain ⟨d, hd1, hd2, hd3⟩ := hsingle q hq
      refine ⟨[c, d], by simp [hc1, hd1]; rfl, Or.inl ⟨hlen, fun x hx => ?_⟩⟩
      have : x = p ∨ x = q := by simpa using h2.mem_iff.2 hx
      rcases this with rfl | rfl
      · exact ⟨c, by simp, hc2, hc3⟩
      · exact ⟨d, by simp, hd2, hd3⟩
    | true =>
      have heq : ∀ r ∈ t.rows, pick (ends p) t.cols r.2 = pick (ends q) t.cols r.2 := by
        intro r hr
        have h3 := hb2 rfl r hr
        unfold eqRow at h3
        rw [if_pos (hrow r hr)] at h3
        have h4 := all_eqCell (hrow r hr) (by simpa using h3)
        rwa [pick_like h hp (hpre p hp), pick_like h hq (hpre q hq)] at h4
      have hav : ∀ r ∈ t.rows, ∀ s ∈ stations, ∀ x ∈ phases, ∀ y ∈ phases, Spec.Avail t r s x ↔ Spec.Avail t r s y := by
        have key : ∀ r ∈ t.rows, ∀ x ∈ phases, pick (ends x) t.cols r.2 = pick (ends p) t.cols r.2 := by
          intro r hr x hx
          have : x = p ∨ x = q := by simpa using h2.mem_iff.2 hx
          rcases this with rfl | rfl
          · rfl
          · exact (heq r hr).symm
        intro r hr s _ x hx y hy
        exact ⟨avail_of_pick h hr hx hy ((key r hr x hx).trans (key r hr y hy).symm) s,
          avail_of_pick h hr hy hx ((key r hr y hy).trans (key r hr x hx).symm) s⟩
      have hnum : ∀ r ∈ t.rows, ∀ x ∈ phases, Spec.numAvail stations t r x = Spec.numAvail stations t r p := by
        intro r hr x hx
        apply List.countP_congr
        intro s hs
        simpa using hav r hr s hs x hx p hp
      have hsum : ∀ r ∈ t.rows, ((phases.map fun x => (Spec.numAvail stations t r x : ℤ)).sum).tdiv 2 =
          Spec.numAvail stations t r p := by
        intro r hr
        rw [← (h2.map fun x => (Spec.numAvail stations t r x : ℤ)).sum_eq]
        simp only [List.map_cons, List.map_nil, List.sum_cons, List.sum_nil]
        rw [hnum r hr q hq, add_zero, ← two_mul, mul_comm]
        exact Int.mul_tdiv_cancel _ (by norm_num)
      obtain ⟨c, hc1, hc2, hc3⟩ := curve_steps t hrows e 2 ['*'] (fun r => Spec.numAvail stations t r p) (fun r hr => by
        rw [if_pos rfl, total_all h hr]
        exact hsum r hr)
      refine ⟨[c], ?_, Or.inr ⟨c, rfl, hc2, hav, fun x hx => ?_⟩⟩
      · simp only [List.length_cons, List.length_nil]
        norm_num
        simp [hc1]
      · obtain ⟨last, hl1, hl2⟩ := hc3
        refine ⟨last, hl1, ?_⟩
        rw [hl2]
        simp only [hnum last (List.mem_of_getLast? hl1) x hx]
        congr 1
        exact List.map_congr_left fun r hr => by rw [hnum r hr x hx]
  | _ :: _ :: _ :: _, h2, hlen => simp at hlen; omega

/-- With more than two phases the panel, labelled "Available stations", shows the number of pairs of a
station and a phase: one curve, undivided. -/
theorem C146_violated (stations phases : List (List Char)) (t : Table) (h : Spec.AvailTable stations phases t)
    (hst : stations ≠ []) (hrows : t.rows ≠ []) (hthree : 2 < phases.length) (e : ℚ) :
    ∃ c, panel t e = .ok [c] ∧ c.label = ['*'] ∧
      (Spec.StepsOf c t e fun r => (phases.map fun p => (Spec.numAvail stations t r p : ℤ)).sum) ∧
      ∀ r ∈ t.rows, (∀ s ∈ stations, ∀ p ∈ phases, Spec.Avail t r s p) →
        (r.1, ((phases.length * stations.length : ℕ) : ℤ)) ∈ c.points := by
  obtain ⟨l, h1, h2⟩ := phasesOf_perm h hst
  have hlen := h2.length_eq
  obtain ⟨c, hc1, hc2, hc3⟩ := curve_steps t hrows e 1 ['*']
    (fun r => (phases.map fun p => (Spec.numAvail stations t r p : ℤ)).sum) (fun r hr => by
      rw [if_pos rfl, total_all h hr, Int.tdiv_one])
  refine ⟨c, ?_, hc2, hc3, fun r hr hall => ?_⟩
  · unfold panel
    rw [h1]
    simp only
    rw [if_pos (by omega)]
    simp [hc1]
  · obtain ⟨last, -, hl⟩ := hc3
    rw [hl]
    refine List.mem_append_left _ (List.mem_map.2 ⟨r, hr, ?_⟩)
    have h3 : (phases.map fun p => (Spec.numAvail stations t r p : ℤ)) = phases.map fun _ => (stations.length : ℤ) := by
      apply List.map_congr_left
      intro p hp
      unfold Spec.numAvail
      rw [List.countP_eq_length.2 (fun s hs => by simpa using hall s hs p hp)]
    simp only [h3, List.map_const', List.sum_replicate, nsmul_eq_mul]
    push_cast
    rfl

/-- The map shows every station of the table, or (`plot_all_stns = False`) exactly those available for
some phase at some time; each once. -/
theorem C146_stations (stations phases : List (List Char)) (t : Table) (h : Spec.AvailTable stations phases t)
    (hph : phases ≠ []) :
    (stationList true t).Nodup ∧ (stationList false t).Nodup ∧
      (∀ s, s ∈ stationList true t ↔ s ∈ stations) ∧
      ∀ s, s ∈ stationList false t ↔ s ∈ stations ∧ ∃ r ∈ t.rows, ∃ p ∈ phases, Spec.Avail t r s p := by
  have hhead : ∀ s ∈ stations, ∀ p ∈ phases, (splitUnderscore (Spec.colName s p)).headD [] = s := by
    intro s hs p hp
    unfold splitUnderscore Spec.colName
    rw [Archive.splitOn_sep, Archive.splitOn_plain (h.station_names s hs)]
    rfl
  have hcol : ∀ s ∈ stations, ∀ p ∈ phases, Spec.colName s p ∈ t.cols := by
    intro s hs p hp
    have : Spec.colName s p ∈ stations.map (Spec.colName · p) := List.mem_map.2 ⟨s, hs, rfl⟩
    rw [← h.order p hp] at this
    exact (List.mem_filter.1 this).1
  have hav : ∀ r s p, Spec.Avail t r s p ↔
      ∃ i : ℕ, t.cols[i]? = some (Spec.colName s p) ∧ r.2[i]? = some (some 1) := by
    intro r s p
    unfold Spec.Avail
    rw [List.mem_iff_getElem?]
    exact exists_congr fun i => List.getElem?_zip_eq_some
  refine ⟨?_, ?_, fun s => ?_, fun s => ?_⟩
  · unfold stationList
    rw [if_pos rfl]
    exact List.nodup_dedup _
  · unfold stationList
    rw [if_neg (by decide)]
    exact List.nodup_dedup _
  · unfold stationList
    rw [if_pos rfl, List.mem_dedup, List.mem_map]
    constructor
    · rintro ⟨c, hc, rfl⟩
      obtain ⟨s, hs, p, hp, rfl⟩ := h.cols c hc
      rw [hhead s hs p hp]
      exact hs
    · intro hs
      obtain ⟨p, hp⟩ := List.exists_mem_of_ne_nil _ hph
      exact ⟨_, hcol s hs p hp, hhead s hs p hp⟩
  · unfold stationList
    rw [if_neg (by decide), List.mem_dedup, List.mem_map]
    constructor
    · rintro ⟨⟨c, i⟩, hc, rfl⟩
      rw [List.mem_filter, List.mem_zipIdx_iff_getElem?] at hc
      obtain ⟨h1, h2⟩ := hc
      simp only at h1 h2 ⊢
      obtain ⟨s, hs, p, hp, rfl⟩ := h.cols c (List.mem_of_getElem? h1)
      rw [hhead s hs p hp]
      rw [List.any_eq_true] at h2
      obtain ⟨r, hr, h3⟩ := h2
      exact ⟨hs, r, hr, p, hp, (hav r s p).2 ⟨i, h1, of_decide_eq_true h3⟩⟩
    · rintro ⟨hs, r, hr, p, hp, ha⟩
      obtain ⟨i, h1, h2⟩ := (hav r s p).1 ha
      refine ⟨(Spec.colName s p, i), ?_, hhead s hs p hp⟩
      rw [List.mem_filter, List.mem_zipIdx_iff_getElem?]
      exact ⟨h1, List.any_eq_true.2 ⟨r, hr, decide_eq_true h2⟩⟩

/-! ### Cases that meet the hypotheses -/

/-- Two stations, two phases; the second station has no S in the second step. -/
def panelTable : Table :=
  ⟨["A_P".toList, "B_P".toList, "A_S".toList, "B_S".toList],
    [(0, [some 1, some 1, some 1, some 1]), (300, [some 1, some 1, some 1, some 0])]⟩

example : Spec.AvailTable ["A".toList, "B".toList] ["P".toList, "S".toList] panelTable where
  stations_nodup := by decide
  phases_nodup := by decide
  station_names := by decide
  phase_names := by decide
  cols := by decide
  order := by decide
  width := by decide
  values := by decide

example : ∀ p ∈ ["P".toList, "S".toList], ∀ q ∈ ["P".toList, "S".toList], p <+: q → p = q := by decide

example : panel panelTable 900 = .ok [⟨"P".toList, [(0, 2), (300, 2), (900, 2)]⟩,
    ⟨"S".toList, [(0, 2), (300, 1), (900, 1)]⟩] := by decide +kernel

/-- Two stations, three phases. -/
def panelThree : Table :=
  ⟨["A_P".toList, "B_P".toList, "A_S".toList, "B_S".toList, "A_R".toList, "B_R".toList],
    [(0, [some 1, some 1, some 1, some 1, some 1, some 1])]⟩

example : Spec.AvailTable ["A".toList, "B".toList] ["P".toList, "S".toList, "R".toList] panelThree where
  stations_nodup := by decide
  phases_nodup := by decide
  station_names := by decide
  phase_names := by decide
  cols := by decide
  order := by decide
  width := by decide
  values := by decide

/-- Two stations are shown as six. -/
example : panel panelThree 900 = .ok [⟨['*'], [(0, 6), (900, 6)]⟩] := by decide +kernel

/-- Two phases, one a prefix of the other: the panel fails for two stations, all of them available. -/
theorem C146_violated_prefix :
    Spec.AvailTable ["A".toList, "B".toList] ["P".toList, "Pn".toList]
      ⟨["A_P".toList, "B_P".toList, "A_Pn".toList, "B_Pn".toList], [(0, [some 1, some 1, some 1, some 1])]⟩ ∧
    ∀ e, panel ⟨["A_P".toList, "B_P".toList, "A_Pn".toList, "B_Pn".toList],
      [(0, [some 1, some 1, some 1, some 1])]⟩ e = .error .shapeMismatch := by
  constructor
  · exact ⟨by decide, by decide, by decide, by decide, by decide, by decide, by decide, by decide⟩
  · intro e
    have h1 : phasesOf ["A_P".toList, "B_P".toList, "A_Pn".toList, "B_Pn".toList] =
      some ["P".toList, "Pn".toList] := by decide +kernel
    have h2 : identical ⟨["A_P".toList, "B_P".toList, "A_Pn".toList, "B_Pn".toList],
        [(0, [some 1, some 1, some 1, some 1])]⟩ "P".toList "Pn".toList = none := by decide +kernel
    unfold panel
    rw [h1]
    simp only [h2]
    rfl

/-! ## C147: the location in the text of the event summary -/

theorem SummaryPlotsAux.decimals_ge (l : EventFile.Lut) :
    EventFile.precision l.sz + 2 ≤ EventFile.decimalsZ l.km (EventFile.precision l.sz) :=
  EventFile.le_pyMax_left _ _

theorem SummaryPlotsAux.decimals_unit (l : EventFile.Lut) :
    (if l.km then 3 else 0) ≤ EventFile.decimalsZ l.km (EventFile.precision l.sz) :=
  EventFile.le_pyMax_right _ _

/-- C147 for grids in km: depth and uncertainties are shown in km, to 1/200 of the node spacing and to half
a metre; longitude and latitude to 1/200 of the node spacing. -/
theorem C147_km_partial (l : EventFile.Lut) (hkm : l.km = true) (hs : l.sz ≠ 0) (z err : ℚ) (s : ℚ) (hs' : s ≠ 0)
    (x : ℚ) :
    |shownDepth l z - z| ≤ |l.sz| / 200 ∧ |shownDepth l z - z| ≤ 1 / 2000 ∧
      |shownUncertainty l err - err| ≤ |l.sz| / 200 ∧ |shownUncertainty l err - err| ≤ 1 / 2000 ∧
      |shownCoordinate s x - x| ≤ |s| / 200 := by
  have hu := decimals_unit l
  have hd := decimals_ge l
  have hcf : kmCf l.km = 1 := by rw [hkm]; norm_num [kmCf]
  rw [if_pos hkm] at hu
  unfold shownDepth shownUncertainty shownCoordinate
  rw [hcf, div_one, div_one]
  have half : ∀ q, |EventFile.roundTo (EventFile.decimalsZ l.km (EventFile.precision l.sz)) q - q| ≤ 1 / 2000 := by
    intro q
    refine (EventFile.roundTo_error_le _ _ hu q).trans ?_
    norm_num [zpow_neg]
  exact ⟨EventFile.roundTo_spacing _ _ hs hd z, half z, EventFile.roundTo_spacing _ _ hs hd err, half err,
    EventFile.roundTo_spacing _ _ hs' (EventFile.le_pyMax_left _ _) x⟩

/-- For grids in metres the depth is shown in km, to 1/200 of the node spacing and to half a metre. -/
theorem C147_metre_depth (l : EventFile.Lut) (hkm : l.km = false) (hs : l.sz ≠ 0) (z : ℚ) :
    |1000 * shownDepth l z - z| ≤ |l.sz| / 200 ∧ |1000 * shownDepth l z - z| ≤ 1 / 2 := by
  have hu := decimals_unit l
  have hd := decimals_ge l
  have hcf : kmCf l.km = 1000 := by rw [hkm]; norm_num [kmCf]
  rw [if_neg (by simp [hkm])] at hu
  unfold shownDepth
  rw [hcf, mul_div_cancel₀ _ (by norm_num)]
  refine ⟨EventFile.roundTo_spacing _ _ hs hd z, (EventFile.roundTo_error_le _ _ hu z).trans ?_⟩
  norm_num

/-- For grids in metres the uncertainty shown can be wrong by five times the node spacing, or 500 m, but
not by more. -/
theorem C147_metre_uncertainty_partial (l : EventFile.Lut) (hkm : l.km = false) (hs : l.sz ≠ 0) (err : ℚ) :
    |1000 * shownUncertainty l err - err| ≤ 5 * |l.sz| ∧ |1000 * shownUncertainty l err - err| ≤ 500 := by
  have hu := decimals_unit l
  have hd := decimals_ge l
  have hcf : kmCf l.km = 1000 := by rw [hkm]; norm_num [kmCf]
  rw [if_neg (by simp [hkm])] at hu
  unfold shownUncertainty
  rw [hcf]
  have h1 := EventFile.roundTo_spacing _ _ hs hd (err / 1000)
  have h2 := EventFile.roundTo_error_le _ _ hu (err / 1000)
  generalize EventFile.roundTo (EventFile.decimalsZ l.km (EventFile.precision l.sz)) (err / 1000) = y at h1 h2 ⊢
  have h3 : 1000 * y - err = 1000 * (y - err / 1000) := by ring
  rw [h3, abs_mul, abs_of_pos (by norm_num : (0 : ℚ) < 1000)]
  norm_num at h2
  exact ⟨by linarith, by linarith⟩

/-- For grids in metres with a vertical node spacing of 100 m or more, every uncertainty below 500 m is shown
as `0 km`, however large it is compared with the node spacing. -/
theorem C147_violated (l : EventFile.Lut) (hkm : l.km = false) (hs : 100 ≤ |l.sz|) (err : ℚ) (h0 : 0 ≤ err)
    (h1 : err < 500) : shownUncertainty l err = 0 := by
  have hcf : kmCf l.km = 1000 := by rw [hkm]; norm_num [kmCf]
  have hlog : 2 ≤ Int.log 10 |l.sz| := by
    rw [← Int.zpow_le_iff_le_log (by norm_num) (by linarith)]
    norm_num
    linarith
  have hd : EventFile.decimalsZ l.km (EventFile.precision l.sz) = 0 := by
    unfold EventFile.decimalsZ EventFile.precision EventFile.pyMax
    rw [hkm, if_neg (by decide : ¬ (false = true))]
    split <;> omega
  unfold shownUncertainty
  rw [hd, hcf]
  unfold EventFile.roundTo
  rw [zpow_zero, mul_one, div_one]
  have hf : ⌊err / 1000⌋ = 0 := by
    rw [Int.floor_eq_iff]
    constructor
    · push_cast; positivity
    · push_cast; linarith
  unfold pyRound
  rw [hf, if_pos (by push_cast; linarith)]
  rfl

/-- A 500 m grid in metres, and an uncertainty of 480 m. -/
example : shownUncertainty ⟨1, 1, 500, false⟩ 480 = 0 :=
  C147_violated _ rfl (by norm_num) _ (by norm_num) (by norm_num)

/-! ## C148: the rows of the waveform gather -/

/-- `σ` is a result of `np.argsort(a)`: a permutation that puts the values in order (the order of equal
values is not specified). -/
def Spec.IsArgsort {n : ℕ} {α : Type} [Preorder α] (a : Fin n → α) (σ : Equiv.Perm (Fin n)) : Prop :=
  Monotone (a ∘ σ)

theorem SummaryPlotsAux.perm_mono_id {n : ℕ} (ρ : Equiv.Perm (Fin n)) (h : Monotone ρ) (i : Fin n) : ρ i = i := by
  have h1 : StrictMono ρ := h.strictMono_of_injective ρ.injective
  have h2 : StrictMono (id : Fin n → Fin n) := strictMono_id
  have := (StrictMono.range_inj h1 h2).1 (by simp [ρ.surjective.range_eq])
  exact congrFun this i

/-- C148: each station has a row of its own in the gather, at height 2, 4, ..., 2n; a station with an
earlier arrival of the first phase is above one with a later arrival. -/
theorem C148_rows {n : ℕ} (arrivals : Fin n → ℚ) (σ π : Equiv.Perm (Fin n)) (hσ : Spec.IsArgsort arrivals σ)
    (hπ : Spec.IsArgsort σ π) :
    (Function.Injective fun i => gatherRow n (π i)) ∧
      (∀ i, ∃ k : ℕ, 1 ≤ k ∧ k ≤ n ∧ gatherRow n (π i) = 2 * k) ∧
      ∀ i j, arrivals i < arrivals j → gatherRow n (π j) < gatherRow n (π i) := by
  have hrow : ∀ i : Fin n, gatherRow n (π i) = 2 * ((n : ℤ) - (π i : ℕ)) := by
    intro i
    unfold gatherRow
    have : ((π i : ℕ) : ℤ) < n := by exact_mod_cast (π i).2
    rw [abs_of_neg (by linarith)]
    ring
  have hinv : ∀ i, σ (π i) = i := fun i => perm_mono_id (π.trans σ) hπ i
  refine ⟨?_, ?_, ?_⟩
  · intro i j hij
    simp only [hrow] at hij
    exact π.injective (Fin.ext (by omega))
  · intro i
    refine ⟨n - (π i : ℕ), ?_, ?_, ?_⟩
    · have := (π i).2; omega
    · omega
    · rw [hrow]
      have := (π i).2
      push_cast [Nat.cast_sub this.le]
      ring
  · intro i j hij
    rw [hrow, hrow]
    have : π i < π j := by
      by_contra hc
      have h1 := hσ (not_lt.1 hc)
      simp only [Function.comp_apply, hinv] at h1
      linarith
    have : (π i : ℕ) < π j := this
    omega

theorem SummaryPlotsAux.norm_ge (l : List ℚ) (m : Option ℚ) (norm : ℚ)
    (h : l.foldl (fun m x => match m with
      | none => some |x|
      | some y => some (if y < |x| then |x| else y)) m = some norm) :
    (∀ y, m = some y → y ≤ norm) ∧ ∀ x ∈ l, |x| ≤ norm := by
  induction l generalizing m with
  | nil =>
    simp only [List.foldl_nil] at h
    exact ⟨fun y hy => by rw [h] at hy; cases hy; exact le_rfl, by simp⟩
  | cons x l ih =>
    rw [List.foldl_cons] at h
    obtain ⟨h1, h2⟩ := ih _ h
    cases m with
    | none =>
      refine ⟨by simp, fun z hz => ?_⟩
      rcases List.mem_cons.1 hz with rfl | hz
      · exact h1 _ rfl
      · exact h2 z hz
    | some y =>
      have h3 := h1 _ rfl
      refine ⟨fun y' hy => ?_, fun z hz => ?_⟩
      · cases hy
        split at h3 <;> linarith
      · rcases List.mem_cons.1 hz with rfl | hz
        · split at h3 <;> linarith
        · exact h2 z hz

/-- C148: the samples from the first one drawn until one and a half times the largest traveltime to the
station stay within 1 of the row, hence between the neighbouring rows. -/
theorem C148_no_overlap (data : List ℚ) (mint maxt : ℕ) (norm : ℚ) (h : gatherNorm data mint maxt = some norm)
    (hn : 0 < norm) (i : ℕ) (h1 : mint ≤ i) (h2 : i < maxt) (x : ℚ) (hx : data[i]? = some x) (row : ℤ) :
    |drawn row norm x - row| ≤ 1 := by
  have hm : x ∈ (data.take maxt).drop mint := by
    rw [List.mem_iff_getElem?]
    refine ⟨i - mint, ?_⟩
    rw [List.getElem?_drop, List.getElem?_take, if_pos (by omega), ← hx]
    congr 1
    omega
  have h3 := (norm_ge _ _ _ h).2 x hm
  unfold drawn
  rw [add_sub_cancel_right, abs_div, abs_of_pos hn, div_le_one hn]
  exact h3

/-- Three stations, two of them with the same arrival. -/
example : ∃ σ π : Equiv.Perm (Fin 3), Spec.IsArgsort ![(5 : ℚ), 2, 5] σ ∧ Spec.IsArgsort σ π ∧
    (gatherRow 3 (π 0), gatherRow 3 (π 1), gatherRow 3 (π 2)) = (4, 6, 2) := by
  refine ⟨Equiv.swap 0 1, Equiv.swap 0 1, ?_, ?_, by decide⟩
  · unfold Spec.IsArgsort
    intro i j
    revert i j
    decide +kernel
  · intro i j hij
    revert i j
    decide

example : gatherNorm [9, 1, -4, 2, 7] 1 4 = some 4 := by decide +kernel

end QM

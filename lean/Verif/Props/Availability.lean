import Verif.Model.Availability
import Verif.Lemmas.TriggerFiles
import Verif.Lemmas.Lists
import Mathlib.Data.List.Nodup
import Mathlib.Data.List.GetD

/-!
# Station availability files: C67, C68
-/

namespace QM
open QM.Availability
open QM.TriggerFiles (dayNum readDays)

/-- A proper table: distinct column names, one value per column in every row. -/
structure Table.Proper (t : Table) : Prop where
  nodup : t.cols.Nodup
  width : ∀ r ∈ t.rows, r.2.length = t.cols.length

/-- The first column is named `<station>_<phase>`, without further underscores. -/
def NewStyle (cols : List Str) : Prop :=
  ∃ s p rest, cols = (s ++ '_' :: p) :: rest ∧ '_' ∉ s ∧ '_' ∉ p

theorem split_none {s : Str} (h : '_' ∉ s) : splitUnderscore s = [s] :=
  List.splitOn_eq_singleton h

theorem split_one {s p : Str} (hs : '_' ∉ s) (hp : '_' ∉ p) :
    splitUnderscore (s ++ '_' :: p) = [s, p] := by
  have h1 := split_none hs
  have h2 := split_none hp
  unfold splitUnderscore at *
  rw [List.splitOn_append_cons_self, h1, h2]
  rfl

theorem findIdx_getElem {l : List Str} (h : l.Nodup) {i : ℕ} (hi : i < l.length) :
    l.findIdx? (fun x => x = l[i]) = some i := by
  rw [List.findIdx?_eq_some_iff_getElem]
  refine ⟨hi, by simp, ?_⟩
  intro j hj
  simp only [decide_eq_true_eq]
  intro he
  have := (h.getElem_inj_iff).1 he
  omega

theorem map_lookup {l : List Str} (h : l.Nodup) (r : List (Option ℤ)) (hr : r.length = l.length) :
    (l.map fun c => cell l r c) = r := by
  apply List.ext_getElem
  · simp [hr]
  · intro i h1 h2
    rw [List.getElem_map, cell, findIdx_getElem h (by simpa using h1), Option.bind_some,
      List.getD_eq_getElem _ _ h2]

theorem reindex_self {l : List Str} (h : l.Nodup) (r : ℚ × List (Option ℤ))
    (hr : r.2.length = l.length) : reindex l l r = r := by
  unfold reindex
  rw [map_lookup h r.2 hr]

theorem concat_same (cols : List Str) (h : cols.Nodup) (a b : List (ℚ × List (Option ℤ)))
    (ha : ∀ r ∈ a, r.2.length = cols.length) (hb : ∀ r ∈ b, r.2.length = cols.length) :
    concat ⟨cols, a⟩ ⟨cols, b⟩ = ⟨cols, a ++ b⟩ := by
  unfold concat
  have e : cols ++ cols.filter (fun c => c ∉ cols) = cols := by
    rw [List.append_right_eq_self, List.filter_eq_nil_iff]
    intro x hx
    simp [hx]
  simp only [e]
  have key : ∀ l : List (ℚ × List (Option ℤ)), (∀ r ∈ l, r.2.length = cols.length) →
      l.map (reindex cols cols) = l := by
    intro l hl
    conv_rhs => rw [← List.map_id l]
    exact List.map_congr_left fun r hr => reindex_self h r (hl r hr)
  rw [key a ha, key b hb]

theorem handleOld_new (t : Table) (h : NewStyle t.cols) : handleOld t = .ok t := by
  obtain ⟨s, p, rest, hc, hs, hp⟩ := h
  unfold handleOld
  rw [hc]
  simp only
  rw [split_one hs hp, if_pos (by rfl)]

theorem readLoop_some (g : Availability.Files) (cols : List Str) (hn : cols.Nodup) (hs : NewStyle cols)
    (R : ℤ → List (ℚ × List (Option ℤ))) (hR : ∀ d, ∀ r ∈ R d, r.2.length = cols.length) :
    ∀ (ds : List ℤ) (r0 : List (ℚ × List (Option ℤ))), (∀ r ∈ r0, r.2.length = cols.length) →
      (∀ d ∈ ds, (g d = none ∧ R d = []) ∨ g d = some ⟨cols, R d⟩) →
      readLoop g (some ⟨cols, r0⟩) ds = .ok (some ⟨cols, r0 ++ (ds.map R).flatten⟩)
  | [], r0, _, _ => by simp [readLoop]
  | d :: ds, r0, h0, h => by
    rw [readLoop]
    rcases h d (by simp) with ⟨h1, h2⟩ | h1
    · rw [h1]
      simp only
      rw [readLoop_some g cols hn hs R hR ds r0 h0 (fun d hd => h d (by simp [hd]))]
      simp [h2]
    · rw [h1]
      simp only
      rw [handleOld_new ⟨cols, R d⟩ hs]
      simp only
      rw [concat_same cols hn r0 (R d) h0 (hR d), readLoop_some g cols hn hs R hR ds (r0 ++ R d)
        (by
          intro r hr
          rcases List.mem_append.1 hr with hr | hr
          · exact h0 r hr
          · exact hR d r hr) (fun d hd => h d (by simp [hd]))]
      simp

theorem readLoop_none (g : Availability.Files) (cols : List Str) (hn : cols.Nodup) (hs : NewStyle cols)
    (R : ℤ → List (ℚ × List (Option ℤ))) (hR : ∀ d, ∀ r ∈ R d, r.2.length = cols.length) :
    ∀ (ds : List ℤ), (∃ d ∈ ds, g d ≠ none) →
      (∀ d ∈ ds, (g d = none ∧ R d = []) ∨ g d = some ⟨cols, R d⟩) →
      readLoop g none ds = .ok (some ⟨cols, (ds.map R).flatten⟩)
  | [], hex, _ => by simp at hex
  | d :: ds, hex, h => by
    rw [readLoop]
    rcases h d (by simp) with ⟨h1, h2⟩ | h1
    · rw [h1]
      simp only
      rw [readLoop_none g cols hn hs R hR ds (by
        obtain ⟨x, hx, hgx⟩ := hex
        rcases List.mem_cons.1 hx with rfl | hx
        · exact absurd h1 hgx
        · exact ⟨x, hx, hgx⟩) (fun d hd => h d (by simp [hd]))]
      simp [h2]
    · rw [h1]
      simp only
      rw [handleOld_new ⟨cols, R d⟩ hs]
      simp only
      rw [readLoop_some g cols hn hs R hR ds (R d) (hR d) (fun d hd => h d (by simp [hd]))]
      simp

theorem write_at (t : Table) : ∀ (order : List ℤ) (f : Availability.Files) (d : ℤ),
    write f t order d = if d ∈ order then some { t with rows := t.rows.filter fun r => dayNum r.1 = d }
      else f d := by
  intro order
  induction order with
  | nil => intro f d; simp [write]
  | cons x order ih =>
    intro f d
    have : write f t (x :: order) = write (Availability.Files.set f x
      { t with rows := t.rows.filter fun r => dayNum r.1 = x }) t order := rfl
    rw [this, ih]
    unfold Availability.Files.set
    by_cases h1 : d ∈ order
    · simp [h1]
    · by_cases h2 : d = x
      · subst h2; simp
      · simp [h1, h2]

/-- C67: a table of availability in time order, written in any order of its dates, is read back as
it was over any period that holds its rows, if the period has no file of an earlier run on a
day without a row. -/
theorem C67_round_trip (f : Availability.Files) (t : Table) (order : List ℤ) (start stop : ℚ)
    (hne : t.rows ≠ []) (hp : Table.Proper t) (hs : NewStyle t.cols)
    (hord : IsDateSet t order) (hsort : t.rows.Pairwise (fun a b => a.1 ≤ b.1))
    (hin : ∀ r ∈ t.rows, start ≤ r.1 ∧ r.1 ≤ stop)
    (hold : ∀ d, dayNum start ≤ d → d ≤ dayNum stop → (∃ r ∈ t.rows, dayNum r.1 = d) ∨ f d = none) :
    Availability.read (write f t order) start stop = .ok (some t) := by
  have hday : ∀ r ∈ t.rows, dayNum r.1 ∈ readDays (dayNum start) stop := by
    intro r hr
    rw [TriggerFiles.mem_readDays]
    exact ⟨TriggerFiles.dayNum_mono (hin r hr).1, TriggerFiles.dayNum_mono (hin r hr).2⟩
  unfold Availability.read
  rw [readLoop_none _ t.cols hp.nodup hs (fun d => t.rows.filter fun r => dayNum r.1 = d)
    (fun d r hr => hp.width r (List.mem_of_mem_filter hr))]
  · rw [flatten_filter_keys (fun r : ℚ × List (Option ℤ) => dayNum r.1)]
    · rw [TriggerFiles.readDays_eq _ _ _ rfl, List.pairwise_map]
      exact List.pairwise_lt_range.imp (by intro a b h; omega)
    · rw [List.pairwise_map]
      exact hsort.imp (fun h => TriggerFiles.dayNum_mono h)
    · exact hday
  · obtain ⟨r, rest, hr⟩ := List.exists_cons_of_ne_nil hne
    have hrm : r ∈ t.rows := by rw [hr]; simp
    refine ⟨dayNum r.1, hday r hrm, ?_⟩
    rw [write_at, if_pos ((hord.2 _).2 ⟨r, hrm, rfl⟩)]
    simp
  · intro d hd
    rw [write_at]
    by_cases h : d ∈ order
    · right; rw [if_pos h]
    · left
      rw [if_neg h]
      have hno : ¬ ∃ r ∈ t.rows, dayNum r.1 = d := fun hc => h ((hord.2 d).2 hc)
      rw [TriggerFiles.mem_readDays] at hd
      refine ⟨(hold d hd.1 hd.2).resolve_left hno, ?_⟩
      rw [List.filter_eq_nil_iff]
      intro r hr
      simp only [decide_eq_true_eq]
      exact fun hc => hno ⟨r, hr, hc⟩

theorem writes_frame (d : ℤ) : ∀ (l : List (Table × List ℤ)) (f : Availability.Files),
    (∀ w ∈ l, IsDateSet w.1 w.2) → (∀ w ∈ l, ∀ r ∈ w.1.rows, dayNum r.1 ≠ d) →
    writes f l d = f d
  | [], _, _, _ => rfl
  | w :: l, f, h1, h2 => by
    have : writes f (w :: l) = writes (write f w.1 w.2) l := rfl
    rw [this, writes_frame d l _ (fun x hx => h1 x (by simp [hx])) (fun x hx => h2 x (by simp [hx])),
      write_at, if_neg]
    intro hc
    obtain ⟨r, hr, he⟩ := ((h1 w (by simp)).2 d).1 hc
    exact h2 w (by simp) r hr he

/-- C67: after any history of writes, the file of a day holds exactly the rows of that day of the
last table that has any; a day without rows in any table keeps its file. -/
theorem C67_last_write_wins (f : Availability.Files) (l : List (Table × List ℤ))
    (h : ∀ w ∈ l, IsDateSet w.1 w.2) (d : ℤ) :
    ((∀ w ∈ l, ∀ r ∈ w.1.rows, dayNum r.1 ≠ d) → writes f l d = f d) ∧
    ∀ earlier w later, l = earlier ++ w :: later → (∃ r ∈ w.1.rows, dayNum r.1 = d) →
      (∀ w' ∈ later, ∀ r ∈ w'.1.rows, dayNum r.1 ≠ d) →
      writes f l d = some ⟨w.1.cols, w.1.rows.filter fun r => dayNum r.1 = d⟩ := by
  refine ⟨writes_frame d l f h, ?_⟩
  rintro earlier w later rfl hw hl
  have : writes f (earlier ++ w :: later) = writes (write (writes f earlier) w.1 w.2) later := by
    unfold writes
    rw [List.foldl_append]
    rfl
  rw [this, writes_frame d later _ (fun x hx => h x (by simp [hx])) hl, write_at,
    if_pos (((h w (by simp)).2 d).2 hw)]

/-- Three rows on two days. -/
def exAvTable : Table :=
  ⟨[['A', '_', 'P'], ['A', '_', 'S']], [(86000, [some 1, some 0]), (86300, [some 1, some 1]),
    (86500, [some 0, some 0])]⟩

theorem exAvTable_read : Availability.read (write (fun _ => none) exAvTable [1, 0]) 86000 90000 =
    .ok (some exAvTable) := by
  have d0 : dayNum 86000 = 0 := by decide +kernel
  have d1 : dayNum 86300 = 0 := by decide +kernel
  have d2 : dayNum 86500 = 1 := by decide +kernel
  apply C67_round_trip
  · simp [exAvTable]
  · exact ⟨by decide +kernel, by decide +kernel⟩
  · exact ⟨['A'], ['P'], [['A', '_', 'S']], rfl, by decide, by decide⟩
  · refine ⟨by decide +kernel, ?_⟩
    intro d
    simp only [exAvTable, List.mem_cons, List.not_mem_nil, or_false, exists_eq_or_imp,
      exists_eq_left, d0, d1, d2]
    tauto
  · decide +kernel
  · decide +kernel
  · intro d _ _; right; rfl

/-- The row `r'` of the table `t` shows the row `r` of the file `f`: same time, same value under every
column name. -/
def SameRow (t : Table) (r' : ℚ × List (Option ℤ)) (fr : Table × (ℚ × List (Option ℤ))) : Prop :=
  r'.1 = fr.2.1 ∧ ∀ c, cell t.cols r'.2 c = cell fr.1.cols fr.2.2 c

/-- All rows of some files, in order, each with its file. -/
def rowsOf (fs : List Table) : List (Table × (ℚ × List (Option ℤ))) :=
  fs.flatMap fun f => f.rows.map fun r => (f, r)

theorem cell_absent {cols : List Str} {c : Str} (h : c ∉ cols) (v : List (Option ℤ)) :
    cell cols v c = none := by
  unfold cell
  have : cols.findIdx? (fun x => x = c) = none := by
    rw [List.findIdx?_eq_none_iff]
    intro x hx
    simp only [decide_eq_false_iff_not]
    rintro rfl
    exact h hx
  rw [this]
  rfl

theorem cell_reindex {cols all : List Str} (hall : all.Nodup) (hsub : ∀ c ∈ cols, c ∈ all)
    (r : ℚ × List (Option ℤ)) (c : Str) :
    cell all (reindex cols all r).2 c = cell cols r.2 c := by
  by_cases h : c ∈ all
  · obtain ⟨i, hi, rfl⟩ := List.getElem_of_mem h
    unfold reindex
    rw [cell, findIdx_getElem hall hi, Option.bind_some, List.getD_eq_getElem _ _ (by simpa using hi),
      List.getElem_map]
  · rw [cell_absent h, cell_absent (fun hc => h (hsub c hc))]

theorem concat_nodup {a b : Table} (ha : a.cols.Nodup) (hb : b.cols.Nodup) :
    (concat a b).cols.Nodup := by
  unfold concat
  refine List.nodup_append.mpr ⟨ha, hb.filter _, ?_⟩
  rintro x hx y hy rfl
  have := (List.mem_filter.mp hy).2
  simp [hx] at this

theorem mem_concat (a b : Table) (c : Str) : c ∈ (concat a b).cols ↔ c ∈ a.cols ∨ c ∈ b.cols := by
  unfold concat
  simp only [List.mem_append, List.mem_filter, decide_not, Bool.not_eq_true', decide_eq_false_iff_not]
  tauto

theorem concat_rows {a b : Table} (ha : a.cols.Nodup) (hb : b.cols.Nodup) {fs : List Table}
    (h : List.Forall₂ (SameRow a) a.rows (rowsOf fs)) :
    List.Forall₂ (SameRow (concat a b)) (concat a b).rows (rowsOf (fs ++ [b])) := by
  have hn := concat_nodup ha hb
  have e : rowsOf (fs ++ [b]) = rowsOf fs ++ b.rows.map fun r => (b, r) := by
    simp [rowsOf]
  rw [e]
  refine List.rel_append ?_ ?_
  · rw [List.forall₂_map_left_iff]
    refine h.imp ?_
    rintro r' fr ⟨h1, h2⟩
    refine ⟨h1, fun c => ?_⟩
    rw [← h2 c]
    exact cell_reindex hn (fun c hc => (mem_concat a b c).mpr (Or.inl hc)) r' c
  · rw [List.forall₂_map_left_iff, List.forall₂_map_right_iff, List.forall₂_same]
    intro r _
    exact ⟨rfl, fun c => cell_reindex hn (fun c hc => (mem_concat a b c).mpr (Or.inr hc)) r c⟩

theorem readLoop_merges (g : Availability.Files) :
    ∀ (ds : List ℤ) (acc : Option Table) (fs : List Table),
      (∀ d ∈ ds, ∀ t, g d = some t → t.cols.Nodup ∧ NewStyle t.cols) →
      (acc = none ∧ fs = [] ∨ ∃ a, acc = some a ∧ fs ≠ [] ∧ a.cols.Nodup ∧
        (∀ c, c ∈ a.cols ↔ ∃ f ∈ fs, c ∈ f.cols) ∧ List.Forall₂ (SameRow a) a.rows (rowsOf fs)) →
      ∃ res, readLoop g acc ds = .ok res ∧
        (res = none ∧ fs ++ ds.filterMap g = [] ∨ ∃ a, res = some a ∧ fs ++ ds.filterMap g ≠ [] ∧
          a.cols.Nodup ∧ (∀ c, c ∈ a.cols ↔ ∃ f ∈ fs ++ ds.filterMap g, c ∈ f.cols) ∧
          List.Forall₂ (SameRow a) a.rows (rowsOf (fs ++ ds.filterMap g)))
  | [], acc, fs, _, h => ⟨acc, by simp [readLoop], by simpa using h⟩
  | d :: ds, acc, fs, hg, h => by
    rw [readLoop]
    cases hd : g d with
    | none =>
      rw [List.filterMap_cons_none hd]
      exact readLoop_merges g ds acc fs (fun x hx => hg x (by simp [hx])) h
    | some t =>
      obtain ⟨hn, hs⟩ := hg d (by simp) t hd
      rw [List.filterMap_cons_some hd]
      simp only
      rw [handleOld_new t hs]
      have happ : fs ++ t :: ds.filterMap g = (fs ++ [t]) ++ ds.filterMap g := by simp
      rw [happ]
      rcases h with ⟨rfl, rfl⟩ | ⟨a, rfl, hne, han, hac, har⟩
      · refine readLoop_merges g ds (some t) [t] (fun x hx => hg x (by simp [hx])) (Or.inr ?_)
        refine ⟨t, rfl, by simp, hn, by simp, ?_⟩
        simp only [rowsOf, List.flatMap_cons, List.flatMap_nil, List.append_nil]
        rw [List.forall₂_map_right_iff, List.forall₂_same]
        exact fun r _ => ⟨rfl, fun _ => rfl⟩
      · refine readLoop_merges g ds (some (concat a t)) (fs ++ [t]) (fun x hx => hg x (by simp [hx]))
          (Or.inr ?_)
        refine ⟨_, rfl, by simp, concat_nodup han hn, ?_, concat_rows han hn har⟩
        intro c
        rw [mem_concat, hac]
        simp [or_and_right, exists_or]

/-- C67: the files of the days of a period, whatever their stations and phases, are read as one
table: exactly their rows, in order of the days, each with its values; the columns are those of all
files.  Without any file no table is returned. -/
theorem C67_read_merges (g : Availability.Files) (start stop : ℚ)
    (hg : ∀ d t, g d = some t → t.cols.Nodup ∧ NewStyle t.cols) :
    ∃ res, Availability.read g start stop = .ok res ∧
      (res = none ↔ ∀ d, dayNum start ≤ d → d ≤ dayNum stop → g d = none) ∧
      ∀ t, res = some t → (∀ c, c ∈ t.cols ↔
          ∃ d f, dayNum start ≤ d ∧ d ≤ dayNum stop ∧ g d = some f ∧ c ∈ f.cols) ∧
        List.Forall₂ (SameRow t) t.rows (rowsOf ((readDays (dayNum start) stop).filterMap g)) := by
  obtain ⟨res, h1, h2⟩ := readLoop_merges g (readDays (dayNum start) stop) none []
    (fun d _ t ht => hg d t ht) (Or.inl ⟨rfl, rfl⟩)
  rw [List.nil_append] at h2
  refine ⟨res, h1, ?_, ?_⟩
  · have : (readDays (dayNum start) stop).filterMap g = [] ↔
        ∀ d, dayNum start ≤ d → d ≤ dayNum stop → g d = none := by
      rw [List.filterMap_eq_nil_iff]
      simp only [TriggerFiles.mem_readDays, and_imp]
      exact Iff.rfl
    rw [← this]
    rcases h2 with ⟨rfl, h⟩ | ⟨a, rfl, h, -⟩ <;> simp [h]
  · rintro t rfl
    rcases h2 with ⟨h, -⟩ | ⟨a, h, -, -, hc, hr⟩
    · cases h
    · cases h
      refine ⟨fun c => ?_, hr⟩
      rw [hc]
      simp only [List.mem_filterMap, TriggerFiles.mem_readDays]
      constructor
      · rintro ⟨f, ⟨d, ⟨h1, h2⟩, hf⟩, hcf⟩; exact ⟨d, f, h1, h2, hf, hcf⟩
      · rintro ⟨d, f, h1, h2, hf, hcf⟩; exact ⟨f, ⟨d, ⟨h1, h2⟩, hf⟩, hcf⟩

/-- A station added on the second day. -/
example : Availability.read (fun d => if d = 0 then some ⟨[['A', '_', 'P']], [(100, [some 1])]⟩ else
      if d = 1 then some ⟨[['B', '_', 'P'], ['A', '_', 'P']], [(86500, [some 1, some 0])]⟩ else none)
    0 90000 = .ok (some ⟨[['A', '_', 'P'], ['B', '_', 'P']],
      [(100, [some 1, none]), (86500, [some 0, some 1])]⟩) := by
  have e : readDays (dayNum 0) 90000 = [0, 1] := by
    rw [TriggerFiles.readDays_eq _ _ _ rfl]; decide +kernel
  unfold Availability.read
  rw [e]
  decide +kernel

/-! ## C68 -/

theorem getCol_ok (t : Table) {s : Str} (hs : s ∈ t.cols) :
    getCol t s = .ok (t.rows.map fun r => cell t.cols r.2 s) := by
  unfold getCol
  rw [if_pos hs]

theorem addCols_ok (t : Table) : ∀ (l : List (Str × Char)) (out : Table)
    (F : ℚ × List (Option ℤ) → List (Option ℤ)),
    out.rows = t.rows.map (fun r => (r.1, F r)) →
    (∀ x ∈ l, x.1 ∈ t.cols) → (l.map fun x => x.1 ++ ['_', x.2]).Nodup →
    (∀ x ∈ l, x.1 ++ ['_', x.2] ∉ out.cols) →
    addCols t out l = .ok ⟨out.cols ++ l.map (fun x => x.1 ++ ['_', x.2]),
      t.rows.map fun r => (r.1, F r ++ l.map fun x => cell t.cols r.2 x.1)⟩
  | [], out, F, h, _, _, _ => by
    simp only [addCols, List.map_nil, List.append_nil, Except.ok.injEq]
    rw [← h]
  | (s, ph) :: l, out, F, h, h1, h2, h3 => by
    rw [addCols, getCol_ok t (h1 (s, ph) (by simp))]
    simp only
    have hnew : setCol out (s ++ ['_', ph]) (t.rows.map fun r => cell t.cols r.2 s) = ⟨out.cols ++ [s ++ ['_', ph]], t.rows.map fun r => (r.1, F r ++
          [cell t.cols r.2 s])⟩ := by
      unfold setCol colIdx
      have : out.cols.findIdx? (fun x => x = s ++ ['_', ph]) = none := by
        rw [List.findIdx?_eq_none_iff]
        intro x hx
        simp only [decide_eq_false_iff_not]
        rintro rfl
        exact h3 (s, ph) (by simp) hx
      rw [this]
      simp only [h]
      congr 1
      rw [List.zipWith_map_left, List.zipWith_map_right, List.zipWith_self]
    rw [hnew]
    rw [List.map_cons, List.nodup_cons] at h2
    rw [addCols_ok t l _ _ rfl (fun x hx => h1 x (by simp [hx])) h2.2 (by
      intro x hx
      simp only [List.mem_append, List.mem_singleton, not_or]
      refine ⟨h3 x (by simp [hx]), ?_⟩
      intro he
      apply h2.1
      rw [List.mem_map]
      exact ⟨x, hx, he⟩)]
    simp

/-- C68, for station names without an underscore: an old-style table becomes one with a P and an S
column per station, each with the value of the station. -/
theorem C68_old_converted_partial (t : Table) (hp : Table.Proper t) (hne : t.cols ≠ [])
    (hu : ∀ s ∈ t.cols, '_' ∉ s) :
    handleOld t = .ok ⟨t.cols.map (fun s => s ++ ['_', 'P']) ++ t.cols.map (fun s => s ++ ['_', 'S']),
      t.rows.map fun r => (r.1, r.2 ++ r.2)⟩ := by
  obtain ⟨c, rest, hc⟩ := List.exists_cons_of_ne_nil hne
  have hc1 : (splitUnderscore c).length = 1 := by
    rw [split_none (hu c (by rw [hc]; simp))]
    rfl
  have hst : t.cols.map (fun c => (splitUnderscore c).headD []) = t.cols := by
    conv_rhs => rw [← List.map_id t.cols]
    apply List.map_congr_left
    intro s hs
    rw [split_none (hu s hs)]
    rfl
  have e : handleOld t = addCols t ⟨[], t.rows.map fun r => (r.1, [])⟩
      (['P', 'S'].flatMap fun ph => t.cols.map fun s => (s, ph)) := by
    unfold handleOld
    rw [hc]
    simp only
    rw [if_neg (by omega), ← hc, hst]
  rw [e, addCols_ok t _ _ (fun _ => []) rfl]
  · simp only [List.flatMap_cons, List.flatMap_nil, List.append_nil, List.map_append, List.map_map,
      List.nil_append, Except.ok.injEq, Table.mk.injEq]
    refine ⟨rfl, ?_⟩
    apply List.map_congr_left
    intro r hr
    have := map_lookup hp.nodup r.2 (hp.width r hr)
    simp only [Prod.mk.injEq, true_and]
    conv_rhs => rw [← this]
    rfl
  · intro x hx
    simp only [List.flatMap_cons, List.flatMap_nil, List.append_nil, List.mem_append,
      List.mem_map] at hx
    rcases hx with ⟨s, hs, rfl⟩ | ⟨s, hs, rfl⟩ <;> exact hs
  · simp only [List.flatMap_cons, List.flatMap_nil, List.append_nil, List.map_append, List.map_map]
    rw [List.nodup_append]
    have inj : ∀ ph : Char, Function.Injective (fun s : Str => s ++ ['_', ph]) :=
      fun ph a b h => List.append_cancel_right h
    refine ⟨hp.nodup.map (inj 'P'), hp.nodup.map (inj 'S'), ?_⟩
    intro a ha b hb hab
    obtain ⟨s, _, rfl⟩ := List.mem_map.1 ha
    obtain ⟨s', _, rfl⟩ := List.mem_map.1 hb
    have h1 : (s ++ ['_', 'P']).getLast? = (s' ++ ['_', 'S']).getLast? := by
      simp only [Function.comp_apply] at hab
      rw [hab]
    simp at h1
  · intro x _
    simp

/-- C68, for a first column `<station>_<phase>` without further underscores: a new-style table is
returned as it is. -/
theorem C68_new_unchanged_partial (t : Table) (h : NewStyle t.cols) : handleOld t = .ok t :=
  handleOld_new t h

/-- C68 is violated for station names with an underscore: an old-style table of station `A_1` is
taken for a new-style one, and a new-style table of station `A_1` cannot be read. -/
theorem C68_violated_underscore :
    handleOld ⟨[['A', '_', '1']], [(0, [some 1])]⟩ = .ok ⟨[['A', '_', '1']], [(0, [some 1])]⟩ ∧
    handleOld ⟨[['A', '_', '1', '_', 'P'], ['A', '_', '1', '_', 'S']], [(0, [some 1, some 1])]⟩ =
      .error .keyError := by
  decide +kernel

example : handleOld ⟨[['A'], ['B']], [(0, [some 1, some 0]), (1, [some 0, some 0])]⟩ =
    .ok ⟨[['A', '_', 'P'], ['B', '_', 'P'], ['A', '_', 'S'], ['B', '_', 'S']],
      [(0, [some 1, some 0, some 1, some 0]), (1, [some 0, some 0, some 0, some 0])]⟩ := by
  decide +kernel

end QM

import Verif.Spec.Data
import Verif.Lemmas.TriggerFiles
import Verif.Lemmas.Round
import Mathlib.Tactic.FieldSimp
import Mathlib.Tactic.Linarith

namespace QM.Data
open QM.Spec

/-- What is asked of a trace: samples, and a sampling rate of at most 500 kHz. -/
structure Sane (t : Trace) : Prop where
  ne : t.data ≠ []
  pos : 0 < t.rate
  le : t.rate ≤ 500000

theorem foldl_maxmin (xs : List ℚ) : ∀ a b : ℚ, b ≤ a →
    (xs.foldl (fun a b => if a < b then b else a) a =
      xs.foldl (fun a b => if b < a then b else a) b ↔ a = b ∧ ∀ x ∈ xs, x = a) := by
  have hmax : ∀ (xs : List ℚ) (a : ℚ), a ≤ xs.foldl (fun a b => if a < b then b else a) a ∧
      ∀ x ∈ xs, x ≤ xs.foldl (fun a b => if a < b then b else a) a := by
    intro xs
    induction xs with
    | nil => intro a; simp
    | cons x xs ih =>
      intro a
      rw [List.foldl_cons]
      obtain ⟨h1, h2⟩ := ih (if a < x then x else a)
      have h3 : a ≤ (if a < x then x else a) ∧ x ≤ (if a < x then x else a) := by
        split_ifs with h <;> constructor <;> linarith
      refine ⟨h3.1.trans h1, ?_⟩
      intro y hy
      rcases List.mem_cons.1 hy with rfl | hy
      · exact h3.2.trans h1
      · exact h2 y hy
  have hmin : ∀ (xs : List ℚ) (a : ℚ), xs.foldl (fun a b => if b < a then b else a) a ≤ a ∧
      ∀ x ∈ xs, xs.foldl (fun a b => if b < a then b else a) a ≤ x := by
    intro xs
    induction xs with
    | nil => intro a; simp
    | cons x xs ih =>
      intro a
      rw [List.foldl_cons]
      obtain ⟨h1, h2⟩ := ih (if x < a then x else a)
      have h3 : (if x < a then x else a) ≤ a ∧ (if x < a then x else a) ≤ x := by
        split_ifs with h <;> constructor <;> linarith
      refine ⟨h1.trans h3.1, ?_⟩
      intro y hy
      rcases List.mem_cons.1 hy with rfl | hy
      · exact h1.trans h3.2
      · exact h2 y hy
  intro a b hab
  constructor
  · intro h
    obtain ⟨p1, p2⟩ := hmax xs a
    obtain ⟨q1, q2⟩ := hmin xs b
    rw [← h] at q1 q2
    have hab' : a = b := le_antisymm (p1.trans q1) hab
    subst hab'
    have e : xs.foldl (fun a b => if a < b then b else a) a = a := le_antisymm q1 p1
    rw [e] at p2 q2
    exact ⟨rfl, fun x hx => le_antisymm (p2 x hx) (q2 x hx)⟩
  · rintro ⟨rfl, h⟩
    clear hab
    have : ∀ xs : List ℚ, (∀ x ∈ xs, x = a) →
        xs.foldl (fun a b => if a < b then b else a) a = a ∧
        xs.foldl (fun a b => if b < a then b else a) a = a := by
      intro xs
      induction xs with
      | nil => intro _; simp
      | cons x xs ih =>
        intro h
        have := h x (by simp)
        subst this
        simpa using ih (fun y hy => h y (by simp [hy]))
    obtain ⟨h1, h2⟩ := this xs h
    rw [h1, h2]

theorem flat_iff (t : Trace) (h : t.data ≠ []) :
    (t.flat = some true ∧ ∀ x ∈ t.data, ∀ y ∈ t.data, x = y) ∨
    (t.flat = some false ∧ ∃ x ∈ t.data, ∃ y ∈ t.data, x ≠ y) := by
  unfold Trace.flat
  cases hd : t.data with
  | nil => exact absurd hd h
  | cons x xs =>
    have := foldl_maxmin xs x x le_rfl
    simp only
    by_cases he : xs.foldl (fun a b => if a < b then b else a) x =
        xs.foldl (fun a b => if b < a then b else a) x
    · left
      have h2 := (this.1 he).2
      refine ⟨by simp [he], ?_⟩
      have h3 : ∀ y ∈ x :: xs, y = x := by
        intro y hy
        rcases List.mem_cons.1 hy with rfl | hy
        · rfl
        · exact h2 y hy
      intro y hy z hz
      rw [h3 y hy, h3 z hz]
    · right
      refine ⟨by simp [he], ?_⟩
      by_contra hc
      push Not at hc
      apply he
      rw [this]
      exact ⟨rfl, fun y hy => (hc y (by simp [hy]) x (by simp))⟩

theorem anyFlat_spec : ∀ (trs : List Trace), (∀ t ∈ trs, t.data ≠ []) →
    (anyFlat trs = some true ∧ ¬ ∀ t ∈ trs, ∃ x ∈ t.data, ∃ y ∈ t.data, x ≠ y) ∨
    (anyFlat trs = some false ∧ ∀ t ∈ trs, ∃ x ∈ t.data, ∃ y ∈ t.data, x ≠ y)
  | [], _ => by right; simp [anyFlat]
  | t :: ts, h => by
    rcases flat_iff t (h t (by simp)) with ⟨h1, h2⟩ | ⟨h1, h2⟩
    · left
      refine ⟨by rw [anyFlat, h1], ?_⟩
      intro hc
      obtain ⟨x, hx, y, hy, hne⟩ := hc t (by simp)
      exact hne (h2 x hx y hy)
    · rcases anyFlat_spec ts (fun t ht => h t (by simp [ht])) with ⟨h3, h4⟩ | ⟨h3, h4⟩
      · left
        refine ⟨by rw [anyFlat, h1]; exact h3, ?_⟩
        intro hc
        exact h4 (fun t ht => hc t (by simp [ht]))
      · right
        refine ⟨by rw [anyFlat, h1]; exact h3, ?_⟩
        intro t' ht'
        rcases List.mem_cons.1 ht' with rfl | ht'
        · exact h2
        · exact h4 t' ht'

theorem two_le_of_notFlat {l : List ℚ} (h : ∃ x ∈ l, ∃ y ∈ l, x ≠ y) : 2 ≤ l.length := by
  obtain ⟨x, hx, y, hy, hne⟩ := h
  match l with
  | [] => simp at hx
  | [a] => simp at hx hy; exact absurd (hx.trans hy.symm) hne
  | a :: b :: l => simp

theorem pyRound_eq_zero_iff {q : ℚ} (hq : 0 ≤ q) : pyRound q = 0 ↔ q ≤ 1 / 2 := by
  constructor
  · intro h
    have := abs_le.1 (abs_pyRound_sub_le q)
    rw [h] at this
    push_cast at this
    linarith [this.1]
  · intro h
    have h1 := pyRound_mono h
    have h2 := pyRound_mono hq
    have e1 : pyRound (1 / 2) = 0 := by decide +kernel
    have e2 : pyRound 0 = 0 := by decide +kernel
    omega

theorem lag_eq (a b : Trace) (h : 0 < a.rate) :
    b.start - (a.stop + 1 / a.rate) = lag a b := by
  unfold Trace.stop lag
  field_simp
  ring

theorem listed_aux (a b : Trace) (ha : Sane a) (hb : Sane b) (hb2 : 2 ≤ b.data.length) :
    (listed (some (-1 / 1000000)) a b = false ↔ Follows a b) ∧
    (listed none a b = false ↔ Continues a b) := by
  have hn : (2 : ℚ) ≤ b.data.length := by exact_mod_cast hb2
  have htemp : b.stop - b.start = ((b.data.length : ℚ) - 1) / b.rate := by
    unfold Trace.stop; ring
  have hbr := hb.pos
  have har := ha.pos
  have hinv : (1 : ℚ) / 500000 ≤ 1 / b.rate := one_div_le_one_div_of_le hb.pos hb.le
  have ht1 : 1 / b.rate ≤ b.stop - b.start := by
    rw [htemp]
    apply div_le_div_of_nonneg_right _ hbr.le
    linarith
  set d := lag a b with hd
  have hdelta : delta a b = if d < 0 then (if -d > b.stop - b.start then -(b.stop - b.start) else d)
      else d := by
    unfold delta
    rw [lag_eq a b har]
  have hr0 : ∀ x : ℚ, 0 ≤ |x| * a.rate := fun x => mul_nonneg (abs_nonneg _) har.le
  unfold listed Follows Continues
  simp only [Bool.and_eq_false_iff, Bool.not_eq_false', Bool.and_eq_true, decide_eq_true_eq,
    decide_eq_false_iff_not, hdelta, ← hd, pyRound_eq_zero_iff (hr0 _)]
  by_cases h0 : d < 0
  · rw [if_pos h0]
    by_cases h1 : -d > b.stop - b.start
    · rw [if_pos h1]
      have h2 : |(-(b.stop - b.start))| = b.stop - b.start := by
        rw [abs_neg, abs_of_nonneg]; linarith [one_div_pos.2 hbr]
      rw [h2]
      have h3 : -(b.stop - b.start) ≤ -1 / 1000000 := by linarith
      have h4 : a.rate = b.rate → 1 ≤ (b.stop - b.start) * a.rate := by
        intro he
        rw [htemp, he, div_mul_cancel₀ _ hbr.ne']
        linarith
      have h5 : a.rate = b.rate → d * a.rate < -1 := by
        intro he
        have := h4 he
        nlinarith
      have h6 : |d| = -d := abs_of_neg h0
      constructor
      · constructor
        · rintro (h | ⟨he, h⟩)
          · exact absurd h3 h
          · have := h4 he; linarith
        · intro h
          split_ifs at h with he
          · have := h5 he; linarith
          · linarith
      · constructor
        · rintro (h | ⟨he, h⟩)
          · simp at h
          · have := h4 he; linarith
        · rintro ⟨he, h⟩
          have := h5 he
          rw [h6] at h
          linarith
    · rw [if_neg h1]
      have h6 : |d| = -d := abs_of_neg h0
      rw [h6]
      constructor
      · constructor
        · rintro (h | ⟨he, h⟩)
          · push Not at h
            split_ifs with he
            · have h7 : a.rate ≤ 500000 := ha.le
              nlinarith
            · linarith
          · rw [if_pos he]; linarith
        · intro h
          split_ifs at h with he
          · right; exact ⟨he, by linarith⟩
          · left; linarith
      · constructor
        · rintro (h | ⟨he, h⟩)
          · simp at h
          · exact ⟨he, h⟩
        · rintro ⟨he, h⟩
          right; exact ⟨he, h⟩
  · rw [if_neg h0]
    push Not at h0
    constructor
    · constructor
      · intro _
        split_ifs with he
        · have := mul_nonneg h0 har.le; linarith
        · linarith
      · intro _
        left; linarith
    · constructor
      · rintro (h | h)
        · simp at h
        · exact h
      · intro h; right; exact h

theorem follows_lt {a b : Trace} (ha : Sane a) (ha2 : 2 ≤ a.data.length) (h : Follows a b) :
    a.start < b.start := by
  have hn : (2 : ℚ) ≤ a.data.length := by exact_mod_cast ha2
  have har := ha.pos
  have hinv : (1 : ℚ) / 500000 ≤ 1 / a.rate := one_div_le_one_div_of_le ha.pos ha.le
  have hl : 2 * (1 / a.rate) ≤ a.data.length / a.rate := by
    rw [mul_one_div]
    exact div_le_div_of_nonneg_right hn har.le
  unfold Follows lag at h
  split_ifs at h with he
  · have : -(1 / 2) * (1 / a.rate) ≤ b.start - (a.start + a.data.length / a.rate) := by
      rw [mul_one_div, div_le_iff₀ har]; exact h
    linarith
  · linarith

theorem continues_follows {a b : Trace} (h : Continues a b) (ha : 0 < a.rate) : Follows a b := by
  unfold Follows
  rw [if_pos h.1]
  have := neg_abs_le (lag a b)
  nlinarith [h.2]

theorem zip_tail_filter_nil {α : Type} (p : α → α → Bool) : ∀ s : List α,
    ((s.zip s.tail).filter (fun x => p x.1 x.2)).length = 0 ↔ s.IsChain (fun a b => p a b = false)
  | [] => by simp
  | [a] => by simp
  | a :: b :: s => by
    have := zip_tail_filter_nil p (b :: s)
    rw [List.isChain_cons_cons, ← this]
    simp only [List.tail_cons, List.zip_cons_cons, List.filter_cons]
    cases p a b <;> simp

theorem isChain_congr_mem {α : Type} {R S : α → α → Prop} : ∀ {l : List α},
    (∀ a ∈ l, ∀ b ∈ l, R a b ↔ S a b) → (l.IsChain R ↔ l.IsChain S)
  | [], _ => by simp
  | [a], _ => by simp
  | a :: b :: l, h => by
    rw [List.isChain_cons_cons, List.isChain_cons_cons, h a (by simp) b (by simp),
      isChain_congr_mem (l := b :: l) (fun x hx y hy => h x (by simp [hx]) y (by simp [hy]))]

instance : Std.Total Trace.le := ⟨fun a b => by
  unfold Trace.le
  rcases lt_trichotomy a.start b.start with h | h | h
  · exact Or.inl (Or.inl h)
  · rcases le_total a.stop b.stop with h2 | h2
    · exact Or.inl (Or.inr ⟨h, h2⟩)
    · exact Or.inr (Or.inr ⟨h.symm, h2⟩)
  · exact Or.inr (Or.inl h)⟩

instance : IsTrans Trace Trace.le := ⟨fun a b c h1 h2 => by
  unfold Trace.le at *
  rcases h1 with h1 | ⟨h1, h1'⟩ <;> rcases h2 with h2 | ⟨h2, h2'⟩
  · exact Or.inl (h1.trans h2)
  · exact Or.inl (h2 ▸ h1)
  · exact Or.inl (h1 ▸ h2)
  · exact Or.inr ⟨h1.trans h2, h1'.trans h2'⟩⟩

theorem sorted_unique {s trs : List Trace} (hp : s.Perm trs)
    (hs : s.Pairwise (fun a b => a.start < b.start)) : trs.insertionSort Trace.le = s := by
  have h1 : (trs.insertionSort Trace.le).Pairwise Trace.le := List.pairwise_insertionSort _ _
  have h2 : s.Pairwise Trace.le := hs.imp (fun h => Or.inl h)
  refine List.Perm.eq_of_pairwise ?_ h1 h2 ((List.perm_insertionSort _ _).trans hp.symm)
  intro a b ha hb hab hba
  have ha' : a ∈ s := hp.mem_iff.2 ((List.perm_insertionSort _ _).mem_iff.1 ha)
  have he : a.start = b.start := by
    rcases hab with h | ⟨h, _⟩
    · rcases hba with h' | ⟨h', _⟩
      · exact absurd (h.trans h') (lt_irrefl _)
      · exact h'.symm
    · exact h
  by_contra hne
  have := List.Pairwise.forall_of_forall_of_flip (R := fun a b : Trace => a ≠ b → a.start ≠ b.start)
    (l := s) (by intro x _ h; exact absurd rfl h) (hs.imp (fun h _ => h.ne))
    (hs.imp (fun h _ => h.ne')) ha' hb
  exact this hne he

theorem chain_sorted {s : List Trace} (hs : ∀ t ∈ s, Sane t ∧ 2 ≤ t.data.length)
    (h : s.IsChain Follows) : s.Pairwise (fun a b => a.start < b.start) := by
  rw [← List.isChain_iff_pairwise (R := fun a b : Trace => a.start < b.start)]
  induction s with
  | nil => simp
  | cons a s ih =>
    cases s with
    | nil => simp
    | cons b s =>
      rw [List.isChain_cons_cons] at h ⊢
      obtain ⟨h1, h2⟩ := hs a (by simp)
      exact ⟨follows_lt h1 h2 h.1, ih (fun t ht => hs t (by simp [ht])) h.2⟩

theorem getGaps_overlap_iff {trs : List Trace} (hs : ∀ t ∈ trs, Sane t ∧ 2 ≤ t.data.length) :
    (getGaps (some (-1 / 1000000)) trs).length = 0 ↔ NoOverlap trs := by
  have hs' : ∀ t ∈ trs.insertionSort Trace.le, Sane t ∧ 2 ≤ t.data.length :=
    fun t ht => hs t ((List.perm_insertionSort _ _).mem_iff.1 ht)
  unfold getGaps
  simp only
  rw [zip_tail_filter_nil, isChain_congr_mem (S := Follows)
    (fun a ha b hb => (listed_aux a b (hs' a ha).1 (hs' b hb).1 (hs' b hb).2).1)]
  constructor
  · intro h
    exact ⟨_, List.perm_insertionSort _ _, h⟩
  · rintro ⟨s, hp, hc⟩
    rw [sorted_unique hp (chain_sorted (fun t ht => hs t (hp.mem_iff.1 ht)) hc)]
    exact hc

theorem isChain_imp_mem {α : Type} {R S : α → α → Prop} : ∀ {l : List α},
    (∀ a ∈ l, ∀ b ∈ l, R a b → S a b) → l.IsChain R → l.IsChain S
  | [], _, _ => by simp
  | [a], _, _ => by simp
  | a :: b :: l, h, hc => by
    rw [List.isChain_cons_cons] at hc ⊢
    exact ⟨h a (by simp) b (by simp) hc.1,
      isChain_imp_mem (l := b :: l) (fun x hx y hy => h x (by simp [hx]) y (by simp [hy])) hc.2⟩

theorem getGaps_gap_iff {trs : List Trace} (hs : ∀ t ∈ trs, Sane t ∧ 2 ≤ t.data.length) :
    (getGaps none trs).length = 0 ↔ NoGap trs := by
  have hs' : ∀ t ∈ trs.insertionSort Trace.le, Sane t ∧ 2 ≤ t.data.length :=
    fun t ht => hs t ((List.perm_insertionSort _ _).mem_iff.1 ht)
  unfold getGaps
  simp only
  rw [zip_tail_filter_nil, isChain_congr_mem (S := Continues)
    (fun a ha b hb => (listed_aux a b (hs' a ha).1 (hs' b hb).1 (hs' b hb).2).2)]
  constructor
  · intro h
    exact ⟨_, List.perm_insertionSort _ _, h⟩
  · rintro ⟨s, hp, hc⟩
    have hf : s.IsChain Follows := isChain_imp_mem
      (fun a ha b _ h => continues_follows h (hs a (hp.mem_iff.1 ha)).1.pos) hc
    rw [sorted_unique hp (chain_sorted (fun t ht => hs t (hp.mem_iff.1 ht)) hf)]
    exact hc

end QM.Data

import Verif.Py
import Mathlib.Data.List.Chain
import Mathlib.Data.List.Dedup
import Mathlib.Data.List.Sort

/-! # Lemmas about the library primitives -/

namespace QM

theorem foldl_firstMax {α : Type} (key : α → ℚ) (l : List α) (a : α) :
    ∃ pre post, a :: l = pre ++ (l.foldl (fun best b => if key best < key b then b else best) a) :: post ∧
      (∀ c ∈ pre, key c < key (l.foldl (fun best b => if key best < key b then b else best) a)) ∧
      (∀ c ∈ post, key c ≤ key (l.foldl (fun best b => if key best < key b then b else best) a)) := by
  induction l using List.reverseRecOn with
  | nil => exact ⟨[], [], by simp, by simp, by simp⟩
  | append_singleton l x ih =>
    obtain ⟨pre, post, h, h1, h2⟩ := ih
    rw [List.foldl_append]
    simp only [List.foldl_cons, List.foldl_nil]
    generalize l.foldl (fun best b => if key best < key b then b else best) a = m at *
    split
    · rename_i hlt
      refine ⟨a :: l, [], by simp, ?_, by simp⟩
      rw [h]
      intro c hc
      simp only [List.mem_append, List.mem_cons] at hc
      rcases hc with hc | rfl | hc
      · exact (h1 c hc).trans hlt
      · exact hlt
      · exact lt_of_le_of_lt (h2 c hc) hlt
    · rename_i hlt
      refine ⟨pre, post ++ [x], ?_, h1, ?_⟩
      · rw [← List.cons_append, h]; simp
      · intro c hc
        simp only [List.mem_append, List.mem_singleton] at hc
        rcases hc with hc | rfl
        · exact h2 c hc
        · exact not_lt.mp hlt

theorem firstMaxBy_spec {α : Type} {key : α → ℚ} {l : List α} {m : α}
    (h : firstMaxBy key l = some m) :
    ∃ pre post, l = pre ++ m :: post ∧ (∀ c ∈ pre, key c < key m) ∧
      (∀ c ∈ post, key c ≤ key m) := by
  cases l with
  | nil => simp [firstMaxBy] at h
  | cons a l =>
    simp only [firstMaxBy, Option.some.injEq] at h
    subst h
    exact foldl_firstMax key l a

theorem firstMaxBy_isSome {α : Type} (key : α → ℚ) {l : List α} (h : l ≠ []) :
    ∃ m, firstMaxBy key l = some m := by
  cases l with
  | nil => exact absurd rfl h
  | cons a l => exact ⟨_, rfl⟩

theorem filter_split_min {α : Type} (key : α → ℤ) (k : ℤ) (l : List α)
    (hs : (l.map key).Pairwise (· ≤ ·)) (hk : ∀ a ∈ l, k ≤ key a) :
    l = l.filter (fun a => key a = k) ++ l.filter (fun a => key a ≠ k) := by
  induction l with
  | nil => simp
  | cons a l ih =>
    rw [List.map_cons, List.pairwise_cons] at hs
    have ih' := ih hs.2 (fun b hb => hk b (List.mem_cons_of_mem _ hb))
    by_cases ha : key a = k
    · rw [List.filter_cons_of_pos (by simpa using ha), List.filter_cons_of_neg (by simpa using ha),
        List.cons_append, ← ih']
    · have hgt : ∀ b ∈ a :: l, key b ≠ k := by
        intro b hb
        rcases List.mem_cons.mp hb with rfl | hb
        · exact ha
        · have h1 := hs.1 (key b) (List.mem_map_of_mem hb)
          have h2 := hk a List.mem_cons_self
          omega
      have e1 : (a :: l).filter (fun a => key a = k) = [] := by
        rw [List.filter_eq_nil_iff]; intro b hb; simpa using hgt b hb
      have e2 : (a :: l).filter (fun a => key a ≠ k) = a :: l := by
        rw [List.filter_eq_self]; intro b hb; simpa using hgt b hb
      rw [e1, e2, List.nil_append]

theorem flatten_filter_keys {α : Type} (key : α → ℤ) (ks : List ℤ) :
    ∀ (l : List α), ks.Pairwise (· < ·) → (l.map key).Pairwise (· ≤ ·) →
      (∀ a ∈ l, key a ∈ ks) →
      (ks.map (fun k => l.filter (fun a => key a = k))).flatten = l := by
  induction ks with
  | nil =>
    intro l _ _ h
    cases l with
    | nil => simp
    | cons a l => exact absurd (h a List.mem_cons_self) (by simp)
  | cons k ks ih =>
    intro l hks hs h
    rw [List.pairwise_cons] at hks
    have hmin : ∀ a ∈ l, k ≤ key a := by
      intro a ha
      rcases List.mem_cons.mp (h a ha) with h1 | h1
      · omega
      · exact le_of_lt (hks.1 _ h1)
    have hsplit := filter_split_min key k l hs hmin
    have hrest : (ks.map (fun k' => l.filter (fun a => key a = k'))) =
        (ks.map (fun k' => (l.filter (fun a => key a ≠ k)).filter (fun a => key a = k'))) := by
      apply List.map_congr_left
      intro k' hk'
      have := hks.1 k' hk'
      rw [List.filter_filter]
      apply List.filter_congr
      intro a _
      by_cases hk2 : key a = k'
      · have hne : key a ≠ k := by omega
        simp only [hk2, decide_true, Bool.true_and]
        rw [eq_comm, decide_eq_true_eq]; omega
      · simp [hk2]
    rw [List.map_cons, List.flatten_cons, hrest, ih _ hks.2]
    · exact hsplit.symm
    · exact hs.sublist (List.filter_sublist.map key)
    · intro a ha
      rw [List.mem_filter] at ha
      have := h a ha.1
      rcases List.mem_cons.mp this with h1 | h1
      · simp [h1] at ha
      · exact h1

/-- Grouping on a nondecreasing key gives the consecutive groups of equal key. -/
theorem pdGroupBy_spec {α : Type} (key : α → ℤ) (l : List α)
    (hs : (l.map key).Pairwise (· ≤ ·)) :
    (pdGroupBy key l).flatten = l ∧ (∀ g ∈ pdGroupBy key l, g ≠ []) ∧
    (∀ g ∈ pdGroupBy key l, ∀ a ∈ g, ∀ b ∈ g, key a = key b) ∧
    (pdGroupBy key l).Pairwise (fun g h => ∀ a ∈ g, ∀ b ∈ h, key a < key b) := by
  have hp := List.perm_insertionSort (· ≤ · : ℤ → ℤ → Prop) ((l.map key).dedup)
  have hsorted : (((l.map key).dedup).insertionSort (· ≤ ·)).Pairwise (· ≤ ·) :=
    List.pairwise_insertionSort _ _
  have hnd : (((l.map key).dedup).insertionSort (· ≤ ·)).Nodup :=
    hp.nodup_iff.mpr (List.nodup_dedup _)
  have hmem : ∀ k, k ∈ ((l.map key).dedup).insertionSort (· ≤ ·) ↔
      ∃ a ∈ l, key a = k := by
    intro k; rw [hp.mem_iff, List.mem_dedup, List.mem_map]
  have hlt : (((l.map key).dedup).insertionSort (· ≤ ·)).Pairwise (· < ·) := by
    refine (hsorted.and hnd).imp ?_
    intro a b h; exact lt_of_le_of_ne h.1 h.2
  unfold pdGroupBy
  generalize ((l.map key).dedup).insertionSort (· ≤ ·) = ks at *
  refine ⟨?_, ?_, ?_, ?_⟩
  · exact flatten_filter_keys key ks l hlt hs (fun a ha => (hmem _).mpr ⟨a, ha, rfl⟩)
  · intro g hg
    obtain ⟨k, hk, rfl⟩ := List.mem_map.mp hg
    obtain ⟨a, ha, hak⟩ := (hmem k).mp hk
    intro hnil
    rw [List.filter_eq_nil_iff] at hnil
    exact hnil a ha (by simpa using hak)
  · intro g hg a ha b hb
    obtain ⟨k, hk, rfl⟩ := List.mem_map.mp hg
    simp only [List.mem_filter, decide_eq_true_eq] at ha hb
    rw [ha.2, hb.2]
  · rw [List.pairwise_map]
    refine hlt.imp ?_
    intro k k' hkk a ha b hb
    simp only [List.mem_filter, decide_eq_true_eq] at ha hb
    rw [ha.2, hb.2]; exact hkk

end QM

namespace QM

theorem pairwise_or {α : Type} {R : α → α → Prop} {l : List α} (h : l.Pairwise R)
    {a b : α} (ha : a ∈ l) (hb : b ∈ l) : a = b ∨ R a b ∨ R b a := by
  induction l with
  | nil => exact absurd ha (by simp)
  | cons x l ih =>
    rw [List.pairwise_cons] at h
    rcases List.mem_cons.mp ha with rfl | ha'
    · rcases List.mem_cons.mp hb with rfl | hb'
      · exact Or.inl rfl
      · exact Or.inr (Or.inl (h.1 b hb'))
    · rcases List.mem_cons.mp hb with rfl | hb'
      · exact Or.inr (Or.inr (h.1 a ha'))
      · exact ih h.2 ha' hb'

theorem filterMap_forall₂ {α β : Type} (f : α → Option β) (l : List α)
    (h : ∀ a ∈ l, ∃ b, f a = some b) :
    List.Forall₂ (fun b a => f a = some b) (l.filterMap f) l := by
  induction l with
  | nil => simp
  | cons a l ih =>
    obtain ⟨b, hb⟩ := h a List.mem_cons_self
    rw [List.filterMap_cons_some hb]
    exact List.Forall₂.cons hb (ih (fun a ha => h a (List.mem_cons_of_mem _ ha)))

theorem isChain_and {α : Type} {R S : α → α → Prop} {l : List α} (h1 : l.IsChain R)
    (h2 : l.IsChain S) : l.IsChain (fun a b => R a b ∧ S a b) := by
  induction l with
  | nil => simp
  | cons a l ih =>
    cases l with
    | nil => simp
    | cons b l =>
      rw [List.isChain_cons_cons] at h1 h2 ⊢
      exact ⟨⟨h1.1, h2.1⟩, ih h1.2 h2.2⟩

/-- Members of a list of consecutive naturals. -/
theorem consec_mem {l : List ℕ} {a : ℕ} (h : (a :: l).IsChain (fun x y => y = x + 1)) (i : ℕ) :
    i ∈ a :: l ↔ a ≤ i ∧ i ≤ (a :: l).getLast (by simp) := by
  induction l generalizing a with
  | nil => simp; omega
  | cons b l ih =>
    rw [List.isChain_cons_cons] at h
    have := ih h.2
    have hl : (a :: b :: l).getLast (by simp) = (b :: l).getLast (by simp) :=
      List.getLast_cons (List.cons_ne_nil b l)
    rw [List.mem_cons, this, hl]
    have hb : b ≤ (b :: l).getLast (by simp) := by
      exact consec_le h.2
    obtain ⟨rfl, _⟩ := h
    constructor
    · rintro (rfl | h)
      · constructor <;> omega
      · constructor <;> omega
    · intro h
      by_cases hi : i = a
      · exact Or.inl hi
      · right; constructor <;> omega
where
  consec_le {l : List ℕ} {a : ℕ} (h : (a :: l).IsChain (fun x y => y = x + 1)) :
      a ≤ (a :: l).getLast (by simp) := by
    induction l generalizing a with
    | nil => simp
    | cons b l ih =>
      rw [List.isChain_cons_cons] at h
      have hl : (a :: b :: l).getLast (by simp) = (b :: l).getLast (by simp) :=
        List.getLast_cons (List.cons_ne_nil b l)
      rw [hl]
      have := ih h.2
      omega

/-- Cutting a list into consecutive non-empty groups at exactly the places where
`R` holds between neighbours can be done in only one way. -/
theorem groups_unique {α : Type} (R : α → α → Prop) (G : List (List α)) :
    ∀ H : List (List α), G.flatten = H.flatten →
    (∀ g ∈ G, g ≠ []) → (∀ g ∈ H, g ≠ []) →
    (∀ g ∈ G, g.IsChain (fun c d => ¬ R c d)) → (∀ g ∈ H, g.IsChain (fun c d => ¬ R c d)) →
    G.IsChain (fun g h => ∀ c ∈ g.getLast?, ∀ d ∈ h.head?, R c d) →
    H.IsChain (fun g h => ∀ c ∈ g.getLast?, ∀ d ∈ h.head?, R c d) → G = H := by
  induction G with
  | nil =>
    intro H hf _ hH _ _ _ _
    cases H with
    | nil => rfl
    | cons h H =>
      have := hH h List.mem_cons_self
      simp at hf
      exact absurd hf.1 this
  | cons g G ih =>
    intro H hf hG hH hG1 hH1 hG2 hH2
    cases H with
    | nil =>
      have := hG g List.mem_cons_self
      simp at hf
      exact absurd hf.1 this
    | cons h H =>
      rw [List.flatten_cons, List.flatten_cons] at hf
      have tailG : G.IsChain (fun g h => ∀ c ∈ g.getLast?, ∀ d ∈ h.head?, R c d) := by
        cases G with
        | nil => simp
        | cons _ _ => rw [List.isChain_cons_cons] at hG2; exact hG2.2
      have tailH : H.IsChain (fun g h => ∀ c ∈ g.getLast?, ∀ d ∈ h.head?, R c d) := by
        cases H with
        | nil => simp
        | cons _ _ => rw [List.isChain_cons_cons] at hH2; exact hH2.2
      have noext : ∀ (g h : List α) (G H : List (List α)) (x : α) (t : List α), g ≠ [] →
          h = g ++ x :: t → G.flatten = x :: t ++ H.flatten → (∀ g' ∈ G, g' ≠ []) →
          h.IsChain (fun c d => ¬ R c d) →
          (g :: G).IsChain (fun g h => ∀ c ∈ g.getLast?, ∀ d ∈ h.head?, R c d) → False := by
        intro g h G H x t hg hh hGf hG0 hc hchain
        cases G with
        | nil => simp at hGf
        | cons k G =>
          have hk := hG0 k List.mem_cons_self
          cases k with
          | nil => exact hk rfl
          | cons y k =>
            rw [List.isChain_cons_cons] at hchain
            rw [List.flatten_cons, List.cons_append, List.cons_append] at hGf
            have hyx : y = x := (List.cons.inj hGf).1
            obtain ⟨c, hcl⟩ : ∃ c, g.getLast? = some c := by
              rw [← Option.ne_none_iff_exists']; simpa using hg
            have h1 := hchain.1 c hcl y rfl
            rw [hh, List.isChain_append] at hc
            exact hc.2.2 c hcl x rfl (hyx ▸ h1)
      have hgh : g = h := by
        rcases List.append_eq_append_iff.mp hf with ⟨as, h1, h2⟩ | ⟨bs, h1, h2⟩
        · cases as with
          | nil => simpa using h1.symm
          | cons x t =>
            exact (noext g h G H x t (hG g List.mem_cons_self) h1 h2
              (fun g' hg' => hG g' (List.mem_cons_of_mem _ hg')) (hH1 h List.mem_cons_self) hG2).elim
        · cases bs with
          | nil => simpa using h1
          | cons x t =>
            exact (noext h g H G x t (hH h List.mem_cons_self) h1 h2
              (fun g' hg' => hH g' (List.mem_cons_of_mem _ hg')) (hG1 g List.mem_cons_self) hH2).elim
      subst hgh
      have hf' := List.append_cancel_left hf
      rw [ih H hf' (fun g hg => hG g (List.mem_cons_of_mem _ hg))
        (fun g hg => hH g (List.mem_cons_of_mem _ hg))
        (fun g hg => hG1 g (List.mem_cons_of_mem _ hg))
        (fun g hg => hH1 g (List.mem_cons_of_mem _ hg)) tailG tailH]

end QM

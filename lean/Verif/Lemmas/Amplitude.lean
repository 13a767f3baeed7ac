import Verif.Model.Amplitude
import Verif.Spec.Amplitude
import Verif.Lemmas.Lists
import Mathlib.Data.List.Zip

namespace QM.Amplitude
open QM.Spec

theorem odds_cons_cons (a b : ℕ) (l : List ℕ) : odds (a :: b :: l) = b :: odds l := by
  cases l <;> rfl

theorem evens_length : ∀ l : List ℕ, (evens l).length = (l.length + 1) / 2
  | [] => rfl
  | [_] => by simp [evens]
  | _ :: _ :: l => by
    rw [evens, List.length_cons, evens_length l]
    simp only [List.length_cons]
    omega

theorem odds_length (l : List ℕ) : (odds l).length = l.length / 2 := by
  unfold odds
  rw [evens_length, List.length_tail]
  omega

theorem mem_neighbours : ∀ (l : List ℕ) (p : ℕ × ℕ), p ∈ neighbours l ↔
    p ∈ (evens l).zip (odds l) ∨ p.swap ∈ (evens l).tail.zip (odds l)
  | [], p => by simp [neighbours, evens, odds]
  | [a], p => by simp [neighbours, evens, odds]
  | [a, b], p => by simp [neighbours, evens, odds]
  | a :: b :: c :: l, p => by
    have ih := mem_neighbours (c :: l) p
    have e1 : neighbours (a :: b :: c :: l) = (a, b) :: (b, c) :: neighbours (c :: l) := by
      simp [neighbours]
    have e2 : evens (c :: l) = c :: (evens (c :: l)).tail := by
      cases l <;> rfl
    have e3 : p = (b, c) ↔ p.swap = (c, b) := by
      obtain ⟨x, y⟩ := p
      simp [and_comm]
    rw [e1, List.mem_cons, List.mem_cons, ih, odds_cons_cons, evens, List.tail_cons, List.zip_cons_cons,
      List.mem_cons]
    have e4 : (evens (c :: l)).zip (b :: odds (c :: l)) =
        (c, b) :: (evens (c :: l)).tail.zip (odds (c :: l)) := by
      conv_lhs => rw [e2]
      rw [List.zip_cons_cons]
    rw [e4, List.mem_cons, e3]
    tauto

theorem measure_symm (x : ℕ → ℚ) (delta start : ℚ) (p : ℕ × ℕ) :
    measure x delta start p = measure x delta start p.swap := by
  obtain ⟨i, j⟩ := p
  simp only [measure, Prod.swap, Meas.mk.injEq]
  refine ⟨by rw [abs_sub_comm], by rw [abs_sub_comm], by ring⟩

theorem zip_dropLast_left {α β : Type} : ∀ (a : List α) (b : List β), a.length = b.length + 1 →
    a.dropLast.zip b = a.zip b
  | [], _, h => by simp at h
  | [_], [], _ => by simp
  | [_], _ :: _, h => by simp at h
  | _ :: _ :: _, [], h => by simp at h
  | x :: y :: a, z :: b, h => by
    rw [List.dropLast_cons₂, List.zip_cons_cons, List.zip_cons_cons,
      zip_dropLast_left (y :: a) b (by simpa using h)]

theorem zip_dropLast_right {α β : Type} (a : List α) (b : List β) (h : b.length = a.length + 1) :
    a.zip b.dropLast = a.zip b := by
  rw [← List.zip_swap, ← List.zip_swap b a, zip_dropLast_left b a h]

theorem mem_zip_swap {α β : Type} (a : List α) (b : List β) (p : α × β) :
    p ∈ a.zip b ↔ p.swap ∈ b.zip a := by
  rw [← List.zip_swap a b, List.mem_map]
  constructor
  · intro h; exact ⟨p, h, rfl⟩
  · rintro ⟨q, hq, e⟩
    have : q = p := by
      have := congrArg Prod.swap e
      simpa using this
    rwa [← this]

/-- Both lists of pairs are searched for their maximum: the larger is a largest neighbouring swing. -/
theorem best_pair {x : ℕ → ℚ} {ab cd nb : List (ℕ × ℕ)}
    (h1 : ∀ p, p ∈ ab ∨ p ∈ cd → p ∈ nb ∨ p.swap ∈ nb)
    (h2 : ∀ p ∈ nb, p ∈ ab ∨ p.swap ∈ ab ∨ p ∈ cd ∨ p.swap ∈ cd) {m1 m2 : ℕ × ℕ}
    (hm1 : firstMaxBy (fun pt : ℕ × ℕ => |x pt.1 - x pt.2|) ab = some m1)
    (hm2 : firstMaxBy (fun pt : ℕ × ℕ => |x pt.1 - x pt.2|) cd = some m2) :
    ∃ q, (q ∈ nb ∧ ∀ p ∈ nb, |x p.1 - x p.2| ≤ |x q.1 - x q.2|) ∧
      (q = (if |x m1.1 - x m1.2| ≥ |x m2.1 - x m2.2| then m1 else m2) ∨
       q.swap = (if |x m1.1 - x m1.2| ≥ |x m2.1 - x m2.2| then m1 else m2)) := by
  obtain ⟨pre, post, e1, a1, a2⟩ := firstMaxBy_spec hm1
  obtain ⟨pre', post', e2, b1, b2⟩ := firstMaxBy_spec hm2
  have hA : ∀ p ∈ ab, |x p.1 - x p.2| ≤ |x m1.1 - x m1.2| := by
    intro p hp
    rw [e1] at hp
    simp only [List.mem_append, List.mem_cons] at hp
    rcases hp with hp | rfl | hp
    · exact le_of_lt (a1 p hp)
    · exact le_refl _
    · exact a2 p hp
  have hB : ∀ p ∈ cd, |x p.1 - x p.2| ≤ |x m2.1 - x m2.2| := by
    intro p hp
    rw [e2] at hp
    simp only [List.mem_append, List.mem_cons] at hp
    rcases hp with hp | rfl | hp
    · exact le_of_lt (b1 p hp)
    · exact le_refl _
    · exact b2 p hp
  set m := if |x m1.1 - x m1.2| ≥ |x m2.1 - x m2.2| then m1 else m2 with hm
  have hmem : m ∈ ab ∨ m ∈ cd := by
    rw [hm]
    split_ifs
    · left; rw [e1]; simp
    · right; rw [e2]; simp
  have hmax : ∀ p, p ∈ ab ∨ p ∈ cd → |x p.1 - x p.2| ≤ |x m.1 - x m.2| := by
    intro p hp
    rw [hm]
    split_ifs with h
    · rcases hp with hp | hp
      · exact hA p hp
      · exact le_trans (hB p hp) h
    · rcases hp with hp | hp
      · exact le_trans (hA p hp) (le_of_lt (not_le.1 h))
      · exact hB p hp
  have hall : ∀ p ∈ nb, |x p.1 - x p.2| ≤ |x m.1 - x m.2| := by
    intro p hp
    rcases h2 p hp with h | h | h | h
    · exact hmax p (Or.inl h)
    · have := hmax p.swap (Or.inl h)
      simp only [Prod.fst_swap, Prod.snd_swap] at this
      rwa [abs_sub_comm]
    · exact hmax p (Or.inr h)
    · have := hmax p.swap (Or.inr h)
      simp only [Prod.fst_swap, Prod.snd_swap] at this
      rwa [abs_sub_comm]
  rcases h1 m hmem with h | h
  · exact ⟨m, ⟨h, hall⟩, Or.inl rfl⟩
  · refine ⟨m.swap, ⟨h, fun p hp => ?_⟩, Or.inr (Prod.swap_swap m)⟩
    have := hall p hp
    rw [Prod.fst_swap, Prod.snd_swap, abs_sub_comm (x m.2)]
    exact this

/-- The two lists of pairs for alternating extrema. -/
theorem pairings_alternate {E peaks troughs : List ℕ} (h : Alternate E peaks troughs)
    (h3 : 3 ≤ E.length) : ∃ ab cd, pairings peaks troughs = .ok (ab, cd) ∧ ab ≠ [] ∧ cd ≠ [] ∧
      (∀ p, p ∈ ab ∨ p ∈ cd → p ∈ neighbours E ∨ p.swap ∈ neighbours E) ∧
      (∀ p ∈ neighbours E, p ∈ ab ∨ p.swap ∈ ab ∨ p ∈ cd ∨ p.swap ∈ cd) := by
  obtain ⟨hs, h⟩ := h
  obtain ⟨a, b, c, l, rfl⟩ : ∃ a b c l, E = a :: b :: c :: l := by
    match E, h3 with
    | a :: b :: c :: l, _ => exact ⟨a, b, c, l, rfl⟩
  set E := a :: b :: c :: l with hE
  have hab : a < b := by
    rw [hE, List.pairwise_cons] at hs
    exact hs.1 b (by simp)
  have he : evens E = a :: evens (c :: l) := rfl
  have ho : odds E = b :: odds (c :: l) := odds_cons_cons a b (c :: l)
  have he' : evens (c :: l) = c :: (evens (c :: l)).tail := by cases l <;> rfl
  have le := evens_length E
  have lo := odds_length E
  have lE : E.length = l.length + 3 := by simp [hE]
  have hn := mem_neighbours E
  have key : ∀ (Z1 Z2 : List (ℕ × ℕ)),
      (∀ p, p ∈ Z1 ↔ p ∈ (evens E).zip (odds E)) → (∀ p, p ∈ Z2 ↔ p ∈ (evens E).tail.zip (odds E)) →
      (∀ p, p ∈ Z1 ∨ p ∈ Z2 → p ∈ neighbours E ∨ p.swap ∈ neighbours E) ∧
      (∀ p ∈ neighbours E, p ∈ Z1 ∨ p.swap ∈ Z1 ∨ p ∈ Z2 ∨ p.swap ∈ Z2) := by
    intro Z1 Z2 hz1 hz2
    constructor
    · intro p hp
      rw [hn, hn, Prod.swap_swap, ← hz1, ← hz2, ← hz1, ← hz2]
      tauto
    · intro p hp
      rw [hn] at hp
      rw [hz1, hz2, hz1, hz2]
      tauto
  have key' : ∀ (Z1 Z2 : List (ℕ × ℕ)),
      (∀ p, p ∈ Z1 ↔ p.swap ∈ (evens E).zip (odds E)) → (∀ p, p ∈ Z2 ↔ p.swap ∈ (evens E).tail.zip (odds E)) →
      (∀ p, p ∈ Z1 ∨ p ∈ Z2 → p ∈ neighbours E ∨ p.swap ∈ neighbours E) ∧
      (∀ p ∈ neighbours E, p ∈ Z1 ∨ p.swap ∈ Z1 ∨ p ∈ Z2 ∨ p.swap ∈ Z2) := by
    intro Z1 Z2 hz1 hz2
    constructor
    · intro p hp
      rw [hz1, hz2] at hp
      rw [hn, hn, Prod.swap_swap]
      tauto
    · intro p hp
      rw [hn] at hp
      rw [hz1, hz2, hz1, hz2, Prod.swap_swap]
      tauto
  rcases h with ⟨rfl, rfl⟩ | ⟨rfl, rfl⟩
  · -- a peak first
    have hhead : (evens E).headD 0 < (odds E).headD 0 := by rw [he, ho]; simpa using hab
    by_cases hev : (evens E).length = (odds E).length
    · refine ⟨(evens E).zip (odds E), (evens E).tail.zip (odds E).dropLast, ?_, ?_, ?_, ?_⟩
      · unfold pairings; rw [if_pos hev, if_pos hhead]
      · rw [he, ho]; simp
      · intro hc
        have := congrArg List.length hc
        simp only [List.length_zip, List.length_tail, List.length_dropLast, List.length_nil] at this
        omega
      · apply key _ _ (fun p => Iff.rfl)
        intro p
        rw [zip_dropLast_right _ _ (by rw [List.length_tail]; omega)]
    · have hl : (evens E).length = (odds E).length + 1 := by omega
      refine ⟨(evens E).dropLast.zip (odds E), (evens E).tail.zip (odds E), ?_, ?_, ?_, ?_⟩
      · unfold pairings
        rw [if_neg hev, if_neg (not_not.2 (Or.inl hl)), if_pos (by omega), if_pos hhead]
      · intro hc
        have := congrArg List.length hc
        simp only [List.length_zip, List.length_dropLast, List.length_nil] at this
        omega
      · intro hc
        have := congrArg List.length hc
        simp only [List.length_zip, List.length_tail, List.length_nil] at this
        omega
      · apply key _ _ _ (fun p => Iff.rfl)
        intro p
        rw [zip_dropLast_left _ _ hl]
  · -- a trough first
    have hhead : (evens E).headD 0 < (odds E).headD 0 := by rw [he, ho]; simpa using hab
    by_cases hev : (odds E).length = (evens E).length
    · refine ⟨(odds E).zip (evens E), (odds E).dropLast.zip (evens E).tail, ?_, ?_, ?_, ?_⟩
      · unfold pairings; rw [if_pos hev, if_neg (by omega)]
      · rw [he, ho]; simp
      · intro hc
        have := congrArg List.length hc
        simp only [List.length_zip, List.length_tail, List.length_dropLast, List.length_nil] at this
        omega
      · apply key' _ _ (fun p => mem_zip_swap _ _ p)
        intro p
        rw [zip_dropLast_left _ _ (by rw [List.length_tail]; omega)]
        exact mem_zip_swap _ _ p
    · have hl : (evens E).length = (odds E).length + 1 := by omega
      refine ⟨(odds E).zip (evens E).tail, (odds E).zip (evens E).dropLast, ?_, ?_, ?_, ?_⟩
      · unfold pairings
        rw [if_neg hev, if_neg (not_not.2 (Or.inr hl)), if_neg (by omega), if_pos hhead]
      · intro hc
        have := congrArg List.length hc
        simp only [List.length_zip, List.length_tail, List.length_nil] at this
        omega
      · intro hc
        have := congrArg List.length hc
        simp only [List.length_zip, List.length_dropLast, List.length_nil] at this
        omega
      · have hk := key' ((odds E).zip (evens E).dropLast) ((odds E).zip (evens E).tail)
          (fun p => by rw [zip_dropLast_right _ _ hl]; exact mem_zip_swap _ _ p)
          (fun p => mem_zip_swap _ _ p)
        refine ⟨fun p hp => hk.1 p hp.symm, fun p hp => ?_⟩
        have := hk.2 p hp
        tauto

end QM.Amplitude

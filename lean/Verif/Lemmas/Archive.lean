import Verif.Spec.Archive
import Verif.Lemmas.EventId
import Mathlib.Data.List.Infix

namespace QM.Archive
open QM.Spec QM.EventId
open QM.Data (Str)

theorem match_nil (s : Str) : matchComp [] s = true ↔ s = [] := by simp [matchComp]

theorem match_lits (a : Str) (p : List Tok) : ∀ s : Str,
    matchComp (lits a ++ p) s = true ↔ ∃ t, s = a ++ t ∧ matchComp p t = true := by
  induction a with
  | nil => intro s; simp [lits]
  | cons c a ih =>
    intro s
    cases s with
    | nil => simp [lits, matchComp]
    | cons d s =>
      have : lits (c :: a) ++ p = Tok.lit c :: (lits a ++ p) := rfl
      rw [this, matchComp, Bool.and_eq_true, decide_eq_true_eq, ih]
      constructor
      · rintro ⟨rfl, t, rfl, h⟩
        exact ⟨t, rfl, h⟩
      · rintro ⟨t, h1, h2⟩
        rw [List.cons_append, List.cons.injEq] at h1
        exact ⟨h1.1, t, h1.2, h2⟩

theorem match_lits_end (a s : Str) : matchComp (lits a) s = true ↔ s = a := by
  have := match_lits a [] s
  rw [List.append_nil] at this
  rw [this]
  constructor
  · rintro ⟨t, rfl, h⟩
    rw [match_nil] at h
    simp [h]
  · rintro rfl
    exact ⟨[], by simp, by simp [matchComp]⟩

theorem match_star (p : List Tok) (s : Str) :
    matchComp (.star :: p) s = true ↔ ∃ a b, s = a ++ b ∧ matchComp p b = true := by
  rw [matchComp, List.any_eq_true]
  constructor
  · rintro ⟨b, hb, h⟩
    rw [List.mem_tails] at hb
    obtain ⟨a, ha⟩ := hb
    exact ⟨a, b, ha.symm, h⟩
  · rintro ⟨a, b, rfl, h⟩
    exact ⟨b, by rw [List.mem_tails]; exact ⟨a, rfl⟩, h⟩

theorem match_star_end (s : Str) : matchComp [.star] s = true := by
  rw [match_star]
  exact ⟨s, [], by simp, by simp [matchComp]⟩

theorem padDigits_inj {w a b : ℕ} (ha : a < 10 ^ w) (hb : b < 10 ^ w)
    (h : padDigits w a = padDigits w b) : a = b := (padDigits_lt w a b ha hb).2.1 h

theorem not_mem_padDigits (w n : ℕ) {c : Char} (hc : c.isDigit = false) : c ∉ padDigits w n := by
  intro h
  have := padDigits_isDigit w n c h
  rw [hc] at this
  simp at this

theorem splitOn_plain {c : Char} {s : Str} (h : c ∉ s) : s.splitOn c = [s] :=
  List.splitOn_eq_singleton h

theorem splitOn_sep {c : Char} (a b : Str) :
    (a ++ c :: b).splitOn c = a.splitOn c ++ b.splitOn c := List.splitOn_append_cons_self _ _

theorem splitOn_pos (c : Char) (s : Str) : 1 ≤ (s.splitOn c).length := by
  have := List.splitOn_ne_nil c s
  exact List.length_pos_iff.2 this

theorem eq_of_splitOn_single {c : Char} {s x : Str} (h : s.splitOn c = [x]) : s = x := by
  have := List.intercalate_splitOn c (xs := s)
  rw [h] at this
  simpa using this.symm

theorem splitOn_eq_of_length {c : Char} {s : Str} (h : (s.splitOn c).length = 1) : s.splitOn c = [s] := by
  obtain ⟨x, hx⟩ := List.length_eq_one_iff.1 h
  rw [hx, eq_of_splitOn_single hx]

theorem sep_inj {c : Char} {a b a' b' : Str} (ha : c ∉ a) (ha' : c ∉ a')
    (h : a ++ c :: b = a' ++ c :: b') : a = a' ∧ b = b' := by
  induction a generalizing a' with
  | nil =>
    cases a' with
    | nil => simpa using h
    | cons x a' => simp at h; simp [h.1] at ha'
  | cons y a ih =>
    cases a' with
    | nil => simp at h; simp [h.1] at ha
    | cons x a' =>
      simp only [List.cons_append, List.cons.injEq] at h
      obtain ⟨h1, h2⟩ := h
      obtain ⟨h3, h4⟩ := ih (a' := a') (by simp at ha; exact ha.2) (by simp at ha'; exact ha'.2) h2
      exact ⟨by rw [h1, h3], h4⟩

end QM.Archive

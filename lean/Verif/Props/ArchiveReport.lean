import Verif.Model.ArchiveReport
import Verif.Props.Reports
import Verif.Props.Data

/-!
# C196: the report of an archive
-/

namespace QM
open QM.ArchiveReport
open QM.Reports (unlines)
open QM.Compute (Str)

/-! ## Specification -/

/-- Different values print differently, and on one line. -/
def Spec.PrintsApart {A : Type} (sh : A → Str) : Prop := Function.Injective sh ∧ ∀ a, '\n' ∉ sh a

/-- Path, path structure and station names are on one line each, and an upsampling factor is not 0. -/
structure Spec.PlainArchive {N F : Type} (a : Settings N F) : Prop where
  path : '\n' ∉ a.path
  format : '\n' ∉ a.format
  stations : ∀ s ∈ a.stations, '\n' ∉ s
  upfactor : a.upfactor ≠ some 0

/-! ## Proof -/

private theorem bool_inj {b c : Bool} (h : boolText b = boolText c) : b = c := by
  revert h; cases b <;> cases c <;> decide

private theorem bool_line (b : Bool) : '\n' ∉ boolText b := by cases b <;> decide

private theorem response_plain {N F : Type} {sh : N → Str} {shF : F → Str} (h1 : Spec.PrintsApart sh)
    (h2 : Spec.PrintsApart shF) (a : Settings N F) : ∀ s ∈ responseLines sh shF a, '\n' ∉ s := by
  intro s hs
  unfold responseLines at hs
  split at hs
  · simp only [List.mem_append, List.mem_cons, List.not_mem_nil, or_false] at hs
    rcases hs with ((rfl | rfl) | hs) | rfl
    · decide
    · simp [h1.2]
    · split at hs
      · simp only [List.mem_singleton] at hs
        subst hs
        simp [h2.2]
      · simp at hs
    · simp [bool_line]
  · simp only [List.mem_singleton] at hs
    subst hs
    decide

private theorem response_inj {N F : Type} {sh : N → Str} {shF : F → Str} (h1 : Spec.PrintsApart sh)
    (h2 : Spec.PrintsApart shF) {a b : Settings N F} (h : responseLines sh shF a = responseLines sh shF b) :
    a.inventory = b.inventory ∧ (a.inventory = true →
      a.waterLevel = b.waterLevel ∧ a.preFilt = b.preFilt ∧ a.fullResponse = b.fullResponse) := by
  unfold responseLines at h
  cases ha : a.inventory <;> cases hb : b.inventory <;> simp only [ha, hb, if_true, Bool.false_eq_true, if_false] at h
  · simp
  · exfalso
    have := congrArg (fun l => l.head?) h
    revert this
    simp
  · exfalso
    have := congrArg (fun l => l.head?) h
    revert this
    simp
  · refine ⟨rfl, fun _ => ?_⟩
    cases fa : a.preFilt <;> cases fb : b.preFilt <;> simp only [fa, fb] at h
    · simp only [List.cons_append, List.nil_append, List.append_nil, List.cons.injEq, true_and, and_true] at h
      exact ⟨h1.1 (List.append_cancel_left h.1), rfl, bool_inj (List.append_cancel_left h.2)⟩
    · have := congrArg List.length h
      simp at this
    · have := congrArg List.length h
      simp at this
    · simp only [List.cons_append, List.nil_append, List.cons.injEq, true_and, and_true] at h
      refine ⟨h1.1 (List.append_cancel_left h.1), ?_, bool_inj (List.append_cancel_left h.2.2)⟩
      rw [h2.1 (List.append_cancel_right (List.append_cancel_left h.2.1))]

/-- C196: two archives for which `locate` logs the same report on response removal either both have no inventory, or have
the same water level, pre-filter and choice of stages. -/
theorem C196_response_determined {N F : Type} (sh : N → Str) (shF : F → Str) (h1 : Spec.PrintsApart sh)
    (h2 : Spec.PrintsApart shF) (a b : Settings N F) (h : responseReport sh shF a = responseReport sh shF b) :
    a.inventory = b.inventory ∧ (a.inventory = true →
      a.waterLevel = b.waterLevel ∧ a.preFilt = b.preFilt ∧ a.fullResponse = b.fullResponse) :=
  response_inj h1 h2 (unlines_inj (response_plain h1 h2 a) (response_plain h1 h2 b) h)

private theorem split_stations {P : Str → Prop} [DecidablePred P] : ∀ {l l' r r' : List Str}, (∀ s ∈ l, P s) →
    (∀ s ∈ l', P s) → (∀ s, r.head? = some s → ¬ P s) → (∀ s, r'.head? = some s → ¬ P s) → r ≠ [] → r' ≠ [] →
    l ++ r = l' ++ r' → l = l' ∧ r = r'
  | [], [], _, _, _, _, _, _, _, _, h => ⟨rfl, by simpa using h⟩
  | [], x :: l', r, r', _, h2, h3, _, _, _, h => by
    exfalso
    simp only [List.nil_append] at h
    exact h3 x (by rw [h]; rfl) (h2 x List.mem_cons_self)
  | x :: l, [], r, r', h1, _, _, h4, _, _, h => by
    exfalso
    simp only [List.nil_append] at h
    exact h4 x (by rw [← h]; rfl) (h1 x List.mem_cons_self)
  | x :: l, y :: l', r, r', h1, h2, h3, h4, h5, h6, h => by
    simp only [List.cons_append, List.cons.injEq] at h
    obtain ⟨e1, e2⟩ := split_stations (fun s hs => h1 s (List.mem_cons_of_mem _ hs))
      (fun s hs => h2 s (List.mem_cons_of_mem _ hs)) h3 h4 h5 h6 h.2
    exact ⟨by rw [h.1, e1], e2⟩

private theorem response_head {N F : Type} (sh : N → Str) (shF : F → Str) (a : Settings N F) :
    responseLines sh shF a ≠ [] ∧ ∀ s, (responseLines sh shF a).head? = some s → ¬ s.take 2 = "\t\t".toList := by
  unfold responseLines
  split
  · refine ⟨by simp, ?_⟩
    intro s hs
    simp only [List.cons_append, List.head?_cons, Option.some.injEq] at hs
    subst hs
    decide
  · refine ⟨by simp, ?_⟩
    intro s hs
    simp only [List.head?_cons, Option.some.injEq] at hs
    subst hs
    decide

/-- C196: two archives that print alike have the same path, path structure, resampling, upsampling factor and stations, and
the same response removal. -/
theorem C196_report_determines_partial {N F : Type} (sh : N → Str) (shF : F → Str) (shU : ℕ → Str)
    (h1 : Spec.PrintsApart sh) (h2 : Spec.PrintsApart shF) (h3 : Spec.PrintsApart shU) (a b : Settings N F)
    (ha : Spec.PlainArchive a) (hb : Spec.PlainArchive b) (h : archiveReport sh shF shU a = archiveReport sh shF shU b) :
    a.path = b.path ∧ a.format = b.format ∧ a.resample = b.resample ∧ a.upfactor = b.upfactor ∧ a.stations = b.stations ∧
    a.inventory = b.inventory ∧ (a.inventory = true →
      a.waterLevel = b.waterLevel ∧ a.preFilt = b.preFilt ∧ a.fullResponse = b.fullResponse) := by
  have plain : ∀ c : Settings N F, Spec.PlainArchive c → ∀ s ∈ (["QuakeMigrate Archive object".toList,
      "\tArchive path\t:\t".toList ++ c.path,
      "\tPath structure\t:\t".toList ++ c.format, "\tResampling\t:\t".toList ++ boolText c.resample] ++
    (match c.upfactor with
      | some u => if u = 0 then [] else ["\tUpfactor\t:\t".toList ++ shU u]
      | none => []) ++
    ["\tStations:".toList] ++ c.stations.map ("\t\t".toList ++ ·) ++ responseLines sh shF c), '\n' ∉ s := by
    intro c hc s hs
    simp only [List.mem_append, List.mem_cons, List.not_mem_nil, or_false, List.mem_map] at hs
    rcases hs with ((((rfl | rfl | rfl | rfl) | hs) | rfl) | ⟨t, ht, rfl⟩) | hs
    · decide
    · simp [hc.path]
    · simp [hc.format]
    · simp [bool_line]
    · split at hs
      · split at hs
        · simp at hs
        · simp only [List.mem_singleton] at hs
          subst hs
          simp [h3.2]
      · simp at hs
    · decide
    · simp [hc.stations t ht]
    · exact response_plain h1 h2 c s hs
  have hl := unlines_inj (plain a ha) (plain b hb) h
  have rest : a.stations.map ("\t\t".toList ++ ·) ++ responseLines sh shF a =
      b.stations.map ("\t\t".toList ++ ·) ++ responseLines sh shF b →
      a.stations = b.stations ∧ responseLines sh shF a = responseLines sh shF b := by
    intro e
    obtain ⟨e1, e2⟩ := split_stations (P := fun s => s.take 2 = "\t\t".toList)
      (by intro s hs; obtain ⟨t, -, rfl⟩ := List.mem_map.1 hs; rfl)
      (by intro s hs; obtain ⟨t, -, rfl⟩ := List.mem_map.1 hs; rfl)
      (response_head sh shF a).2 (response_head sh shF b).2 (response_head sh shF a).1 (response_head sh shF b).1 e
    exact ⟨List.map_injective_iff.2 (fun x y hxy => List.append_cancel_left hxy) e1, e2⟩
  have ne : ∀ t : Str, "\tUpfactor\t:\t".toList ++ t ≠ "\tStations:".toList := by
    intro t e
    have := congrArg (fun l => l[1]?) e
    revert this
    simp
  cases ua : a.upfactor with
  | none =>
    cases ub : b.upfactor with
    | none =>
      simp only [ua, ub, List.cons_append, List.nil_append, List.append_nil, List.cons.injEq, true_and] at hl
      obtain ⟨e1, e2, e3, e4⟩ := hl
      obtain ⟨e5, e6⟩ := rest e4
      exact ⟨List.append_cancel_left e1, List.append_cancel_left e2, bool_inj (List.append_cancel_left e3), rfl, e5,
        response_inj h1 h2 e6⟩
    | some v =>
      have hv : v ≠ 0 := fun h0 => hb.upfactor (by rw [ub, h0])
      simp only [ua, ub, hv, if_false, List.cons_append, List.nil_append, List.append_nil, List.cons.injEq, true_and] at hl
      exact absurd hl.2.2.2.1.symm (ne _)
  | some u =>
    have hu : u ≠ 0 := fun h0 => ha.upfactor (by rw [ua, h0])
    cases ub : b.upfactor with
    | none =>
      simp only [ua, ub, hu, if_false, List.cons_append, List.nil_append, List.append_nil, List.cons.injEq, true_and] at hl
      exact absurd hl.2.2.2.1 (ne _)
    | some v =>
      have hv : v ≠ 0 := fun h0 => hb.upfactor (by rw [ub, h0])
      simp only [ua, ub, hu, hv, if_false, List.cons_append, List.nil_append, List.append_nil, List.cons.injEq, true_and] at hl
      obtain ⟨e1, e2, e3, e0, e4⟩ := hl
      obtain ⟨e5, e6⟩ := rest e4
      exact ⟨List.append_cancel_left e1, List.append_cancel_left e2, bool_inj (List.append_cancel_left e3),
        by rw [h3.1 (List.append_cancel_left e0)], e5, response_inj h1 h2 e6⟩

/-- C196 is false of the code for the choice of files: for any archive there is one that prints alike but
asks for other files, on any day. -/
theorem C196_violated {N F : Type} (sh : N → Str) (shF : F → Str) (shU : ℕ → Str) (a : Settings N F) :
    ∃ b : Settings N F, archiveReport sh shF shU b = archiveReport sh shF shU a ∧ b.stations = a.stations ∧
      ∀ start stop : ℚ, start ≤ stop →
        Data.loadFromPath b.readAll b.stations start stop ≠ Data.loadFromPath a.readAll a.stations start stop := by
  have key : ∀ start stop : ℚ, start ≤ stop →
      Data.loadFromPath true a.stations start stop ≠ Data.loadFromPath false a.stations start stop := by
    intro start stop h e
    have hd : TriggerFiles.dayNum start ∈ TriggerFiles.readDays (TriggerFiles.dayNum start) stop := by
      rw [TriggerFiles.mem_readDays]
      refine ⟨le_rfl, Int.floor_le_floor ?_⟩
      unfold DAY
      linarith
    have h1 : (⟨TriggerFiles.dayNum start, none⟩ : Data.Query) ∈ Data.loadFromPath true a.stations start stop := by
      unfold Data.loadFromPath
      rw [List.mem_flatMap]
      exact ⟨_, hd, by simp⟩
    rw [e] at h1
    unfold Data.loadFromPath at h1
    rw [List.mem_flatMap] at h1
    obtain ⟨d, -, hq⟩ := h1
    simp at hq
  refine ⟨{ a with readAll := !a.readAll }, rfl, rfl, ?_⟩
  intro start stop h
  cases hr : a.readAll
  · simpa [hr] using key start stop h
  · simpa [hr] using (key start stop h).symm

/-- Two settings that meet the conditions, with numbers printed in unary. -/
example : Spec.PrintsApart (fun n : ℕ => List.replicate n 'I') ∧
    Spec.PlainArchive (⟨"/data".toList, "{year}".toList, true, some 2, ["A".toList, "BB".toList], true, 60, some 7, false,
      false, false⟩ : Settings ℕ ℕ) := by
  refine ⟨⟨fun a b h => ?_, fun n h => ?_⟩, by decide, by decide, by decide, by decide⟩
  · simpa using congrArg List.length h
  · have := List.eq_of_mem_replicate h
    exact absurd this (by decide)

end QM

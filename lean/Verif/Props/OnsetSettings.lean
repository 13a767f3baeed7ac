import Verif.Model.OnsetSettings
import Mathlib.Tactic.NormNum

/-!
# C130: the settings of an onset object are those it was given, and its own
-/

namespace QM

open QM.OnsetSettings

namespace Spec

/-- The position a user asks for: that of the class, if it is one of the deprecated ones, otherwise the
old argument `onset_centred`, otherwise `position`, otherwise classic. -/
def askedPosition (c : Cls) (a : Args) : Pos :=
  match c, a.onsetCentred, a.position with
  | .centred, _, _ => .centred
  | .classic, _, _ => .classic
  | .stalta, some b, _ => if b then .centred else .classic
  | .stalta, none, some p => p
  | .stalta, none, none => .classic

/-- The filter a user asks for: the one given under the old name of the phase, otherwise that of the
dictionary given, otherwise the default. -/
def askedFilter (h : Heap) (a : Args) (phase : OnsetSettings.Str) : Option Value :=
  match (if phase = ['P'] then a.pBpFilter else if phase = ['S'] then a.sBpFilter else none), a.filters with
  | some v, _ => some v
  | none, some d => h.dict d phase
  | none, none => if phase = ['P'] ∨ phase = ['S'] then some [2, 16, 2] else none

/-- The windows a user asks for. -/
def askedWindow (h : Heap) (a : Args) (phase : OnsetSettings.Str) : Option Value :=
  match (if phase = ['P'] then a.pOnsetWin else if phase = ['S'] then a.sOnsetWin else none), a.windows with
  | some v, _ => some v
  | none, some d => h.dict d phase
  | none, none => if phase = ['P'] ∨ phase = ['S'] then some [1 / 5, 1] else none

/-- The dictionaries given exist, and the filters and the windows are not one dictionary. -/
def ArgsOk (h : Heap) (a : Args) : Prop :=
  (∀ d, a.filters = some d → d < h.next) ∧ (∀ d, a.windows = some d → d < h.next) ∧
    (∀ d, a.filters = some d → a.windows ≠ some d)

end Spec

open Spec

private theorem setOld_dict (h : Heap) (addr : ℕ) (phase : OnsetSettings.Str) (v : Option Value) (x : ℕ) (p : OnsetSettings.Str) :
    (setOld h addr phase v).dict x p =
      if x = addr ∧ p = phase then (match v with | some w => some w | none => h.dict x p) else h.dict x p := by
  cases v with
  | none => simp [setOld]
  | some w =>
    simp only [setOld, Heap.set]
    by_cases hx : x = addr
    · subst hx
      rw [Function.update_self]
      by_cases hp : p = phase
      · subst hp; simp
      · simp [hp]
    · rw [Function.update_of_ne hx]; simp [hx]

private theorem setOld_other {h : Heap} {addr : ℕ} {phase : OnsetSettings.Str} {x : ℕ} {p : OnsetSettings.Str}
    (v : Option Value) (hne : ¬ (x = addr ∧ p = phase ∧ v ≠ none)) :
    (setOld h addr phase v).dict x p = h.dict x p := by
  rw [setOld_dict]
  split
  · rename_i hc
    cases v with
    | none => rfl
    | some w => exact absurd ⟨hc.1, hc.2, by simp⟩ hne
  · rfl

private theorem setOld_next (h : Heap) (addr : ℕ) (phase : OnsetSettings.Str) (v : Option Value) :
    (setOld h addr phase v).next = h.next := by
  cases v <;> rfl

private theorem filters_given (c : Cls) (h : Heap) (a : Args) {d : ℕ} (ha : a.filters = some d) :
    (constructCls c h a).2.filters = d := by
  obtain ⟨p, f, w, oc, b1, b2, b3, b4⟩ := a
  simp only at ha
  subst ha
  cases c <;> cases oc with
  | none => rfl
  | some b => cases b <;> rfl

private theorem addrs (h : Heap) (a : Args) (ha : ArgsOk h a) :
    (construct h a).2.filters ≠ (construct h a).2.windows ∧
      (∀ x, a.filters = some x → (construct h a).2.filters = x) ∧
      (∀ x, a.windows = some x → (construct h a).2.windows = x) ∧
      (a.filters = none → h.next ≤ (construct h a).2.filters) ∧
      (a.windows = none → h.next ≤ (construct h a).2.windows) := by
  obtain ⟨h1, h2, h3⟩ := ha
  obtain ⟨p, f, w, oc, b1, b2, b3, b4⟩ := a
  simp only at h1 h2 h3
  have key : ∀ o : Onset, (setCentred o oc).filters = o.filters ∧ (setCentred o oc).windows = o.windows := by
    intro o; cases oc with
    | none => exact ⟨rfl, rfl⟩
    | some b => cases b <;> exact ⟨rfl, rfl⟩
  simp only [construct, key]
  cases f with
  | none =>
    cases w with
    | none => simp [getOr, Heap.alloc]
    | some y =>
      have := h2 y rfl
      simp only [getOr, Heap.alloc, ne_eq]
      refine ⟨by omega, by simp, by simp, by simp, by simp⟩
  | some x =>
    have hx := h1 x rfl
    cases w with
    | none =>
      simp only [getOr, Heap.alloc, ne_eq]
      refine ⟨by omega, by simp, by simp, by simp, by simp⟩
    | some y =>
      simp only [getOr, ne_eq]
      refine ⟨?_, by simp, by simp, by simp, by simp⟩
      intro h; exact h3 x rfl (by rw [h])

/-- The dictionaries before the old names are handled. -/
private def baseHeap (h : Heap) (a : Args) : Heap :=
  (getOr (getOr h a.filters defaultFilters).1 a.windows defaultWindows).1

private theorem construct_dict (h : Heap) (a : Args) :
    (construct h a).1 = setOld (setOld (setOld (setOld (baseHeap h a) (construct h a).2.filters ['P'] a.pBpFilter)
      (construct h a).2.filters ['S'] a.sBpFilter) (construct h a).2.windows ['P'] a.pOnsetWin)
      (construct h a).2.windows ['S'] a.sOnsetWin := by
  obtain ⟨p, f, w, oc, b1, b2, b3, b4⟩ := a
  have key : ∀ o : Onset, (setCentred o oc).filters = o.filters ∧ (setCentred o oc).windows = o.windows := by
    intro o; cases oc with
    | none => exact ⟨rfl, rfl⟩
    | some b => cases b <;> exact ⟨rfl, rfl⟩
  simp only [construct, key, baseHeap]

private theorem base_spec (h : Heap) (a : Args) (ha : ArgsOk h a) :
    (∀ x, x < h.next → (baseHeap h a).dict x = h.dict x) ∧
      (baseHeap h a).dict (construct h a).2.filters =
        (match a.filters with | some d => h.dict d | none => defaultFilters) ∧
      (baseHeap h a).dict (construct h a).2.windows =
        (match a.windows with | some d => h.dict d | none => defaultWindows) := by
  obtain ⟨h1, h2, h3⟩ := ha
  obtain ⟨p, f, w, oc, b1, b2, b3, b4⟩ := a
  simp only at h1 h2 h3
  have key : ∀ o : Onset, (setCentred o oc).filters = o.filters ∧ (setCentred o oc).windows = o.windows := by
    intro o; cases oc with
    | none => exact ⟨rfl, rfl⟩
    | some b => cases b <;> exact ⟨rfl, rfl⟩
  simp only [construct, key, baseHeap]
  cases f with
  | none =>
    cases w with
    | none =>
      simp only [getOr, Heap.alloc]
      refine ⟨?_, ?_, ?_⟩
      · intro x hx
        rw [Function.update_of_ne (by omega), Function.update_of_ne (by omega)]
      · rw [Function.update_of_ne (by omega), Function.update_self]
      · rw [Function.update_self]
    | some y =>
      have hy := h2 y rfl
      simp only [getOr, Heap.alloc]
      refine ⟨?_, ?_, ?_⟩
      · intro x hx
        rw [Function.update_of_ne (by omega)]
      · rw [Function.update_self]
      · rw [Function.update_of_ne (by omega)]
  | some x =>
    have hx := h1 x rfl
    cases w with
    | none =>
      simp only [getOr, Heap.alloc]
      refine ⟨?_, ?_, ?_⟩
      · intro y hy
        rw [Function.update_of_ne (by omega)]
      · rw [Function.update_of_ne (by omega)]
      · rw [Function.update_self]
    | some y => simp [getOr]

private theorem cls_fst (c : Cls) (h : Heap) (a : Args) : (constructCls c h a).1 = (construct h a).1 := by
  cases c <;> rfl

private theorem cls_filters (c : Cls) (h : Heap) (a : Args) :
    (constructCls c h a).2.filters = (construct h a).2.filters ∧
      (constructCls c h a).2.windows = (construct h a).2.windows := by
  cases c <;> exact ⟨rfl, rfl⟩

private theorem ps : (['P'] : OnsetSettings.Str) ≠ ['S'] := by decide

/-- **C130** (part): whatever the arguments and the class, the new object has the position, filters and
windows that were asked for, and a dictionary of the session is changed only if it was given to the
constructor together with a value under an old name, and only in that phase. -/
theorem C130_constructed_partial (c : Cls) (h : Heap) (a : Args) (ha : ArgsOk h a) :
    (constructCls c h a).2.position = askedPosition c a ∧
    (∀ p, (constructCls c h a).2.filter (constructCls c h a).1 p = askedFilter h a p) ∧
    (∀ p, (constructCls c h a).2.window (constructCls c h a).1 p = askedWindow h a p) ∧
    (∀ d p, d < h.next →
      ¬ (a.filters = some d ∧ (p = ['P'] ∧ a.pBpFilter ≠ none ∨ p = ['S'] ∧ a.sBpFilter ≠ none)) →
      ¬ (a.windows = some d ∧ (p = ['P'] ∧ a.pOnsetWin ≠ none ∨ p = ['S'] ∧ a.sOnsetWin ≠ none)) →
      (constructCls c h a).1.dict d p = h.dict d p) := by
  obtain ⟨b1, b2, b3⟩ := base_spec h a ha
  obtain ⟨a1, a2, a3, a4, a5⟩ := addrs h a ha
  have hps := ps
  refine ⟨?_, ?_, ?_, ?_⟩
  · obtain ⟨p, f, w, oc, _, _, _, _⟩ := a
    cases c <;> cases oc with
    | none => cases p <;> rfl
    | some b => cases b <;> cases p <;> rfl
  · intro p
    unfold Onset.filter askedFilter
    rw [cls_fst, (cls_filters c h a).1, construct_dict h a]
    generalize (construct h a).2.filters = F at *
    generalize (construct h a).2.windows = W at *
    simp only [setOld_dict, b2, if_neg (fun hh : F = W ∧ _ => a1 hh.1), true_and]
    by_cases hp : p = ['P']
    · subst hp
      rw [if_neg hps, if_pos rfl, if_pos rfl]
      cases a.pBpFilter <;> cases a.filters <;> simp [defaultFilters]
    · rw [if_neg hp, if_neg hp]
      by_cases hs : p = ['S']
      · subst hs
        rw [if_pos rfl, if_pos rfl]
        cases a.sBpFilter <;> cases a.filters <;> simp [defaultFilters]
      · rw [if_neg hs, if_neg hs]
        cases a.filters <;> simp [defaultFilters, hp, hs]
  · intro p
    unfold Onset.window askedWindow
    rw [cls_fst, (cls_filters c h a).2, construct_dict h a]
    generalize (construct h a).2.filters = F at *
    generalize (construct h a).2.windows = W at *
    simp only [setOld_dict, b3, if_neg (fun hh : W = F ∧ _ => a1 hh.1.symm), true_and]
    by_cases hp : p = ['P']
    · subst hp
      rw [if_neg hps, if_pos rfl, if_pos rfl]
      cases a.pOnsetWin <;> cases a.windows <;> simp [defaultWindows]
    · rw [if_neg hp, if_neg hp]
      by_cases hs : p = ['S']
      · subst hs
        rw [if_pos rfl, if_pos rfl]
        cases a.sOnsetWin <;> cases a.windows <;> simp [defaultWindows]
      · rw [if_neg hs, if_neg hs]
        cases a.windows <;> simp [defaultWindows, hp, hs]
  · intro d p hd hf hw
    rw [cls_fst, construct_dict h a]
    have hF : d = (construct h a).2.filters → a.filters = some d := by
      intro he
      cases hx : a.filters with
      | none => have := a4 hx; omega
      | some y => rw [he, a2 y hx]
    have hW : d = (construct h a).2.windows → a.windows = some d := by
      intro he
      cases hx : a.windows with
      | none => have := a5 hx; omega
      | some y => rw [he, a3 y hx]
    rw [← b1 d hd]
    rw [setOld_other, setOld_other, setOld_other, setOld_other]
    · rintro ⟨e1, e2, e3⟩; exact hf ⟨hF e1, Or.inl ⟨e2, e3⟩⟩
    · rintro ⟨e1, e2, e3⟩; exact hf ⟨hF e1, Or.inr ⟨e2, e3⟩⟩
    · rintro ⟨e1, e2, e3⟩; exact hw ⟨hW e1, Or.inl ⟨e2, e3⟩⟩
    · rintro ⟨e1, e2, e3⟩; exact hw ⟨hW e1, Or.inr ⟨e2, e3⟩⟩

/-- **C130** (part): a value set under an old name is the one then used for its phase, the other phases
of the object keep theirs, and an object that does not hold the same dictionary keeps all its settings.
Missing: objects that were given the same dictionary. -/
theorem C130_others_partial (h : Heap) (o o' : Onset) (n : OldName) (v : Value) :
    (match n with
      | .pBpFilter => o.filter (assignOld h o n v) ['P'] = some v
      | .sBpFilter => o.filter (assignOld h o n v) ['S'] = some v
      | .pOnsetWin => o.window (assignOld h o n v) ['P'] = some v
      | .sOnsetWin => o.window (assignOld h o n v) ['S'] = some v) ∧
    (∀ p, p ≠ n.phase → o.filter (assignOld h o n v) p = o.filter h p ∧
      o.window (assignOld h o n v) p = o.window h p) ∧
    (∀ p, o'.filters ≠ o.filters → o'.filters ≠ o.windows → o'.windows ≠ o.filters →
      o'.windows ≠ o.windows → o'.filter (assignOld h o n v) p = o'.filter h p ∧
        o'.window (assignOld h o n v) p = o'.window h p) := by
  unfold assignOld Onset.filter Onset.window
  refine ⟨?_, ?_, ?_⟩
  · cases n <;> simp [setOld_dict, OldName.addr, OldName.phase]
  · intro p hp
    exact ⟨setOld_other _ (fun e => hp e.2.1), setOld_other _ (fun e => hp e.2.1)⟩
  · intro p h1 h2 h3 h4
    constructor
    · apply setOld_other; rintro ⟨e, _⟩
      cases n <;> simp only [OldName.addr] at e <;> contradiction
    · apply setOld_other; rintro ⟨e, _⟩
      cases n <;> simp only [OldName.addr] at e <;> contradiction

/-- **C130** fails: of two objects constructed with the same dictionary of filters, the P filter of the
second follows what is set on the first under the old name. -/
theorem C130_violated (c c' : Cls) (h : Heap) (a a' : Args) (d : ℕ) (v : Value) (ha : a.filters = some d)
    (ha' : a'.filters = some d) :
    let r := constructCls c h a
    let r' := constructCls c' r.1 a'
    r'.2.filter (assignOld r'.1 r.2 .pBpFilter v) ['P'] = some v := by
  intro r r'
  have e1 : r.2.filters = d := filters_given c h a ha
  have e2 : r'.2.filters = d := filters_given c' r.1 a' ha'
  unfold assignOld Onset.filter
  rw [setOld_dict, if_pos]
  exact ⟨by rw [e2]; exact e1.symm, rfl⟩

/-- **C130** fails: constructing an object with a dictionary of filters and a P filter under the old name
changes the dictionary, and so the P filter of every object constructed with it before. -/
theorem C130_violated_constructor (c c' : Cls) (h : Heap) (a a' : Args) (d : ℕ) (v : Value)
    (hd : d < h.next) (ha : a.filters = some d) (ha' : a'.filters = some d) (hw : a.windows = none)
    (hw' : a'.windows = none) (hv : a'.pBpFilter = some v) :
    let r := constructCls c h a
    let r' := constructCls c' r.1 a'
    r.2.filter r'.1 ['P'] = some v ∧ r'.1.dict d ['P'] = some v := by
  intro r r'
  have e1 : r.2.filters = d := filters_given c h a ha
  have hn : h.next ≤ r.1.next := by
    change h.next ≤ (constructCls c h a).1.next
    rw [cls_fst, construct_dict h a]
    simp only [setOld_next]
    unfold baseHeap getOr
    rw [ha, hw]
    simp [Heap.alloc]
  have hok : ArgsOk r.1 a' := by
    refine ⟨?_, ?_, ?_⟩
    · intro x hx; rw [ha'] at hx; obtain rfl := Option.some.inj hx; omega
    · intro x hx; rw [hw'] at hx; cases hx
    · intro x _ hx; rw [hw'] at hx; cases hx
  have key := (C130_constructed_partial c' r.1 a' hok).2.1 ['P']
  have e2 : (constructCls c' r.1 a').2.filters = d := filters_given c' r.1 a' ha'
  unfold Onset.filter at key
  rw [e2] at key
  have hasked : askedFilter r.1 a' ['P'] = some v := by
    unfold askedFilter; rw [if_pos rfl, hv]
  rw [hasked] at key
  refine ⟨?_, key⟩
  unfold Onset.filter
  rw [e1]; exact key

/-- **C130** fails: the old name `onset_centred` cannot be read back: after it has been set to False, a
test of it finds it true. -/
theorem C130_violated_read (o : Onset) (b : Bool) :
    truthy (setCentred o (some b)).onsetCentred = true := by
  cases b <;> rfl

/-! ## Cases that meet the hypotheses -/

/-- A session with one dictionary of filters. -/
def exHeap : Heap := ⟨1, fun _ p => if p = ['P'] then some [2, 16, 2] else some [2, 12, 2]⟩

example : ArgsOk exHeap { filters := some 0, pBpFilter := some [4, 20, 2], onsetCentred := some true } := by
  refine ⟨?_, ?_, ?_⟩
  · intro d hd; obtain rfl := Option.some.inj hd; decide
  · intro d hd; cases hd
  · intro d _ hd; cases hd

example : (constructCls .stalta exHeap { filters := some 0, sBpFilter := some [4, 20, 2] }).2.filter
    (constructCls .stalta exHeap { filters := some 0, sBpFilter := some [4, 20, 2] }).1 ['S'] =
    some [4, 20, 2] := by decide +kernel

/-- The P filter of the second object before and after the change to the first. -/
example :
    let r := constructCls .stalta exHeap { filters := some 0 }
    let r' := constructCls .stalta r.1 { filters := some 0 }
    r'.2.filter r'.1 ['P'] = some [2, 16, 2] ∧
      r'.2.filter (assignOld r'.1 r.2 .pBpFilter [4, 20, 2]) ['P'] = some [4, 20, 2] := by decide +kernel

end QM

import Verif.Model.CutWaveforms
import Mathlib.Tactic.NormNum

/-!
# Cut waveforms (C93)
-/

namespace QM
open QM.CutWaveforms

variable {T : Type} (o : Ops T)

/-! ## Specification -/

/-- The waveform asked for: response removed in the units given, and with the response of a
Wood-Anderson instrument. -/
def correctedTrace (k : Kind) (vel : Bool) (t : T) : Option T :=
  match k with
  | .real => o.real vel t
  | .wa => (o.real vel t).map o.wa

/-- A cut that is not given, or of length 0, is no cut. -/
def Spec.cutLength (c : Option ℚ) : Option ℚ := c.filter fun x => decide (x ≠ 0)

/-- The data read for the event, cut as asked for, without traces that hold no data. -/
def requestedData (pre post : Option ℚ) (raw : List T) : List T :=
  (raw.map fun t => if Spec.cutLength pre = none ∧ Spec.cutLength post = none then t
    else o.cut (Spec.cutLength pre) (Spec.cutLength post) t).filter fun t => !o.isEmpty t

/-- No file is written without traces. -/
def fileWith (l : List T) : Option (List T) :=
  match l with
  | [] => none
  | l => some l

/-- The file asked for: every trace read for the event that is not flat and whose response can be
removed. -/
def expectedFile (k : Kind) (vel : Bool) (pre post : Option ℚ) (raw : List T) : Option (List T) :=
  fileWith (((requestedData o pre post raw).filter fun t => !o.isFlat t).filterMap
    (correctedTrace o k vel))

/-! ## Lemmas -/

theorem fileWith_eq (l : List T) : (if l.isEmpty then none else some l) = fileWith l := by
  cases l <;> rfl

theorem truthy_eq : truthy = Spec.cutLength := by
  funext c
  cases c with
  | none => rfl
  | some x => by_cases h : x = 0 <;> simp [truthy, Spec.cutLength, Option.filter, h]

theorem cutRaw_eq (pre post : Option ℚ) (d : Data T) :
    cutRaw o pre post d = { d with raw := requestedData o pre post d.raw } := by
  unfold cutRaw requestedData
  rw [truthy_eq]
  congr 1
  congr 1
  · funext t
    simp
  · apply List.map_congr_left
    intro t _
    cases Spec.cutLength pre <;> cases Spec.cutLength post <;> simp

theorem requested_nonempty (pre post : Option ℚ) (raw : List T) (t : T)
    (h : t ∈ requestedData o pre post raw) : o.isEmpty t = false := by
  have := (List.mem_filter.mp h).2
  simpa using this

theorem requested_idem (pre post : Option ℚ)
    (hcut : ∀ p q t, o.cut p q (o.cut p q t) = o.cut p q t) (raw : List T) :
    requestedData o pre post (requestedData o pre post raw) = requestedData o pre post raw := by
  have key : ∀ t ∈ requestedData o pre post raw, (if Spec.cutLength pre = none ∧ Spec.cutLength post = none then t
      else o.cut (Spec.cutLength pre) (Spec.cutLength post) t) = t := by
    intro t ht
    split_ifs with h
    · rfl
    · obtain ⟨t', -, rfl⟩ := List.mem_map.mp (List.mem_filter.mp ht).1
      rw [if_neg h, hcut]
  conv_lhs => rw [requestedData, List.map_congr_left key, List.map_id']
  rw [List.filter_eq_self]
  intro t ht
  simp [requested_nonempty o pre post raw t ht]

theorem getWaveforms_ok (hi : o.inventory = true) (k : Kind) (vel : Bool) :
    ∀ (ts : List T) (d : Data T), (∀ t ∈ ts, o.isEmpty t = false) →
    ∃ d', getWaveforms o k vel d ts =
        .ok ((ts.filter fun t => !o.isFlat t).filterMap (correctedTrace o k vel), d') ∧
      d'.raw = d.raw ∧ (k = .real → d'.wa = d.wa)
  | [], d, _ => ⟨d, rfl, rfl, fun _ => rfl⟩
  | t :: ts, d, h => by
    have he : o.isEmpty t = false := h t (by simp)
    have ih := fun d => getWaveforms_ok hi k vel ts d (fun x hx => h x (by simp [hx]))
    unfold getWaveforms
    cases hf : o.isFlat t with
    | true =>
      obtain ⟨d', h1, h2⟩ := ih d
      refine ⟨d', ?_, h2⟩
      simp [h1, hf]
    | false =>
      cases hr : o.real vel t with
      | none =>
        obtain ⟨d', h1, h2⟩ := ih d
        refine ⟨d', ?_, h2⟩
        cases k <;> simp [he, hf, getReal, getWa, hi, hr, h1, correctedTrace]
      | some r =>
        cases k with
        | real =>
          obtain ⟨d', h1, h2, h3⟩ := ih { d with real := push d.real r }
          refine ⟨d', ?_, h2, h3⟩
          simp [he, hf, getReal, hi, hr, h1, correctedTrace]
        | wa =>
          obtain ⟨d', h1, h2, -⟩ := ih { d with real := push d.real r, wa := push d.wa (o.wa r) }
          refine ⟨d', ?_, h2, fun hc => by cases hc⟩
          simp [he, hf, getReal, getWa, hi, hr, h1, correctedTrace]

theorem ampStage_ok (hi : o.inventory = true) : ∀ (ts : List T) (d : Data T),
    ∃ d', ampStage o d ts = .ok d' ∧ d'.raw = d.raw ∧
      d'.real = (match ts.filterMap (o.real false) with
        | [] => d.real
        | l => some (d.real.getD [] ++ l)) ∧
      d'.wa = (match ts.filterMap (o.real false) with
        | [] => d.wa
        | l => some (d.wa.getD [] ++ l.map o.wa))
  | [], d => ⟨d, rfl, rfl, rfl, rfl⟩
  | t :: ts, d => by
    unfold ampStage
    cases hr : o.real false t with
    | none =>
      obtain ⟨d', h1, h2⟩ := ampStage_ok hi ts d
      refine ⟨d', ?_, ?_⟩
      · simp [getWa, getReal, hi, hr, h1]
      · rw [List.filterMap_cons_none hr]; exact h2
    | some r =>
      obtain ⟨d', h1, h2, h3, h4⟩ := ampStage_ok hi ts
        { d with real := push d.real r, wa := push d.wa (o.wa r) }
      refine ⟨d', ?_, h2, ?_, ?_⟩
      · simp [getWa, getReal, hi, hr, h1]
      · rw [List.filterMap_cons_some hr, h3]
        cases ts.filterMap (o.real false) <;> simp [push]
      · rw [List.filterMap_cons_some hr, h4]
        cases ts.filterMap (o.real false) <;> simp [push]

/-- Writing without use of the cache. -/
theorem writeCorrected_ok (hi : o.inventory = true) (k : Kind) (vel : Bool) (pre post : Option ℚ)
    (d : Data T)
    (h : (match k with | .real => d.real | .wa => d.wa) = none ∨
      Spec.cutLength pre ≠ none ∨ Spec.cutLength post ≠ none) :
    ∃ d', writeCorrected o k vel pre post d = .ok (expectedFile o k vel pre post d.raw, d') ∧
      d'.raw = requestedData o pre post d.raw ∧ (k = .real → d'.wa = d.wa) := by
  obtain ⟨d', h1, h2, h3⟩ := getWaveforms_ok o hi k vel (requestedData o pre post d.raw)
    { d with raw := requestedData o pre post d.raw } (requested_nonempty o pre post d.raw)
  refine ⟨d', ?_, h2, h3⟩
  unfold writeCorrected
  rw [cutRaw_eq, truthy_eq]
  simp only
  split
  · next cached hc h4 h5 =>
    rcases h with h | h | h
    · cases k <;> simp only at h hc <;> rw [h] at hc <;> cases hc
    · exact absurd h4 h
    · exact absurd h5 h
  · rw [h1]
    simp only [fileWith_eq]
    rfl

/-! ## C93 -/

/-- C93, what does hold: if no magnitudes are calculated, or the waveforms are cut, the files hold
the data read for the event, cut and corrected as asked for, in the units asked for. -/
theorem C93_files_partial (hi : o.inventory = true)
    (hcut : ∀ p q t, o.cut p q (o.cut p q t) = o.cut p q t) (c : CutWaveforms.Cfg)
    (raw amp : List T)
    (h : c.mags = false ∨ Spec.cutLength c.pre ≠ none ∨ Spec.cutLength c.post ≠ none) :
    locateWrites o c raw amp = .ok
      (if c.raw then fileWith (requestedData o c.pre c.post raw) else none,
        c.real.bind fun vel => expectedFile o .real vel c.pre c.post raw,
        c.wa.bind fun vel => expectedFile o .wa vel c.pre c.post raw) := by
  have hexp : ∀ k vel, expectedFile o k vel c.pre c.post (requestedData o c.pre c.post raw) =
      expectedFile o k vel c.pre c.post raw := by
    intro k vel
    unfold expectedFile
    rw [requested_idem o c.pre c.post hcut]
  obtain ⟨d0, hd0, hraw0, hcache⟩ : ∃ d0 : Data T,
      afterMags o c raw amp = .ok d0 ∧ d0.raw = raw ∧
      ((d0.real = none ∧ d0.wa = none) ∨ Spec.cutLength c.pre ≠ none ∨ Spec.cutLength c.post ≠ none) := by
    unfold afterMags
    rcases h with h | h
    · rw [h]
      exact ⟨_, rfl, rfl, Or.inl ⟨rfl, rfl⟩⟩
    · cases c.mags with
      | false => exact ⟨_, rfl, rfl, Or.inr h⟩
      | true =>
        obtain ⟨d', h1, h2, -⟩ := ampStage_ok o hi amp ⟨raw, none, none⟩
        exact ⟨d', h1, h2, Or.inr h⟩
  unfold locateWrites
  rw [hd0]
  simp only
  obtain ⟨d1, hd1, hraw1, hcache1⟩ : ∃ d1 : Data T,
      rawFile o c d0 = (if c.raw then fileWith (requestedData o c.pre c.post raw) else none, d1) ∧
      (d1.raw = raw ∨ d1.raw = requestedData o c.pre c.post raw) ∧
      ((d1.real = none ∧ d1.wa = none) ∨ Spec.cutLength c.pre ≠ none ∨ Spec.cutLength c.post ≠ none) := by
    unfold rawFile
    cases c.raw with
    | false => exact ⟨d0, rfl, Or.inl hraw0, hcache⟩
    | true =>
      refine ⟨cutRaw o c.pre c.post d0, ?_, ?_, ?_⟩
      · simp only [if_true, writeRaw, fileWith_eq]
        rw [cutRaw_eq, hraw0]
      · right; rw [cutRaw_eq, hraw0]
      · rw [cutRaw_eq]; exact hcache
  rw [hd1]
  simp only
  have hexp1 : ∀ k vel, expectedFile o k vel c.pre c.post d1.raw =
      expectedFile o k vel c.pre c.post raw := by
    intro k vel
    rcases hraw1 with e | e <;> rw [e]
    exact hexp k vel
  have hreq1 : requestedData o c.pre c.post d1.raw = requestedData o c.pre c.post raw := by
    rcases hraw1 with e | e <;> rw [e]
    exact requested_idem o c.pre c.post hcut raw
  obtain ⟨d2, hd2, hexp2, hcache2⟩ : ∃ d2 : Data T,
      correctedFile o .real c.real c d1 = .ok (c.real.bind fun vel => expectedFile o .real vel c.pre c.post raw, d2) ∧
      (∀ k vel, expectedFile o k vel c.pre c.post d2.raw = expectedFile o k vel c.pre c.post raw) ∧
      (d2.wa = none ∨ Spec.cutLength c.pre ≠ none ∨ Spec.cutLength c.post ≠ none) := by
    unfold correctedFile
    cases c.real with
    | none => exact ⟨d1, rfl, hexp1, hcache1.imp_left And.right⟩
    | some vel =>
      obtain ⟨d2, h1, h2, h3⟩ := writeCorrected_ok o hi .real vel c.pre c.post d1
        (hcache1.imp_left And.left)
      refine ⟨d2, ?_, ?_, ?_⟩
      · simp only [h1, hexp1, Option.bind_some]
      · intro k vel
        rw [h2, hreq1, hexp]
      · rw [h3 rfl]; exact hcache1.imp_left And.right
  rw [hd2]
  simp only [correctedFile]
  cases hw : c.wa with
  | none => rfl
  | some vel =>
    obtain ⟨d3, h1, -⟩ := writeCorrected_ok o hi .wa vel c.pre c.post d2 hcache2
    simp only [h1, hexp2, Option.bind_some]

/-- C93, what happens otherwise: if magnitudes are calculated, and the response could be removed from
some trace used for the amplitudes, the files hold the displacement of the traces used for the
amplitudes, whatever the units asked for. -/
theorem C93_with_magnitudes (hi : o.inventory = true) (c : CutWaveforms.Cfg) (raw amp : List T)
    (hm : c.mags = true) (h1 : Spec.cutLength c.pre = none) (h2 : Spec.cutLength c.post = none)
    (hL : amp.filterMap (o.real false) ≠ []) :
    ∃ f, locateWrites o c raw amp = .ok
      (f, c.real.bind fun _ => some (amp.filterMap (o.real false)),
        c.wa.bind fun _ => some ((amp.filterMap (o.real false)).map o.wa)) := by
  obtain ⟨d0, hd0, -, hr, hw⟩ := ampStage_ok o hi amp ⟨raw, none, none⟩
  obtain ⟨x, L, hxL⟩ := List.exists_cons_of_ne_nil hL
  rw [hxL] at hr hw
  simp only [Option.getD_none, List.nil_append] at hr hw
  have key : ∀ (d : Data T) (k : Kind) (vel : Bool) (y : T) (l : List T),
      (match k with | .real => d.real | .wa => d.wa) = some (y :: l) →
      ∃ d', writeCorrected o k vel c.pre c.post d = .ok (some (y :: l), d') ∧ d'.real = d.real ∧
        d'.wa = d.wa := by
    intro d k vel y l hk
    refine ⟨cutRaw o c.pre c.post d, ?_, rfl, rfl⟩
    unfold writeCorrected
    rw [truthy_eq]
    simp only [h1, h2]
    cases k
    · simp only at hk
      have : (cutRaw o c.pre c.post d).real = some (y :: l) := hk
      simp only [this]
      rfl
    · simp only at hk
      have : (cutRaw o c.pre c.post d).wa = some (y :: l) := hk
      simp only [this]
      rfl
  unfold locateWrites
  simp only [afterMags, hm, if_true, hd0]
  obtain ⟨f, d1, hd1, hr1, hw1⟩ : ∃ f d1, rawFile o c d0 =
      (f, d1) ∧ d1.real = d0.real ∧ d1.wa = d0.wa := by
    unfold rawFile
    cases c.raw
    · exact ⟨_, _, rfl, rfl, rfl⟩
    · exact ⟨_, _, rfl, rfl, rfl⟩
  refine ⟨f, ?_⟩
  rw [hd1, hxL]
  simp only
  obtain ⟨d2, hd2, hw2⟩ : ∃ d2, correctedFile o .real c.real c d1 =
      .ok (c.real.bind fun _ => some (x :: L), d2) ∧ d2.wa = d1.wa := by
    unfold correctedFile
    cases c.real with
    | none => exact ⟨d1, rfl, rfl⟩
    | some vel =>
      obtain ⟨d', e1, -, e3⟩ := key d1 .real vel x L (by simp only [hr1, hr])
      exact ⟨d', e1, e3⟩
  rw [hd2]
  simp only [correctedFile]
  cases c.wa with
  | none => rfl
  | some vel =>
    obtain ⟨d', e1, -⟩ := key d2 .wa vel (o.wa x) (L.map o.wa)
      (by simp only [hw2, hw1, hw, List.map_cons])
    simp only [e1]
    rfl

/-- C93: without a response inventory, asking for corrected waveforms raises if there is any usable
trace and no magnitudes are calculated. -/
theorem C93_no_inventory (hi : o.inventory = false) (c : CutWaveforms.Cfg) (raw amp : List T)
    (hm : c.mags = false) (vel : Bool) (hreal : c.real = some vel) :
    locateWrites o c raw amp = .error .attribute ∨
      ∀ t ∈ requestedData o c.pre c.post raw, o.isFlat t = true ∨
        t ∉ requestedData o c.pre c.post (requestedData o c.pre c.post raw) := by
  by_cases h : ∀ t ∈ requestedData o c.pre c.post raw, o.isFlat t = true ∨
      t ∉ requestedData o c.pre c.post (requestedData o c.pre c.post raw)
  · exact Or.inr h
  · left
    push Not at h
    obtain ⟨t, ht, hf, ht2⟩ := h
    have key : ∀ (ts : List T) (d : Data T), t ∈ ts → (∀ x ∈ ts, o.isEmpty x = false) →
        getWaveforms o .real vel d ts = .error .attribute := by
      intro ts
      induction ts with
      | nil => intro d h; cases h
      | cons x ts ih =>
        intro d hx he
        unfold getWaveforms
        cases hfx : o.isFlat x with
        | true =>
          have : t ∈ ts := by
            rcases List.mem_cons.mp hx with rfl | hx
            · exact absurd hfx hf
            · exact hx
          simp [ih d this (fun y hy => he y (by simp [hy]))]
        | false => simp [he x (by simp), getReal, hi]
    have hw : ∀ d : Data T, d.real = none → (d.raw = raw ∨ d.raw = requestedData o c.pre c.post raw) →
        writeCorrected o .real vel c.pre c.post d = .error .attribute := by
      intro d hd hraw
      unfold writeCorrected
      rw [cutRaw_eq]
      simp only [hd]
      rw [key _ _ _ (requested_nonempty o c.pre c.post d.raw)]
      rcases hraw with e | e <;> rw [e]
      · exact ht
      · exact ht2
    unfold locateWrites
    simp only [afterMags, rawFile, correctedFile, hm, Bool.false_eq_true, if_false, hreal]
    cases c.raw with
    | false =>
      simp only [Bool.false_eq_true, if_false]
      rw [hw _ rfl (Or.inl rfl)]
    | true =>
      simp only [if_true, writeRaw]
      rw [hw _ rfl (Or.inr (by rw [cutRaw_eq]))]

/-! ## Concrete cases -/

/-- Traces: name of the channel, what has been done to it. -/
def exCutOps : Ops (List Char × List Char) where
  real v t := if t.1 = ['X'] then none else some (t.1, if v then ['v'] else ['d'])
  wa t := (t.1, 'w' :: t.2)
  cut p q t := (t.1, if p = none ∧ q = none then t.2 else ['c'])
  isEmpty _ := false
  isFlat t := t.2 == ['f']
  inventory := true

/-- Three channels, one without a response and one flat. -/
def exCutRaw : List (List Char × List Char) :=
  [(['A'], ['r']), (['X'], ['r']), (['B'], ['f']), (['C'], ['r'])]

/-- C93 fails if magnitudes are calculated: real waveforms asked for as velocity are written as
displacement, and a channel read for the event is missing. -/
theorem C93_violated : ∃ (o : Ops (List Char × List Char)) (c : CutWaveforms.Cfg)
    (raw amp : List (List Char × List Char)),
    o.inventory = true ∧ (∀ p q t, o.cut p q (o.cut p q t) = o.cut p q t) ∧ (∀ t ∈ amp, t ∈ raw) ∧
    c.real = some true ∧ c.pre = none ∧ c.post = none ∧
    expectedFile o .real true c.pre c.post raw = some [(['A'], ['v']), (['C'], ['v'])] ∧
    locateWrites o c raw amp = .ok (none, some [(['A'], ['d'])], none) := by
  refine ⟨exCutOps, ⟨false, some true, none, none, none, true⟩, exCutRaw, [(['A'], ['r'])], rfl, ?_,
    by decide, rfl, rfl, rfl, by decide, by rfl⟩
  intro p q t
  simp only [exCutOps]
  split_ifs <;> rfl

example : locateWrites exCutOps ⟨true, some true, some false, some 5, none, true⟩ exCutRaw
    [(['A'], ['r'])] =
    .ok (some [(['A'], ['c']), (['X'], ['c']), (['B'], ['c']), (['C'], ['c'])],
      some [(['A'], ['v']), (['B'], ['v']), (['C'], ['v'])],
      some [(['A'], ['w', 'd']), (['B'], ['w', 'd']), (['C'], ['w', 'd'])]) := by
  have h := C93_files_partial exCutOps rfl (by intro p q t; simp only [exCutOps]; split_ifs <;> rfl)
    ⟨true, some true, some false, some 5, none, true⟩ exCutRaw [(['A'], ['r'])]
    (Or.inr (Or.inl (by simp [Spec.cutLength])))
  rw [h]
  rfl

end QM

import Verif.Spec.Trigger
import Verif.Lemmas.Lists
import Verif.Lemmas.Days

namespace QM.Trigger
open QM QM.Spec

theorem batches_of_le {s e : ℚ} (h : e ≤ s) : batches s e = [] := by
  rw [batches]; simp [not_lt.mpr h]

theorem batches_cons {s e : ℚ} (h : s < e) :
    batches s e = (s, if dayStart s + DAY ≤ e then dayStart s + DAY else e) ::
      batches (dayStart s + DAY) e := by
  rw [batches]; simp [h]

theorem batches_partition (s e : ℚ) (hse : s ≤ e) : IsDayPartition s e (batches s e) := by
  suffices H : ∀ n : ℕ, ∀ s, s ≤ e → (⌈e / DAY⌉ - ⌊s / DAY⌋).toNat = n →
      IsDayPartition s e (batches s e) from H _ s hse rfl
  intro n
  induction n using Nat.strong_induction_on with
  | _ n ih =>
    intro s hse hn
    rcases lt_or_eq_of_le hse with h | h
    · have hlt := lt_dayStart_add s
      have hle := dayStart_le s
      have hone : 86400 * ((⌊s / DAY⌋ : ℤ) : ℚ) ≤ s ∧
          dayStart s + DAY = 86400 * (((⌊s / DAY⌋ : ℤ) : ℚ) + 1) := by
        refine ⟨hle, ?_⟩
        unfold dayStart DAY; ring
      rw [batches_cons h]
      rcases le_or_gt (dayStart s + DAY) e with hd | hd
      · rw [if_pos hd]
        have ih' := ih _ (hn ▸ batch_decreases h) (dayStart s + DAY) hd rfl
        rcases lt_or_eq_of_le hd with hd' | hd'
        · have hc := batches_cons hd'
          refine ⟨?_, ?_, ?_, ?_, ?_, ?_, ?_, ?_⟩
          · intro b hb
            rcases List.mem_cons.mp hb with rfl | hb
            · exact hlt
            · exact ih'.nonempty b hb
          · intro b hb
            rcases List.mem_cons.mp hb with rfl | hb
            · exact ⟨_, hone.1, le_of_eq hone.2⟩
            · exact ih'.one_day b hb
          · intro b hb
            rcases List.mem_cons.mp hb with rfl | hb
            · right; exact ⟨⌊s / DAY⌋ + 1, by push_cast; exact hone.2⟩
            · exact ih'.cut_at_midnight b hb
          · have := ih'.consecutive
            rw [hc] at this ⊢
            rw [List.isChain_cons_cons]
            exact ⟨rfl, this⟩
          · intro b hb; simp at hb; rw [← hb]
          · have := ih'.last
            rw [hc] at this ⊢
            rw [List.getLast?_cons_cons]
            exact this
          · intro t ht1 ht2
            rcases lt_or_ge t (dayStart s + DAY) with h1 | h1
            · exact ⟨_, List.mem_cons_self, ht1, h1⟩
            · obtain ⟨b, hb, hbt⟩ := ih'.covers t h1 ht2
              exact ⟨b, List.mem_cons_of_mem _ hb, hbt⟩
          · intro b hb
            rcases List.mem_cons.mp hb with rfl | hb
            · exact ⟨le_rfl, hd⟩
            · have := ih'.inside b hb
              exact ⟨by linarith [this.1], this.2⟩
        · rw [batches_of_le (le_of_eq hd'.symm)]
          refine ⟨?_, ?_, ?_, ?_, ?_, ?_, ?_, ?_⟩
          · intro b hb; simp at hb; subst hb; exact hlt
          · intro b hb; simp at hb; subst hb; exact ⟨_, hone.1, le_of_eq hone.2⟩
          · intro b hb; simp at hb; subst hb; exact Or.inl hd'
          · simp
          · intro b hb; simp at hb; rw [← hb]
          · intro b hb; simp at hb; rw [← hb]; exact hd'
          · intro t ht1 ht2; exact ⟨_, List.mem_cons_self, ht1, by simpa [hd'] using ht2⟩
          · intro b hb; simp at hb; subst hb; exact ⟨le_rfl, hd⟩
      · rw [if_neg (not_le.mpr hd), batches_of_le (le_of_lt hd)]
        refine ⟨?_, ?_, ?_, ?_, ?_, ?_, ?_, ?_⟩
        · intro b hb; simp at hb; subst hb; exact h
        · intro b hb; simp at hb; subst hb
          exact ⟨_, hone.1, by rw [← hone.2]; exact le_of_lt hd⟩
        · intro b hb; simp at hb; subst hb; exact Or.inl rfl
        · simp
        · intro b hb; simp at hb; rw [← hb]
        · intro b hb; simp at hb; rw [← hb]
        · intro t ht1 ht2; exact ⟨_, List.mem_cons_self, ht1, ht2⟩
        · intro b hb; simp at hb; subst hb; exact ⟨le_rfl, le_rfl⟩
    · rw [batches_of_le (le_of_eq h.symm)]
      refine ⟨by simp, by simp, by simp, by simp, by simp, by simp, ?_, by simp⟩
      intro t h1 h2; linarith

theorem dayPartition_tail {s e : ℚ} {b : ℚ × ℚ} {bs : List (ℚ × ℚ)}
    (h : IsDayPartition s e (b :: bs)) : IsDayPartition b.2 e bs := by
  have hpw : (b :: bs).Pairwise (fun b c => b.2 ≤ c.1 ∧ b.1 < b.2 ∧ c.1 < c.2) := by
    have htr : IsTrans (ℚ × ℚ) (fun b c => b.2 ≤ c.1 ∧ b.1 < b.2 ∧ c.1 < c.2) :=
      ⟨fun a b c h1 h2 => ⟨by linarith [h1.1, h2.1, h1.2.2], h1.2.1, h2.2.2⟩⟩
    refine List.isChain_iff_pairwise.mp (h.consecutive.imp_of_mem_imp ?_)
    intro x y hx hy hxy
    exact ⟨le_of_eq hxy, h.nonempty x hx, h.nonempty y hy⟩
  rw [List.pairwise_cons] at hpw
  refine ⟨fun c hc => h.nonempty c (List.mem_cons_of_mem _ hc),
    fun c hc => h.one_day c (List.mem_cons_of_mem _ hc),
    fun c hc => h.cut_at_midnight c (List.mem_cons_of_mem _ hc), ?_, ?_, ?_, ?_, ?_⟩
  · have := h.consecutive
    cases bs with
    | nil => simp
    | cons c bs => rw [List.isChain_cons_cons] at this; exact this.2
  · intro c hc
    have := h.consecutive
    cases bs with
    | nil => simp at hc
    | cons d bs =>
      simp at hc
      rw [List.isChain_cons_cons] at this
      rw [← hc]; exact this.1.symm
  · intro c hc
    cases bs with
    | nil => simp at hc
    | cons d bs =>
      exact h.last c (by rw [List.getLast?_cons_cons]; exact hc)
  · intro t h1 h2
    have hs := (h.inside b List.mem_cons_self).1
    have hn := h.nonempty b List.mem_cons_self
    obtain ⟨c, hc, hc1, hc2⟩ := h.covers t (by linarith) h2
    rcases List.mem_cons.mp hc with rfl | hc
    · linarith
    · exact ⟨c, hc, hc1, hc2⟩
  · intro c hc
    exact ⟨(hpw.1 c hc).1, (h.inside c (List.mem_cons_of_mem _ hc)).2⟩

theorem dayPartition_nil {s e : ℚ} {cs : List (ℚ × ℚ)} (h : IsDayPartition s e cs)
    (hse : e ≤ s) : cs = [] := by
  cases cs with
  | nil => rfl
  | cons c cs =>
    have h1 := h.inside c List.mem_cons_self
    have h2 := h.nonempty c List.mem_cons_self
    linarith

theorem dayPartition_unique (e : ℚ) (bs : List (ℚ × ℚ)) : ∀ (s : ℚ) (cs : List (ℚ × ℚ)),
    IsDayPartition s e bs → IsDayPartition s e cs → bs = cs := by
  induction bs with
  | nil =>
    intro s cs hb hc
    have : e ≤ s := by
      by_contra h
      obtain ⟨b, hb, -⟩ := hb.covers s le_rfl (not_le.mp h)
      simp at hb
    exact (dayPartition_nil hc this).symm
  | cons b0 bs ih =>
    intro s cs hb hc
    have hb0 := hb.first b0 (by simp)
    have hne := hb.nonempty b0 List.mem_cons_self
    have hins := hb.inside b0 List.mem_cons_self
    obtain ⟨c, hcm, -⟩ := hc.covers s le_rfl (by linarith)
    obtain ⟨c0, cs, rfl⟩ : ∃ c0 l, cs = c0 :: l := by
      cases cs with
      | nil => simp at hcm
      | cons x l => exact ⟨x, l, rfl⟩
    have hc0 := hc.first c0 (by simp)
    have key : ∀ (x y : ℚ × ℚ), x.1 = s → y.1 = s → x.1 < x.2 → y.1 < y.2 → y.2 ≤ e →
        (x.2 = e ∨ ∃ k : ℤ, x.2 = 86400 * (k : ℚ)) →
        (∃ k : ℤ, 86400 * (k : ℚ) ≤ y.1 ∧ y.2 ≤ 86400 * ((k : ℚ) + 1)) → y.2 ≤ x.2 := by
      intro x y hx hy hx2 hy2 hye h1 h2
      rcases h1 with h1 | ⟨k, h1⟩
      · rw [h1]; exact hye
      · obtain ⟨j, hj1, hj2⟩ := h2
        have hlt : (j : ℚ) < k := by
          have : 86400 * (j : ℚ) < 86400 * (k : ℚ) := by rw [← h1]; linarith
          linarith
        have hlt' : j + 1 ≤ k := by exact_mod_cast hlt
        have : (j : ℚ) + 1 ≤ k := by exact_mod_cast hlt'
        rw [h1]; linarith
    have e1 := key b0 c0 hb0 hc0 (hb.nonempty _ (by simp)) (hc.nonempty _ (by simp))
      (hc.inside _ (by simp)).2 (hb.cut_at_midnight _ (by simp)) (hc.one_day _ (by simp))
    have e2 := key c0 b0 hc0 hb0 (hc.nonempty _ (by simp)) (hb.nonempty _ (by simp))
      (hb.inside _ (by simp)).2 (hc.cut_at_midnight _ (by simp)) (hb.one_day _ (by simp))
    have heq : b0 = c0 := Prod.ext (hb0.trans hc0.symm) (le_antisymm e2 e1)
    subst heq
    rw [ih b0.2 cs (dayPartition_tail hb) (dayPartition_tail hc)]

theorem runBatches_prefix (cfg : Cfg) (m : Method) (smooth : List Row → List Row)
    (region : Option Region) (read : ℚ → ℚ → Option ScanData) (bs : List (ℚ × ℚ)) :
    ((runBatches cfg m smooth region read bs).1.map Prod.fst) <+: bs ∧
    ((runBatches cfg m smooth region read bs).2 = none →
      (runBatches cfg m smooth region read bs).1.map Prod.fst = bs) ∧
    ((runBatches cfg m smooth region read bs).2 = none ↔ ∀ b ∈ bs, (read b.1 b.2).isSome) ∧
    (∀ p ∈ (runBatches cfg m smooth region read bs).1, ∃ sd, read p.1.1 p.1.2 = some sd ∧
      p.2 = (triggerBatch cfg m smooth region p.1.1 p.1.2 sd).1) := by
  induction bs with
  | nil => simp [runBatches]
  | cons b bs ih =>
    unfold runBatches
    cases hr : read b.1 b.2 with
    | none => simp [hr]
    | some sd =>
      obtain ⟨h1, h2, h3, h4⟩ := ih
      simp only [List.map_cons, List.prefix_cons_inj, List.mem_cons, forall_eq_or_imp, hr,
        Option.isSome_some, true_and]
      refine ⟨h1, ?_, h3, ⟨sd, rfl, rfl⟩, h4⟩
      intro h; rw [h2 h]

theorem mem_triggerBatch {cfg : Cfg} {m : Method} {smooth : List Row → List Row}
    {region : Option Region} {bs be : ℚ} {sd : ScanData} {e : Cand} :
    e ∈ (triggerBatch cfg m smooth region bs be sd).1 ↔
      e ∈ refineCandidates cfg (identifyCandidates cfg (smooth sd.rows)
        (getThreshold m ((smooth sd.rows).map (Row.trig cfg.norm)) sd.sr)) ∧
      bs ≤ e.coaTime ∧ e.coaTime ≤ (if isMidnight be then be - sd.delta else be) ∧
      InRegion region e := by
  unfold triggerBatch filterEvents
  simp only [List.mem_map, List.mem_filter, Prod.exists, exists_and_right, exists_eq_right]
  have hk : ∀ st, keepEvent bs st region e = true ↔
      bs ≤ e.coaTime ∧ e.coaTime ≤ st ∧ InRegion region e := by
    intro st
    unfold keepEvent InRegion
    cases region with
    | none => simp
    | some r => simp; tauto
  constructor
  · rintro ⟨⟨i, h1⟩, h2⟩
    exact ⟨List.fst_mem_of_mem_zipIdx h1, (hk _).mp h2⟩
  · rintro ⟨h1, h2⟩
    obtain ⟨i, hi, rfl⟩ := List.getElem_of_mem h1
    refine ⟨⟨i, ?_⟩, (hk _).mpr h2⟩
    rw [List.mem_zipIdx_iff_getElem?]
    exact List.getElem?_eq_getElem hi

end QM.Trigger

import Verif.Model.Parallel

namespace QM

theorem runAll_append {ι Op S : Type} (step : ι × Op → S → Option S) (l₁ l₂ : List (ι × Op))
    (s : S) : runAll step (l₁ ++ l₂) s = (runAll step l₁ s).bind (runAll step l₂) := by
  induction l₁ generalizing s with
  | nil => rfl
  | cons o l₁ ih =>
    simp only [List.cons_append, runAll]
    cases step o s with
    | none => rfl
    | some s' => simpa using ih s'

theorem filter_tag_map {Op : Type} (i j : ℕ) (l : List Op) :
    ((l.map (fun o => (i, o))).filter (fun o => o.1 = j)) =
      if i = j then l.map (fun o => (i, o)) else [] := by
  split
  · next h => subst h; simp [List.filter_eq_self]
  · next h => simp [h]

theorem serial_isInterleaving {Op : Type} (n : ℕ) (prog : ℕ → List Op) :
    IsInterleaving n prog (serial n prog) := by
  refine ⟨?_, ?_⟩
  · intro o ho
    simp only [serial, List.mem_flatMap, List.mem_range, List.mem_map] at ho
    obtain ⟨i, hi, p, _, rfl⟩ := ho
    exact hi
  · intro i hi
    have key : ∀ m, ((serial m prog).filter (fun o => o.1 = i)).map Prod.snd =
        if i < m then prog i else [] := by
      intro m
      induction m with
      | zero => simp [serial]
      | succ m ih =>
        have : serial (m+1) prog = serial m prog ++ (prog m).map (fun o => (m, o)) := by
          simp [serial, List.range_succ]
        rw [this, List.filter_append, List.map_append, ih, filter_tag_map]
        rcases Nat.lt_trichotomy i m with h | h | h
        · rw [if_pos h, if_neg (by omega), if_pos (by omega)]; simp
        · subst h; simp [Function.comp_def]
        · rw [if_neg (by omega), if_neg (by omega), if_neg (by omega)]; simp
    rw [key, if_pos hi]

/-- Iterations that only touch what they own do not observe each other: if every
iteration, run alone, succeeds, then so does the interleaving, and what each
iteration owns ends up as if it had run alone. -/
theorem runAll_interleave {Op S : Type} (step : ℕ × Op → S → Option S)
    (ag : ℕ → S → S → Prop) (ok : ℕ × Op → Prop)
    (htrans : ∀ n a b c, ag n a b → ag n b c → ag n a c)
    (hother : ∀ o n s s', ok o → o.1 ≠ n → step o s = some s' → ag n s' s)
    (hsame : ∀ o s t t', ok o → ag o.1 s t → step o t = some t' →
      ∃ s', step o s = some s' ∧ ag o.1 s' t')
    (sched : List (ℕ × Op)) (hok : ∀ o ∈ sched, ok o) (s : S) (t u : ℕ → S)
    (N : ℕ) (hN : ∀ o ∈ sched, o.1 < N)
    (hag : ∀ n < N, ag n s (t n))
    (hrun : ∀ n < N, runAll step (sched.filter (fun o => o.1 = n)) (t n) = some (u n)) :
    ∃ s', runAll step sched s = some s' ∧ ∀ n < N, ag n s' (u n) := by
  induction sched generalizing s t with
  | nil =>
    refine ⟨s, rfl, fun n hn => ?_⟩
    have := hrun n hn
    simp only [List.filter_nil, runAll, Option.some.injEq] at this
    rw [← this]; exact hag n hn
  | cons o os ih =>
    have hoN : o.1 < N := hN o (List.mem_cons_self)
    have ho : ok o := hok o (List.mem_cons_self)
    have h1 := hrun o.1 hoN
    rw [List.filter_cons_of_pos (by simp)] at h1
    simp only [runAll] at h1
    cases hst : step o (t o.1) with
    | none => rw [hst] at h1; simp at h1
    | some t' =>
      rw [hst] at h1
      simp only [Option.bind_some] at h1
      obtain ⟨s1, hs1, hag1⟩ := hsame o s (t o.1) t' ho (hag _ hoN) hst
      have := ih (fun o' h => hok o' (List.mem_cons_of_mem _ h)) s1
        (fun n => if n = o.1 then t' else t n)
        (fun o' h => hN o' (List.mem_cons_of_mem _ h))
        (by
          intro n hn
          by_cases h : n = o.1
          · subst h; simpa using hag1
          · simp only [h, if_false]
            exact htrans n s1 s (t n) (hother o n s s1 ho (fun h' => h h'.symm) hs1) (hag n hn))
        (by
          intro n hn
          by_cases h : n = o.1
          · subst h; simpa using h1
          · simp only [h, if_false]
            have := hrun n hn
            rwa [List.filter_cons_of_neg (by simpa using fun h' => h h'.symm)] at this)
      obtain ⟨s', hs', hu⟩ := this
      exact ⟨s', by simp [runAll, hs1, hs'], hu⟩

/-- Converse: if the interleaving succeeds, so does every iteration run alone. -/
theorem runAll_interleave_conv {Op S : Type} (step : ℕ × Op → S → Option S)
    (ag : ℕ → S → S → Prop) (ok : ℕ × Op → Prop)
    (htrans : ∀ n a b c, ag n a b → ag n b c → ag n a c)
    (hsymm : ∀ n a b, ag n a b → ag n b a)
    (hother : ∀ o n s s', ok o → o.1 ≠ n → step o s = some s' → ag n s' s)
    (hsame : ∀ o s t t', ok o → ag o.1 s t → step o t = some t' →
      ∃ s', step o s = some s' ∧ ag o.1 s' t')
    (sched : List (ℕ × Op)) (hok : ∀ o ∈ sched, ok o) (s s' t : S) (n : ℕ)
    (hag : ag n s t) (hrun : runAll step sched s = some s') :
    ∃ u, runAll step (sched.filter (fun o => o.1 = n)) t = some u ∧ ag n s' u := by
  induction sched generalizing s t with
  | nil =>
    simp only [runAll, Option.some.injEq] at hrun
    subst hrun
    exact ⟨t, rfl, hag⟩
  | cons o os ih =>
    have ho : ok o := hok o (List.mem_cons_self)
    have hok' : ∀ o ∈ os, ok o := fun o' h => hok o' (List.mem_cons_of_mem _ h)
    simp only [runAll] at hrun
    cases hst : step o s with
    | none => rw [hst] at hrun; simp at hrun
    | some s1 =>
      rw [hst] at hrun
      simp only [Option.bind_some] at hrun
      by_cases h : o.1 = n
      · subst h
        obtain ⟨t1, ht1, hag1⟩ := hsame o t s s1 ho (hsymm _ _ _ hag) hst
        obtain ⟨u, hu, hagu⟩ := ih hok' s1 t1 (hsymm _ _ _ hag1) hrun
        refine ⟨u, ?_, hagu⟩
        rw [List.filter_cons_of_pos (by simp)]
        simp [runAll, ht1, hu]
      · obtain ⟨u, hu, hagu⟩ := ih hok' s1 t
          (htrans _ _ _ _ (hother o n s s1 ho h hst) hag) hrun
        refine ⟨u, ?_, hagu⟩
        rw [List.filter_cons_of_neg (by simpa using h)]
        exact hu

/-- Restricting an interleaving to one iteration gives its tagged program. -/
theorem IsInterleaving.filter_eq {Op : Type} {n : ℕ} {prog : ℕ → List Op}
    {sched : List (ℕ × Op)} (h : IsInterleaving n prog sched) {i : ℕ} (hi : i < n) :
    sched.filter (fun o => o.1 = i) = (prog i).map (fun o => (i, o)) := by
  rw [← h.2 i hi, List.map_map]
  conv_lhs => rw [← List.map_id (sched.filter _)]
  apply List.map_congr_left
  intro o ho
  have : o.1 = i := by simpa using (List.mem_filter.1 ho).2
  simp [← this]

/-- Two interleavings of the same iterations both succeed or both fault, and leave
every iteration's data the same. -/
theorem interleavings_agree {Op S : Type} (step : ℕ × Op → S → Option S)
    (ag : ℕ → S → S → Prop) (ok : ℕ × Op → Prop)
    (hrefl : ∀ n a, ag n a a)
    (htrans : ∀ n a b c, ag n a b → ag n b c → ag n a c)
    (hsymm : ∀ n a b, ag n a b → ag n b a)
    (hother : ∀ o n s s', ok o → o.1 ≠ n → step o s = some s' → ag n s' s)
    (hsame : ∀ o s t t', ok o → ag o.1 s t → step o t = some t' →
      ∃ s', step o s = some s' ∧ ag o.1 s' t')
    {N : ℕ} {prog : ℕ → List Op} (hprog : ∀ n, ∀ o ∈ prog n, ok (n, o))
    {s₁ s₂ : List (ℕ × Op)} (h₁ : IsInterleaving N prog s₁) (h₂ : IsInterleaving N prog s₂)
    (s a : S) (hrun : runAll step s₁ s = some a) :
    ∃ b, runAll step s₂ s = some b ∧ ∀ n < N, ag n b a := by
  have hok : ∀ {sc}, IsInterleaving N prog sc → ∀ o ∈ sc, ok o := by
    intro sc hsc o ho
    have hm : o.2 ∈ prog o.1 := by
      rw [← hsc.2 o.1 (hsc.1 o ho)]
      exact List.mem_map.2 ⟨o, List.mem_filter.2 ⟨ho, by simp⟩, rfl⟩
    exact hprog o.1 _ hm
  choose u hu hagu using fun n => runAll_interleave_conv step ag ok htrans hsymm hother hsame s₁
    (hok h₁) s a s n (hrefl n s) hrun
  obtain ⟨b, hb, hagb⟩ := runAll_interleave step ag ok htrans hother hsame s₂ (hok h₂) s
    (fun _ => s) u N h₂.1 (fun n _ => hrefl n s)
    (fun n hn => by rw [h₂.filter_eq hn, ← h₁.filter_eq hn]; exact hu n)
  exact ⟨b, hb, fun n hn => htrans _ _ _ _ (hagb n hn) (hsymm _ _ _ (hagu n))⟩

theorem IsInterleaving.mem {Op : Type} {n : ℕ} {prog : ℕ → List Op}
    {sched : List (ℕ × Op)} (h : IsInterleaving n prog sched) {o : ℕ × Op} (ho : o ∈ sched) :
    o.1 < n ∧ o.2 ∈ prog o.1 := by
  refine ⟨h.1 o ho, ?_⟩
  rw [← h.2 o.1 (h.1 o ho)]
  exact List.mem_map.2 ⟨o, List.mem_filter.2 ⟨ho, by simp⟩, rfl⟩

end QM

import Verif.Model.Locate
import Verif.Lemmas.Lists
import Verif.Lemmas.Grid
import Mathlib.Tactic.LinearCombination

namespace QM

theorem firstMaxBy_of_split {α : Type} {key : α → ℚ} {pre post : List α} {m : α}
    (h1 : ∀ c ∈ pre, key c < key m) (h2 : ∀ c ∈ post, key c ≤ key m) :
    firstMaxBy key (pre ++ m :: post) = some m := by
  obtain ⟨m', hm⟩ := firstMaxBy_isSome key (l := pre ++ m :: post) (by simp)
  obtain ⟨pre', post', hs, h1', h2'⟩ := firstMaxBy_spec hm
  rw [hm]
  congr 1
  rcases List.append_eq_append_iff.1 hs with ⟨c, hc, hc'⟩ | ⟨c, hc, hc'⟩
  · cases c with
    | nil => simp at hc'; exact hc'.1.symm
    | cons x c =>
      simp only [List.cons_append, List.cons.injEq] at hc'
      obtain ⟨rfl, hc'⟩ := hc'
      have a1 := h1' m (by rw [hc]; simp)
      have a2 := h2 m' (by rw [hc']; simp)
      exact absurd a1 (not_lt.2 a2)
  · cases c with
    | nil => simp at hc'; exact hc'.1
    | cons x c =>
      simp only [List.cons_append, List.cons.injEq] at hc'
      obtain ⟨rfl, hc'⟩ := hc'
      have a1 := h1 m' (by rw [hc]; simp)
      have a2 := h2' m (by rw [hc']; simp)
      exact absurd a1 (not_lt.2 a2)

/-- Removing elements other than the first maximum does not change it. -/
theorem firstMaxBy_filter {α : Type} {key : α → ℚ} {l : List α} {m : α} (p : α → Bool)
    (h : firstMaxBy key l = some m) (hp : p m = true) : firstMaxBy key (l.filter p) = some m := by
  obtain ⟨pre, post, hs, h1, h2⟩ := firstMaxBy_spec h
  rw [hs, List.filter_append, List.filter_cons_of_pos hp]
  exact firstMaxBy_of_split (fun c hc => h1 c (List.mem_filter.1 hc).1)
    (fun c hc => h2 c (List.mem_filter.1 hc).1)

theorem firstMaxBy_mem {α : Type} {key : α → ℚ} {l : List α} {m : α}
    (h : firstMaxBy key l = some m) : m ∈ l ∧ ∀ c ∈ l, key c ≤ key m := by
  obtain ⟨pre, post, hs, h1, h2⟩ := firstMaxBy_spec h
  subst hs
  refine ⟨by simp, ?_⟩
  intro c hc
  simp only [List.mem_append, List.mem_cons] at hc
  rcases hc with hc | rfl | hc
  · exact (h1 c hc).le
  · exact le_refl _
  · exact h2 c hc

end QM

namespace QM.Locate
open QM.Grid

/-! ## Trimming -/

theorem zipIdx_filter_fst {α : Type} (p : α → Bool) : ∀ (l : List α) (k : ℕ),
    ((l.zipIdx k).filter fun r => p r.1).map Prod.fst = l.filter p
  | [], _ => rfl
  | a :: l, k => by
    rw [List.zipIdx_cons, List.filter_cons, List.filter_cons]
    by_cases h : p a = true
    · simp [h, zipIdx_filter_fst p l (k + 1)]
    · simp [h, zipIdx_filter_fst p l (k + 1)]

/-- Window test of `trim2window`. -/
def inWin (otime mw : ℚ) (r : Row) : Bool := decide (otime - mw ≤ r.dt ∧ r.dt ≤ otime + mw)

theorem inWin_iff (otime mw : ℚ) (r : Row) : inWin otime mw r = true ↔ |r.dt - otime| ≤ mw := by
  unfold inWin
  rw [decide_eq_true_iff, abs_le]
  constructor <;> rintro ⟨h1, h2⟩ <;> constructor <;> linarith

theorem trim_rows {σ : Type} {rows : List Row} {map : List σ} {e : Computed σ} {mw : ℚ}
    (h : addComputeOutput rows map = some e) (hmw : 0 ≤ mw) :
    ∃ e', trim2window mw e = some e' ∧ e'.rows = rows.filter (inWin e.otime mw) ∧
      e'.otime = e.otime ∧ maxRow e'.rows = maxRow rows := by
  unfold addComputeOutput at h
  obtain ⟨r, hr, he⟩ := Option.map_eq_some_iff.1 h
  subst he
  have hin : inWin r.dt mw r = true := by rw [inWin_iff]; simpa using hmw
  have hrows : (((rows.zipIdx.filter fun x => inWin r.dt mw x.1)).map Prod.fst) =
      rows.filter (inWin r.dt mw) := zipIdx_filter_fst _ rows 0
  have hmax : maxRow (rows.filter (inWin r.dt mw)) = some r := firstMaxBy_filter _ hr hin
  have hne : (rows.zipIdx.filter fun x => inWin r.dt mw x.1) ≠ [] := by
    intro hnil
    rw [hnil] at hrows
    simp only [List.map_nil] at hrows
    rw [← hrows] at hmax
    simp [maxRow, firstMaxBy] at hmax
  have hne' : ((rows.zipIdx.filter fun x => inWin r.dt mw x.1).map Prod.snd) ≠ [] := by simpa using hne
  unfold trim2window
  simp only
  change ∃ e', (match ((rows.zipIdx.filter fun x => inWin r.dt mw x.1).map Prod.snd).head?,
    ((rows.zipIdx.filter fun x => inWin r.dt mw x.1).map Prod.snd).getLast? with
    | some a, some b => (maxRow ((rows.zipIdx.filter fun x => inWin r.dt mw x.1).map Prod.fst)).map
        fun r' => (⟨(rows.zipIdx.filter fun x => inWin r.dt mw x.1).map Prod.fst,
          (map.take b).drop a, r'.dt⟩ : Computed σ)
    | _, _ => none) = some e' ∧ _
  rw [List.head?_eq_some_head hne', List.getLast?_eq_some_getLast hne']
  simp only
  rw [hrows, hmax]
  exact ⟨_, rfl, rfl, rfl, by rw [hr]; exact hmax⟩

theorem sorted_split (lo hi : ℚ) (hlh : lo ≤ hi) : ∀ (l : List Row),
    (l.Pairwise fun a b => a.dt < b.dt) →
    ∃ A K B, l = A ++ K ++ B ∧ (∀ r ∈ A, r.dt < lo) ∧ (∀ r ∈ K, lo ≤ r.dt ∧ r.dt ≤ hi) ∧
      (∀ r ∈ B, hi < r.dt)
  | [], _ => ⟨[], [], [], rfl, by simp, by simp, by simp⟩
  | a :: l, h => by
    rw [List.pairwise_cons] at h
    obtain ⟨A, K, B, hs, hA, hK, hB⟩ := sorted_split lo hi hlh l h.2
    by_cases h1 : a.dt < lo
    · refine ⟨a :: A, K, B, by rw [hs]; rfl, ?_, hK, hB⟩
      intro r hr
      rcases List.mem_cons.1 hr with rfl | hr
      · exact h1
      · exact hA r hr
    · have hAe : A = [] := by
        cases A with
        | nil => rfl
        | cons x A =>
          have hx := hA x (by simp)
          have hx' := h.1 x (by rw [hs]; simp)
          linarith [not_lt.1 h1]
      subst hAe
      by_cases h2 : a.dt ≤ hi
      · refine ⟨[], a :: K, B, by rw [hs]; rfl, by simp, ?_, hB⟩
        intro r hr
        rcases List.mem_cons.1 hr with rfl | hr
        · exact ⟨not_lt.1 h1, h2⟩
        · exact hK r hr
      · have hKe : K = [] := by
          cases K with
          | nil => rfl
          | cons x K =>
            have hx := (hK x (by simp)).2
            have hx' := h.1 x (by rw [hs]; simp)
            linarith [not_le.1 h2]
        subst hKe
        refine ⟨[], [], a :: B, by rw [hs]; rfl, by simp, by simp, ?_⟩
        intro r hr
        rcases List.mem_cons.1 hr with rfl | hr
        · exact not_le.1 h2
        · exact hB r hr

theorem filter_zipIdx_all {α : Type} (p : α → Bool) : ∀ (l : List α) (k : ℕ),
    (∀ a ∈ l, p a = true) → (l.zipIdx k).filter (fun r => p r.1) = l.zipIdx k
  | l, k, h => by
    rw [List.filter_eq_self]
    intro x hx
    exact h _ (List.fst_mem_of_mem_zipIdx hx)

theorem filter_zipIdx_none {α : Type} (p : α → Bool) (l : List α) (k : ℕ)
    (h : ∀ a ∈ l, p a = false) : (l.zipIdx k).filter (fun r => p r.1) = [] := by
  rw [List.filter_eq_nil_iff]
  intro x hx
  rw [h _ (List.fst_mem_of_mem_zipIdx hx)]
  simp

/-- Trimming, for increasing timestamps: the kept rows are a contiguous run starting at
`a`, and the map slices kept are the same run without its last element. -/
theorem trim_contiguous {σ : Type} {rows : List Row} {map : List σ} {e e' : Computed σ} {mw : ℚ}
    (hs : rows.Pairwise fun a b => a.dt < b.dt)
    (h : addComputeOutput rows map = some e) (hmw : 0 ≤ mw) (ht : trim2window mw e = some e') :
    ∃ a, e'.rows ≠ [] ∧ a + e'.rows.length ≤ rows.length ∧
      (∀ k < e'.rows.length, e'.rows[k]? = rows[a + k]?) ∧
      e'.map = (map.take (a + e'.rows.length - 1)).drop a := by
  obtain ⟨e'', ht', hrows, -, hmax⟩ := trim_rows h hmw
  rw [ht] at ht'
  have := Option.some.inj ht'
  subst this
  unfold addComputeOutput at h
  obtain ⟨r, hr, he⟩ := Option.map_eq_some_iff.1 h
  subst he
  obtain ⟨A, K, B, hsplit, hA, hK, hB⟩ := sorted_split (r.dt - mw) (r.dt + mw) (by linarith) rows hs
  have pA : ∀ x ∈ A, inWin r.dt mw x = false := fun x hx => by
    unfold inWin; rw [decide_eq_false_iff_not]; have := hA x hx; intro hc; linarith [hc.1]
  have pK : ∀ x ∈ K, inWin r.dt mw x = true := fun x hx => by
    unfold inWin; rw [decide_eq_true_iff]; exact hK x hx
  have pB : ∀ x ∈ B, inWin r.dt mw x = false := fun x hx => by
    unfold inWin; rw [decide_eq_false_iff_not]; have := hB x hx; intro hc; linarith [hc.2]
  have hKr : e'.rows = K := by
    have fA : A.filter (inWin r.dt mw) = [] :=
      List.filter_eq_nil_iff.2 (fun x hx => by rw [pA x hx]; simp)
    have fB : B.filter (inWin r.dt mw) = [] :=
      List.filter_eq_nil_iff.2 (fun x hx => by rw [pB x hx]; simp)
    rw [hrows]
    show rows.filter (inWin r.dt mw) = K
    rw [hsplit, List.filter_append, List.filter_append, fA, fB, List.filter_eq_self.2 pK]
    simp
  have hKne : K ≠ [] := by
    intro hk
    rw [hKr, hk, hr] at hmax
    simp [maxRow, firstMaxBy] at hmax
  have hkept : (rows.zipIdx.filter fun x => inWin r.dt mw x.1) = K.zipIdx A.length := by
    rw [hsplit, List.append_assoc, List.zipIdx_append, List.filter_append,
      filter_zipIdx_none _ _ _ pA, List.nil_append, Nat.zero_add, List.zipIdx_append,
      List.filter_append, filter_zipIdx_none _ _ _ pB, List.append_nil, filter_zipIdx_all _ _ _ pK]
  have hidx : ((rows.zipIdx.filter fun x => inWin r.dt mw x.1).map Prod.snd) =
      List.range' A.length K.length := by rw [hkept]; simp
  have hlen : 0 < K.length := List.length_pos_of_ne_nil hKne
  have hhead : (List.range' A.length K.length).head? = some A.length := by
    rw [List.head?_range', if_neg (by omega)]
  have hlast : (List.range' A.length K.length).getLast? = some (A.length + K.length - 1) := by
    rw [List.getLast?_range', if_neg (by omega)]
  refine ⟨A.length, by rw [hKr]; exact hKne, ?_, ?_, ?_⟩
  · rw [hKr, hsplit]; simp
  · intro k hk
    rw [hKr] at hk ⊢
    rw [hsplit, List.append_assoc, List.getElem?_append_right (by omega), Nat.add_sub_cancel_left,
      List.getElem?_append_left hk]
  · unfold trim2window at ht
    simp only at ht
    change (match ((rows.zipIdx.filter fun x => inWin r.dt mw x.1).map Prod.snd).head?,
      ((rows.zipIdx.filter fun x => inWin r.dt mw x.1).map Prod.snd).getLast? with
      | some a, some b => (maxRow ((rows.zipIdx.filter fun x => inWin r.dt mw x.1).map Prod.fst)).map
          fun r' => (⟨(rows.zipIdx.filter fun x => inWin r.dt mw x.1).map Prod.fst,
            (map.take b).drop a, r'.dt⟩ : Computed σ)
      | _, _ => none) = some e' at ht
    rw [hidx, hhead, hlast] at ht
    simp only at ht
    obtain ⟨r', -, he'⟩ := Option.map_eq_some_iff.1 ht
    rw [hKr, ← he']

/-! ## Nodes and peaks -/

theorem mem_allNodes {n v : V3 ℕ} : v ∈ allNodes n ↔ ∀ a, v a < n a := by
  constructor
  · intro h
    unfold allNodes at h
    simp only [List.mem_flatMap, List.mem_map, List.mem_range] at h
    obtain ⟨i, hi, j, hj, k, hk, rfl⟩ := h
    intro a
    fin_cases a
    · exact hi
    · exact hj
    · exact hk
  · intro h
    exact List.mem_of_getElem? (allNodes_get h)

theorem map_ravel_allNodes (n : V3 ℕ) :
    (allNodes n).map (ravel n) = List.range (n 0 * n 1 * n 2) := by
  apply List.ext_getElem?
  intro f
  by_cases hf : f < n 0 * n 1 * n 2
  · obtain ⟨ijk, -, h2, h3⟩ := unravel_spec hf
    rw [List.getElem?_map, ← h3, allNodes_get h2, List.getElem?_range (by rw [h3]; exact hf)]
    rfl
  · rw [List.getElem?_eq_none (by rw [List.length_map, allNodes_length]; omega),
      List.getElem?_eq_none (by rw [List.length_range]; omega)]

theorem nodup_allNodes (n : V3 ℕ) : (allNodes n).Nodup := by
  apply List.Nodup.of_map (ravel n)
  rw [map_ravel_allNodes]
  exact List.nodup_range

theorem peak_spec {n : V3 ℕ} {m : Map3} {p : V3 ℕ} (h : peak n m = some p) :
    (∀ a, p a < n a) ∧ ∀ v, (∀ a, v a < n a) → m v ≤ m p := by
  obtain ⟨h1, h2⟩ := firstMaxBy_mem h
  exact ⟨mem_allNodes.1 h1, fun v hv => h2 v (mem_allNodes.2 hv)⟩

theorem peak_isSome {n : V3 ℕ} (hn : ∀ a, 0 < n a) (m : Map3) : ∃ p, peak n m = some p := by
  apply firstMaxBy_isSome
  have : (fun _ => 0 : V3 ℕ) ∈ allNodes n := mem_allNodes.2 hn
  exact List.ne_nil_of_mem this

/-! ## Windows -/

theorem winLo_spec {n i win : ℕ} (hi : i < n) (hw : 1 ≤ win) :
    0 ≤ winLo n i win ∧ winLo n i win ≤ i ∧ (i : ℤ) - ((win : ℤ) - 1) / 2 ≤ winLo n i win ∧
    ∀ v : ℤ, 0 ≤ v → (winLo n i win ≤ v ↔ (i : ℤ) - ((win : ℤ) - 1) / 2 ≤ v) := by
  unfold winLo clip
  refine ⟨by omega, by omega, by omega, fun v hv => by omega⟩

theorem winHi_spec {n i win : ℕ} (hi : i < n) (hw : 1 ≤ win) :
    winHi n i win ≤ n ∧ (i : ℤ) < winHi n i win ∧
    winHi n i win ≤ (i : ℤ) + ((win : ℤ) - 1) / 2 + 1 ∧
    ∀ v : ℤ, v < n → (v < winHi n i win ↔ v ≤ (i : ℤ) + ((win : ℤ) - 1) / 2) := by
  unfold winHi clip
  refine ⟨by omega, by omega, by omega, fun v hv => by omega⟩

theorem rbfData_nodup (m : Map3) (lo : V3 ℤ) (s : ℕ) : ((rbfData m lo s).map Prod.fst).Nodup := by
  unfold rbfData
  rw [List.map_map]
  apply List.Nodup.map _ (nodup_allNodes _)
  intro v w h
  simp only [Function.comp] at h
  have h0 := congrFun h 0
  have h1 := congrFun h 1
  have h2 := congrFun h 2
  simp at h0 h1 h2
  funext a
  fin_cases a
  · exact h1
  · exact h0
  · exact h2

theorem mem_rbfData {m : Map3} {lo : V3 ℤ} {s : ℕ} {v : V3 ℕ} (hv : ∀ a, v a < s) :
    ((![(v 1 : ℚ), (v 0 : ℚ), (v 2 : ℚ)] : V3 ℚ), m (fun a => (lo a).toNat + v a)) ∈
      rbfData m lo s := by
  unfold rbfData
  rw [List.mem_map]
  refine ⟨v, mem_allNodes.2 ?_, rfl⟩
  intro a
  fin_cases a
  · exact hv 0
  · exact hv 1
  · exact hv 2

/-! ## Weighted means -/

theorem sum_weights_bounds {α : Type} (w f : α → ℚ) (lo hi : ℚ) : ∀ (l : List α),
    (∀ a ∈ l, 0 < w a) → (∀ a ∈ l, lo ≤ f a ∧ f a ≤ hi) →
    lo * (l.map w).sum ≤ (l.map fun a => w a * f a).sum ∧
      (l.map fun a => w a * f a).sum ≤ hi * (l.map w).sum
  | [], _, _ => by simp
  | a :: l, hw, hf => by
    obtain ⟨h1, h2⟩ := sum_weights_bounds w f lo hi l (fun b hb => hw b (by simp [hb]))
      (fun b hb => hf b (by simp [hb]))
    have ha := hw a (by simp)
    obtain ⟨h3, h4⟩ := hf a (by simp)
    simp only [List.map_cons, List.sum_cons]
    constructor
    · nlinarith
    · nlinarith

theorem sum_weights_pos {α : Type} (w : α → ℚ) {l : List α} (hl : l ≠ [])
    (hw : ∀ a ∈ l, 0 < w a) : 0 < (l.map w).sum := by
  cases l with
  | nil => exact absurd rfl hl
  | cons a l =>
    have h := (sum_weights_bounds w (fun _ => 1) 0 1 l (fun b hb => hw b (by simp [hb]))
      (fun _ _ => ⟨by norm_num, le_refl _⟩))
    have ha := hw a (by simp)
    have h1 := h.1
    have h2 := h.2
    simp only [List.map_cons, List.sum_cons]
    linarith

theorem mem_above {n : V3 ℕ} {m : Map3} {thresh : ℚ} {v : V3 ℕ} :
    v ∈ above n m thresh ↔ (∀ a, v a < n a) ∧ thresh < m v := by
  unfold above
  rw [List.mem_filter, mem_allNodes]
  simp

theorem wmean_bounds {n : V3 ℕ} {m : Map3} {thresh : ℚ} (ht : 0 ≤ thresh)
    (hne : above n m thresh ≠ []) {f : V3 ℕ → ℚ} {lo hi : ℚ}
    (hf : ∀ v, (∀ a, v a < n a) → thresh < m v → lo ≤ f v ∧ f v ≤ hi) :
    lo ≤ wmean n m thresh f ∧ wmean n m thresh f ≤ hi := by
  have hw : ∀ v ∈ above n m thresh, 0 < m v := fun v hv => lt_of_le_of_lt ht (mem_above.1 hv).2
  have hpos := sum_weights_pos m hne hw
  obtain ⟨h1, h2⟩ := sum_weights_bounds m f lo hi (above n m thresh) hw
    (fun v hv => hf v (mem_above.1 hv).1 (mem_above.1 hv).2)
  unfold wmean
  rw [le_div_iff₀ hpos, div_le_iff₀ hpos]
  exact ⟨h1, h2⟩

theorem wmean_add (n : V3 ℕ) (m : Map3) (thresh : ℚ) (f g : V3 ℕ → ℚ) :
    wmean n m thresh (fun v => f v + g v) = wmean n m thresh f + wmean n m thresh g := by
  unfold wmean
  rw [← add_div]
  congr 1
  rw [← List.sum_map_add]
  congr 1
  apply List.map_congr_left
  intro v _
  ring

theorem wmean_smul (n : V3 ℕ) (m : Map3) (thresh : ℚ) (c : ℚ) (f : V3 ℕ → ℚ) :
    wmean n m thresh (fun v => c * f v) = c * wmean n m thresh f := by
  unfold wmean
  rw [← mul_div_assoc]
  congr 1
  induction above n m thresh with
  | nil => simp
  | cons v l ih =>
    simp only [List.map_cons, List.sum_cons] at ih ⊢
    rw [ih]; ring

end QM.Locate

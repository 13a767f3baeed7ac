import Verif.Spec.Calendar
import Verif.Lemmas.Lists

namespace QM.EventId
open QM QM.Spec

theorem digit_eq_iff (a b : ℕ) : digit a = digit b ↔ a % 10 = b % 10 := by
  constructor
  · intro h
    have ha : a % 10 < 10 := Nat.mod_lt _ (by norm_num)
    have hb : b % 10 < 10 := Nat.mod_lt _ (by norm_num)
    unfold digit at h
    generalize a % 10 = x at *
    generalize b % 10 = y at *
    revert h
    revert x y
    decide
  · intro h; unfold digit; rw [h]

theorem digit_lt_iff (a b : ℕ) : digit a < digit b ↔ a % 10 < b % 10 := by
  have ha : a % 10 < 10 := Nat.mod_lt _ (by norm_num)
  have hb : b % 10 < 10 := Nat.mod_lt _ (by norm_num)
  unfold digit
  generalize a % 10 = x at *
  generalize b % 10 = y at *
  revert x y
  decide

theorem digit_isDigit (n : ℕ) : (digit n).isDigit = true := by
  have ha : n % 10 < 10 := Nat.mod_lt _ (by norm_num)
  unfold digit
  generalize n % 10 = x at *
  revert x
  decide

theorem padDigits_length (w n : ℕ) : (padDigits w n).length = w := by
  induction w generalizing n with
  | zero => rfl
  | succ w ih => simp [padDigits, ih]

theorem padDigits_isDigit (w n : ℕ) : ∀ c ∈ padDigits w n, c.isDigit = true := by
  induction w generalizing n with
  | zero => simp [padDigits]
  | succ w ih =>
    intro c hc
    simp only [padDigits, List.mem_append, List.mem_singleton] at hc
    rcases hc with hc | rfl
    · exact ih _ c hc
    · exact digit_isDigit n

theorem padDigits_append (v w a b : ℕ) (hb : b < 10 ^ w) :
    padDigits v a ++ padDigits w b = padDigits (v + w) (a * 10 ^ w + b) := by
  induction w generalizing b with
  | zero => simp at hb; subst hb; simp [padDigits]
  | succ w ih =>
    rw [padDigits, ← List.append_assoc, ih (b / 10) (by
      rw [pow_succ] at hb; omega)]
    rw [← Nat.add_assoc, padDigits]
    congr 1
    · congr 1
      rw [pow_succ, ← Nat.mul_assoc]
      omega
    · congr 1
      rw [digit_eq_iff, pow_succ, ← Nat.mul_assoc]
      omega

theorem padDigits_take (v w n : ℕ) : (padDigits (v + w) n).take v = padDigits v (n / 10 ^ w) := by
  induction w generalizing n with
  | zero => simp [List.take_of_length_le, padDigits_length]
  | succ w ih =>
    rw [← Nat.add_assoc, padDigits, List.take_append_of_le_length (by rw [padDigits_length]; omega),
      ih, Nat.div_div_eq_div_mul, pow_succ, Nat.mul_comm 10]

theorem lex_append_singleton {l₁ l₂ : List Char} (h : l₁.length = l₂.length) (a b : Char) :
    l₁ ++ [a] < l₂ ++ [b] ↔ l₁ < l₂ ∨ (l₁ = l₂ ∧ a < b) := by
  induction l₁ generalizing l₂ with
  | nil =>
    cases l₂ with
    | nil => simp [List.cons_lt_cons_iff]
    | cons x l => simp at h
  | cons x l ih =>
    cases l₂ with
    | nil => simp at h
    | cons y l' =>
      simp only [List.length_cons, Nat.add_right_cancel_iff] at h
      simp only [List.cons_append, List.cons_lt_cons_iff, ih h, List.cons.injEq]
      tauto

theorem padDigits_lt (w a b : ℕ) (ha : a < 10 ^ w) (hb : b < 10 ^ w) :
    (padDigits w a < padDigits w b ↔ a < b) ∧ (padDigits w a = padDigits w b ↔ a = b) := by
  induction w generalizing a b with
  | zero => simp at ha hb; subst ha hb; simp
  | succ w ih =>
    rw [pow_succ] at ha hb
    obtain ⟨h1, h2⟩ := ih (a / 10) (b / 10) (by omega) (by omega)
    constructor
    · rw [padDigits, padDigits, lex_append_singleton (by rw [padDigits_length, padDigits_length]),
        h1, h2, digit_lt_iff]
      omega
    · rw [padDigits, padDigits]
      constructor
      · intro h
        obtain ⟨e1, e2⟩ := List.append_inj' h rfl
        rw [h2] at e1
        have := (digit_eq_iff a b).mp (by simpa using e2)
        omega
      · intro h; rw [h]

/-- The seconds part of the date as one decimal number YYYYMMDDhhmmss. -/
def secNum (s : Stamp) : ℕ :=
  ((((s.year * 100 + s.month) * 100 + s.day) * 100 + s.hour) * 100 + s.minute) * 100 + s.second

theorem filter_padDigits (w n : ℕ) (c : Char) (hc : c.isDigit = false) :
    (padDigits w n).filter (fun x => decide (x ≠ c)) = padDigits w n := by
  rw [List.filter_eq_self]
  intro x hx
  have := padDigits_isDigit w n x hx
  simp only [decide_eq_true_eq]
  rintro rfl
  rw [this] at hc
  exact absurd hc (by decide)

theorem daysInMonth_le (y m : ℕ) : daysInMonth y m ≤ 31 := by
  unfold daysInMonth; split <;> first | omega | (split <;> omega)

theorem eventId_eq (s : Stamp) (h : ValidStamp s) :
    eventId s = padDigits 17 (secNum s * 1000 + s.micro / 1000) := by
  have hd31 := daysInMonth_le s.year s.month
  have hy := h.year
  have hmo := h.month
  have hd := h.day
  have hh := h.hour
  have hmi := h.minute
  have hs := h.second
  have hu := h.micro
  have hf : ['-', ':', '.', ' ', 'Z', 'T'].foldl (fun l c => l.filter (fun x => x ≠ c)) (str s) =
      padDigits 20 (secNum s * 10 ^ 6 + s.micro) := by
    simp only [List.foldl_cons, List.foldl_nil, str, List.filter_append]
    have key : ∀ w n, (List.filter (fun x => decide (x ≠ 'T')) (List.filter (fun x => decide (x ≠ 'Z'))
        (List.filter (fun x => decide (x ≠ ' ')) (List.filter (fun x => decide (x ≠ '.'))
        (List.filter (fun x => decide (x ≠ ':')) (List.filter (fun x => decide (x ≠ '-'))
          (padDigits w n))))))) = padDigits w n := by
      intro w n
      rw [filter_padDigits w n '-' (by decide), filter_padDigits w n ':' (by decide),
        filter_padDigits w n '.' (by decide), filter_padDigits w n ' ' (by decide),
        filter_padDigits w n 'Z' (by decide), filter_padDigits w n 'T' (by decide)]
    have kc : ∀ c ∈ ['-', 'T', ':', '.', 'Z'], (List.filter (fun x => decide (x ≠ 'T'))
        (List.filter (fun x => decide (x ≠ 'Z'))
        (List.filter (fun x => decide (x ≠ ' ')) (List.filter (fun x => decide (x ≠ '.'))
        (List.filter (fun x => decide (x ≠ ':')) (List.filter (fun x => decide (x ≠ '-'))
          [c])))))) = [] := by decide
    rw [key, key, key, key, key, key, key, kc '-' (by decide), kc 'T' (by decide),
      kc ':' (by decide), kc '.' (by decide), kc 'Z' (by decide)]
    simp only [List.append_nil]
    rw [padDigits_append 4 2 _ _ (by norm_num; omega), padDigits_append (4 + 2) 2 _ _ (by norm_num; omega),
      padDigits_append (4 + 2 + 2) 2 _ _ (by norm_num; omega),
      padDigits_append (4 + 2 + 2 + 2) 2 _ _ (by norm_num; omega),
      padDigits_append (4 + 2 + 2 + 2 + 2) 2 _ _ (by norm_num; omega),
      padDigits_append (4 + 2 + 2 + 2 + 2 + 2) 6 _ _ (by norm_num; omega)]
    have e1 : 4 + 2 + 2 + 2 + 2 + 2 + 6 = 20 := by norm_num
    rw [e1]
    have e2 : (((((s.year * 10 ^ 2 + s.month) * 10 ^ 2 + s.day) * 10 ^ 2 + s.hour) * 10 ^ 2 + s.minute) *
        10 ^ 2 + s.second) * 10 ^ 6 + s.micro = secNum s * 10 ^ 6 + s.micro := by
      unfold secNum; norm_num
    rw [e2]
  unfold eventId
  simp only
  rw [hf, padDigits_take 17 3, padDigits_length]
  simp only [Nat.sub_self, List.replicate_zero, List.append_nil]
  have e3 : (secNum s * 10 ^ 6 + s.micro) / 10 ^ 3 = secNum s * 1000 + s.micro / 1000 := by
    have : secNum s * 10 ^ 6 + s.micro = s.micro + secNum s * 1000 * 10 ^ 3 := by ring
    rw [this, Nat.add_mul_div_right _ _ (by norm_num), Nat.add_comm]
    norm_num
  rw [e3]

theorem secNum_lt (s : Stamp) (h : ValidStamp s) :
    secNum s * 1000 + s.micro / 1000 < 10 ^ 17 := by
  have := h.year
  have := h.month
  have := h.day
  have := h.hour
  have := h.minute
  have := h.second
  have := h.micro
  have := daysInMonth_le s.year s.month
  unfold secNum
  norm_num
  omega

theorem daysBeforeMonth_mono (y m m' : ℕ) (h : m < m') :
    daysBeforeMonth y m + daysInMonth y m ≤ daysBeforeMonth y m' := by
  induction m' with
  | zero => omega
  | succ k ih =>
    rcases Nat.lt_or_ge m k with h1 | h1
    · have := ih h1; rw [daysBeforeMonth]; omega
    · obtain rfl : m = k := by omega
      rw [daysBeforeMonth]

theorem daysBeforeMonth_13 (y : ℕ) : daysBeforeMonth y 13 = if isLeap y then 366 else 365 := by
  simp only [daysBeforeMonth, daysInMonth]
  split <;> rfl

theorem daysBeforeYear_mono (y y' : ℕ) (h : y < y') :
    daysBeforeYear y + (if isLeap y then 366 else 365) ≤ daysBeforeYear y' := by
  induction y' with
  | zero => omega
  | succ k ih =>
    rcases Nat.lt_or_ge y k with h1 | h1
    · have := ih h1; rw [daysBeforeYear]; omega
    · obtain rfl : y = k := by omega
      rw [daysBeforeYear]

/-- Seconds since the calendar's origin. -/
def secsOf (s : Stamp) : ℕ :=
  (((daysBeforeYear s.year + daysBeforeMonth s.year s.month + s.day) * 24 + s.hour) * 60 + s.minute) * 60
    + s.second

theorem microsOf_eq (s : Stamp) : microsOf s = secsOf s * 1000000 + s.micro := by
  unfold microsOf secsOf; ring

theorem secs_lt_of_secNum_lt (s t : Stamp) (hs : ValidStamp s) (ht : ValidStamp t)
    (h : secNum s < secNum t) : secsOf s < secsOf t := by
  have hs1 := hs.month
  have hs2 := hs.day
  have hs3 := hs.hour
  have hs4 := hs.minute
  have hs5 := hs.second
  have hs6 := daysInMonth_le s.year s.month
  have ht1 := ht.month
  have ht2 := ht.day
  have ht3 := ht.hour
  have ht4 := ht.minute
  have ht5 := ht.second
  have ht6 := daysInMonth_le t.year t.month
  unfold secNum at h
  -- day ordinals
  have hord : (s.year = t.year ∧ s.month = t.month ∧ s.day = t.day) ∨
      daysBeforeYear s.year + daysBeforeMonth s.year s.month + s.day <
        daysBeforeYear t.year + daysBeforeMonth t.year t.month + t.day := by
    rcases Nat.lt_trichotomy s.year t.year with hy | hy | hy
    · right
      have a1 := daysBeforeYear_mono _ _ hy
      have a2 := daysBeforeMonth_mono s.year s.month 13 (by omega)
      rw [daysBeforeMonth_13] at a2
      omega
    · rw [hy] at h hs2 hs6 ⊢
      rcases Nat.lt_trichotomy s.month t.month with hm | hm | hm
      · right
        have a2 := daysBeforeMonth_mono t.year _ _ hm
        omega
      · rw [hm] at h ⊢
        rcases Nat.lt_trichotomy s.day t.day with hd | hd | hd
        · right; omega
        · left; exact ⟨rfl, rfl, hd⟩
        · omega
      · omega
    · omega
  unfold secsOf
  rcases hord with ⟨e1, e2, e3⟩ | hlt
  · rw [e1, e2, e3] at h ⊢
    omega
  · generalize daysBeforeYear s.year + daysBeforeMonth s.year s.month + s.day = A at *
    generalize daysBeforeYear t.year + daysBeforeMonth t.year t.month + t.day = B at *
    omega

theorem secNum_eq_fields (s t : Stamp) (hs : ValidStamp s) (ht : ValidStamp t)
    (h : secNum s = secNum t) : secsOf s = secsOf t := by
  have := hs.month
  have := hs.day
  have := hs.hour
  have := hs.minute
  have := hs.second
  have := daysInMonth_le s.year s.month
  have := ht.month
  have := ht.day
  have := ht.hour
  have := ht.minute
  have := ht.second
  have := daysInMonth_le t.year t.month
  unfold secNum at h
  have e1 : s.year = t.year := by omega
  have e2 : s.month = t.month := by omega
  have e3 : s.day = t.day := by omega
  have e4 : s.hour = t.hour := by omega
  have e5 : s.minute = t.minute := by omega
  have e6 : s.second = t.second := by omega
  unfold secsOf
  rw [e1, e2, e3, e4, e5, e6]

theorem idNum_lt_iff (s t : Stamp) (hs : ValidStamp s) (ht : ValidStamp t) :
    (secNum s * 1000 + s.micro / 1000 < secNum t * 1000 + t.micro / 1000 ↔
      microsOf s / 1000 < microsOf t / 1000) ∧
    (secNum s * 1000 + s.micro / 1000 = secNum t * 1000 + t.micro / 1000 ↔
      microsOf s / 1000 = microsOf t / 1000) := by
  have h1 := hs.micro
  have h2 := ht.micro
  rw [microsOf_eq, microsOf_eq]
  have a1 := secs_lt_of_secNum_lt s t hs ht
  have a2 := secs_lt_of_secNum_lt t s ht hs
  have a3 := secNum_eq_fields s t hs ht
  generalize secNum s = x at *
  generalize secNum t = y at *
  generalize secsOf s = X at *
  generalize secsOf t = Y at *
  generalize s.micro = m at *
  generalize t.micro = n at *
  have b : ∀ K r : ℕ, (K * 1000000 + r) / 1000 = K * 1000 + r / 1000 := by
    intro K r
    have : K * 1000000 + r = r + K * 1000 * 1000 := by ring
    rw [this, Nat.add_mul_div_right _ _ (by norm_num), Nat.add_comm]
  have b1 := b X m
  have b2 := b Y n
  rw [b1, b2]
  have c1 : m / 1000 < 1000 := by omega
  have c2 : n / 1000 < 1000 := by omega
  rcases Nat.lt_trichotomy x y with h | h | h
  · have := a1 h; omega
  · have := a3 h; omega
  · have := a2 h; omega

end QM.EventId

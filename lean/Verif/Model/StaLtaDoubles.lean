import Verif.Model.StaLta
import Verif.Model.Doubles

/-!
# The C onset functions in the arithmetic they run in

`overlapping_sta_lta` and `centred_sta_lta` (core/src/onsetlib.c:35-108) with every operation rounded
by `rnd`.  `rnd = id` is exact arithmetic; `rnd = Doubles.fl` is double precision (no contraction of
two operations into one, no overflow or subnormal numbers).
-/

namespace QM.StaLtaD

open QM.StaLta

/-- `sta += signal[i]` (core/src/onsetlib.c:43-45, 88-95). -/
def addAtR (rnd : ℚ → ℚ) (x : List ℚ) (i : ℕ) (s : ℚ) : Option ℚ := (x[i]?).map fun v => rnd (s + v)

/-- `sta += new - old` (core/src/onsetlib.c:50, 54-55, 100-101). -/
def slide (rnd : ℚ → ℚ) (s new old : ℚ) : ℚ := rnd (s + rnd (new - old))

/-- `sta / lta * frac` with `frac = nlta / nsta` (core/src/onsetlib.c:40, 52, 56, 84, 97, 103); `none` if
the divisor is zero. -/
def ratio (rnd : ℚ → ℚ) (nsta nlta : ℕ) (sta lta : ℚ) : Option ℚ :=
  (cdiv sta lta).map fun q => rnd (rnd q * rnd ((nlta : ℚ) / nsta))

/-- Body of the second loop of `overlapping_sta_lta` (core/src/onsetlib.c:47-51). -/
def overFillR (rnd : ℚ → ℚ) (x : List ℚ) (nsta : ℕ) (i : ℕ) (s : ℚ × ℚ) : Option (ℚ × ℚ) :=
  match x[i]?, x[i - nsta]? with
  | some buf, some old => some (slide rnd s.1 buf old, rnd (s.2 + buf))
  | _, _ => none

/-- Body of the main loop of `overlapping_sta_lta` (core/src/onsetlib.c:53-58). -/
def overStepR (rnd : ℚ → ℚ) (x : List ℚ) (nsta nlta : ℕ) (i : ℕ) (s : CSt ℚ) : Option (CSt ℚ) :=
  match x[i]?, x[i - nsta]?, x[i - nlta]? with
  | some buf, some o1, some o2 =>
    let sta := slide rnd s.sta buf o1
    let lta := slide rnd s.lta buf o2
    match write x.length s.onset i (ratio rnd nsta nlta sta lta) with
    | none => none
    | some f => some ⟨sta, lta, f⟩
  | _, _, _ => none

/-- `overlapping_sta_lta` (core/src/onsetlib.c:35-59). -/
def overlappingR (rnd : ℚ → ℚ) (x : List ℚ) (nsta nlta : ℕ) : Option (List (Option ℚ)) :=
  match forLoop 0 nsta (addAtR rnd x) 0 with
  | none => none
  | some sta =>
    match forLoop nsta nlta (overFillR rnd x nsta) (sta, sta) with
    | none => none
    | some (sta, lta) =>
      match write x.length ones (nlta - 1) (ratio rnd nsta nlta sta lta) with
      | none => none
      | some f =>
        match forLoop nlta x.length (overStepR rnd x nsta nlta) ⟨sta, lta, f⟩ with
        | none => none
        | some s => some ((List.range x.length).map s.onset)

/-- Body of the main loop of `centred_sta_lta` (core/src/onsetlib.c:99-107). -/
def centStepR (rnd : ℚ → ℚ) (x : List ℚ) (nsta nlta : ℕ) (i : ℕ) (s : CSt ℚ) : Option (CSt ℚ) :=
  match x[i + nsta]?, x[i]?, x[i - nlta]? with
  | some a, some b, some c =>
    let sta := slide rnd s.sta a b
    let lta := slide rnd s.lta b c
    match write x.length s.onset i (if 0 < lta then ratio rnd nsta nlta sta lta else some 1) with
    | none => none
    | some f => some ⟨sta, lta, f⟩
  | _, _, _ => none

/-- `centred_sta_lta` (core/src/onsetlib.c:79-108). -/
def centredR (rnd : ℚ → ℚ) (x : List ℚ) (nsta nlta : ℕ) : Option (List (Option ℚ)) :=
  match forLoop 0 nlta (addAtR rnd x) 0 with
  | none => none
  | some lta =>
    match forLoop nlta (nlta + nsta) (addAtR rnd x) 0 with
    | none => none
    | some sta =>
      match write x.length ones (nlta - 1) (ratio rnd nsta nlta sta lta) with
      | none => none
      | some f =>
        match forLoop nlta (x.length - nsta) (centStepR rnd x nsta nlta) ⟨sta, lta, f⟩ with
        | none => none
        | some s => some ((List.range x.length).map s.onset)

end QM.StaLtaD

import Verif.Py
import Verif.Model.Pads
import Mathlib.Algebra.Order.Field.Basic

/-!
# Model of the STA/LTA onset functions

`core/src/onsetlib.c` with its wrappers in `core/lib.py:172-285`, the Python
backends `signal/onsets/stalta.py:25-134`, and `_onset` / `_trim_taper_pad`
(`signal/onsets/stalta.py:491-584`).

Doubles are elements of a linearly ordered field.  A quotient by zero is `none`
(NaN or inf).  An array access out of bounds in C makes the whole call `none`.
-/

namespace QM.StaLta

variable {K : Type} [Field K] [LinearOrder K]

/-- `a / b` in C doubles; `none` = not a finite number.  Stands for C division in
core/src/onsetlib.c:52-57, 98-103. -/
def cdiv (a b : K) : Option K := if b = 0 then none else some (a / b)

/-- Accumulators and output array of a C loop.  Stands for locals of core/src/onsetlib.c:39-41,
83-85, 130-133. -/
structure CSt (K : Type) where
  sta : K
  lta : K
  onset : ℕ → Option K

/-- `onset[i] = v` with bounds check.  Stands for array write in core/src/onsetlib.c:52-57, 98-105,
139-145. -/
def write (n : ℕ) (f : ℕ → Option K) (i : ℕ) (v : Option K) : Option (ℕ → Option K) :=
  if i < n then some (Function.update f i v) else none

/-- `np.ones(len(signal))` (lib.py:204, 242). -/
def ones : ℕ → Option K := fun _ => some 1

/-- `for (i = lo; i < hi; ++i)` with a body that may fault.  Stands for the `for` loops of
core/src/onsetlib.c:43-57, 88-106. -/
def forLoop {S : Type} (lo hi : ℕ) (body : ℕ → S → Option S) (s : S) : Option S :=
  (List.range' lo (hi - lo)).foldlM (fun s i => body i s) s

/-- `frac = nlta / nsta`.  Models core/src/onsetlib.c:40, 84. -/
def frac (nsta nlta : ℕ) : K := (nlta : K) / (nsta : K)

/-- `sta += signal[i]` / `lta += signal[i]`.  Models core/src/onsetlib.c:43-50, 88-95. -/
def addAt (x : List K) (i : ℕ) (s : K) : Option K := (x[i]?).map (fun v => s + v)

/-- Body of the second loop of `overlapping_sta_lta` (onsetlib.c:47-51). -/
def overFill (x : List K) (nsta : ℕ) (i : ℕ) (s : K × K) : Option (K × K) :=
  match x[i]?, x[i - nsta]? with
  | some buf, some old => some (s.1 + (buf - old), s.2 + buf)
  | _, _ => none

/-- Body of the main loop of `overlapping_sta_lta` (onsetlib.c:53-58). -/
def overStep (x : List K) (nsta nlta : ℕ) (i : ℕ) (s : CSt K) : Option (CSt K) :=
  match x[i]?, x[i - nsta]?, x[i - nlta]? with
  | some buf, some o1, some o2 =>
    let sta := s.sta + (buf - o1)
    let lta := s.lta + (buf - o2)
    match write x.length s.onset i ((cdiv sta lta).map (· * frac nsta nlta)) with
    | none => none
    | some f => some ⟨sta, lta, f⟩
  | _, _, _ => none

/-- `overlapping_sta_lta` (onsetlib.c:35-59 with lib.py:176-208); requires
`1 ≤ nsta`, `1 ≤ nlta` (the caller adds 1 to both, stalta.py:394-396). -/
def overlappingC (x : List K) (nsta nlta : ℕ) : Option (List (Option K)) :=
  match forLoop 0 nsta (addAt x) 0 with
  | none => none
  | some sta =>
    match forLoop nsta nlta (overFill x nsta) (sta, sta) with
    | none => none
    | some (sta, lta) =>
      match write x.length ones (nlta - 1) ((cdiv sta lta).map (· * frac nsta nlta)) with
      | none => none
      | some f =>
        match forLoop nlta x.length (overStep x nsta nlta) ⟨sta, lta, f⟩ with
        | none => none
        | some s => some ((List.range x.length).map s.onset)

/-- Body of the main loop of `centred_sta_lta` (onsetlib.c:99-107). -/
def centStep (x : List K) (nsta nlta : ℕ) (i : ℕ) (s : CSt K) : Option (CSt K) :=
  match x[i + nsta]?, x[i]?, x[i - nlta]? with
  | some a, some b, some c =>
    let sta := s.sta + (a - b)
    let lta := s.lta + (b - c)
    match write x.length s.onset i
        (if 0 < lta then (cdiv sta lta).map (· * frac nsta nlta) else some 1) with
    | none => none
    | some f => some ⟨sta, lta, f⟩
  | _, _, _ => none

/-- `centred_sta_lta` (onsetlib.c:79-108 with lib.py:214-246). -/
def centredC (x : List K) (nsta nlta : ℕ) : Option (List (Option K)) :=
  match forLoop 0 nlta (addAt x) 0 with
  | none => none
  | some lta =>
    match forLoop nlta (nlta + nsta) (addAt x) 0 with
    | none => none
    | some sta =>
      match write x.length ones (nlta - 1) ((cdiv sta lta).map (· * frac nsta nlta)) with
      | none => none
      | some f =>
        match forLoop nlta (x.length - nsta) (centStep x nsta nlta) ⟨sta, lta, f⟩ with
        | none => none
        | some s => some ((List.range x.length).map s.onset)

/-- Body of the loop of `recursive_sta_lta` (onsetlib.c:134-139). -/
def recStep (x : List K) (nsta nlta : ℕ) (i : ℕ) (s : CSt K) : Option (CSt K) :=
  match x[i]? with
  | none => none
  | some buf =>
    let csta : K := 1 / (nsta : K)
    let clta : K := 1 / (nlta : K)
    let sta := csta * buf + (1 - csta) * s.sta
    let lta := clta * buf + (1 - clta) * s.lta
    match write x.length s.onset i (cdiv sta lta) with
    | none => none
    | some f => some ⟨sta, lta, f⟩

/-- `recursive_sta_lta` (onsetlib.c:126-148 with lib.py:252-285, which pre-fills
with zeros). -/
def recursiveC (x : List K) (nsta nlta : ℕ) : Option (List (Option K)) :=
  match forLoop 1 x.length (recStep x nsta nlta) ⟨0, 0, fun _ => some 0⟩ with
  | none => none
  | some s =>
    some ((List.range x.length).map
      (fun i => if nlta < x.length ∧ i < nlta then some 1 else s.onset i))

/-! ## Python backends -/

/-- `np.cumsum` (stalta.py:50, 109), starting from `acc`. -/
def cumsumFrom (acc : K) : List K → List K
  | [] => []
  | v :: l => (acc + v) :: cumsumFrom (acc + v) l

/-- `a[k:] = a[k:] - a[:-k]` for `k ≥ 1` (stalta.py:59, 63, 118, 120); the right-hand
side is computed before the assignment. -/
def diffFrom (k : ℕ) (a : List K) : List K :=
  a.take k ++ List.zipWith (· - ·) (a.drop k) (a.take (a.length - k))

/-- `sta[nsta:-nsta] = sta[nsta*2:]` (stalta.py:60). -/
def shiftLeft (k : ℕ) (a : List K) : List K :=
  a.take k ++ a.drop (k * 2) ++ a.drop (max k (a.length - k))

/-- `a[:k] = 1.0` (stalta.py:67-68, 124-125, 581). -/
def onesTo (k : ℕ) (a : List K) : List K := List.replicate (min k a.length) 1 ++ a.drop k

/-- `a[-k:] = 1.0` for `k ≥ 1` (stalta.py:69-70, 582). -/
def onesLast (k : ℕ) (a : List K) : List K :=
  a.take (a.length - k) ++ List.replicate (min k a.length) 1

/-- The end of both Python functions (stalta.py:72-79, 127-134): where `lta < tiny`
both become `tiny`; then the ratio. -/
def safeRatio (tiny : K) (sta lta : List K) : List K :=
  List.zipWith (fun s l => if l < tiny then tiny / tiny else s / l) sta lta

/-- `overlapping_sta_lta_py` (stalta.py:82-134). -/
def overlappingPy (tiny : K) (x : List K) (nsta nlta : ℕ) : List K :=
  let c := cumsumFrom 0 x
  let sta := (diffFrom nsta c).map (· / (nsta : K))
  let lta := (diffFrom nlta c).map (· / (nlta : K))
  safeRatio tiny (onesTo (nlta - 1) sta) (onesTo (nlta - 1) lta)

/-- `centred_sta_lta_py` (stalta.py:25-79). -/
def centredPy (tiny : K) (x : List K) (nsta nlta : ℕ) : List K :=
  let c := cumsumFrom 0 x
  let sta := (shiftLeft nsta (diffFrom nsta c)).map (· / (nsta : K))
  let lta := (diffFrom nlta c).map (· / (nlta : K))
  safeRatio tiny (onesLast nsta (onesTo (nlta - 1) sta)) (onesLast nsta (onesTo (nlta - 1) lta))

/-! ## `_onset` -/

/-- `signal_transform` (stalta.py:516-523). For the envelope the modulus of the
analytic signal (`np.abs(hilbert(x))`) is a parameter. -/
inductive Transform (K : Type) where
  | energy
  | abs
  | env (modulus : List K → List K)
  | envSquared (modulus : List K → List K)

/-- Models signal/onsets/stalta.py:516-523. -/
def Transform.apply : Transform K → List K → List K
  | .energy, x => x.map (fun v => v ^ 2)
  | .abs, x => x.map (fun v => if v < 0 then -v else v)
  | .env m, x => m x
  | .envSquared m, x => (m x).map (fun v => v ^ 2)

/-- `position` (stalta.py:525-534), C backend. -/
inductive Position where
  | classic
  | centred
deriving DecidableEq

/-- Models signal/onsets/stalta.py:525-534. -/
def onsetC (pos : Position) (x : List K) (stw ltw : ℕ) : Option (List (Option K)) :=
  match pos with
  | .classic => overlappingC x stw ltw
  | .centred => centredC x stw ltw

/-- `_trim_taper_pad` on one component (stalta.py:575-584):
`onset[:(taper_pad + ltw - 1)] = 1`, `onset[-(stw + taper_pad):] = 1`. -/
def trimTaperPad (taper stw ltw : ℕ) (onset : List K) : List K :=
  onesLast (stw + taper) (onesTo (taper + ltw - 1) onset)

/-- `taper_pad` (stalta.py:575-578) for a timespan. -/
def taperPad (pre post sr timespan : ℚ) : ℤ :=
  Pads.time2sample ((Pads.pad pre post sr timespan).1 - pre) sr

end QM.StaLta

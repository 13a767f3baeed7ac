import Verif.Model.GauFit
import Mathlib.Data.Fintype.BigOperators
import Mathlib.Analysis.SpecialFunctions.Exp

/-!
# Model of the smoothing of the 3-D map: `QuakeScan._gaufilt3d` (signal/scan.py:1008-1043)

Floats are idealised as reals; maps without NaN.  `scipy.signal.fftconvolve` is the convolution it computes.
-/

namespace QM.GauFilt

open QM.Grid QM.GauFit

/-- All nodes of a grid (signal/scan.py:1032). -/
def nodes (n : V3 ℕ) : Finset (V3 ℕ) := Fintype.piFinset fun a => Finset.range (n a)

/-- `np.linspace(-n2, n2, n)` for `n2 = (n - 1) / 2` (util.py:98-103). -/
noncomputable def coord (n k : ℕ) : ℝ := -(((n : ℝ) - 1) / 2) + k

/-- `gaussian_3d` (util.py:98-114). -/
noncomputable def gaussian3d (n : V3 ℕ) (s : V3 ℝ) (k : V3 ℕ) : ℝ :=
  Real.exp (-(coord (n 0) (k 0) * coord (n 0) (k 0)) / (2 * s 0 * s 0)
    - (coord (n 1) (k 1) * coord (n 1) (k 1)) / (2 * s 1 * s 1)
    - (coord (n 2) (k 2) * coord (n 2) (k 2)) / (2 * s 2 * s 2))

/-- `fftconvolve(m, flt, mode="same")` for two arrays of the same shape (signal/scan.py:1036, 1039): of the
full convolution, with `2 * n - 1` values along an axis, the `n` from `(n - 1) // 2` on. -/
noncomputable def convSame (n : V3 ℕ) (m flt : MapR) : MapR := fun i =>
  ∑ j ∈ nodes n, if ∀ a, j a ≤ i a + (n a - 1) / 2 ∧ i a + (n a - 1) / 2 - j a < n a then
    m j * flt (fun a => i a + (n a - 1) / 2 - j a) else 0

/-- `m[::-1, ::-1, ::-1]` (signal/scan.py:1038, 1041). -/
def mirror (n : V3 ℕ) (m : MapR) : MapR := fun v => m fun a => n a - 1 - v a

open Classical in
/-- `np.nanmax` (signal/scan.py:1038, 1041). -/
noncomputable def nanmax (n : V3 ℕ) (m : MapR) : ℝ :=
  if h : (nodes n).Nonempty then (nodes n).sup' h m else 0

/-- `_gaufilt3d(map3d, sgm)` (signal/scan.py:1030-1043). -/
noncomputable def gaufilt (n : V3 ℕ) (s : V3 ℝ) (m : MapR) : MapR :=
  let flt := gaussian3d n s
  let m1 := convSame n m flt
  let m2 := fun v => mirror n m1 v / nanmax n m1
  let m3 := convSame n m2 flt
  fun v => mirror n m3 v / nanmax n m3

/-- The call in `_calculate_location` (signal/scan.py:727): `sgm = 0.8` along each axis (signal/scan.py:1008,
util.py:106-108). -/
noncomputable def smoothed (n : V3 ℕ) (m : MapR) : MapR := gaufilt n (fun _ => 8 / 10) m

end QM.GauFilt

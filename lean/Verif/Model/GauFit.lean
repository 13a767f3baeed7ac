import Verif.Model.Locate
import Mathlib.Analysis.SpecialFunctions.Log.Basic
import Mathlib.Analysis.SpecialFunctions.Pow.Real
import Mathlib.Analysis.Real.Sqrt
import Mathlib.LinearAlgebra.Matrix.NonsingularInverse
import Mathlib.LinearAlgebra.Matrix.Charpoly.Basic

/-!
# Model of the Gaussian fit: `QuakeScan._gaufit3d` (signal/scan.py:843-936)

Floats are idealised as reals; maps without NaN.  The pseudo-inverse and the eigenvalue routine of
numpy are parameters.  The conversion of the location to coordinates is left out: locations are in
nodes.
-/

namespace QM.GauFit

open QM.Grid QM.Locate Matrix

/-- A 3-D map of reals (signal/scan.py:871). -/
abbrev MapR := V3 ℕ → ℝ

/-- The library routines: `np.linalg.pinv` (signal/scan.py:892) and the eigenvalues of
`np.linalg.eig` (signal/scan.py:923). -/
structure Lib where
  pinv : ∀ n : ℕ, Matrix (Fin 10) (Fin n) ℝ → Matrix (Fin n) (Fin 10) ℝ
  eig : Matrix (Fin 3) (Fin 3) ℝ → V3 ℝ

open Classical in
/-- `np.unravel_index(np.nanargmax(m), m.shape)`: the first maximum in C order
(signal/scan.py:871-872). -/
noncomputable def peak (n : V3 ℕ) (m : MapR) : Option (V3 ℕ) :=
  match allNodes n with
  | [] => none
  | a :: l => some (l.foldl (fun best b => if m best < m b then b else best) a)

open Classical in
/-- The nodes of the fit, above the threshold and in the window (signal/scan.py:874-877). -/
noncomputable def flagged (n : V3 ℕ) (m : MapR) (thresh : ℝ) (win : ℕ) (i : V3 ℕ) : List (V3 ℕ) :=
  (allNodes n).filter fun v => thresh < m v ∧ mask n i win v

/-- `np.nanmean(coa_map)` (signal/scan.py:881). -/
noncomputable def mean (n : V3 ℕ) (m : MapR) : ℝ := ((allNodes n).map m).sum / (allNodes n).length

/-- Position of a node relative to the maximum (signal/scan.py:886). -/
def rel (i v : V3 ℕ) : V3 ℝ := fun a => (v a : ℝ) - (i a : ℝ)

/-- The ten functions fitted (signal/scan.py:888). -/
def terms (d : V3 ℝ) : Fin 10 → ℝ :=
  ![d 0 * d 0, d 1 * d 1, d 2 * d 2, d 0 * d 1, d 0 * d 2, d 1 * d 2, d 0, d 1, d 2, 1]

/-- `np.clip(x, 1e-300, inf)` (signal/scan.py:889). -/
noncomputable def clipPos (x : ℝ) : ℝ := max x (10 ^ (-300 : ℤ))

/-- The matrix `X` (signal/scan.py:888). -/
def design (i : V3 ℕ) (l : List (V3 ℕ)) : Matrix (Fin 10) (Fin l.length) ℝ :=
  fun t k => terms (rel i (l.get k)) t

/-- The right-hand side `Y` (signal/scan.py:889). -/
noncomputable def rhs (n : V3 ℕ) (m : MapR) (l : List (V3 ℕ)) : Fin l.length → ℝ :=
  fun k => - Real.log (clipPos (m (l.get k) - mean n m))

/-- `np.matmul(Y, pinv(X))` (signal/scan.py:892-893). -/
noncomputable def params (lib : Lib) (n : V3 ℕ) (m : MapR) (i : V3 ℕ) (l : List (V3 ℕ)) : Fin 10 → ℝ :=
  vecMul (rhs n m l) (lib.pinv l.length (design i l))

/-- The matrix `G` (signal/scan.py:894-896). -/
def matG (P : Fin 10 → ℝ) : Matrix (Fin 3) (Fin 3) ℝ :=
  - !![2 * P 0, P 3, P 4; P 3, 2 * P 1, P 5; P 4, P 5, 2 * P 2]

/-- The vector `H` (signal/scan.py:897). -/
def vecH (P : Fin 10 → ℝ) : V3 ℝ := ![P 6, P 7, P 8]

/-- The matrix `M` (signal/scan.py:910-922). -/
noncomputable def matM (P : Fin 10 → ℝ) : Matrix (Fin 3) (Fin 3) ℝ :=
  !![P 0, P 3 / 2, P 4 / 2; P 3 / 2, P 1, P 5 / 2; P 4 / 2, P 5 / 2, P 2]

/-- `np.sqrt(0.5 / np.clip(np.abs(egv), 1e-10, inf)) / 2` (signal/scan.py:924). -/
noncomputable def sgm (e : ℝ) : ℝ := Real.sqrt (0.5 / max |e| (10 ^ (-10 : ℤ))) / 2

/-- `_gaufit3d(coa_map, thresh, win)` (signal/scan.py:843-936): location in nodes, and uncertainty.
`none` = an empty map (ValueError) or a singular matrix (LinAlgError, signal/scan.py:898).  `K`,
`val`, `vec` and `csgm`, computed at signal/scan.py:901-926, are not returned by the code. -/
noncomputable def gaufit (lib : Lib) (spacing : V3 ℝ) (n : V3 ℕ) (m : MapR) (thresh : ℝ) (win : ℕ) :
    Option (V3 ℝ × V3 ℝ) :=
  match peak n m with
  | none => none
  | some i =>
    let P := params lib n m i (flagged n m thresh win i)
    open Classical in
    if (matG P).det = 0 then none
    else
      let loc := (matG P)⁻¹ *ᵥ vecH P
      some (fun a => loc a + (i a : ℝ), fun a => sgm (lib.eig (matM P) a) * spacing a)

end QM.GauFit

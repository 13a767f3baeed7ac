import Verif.Model.Doubles
import Verif.Model.ScanMseed

/-!
# The numbers of a .scanmseed file in doubles

`Verif/Model/ScanMseed.lean` scales with rationals; here each multiplication and division is rounded, as
in the code.  `1e3 * ucf` is exact for grids in metres and kilometres (`ucf` 1 and 1000).
-/

namespace QM.Doubles

open QM.ScanMseed

/-- `_data2int` (io/scanmseed.py:222-240): `np.round(data * factor).astype(np.int32)`. -/
def data2int (v factor : ℚ) : ℤ := toInt32 (pyRound (fl (v * factor)))

/-- The five channels written by `append` (io/scanmseed.py:102-130); the sample holds doubles. -/
def encode (ucf : ℚ) (s : Sample) : Enc :=
  { coa := data2int (clip s.coa) 100000, coaN := data2int (clip s.coaN) 100000,
    x := data2int s.x 1000000, y := data2int s.y 1000000, z := data2int s.z (fl (1000 * ucf)) }

/-- The inverse scaling in `read_scanmseed` (io/scanmseed.py:304-310). -/
def decode (ucf : ℚ) (e : Enc) : Sample :=
  { coa := fl (e.coa / 100000), coaN := fl (e.coaN / 100000),
    x := fl (e.x / 1000000), y := fl (e.y / 1000000), z := fl (e.z / fl (1000 * ucf)) }

end QM.Doubles

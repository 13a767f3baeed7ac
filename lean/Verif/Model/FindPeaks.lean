import Verif.Model.Amplitude

/-!
# Model of the peak search behind the amplitude measurements

`scipy.signal.find_peaks(x, prominence=p)` as called in amplitude.py:858-860: local maxima
(plateaus are represented by their middle), filtered by prominence.  A signal is a function of the
sample number; `n` is the number of samples.
-/

namespace QM.FindPeaks

open QM.Amplitude (Err Meas peakToTrough)

/-- The inner loop of scipy's `_local_maxima_1d`: the first sample after the plateau that begins at
`i`, at most `imax`.  Stands for scipy, called at signal/local_mag/amplitude.py:858-860. -/
def ahead (x : ℕ → ℚ) (imax i : ℕ) : ℕ → ℕ → ℕ
  | 0, j => j
  | f + 1, j => if j < imax ∧ x j = x i then ahead x imax i f (j + 1) else j

/-- scipy's `_local_maxima_1d`: first and last sample of each plateau that is a local maximum.
`imax` is the last sample.  Stands for scipy, called at signal/local_mag/amplitude.py:858-860. -/
def maximaFrom (x : ℕ → ℚ) (imax : ℕ) : ℕ → ℕ → List (ℕ × ℕ)
  | 0, _ => []
  | f + 1, i =>
    if i < imax then
      if x (i - 1) < x i then
        let a := ahead x imax i imax (i + 1)
        if x a < x i then (i, a - 1) :: maximaFrom x imax f (a + 1)
        else maximaFrom x imax f (i + 1)
      else maximaFrom x imax f (i + 1)
    else []

/-- The plateaus of all local maxima, and the sample taken for a plateau.  Stands for scipy, called
at signal/local_mag/amplitude.py:858-860. -/
def maxima (x : ℕ → ℚ) (n : ℕ) : List (ℕ × ℕ) := maximaFrom x (n - 1) n 1

/-- Stands for scipy, called at signal/local_mag/amplitude.py:858-860. -/
def mid (p : ℕ × ℕ) : ℕ := (p.1 + p.2) / 2

/-- Lowest value met going left from `i` as long as the signal is at most `h`
(scipy's `_peak_prominences`, `wlen` not given); `m` is the lowest so far.  Stands for scipy,
called at signal/local_mag/amplitude.py:858-860. -/
def leftMin (x : ℕ → ℚ) (h : ℚ) : ℕ → ℚ → ℚ
  | 0, m => if x 0 ≤ h then (if x 0 < m then x 0 else m) else m
  | i + 1, m =>
    if x (i + 1) ≤ h then leftMin x h i (if x (i + 1) < m then x (i + 1) else m) else m

/-- The same going right; the first argument counts the samples left.  Stands for scipy, called at
signal/local_mag/amplitude.py:858-860. -/
def rightMin (x : ℕ → ℚ) (h : ℚ) : ℕ → ℕ → ℚ → ℚ
  | 0, _, m => m
  | f + 1, i, m =>
    if x i ≤ h then rightMin x h f (i + 1) (if x i < m then x i else m) else m

/-- Prominence of a peak.  Stands for scipy, called at signal/local_mag/amplitude.py:858-860. -/
def prominence (x : ℕ → ℚ) (n p : ℕ) : ℚ :=
  let l := leftMin x (x p) p (x p)
  let r := rightMin x (x p) (n - p) p (x p)
  x p - (if l < r then r else l)

/-- `scipy.signal.find_peaks(x, prominence=pmin)[0]`.  Stands for scipy, called at
signal/local_mag/amplitude.py:858-860. -/
def findPeaks (x : ℕ → ℚ) (n : ℕ) (pmin : ℚ) : List ℕ :=
  ((maxima x n).map mid).filter fun p => pmin ≤ prominence x n p

/-- `np.max(np.abs(trace.data))`.  Models signal/local_mag/amplitude.py:858. -/
def maxAbs (data : List ℚ) : ℚ := data.foldl (fun m v => if m < |v| then |v| else m) 0

/-- `_peak_to_trough_amplitude` (amplitude.py:821-914) of a window of data (amplitude.py:858-860 for
the peaks and troughs). -/
def windowAmplitude (mult : ℚ) (data : List ℚ) (delta start : ℚ) : Except Err Meas :=
  let x := fun i => data.getD i 0
  let pmin := mult * maxAbs data
  peakToTrough x delta start (findPeaks x data.length pmin)
    (findPeaks (fun i => - x i) data.length pmin)

end QM.FindPeaks

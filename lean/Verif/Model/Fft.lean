import Mathlib.Analysis.SpecialFunctions.Trigonometric.Basic
import Verif.Model.PureLoop
import Verif.Model.Fourier
import Verif.Model.Cheb
import Verif.Model.FiniteDiff
import Verif.Model.Matrices
import Verif.Model.Utilities

/-!
# Fast Fourier transforms without FFTW

`src/utility/Spectral/FFTs_for_sgrid.c:39-375`. Doubles are real numbers, `PI` and `twoPI` are π and 2π. The
functions `numrec_...` get pointers to the element before the first one: their arrays start at 1 and the first
entry of an array `c` is `data[1]`. Different arguments are different arrays. `unsigned long` does not overflow.
-/

namespace Sgrid
open Real

/-- `SWAP(data[j],data[i])` (`src/utility/Spectral/FFTs_for_sgrid.c:156`). -/
def swapAt (data : Nat → ℝ) (j i : Nat) : Nat → ℝ := aset (aset data j (data i)) i (data j)

/-- The loop `while(m >= 2 && j > m)` and `j += m` (`src/utility/Spectral/FFTs_for_sgrid.c:172-178`). -/
def revInc (j m : Nat) : Nat := if 2 ≤ m ∧ m < j then revInc (j - m) (m / 2) else j + m
  termination_by m
  decreasing_by omega

/-- One pass of the loop over `i = 2t+1` that sorts the data
(`src/utility/Spectral/FFTs_for_sgrid.c:165-179`); the state is `(data, j)`. -/
def sortPass (n t : Nat) (s : (Nat → ℝ) × Nat) : (Nat → ℝ) × Nat :=
  let i := 2 * t + 1
  (if s.2 > i then swapAt (swapAt s.1 s.2 i) (s.2 + 1) (i + 1) else s.1, revInc s.2 (n / 2))

/-- The sorting (`src/utility/Spectral/FFTs_for_sgrid.c:164-179`); `n` is even. -/
def sortData (n : Nat) (data : Nat → ℝ) : Nat → ℝ := (upLoop 0 (n / 2) (sortPass n) (data, 1)).1

/-- The body of the loop over `i` (`src/utility/Spectral/FFTs_for_sgrid.c:196-202`). -/
def butterfly (mmax : Nat) (wRe wIm : ℝ) (i : Nat) (data : Nat → ℝ) : Nat → ℝ :=
  let j := i + mmax
  let tmpRe := wRe * data j - wIm * data (j + 1)
  let tmpIm := wRe * data (j + 1) + wIm * data j
  let data := aset data j (data i - tmpRe)
  let data := aset data (j + 1) (data (i + 1) - tmpIm)
  let data := aset data i (data i + tmpRe)
  aset data (i + 1) (data (i + 1) + tmpIm)

/-- `for(i=lo; i<=hi; i+=step)`. -/
def strideLoop {σ : Type} (lo hi step : Nat) (body : Nat → σ → σ) (s : σ) : σ :=
  upLoop 0 ((hi + step - lo) / step) (fun q => body (lo + q * step)) s

/-- One step of the recurrence for cosines and sines (e.g. `src/utility/Spectral/FFTs_for_sgrid.c:204-206`). -/
def turn (wp w : ℝ × ℝ) : ℝ × ℝ :=
  (w.1 * wp.1 - w.2 * wp.2 + w.1, w.2 * wp.1 + w.1 * wp.2 + w.2)

/-- `wpRe` and `wpIm` (e.g. `src/utility/Spectral/FFTs_for_sgrid.c:187-189`). -/
noncomputable def turnBy (theta : ℝ) : ℝ × ℝ := (-2 * sin (1 / 2 * theta) * sin (1 / 2 * theta), sin theta)

/-- One pass of the loop over `m = 2t+1` (`src/utility/Spectral/FFTs_for_sgrid.c:192-207`); the state is
`(data, w)`. -/
def dlPass (n mmax : Nat) (wp : ℝ × ℝ) (t : Nat) (s : (Nat → ℝ) × ℝ × ℝ) : (Nat → ℝ) × ℝ × ℝ :=
  (strideLoop (2 * t + 1) n (2 * mmax) (butterfly mmax s.2.1 s.2.2) s.1, turn wp s.2)

/-- The body of the loop `while(n > mmax)` (`src/utility/Spectral/FFTs_for_sgrid.c:185-208`). -/
noncomputable def dlStage (isign : Int) (n mmax : Nat) (data : Nat → ℝ) : Nat → ℝ :=
  (upLoop 0 (mmax / 2) (dlPass n mmax (turnBy (isign * (2 * π / mmax)))) (data, 1, 0)).1

/-- The loop `while(n > mmax)` (`src/utility/Spectral/FFTs_for_sgrid.c:182-209`); `mmax` is never 0. -/
noncomputable def dlStages (isign : Int) (n mmax : Nat) (data : Nat → ℝ) : Nat → ℝ :=
  if n > mmax ∧ 0 < mmax then dlStages isign n (2 * mmax) (dlStage isign n mmax data) else data
  termination_by n - mmax
  decreasing_by omega

/-- `numrec_four1` (`src/utility/Spectral/FFTs_for_sgrid.c:157-210`). -/
noncomputable def four1 (data : Nat → ℝ) (nn : Nat) (isign : Int) : Nat → ℝ :=
  dlStages isign (2 * nn) 2 (sortData (2 * nn) data)

/-- The body of the loop in `numrec_realft` (`src/utility/Spectral/FFTs_for_sgrid.c:241-252`); the state is
`(data, w)`. -/
noncomputable def realPass (n : Nat) (c2 : ℝ) (wp : ℝ × ℝ) (i : Nat) (s : (Nat → ℝ) × ℝ × ℝ) :
    (Nat → ℝ) × ℝ × ℝ :=
  let data := s.1
  let wRe := s.2.1
  let wIm := s.2.2
  let i1 := i + i - 1
  let i2 := 1 + i1
  let i3 := n + 3 - i2
  let i4 := 1 + i3
  let h1Re := 1 / 2 * (data i1 + data i3)
  let h1Im := 1 / 2 * (data i2 - data i4)
  let h2Re := -c2 * (data i2 + data i4)
  let h2Im := c2 * (data i1 - data i3)
  let data := aset data i1 (h1Re + wRe * h2Re - wIm * h2Im)
  let data := aset data i2 (h1Im + wRe * h2Im + wIm * h2Re)
  let data := aset data i3 (h1Re - wRe * h2Re + wIm * h2Im)
  let data := aset data i4 (-h1Im + wRe * h2Im + wIm * h2Re)
  (data, turn wp s.2)

/-- `numrec_realft` (`src/utility/Spectral/FFTs_for_sgrid.c:214-265`). For `n < 2` the angle is not a number in C,
it is not used then. -/
noncomputable def realft (data : Nat → ℝ) (n : Nat) (isign : Int) : Nat → ℝ :=
  let theta := π / (n / 2 : Nat)
  let c2 : ℝ := if isign = 1 then -(1 / 2) else 1 / 2
  let data := if isign = 1 then four1 data (n / 2) 1 else data
  let theta := if isign = 1 then theta else -theta
  let wp := turnBy theta
  let data := (upLoop 2 (n / 4 + 1) (realPass n c2 wp) (data, 1 + wp.1, wp.2)).1
  if isign = 1 then
    let h1Re := data 1
    let data := aset data 1 (h1Re + data 2)
    aset data 2 (h1Re - data 2)
  else
    let h1Re := data 1
    let data := aset data 1 (1 / 2 * (h1Re + data 2))
    let data := aset data 2 (1 / 2 * (h1Re - data 2))
    four1 data (n / 2) (-1)

/-- The body of the first loop of `numrec_cosft1` (`src/utility/Spectral/FFTs_for_sgrid.c:284-291`); the state is
`(y, sum, w)`. -/
noncomputable def cosft1Pass (n : Nat) (wp : ℝ × ℝ) (j : Nat) (s : (Nat → ℝ) × ℝ × ℝ × ℝ) :
    (Nat → ℝ) × ℝ × ℝ × ℝ :=
  let w := turn wp s.2.2
  let y1 := 1 / 2 * (s.1 j + s.1 (n + 2 - j))
  let y2 := s.1 j - s.1 (n + 2 - j)
  let y := aset s.1 j (y1 - w.2 * y2)
  let y := aset y (n + 2 - j) (y1 + w.2 * y2)
  (y, s.2.1 + w.1 * y2, w)

/-- `numrec_cosft1` (`src/utility/Spectral/FFTs_for_sgrid.c:268-301`); the last loop takes `j = 2k+2`. -/
noncomputable def cosft1 (y : Nat → ℝ) (n : Nat) : Nat → ℝ :=
  let wp := turnBy (π / n)
  let sum := 1 / 2 * (y 1 - y (n + 1))
  let y := aset y 1 (1 / 2 * (y 1 + y (n + 1)))
  let s := upLoop 2 (n / 2 + 1) (cosft1Pass n wp) (y, sum, 1, 0)
  let y := realft s.1 n 1
  let y := aset y (n + 1) (y 2)
  let y := aset y 2 s.2.1
  (upLoop 1 (n / 2) (fun k (s : (Nat → ℝ) × ℝ) =>
    let sum := s.2 + s.1 (2 * k + 2)
    (aset s.1 (2 * k + 2) sum, sum)) (y, s.2.1)).1

/-- The body of the first loop of `numrec_cosft2` (`src/utility/Spectral/FFTs_for_sgrid.c:321-327`); the state is
`(y, w1)`. -/
noncomputable def cosft2Pass (n : Nat) (wp : ℝ × ℝ) (i : Nat) (s : (Nat → ℝ) × ℝ × ℝ) : (Nat → ℝ) × ℝ × ℝ :=
  let y1 := 1 / 2 * (s.1 i + s.1 (n - i + 1))
  let y2 := s.2.2 * (s.1 i - s.1 (n - i + 1))
  let y := aset s.1 i (y1 + y2)
  let y := aset y (n - i + 1) (y1 - y2)
  (y, turn wp s.2)

/-- The body of the rotation loops (`src/utility/Spectral/FFTs_for_sgrid.c:332-338,355-361`), `i = 2k+1`; `e` is 1
in the forward and -1 in the backward transformation. -/
noncomputable def rotPass (e : ℝ) (wp : ℝ × ℝ) (k : Nat) (s : (Nat → ℝ) × ℝ × ℝ) : (Nat → ℝ) × ℝ × ℝ :=
  let i := 2 * k + 1
  let w := turn wp s.2
  let y1 := s.1 i * w.1 - e * (s.1 (i + 1) * w.2)
  let y2 := s.1 (i + 1) * w.1 + e * (s.1 i * w.2)
  (aset (aset s.1 i y1) (i + 1) y2, w)

/-- The body of the last loop (`src/utility/Spectral/FFTs_for_sgrid.c:366-372`). -/
noncomputable def cosft2Back (n : Nat) (wp : ℝ × ℝ) (i : Nat) (s : (Nat → ℝ) × ℝ × ℝ) : (Nat → ℝ) × ℝ × ℝ :=
  let y1 := s.1 i + s.1 (n - i + 1)
  let y2 := 1 / 2 / s.2.2 * (s.1 i - s.1 (n - i + 1))
  let y := aset s.1 i (1 / 2 * (y1 + y2))
  let y := aset y (n - i + 1) (1 / 2 * (y1 - y2))
  (y, turn wp s.2)

/-- `numrec_cosft2` (`src/utility/Spectral/FFTs_for_sgrid.c:304-375`). The loops with steps of 2 are over `k`, with
`i = 2k+1` for `i=3; i<=n` and with `i = 2k` for `i=n; i>=2` and `i=n; i>=4`; `n` is even. -/
noncomputable def cosft2 (y : Nat → ℝ) (n : Nat) (isign : Int) : Nat → ℝ :=
  let theta := 1 / 2 * π / n
  let w1 := (cos theta, sin theta)
  let wp := (-2 * sin theta * sin theta, sin (2 * theta))
  if isign = 1 then
    let y := (upLoop 1 (n / 2 + 1) (cosft2Pass n wp) (y, w1)).1
    let y := realft y n 1
    let y := (upLoop 1 ((n + 1) / 2) (rotPass 1 wp) (y, 1, 0)).1
    (downLoop 1 (n / 2 + 1) (fun k (s : (Nat → ℝ) × ℝ) =>
      (aset s.1 (2 * k) s.2, s.2 + s.1 (2 * k))) (y, 1 / 2 * y 2)).1
  else if isign = -1 then
    let ytmp := y n
    let y := downLoop 2 (n / 2 + 1) (fun k y => aset y (2 * k) (y (2 * k - 2) - y (2 * k))) y
    let y := aset y 2 (2 * ytmp)
    let y := (upLoop 1 ((n + 1) / 2) (rotPass (-1) wp) (y, 1, 0)).1
    let y := realft y n (-1)
    (upLoop 1 (n / 2 + 1) (cosft2Back n wp) (y, w1)).1
  else y

/-- The pointer `c-1`: `data[i]` is `c[i-1]`. -/
def toOne (c : Nat → ℝ) : Nat → ℝ := fun i => c (i - 1)

/-- The array that `data[1], data[2], ...` belong to. -/
def ofOne (data : Nat → ℝ) : Nat → ℝ := fun i => data (i + 1)

/-- `four_coeffs_numrecFFT` (`src/utility/Spectral/FFTs_for_sgrid.c:39-50`). -/
noncomputable def fourCoeffsNR (c u : Nat → ℝ) (n : Nat) : Nat → ℝ :=
  let N := n + 1
  let c := upLoop 0 N (fun j c => aset c j (u j)) c
  let c := ofOne (realft (toOne c) N 1)
  let temp := c 1
  let c := upLoop 2 N (fun j c => aset c (j - 1) (c j)) c
  aset c (N - 1) temp

/-- `four_eval_numrecFFT` (`src/utility/Spectral/FFTs_for_sgrid.c:54-64`). -/
noncomputable def fourEvalNR (c u : Nat → ℝ) (n : Nat) : Nat → ℝ :=
  let N := n + 1
  let toN := 2 / (N : ℝ)
  let u := aset u 0 (toN * c 0)
  let u := aset u 1 (toN * c (N - 1))
  let u := upLoop 2 N (fun j u => aset u j (toN * c (j - 1))) u
  ofOne (realft (toOne u) N (-1))

/-- `four_int_numrecFFT` (`src/utility/Spectral/FFTs_for_sgrid.c:68-105`). -/
noncomputable def fourIntNR (a b : ℝ) (c cint : Nat → ℝ) (n : Nat) : Nat → ℝ :=
  let N := n + 1
  let L := b - a
  let PI2_con := 2 * π / L
  let u := upLoop 0 N (fun j u => aset u j (j * L / N)) (fun _ => 0)
  let cint := fourCoeffsNR cint u n
  let cint := upLoop 0 N (fun j cint => aset cint j (cint j * (c 0 / N))) cint
  let cint := upLoop 1 ((N + 1) / 2) (fun j cint =>
    let cint := aset cint (2 * j - 1) (cint (2 * j - 1) + -c (2 * j) / (PI2_con * j))
    aset cint (2 * j) (cint (2 * j) + c (2 * j - 1) / (PI2_con * j))) cint
  if N % 2 = 0 then aset cint (N - 1) (cint (N - 1) + 0) else cint

/-- `cheb_coeffs_fromZeros_numrecFFT` (`src/utility/Spectral/FFTs_for_sgrid.c:110-118`). -/
noncomputable def chebFromZerosNR (c u : Nat → ℝ) (n : Nat) : Nat → ℝ :=
  let N := n + 1
  let toN := 2 / (N : ℝ)
  let c := upLoop 0 N (fun j c => aset c j (toN * u j)) c
  ofOne (cosft2 (toOne c) N 1)

/-- `cheb_coeffs_fromExtrema_numrecFFT` (`src/utility/Spectral/FFTs_for_sgrid.c:121-129`). -/
noncomputable def chebFromExtremaNR (c u : Nat → ℝ) (N : Nat) : Nat → ℝ :=
  let toN := 2 / (N : ℝ)
  let c := upLoop 0 (N + 1) (fun j c => aset c j (toN * u j)) c
  let c := ofOne (cosft1 (toOne c) N)
  aset c N (c N * (1 / 2))

/-- `cheb_eval_onZeros_numrecFFT` (`src/utility/Spectral/FFTs_for_sgrid.c:132-139`). -/
noncomputable def chebOnZerosNR (c u : Nat → ℝ) (n : Nat) : Nat → ℝ :=
  let N := n + 1
  let u := upLoop 0 N (fun j u => aset u j (c j)) u
  ofOne (cosft2 (toOne u) N (-1))

/-- `cheb_eval_onExtrema_numrecFFT` (`src/utility/Spectral/FFTs_for_sgrid.c:142-149`). -/
noncomputable def chebOnExtremaNR (c u : Nat → ℝ) (N : Nat) : Nat → ℝ :=
  let u := upLoop 0 N (fun j u => aset u j (c j)) u
  let u := aset u N (c N * 2)
  ofOne (cosft1 (toOne u) N)

/-! ## Choice of the functions -/

/-- The word in the parameter `box%d_basis%d`. Parameters with more than one of these words are left out. -/
inductive BasisWord
  | chebExtrema | fourier | fd2Onesided | fd2Periodic | chebZeros
  deriving DecidableEq

/-- `set_TransformType_flags_inbox` (`src/utility/Spectral/spec_coeffs.c:601-633`) for one direction with `nb`
points: `numrec` and `fftw` say whether the parameter `box%d_TransformType%d` has the words NUMREC_FFT and FFTW3,
`m` is its value as integer. 0 is MATRIX_MULTIPLICATION, 1 NUMREC_FFT and 2 FFTW3_FFT
(`src/utility/Spectral/sgrid_Spectral.h:8-14`). -/
def transformType (numrec fftw : Bool) (m : Int) (bas : BasisWord) (nb : Int) : Nat :=
  if numrec ∧ nb ≥ m ∧ m ≥ 0 ∧ ((bas = .chebExtrema ∧ isPowerOfTwo (nb - 1) ≠ 0) ∨
      (bas = .chebZeros ∧ isPowerOfTwo nb ≠ 0) ∨ (bas = .fourier ∧ isPowerOfTwo nb ≠ 0)) then 1
  else if fftw ∧ nb ≥ m ∧ m ≥ 0 ∧ (bas = .chebExtrema ∨ bas = .chebZeros ∨ bas = .fourier) then 2
  else 0

/-- The functions `get_coeffs` and `eval_onPoints` (`src/utility/Spectral/spec_coeffs.c:662-741`). The versions with
FFTW3 are not modelled. -/
noncomputable def specFunctions (bas : BasisWord) (ttype : Nat) : Option (LineFun ℝ × LineFun ℝ) :=
  match bas with
  | .chebExtrema =>
    if ttype = 1 then some (chebFromExtremaNR, fun u c n => chebOnExtremaNR c u n)
    else if ttype = 2 then none
    else some (chebFromExtrema, fun u c n => chebOnExtrema c u n)
  | .fourier =>
    if ttype = 1 then some (fourCoeffsNR, fun u c n => fourEvalNR c u n)
    else if ttype = 2 then none
    else some (fourCoeffs, fun u c n => fourEval c u n)
  | .fd2Onesided => some (fd2Coeffs, fun u c n => fd2Eval c u n)
  | .fd2Periodic => some (fd2Coeffs, fun u c n => fd2Eval c u n)
  | .chebZeros =>
    if ttype = 1 then some (chebFromZerosNR, fun u c n => chebOnZerosNR c u n)
    else if ttype = 2 then none
    else some (chebFromZeros, fun u c n => chebOnZeros c u n)

end Sgrid

import Verif.Model.MultiMin

/-!
src/utility/NumericUtils/dsvdfit.c: a linear least squares fit.  Arrays begin at 1.  dsvdcmp is an arbitrary function.
-/

namespace Sgrid

noncomputable section

/-- The matrix and the right hand side (dsvdfit.c:18-23): `u`, `b`.  The basis functions at a point are `funcs x`. -/
def fitMatrix (x y sig : RArr) (ndata ma : Nat) (funcs : ℝ → RArr) (u : Mat ℝ) (b : RArr) : Mat ℝ × RArr :=
  upLoop 1 (ndata + 1) (fun i (s : Mat ℝ × RArr) =>
    let afunc := funcs (x i)
    let tmp := 1 / sig i
    (aset s.1 i (upLoop 1 (ma + 1) (fun j r => aset r j (afunc j * tmp)) (s.1 i)), aset s.2 i (y i * tmp))) (u, b)

/-- The largest singular value (dsvdfit.c:25-27). -/
def fitWmax (ma : Nat) (w : RArr) : ℝ := upLoop 1 (ma + 1) (fun j wmax => if w j > wmax then w j else wmax) 0

/-- Small singular values are set to zero (dsvdfit.c:28-30). -/
def fitCut (ma : Nat) (w : RArr) : RArr :=
  let thresh := 1 / 10 ^ 8 * fitWmax ma w
  upLoop 1 (ma + 1) (fun j w => if w j < thresh then aset w j 0 else w) w

/-- `*chisq` (dsvdfit.c:32-37). -/
def fitChisq (x y sig : RArr) (ndata ma : Nat) (funcs : ℝ → RArr) (a : RArr) : ℝ :=
  upLoop 1 (ndata + 1) (fun i chisq =>
    let afunc := funcs (x i)
    let sum := upLoop 1 (ma + 1) (fun j sum => sum + a j * afunc j) 0
    let tmp := (y i - sum) / sig i
    chisq + tmp * tmp) 0

/-- dsvdfit (dsvdfit.c:5-40): `a` and `*chisq`.  `svd` is dsvdcmp, it gives `u`, `w`, `v`; `junk` is the new memory. -/
def svdFit (svd : Mat ℝ → Nat → Nat → Mat ℝ × RArr × Mat ℝ) (x y sig : RArr) (ndata : Nat) (a : RArr) (ma : Nat)
    (u : Mat ℝ) (junk : RArr) (funcs : ℝ → RArr) : RArr × ℝ :=
  let s := fitMatrix x y sig ndata ma funcs u junk
  let d := svd s.1 ndata ma
  let w := fitCut ma d.2.1
  let a := svdBack d.1 w d.2.2 ndata ma s.2 a
  (a, fitChisq x y sig ndata ma funcs a)

end

end Sgrid

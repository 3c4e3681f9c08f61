import Mathlib.Data.Real.Basic
import Mathlib.Algebra.Order.AbsoluteValue.Basic
import Verif.Model.PureLoop

/-!
src/utility/NumericUtils/fd_jacobian.c: the matrix of derivatives of a function of n variables by finite differences.

Doubles are real numbers.  Arrays are functions of the index, and begin with the index 1 as in the code.  The function
that is called does not change x; its result for x is `F x`.  The array f is local.
-/

namespace Sgrid

/-- `EPS` (fd_jacobian.c:7). -/
noncomputable def fdjacEps : ℝ := 1 / 10 ^ 7

/-- `HMIN` (fd_jacobian.c:8). -/
noncomputable def fdjacHmin : ℝ := 1 / 10 ^ 10

/-- The first step h (fd_jacobian.c:19-20, 41-42). -/
noncomputable def fdjacStep (temp : ℝ) : ℝ :=
  let h := fdjacEps * |temp|
  if h < fdjacHmin then fdjacHmin else h

/-- `df[i][j] = v`. -/
noncomputable def fdjacSet (df : ℕ → ℕ → ℝ) (i j : ℕ) (v : ℝ) : ℕ → ℕ → ℝ := aset df i (aset (df i) j v)

/-- fd_jacobian (fd_jacobian.c:10-28): the arrays x and df after the call. -/
noncomputable def fdjac (n : ℕ) (F : (ℕ → ℝ) → ℕ → ℝ) (x fvec : ℕ → ℝ) (df : ℕ → ℕ → ℝ) :
    (ℕ → ℝ) × (ℕ → ℕ → ℝ) :=
  upLoop 1 (n + 1) (fun j s =>
    let temp := s.1 j
    let h := fdjacStep temp
    let x1 := aset s.1 j (temp + h)
    let h := x1 j - temp
    let f := F x1
    let x2 := aset x1 j temp
    (x2, upLoop 1 (n + 1) (fun i df => fdjacSet df i j ((f i - fvec i) / h)) s.2)) (x, df)

open Classical in
/-- The loop over k in fd_jacobianP (fd_jacobian.c:43-55), `fuel` times at most. -/
noncomputable def fdjacTry (n : ℕ) (F : (ℕ → ℝ) → ℕ → ℝ) (fvec : ℕ → ℝ) (j : ℕ) (temp : ℝ) :
    ℕ → ℝ → (ℕ → ℝ) × (ℕ → ℕ → ℝ) → (ℕ → ℝ) × (ℕ → ℕ → ℝ)
  | 0, _, s => s
  | fuel + 1, h, s =>
    let x1 := aset s.1 j (temp + h)
    let h := x1 j - temp
    let f := F x1
    let x2 := aset x1 j temp
    let r := upLoop 1 (n + 1) (fun i (t : (ℕ → ℕ → ℝ) × Bool) =>
      (fdjacSet t.1 i j ((f i - fvec i) / h), if (f i - fvec i) / h ≠ 0 then true else t.2)) (s.2, false)
    if r.2 then (x2, r.1) else fdjacTry n F fvec j temp fuel (h * 10) (x2, r.1)

/-- fd_jacobianP (fd_jacobian.c:31-58). -/
noncomputable def fdjacP (n : ℕ) (F : (ℕ → ℝ) → ℕ → ℝ) (x fvec : ℕ → ℝ) (df : ℕ → ℕ → ℝ) :
    (ℕ → ℝ) × (ℕ → ℕ → ℝ) :=
  upLoop 1 (n + 1) (fun j s => fdjacTry n F fvec j (s.1 j) 8 (fdjacStep (s.1 j)) s) (x, df)

end Sgrid

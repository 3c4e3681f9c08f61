import Verif.Model.DVSource

/-!
src/physics/ScalarOnKerr/DV_CircSchwSource: the global variables.  set_parameters (Constants.c:19-37), and the way in
which eval_THZ, eval_singular and eval_source hand on their results: in global variables, and without new work if the
point is the one of the last call.

A state holds the points of the last calls, which are static variables, and the results.  The variables of eval_g,
eval_window and eval_Kdelta are set anew at every call and are left out.
-/

namespace Sgrid
open Real

/-- set_parameters (Constants.c:19-37): none if the code stops; the second argument of the code is not used. -/
noncomputable def setParameters (m _q r : ℝ) : Option ThzPar :=
  if r < 6 * m then none
  else
    let M := m
    let R := r * M
    let Omega := √(M / (R * R * R))
    some ⟨M, R, Omega, Omega * √(1 - 3 * M / R)⟩

/-- What eval_THZ leaves behind (THZ.c:18-24, 349-355). -/
@[ext] structure ThzVals where
  /-- `ian_x` -/
  x : ℝ
  /-- `ian_y` -/
  y : ℝ
  /-- `ian_z` -/
  z : ℝ
  /-- `Dx` -/
  Dx : Fin 4 → ℝ
  /-- `Dy` -/
  Dy : Fin 4 → ℝ
  /-- `Dz` -/
  Dz : Fin 4 → ℝ
  /-- `DDx` -/
  DDx : Fin 4 → Fin 4 → ℝ
  /-- `DDy` -/
  DDy : Fin 4 → Fin 4 → ℝ
  /-- `DDz` -/
  DDz : Fin 4 → Fin 4 → ℝ

/-- What eval_singular leaves behind (Singular.c:20-22). -/
@[ext] structure SingVals where
  /-- `ian_Psi` -/
  Psi : ℝ
  /-- `DPsi` -/
  DPsi : Fin 4 → ℝ
  /-- `DDPsi` -/
  DDPsi : Fin 4 → Fin 4 → ℝ

/-- The values of eval_THZ at a point. -/
noncomputable def thzVals (P : ThzPar) (q : Fin 4 → ℝ) : ThzVals :=
  ⟨thzx P q, thzy P q, thzz P q, thzDx P q, thzDy P q, thzDz P q, thzDDx P q, thzDDy P q, thzDDz P q⟩

/-- The formulas of eval_singular (Singular.c:44-62): x, y, z are local copies, the tables are the global ones. -/
noncomputable def singFrom (Q x y z : ℝ) (T : ThzVals) : SingVals :=
  let rho := √(x * x + y * y + z * z)
  { Psi := Q / rho
    DPsi := fun i => -(Q / (rho * rho * rho)) * (x * T.Dx i + y * T.Dy i + z * T.Dz i)
    DDPsi := fun i j => (3 * Q / (rho * rho * rho * rho * rho)) * (x * T.Dx i + y * T.Dy i + z * T.Dz i) *
        (x * T.Dx j + y * T.Dy j + z * T.Dz j) -
      (Q / (rho * rho * rho)) * (x * T.DDx i j + T.Dx i * T.Dx j + y * T.DDy i j + T.Dy i * T.Dy j + z * T.DDz i j +
        T.Dz i * T.Dz j) }

/-- The global and static variables. -/
structure DVState where
  /-- the point of the last call of eval_THZ (THZ.c:28) -/
  lastT : Fin 4 → ℝ
  /-- its results -/
  T : ThzVals
  /-- the point of the last call of eval_singular (Singular.c:26) -/
  lastS : Fin 4 → ℝ
  /-- its results -/
  S : SingVals

/-- The test for the point of the last call (THZ.c:29, Singular.c:27). -/
def nearLast (a q : Fin 4 → ℝ) : Prop := |a 0 - q 0| + |a 1 - q 1| + |a 2 - q 2| + |a 3 - q 3| < 1 / 10 ^ 14

open Classical in
/-- eval_THZ (THZ.c:26-356). -/
noncomputable def evalThz (P : ThzPar) (st : DVState) (q : Fin 4 → ℝ) : DVState :=
  if nearLast st.lastT q then st else { st with lastT := q, T := thzVals P q }

open Classical in
/-- eval_singular (Singular.c:24-75): the local copies of x, y, z are made before eval_THZ is called. -/
noncomputable def evalSingular (Q : ℝ) (P : ThzPar) (st : DVState) (q : Fin 4 → ℝ) : DVState :=
  if nearLast st.lastS q then st
  else
    let st1 := evalThz P { st with lastS := q } q
    { st1 with S := singFrom Q st.T.x st.T.y st.T.z st1.T }

/-- The sums of eval_source (Source.c:113-157) with the global variables of eval_singular. -/
noncomputable def srcSumOf (S : SingVals) (w : WinPar) (P : ThzPar) (q : Fin 4 → ℝ) : ℝ :=
  ((∑ i, ∑ j, schwDDet q i * schwGInv P.M q i j * S.DPsi j) / schwDet q +
      (∑ i, schwDiv P.M q i * S.DPsi i) + ∑ i, ∑ j, schwGInv P.M q i j * S.DDPsi i j) * winW w P q +
    (∑ i, ∑ j, S.Psi / schwDet q * schwDDet q i * schwGInv P.M q i j * winDW w P q j) +
    (∑ i, S.Psi * schwDiv P.M q i * winDW w P q i) +
    (∑ i, ∑ j, 2 * schwGInv P.M q i j * S.DPsi i * winDW w P q j) +
    ∑ i, ∑ j, S.Psi * schwGInv P.M q i j * winDDW w P q i j

open Classical in
/-- eval_source (Source.c:57-159): the new state and `Del2Psi`.  eval_window calls eval_singular and eval_THZ again if
the window is used (Window_DONUT.c:53-54). -/
noncomputable def evalSourceSt (Q : ℝ) (w : WinPar) (P : ThzPar) (st : DVState) (q : Fin 4 → ℝ) : DVState × ℝ :=
  let st := evalThz P st q
  let near := √(st.T.x * st.T.x + st.T.y * st.T.y + st.T.z * st.T.z) < 5 / 1000 * P.M
  let q1 : Fin 4 → ℝ := if near then ![q 0, P.R + 6 / 1000 * P.M, q 2, q 3] else q
  let st := if near then evalThz P st q1 else st
  let q2 : Fin 4 → ℝ := if q1 2 = 0 then ![q1 0, q1 1, q1 2 + 1 / 10 ^ 12, q1 3] else q1
  let st := if q1 2 = 0 then evalThz P st q2 else st
  let q3 : Fin 4 → ℝ := if |q2 2 - π| < 1 / 10 ^ 12 then ![q2 0, q2 1, q2 2 - 1 / 10 ^ 12, q2 3] else q2
  let st := if |q2 2 - π| < 1 / 10 ^ 12 then evalThz P st q3 else st
  let st := evalSingular Q P st q3
  let st := if w.useWindow then evalThz P (evalSingular Q P st q3) q3 else st
  (st, srcSumOf st.S w P q3)

/-- eval_WPsi (Source.c:46-55): the copies of W and Psi are made before they are computed.  `W` is the value left in
`ian_W`; the result is `WPsi`. -/
noncomputable def evalWPsi (Q : ℝ) (P : ThzPar) (st : DVState) (W : ℝ) (q : Fin 4 → ℝ) : DVState × ℝ :=
  (evalSingular Q P st q, W * st.S.Psi)

/-- The state at the start of the program: static and global variables are zero. -/
def dvStart : DVState :=
  ⟨fun _ => 0, ⟨0, 0, 0, fun _ => 0, fun _ => 0, fun _ => 0, fun _ _ => 0, fun _ _ => 0, fun _ _ => 0⟩, fun _ => 0,
    ⟨0, fun _ => 0, fun _ _ => 0⟩⟩

end Sgrid

import Mathlib.Analysis.SpecialFunctions.Sqrt
import Mathlib.Analysis.SpecialFunctions.Trigonometric.Arctan

/-!
src/utility/Coordinates/ComplexFunctions.c. Doubles are real numbers, `PI` and `PIh`
(src/main/main/sgrid_main.h:11-12) are π and π/2.
-/

namespace Sgrid
open Real

/-- BaseAngle (ComplexFunctions.c:10-16). -/
noncomputable def BaseAngle (p peri p0 : ℝ) : ℝ :=
  let d := p - p0;
  let w : ℝ := ⌊d / peri⌋;
  let b := d - w * peri;
  p0 + b

/-- Arg (ComplexFunctions.c:19-38). -/
noncomputable def Arg (x y : ℝ) : ℝ :=
  if x = 0 then
    if y = 0 then 0 else if y > 0 then π / 2 else -(π / 2)
  else if x < 0 then
    if y ≥ 0 then arctan (y / x) + π else arctan (y / x) - π
  else arctan (y / x)

/-- Arg_plus (ComplexFunctions.c:41-61). -/
noncomputable def ArgPlus (x y : ℝ) : ℝ :=
  let arg :=
    if x = 0 then
      if y = 0 then 0 else if y > 0 then π / 2 else -(π / 2)
    else if x < 0 then
      if y ≥ 0 then arctan (y / x) + π else arctan (y / x) - π
    else arctan (y / x);
  if arg < 0 then arg + 2 * π else arg

/-- dArgdx (ComplexFunctions.c:64-67). -/
noncomputable def dArgdx (x y : ℝ) : ℝ := -y / (x * x + y * y)

/-- dArgdy (ComplexFunctions.c:68-71). -/
noncomputable def dArgdy (x y : ℝ) : ℝ := x / (x * x + y * y)

/-- ddArgdxdx (ComplexFunctions.c:74-78). -/
noncomputable def ddArgdxdx (x y : ℝ) : ℝ :=
  let r2 := x * x + y * y;
  2 * x * y / (r2 * r2)

/-- ddArgdxdy (ComplexFunctions.c:79-83). -/
noncomputable def ddArgdxdy (x y : ℝ) : ℝ :=
  let r2 := x * x + y * y;
  2 * y * y / (r2 * r2) - 1 / r2

/-- ddArgdydy (ComplexFunctions.c:84-88). -/
noncomputable def ddArgdydy (x y : ℝ) : ℝ :=
  let r2 := x * x + y * y;
  -2 * x * y / (r2 * r2)

/-- Retanh (ComplexFunctions.c:92-95). -/
noncomputable def Retanh (x y : ℝ) : ℝ := sinh (2 * x) / (cos (2 * y) + cosh (2 * x))

/-- Imtanh (ComplexFunctions.c:96-99). -/
noncomputable def Imtanh (x y : ℝ) : ℝ := sin (2 * y) / (cos (2 * y) + cosh (2 * x))

/-- Argtanh (ComplexFunctions.c:100-104). -/
noncomputable def Argtanh (x y : ℝ) : ℝ := Arg (sinh (2 * x)) (sin (2 * y))

/-- Abstanh (ComplexFunctions.c:105-111). -/
noncomputable def Abstanh (x y : ℝ) : ℝ :=
  let coshx2 := cosh (2 * x);
  let cosy2 := cos (2 * y);
  √((coshx2 - cosy2) / (coshx2 + cosy2))

/-- Argsech (ComplexFunctions.c:115-119). -/
noncomputable def Argsech (x y : ℝ) : ℝ := Arg (cos y * cosh x) (-sin y * sinh x)

/-- Abssech (ComplexFunctions.c:120-123). -/
noncomputable def Abssech (x y : ℝ) : ℝ := √(2 / (cos (2 * y) + cosh (2 * x)))

/-- dArgtanhdx (ComplexFunctions.c:153-158). -/
noncomputable def dArgtanhdx (x y : ℝ) : ℝ :=
  let x2 := 2 * x;
  let y2 := 2 * y;
  2 * cosh x2 * dArgdx (sinh x2) (sin y2)

/-- dArgtanhdy (ComplexFunctions.c:159-164). -/
noncomputable def dArgtanhdy (x y : ℝ) : ℝ :=
  let x2 := 2 * x;
  let y2 := 2 * y;
  2 * cos y2 * dArgdy (sinh x2) (sin y2)

/-- ddArgtanhdxdx (ComplexFunctions.c:165-173). -/
noncomputable def ddArgtanhdxdx (x y : ℝ) : ℝ :=
  let x2 := 2 * x;
  let y2 := 2 * y;
  let sinh2x := sinh x2;
  let sin2y := sin y2;
  4 * (cosh x2 * cosh x2 * ddArgdxdx sinh2x sin2y + dArgdx sinh2x sin2y * sinh2x)

/-- ddArgtanhdxdy (ComplexFunctions.c:174-179). -/
noncomputable def ddArgtanhdxdy (x y : ℝ) : ℝ :=
  let x2 := 2 * x;
  let y2 := 2 * y;
  4 * cos y2 * cosh x2 * ddArgdxdy (sinh x2) (sin y2)

/-- ddArgtanhdydy (ComplexFunctions.c:180-188). -/
noncomputable def ddArgtanhdydy (x y : ℝ) : ℝ :=
  let x2 := 2 * x;
  let y2 := 2 * y;
  let sinh2x := sinh x2;
  let sin2y := sin y2;
  4 * (cos y2 * cos y2) * ddArgdydy sinh2x sin2y - 4 * dArgdy sinh2x sin2y * sin2y

/-- dAbstanhdx (ComplexFunctions.c:191-200). -/
noncomputable def dAbstanhdx (x y : ℝ) : ℝ :=
  let x2 := 2 * x;
  let y2 := 2 * y;
  let cosh2x := cosh x2;
  let cos2y := cos y2;
  (2 * cos2y * sinh x2) / (((cos2y + cosh2x) * (cos2y + cosh2x)) * √(1 - (2 * cos2y) / (cos2y + cosh2x)))

/-- dAbstanhdy (ComplexFunctions.c:201-210). -/
noncomputable def dAbstanhdy (x y : ℝ) : ℝ :=
  let x2 := 2 * x;
  let y2 := 2 * y;
  let cosh2x := cosh x2;
  let cos2y := cos y2;
  (2 * cosh2x * sin y2) / (((cos2y + cosh2x) * (cos2y + cosh2x)) * √(1 - (2 * cos2y) / (cos2y + cosh2x)))

/-- ddAbstanhdxdx (ComplexFunctions.c:211-221). -/
noncomputable def ddAbstanhdxdx (x y : ℝ) : ℝ :=
  let x2 := 2 * x;
  let y2 := 2 * y;
  let cosh2x := cosh x2;
  let cos2y := cos y2;
  (cos2y * ((-3 + 2 * cos (y2 * 2)) * cosh2x + cosh (x2 * 3) - 4 * cos2y * (sinh x2 * sinh x2))) /
    ((cos2y - cosh2x) * (cos2y + cosh2x) ^ 3 * √(1 - (2 * cos2y) / (cos2y + cosh2x)))

/-- ddAbstanhdxdy (ComplexFunctions.c:222-231). -/
noncomputable def ddAbstanhdxdy (x y : ℝ) : ℝ :=
  let x2 := 2 * x;
  let y2 := 2 * y;
  let cosh2x := cosh x2;
  let cos2y := cos y2;
  (-16 * (cos2y * cos2y - cos2y * cosh2x + cosh2x * cosh2x) * √(1 - (2 * cos2y) / (cos2y + cosh2x)) *
    sin y2 * sinh x2) / ((cos (y2 * 2) - cosh (x2 * 2)) * (cos (y2 * 2) - cosh (x2 * 2)))

/-- ddAbstanhdydy (ComplexFunctions.c:232-242). -/
noncomputable def ddAbstanhdydy (x y : ℝ) : ℝ :=
  let x2 := 2 * x;
  let y2 := 2 * y;
  let cosh2x := cosh x2;
  let cos2y := cos y2;
  (4 * cosh2x * √(1 - (2 * cos2y) / (cos2y + cosh2x)) *
    (-5 * cos2y + cos (y2 * 3) + 4 * cosh2x * (cos2y * cosh2x + sin y2 * sin y2))) /
    ((cos (y2 * 2) - cosh (x2 * 2)) * (cos (y2 * 2) - cosh (x2 * 2)))

end Sgrid

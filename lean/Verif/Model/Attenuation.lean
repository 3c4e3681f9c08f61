import Mathlib.Analysis.SpecialFunctions.Trigonometric.Basic

/-!
# Attenuation functions

`src/utility/numerics/attenuation.c`; `src/utility/NumericUtils/attenuation.c` is the same. `Pi` is the
number π, the functions of `math.h` are the exact ones.
-/

namespace Sgrid

open Real

/-- `Attenuation01` (`src/utility/numerics/attenuation.c:23-29`). -/
noncomputable def attenuation01 (x s p : ℝ) : ℝ :=
  if x ≤ 0 then 0 else
  if x ≥ 1 then 1 else
  1 / 2 * (1 + tanh (2 * s * p * p * (1 - p) * (-1 / x + ((1 - p) / p) / (1 - x))))

/-- `Att_0to1_x_x0_w_q_s` (`src/utility/numerics/attenuation.c:35-41`). -/
noncomputable def att0to1 (x x0 w q s : ℝ) : ℝ :=
  if x ≥ x0 + w then 1
  else if x ≤ x0 then 0
  else (1 + tanh ((s / π) * (tan ((x - x0) * π / (2 * w)) - q * q / tan ((x - x0) * π / (2 * w))))) / 2

/-- `dAtt_0to1_x_x0_w_q_s` (`src/utility/numerics/attenuation.c:44-53`). -/
noncomputable def dAtt0to1 (x x0 w q s : ℝ) : ℝ :=
  if x ≥ x0 + w then 0
  else if x ≤ x0 then 0
  else (s * (q ^ 2 * (1 / sin ((π * (x - x0)) / (2 * w))) ^ 2 +
      (1 / cos ((π * (x - x0)) / (2 * w))) ^ 2) *
      (1 / cosh ((s * (-(q ^ 2 * (1 / tan ((π * (x - x0)) / (2 * w)))) +
        tan ((π * (x - x0)) / (2 * w)))) / π)) ^ 2) / (4 * w)

/-- `Att_1to0_x_x0_w_q_s` (`src/utility/numerics/attenuation.c:56-62`). -/
noncomputable def att1to0 (x x0 w q s : ℝ) : ℝ :=
  if x ≥ x0 + w then 0
  else if x ≤ x0 then 1
  else 1 - (1 + tanh ((s / π) * (tan ((x - x0) * π / (2 * w)) - q * q / tan ((x - x0) * π / (2 * w))))) / 2

/-- `dAtt_1to0_x_x0_w_q_s` (`src/utility/numerics/attenuation.c:65-74`). -/
noncomputable def dAtt1to0 (x x0 w q s : ℝ) : ℝ :=
  if x ≥ x0 + w then 0
  else if x ≤ x0 then 0
  else -1 * (s * (q ^ 2 * (1 / sin ((π * (x - x0)) / (2 * w))) ^ 2 +
      (1 / cos ((π * (x - x0)) / (2 * w))) ^ 2) *
      (1 / cosh ((s * (-(q ^ 2 * (1 / tan ((π * (x - x0)) / (2 * w)))) +
        tan ((π * (x - x0)) / (2 * w)))) / π)) ^ 2) / (4 * w)

end Sgrid

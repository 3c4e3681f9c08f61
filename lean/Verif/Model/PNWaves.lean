import Verif.Model.PNOrbit

/-!
# The gravitational waves of the post-Newtonian orbit

src/physics/PN_CircularOrbit_GWs/compute_GWs.c. Vectors are functions of the index 1..3.
`y[0]` is the distance of the stars, `y[2..4]` and `y[5..7]` the spins, `y[8..10]` the direction of the orbital angular momentum,
`y[11]` the phase. The flags, which are 0 or 1, are any real numbers. Memory is not in the model.
-/

namespace Sgrid

open Real

namespace GW

/-- A vector from its components. -/
def vec (a b c : ℝ) (i : Nat) : ℝ := if i = 1 then a else if i = 2 then b else c

/-- `es1` (lines 69-80). -/
noncomputable def es1 (y : Nat → ℝ) : Nat → ℝ :=
  if y 8 = 0 ∧ y 10 = 0 then vec 1 0 0
  else vec (y 10 / √(y 8 * y 8 + y 10 * y 10)) 0 (-y 8 / √(y 8 * y 8 + y 10 * y 10))

/-- `es2` (lines 85-96). -/
noncomputable def es2 (y : Nat → ℝ) : Nat → ℝ :=
  if y 8 = 0 ∧ y 10 = 0 then vec 0 0 (-y 9 / |y 9|)
  else vec (-y 8 * y 9 / √(y 8 * y 8 + y 10 * y 10)) ((1 - y 9 * y 9) / √(y 8 * y 8 + y 10 * y 10))
    (-y 9 * y 10 / √(y 8 * y 8 + y 10 * y 10))

/-- `etheta` (lines 100-102). -/
noncomputable def etheta (theta phi : ℝ) : Nat → ℝ := vec (cos theta * cos phi) (cos theta * sin phi) (-sin theta)

/-- `ephi` (lines 106-108). -/
noncomputable def ephi (phi : ℝ) : Nat → ℝ := vec (-sin phi) (cos phi) 0

/-- `Tcross` (line 118). -/
noncomputable def Tcross (theta phi : ℝ) (i j : Nat) : ℝ := etheta theta phi i * ephi phi j + ephi phi i * etheta theta phi j

/-- `Tplus` (line 119). -/
noncomputable def Tplus (theta phi : ℝ) (i j : Nat) : ℝ := etheta theta phi i * etheta theta phi j - ephi phi i * ephi phi j

/-- `n` (line 129). -/
noncomputable def nvec (y : Nat → ℝ) (i : Nat) : ℝ := es1 y i * cos (y 11) + es2 y i * sin (y 11)

/-- `lambda` (line 130). -/
noncomputable def lam (y : Nat → ℝ) (i : Nat) : ℝ := -es1 y i * sin (y 11) + es2 y i * cos (y 11)

/-- `NN` (lines 212-214, and the same in the other functions). -/
noncomputable def NN (theta phi : ℝ) : Nat → ℝ := vec (sin theta * cos phi) (sin theta * sin phi) (cos theta)

/-- The scalar products, written out in the code. -/
def dot (a b : Nat → ℝ) : ℝ := a 1 * b 1 + a 2 * b 2 + a 3 * b 3

/-- The cross products, written out in the code. -/
def cross (a b : Nat → ℝ) : Nat → ℝ := vec (a 2 * b 3 - b 2 * a 3) (b 1 * a 3 - a 1 * b 3) (a 1 * b 2 - b 1 * a 2)

/-- `compute_P05Qc` (lines 203-239). -/
noncomputable def P05Q (l n N : Nat → ℝ) (deltam m : ℝ) (i j : Nat) : ℝ :=
  deltam / m * (3 * dot N n * (n i * l j + n j * l i) + dot N l * (n i * n j - 2 * l i * l j))

/-- `Delta` (lines 61-63 and 320). -/
noncomputable def Delta (y : Nat → ℝ) (m1 m2 : ℝ) (i : Nat) : ℝ := (m1 + m2) * (y (i + 4) / m2 - y (i + 1) / m1)

/-- `compute_P1Qc` (lines 241-280). -/
noncomputable def P1Q (l n N : Nat → ℝ) (m : ℝ) (D : Nat → ℝ) (nu : ℝ) (i j : Nat) : ℝ :=
  2 / 3 * (1 - 3 * nu) *
    (dot N n ^ 2 * (5 * n i * n j - 7 * l i * l j) - 8 * dot N n * dot N l * (n i * l j + n j * l i) +
      dot N l ^ 2 * (3 * l i * l j - n i * n j)) -
    (19 - 3 * nu) / 3 * (n i * n j - l i * l j) + (n i * cross D N j + n j * cross D N i) / m / m

/-- The renormalisation of `Ln_cap` (lines 326-328): each component is changed before the next one is used. -/
noncomputable def Lcap (y : Nat → ℝ) : Nat → ℝ :=
  let a := y 8 / √(y 8 * y 8 + y 9 * y 9 + y 10 * y 10)
  let b := y 9 / √(a * a + y 9 * y 9 + y 10 * y 10)
  let c := y 10 / √(a * a + b * b + y 10 * y 10)
  vec a b c

/-- `compute_P15Qc` (lines 282-408). -/
noncomputable def P15Q (y l n N : Nat → ℝ) (deltam m1 m2 nu : ℝ) (i j : Nat) : ℝ :=
  let m := m1 + m2
  let D := Delta y m1 m2
  let S := fun i => y (i + 1) + y (i + 4)
  let L := Lcap y
  let S5 := fun i => 5 * S i + 3 * deltam / m * D i
  let S2 := fun i => 2 * S i + deltam / m * D i
  let S1 := fun i => S i + deltam / m * D i
  let S9 := fun i => 9 * S i + 5 * deltam / m * D i
  let Nn := dot N n
  let Nl := dot N l
  deltam / m * ((1 - 2 * nu) * (1 / 2 * Nl ^ 3 * (n i * n j - 4 * l i * l j) + 1 / 4 * Nn ^ 2 * Nl * (58 * l i * l j - 37 * n i * n j) -
        65 / 12 * Nn ^ 3 * (n i * l j + n j * l i) + 15 / 2 * Nn * Nl ^ 2 * (n i * l j + n j * l i)) -
      Nl * (1 / 12 * (101 - 12 * nu) * n i * n j - 1 / 2 * (19 - 4 * nu) * l i * l j) -
      1 / 12 * (149 - 36 * nu) * (n i * l j + n j * l i)) -
    2 / m / m * (l i * l j * dot L S5 - 6 * n i * n j * dot L S2 + (l i * cross n S1 j + l j * cross n S1 i) +
      1 / 2 * (n i * cross l S9 j + n j * cross l S9 i) + Nl * (cross S1 N i * n j + cross S1 N j * n i) +
      Nn * (cross S1 N i * l j + cross S1 N j * l i))

/-- `compute_P2QSSc` (lines 411-447). -/
noncomputable def P2QSS (y n : Nat → ℝ) (m1 m2 : ℝ) (i j : Nat) : ℝ :=
  let m := m1 + m2
  let mu := m1 * m2 / m
  let S1 := fun i => y (i + 1)
  let S2 := fun i => y (i + 4)
  (-6 / (mu * (m * m * m))) * (n i * n j * (dot S1 S2 - 5 * dot S1 n * dot n S2) + (n i * S1 j + n j * S1 i) * dot n S2 +
    (n i * S2 j + n j * S2 i) * dot S1 n)

/-- What comes from parameters or global variables (lines 33-36, 168). -/
structure Opts where
  (a1 a2 a3 a4 tsdamp taudamp : ℝ)

/-- `h[i][j]` (lines 141-168). -/
noncomputable def hij (o : Opts) (time : ℝ) (y : Nat → ℝ) (D theta phi m1 m2 : ℝ) (i j : Nat) : ℝ :=
  let r := y 0
  let deltam := m1 - m2
  let m := m1 + m2
  let nu := m1 * m2 / m / m
  let l := lam y
  let n := nvec y
  let N := NN theta phi
  let h := 2 * (l i * l j - n i * n j) + P05Q l n N deltam m i j * √(m / r) * o.a1 + P1Q l n N m (Delta y m1 m2) nu i j * (m / r) * o.a2 +
    P15Q y l n N deltam m1 m2 nu i j * (m / r) ^ ((3 : ℝ) / 2) * o.a3 + P2QSS y n m1 m2 i j * m * m / (r * r) * o.a4
  2 * (m1 * m2) / D / y 0 * h / (1 + exp ((time - o.tsdamp) / (o.taudamp * m)))

/-- The sums of lines 174-180. -/
noncomputable def project (h T : Nat → Nat → ℝ) : ℝ :=
  1 / 2 * (h 1 1 * T 1 1 + h 1 2 * T 1 2 + h 1 3 * T 1 3 + h 2 1 * T 2 1 + h 2 2 * T 2 2 + h 2 3 * T 2 3 +
    h 3 1 * T 3 1 + h 3 2 * T 3 2 + h 3 3 * T 3 3)

/-- `*hcross` of `compute_hcross_hplus` (lines 12-198). -/
noncomputable def hcross (o : Opts) (time : ℝ) (y : Nat → ℝ) (D theta phi m1 m2 : ℝ) : ℝ :=
  project (hij o time y D theta phi m1 m2) (Tcross theta phi)

/-- `*hplus` of `compute_hcross_hplus` (lines 12-198). -/
noncomputable def hplus (o : Opts) (time : ℝ) (y : Nat → ℝ) (D theta phi m1 m2 : ℝ) : ℝ :=
  project (hij o time y D theta phi m1 m2) (Tplus theta phi)

end GW

end Sgrid

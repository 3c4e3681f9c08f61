import Verif.Model.KerrData
import Verif.Props.KerrSmooth

/-!
# The values in `SingleBHKS` and `Kerr3d`

The values that the code computes at a point are the values of Kerr's radius and vector field and of their derivatives there.
-/

namespace Sgrid
open Finset

/-- What the code reads at the point `x`. -/
noncomputable def Spec.kerrPt (M : ℝ) (S : Fin 3 → ℝ) (b : Bool) (x : Fin 3 → ℝ) : KerrPt ℝ where
  x1 := x 0
  x2 := x 1
  x3 := x 2
  M := M
  Sx := S 0
  Sy := S 1
  Sz := S 2
  sqrt := Real.sqrt
  conformalFactor := b

/-- The components of a vector. -/
def Spec.vec3 {K : Type} (a b c : K) : Fin 3 → K
  | 0 => a
  | 1 => b
  | 2 => c

namespace KS
variable {𝔽 : Type} [Field 𝔽] (c : KerrPt 𝔽)

/-- The gradient of the radius. -/
def drT : Fin 3 → 𝔽 := Spec.vec3 (dr1 c) (dr2 c) (dr3 c)
/-- The gradient of `H`. -/
def dHT : Fin 3 → 𝔽 := Spec.vec3 (dH1 c) (dH2 c) (dH3 c)
/-- The vector field. -/
def lT : Fin 3 → 𝔽 := Spec.vec3 (l1 c) (l2 c) (l3 c)
/-- The derivatives of the vector field; the second index is the one of the derivative. -/
def dlT : Fin 3 → Fin 3 → 𝔽 := Spec.vec3 (Spec.vec3 (dl11 c) (dl12 c) (dl13 c)) (Spec.vec3 (dl21 c) (dl22 c) (dl23 c)) (Spec.vec3 (dl31 c) (dl32 c) (dl33 c))
/-- The metric. -/
def gT : Fin 3 → Fin 3 → 𝔽 := Spec.vec3 (Spec.vec3 (g11 c) (g12 c) (g13 c)) (Spec.vec3 (g12 c) (g22 c) (g23 c)) (Spec.vec3 (g13 c) (g23 c) (g33 c))
/-- The extrinsic curvature. -/
def KT : Fin 3 → Fin 3 → 𝔽 := Spec.vec3 (Spec.vec3 (K11 c) (K12 c) (K13 c)) (Spec.vec3 (K12 c) (K22 c) (K23 c)) (Spec.vec3 (K13 c) (K23 c) (K33 c))
/-- The shift. -/
def betaT : Fin 3 → 𝔽 := Spec.vec3 (beta1 c) (beta2 c) (beta3 c)
end KS

namespace Spec.KerrRadius
variable {A : Type} [CommRing A] {C : Spec.Calculus A} {x a : Fin 3 → A} {r u q w : A}

theorem da2 (h : Spec.KerrRadius C x a r u q w) (i : Fin 3) : C.d i (∑ i, a i * a i) = 0 := by
  simp only [C.sum, C.mul, h.da]
  simp

theorem dax (h : Spec.KerrRadius C x a r u q w) (i : Fin 3) : C.d i (∑ i, a i * x i) = a i := by
  have := kd_sum' a i
  simp only [C.sum, C.mul, h.da, h.dx]
  simp only [Fin.sum_univ_three] at this ⊢
  linear_combination this

/-- The derivatives of the vector field from its definition. -/
theorem dl_eq (h : Spec.KerrRadius C x a r u q w) (i j : Fin 3) :
    r * (r ^ 2 + ∑ n, a n * a n) * C.d i (Spec.kerrL x a r u q j) +
      (3 * r ^ 2 + ∑ n, a n * a n) * C.d i r * Spec.kerrL x a r u q j =
    2 * r * C.d i r * x j + r ^ 2 * Spec.kd i j - C.d i r * (∑ n, Spec.crossMat a n j * x n) - r * Spec.crossMat a i j + a i * a j := by
  have h1 : r * (r * r + ∑ n, a n * a n) * Spec.kerrL x a r u q j = r * r * x j - r * (∑ n, Spec.crossMat a n j * x n) + (∑ i, a i * x i) * a j := by
    have hu := h.hu
    have hq := h.hq
    unfold Spec.kerrL
    generalize (∑ n, a n * a n) = a2 at *
    linear_combination (r ^ 2 * x j - r * (∑ n, Spec.crossMat a n j * x n) + (∑ i, a i * x i) * a j) * (hq + q * (r ^ 2 + a2) * hu)
  have hc : ∀ n, C.d i (Spec.crossMat a n j) = 0 := by
    intro n
    fin_cases n <;> fin_cases j <;> simp [Spec.crossMat, h.da, C.zero, C.neg]
  have hs : C.d i (∑ n, Spec.crossMat a n j * x n) = Spec.crossMat a i j := by
    have := kd_sum' (fun n => Spec.crossMat a n j) i
    simp only [C.sum, C.mul, hc, h.dx]
    simp only [Fin.sum_univ_three] at this ⊢
    linear_combination this
  have h2 := congrArg (C.d i) h1
  simp only [C.mul, C.add, C.sub, hs, h.da2, h.dax, h.dx, h.da] at h2
  linear_combination h2

end Spec.KerrRadius

section
variable {M : ℝ} {S : Fin 3 → ℝ} {b : Bool} (x : Spec.kerrDomain M S)

local notation "pt" => Spec.kerrPt M S b x
local notation "val" => Spec.valueAt x
local notation "D" => Spec.Calculus.d (Spec.kerrCalc M S)

theorem KS.a2_val : KS.a2 pt = Spec.norm2 S := by
  show S 0 ^ 2 + S 1 ^ 2 + S 2 ^ 2 = _
  rw [Spec.norm2, Fin.sum_univ_three]
  ring

theorem KS.adotx_val : KS.adotx pt = Spec.kdot S x := by
  show S 0 * x.1 0 + S 1 * x.1 1 + S 2 * x.1 2 = _
  rw [Spec.kdot, Fin.sum_univ_three]

theorem KS.rho_sq : KS.rho pt ^ 2 = Spec.norm2 x := by
  have h : x.1 0 ^ 2 + x.1 1 ^ 2 + x.1 2 ^ 2 = Spec.norm2 x := by
    rw [Spec.norm2, Fin.sum_univ_three]
    ring
  show (√(x.1 0 ^ 2 + x.1 1 ^ 2 + x.1 2 ^ 2)) ^ 2 = _
  rw [Real.sq_sqrt (by positivity), h]

theorem KS.Omega_val : KS.Omega pt = Spec.kerrOmega S x := by
  show √(KS.rho pt ^ 4 + KS.a2 pt ^ 2 + 4 * KS.adotx pt ^ 2 - 2 * KS.a2 pt * KS.rho pt ^ 2) = _
  rw [show KS.rho pt ^ 4 = (KS.rho pt ^ 2) ^ 2 by ring, KS.rho_sq, KS.a2_val, KS.adotx_val]
  unfold Spec.kerrOmega
  congr 1
  ring

theorem KS.r_val : KS.r pt = Spec.kerrR S x := by
  show √(1 / 2 * (-KS.a2 pt + KS.Omega pt + KS.rho pt ^ 2)) = _
  rw [KS.rho_sq, KS.a2_val, KS.Omega_val]
  unfold Spec.kerrR
  congr 1
  ring

theorem KS.H_val : KS.H pt = Spec.kerrH M S x := by
  show M * KS.r pt ^ 3 / (KS.r pt ^ 4 + KS.adotx pt ^ 2) = _
  rw [KS.r_val, KS.adotx_val]
  rfl

theorem KS.dr_val (i : Fin 3) : KS.drT pt i = val (D i (Spec.kr M S)) := by
  have h1 := congrArg val ((kerr_radius (M := M) (a := S)).dr i)
  simp only [map_mul, map_add, map_sub, map_pow, map_ofNat, v_norm2, v_norm2_a, v_kdot, v_kr, v_kx, v_kconst] at h1
  have h2 := kerrR_sq S x
  have h3 := x.2.1
  have h4 := kerrOmega_pos x.2.1
  rw [show 2 * Spec.kerrR S x ^ 2 - Spec.norm2 x + Spec.norm2 S = Spec.kerrOmega S x by rw [h2]; ring] at h1
  have h5 : KS.drT pt i = ((KS.adotx pt * S i - 1 / 2 * KS.a2 pt * x.1 i) / KS.Omega pt +
      1 / 2 * (x.1 i + x.1 i * KS.rho pt ^ 2 / KS.Omega pt)) / KS.r pt := by
    fin_cases i <;> rfl
  rw [h5, KS.adotx_val, KS.a2_val, KS.Omega_val, KS.r_val, KS.rho_sq]
  field_simp
  linear_combination (-2) * h1 - 2 * x.1 i * h2

theorem KS.dH_val (i : Fin 3) : 2 * KS.dHT pt i = val (D i (Spec.kphi M S)) := by
  have e : Spec.kphi M S * (Spec.kr M S * Spec.kr M S * (Spec.kr M S * Spec.kr M S) + (∑ i, Spec.kconst M S (S i) * Spec.kx M S i) *
      ∑ i, Spec.kconst M S (S i) * Spec.kx M S i) = Spec.kconst M S (2 * M) * (Spec.kr M S * Spec.kr M S * Spec.kr M S) := by
    refine smoothOn_ext fun x => ?_
    have h3 := x.2.1
    simp only [map_mul, map_add, v_kdot, v_kr, v_kphi, v_kconst]
    unfold Spec.kerrH
    field_simp
  have h1 := congrArg (fun f => val (D i f)) e
  simp only [Spec.Calculus.mul, Spec.Calculus.add, (kerr_radius (M := M) (a := S)).dax, d_const] at h1
  simp only [map_mul, map_add, map_zero, v_kdot, v_kr, v_kphi, v_kconst] at h1
  have h5 : KS.dHT pt i = KS.H pt * (-2 * KS.adotx pt * S i * KS.r pt + KS.drT pt i * (-KS.r pt ^ 4 + 3 * KS.adotx pt ^ 2)) /
      (KS.r pt ^ 5 + KS.r pt * KS.adotx pt ^ 2) := by
    fin_cases i <;> rfl
  have h3 := x.2.1
  rw [h5, KS.adotx_val, KS.r_val, KS.H_val, KS.dr_val]
  have h4 : Spec.kerrH M S x * (Spec.kerrR S x ^ 4 + Spec.kdot S x ^ 2) = M * Spec.kerrR S x ^ 3 := by
    unfold Spec.kerrH
    field_simp
  have h6 : Spec.kerrR S x ^ 4 + Spec.kdot S x ^ 2 ≠ 0 := by positivity
  rw [← mul_left_inj' h6]
  generalize val (D i (Spec.kr M S)) = dr at *
  generalize val (D i (Spec.kphi M S)) = dp at *
  generalize Spec.kerrH M S x = H at *
  generalize Spec.kdot S x = s at *
  generalize Spec.kerrR S x = r at *
  field_simp
  linear_combination -r * h1 + 6 * dr * h4

theorem KS.acx (j : Fin 3) : ∑ n, Spec.crossMat S n j * x.1 n = Spec.vec3 (KS.acrossx1 pt) (KS.acrossx2 pt) (KS.acrossx3 pt) j := by
  fin_cases j <;> simp only [Fin.zero_eta, Fin.mk_one, Fin.reduceFinMk, Spec.crossMat, Fin.sum_univ_three]
  · show _ = -(S 2 * x.1 1) + S 1 * x.1 2
    ring
  · show _ = S 2 * x.1 0 - S 0 * x.1 2
    ring
  · show _ = -(S 1 * x.1 0) + S 0 * x.1 1
    ring

theorem KS.l_val (j : Fin 3) : KS.lT pt j = val (Spec.kl M S j) := by
  have h5 : KS.lT pt j = (KS.adotx pt * S j - (∑ n, Spec.crossMat S n j * x.1 n) * KS.r pt + x.1 j * KS.r pt ^ 2) /
      (KS.a2 pt * KS.r pt + KS.r pt ^ 3) := by
    rw [KS.acx]
    fin_cases j <;> rfl
  have h3 := x.2.1
  have h4 := norm2_nonneg S
  have hc : ∀ n, val (Spec.crossMat (fun i => Spec.kconst M S (S i)) n j) = Spec.crossMat S n j := by
    intro n
    fin_cases n <;> fin_cases j <;> simp [Spec.crossMat, v_kconst]
  rw [h5, KS.adotx_val, KS.r_val, KS.a2_val]
  unfold Spec.kl Spec.kerrL
  simp only [map_mul, map_add, map_sub, map_pow, map_sum, v_kr, v_ku, v_kq, v_kx, v_kconst, hc]
  rw [show ∑ i, S i * x.1 i = Spec.kdot S x from rfl]
  field_simp
  ring

theorem KS.dl_val (i j : Fin 3) : KS.dlT pt j i = val (D i (Spec.kl M S j)) := by
  have h5 : KS.dlT pt j i = (S j * S i + Spec.kd i j * KS.r pt ^ 2 - Spec.crossMat S i j * KS.r pt) / (KS.a2 pt * KS.r pt + KS.r pt ^ 3) +
      KS.drT pt i * (2 * (∑ n, Spec.crossMat S n j * x.1 n) * KS.r pt ^ 3 - KS.adotx pt * S j * (KS.a2 pt + 3 * KS.r pt ^ 2) +
        x.1 j * (-KS.r pt ^ 4 + KS.a2 pt * KS.r pt ^ 2)) / (2 * KS.a2 pt * KS.r pt ^ 4 + KS.r pt ^ 6 + KS.a2 pt ^ 2 * KS.r pt ^ 2) := by
    rw [KS.acx]
    fin_cases j <;> fin_cases i <;> simp only [Fin.zero_eta, Fin.mk_one, Fin.reduceFinMk, Spec.crossMat, Spec.kd, Fin.reduceEq, if_true, if_false,
      KS.dlT, Spec.vec3, KS.drT, KS.dl11, KS.dl12, KS.dl13, KS.dl21, KS.dl22, KS.dl23, KS.dl31, KS.dl32, KS.dl33,
      KS.ahat12, KS.ahat13, KS.ahat23, show KS.aS1 pt = S 0 from rfl, show KS.aS2 pt = S 1 from rfl, show KS.aS3 pt = S 2 from rfl,
      show KerrPt.x1 pt = x.1 0 from rfl, show KerrPt.x2 pt = x.1 1 from rfl, show KerrPt.x3 pt = x.1 2 from rfl] <;> ring
  have h3 := x.2.1
  have h4 := norm2_nonneg S
  have hc : ∀ n, val (Spec.crossMat (fun i => Spec.kconst M S (S i)) n j) = Spec.crossMat S n j := by
    intro n
    fin_cases n <;> fin_cases j <;> simp [Spec.crossMat, v_kconst]
  have hk : val (Spec.kd i j) = Spec.kd i j := by
    unfold Spec.kd
    split <;> simp
  have h1 := congrArg val ((kerr_radius (M := M) (a := S)).dl_eq i j)
  simp only [map_mul, map_add, map_sub, map_pow, map_ofNat, v_norm2_a, v_kr, v_kx, v_kconst, hc, hk] at h1
  rw [map_sum] at h1
  simp only [map_mul, v_kx, hc] at h1
  have h2 := KS.l_val (b := b) x j
  have h6 : KS.lT pt j = (KS.adotx pt * S j - (∑ n, Spec.crossMat S n j * x.1 n) * KS.r pt + x.1 j * KS.r pt ^ 2) /
      (KS.a2 pt * KS.r pt + KS.r pt ^ 3) := by
    rw [KS.acx]
    fin_cases j <;> rfl
  rw [h6, KS.adotx_val, KS.r_val, KS.a2_val] at h2
  rw [h5, KS.adotx_val, KS.r_val, KS.a2_val, KS.dr_val]
  change _ * val (D i (Spec.kl M S j)) + _ * val (Spec.kl M S j) = _ at h1
  rw [← h2] at h1
  have h7 : Spec.kerrR S x * (Spec.kerrR S x ^ 2 + Spec.norm2 S) ≠ 0 := by positivity
  rw [← mul_right_inj' h7]
  generalize val (D i (Spec.kr M S)) = dr at *
  generalize val (D i (Spec.kl M S j)) = dl at *
  generalize Spec.kdot S x = s at *
  generalize Spec.kerrR S x = r at *
  generalize Spec.norm2 S = a2 at *
  generalize (∑ n, Spec.crossMat S n j * x.1 n) = acx at *
  have h8 : r * (r ^ 2 + a2) * dl = 2 * r * dr * x.1 j + r ^ 2 * Spec.kd i j - dr * acx - r * Spec.crossMat S i j + S i * S j -
    (3 * r ^ 2 + a2) * dr * ((s * S j - acx * r + x.1 j * r ^ 2) / (a2 * r + r ^ 3)) := by linear_combination h1
  rw [h8, show 2 * a2 * r ^ 4 + r ^ 6 + a2 ^ 2 * r ^ 2 = (r * (r ^ 2 + a2)) ^ 2 by ring, show a2 * r + r ^ 3 = r * (r ^ 2 + a2) by ring]
  field_simp
  ring

theorem KS.alpha_val : KS.alpha pt = val (Spec.kN M S) := by
  show 1 / √(1 + 2 * KS.H pt) = _
  rw [KS.H_val, v_kN, one_div]

theorem KS.beta_val (i : Fin 3) : KS.betaT pt i = val (Spec.kphi M S * Spec.kt M S * Spec.kl M S i) := by
  have h : KS.betaT pt i = 2 * KS.H pt * KS.lT pt i / (1 + 2 * KS.H pt) := by fin_cases i <;> rfl
  rw [h, KS.H_val, KS.l_val, map_mul, map_mul, v_kphi, v_kt]
  ring

theorem KS.g_val (i j : Fin 3) : KS.gT pt i j = val (Spec.ksMetric (Spec.kl M S) (Spec.kphi M S) (Spec.kt M S) kerr_schild.unit kerr_schild.ht |>.g i j) := by
  show _ = val (Spec.kd i j + Spec.kphi M S * Spec.kl M S i * Spec.kl M S j)
  have h : KS.gT pt i j = Spec.kd i j + 2 * KS.H pt * KS.lT pt i * KS.lT pt j := by
    fin_cases i <;> fin_cases j <;> simp [KS.gT, Spec.vec3, KS.lT, Spec.kd, KS.g11, KS.g12, KS.g13, KS.g22, KS.g23, KS.g33] <;> ring
  have hk : val (Spec.kd i j) = Spec.kd i j := by
    unfold Spec.kd
    split <;> simp
  rw [h, map_add, map_mul, map_mul, hk, v_kphi, KS.H_val, KS.l_val, KS.l_val]

theorem KS.K_val (i j : Fin 3) : KS.KT pt i j = val (Spec.ksK (Spec.kerrCalc M S) (Spec.kl M S) (Spec.kphi M S) (Spec.kN M S) i j) := by
  have h : KS.KT pt i j = KS.alpha pt * (KS.lT pt i * KS.dHT pt j + KS.lT pt j * KS.dHT pt i + KS.H pt * (KS.dlT pt i j + KS.dlT pt j i) +
      2 * KS.H pt * KS.lT pt i * KS.lT pt j * (∑ c, KS.lT pt c * KS.dHT pt c) +
      2 * KS.H pt ^ 2 * (KS.lT pt i * (∑ c, KS.lT pt c * KS.dlT pt j c) + KS.lT pt j * ∑ c, KS.lT pt c * KS.dlT pt i c)) := by
    fin_cases i <;> fin_cases j <;> simp only [Fin.zero_eta, Fin.mk_one, Fin.reduceFinMk, KS.KT, Spec.vec3, KS.lT, KS.dHT, KS.dlT, Fin.sum_univ_three,
      KS.K11, KS.K12, KS.K13, KS.K22, KS.K23, KS.K33] <;> ring
  have hg : ∀ j, ∑ c, KS.lT pt c * KS.dlT pt j c = 0 := by
    intro j
    have := congrArg val ((kerr_schild (M := M) (a := S)).geodesic j)
    simp only [map_sum, map_mul, map_zero] at this
    simp only [KS.l_val, KS.dl_val]
    exact this
  have hH : ∀ i, KS.dHT pt i = val (D i (Spec.kphi M S)) / 2 := fun i => by rw [← KS.dH_val (b := b)]; ring
  rw [h, hg, hg]
  simp only [hH, KS.l_val, KS.dl_val, KS.H_val, KS.alpha_val]
  unfold Spec.ksK
  simp only [map_mul, map_add, map_sum, valueAt_half, v_kphi]
  simp only [Fin.sum_univ_three]
  ring

end
end Sgrid

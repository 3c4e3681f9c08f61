import Verif.Props.KerrData

/-!
# C118: black holes from `Kerr3d`
-/

namespace Sgrid
open Finset

set_option linter.unusedSimpArgs false

/-- The spin divided by the mass, if there is a mass. -/
noncomputable def Spec.spinOverMass (M : ℝ) (S : Fin 3 → ℝ) (i : Fin 3) : ℝ := if M ≠ 0 then S i / M else S i

/-- `Kerr3d` computes with the spin divided by the mass what `SingleBHKS` computes with the spin. -/
def Kerr3d.conv {𝔽 : Type} [Field 𝔽] [DecidableEq 𝔽] (c : KerrPt 𝔽) : KerrPt 𝔽 :=
  { c with Sx := Kerr3d.aS1 c, Sy := Kerr3d.aS2 c, Sz := Kerr3d.aS3 c }

section
variable {𝔽 : Type} [Field 𝔽] [DecidableEq 𝔽] (c : KerrPt 𝔽)

theorem Kerr3d.H_conv : Kerr3d.H c = KS.H (Kerr3d.conv c) := rfl
theorem Kerr3d.l1_conv : Kerr3d.l1 c = KS.l1 (Kerr3d.conv c) := rfl
theorem Kerr3d.l2_conv : Kerr3d.l2 c = KS.l2 (Kerr3d.conv c) := rfl
theorem Kerr3d.l3_conv : Kerr3d.l3 c = KS.l3 (Kerr3d.conv c) := rfl
theorem Kerr3d.dH1_conv : Kerr3d.dH1 c = KS.dH1 (Kerr3d.conv c) := rfl
theorem Kerr3d.dH2_conv : Kerr3d.dH2 c = KS.dH2 (Kerr3d.conv c) := rfl
theorem Kerr3d.dH3_conv : Kerr3d.dH3 c = KS.dH3 (Kerr3d.conv c) := rfl
theorem Kerr3d.dl11_conv : Kerr3d.dl11 c = KS.dl11 (Kerr3d.conv c) := rfl
theorem Kerr3d.dl12_conv : Kerr3d.dl12 c = KS.dl12 (Kerr3d.conv c) := rfl
theorem Kerr3d.dl13_conv : Kerr3d.dl13 c = KS.dl13 (Kerr3d.conv c) := rfl
theorem Kerr3d.dl21_conv : Kerr3d.dl21 c = KS.dl21 (Kerr3d.conv c) := rfl
theorem Kerr3d.dl22_conv : Kerr3d.dl22 c = KS.dl22 (Kerr3d.conv c) := rfl
theorem Kerr3d.dl23_conv : Kerr3d.dl23 c = KS.dl23 (Kerr3d.conv c) := rfl
theorem Kerr3d.dl31_conv : Kerr3d.dl31 c = KS.dl31 (Kerr3d.conv c) := rfl
theorem Kerr3d.dl32_conv : Kerr3d.dl32 c = KS.dl32 (Kerr3d.conv c) := rfl
theorem Kerr3d.dl33_conv : Kerr3d.dl33 c = KS.dl33 (Kerr3d.conv c) := rfl

theorem Kerr3d.K11_conv : Kerr3d.K11 c = KS.K11 (Kerr3d.conv c) := by
  unfold Kerr3d.K11 KS.K11
  simp only [Kerr3d.H_conv, Kerr3d.l1_conv, Kerr3d.l2_conv, Kerr3d.l3_conv, Kerr3d.dH1_conv, Kerr3d.dH2_conv, Kerr3d.dH3_conv, Kerr3d.dl11_conv, Kerr3d.dl12_conv, Kerr3d.dl13_conv, Kerr3d.dl21_conv, Kerr3d.dl22_conv, Kerr3d.dl23_conv, Kerr3d.dl31_conv, Kerr3d.dl32_conv, Kerr3d.dl33_conv]
  rfl

theorem Kerr3d.K12_conv : Kerr3d.K12 c = KS.K12 (Kerr3d.conv c) := by
  unfold Kerr3d.K12 KS.K12
  simp only [Kerr3d.H_conv, Kerr3d.l1_conv, Kerr3d.l2_conv, Kerr3d.l3_conv, Kerr3d.dH1_conv, Kerr3d.dH2_conv, Kerr3d.dH3_conv, Kerr3d.dl11_conv, Kerr3d.dl12_conv, Kerr3d.dl13_conv, Kerr3d.dl21_conv, Kerr3d.dl22_conv, Kerr3d.dl23_conv, Kerr3d.dl31_conv, Kerr3d.dl32_conv, Kerr3d.dl33_conv]
  rfl

theorem Kerr3d.K13_conv : Kerr3d.K13 c = KS.K13 (Kerr3d.conv c) := by
  unfold Kerr3d.K13 KS.K13
  simp only [Kerr3d.H_conv, Kerr3d.l1_conv, Kerr3d.l2_conv, Kerr3d.l3_conv, Kerr3d.dH1_conv, Kerr3d.dH2_conv, Kerr3d.dH3_conv, Kerr3d.dl11_conv, Kerr3d.dl12_conv, Kerr3d.dl13_conv, Kerr3d.dl21_conv, Kerr3d.dl22_conv, Kerr3d.dl23_conv, Kerr3d.dl31_conv, Kerr3d.dl32_conv, Kerr3d.dl33_conv]
  rfl

theorem Kerr3d.K22_conv : Kerr3d.K22 c = KS.K22 (Kerr3d.conv c) := by
  unfold Kerr3d.K22 KS.K22
  simp only [Kerr3d.H_conv, Kerr3d.l1_conv, Kerr3d.l2_conv, Kerr3d.l3_conv, Kerr3d.dH1_conv, Kerr3d.dH2_conv, Kerr3d.dH3_conv, Kerr3d.dl11_conv, Kerr3d.dl12_conv, Kerr3d.dl13_conv, Kerr3d.dl21_conv, Kerr3d.dl22_conv, Kerr3d.dl23_conv, Kerr3d.dl31_conv, Kerr3d.dl32_conv, Kerr3d.dl33_conv]
  rfl

theorem Kerr3d.K23_conv : Kerr3d.K23 c = KS.K23 (Kerr3d.conv c) := by
  unfold Kerr3d.K23 KS.K23
  simp only [Kerr3d.H_conv, Kerr3d.l1_conv, Kerr3d.l2_conv, Kerr3d.l3_conv, Kerr3d.dH1_conv, Kerr3d.dH2_conv, Kerr3d.dH3_conv, Kerr3d.dl11_conv, Kerr3d.dl12_conv, Kerr3d.dl13_conv, Kerr3d.dl21_conv, Kerr3d.dl22_conv, Kerr3d.dl23_conv, Kerr3d.dl31_conv, Kerr3d.dl32_conv, Kerr3d.dl33_conv]
  rfl

theorem Kerr3d.K33_conv : Kerr3d.K33 c = KS.K33 (Kerr3d.conv c) := by
  unfold Kerr3d.K33 KS.K33
  simp only [Kerr3d.H_conv, Kerr3d.l1_conv, Kerr3d.l2_conv, Kerr3d.l3_conv, Kerr3d.dH1_conv, Kerr3d.dH2_conv, Kerr3d.dH3_conv, Kerr3d.dl11_conv, Kerr3d.dl12_conv, Kerr3d.dl13_conv, Kerr3d.dl21_conv, Kerr3d.dl22_conv, Kerr3d.dl23_conv, Kerr3d.dl31_conv, Kerr3d.dl32_conv, Kerr3d.dl33_conv]
  rfl

end

section
variable {M : ℝ} {S : Fin 3 → ℝ} {b : Bool}

local notation "aM" => Spec.spinOverMass M S

theorem Kerr3d.conv_eq (x : Fin 3 → ℝ) : Kerr3d.conv (Spec.kerrPt M S b x) = Spec.kerrPt M aM b x := rfl

variable (x : Spec.kerrDomain M (Spec.spinOverMass M S))
local notation "pt" => Spec.kerrPt M S b x
local notation "pa" => Spec.kerrPt M aM b x
local notation "val" => Spec.valueAt x
local notation "D" => Spec.Calculus.d (Spec.kerrCalc M aM)
local notation "γ" => Spec.KerrSchild.metric (kerr_schild (M := M) (a := aM))

theorem Kerr3d.H_eq : Kerr3d.H pt = KS.H pa := rfl
theorem Kerr3d.l1_eq : Kerr3d.l1 pt = KS.lT pa 0 := rfl
theorem Kerr3d.l2_eq : Kerr3d.l2 pt = KS.lT pa 1 := rfl
theorem Kerr3d.l3_eq : Kerr3d.l3 pt = KS.lT pa 2 := rfl
theorem Kerr3d.dH1_eq : Kerr3d.dH1 pt = KS.dHT pa 0 := rfl
theorem Kerr3d.dH2_eq : Kerr3d.dH2 pt = KS.dHT pa 1 := rfl
theorem Kerr3d.dH3_eq : Kerr3d.dH3 pt = KS.dHT pa 2 := rfl
theorem Kerr3d.dl11_eq : Kerr3d.dl11 pt = KS.dlT pa 0 0 := rfl
theorem Kerr3d.dl12_eq : Kerr3d.dl12 pt = KS.dlT pa 0 1 := rfl
theorem Kerr3d.dl13_eq : Kerr3d.dl13 pt = KS.dlT pa 0 2 := rfl
theorem Kerr3d.dl21_eq : Kerr3d.dl21 pt = KS.dlT pa 1 0 := rfl
theorem Kerr3d.dl22_eq : Kerr3d.dl22 pt = KS.dlT pa 1 1 := rfl
theorem Kerr3d.dl23_eq : Kerr3d.dl23 pt = KS.dlT pa 1 2 := rfl
theorem Kerr3d.dl31_eq : Kerr3d.dl31 pt = KS.dlT pa 2 0 := rfl
theorem Kerr3d.dl32_eq : Kerr3d.dl32 pt = KS.dlT pa 2 1 := rfl
theorem Kerr3d.dl33_eq : Kerr3d.dl33 pt = KS.dlT pa 2 2 := rfl

theorem Kerr3d.alpha_val : (Kerr3d.point pt).alpha = val (Spec.kN M aM) := KS.alpha_val (b := b) x

theorem Kerr3d.beta_val (i : Fin 3) : (Kerr3d.point pt).beta i = val (Spec.kphi M aM * Spec.kt M aM * Spec.kl M aM i) := by
  rw [← KS.beta_val (b := b)]
  fin_cases i <;> rfl

theorem Kerr3d.g_val (i j : Fin 3) : (Kerr3d.point pt).g (Spec.sym2 i j) = val ((γ).g i j) := by
  rw [← KS.g_val (b := b)]
  fin_cases i <;> fin_cases j <;> rfl

theorem Kerr3d.K11_eq : Kerr3d.K11 pt = KS.K11 pa := Kerr3d.K11_conv _

theorem Kerr3d.K12_eq : Kerr3d.K12 pt = KS.K12 pa := Kerr3d.K12_conv _

theorem Kerr3d.K13_eq : Kerr3d.K13 pt = KS.K13 pa := Kerr3d.K13_conv _

theorem Kerr3d.K22_eq : Kerr3d.K22 pt = KS.K22 pa := Kerr3d.K22_conv _

theorem Kerr3d.K23_eq : Kerr3d.K23 pt = KS.K23 pa := Kerr3d.K23_conv _

theorem Kerr3d.K33_eq : Kerr3d.K33 pt = KS.K33 pa := Kerr3d.K33_conv _

theorem Kerr3d.K_val (i j : Fin 3) : (Kerr3d.point pt).K' (Spec.sym2 i j) =
    val (Spec.ksK (Spec.kerrCalc M aM) (Spec.kl M aM) (Spec.kphi M aM) (Spec.kN M aM) i j) := by
  rw [← KS.K_val (b := b)]
  fin_cases i <;> fin_cases j
  · exact Kerr3d.K11_eq x
  · exact Kerr3d.K12_eq x
  · exact Kerr3d.K13_eq x
  · exact Kerr3d.K12_eq x
  · exact Kerr3d.K22_eq x
  · exact Kerr3d.K23_eq x
  · exact Kerr3d.K13_eq x
  · exact Kerr3d.K23_eq x
  · exact Kerr3d.K33_eq x

theorem Kerr3d.unit_val : Kerr3d.l1 pt * Kerr3d.l1 pt + Kerr3d.l2 pt * Kerr3d.l2 pt + Kerr3d.l3 pt * Kerr3d.l3 pt = 1 := by
  have h := congrArg val (kerr_schild (M := M) (a := aM)).unit
  rw [map_sum, Fin.sum_univ_three] at h
  simp only [map_mul, map_one, ← KS.l_val (b := b)] at h
  exact h

theorem Kerr3d.detgup_val : Kerr3d.detgup pt = (1 + 2 * Kerr3d.H pt)⁻¹ := by
  have h := Kerr3d.unit_val (b := b) x
  unfold Kerr3d.detgup
  rw [one_div]
  congr 1
  unfold Kerr3d.g11 Kerr3d.g12 Kerr3d.g13 Kerr3d.g22 Kerr3d.g23 Kerr3d.g33
  linear_combination 2 * Kerr3d.H pt * h

theorem Kerr3d.gup_val (i j : Fin 3) : (Kerr3d.point pt).gup (Spec.sym2 i j) = val ((γ).inv i j) := by
  have h := Kerr3d.unit_val (b := b) x
  have hp : (1 + 2 * Kerr3d.H pt) * (1 + 2 * Kerr3d.H pt)⁻¹ = 1 := by
    rw [Kerr3d.H_eq, KS.H_val]
    exact mul_inv_cancel₀ x.2.2.ne'
  have e : val ((γ).inv i j) = Spec.kd i j - 2 * Kerr3d.H pt * (1 + 2 * Kerr3d.H pt)⁻¹ * KS.lT pa i * KS.lT pa j := by
    show val (Spec.kd i j - Spec.kphi M aM * Spec.kt M aM * Spec.kl M aM i * Spec.kl M aM j) = _
    have hk : val (Spec.kd i j) = Spec.kd i j := by
      unfold Spec.kd
      split <;> simp
    rw [map_sub, map_mul, map_mul, map_mul, hk, v_kphi, v_kt, KS.l_val, KS.l_val, Kerr3d.H_eq, KS.H_val]
  rw [e]
  fin_cases i <;> fin_cases j <;>
    simp only [Fin.zero_eta, Fin.mk_one, Fin.reduceFinMk, Spec.kd, Fin.reduceEq, if_true, if_false, Spec.sym2, Kerr3d.point, List.getD_cons_zero, List.getD_cons_succ,
      Kerr3d.gup11, Kerr3d.gup12, Kerr3d.gup13, Kerr3d.gup22, Kerr3d.gup23, Kerr3d.gup33, Kerr3d.detgup_val,
      Kerr3d.g11, Kerr3d.g12, Kerr3d.g13, Kerr3d.g22, Kerr3d.g23, Kerr3d.g33, ← Kerr3d.l1_eq, ← Kerr3d.l2_eq, ← Kerr3d.l3_eq] <;>
    first
      | linear_combination hp + 2 * Kerr3d.H pt * (1 + 2 * Kerr3d.H pt)⁻¹ * h
      | ring1

theorem Kerr3d.TrK_val : (Kerr3d.point pt).TrK =
    val (Spec.trace γ (Spec.ksK (Spec.kerrCalc M aM) (Spec.kl M aM) (Spec.kphi M aM) (Spec.kN M aM))) := by
  unfold Spec.trace
  simp only [map_sum, map_mul, ← Kerr3d.K_val (b := b), ← Kerr3d.gup_val (b := b)]
  simp only [Fin.sum_univ_three, Spec.sym2, Kerr3d.point, List.getD_cons_zero, List.getD_cons_succ, Kerr3d.TrK]
  ring

/-- The derivatives of the metric; the last index is the one of the derivative. -/
def Kerr3d.dgT {𝔽 : Type} [Field 𝔽] [DecidableEq 𝔽] (c : KerrPt 𝔽) (i j : Fin 3) : Fin 3 → 𝔽 := fun k =>
  [dg111 c, dg112 c, dg113 c, dg121 c, dg122 c, dg123 c, dg131 c, dg132 c, dg133 c,
    dg221 c, dg222 c, dg223 c, dg231 c, dg232 c, dg233 c, dg331 c, dg332 c, dg333 c].getD (3 * Spec.sym2 i j + k) 0

theorem Kerr3d.dg_val (i j k : Fin 3) : Kerr3d.dgT pt i j k = val (D k ((γ).g i j)) := by
  have e : val (D k ((γ).g i j)) = 2 * KS.dHT pa k * KS.lT pa i * KS.lT pa j + 2 * KS.H pa * (KS.dlT pa i k * KS.lT pa j + KS.lT pa i * KS.dlT pa j k) := by
    have hk : D k (Spec.kd i j) = 0 := by
      unfold Spec.kd
      split
      · exact Spec.Calculus.one _ _
      · exact Spec.Calculus.zero _ _
    show val (D k (Spec.kd i j + Spec.kphi M aM * Spec.kl M aM i * Spec.kl M aM j)) = _
    rw [Spec.Calculus.add, Spec.Calculus.mul, Spec.Calculus.mul, hk]
    simp only [map_add, map_mul, map_zero, ← KS.l_val (b := b), ← KS.dl_val (b := b), ← KS.dH_val (b := b), v_kphi, ← KS.H_val (b := b)]
    ring
  rw [e]
  fin_cases i <;> fin_cases j <;> fin_cases k <;>
    simp only [Fin.zero_eta, Fin.mk_one, Fin.reduceFinMk, Spec.sym2, Kerr3d.dgT, Nat.reduceMul, Fin.coe_ofNat_eq_mod, Nat.reduceMod, Nat.reduceAdd,
      List.getD_cons_zero, List.getD_cons_succ,
      dg111, dg112, dg113, dg121, dg122, dg123, dg131, dg132, dg133, dg221, dg222, dg223, dg231, dg232, dg233, dg331, dg332, dg333,
      Kerr3d.H_eq, Kerr3d.l1_eq, Kerr3d.l2_eq, Kerr3d.l3_eq, Kerr3d.dH1_eq, Kerr3d.dH2_eq, Kerr3d.dH3_eq, Kerr3d.dl11_eq, Kerr3d.dl12_eq, Kerr3d.dl13_eq,
      Kerr3d.dl21_eq, Kerr3d.dl22_eq, Kerr3d.dl23_eq, Kerr3d.dl31_eq, Kerr3d.dl32_eq, Kerr3d.dl33_eq] <;> ring1

/-- The Christoffel symbols with the first index lowered. -/
def Kerr3d.GamdoT {𝔽 : Type} [Field 𝔽] [DecidableEq 𝔽] (c : KerrPt 𝔽) (k i j : Fin 3) : 𝔽 :=
  [Gamdo111 c, Gamdo112 c, Gamdo113 c, Gamdo122 c, Gamdo123 c, Gamdo133 c, Gamdo211 c, Gamdo212 c, Gamdo213 c, Gamdo222 c, Gamdo223 c, Gamdo233 c,
    Gamdo311 c, Gamdo312 c, Gamdo313 c, Gamdo322 c, Gamdo323 c, Gamdo333 c].getD (6 * k + Spec.sym2 i j) 0

theorem Kerr3d.Gamdo_val (k i j : Fin 3) : Kerr3d.GamdoT pt k i j = val (Spec.christoffelLow (Spec.kerrCalc M aM) γ k i j) := by
  unfold Spec.christoffelLow
  simp only [map_mul, map_add, map_sub, valueAt_half, ← Kerr3d.dg_val (b := b)]
  fin_cases k <;> fin_cases i <;> fin_cases j <;>
    simp only [Fin.zero_eta, Fin.mk_one, Fin.reduceFinMk, Spec.sym2, Kerr3d.dgT, Kerr3d.GamdoT, Nat.reduceMul, Fin.coe_ofNat_eq_mod, Nat.reduceMod, Nat.reduceAdd,
      List.getD_cons_zero, List.getD_cons_succ, Gamdo111, Gamdo112, Gamdo113, Gamdo122, Gamdo123, Gamdo133, Gamdo211, Gamdo212, Gamdo213, Gamdo222,
      Gamdo223, Gamdo233, Gamdo311, Gamdo312, Gamdo313, Gamdo322, Gamdo323, Gamdo333] <;> ring1

theorem Kerr3d.Gam_val (k i j : Fin 3) : (Kerr3d.point pt).Gam (6 * k + Spec.sym2 i j) = val (Spec.christoffel (Spec.kerrCalc M aM) γ k i j) := by
  unfold Spec.christoffel
  simp only [map_sum, map_mul, ← Kerr3d.gup_val (b := b), ← Kerr3d.Gamdo_val (b := b)]
  fin_cases k <;> fin_cases i <;> fin_cases j <;>
    simp only [Fin.zero_eta, Fin.mk_one, Fin.reduceFinMk, Spec.sym2, Kerr3d.GamdoT, Nat.reduceMul, Fin.coe_ofNat_eq_mod, Nat.reduceMod, Nat.reduceAdd,
      List.getD_cons_zero, List.getD_cons_succ, Kerr3d.point, Fin.sum_univ_three, Gam111, Gam112, Gam113, Gam122, Gam123, Gam133, Gam211, Gam212, Gam213, Gam222,
      Gam223, Gam233, Gam311, Gam312, Gam313, Gam322, Gam323, Gam333] <;> ring1

theorem Kerr3d.G_val (k : Fin 3) : (Kerr3d.point pt).G k = val (Spec.contracted (Spec.kerrCalc M aM) γ k) := by
  unfold Spec.contracted
  simp only [map_sum, map_mul, ← Kerr3d.gup_val (b := b), ← Kerr3d.Gam_val (b := b)]
  fin_cases k <;>
    simp only [Fin.zero_eta, Fin.mk_one, Fin.reduceFinMk, Spec.sym2, Nat.reduceMul, Fin.coe_ofNat_eq_mod, Nat.reduceMod, Nat.reduceAdd,
      List.getD_cons_zero, List.getD_cons_succ, Kerr3d.point, Fin.sum_univ_three, G1, G2, G3] <;> ring1

theorem Kerr3d.dt_val (i : Fin 3) : val (D i (Spec.kt M aM)) = -(2 * KS.dHT pa i * ((1 + 2 * KS.H pa)⁻¹) ^ 2) := by
  have h := congrArg val ((kerr_schild (M := M) (a := aM)).dt i)
  rw [h]
  simp only [map_neg, map_mul, map_pow, v_kt, ← KS.dH_val (b := b), ← KS.H_val (b := b)]
  ring

theorem Kerr3d.dalpha_val (i : Fin 3) : (Kerr3d.point pt).dalpha i = val (D i (Spec.kN M aM)) := by
  have h1 := congrArg (fun f => val (D i f)) (kN_sq (M := M) (a := aM))
  have hs := Real.sqrt_pos.2 x.2.2
  have hq := Real.sq_sqrt x.2.2.le
  simp only [pow_two, Spec.Calculus.mul] at h1
  rw [Kerr3d.dt_val (b := b), map_add, map_mul, map_mul, v_kN, KS.H_val] at h1
  have e : (Kerr3d.point pt).dalpha i = -(KS.dHT pa i / (√(1 + 2 * KS.H pa) + 2 * KS.H pa * √(1 + 2 * KS.H pa))) := by
    fin_cases i <;> rfl
  rw [e, KS.H_val]
  generalize val (D i (Spec.kN M aM)) = dN at *
  generalize KS.dHT pa i = dH at *
  obtain ⟨s, hs'⟩ : ∃ s, s = √(1 + 2 * Spec.kerrH M aM x) := ⟨_, rfl⟩
  rw [← hs'] at h1 hs hq ⊢
  rw [show s + 2 * Spec.kerrH M aM x * s = s * s ^ 2 by rw [hq]; ring]
  rw [← hq] at h1
  field_simp at h1 ⊢
  linarith

theorem Kerr3d.dbeta_val (i j : Fin 3) : (Kerr3d.point pt).dbeta (3 * i + j) = val (D j (Spec.kphi M aM * Spec.kt M aM * Spec.kl M aM i)) := by
  rw [Spec.Calculus.mul, Spec.Calculus.mul]
  simp only [map_add, map_mul, v_kphi, v_kt, Kerr3d.dt_val (b := b), ← KS.l_val (b := b), ← KS.dl_val (b := b), ← KS.dH_val (b := b), ← KS.H_val (b := b)]
  have hp : 1 + 2 * KS.H pa ≠ 0 := by
    rw [KS.H_val]
    exact x.2.2.ne'
  have e : (Kerr3d.point pt).dbeta (3 * i + j) = 2 * (KS.dlT pa i j * KS.H pa + KS.dHT pa j * KS.lT pa i) / (1 + 2 * KS.H pa) -
      4 * KS.dHT pa j * KS.H pa * KS.lT pa i / (1 + 4 * (KS.H pa + KS.H pa ^ 2)) := by
    fin_cases i <;> fin_cases j <;> rfl
  rw [e, show 1 + 4 * (KS.H pa + KS.H pa ^ 2) = (1 + 2 * KS.H pa) ^ 2 by ring]
  field_simp
  ring

end

variable (M : ℝ) (S : Fin 3 → ℝ) (b : Bool)

/-- **C118.** At every point where the Kerr metric with the parameter `a = S / M` is regular, the code writes a metric, its inverse, lapse,
shift, extrinsic curvature with its trace, the Christoffel symbols, their contraction and the derivatives of lapse and shift, and these
fields solve Einstein's equations without matter: the two constraints hold and the metric does not change with time. -/
theorem C118_kerr3d : ∃ (γ : Spec.Metric (Spec.smoothOn (Spec.kerrDomain M (Spec.spinOverMass M S))))
    (α : Spec.smoothOn (Spec.kerrDomain M (Spec.spinOverMass M S))) (β : Fin 3 → Spec.smoothOn (Spec.kerrDomain M (Spec.spinOverMass M S)))
    (K : Fin 3 → Fin 3 → Spec.smoothOn (Spec.kerrDomain M (Spec.spinOverMass M S))),
    (∀ (x : Spec.kerrDomain M (Spec.spinOverMass M S)) (i j k : Fin 3),
      (Kerr3d.point (Spec.kerrPt M S b x)).g (Spec.sym2 i j) = Spec.valueAt x (γ.g i j) ∧
      (Kerr3d.point (Spec.kerrPt M S b x)).gup (Spec.sym2 i j) = Spec.valueAt x (γ.inv i j) ∧
      (Kerr3d.point (Spec.kerrPt M S b x)).alpha = Spec.valueAt x α ∧
      (Kerr3d.point (Spec.kerrPt M S b x)).beta i = Spec.valueAt x (β i) ∧
      (Kerr3d.point (Spec.kerrPt M S b x)).K' (Spec.sym2 i j) = Spec.valueAt x (K i j) ∧
      (Kerr3d.point (Spec.kerrPt M S b x)).TrK = Spec.valueAt x (Spec.trace γ K) ∧
      (Kerr3d.point (Spec.kerrPt M S b x)).Gam (6 * k + Spec.sym2 i j) = Spec.valueAt x (Spec.christoffel (Spec.calculusOn (kerrDomain_open _ _)) γ k i j) ∧
      (Kerr3d.point (Spec.kerrPt M S b x)).G i = Spec.valueAt x (Spec.contracted (Spec.calculusOn (kerrDomain_open _ _)) γ i) ∧
      (Kerr3d.point (Spec.kerrPt M S b x)).dalpha i = Spec.valueAt x ((Spec.calculusOn (kerrDomain_open _ _)).d i α) ∧
      (Kerr3d.point (Spec.kerrPt M S b x)).dbeta (3 * i + j) = Spec.valueAt x ((Spec.calculusOn (kerrDomain_open _ _)).d j (β i))) ∧
    Spec.trace γ (Spec.ricci (Spec.calculusOn (kerrDomain_open _ _)) γ) + Spec.trace γ K ^ 2 - Spec.square γ K = 0 ∧
    (∀ a, ∑ b, ∑ c, γ.inv b c * Spec.cov2 (Spec.calculusOn (kerrDomain_open _ _)) γ (fun i j => K i j - γ.g i j * Spec.trace γ K) c a b = 0) ∧
    ∀ i j, -2 * α * K i j + Spec.lie2 (Spec.calculusOn (kerrDomain_open _ _)) β γ.g i j = 0 :=
  ⟨Spec.KerrSchild.metric kerr_schild, Spec.kN M (Spec.spinOverMass M S), fun i => Spec.kphi M (Spec.spinOverMass M S) * Spec.kt M (Spec.spinOverMass M S) *
      Spec.kl M (Spec.spinOverMass M S) i, Spec.ksK (Spec.kerrCalc M _) (Spec.kl M _) (Spec.kphi M _) (Spec.kN M _),
    fun x i j k => ⟨Kerr3d.g_val x i j, Kerr3d.gup_val x i j, Kerr3d.alpha_val x, Kerr3d.beta_val x i, Kerr3d.K_val x i j, Kerr3d.TrK_val x, Kerr3d.Gam_val x k i j,
      Kerr3d.G_val x i, Kerr3d.dalpha_val x i, Kerr3d.dbeta_val x i j⟩,
    kerr_schild.hamiltonian kN_sq, fun a => kerr_schild.momentum kN_sq a, fun i j => kerr_schild.stationary kN_sq i j⟩

/-- **C119.** `Kerr3d` and `SingleBHKS` write the same lapse, shift, metric and extrinsic curvature for a black hole of unit mass or without
spin, if the latter does not split off a conformal factor. -/
theorem C119_same {𝔽 : Type} [Field 𝔽] [DecidableEq 𝔽] (c : KerrPt 𝔽) (hM : c.M = 1 ∨ (c.Sx = 0 ∧ c.Sy = 0 ∧ c.Sz = 0))
    (hb : c.conformalFactor = false) : (Kerr3d.point c).alpha = (KS.point c).alpha ∧ (Kerr3d.point c).beta = (KS.point c).beta ∧
      (Kerr3d.point c).g = (KS.point c).gb ∧ (Kerr3d.point c).K' = (KS.point c).K' := by
  have e : Kerr3d.conv c = c := by
    unfold Kerr3d.conv Kerr3d.aS1 Kerr3d.aS2 Kerr3d.aS3 Kerr3d.aS1_0 Kerr3d.aS2_0 Kerr3d.aS3_0
    rcases hM with h | ⟨h1, h2, h3⟩
    · rw [h, if_pos one_ne_zero, if_pos one_ne_zero, if_pos one_ne_zero, div_one, div_one, div_one, ← h]
    · rw [h1, h2, h3]
      simp only [zero_div, ite_self]
      cases c
      simp_all
  have hp : KS.psi c = 1 := by
    unfold KS.psi KS.psi_F
    rw [hb]
    rfl
  have hd : ∀ y : 𝔽, y / KS.psi c ^ 4 = y := fun y => by rw [hp, one_pow, div_one]
  refine ⟨(show Kerr3d.alpha c = KS.alpha (Kerr3d.conv c) from rfl).trans (by rw [e]; rfl), ?_, ?_, ?_⟩
  · show (fun n => [KS.beta1 (Kerr3d.conv c), KS.beta2 (Kerr3d.conv c), KS.beta3 (Kerr3d.conv c)].getD n 0) = _
    rw [e]
    rfl
  · show (fun n => [KS.g11 (Kerr3d.conv c), KS.g12 (Kerr3d.conv c), KS.g13 (Kerr3d.conv c), KS.g22 (Kerr3d.conv c), KS.g23 (Kerr3d.conv c),
      KS.g33 (Kerr3d.conv c)].getD n 0) = fun n => [KS.gb11 c, KS.gb12 c, KS.gb13 c, KS.gb22 c, KS.gb23 c, KS.gb33 c].getD n 0
    unfold KS.gb11 KS.gb12 KS.gb13 KS.gb22 KS.gb23 KS.gb33
    simp only [e, hd]
  · show (fun n => [Kerr3d.K11 c, Kerr3d.K12 c, Kerr3d.K13 c, Kerr3d.K22 c, Kerr3d.K23 c, Kerr3d.K33 c].getD n 0) =
      fun n => [KS.K11 c, KS.K12 c, KS.K13 c, KS.K22 c, KS.K23 c, KS.K33 c].getD n 0
    simp only [Kerr3d.K11_conv, Kerr3d.K12_conv, Kerr3d.K13_conv, Kerr3d.K22_conv, Kerr3d.K23_conv, Kerr3d.K33_conv, e]

/-- A black hole of mass two. -/
def exTwo : KerrPt ℚ where
  x1 := 0
  x2 := 0
  x3 := 1
  M := 2
  Sx := 0
  Sy := 0
  Sz := 2
  sqrt := exKerrSqrt
  conformalFactor := false

/-- **C119.** For another mass the two programs describe black holes with different spins: `SingleBHKS` takes the parameter for the spin as Kerr's
`a`, `Kerr3d` divides it by the mass. -/
theorem C119_counterexample : (KS.point exTwo).gb 5 = 9 / 5 ∧ (Kerr3d.point exTwo).g 5 = 3 := by decide +kernel

example : KS.r exTwo ^ 2 = (-KS.a2 exTwo + KS.Omega exTwo + KS.rho exTwo ^ 2) / 2 ∧ Kerr3d.r exTwo ^ 2 = (-Kerr3d.a2 exTwo + Kerr3d.Omega exTwo + Kerr3d.rho exTwo ^ 2) / 2 ∧
    KS.Omega exTwo = 5 ∧ Kerr3d.Omega exTwo = 2 := by decide +kernel

/-- The point of the examples with the spin `60 = 5 M`. -/
def exKerr3d : KerrPt ℚ := { exKerr false with Sz := 60 }

example : (List.range 6).map (Kerr3d.point exKerr3d).g = [52 / 25, 0, 36 / 25, 1, 0, 73 / 25] := by decide +kernel
example : (List.range 6).map (Kerr3d.point exKerr3d).gup = [73 / 100, 0, -9 / 25, 1, 0, 13 / 25] := by decide +kernel
example : (Kerr3d.point exKerr3d).TrK = 3 / 8 ∧ (Kerr3d.point exKerr3d).alpha = 1 / 2 := by decide +kernel
example : (List.range 3).map (Kerr3d.point exKerr3d).G = [27 / 320, -9 / 256, 219 / 1280] := by decide +kernel
example : (List.range 3).map (Kerr3d.point exKerr3d).dalpha = [-9 / 640, -9 / 512, 27 / 2560] := by decide +kernel

end Sgrid

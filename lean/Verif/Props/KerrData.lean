import Verif.Props.KerrValues

/-!
# C117, C118: black holes in Kerr-Schild coordinates
-/

namespace Sgrid
open Finset
open scoped ContDiff

/-- The fields that `SingleBHKS` writes for the mass `M` and the spin `S`, where the Kerr metric is regular; there is no matter. -/
structure Spec.KerrData (M : ℝ) (S : Fin 3 → ℝ) (b : Bool) (F : Spec.AdmFields (Spec.smoothOn (Spec.kerrDomain M S))) : Prop where
  g : ∀ (x : Spec.kerrDomain M S) (i j : Fin 3), (KS.point (Spec.kerrPt M S b x)).gb (Spec.sym2 i j) = Spec.valueAt x (F.g i j)
  K : ∀ (x : Spec.kerrDomain M S) (i j : Fin 3), (KS.point (Spec.kerrPt M S b x)).K' (Spec.sym2 i j) = Spec.valueAt x (F.K i j)
  ψ : ∀ x : Spec.kerrDomain M S, (KS.point (Spec.kerrPt M S b x)).psi = Spec.valueAt x F.ψ
  α : ∀ x : Spec.kerrDomain M S, (KS.point (Spec.kerrPt M S b x)).alpha = Spec.valueAt x F.α
  β : ∀ (x : Spec.kerrDomain M S) (i : Fin 3), (KS.point (Spec.kerrPt M S b x)).beta i = Spec.valueAt x (F.β i)
  ρ : F.ρ = 0
  j : ∀ i, F.j i = 0
  stress : ∀ i j, F.S i j = 0

section
variable {M : ℝ} {S : Fin 3 → ℝ} {b : Bool} {F : Spec.AdmFields (Spec.smoothOn (Spec.kerrDomain M S))}

local notation "C" => Spec.kerrCalc M S
local notation "γ" => Spec.KerrSchild.metric (kerr_schild (M := M) (a := S))

theorem KS.psi_pos (hM : b = true → 0 ≤ M) (x : Spec.kerrDomain M S) : 0 < KS.psi (Spec.kerrPt M S b x) := by
  unfold KS.psi
  cases b
  · simp [Spec.kerrPt, KS.psi_F]
  · have h1 := hM rfl
    have h2 := x.2.1
    show 0 < 1 + 2 * M / KS.r _
    rw [KS.r_val]
    positivity

theorem KS.gb_eq (hM : b = true → 0 ≤ M) (x : Spec.kerrDomain M S) (i j : Fin 3) :
    KS.psi (Spec.kerrPt M S b x) ^ 4 * (KS.point (Spec.kerrPt M S b x)).gb (Spec.sym2 i j) = KS.gT (Spec.kerrPt M S b x) i j := by
  have h := KS.psi_pos hM x
  have e : (KS.point (Spec.kerrPt M S b x)).gb (Spec.sym2 i j) = KS.gT (Spec.kerrPt M S b x) i j / KS.psi (Spec.kerrPt M S b x) ^ 4 := by
    fin_cases i <;> fin_cases j <;> rfl
  rw [e]
  field_simp

theorem KerrData_metric (hM : b = true → 0 ≤ M) (hF : Spec.KerrData M S b F) (i j : Fin 3) : (γ).g i j = F.ψ ^ 4 * F.g i j := by
  refine smoothOn_ext fun x => ?_
  rw [map_mul, map_pow, ← hF.ψ, ← hF.g]
  exact (KS.g_val x i j).symm.trans (KS.gb_eq hM x i j).symm

theorem KerrData_K (hF : Spec.KerrData M S b F) : F.K = Spec.ksK C (Spec.kl M S) (Spec.kphi M S) (Spec.kN M S) := by
  funext i j
  refine smoothOn_ext fun x => ?_
  rw [← hF.K, ← KS.K_val (b := b)]
  fin_cases i <;> fin_cases j <;> rfl

theorem KerrData_α (hF : Spec.KerrData M S b F) : F.α = Spec.kN M S := by
  refine smoothOn_ext fun x => ?_
  rw [← hF.α, ← KS.alpha_val (b := b)]
  rfl

theorem KerrData_β (hF : Spec.KerrData M S b F) : F.β = fun i => Spec.kphi M S * Spec.kt M S * Spec.kl M S i := by
  funext i
  refine smoothOn_ext fun x => ?_
  rw [← hF.β, ← KS.beta_val (b := b)]
  fin_cases i <;> rfl

variable (M S b) in
/-- **C117.** What the code writes are smooth fields. -/
theorem C117_fields (hM : b = true → 0 ≤ M) : ∃ F', Spec.KerrData M S b F' := by
  have hp : ∃ P Q : Spec.smoothOn (Spec.kerrDomain M S), (∀ x, Spec.valueAt x P = KS.psi (Spec.kerrPt M S b x)) ∧
      ∀ x, Spec.valueAt x Q = (KS.psi (Spec.kerrPt M S b x) ^ 4)⁻¹ := by
    cases b
    · refine ⟨1, 1, fun x => ?_, fun x => ?_⟩ <;> simp [KS.psi, Spec.kerrPt, KS.psi_F]
    · have hs : ContDiffOn ℝ ∞ (fun x => 1 + 2 * M / Spec.kerrR S x) (Spec.kerrDomain M S) :=
        contDiffOn_const.add (contDiffOn_const.div contDiffOn_kerrR fun _ hx => hx.1.ne')
      have hv : ∀ x : Spec.kerrDomain M S, 1 + 2 * M / Spec.kerrR S x = KS.psi (Spec.kerrPt M S true x) := by
        intro x
        rw [← KS.r_val (b := true)]
        rfl
      refine ⟨Spec.restrict _ hs, Spec.restrict (fun x => ((1 + 2 * M / Spec.kerrR S x) ^ 4)⁻¹) ((hs.pow 4).inv fun x hx => ?_),
        fun x => ?_, fun x => ?_⟩
      · have := KS.psi_pos hM ⟨x, hx⟩
        rw [← hv] at this
        positivity
      · exact hv x
      · rw [valueAt_restrict, hv]
  obtain ⟨P, Q, hP, hQ⟩ := hp
  refine ⟨⟨P, Spec.kN M S, fun i => Spec.kphi M S * Spec.kt M S * Spec.kl M S i, fun i j => (γ).g i j * Q,
    Spec.ksK C (Spec.kl M S) (Spec.kphi M S) (Spec.kN M S), 0, fun _ => 0, fun _ _ => 0⟩, ?_, ?_, ?_, ?_, ?_, rfl, fun _ => rfl, fun _ _ => rfl⟩
  · intro x i j
    have h := KS.psi_pos hM x
    rw [map_mul, hQ, ← KS.g_val (b := b), ← KS.gb_eq hM]
    field_simp
  · intro x i j
    rw [← KS.K_val (b := b)]
    fin_cases i <;> fin_cases j <;> rfl
  · intro x
    exact (hP x).symm
  · intro x
    exact KS.alpha_val x
  · intro x i
    rw [← KS.beta_val (b := b)]
    fin_cases i <;> rfl

/-- **C117.** From these fields the code for the constraints computes zero for the Hamiltonian and momentum constraints and for the
time derivative of the trace of the extrinsic curvature: the data are initial data for a stationary vacuum. -/
theorem C117_constraints (hM : b = true → 0 ≤ M) (hF : Spec.KerrData M S b F) (x : Spec.kerrDomain M S) {c : AdmConPt ℝ}
    (h : Spec.AdmInput (Spec.calculusOn (kerrDomain_open M S)) (Spec.valueAt x) F c) (hn : c.rhoNull = c.sNull) :
    ∃ o, admPoint c = .ok o ∧ o.ham = 0 ∧ (∀ a : Fin 3, o.mom a = 0) ∧ o.dtrKdt = 0 := by
  obtain ⟨o, ho, h1⟩ := C112_ham h (KerrData_metric hM hF) (fun h => hn ▸ h)
  obtain ⟨o', ho', h2⟩ := C112_mom h (KerrData_metric hM hF) (fun h => hn ▸ h)
  obtain ⟨o'', ho'', -, h3⟩ := C112_trK h (KerrData_metric hM hF) hn
  obtain rfl : o = o' := by rw [ho] at ho'; injection ho'
  obtain rfl : o = o'' := by rw [ho] at ho''; injection ho''
  refine ⟨o, ho, ?_, ?_, ?_⟩
  · rw [h1, hF.ρ, KerrData_K hF, map_zero, mul_zero, sub_zero]
    have e := congrArg (Spec.valueAt x) ((kerr_schild (M := M) (a := S)).hamiltonian kN_sq)
    rw [map_zero] at e
    exact e
  · intro a
    rw [h2, hF.j, KerrData_K hF, map_zero, mul_zero, sub_zero]
    have e := congrArg (Spec.valueAt x) ((kerr_schild (M := M) (a := S)).momentum kN_sq a)
    rw [map_zero] at e
    exact e
  · have hS : Spec.trace γ F.S = 0 := by
      unfold Spec.trace
      simp [hF.stress]
    rw [h3, hF.ρ, hS, KerrData_K hF, KerrData_α hF, KerrData_β hF, mul_zero, sub_zero, mul_zero, map_zero, mul_zero, add_zero]
    have e := congrArg (Spec.valueAt x) ((kerr_schild (M := M) (a := S)).trace_stationary kN_sq)
    rw [map_zero] at e
    simp only [map_add, map_neg, map_mul, map_sum] at e ⊢
    refine Eq.trans ?_ e
    congr 1

/-- **C117.** The metric does not depend on time: `-2 α K + £_β γ = 0` for the lapse, shift and extrinsic curvature of the code. -/
theorem C117_stationary (hM : b = true → 0 ≤ M) (hF : Spec.KerrData M S b F) (i j : Fin 3) :
    -2 * F.α * F.K i j + Spec.lie2 (Spec.calculusOn (kerrDomain_open M S)) F.β (fun i j => F.ψ ^ 4 * F.g i j) i j = 0 := by
  rw [show (fun i j => F.ψ ^ 4 * F.g i j) = (γ).g from funext fun i => funext fun j => (KerrData_metric hM hF i j).symm,
    KerrData_K hF, KerrData_α hF, KerrData_β hF]
  exact kerr_schild.stationary kN_sq i j

theorem KerrData_ψ (hF : Spec.KerrData M S true F) : F.ψ = 1 + Spec.kconst M S (2 * M) * Spec.ku M S := by
  refine smoothOn_ext fun x => ?_
  rw [← hF.ψ, map_add, map_one, map_mul, v_kconst, v_ku]
  show 1 + 2 * M / KS.r _ = _
  rw [KS.r_val, div_eq_mul_inv]

theorem kr_ku : Spec.kr M S * Spec.ku M S = 1 := by
  refine smoothOn_ext fun x => ?_
  rw [map_mul, v_kr, v_ku, map_one]
  exact mul_inv_cancel₀ x.2.1.ne'

theorem d_ku (i : Fin 3) : (C).d i (Spec.ku M S) = -(Spec.ku M S ^ 2 * (C).d i (Spec.kr M S)) := by
  have h := congrArg ((C).d i) (kr_ku (M := M) (S := S))
  rw [(C).mul, (C).one] at h
  linear_combination Spec.ku M S * h - (C).d i (Spec.ku M S) * kr_ku (M := M) (S := S)

/-- **C117.** Without a conformal factor or without spin the code writes the derivatives of the conformal factor: the first and the
second ones, divided by the factor. -/
theorem C117_psi (hb : b = true → 0 ≤ M ∧ S = 0) (hF : Spec.KerrData M S b F) (x : Spec.kerrDomain M S) (i j : Fin 3) :
    (KS.point (Spec.kerrPt M S b x)).psi * (KS.point (Spec.kerrPt M S b x)).dpsiopsi i =
        Spec.valueAt x ((Spec.calculusOn (kerrDomain_open M S)).d i F.ψ) ∧
      (KS.point (Spec.kerrPt M S b x)).psi * (KS.point (Spec.kerrPt M S b x)).ddpsiopsi (Spec.sym2 i j) =
        Spec.valueAt x ((Spec.calculusOn (kerrDomain_open M S)).d i ((Spec.calculusOn (kerrDomain_open M S)).d j F.ψ)) := by
  cases b
  · have e : F.ψ = 1 := by
      refine smoothOn_ext fun x => ?_
      rw [← hF.ψ, map_one]
      rfl
    rw [e, (C).one, (C).one, (C).zero, map_zero]
    constructor
    · fin_cases i <;> exact mul_zero _
    · fin_cases i <;> fin_cases j <;> exact mul_zero _
  · obtain ⟨hM, hS⟩ := hb rfl
    subst hS
    have hr : Spec.kr M 0 * Spec.kr M 0 = ∑ i, Spec.kx M 0 i * Spec.kx M 0 i := by
      refine smoothOn_ext fun y => ?_
      have h1 := kerrR_sq 0 y
      have h2 : Spec.norm2 0 = 0 := by simp [Spec.norm2]
      have h3 : Spec.kdot 0 y = 0 := by simp [Spec.kdot]
      have h4 : Spec.kerrOmega 0 y = Spec.norm2 y := by
        unfold Spec.kerrOmega
        rw [h2, h3, show (Spec.norm2 y - 0) ^ 2 + 4 * (0 : ℝ) ^ 2 = Spec.norm2 y ^ 2 by ring]
        exact Real.sqrt_sq (norm2_nonneg _)
      rw [h2, h4] at h1
      rw [v_norm2, map_mul, v_kr]
      linear_combination h1
    have hdr : ∀ i, (Spec.kerrCalc M 0).d i (Spec.kr M 0) = Spec.kx M 0 i * Spec.ku M 0 := by
      intro i
      have h1 := congrArg ((Spec.kerrCalc M 0).d i) hr
      have h3 := kd_sum' (Spec.kx M 0) i
      simp only [Spec.Calculus.mul, Spec.Calculus.sum, d_coord] at h1
      have h2 : (⅟2 : Spec.smoothOn (Spec.kerrDomain M 0)) * 2 = 1 := invOf_mul_self 2
      simp only [Fin.sum_univ_three] at h1 h3
      have hu := kr_ku (M := M) (S := 0)
      linear_combination ⅟2 * Spec.ku M 0 * h1 + ⅟2 * 2 * Spec.ku M 0 * h3 - ⅟2 * 2 * (Spec.kerrCalc M 0).d i (Spec.kr M 0) * hu -
        ((Spec.kerrCalc M 0).d i (Spec.kr M 0) - Spec.kx M 0 i * Spec.ku M 0) * h2
    have hd : ∀ i, (Spec.kerrCalc M 0).d i F.ψ = -(Spec.kconst M 0 (2 * M) * (Spec.kx M 0 i * Spec.ku M 0 ^ 3)) := by
      intro i
      rw [KerrData_ψ hF, Spec.Calculus.add, Spec.Calculus.mul, Spec.Calculus.one, d_const, d_ku, hdr]
      ring
    have hdd : (Spec.kerrCalc M 0).d i ((Spec.kerrCalc M 0).d j F.ψ) = Spec.kconst M 0 (2 * M) *
        (3 * Spec.kx M 0 i * Spec.kx M 0 j * Spec.ku M 0 ^ 5 - Spec.kd i j * Spec.ku M 0 ^ 3) := by
      rw [hd, Spec.Calculus.neg, show Spec.ku M 0 ^ 3 = Spec.ku M 0 * (Spec.ku M 0 * Spec.ku M 0) by ring]
      simp only [Spec.Calculus.mul, d_const, d_ku, hdr, d_coord]
      ring
    have hp := KS.psi_pos (b := true) (fun _ => hM) x
    have hx := x.2.1
    have hk : Spec.valueAt x (Spec.kd i j) = Spec.kd i j := by
      unfold Spec.kd
      split <;> simp
    constructor
    · rw [hd]
      have e : (KS.point (Spec.kerrPt M 0 true x)).dpsiopsi i = (-2) * M * x.1 i / (KS.r (Spec.kerrPt M 0 true x) ^ 3 * KS.psi (Spec.kerrPt M 0 true x)) := by
        fin_cases i <;> rfl
      rw [e, KS.r_val]
      show KS.psi (Spec.kerrPt M 0 true x) * _ = _
      simp only [map_neg, map_mul, map_pow, v_kconst, v_kx, v_ku]
      field_simp
    · rw [hdd]
      change 0 < KS.psi_T _ at hp
      have e : (KS.point (Spec.kerrPt M 0 true x)).ddpsiopsi (Spec.sym2 i j) =
          M * ((-2) * Spec.kd i j / KS.r (Spec.kerrPt M 0 true x) ^ 3 + 6 * x.1 i * x.1 j / KS.r (Spec.kerrPt M 0 true x) ^ 5) /
            KS.psi_T (Spec.kerrPt M 0 true x) := by
        fin_cases i <;> fin_cases j <;> simp only [Fin.zero_eta, Fin.mk_one, Fin.reduceFinMk, Spec.kd, Fin.reduceEq, if_true, if_false, mul_one, mul_zero, zero_div, zero_add]
        · show M * ((-2) / _ + 6 * x.1 0 ^ 2 / _) / KS.psi_T _ = _
          rw [pow_two, ← mul_assoc]
        · show 6 * M * x.1 0 * x.1 1 / (_ * KS.psi_T _) = _
          rw [div_mul_eq_div_div, mul_div_assoc']
          ring
        · show 6 * M * x.1 0 * x.1 2 / (_ * KS.psi_T _) = _
          rw [div_mul_eq_div_div, mul_div_assoc']
          ring
        · show 6 * M * x.1 0 * x.1 1 / (_ * KS.psi_T _) = _
          rw [div_mul_eq_div_div, mul_div_assoc']
          ring
        · show M * ((-2) / _ + 6 * x.1 1 ^ 2 / _) / KS.psi_T _ = _
          rw [pow_two, ← mul_assoc]
        · show 6 * M * x.1 1 * x.1 2 / (_ * KS.psi_T _) = _
          rw [div_mul_eq_div_div, mul_div_assoc']
          ring
        · show 6 * M * x.1 0 * x.1 2 / (_ * KS.psi_T _) = _
          rw [div_mul_eq_div_div, mul_div_assoc']
          ring
        · show 6 * M * x.1 1 * x.1 2 / (_ * KS.psi_T _) = _
          rw [div_mul_eq_div_div, mul_div_assoc']
          ring
        · show M * ((-2) / _ + 6 * x.1 2 ^ 2 / _) / KS.psi_T _ = _
          rw [pow_two, ← mul_assoc]
      rw [e, KS.r_val]
      show KS.psi_T (Spec.kerrPt M 0 true x) * _ = _
      simp only [map_sub, map_mul, map_pow, map_ofNat, v_kconst, v_kx, v_ku, hk]
      field_simp
      ring

/-- The spin of the examples. -/
def Spec.spin1 : Fin 3 → ℝ := Spec.vec3 0 0 1

/-- The point of the examples. -/
noncomputable def Spec.point1 : Fin 3 → ℝ := Spec.vec3 (6 / 5) (3 / 5) (8 / 5)

theorem point1_omega : Spec.kerrOmega Spec.spin1 Spec.point1 = 116 / 25 := by
  unfold Spec.kerrOmega Spec.norm2 Spec.kdot Spec.spin1 Spec.point1
  simp only [Fin.sum_univ_three, Spec.vec3]
  rw [show ((6 / 5 * (6 / 5) + 3 / 5 * (3 / 5) + 8 / 5 * (8 / 5) - (0 * 0 + 0 * 0 + 1 * 1)) ^ 2 + 4 * (0 * (6 / 5) + 0 * (3 / 5) + 1 * (8 / 5)) ^ 2 : ℝ) =
    (116 / 25) ^ 2 by norm_num]
  exact Real.sqrt_sq (by norm_num)

theorem point1_r : Spec.kerrR Spec.spin1 Spec.point1 = 2 := by
  unfold Spec.kerrR
  rw [point1_omega]
  unfold Spec.norm2 Spec.spin1 Spec.point1
  simp only [Fin.sum_univ_three, Spec.vec3]
  rw [show (((6 / 5 * (6 / 5) + 3 / 5 * (3 / 5) + 8 / 5 * (8 / 5) - (0 * 0 + 0 * 0 + 1 * 1)) + 116 / 25) / 2 : ℝ) = 2 ^ 2 by norm_num]
  exact Real.sqrt_sq (by norm_num)

theorem point1_mem {M : ℝ} (hM : 0 ≤ M) : Spec.point1 ∈ Spec.kerrDomain M Spec.spin1 := by
  show 0 < _ ∧ 0 < _
  unfold Spec.kerrH
  rw [point1_r]
  exact ⟨by norm_num, by positivity⟩

/-- **C117.** With spin the code does not write the derivatives of the conformal factor: it takes `x/r` for the gradient of Kerr's radius. -/
theorem C117_psi_counterexample : ∃ (M : ℝ) (S : Fin 3 → ℝ) (F : Spec.AdmFields (Spec.smoothOn (Spec.kerrDomain M S)))
    (x : Spec.kerrDomain M S), 0 < M ∧ Spec.KerrData M S true F ∧ (KS.point (Spec.kerrPt M S true x)).psi * (KS.point (Spec.kerrPt M S true x)).dpsiopsi 2 ≠
      Spec.valueAt x ((Spec.calculusOn (kerrDomain_open M S)).d 2 F.ψ) := by
  obtain ⟨F, hF⟩ := C117_fields 1 Spec.spin1 true (fun _ => zero_le_one)
  obtain ⟨x, hx⟩ : ∃ x : Spec.kerrDomain 1 Spec.spin1, x.1 = Spec.point1 := ⟨⟨_, point1_mem zero_le_one⟩, rfl⟩
  refine ⟨1, Spec.spin1, F, x, one_pos, hF, ?_⟩
  have h1 : Spec.valueAt x ((Spec.kerrCalc 1 Spec.spin1).d 2 F.ψ) = -(2 * ((1 / 2) ^ 2 * (25 / 29))) := by
    rw [KerrData_ψ hF, Spec.Calculus.add, Spec.Calculus.mul, Spec.Calculus.one, d_const, d_ku, zero_mul, zero_add, zero_add,
      map_mul, map_neg, map_mul, map_pow, v_kconst, v_ku, ← KS.dr_val (b := true)]
    show 2 * 1 * -(_ * (((KS.adotx _ * 1 - 1 / 2 * KS.a2 _ * x.1 2) / KS.Omega _ + 1 / 2 * (x.1 2 + x.1 2 * KS.rho _ ^ 2 / KS.Omega _)) / KS.r _)) = _
    rw [KS.adotx_val, KS.a2_val, KS.Omega_val, KS.r_val, KS.rho_sq, hx, point1_omega, point1_r]
    unfold Spec.norm2 Spec.kdot Spec.spin1 Spec.point1
    simp only [Fin.sum_univ_three, Spec.vec3]
    norm_num
  have h2 : (KS.point (Spec.kerrPt 1 Spec.spin1 true x)).psi * (KS.point (Spec.kerrPt 1 Spec.spin1 true x)).dpsiopsi 2 = -(2 / 5) := by
    show (1 + 2 * 1 / KS.r _) * ((-2) * 1 * x.1 2 / (KS.r _ ^ 3 * (1 + 2 * 1 / KS.r _))) = _
    rw [KS.r_val, hx, point1_r, show Spec.point1 2 = 8 / 5 from rfl]
    norm_num
  rw [h2]
  intro h
  rw [h1] at h
  norm_num at h

end

section Examples

/-- A square root of the numbers that occur. -/
def exKerrSqrt (q : ℚ) : ℚ := if q = 25 then 5 else if q = 1024 then 32 else if q = 16 then 4 else if q = 4 then 2 else if q = 1 then 1 else 0

/-- The point of the examples: `ρ = 5`, `r = 4` and `2 H = 3`. -/
def exKerr (f : Bool) : KerrPt ℚ where
  x1 := 12 / 5
  x2 := 3
  x3 := 16 / 5
  M := 12
  Sx := 0
  Sy := 0
  Sz := 5
  sqrt := exKerrSqrt
  conformalFactor := f

example : (List.range 6).map (KS.point (exKerr false)).gb = [52 / 25, 0, 36 / 25, 1, 0, 73 / 25] := by decide +kernel
example : (List.range 6).map (KS.point (exKerr false)).K' = [3 / 16, 27 / 640, -9 / 128, 3 / 16, 9 / 160, 0] := by decide +kernel
example : (KS.point (exKerr false)).alpha = 1 / 2 ∧ (List.range 3).map (KS.point (exKerr false)).beta = [9 / 20, 0, 3 / 5] := by decide +kernel
example : (KS.point (exKerr true)).psi = 7 ∧ (KS.point (exKerr true)).gb 5 = 73 / 60025 := by decide +kernel
example : (List.range 3).map (KS.point (exKerr true)).dpsiopsi = [-9 / 70, -9 / 56, -6 / 35] := by decide +kernel

/-- The domain is not empty. -/
example : ∃ x, x ∈ Spec.kerrDomain 1 Spec.spin1 := ⟨_, point1_mem zero_le_one⟩

end Examples
end Sgrid

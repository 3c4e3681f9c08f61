import Verif.Model.ScalarKerr
import Verif.Props.Kerr4
import Verif.Props.Z4Rhs

/-!
# C130, C131: the scalar field on the background of a black hole
-/

set_option linter.unusedSimpArgs false

namespace Sgrid
open Finset

section
variable {A 𝔽 : Type} [CommRing A] [Invertible (2 : A)] [Field 𝔽]
variable {T : Spec.TimeCalculus A} {ev : A →+* 𝔽}

/-- The point `c` contains the values of the fields `ψ`, `P`, `φ` and of the source `ρ` on a background with the metric `γ`, the lapse `α`,
the shift `β` and the trace `k` of the extrinsic curvature. -/
structure Spec.ScalarAt (T : Spec.TimeCalculus A) (ev : A →+* 𝔽) (γ : Spec.Metric A) (β : Fin 3 → A) (α k ψ P : A) (φ : Fin 3 → A) (ρ : A)
    (c : ScalarPt 𝔽) : Prop where
  Pi : c.Pi = ev P
  dPi : ∀ i : Fin 3, c.dPi i = ev (T.d i P)
  dpsi : ∀ i : Fin 3, c.dpsi i = ev (T.d i ψ)
  phi : ∀ i : Fin 3, c.phi i = ev (φ i)
  dphi : ∀ i j : Fin 3, c.dphi (3 * i + j) = ev (T.d j (φ i))
  alpha : c.alpha = ev α
  beta : ∀ i : Fin 3, c.beta i = ev (β i)
  gup : ∀ i j : Fin 3, c.gup (Spec.sym2 i j) = ev (γ.inv i j)
  TrK : c.TrK = ev k
  G : ∀ i : Fin 3, c.G i = ev (Spec.contracted T.toCalculus γ i)
  dalpha : ∀ i : Fin 3, c.dalpha i = ev (T.d i α)
  dbeta : ∀ i j : Fin 3, c.dbeta (3 * i + j) = ev (T.d j (β i))
  rho : c.rho = ev ρ

variable {γ : Spec.Metric A} {β : Fin 3 → A} {α k ψ P : A} {φ : Fin 3 → A} {ρ : A} {c : ScalarPt 𝔽}

/-- The Laplace operator with the contracted Christoffel symbols. -/
theorem trace_hessian (C : Spec.Calculus A) (γ : Spec.Metric A) (f : A) : Spec.trace γ (Spec.hessian C γ f) =
    (∑ i, ∑ j, γ.inv i j * C.d i (C.d j f)) - ∑ i, Spec.contracted C γ i * C.d i f := by
  unfold Spec.trace Spec.hessian Spec.contracted
  simp only [Fin.sum_univ_three]
  ring

section
variable (h : Spec.ScalarAt T ev γ β α k ψ P φ ρ c)
include h

theorem ScalarFirst.rPi_val : ScalarFirst.rPi c = ev ((∑ i, β i * T.d i P) - α * ((∑ i, ∑ j, γ.inv i j * T.d i (φ j)) -
    ∑ i, Spec.contracted T.toCalculus γ i * φ i) - (∑ i, ∑ j, γ.inv i j * T.d i α * φ j) + α * k * P + α * ρ) := by
  simp only [map_add, map_sub, map_mul, map_sum, Fin.sum_univ_three, ← h.Pi, ← h.dPi, ← h.phi, ← h.dphi, ← h.alpha, ← h.beta, ← h.gup, ← h.TrK, ← h.G,
    ← h.dalpha, ← h.rho]
  simp only [ScalarFirst.rPi, ScalarFirst.beta_dPi, ScalarFirst.ag_dphi, ScalarFirst.aG_phi, ScalarFirst.g_phi_da, ScalarFirst.aKPi, Spec.sym2,
    Fin.coe_ofNat_eq_mod, Nat.reduceMod, Nat.reduceMul, Nat.reduceAdd, List.getD_cons_zero, List.getD_cons_succ]
  ring

theorem ScalarFirst.rpsi_val : ScalarFirst.rpsi c = ev ((∑ i, β i * T.d i ψ) - α * P) := by
  simp only [map_sub, map_add, map_mul, map_sum, Fin.sum_univ_three, ← h.Pi, ← h.dpsi, ← h.alpha, ← h.beta]
  rfl

theorem ScalarFirst.rphi_val (i : Fin 3) : ScalarFirst.rphi c i = ev (Spec.lie1 T.toCalculus β φ i - α * T.d i P - P * T.d i α) := by
  unfold Spec.lie1
  simp only [map_add, map_sub, map_mul, map_sum, Fin.sum_univ_three, ← h.Pi, ← h.dPi, ← h.phi, ← h.dphi, ← h.alpha, ← h.beta, ← h.dalpha, ← h.dbeta]
  fin_cases i <;>
    simp only [Fin.zero_eta, Fin.mk_one, Fin.reduceFinMk, ScalarFirst.rphi, ScalarFirst.rphix, ScalarFirst.rphiy, ScalarFirst.rphiz, ScalarFirst.b_dphix, ScalarFirst.b_dphiy, ScalarFirst.b_dphiz,
      ScalarFirst.phi_dbx, ScalarFirst.phi_dby, ScalarFirst.phi_dbz, Fin.coe_ofNat_eq_mod, Nat.reduceMod, Nat.reduceMul, Nat.reduceAdd,
      List.getD_cons_zero, List.getD_cons_succ] <;> ring1

/-- **C130.** The difference of the variable `φ` and the derivatives of `ψ` is only dragged along the shift. -/
theorem C130_constraint (hP : T.dt ψ = (∑ i, β i * T.d i ψ) - α * P) (i : Fin 3) :
    ScalarFirst.rpsi c = ev (T.dt ψ) ∧
    ScalarFirst.rphi c i - ev (T.dt (T.d i ψ)) = ev (Spec.lie1 T.toCalculus β (fun j => φ j - T.d j ψ) i) := by
  refine ⟨by rw [ScalarFirst.rpsi_val h, hP], ?_⟩
  have hs : ∀ y z : A, T.d i (y - z) = T.d i y - T.d i z := T.toCalculus.sub i
  rw [ScalarFirst.rphi_val h, ← map_sub, T.dt_comm, hP]
  congr 1
  unfold Spec.lie1
  simp only [Fin.sum_univ_three, T.toCalculus.sub, T.add, T.mul]
  rw [T.comm 0 i, T.comm 1 i, T.comm 2 i]
  ring

end

variable {w : A}

/-- **C130.** If `φ` contains the derivatives of `ψ`, `P` is the normal derivative of `ψ`, and `k` is the trace of the extrinsic curvature
`K`, then the right hand side of `Pi` in `ScalarOnKerr_evolve_1stO` is the derivative of `P` with respect to time at a point exactly if the
wave equation `g^{ab} ∇_a ∇_b ψ = ρ` of the metric with this lapse and shift is true at this point; the other right hand sides are the
derivatives of `ψ` and `φ` with respect to time in any case. -/
theorem C130_wave (h : Spec.ScalarAt T ev γ β α k ψ P φ ρ c) (hw : w * α = 1) {K : Fin 3 → Fin 3 → A} (hk : k = Spec.trace γ K)
    (hK : ∀ i j, T.dt (γ.g i j) = -2 * α * K i j + Spec.lie2 T.toCalculus β γ.g i j)
    (hP : T.dt ψ = (∑ i, β i * T.d i ψ) - α * P) (hφ : ∀ i, φ i = T.d i ψ) :
    (ScalarFirst.rPi c = ev (T.dt P) ↔ ev (Spec.box T.d4 (Spec.admMetric γ β α w hw) ψ) = ev ρ) ∧
    ScalarFirst.rpsi c = ev (T.dt ψ) ∧ ∀ i : Fin 3, ScalarFirst.rphi c i = ev (T.dt (φ i)) := by
  refine ⟨?_, by rw [ScalarFirst.rpsi_val h, hP], fun i => ?_⟩
  · have hk' : 2 * (α * k) = ∑ i, ∑ j, γ.inv i j * (Spec.lie2 T.toCalculus β γ.g i j - T.dt (γ.g i j)) := by
      rw [hk]
      unfold Spec.trace
      simp only [hK, Fin.sum_univ_three]
      ring
    have e := adm_box T γ β α w hw hP hk'
    rw [trace_hessian] at e
    have hα : ev α ≠ 0 := fun h0 => by
      have := congrArg ev hw
      rw [map_mul, h0, mul_zero, map_one] at this
      exact zero_ne_one this
    rw [ScalarFirst.rPi_val h]
    obtain rfl : φ = fun i => T.d i ψ := funext hφ
    rw [← mul_right_inj' hα (b := ev (Spec.box T.d4 (Spec.admMetric γ β α w hw) ψ)), ← map_mul, ← map_mul, e]
    simp only [map_add, map_sub, map_mul]
    constructor <;> intro h1 <;> linear_combination -h1
  · have e := (C130_constraint h hP i).2
    have hz : (fun j => φ j - T.d j ψ) = fun _ => 0 := funext fun j => by rw [hφ, sub_self]
    have hd : ∀ j, T.d j 0 = 0 := (derivs3 T.toCalculus).zero
    rw [hz] at e
    unfold Spec.lie1 at e
    simp only [hd, mul_zero, zero_mul, add_zero, sum_const_zero, map_zero] at e
    rw [hφ]
    exact sub_eq_zero.1 e

/-- **C130.** A step of the time integration adds the right hand sides to the old values; without a step they are written as they are. -/
theorem C130_step [DecidableEq 𝔽] (c : ScalarPt 𝔽) (hdt : c.dt ≠ 0) (i : Nat) :
    (ScalarFirst.point c).Pi = c.pre 0 + c.dt * (ScalarFirst.point { c with dt := 0 }).Pi ∧
    (ScalarFirst.point c).psi = c.pre 1 + c.dt * (ScalarFirst.point { c with dt := 0 }).psi ∧
    (ScalarFirst.point c).phi i = c.pre (2 + i) + c.dt * (ScalarFirst.point { c with dt := 0 }).phi i ∧
    (ScalarFirst.point { c with dt := 0 }).Pi = ScalarFirst.rPi c ∧ (ScalarFirst.point { c with dt := 0 }).psi = ScalarFirst.rpsi c ∧
    (ScalarFirst.point { c with dt := 0 }).phi = ScalarFirst.rphi c := by
  have e0 : ScalarFirst.point { c with dt := 0 } = ⟨ScalarFirst.rPi c, ScalarFirst.rpsi c, ScalarFirst.rphi c⟩ := by
    unfold ScalarFirst.point
    rw [if_neg (not_not.2 rfl)]
    rfl
  rw [e0]
  unfold ScalarFirst.point
  rw [if_pos hdt]
  exact ⟨rfl, rfl, rfl, rfl, rfl, rfl⟩

/-! ## C131 -/

/-- The point `c` contains the values of the field `ψ`, of its derivative `P` with respect to time and of the source on a background with the
four dimensional metric `g`. -/
structure Spec.ScalarAt4 (T : Spec.TimeCalculus A) (ev : A →+* 𝔽) (g : Spec.MetricN 4 A) (ψ P ρ : A) (c : ScalarPt4 𝔽) : Prop where
  Pi : c.Pi = ev P
  dPi : ∀ i : Fin 3, c.dPi i = ev (T.d i P)
  dpsi : ∀ i : Fin 3, c.dpsi i = ev (T.d i ψ)
  ddpsi : ∀ i j : Fin 3, c.ddpsi (Spec.sym2 i j) = ev (T.d i (T.d j ψ))
  gup : ∀ a b : Fin 4, c.gup (Spec.sym4 a b) = ev (g.inv a b)
  G : ∀ a : Fin 4, c.G a = ev (Spec.contractedN T.d4 g a)
  rho : c.rho = ev ρ

variable {g : Spec.MetricN 4 A} {c4 : ScalarPt4 𝔽}

theorem box_contracted (d : Fin 4 → A → A) (g : Spec.MetricN 4 A) (f : A) : Spec.box d g f =
    (∑ a, ∑ b, g.inv a b * d a (d b f)) - ∑ a, Spec.contractedN d g a * d a f := by
  unfold Spec.box Spec.contractedN
  simp only [mul_sub, sum_sub_distrib, sum_mul, mul_sum]
  congr 1
  rw [sum_comm]
  rw [sum_congr rfl fun b _ => sum_comm, sum_comm]
  refine sum_congr rfl fun c _ => ?_
  rw [sum_comm]
  refine sum_congr rfl fun a _ => sum_congr rfl fun b _ => by ring

/-- **C131.** With the parameters at their defaults, `ScalarOnKerr_Pi_def` psidot and `ScalarOnKerr_1stOrder_inSpace` no, the right hand
side of `Pi` in `ScalarOnKerr_evolve` is the second derivative of `ψ` with respect to time at a point exactly if the wave equation
`g^{ab} ∇_a ∇_b ψ = ρ` is true at this point. -/
theorem C131_wave (h : Spec.ScalarAt4 T ev g ψ P ρ c4) (h1 : c4.firstorder = false) (h2 : c4.scheelsPi = false) (hP : T.dt ψ = P)
    (hg : ev (g.inv 0 0) ≠ 0) :
    (ScalarSecond.rPi c4 = ev (T.dt P) ↔ ev (Spec.box T.d4 g ψ) = ev ρ) ∧ ScalarSecond.rpsi c4 = ev (T.dt ψ) := by
  have hA : ScalarSecond.A c4 = -1 := by unfold ScalarSecond.A; rw [h2]; rfl
  have hB : ∀ n, ScalarSecond.B c4 n = 0 := fun n => by unfold ScalarSecond.B; rw [h2]; rfl
  have hdA : ∀ n, ScalarSecond.dA c4 n = 0 := fun n => by unfold ScalarSecond.dA; rw [h2]; rfl
  have hdB : ∀ n, ScalarSecond.dB c4 n = 0 := fun n => by unfold ScalarSecond.dB; rw [h2]; rfl
  have d0 : ScalarSecond.psidot c4 = c4.Pi := by unfold ScalarSecond.psidot; rw [hA]; simp only [hB]; ring
  have dx : ScalarSecond.psidotx c4 = c4.dPi 0 := by unfold ScalarSecond.psidotx; rw [hA]; simp only [hB, hdA, hdB]; ring
  have dy : ScalarSecond.psidoty c4 = c4.dPi 1 := by unfold ScalarSecond.psidoty; rw [hA]; simp only [hB, hdA, hdB]; ring
  have dz : ScalarSecond.psidotz c4 = c4.dPi 2 := by unfold ScalarSecond.psidotz; rw [hA]; simp only [hB, hdA, hdB]; ring
  have g0 := h.gup 0 0
  constructor
  · have e : ScalarSecond.rPi c4 = ScalarSecond.psidotdot c4 := by
      unfold ScalarSecond.rPi; rw [hA]; simp only [hB]; ring
    have hc : c4.gup 0 ≠ 0 := by
      have : c4.gup 0 = ev (g.inv 0 0) := g0
      rwa [this]
    have hbox : ev (Spec.box T.d4 g ψ) = c4.gup 0 * ev (T.dt P) + ScalarSecond.g_ddpsi c4 - ScalarSecond.gG_dpsi c4 := by
      rw [box_contracted]
      have s : ∀ i : Fin 3, T.d4 i.succ = T.d i := fun i => rfl
      have z : T.d4 0 = T.dt := rfl
      have s1 : T.d4 1 = T.d 0 := rfl
      have s2 : T.d4 2 = T.d 1 := rfl
      have s3 : T.d4 3 = T.d 2 := rfl
      simp only [Fin.sum_univ_four, z, s1, s2, s3, hP, T.dt_comm]
      simp only [map_add, map_sub, map_mul, ← h.gup, ← h.G, ← h.Pi, ← h.dPi, ← h.dpsi, ← h.ddpsi]
      unfold ScalarSecond.g_ddpsi ScalarSecond.gG_dpsi
      rw [d0, dx, dy, dz]
      simp only [ScalarSecond.psix, ScalarSecond.psiy, ScalarSecond.psiz, ScalarSecond.psixx, ScalarSecond.psiyy, ScalarSecond.psizz,
        ScalarSecond.psixy_s, ScalarSecond.psixz_s, ScalarSecond.psiyz_s, h1, Bool.false_eq_true, if_false, Spec.sym2, Spec.sym4,
        Fin.coe_ofNat_eq_mod, Nat.reduceMod, Nat.reduceMul, Nat.reduceAdd, List.getD_cons_zero, List.getD_cons_succ]
      ring
    rw [e, ScalarSecond.psidotdot, div_eq_iff hc, hbox, ← h.rho]
    constructor <;> intro h3 <;> linear_combination -h3
  · unfold ScalarSecond.rpsi
    rw [hA, hP, ← h.Pi]
    simp only [hB]
    ring

/-- **C131.** A step of the time integration adds the right hand sides to the old values; without a step they are written as they are. -/
theorem C131_step [DecidableEq 𝔽] (c : ScalarPt4 𝔽) (hdt : c.dt ≠ 0) :
    (ScalarSecond.point c).Pi = c.pre 0 + c.dt * (ScalarSecond.point { c with dt := 0 }).Pi ∧
    (ScalarSecond.point c).psi = c.pre 1 + c.dt * (ScalarSecond.point { c with dt := 0 }).psi ∧
    (ScalarSecond.point { c with dt := 0 }).Pi = ScalarSecond.rPi c ∧ (ScalarSecond.point { c with dt := 0 }).psi = ScalarSecond.rpsi c := by
  have e0 : ScalarSecond.point { c with dt := 0 } = ⟨ScalarSecond.rPi c, ScalarSecond.rpsi c, ScalarSecond.rphi c⟩ := by
    unfold ScalarSecond.point
    rw [if_neg (not_not.2 rfl)]
    rfl
  rw [e0]
  unfold ScalarSecond.point
  rw [if_pos hdt]
  exact ⟨rfl, rfl, rfl, rfl⟩

/-- **C131.** With the parameter `ScalarOnKerr_1stOrder_inSpace` the right hand side of `Pi` in `ScalarOnKerr_evolve` does not depend on
`phiz`, because line 728 reads `phix` in its place. `ScalarOnKerr_startup` (lines 65-68) does not use this function in this case. -/
theorem C131_firstorder_counterexample (c : ScalarPt4 𝔽) (h1 : c.firstorder = true) (v : 𝔽) :
    ScalarSecond.rPi { c with phi := fun n => if n = 2 then v else c.phi n } = ScalarSecond.rPi c := by
  have e : ∀ f : Nat → 𝔽, (if (0 : Nat) = 2 then v else f 0) = f 0 ∧ (if (1 : Nat) = 2 then v else f 1) = f 1 := fun f => ⟨rfl, rfl⟩
  simp only [ScalarSecond.rPi, ScalarSecond.psidotdot, ScalarSecond.g_ddpsi, ScalarSecond.gG_dpsi, ScalarSecond.psidot, ScalarSecond.psidotx,
    ScalarSecond.psidoty, ScalarSecond.psidotz, ScalarSecond.psix, ScalarSecond.psiy, ScalarSecond.psiz, ScalarSecond.psixx, ScalarSecond.psixy,
    ScalarSecond.psixz, ScalarSecond.psiyx, ScalarSecond.psiyy, ScalarSecond.psiyz, ScalarSecond.psizx, ScalarSecond.psizy, ScalarSecond.psizz,
    ScalarSecond.psixy_s, ScalarSecond.psixz_s, ScalarSecond.psiyz_s, ScalarSecond.A, ScalarSecond.B, ScalarSecond.dA, ScalarSecond.dB, h1, if_true,
    (e c.phi).1, (e c.phi).2]

end

/-- A point with the parameter `ScalarOnKerr_Pi_def` ScheelsPi and `v` in the memory of the variables that are not set. -/
def exScheel (v : ℚ) : ScalarPt4 ℚ where
  firstorder := false
  scheelsPi := true
  dt := 0
  Pi := 1
  dPi := fun _ => 0
  dpsi := fun _ => 0
  ddpsi := fun _ => 0
  phi := fun _ => 0
  dphi := fun _ => 0
  alpha := 1
  beta := fun n => if n = 0 then 1 / 2 else 0
  dalpha := fun _ => 0
  dbeta := fun _ => 0
  gup := fun n => [-1, 1 / 2, 0, 0, 3 / 4, 0, 0, 1, 0, 1].getD n 0
  G := fun _ => 0
  rho := 0
  pre := fun _ => 0
  junk := fun _ => v

/-- The same with a shift that has two components. -/
def exScheel2 (v : ℚ) : ScalarPt4 ℚ :=
  { exScheel v with
    beta := fun n => if n < 2 then 1 / 2 else 0
    gup := fun n => [-1, 1 / 2, 1 / 2, 0, 3 / 4, -1 / 4, 0, 3 / 4, 0, 1].getD n 0 }

/-- **C131.** With the parameters `ScalarOnKerr_Pi_def` ScheelsPi and `ScalarOnKerr_1stOrder_inSpace` no the right hand side of `Pi` in
`ScalarOnKerr_evolve` depends on what is in the memory of the mixed derivatives psixy to psizy, which are not set in this case. -/
theorem C131_scheel_counterexample : ScalarSecond.rPi (exScheel2 0) = 0 ∧ ScalarSecond.rPi (exScheel2 1) = -1 / 2 ∧
    { exScheel2 1 with junk := (exScheel2 0).junk } = exScheel2 0 := by
  refine ⟨by decide +kernel, by decide +kernel, rfl⟩

/-! ## The background of a black hole -/

section
variable {A B : Type} [CommRing A] [CommRing B]

theorem map_half [Invertible (2 : A)] [Invertible (2 : B)] (ι : B →+* A) : ι ⅟2 = ⅟2 := by
  have h : (2 : A) * ι ⅟2 = 1 := by rw [← map_ofNat ι 2, ← map_mul, mul_invOf_self, map_one]
  calc ι ⅟2 = ⅟2 * (2 * ι ⅟2) := by rw [← mul_assoc, invOf_mul_self, one_mul]
    _ = ⅟2 := by rw [h, mul_one]

/-- The image of a metric. -/
def Spec.Metric.map (ι : B →+* A) (γ : Spec.Metric B) : Spec.Metric A where
  g := fun i j => ι (γ.g i j)
  inv := fun i j => ι (γ.inv i j)
  symm := fun i j => by rw [γ.symm]
  isymm := fun i j => by rw [γ.isymm]
  mul_inv := fun a c => by
    simp only [← map_mul, ← map_sum, γ.mul_inv]
    split <;> simp

/-- `T` describes fields of space and time over a black hole that does not change: `ι` makes such a field of a field on space, `Z` are the
points of space and time, `pos z` is the position in space of `z` and `ev z` takes the value of a field at `z`. -/
structure Spec.OverKerr (M : ℝ) (a : Fin 3 → ℝ) (T : Spec.TimeCalculus A) (ι : Spec.smoothOn (Spec.kerrDomain M a) →+* A) {Z : Type}
    (pos : Z → Spec.kerrDomain M a) (ev : Z → A →+* ℝ) : Prop where
  d : ∀ i f, T.d i (ι f) = ι ((Spec.kerrCalc M a).d i f)
  dt : ∀ f, T.dt (ι f) = 0
  ev : ∀ z f, ev z (ι f) = Spec.valueAt (pos z) f

variable {M : ℝ} {S : Fin 3 → ℝ} {T : Spec.TimeCalculus A} {ι : Spec.smoothOn (Spec.kerrDomain M (Spec.spinOverMass M S)) →+* A} {Z : Type}
  {pos : Z → Spec.kerrDomain M (Spec.spinOverMass M S)} {ev : Z → A →+* ℝ}

theorem admMetric_map (ι : B →+* A) (γ : Spec.Metric B) (β : Fin 3 → B) (α w : B) (hw : w * α = 1) (hw' : ι w * ι α = 1) (a c : Fin 4) :
    (Spec.admMetric (γ.map ι) (fun i => ι (β i)) (ι α) (ι w) hw').g a c = ι ((Spec.admMetric γ β α w hw).g a c) ∧
    (Spec.admMetric (γ.map ι) (fun i => ι (β i)) (ι α) (ι w) hw').inv a c = ι ((Spec.admMetric γ β α w hw).inv a c) := by
  constructor <;> cases a using Fin.cases <;> cases c using Fin.cases <;>
    simp only [Spec.admMetric, Spec.Metric.map, Fin.cases_zero, Fin.cases_succ, map_add, map_sub, map_neg, map_mul, map_pow, map_sum]

local notation "aM" => Spec.spinOverMass M S

/-- **C131.** On the background that `Kerr` and `Kerr3d` write, `ScalarOnKerr_evolve_1stO` and `ScalarOnKerr_evolve` with the default
parameters both solve the wave equation `g^{ab} ∇_a ∇_b ψ = ρ` with the metric that `Kerr` writes: for any field `ψ` of space and time and
any source `ρ` the right hand side of `Pi` is the derivative of `Pi` with respect to time at a point of space and time exactly if the
equation is true there. Here `Pi` is the normal derivative `P` for the former and the derivative with respect to time for the latter. -/
theorem C131_kerr [Invertible (2 : A)] (hO : Spec.OverKerr M (Spec.spinOverMass M S) T ι pos ev) (b : Bool) : ∃ (g : Spec.MetricN 4 A) (α : A) (β : Fin 3 → A),
    (∀ z (a c : Fin 4), (Kerr4.point (Spec.kerrPt M S b (pos z))).g (Spec.sym4 a c) = ev z (g.g a c)) ∧
    (∀ z, (Kerr3d.point (Spec.kerrPt M S b (pos z))).alpha = ev z α) ∧
    (∀ z (i : Fin 3), (Kerr3d.point (Spec.kerrPt M S b (pos z))).beta i = ev z (β i)) ∧
    (∀ (ψ P ρ : A) (z : Z) (c : ScalarPt ℝ), T.dt ψ = (∑ i, β i * T.d i ψ) - α * P → c.Pi = ev z P → (∀ i : Fin 3, c.dPi i = ev z (T.d i P)) →
      (∀ i : Fin 3, c.dpsi i = ev z (T.d i ψ)) → (∀ i : Fin 3, c.phi i = ev z (T.d i ψ)) →
      (∀ i j : Fin 3, c.dphi (3 * i + j) = ev z (T.d j (T.d i ψ))) → c.rho = ev z ρ →
      c.alpha = (Kerr3d.point (Spec.kerrPt M S b (pos z))).alpha → c.beta = (Kerr3d.point (Spec.kerrPt M S b (pos z))).beta →
      c.gup = (Kerr3d.point (Spec.kerrPt M S b (pos z))).gup → c.TrK = (Kerr3d.point (Spec.kerrPt M S b (pos z))).TrK →
      c.G = (Kerr3d.point (Spec.kerrPt M S b (pos z))).G → c.dalpha = (Kerr3d.point (Spec.kerrPt M S b (pos z))).dalpha →
      c.dbeta = (Kerr3d.point (Spec.kerrPt M S b (pos z))).dbeta →
      ScalarFirst.rpsi c = ev z (T.dt ψ) ∧ (∀ i : Fin 3, ScalarFirst.rphi c i = ev z (T.dt (T.d i ψ))) ∧
      (ScalarFirst.rPi c = ev z (T.dt P) ↔ ev z (Spec.box T.d4 g ψ) = ev z ρ)) ∧
    ∀ (ψ ρ : A) (z : Z) (c : ScalarPt4 ℝ), c.firstorder = false → c.scheelsPi = false → c.Pi = ev z (T.dt ψ) →
      (∀ i : Fin 3, c.dPi i = ev z (T.d i (T.dt ψ))) → (∀ i : Fin 3, c.dpsi i = ev z (T.d i ψ)) →
      (∀ i j : Fin 3, c.ddpsi (Spec.sym2 i j) = ev z (T.d i (T.d j ψ))) → c.rho = ev z ρ →
      c.gup = (Kerr4.point (Spec.kerrPt M S b (pos z))).gup → c.G = (Kerr4.point (Spec.kerrPt M S b (pos z))).G →
      ScalarSecond.rpsi c = ev z (T.dt ψ) ∧ (ScalarSecond.rPi c = ev z (T.dt (T.dt ψ)) ↔ ev z (Spec.box T.d4 g ψ) = ev z ρ) := by
  let γ := Spec.KerrSchild.metric (kerr_schild (M := M) (a := aM))
  let β : Fin 3 → Spec.smoothOn (Spec.kerrDomain M aM) := fun i => Spec.kphi M aM * Spec.kt M aM * Spec.kl M aM i
  let K := Spec.ksK (Spec.kerrCalc M aM) (Spec.kl M aM) (Spec.kphi M aM) (Spec.kN M aM)
  have hw : ι (Spec.kN M aM * (1 + Spec.kphi M aM)) * ι (Spec.kN M aM) = 1 := by rw [← map_mul, kN_w, map_one]
  let g := Spec.admMetric (γ.map ι) (fun i => ι (β i)) (ι (Spec.kN M aM)) (ι (Spec.kN M aM * (1 + Spec.kphi M aM))) hw
  have hd4 : ∀ a f, T.d4 a (ι f) = ι ((Spec.stationary (Spec.kerrCalc M aM)).d4 a f) := by
    intro a f
    cases a using Fin.cases with
    | zero => exact (hO.dt f).trans (map_zero ι).symm
    | succ i => exact hO.d i f
  have hg : ∀ a c, g.g a c = ι ((Spec.kerr4 M aM).g a c) := fun a c => (admMetric_map ι γ β _ _ (kN_w M aM) hw a c).1
  have hi : ∀ a c, g.inv a c = ι ((Spec.kerr4 M aM).inv a c) := fun a c => (admMetric_map ι γ β _ _ (kN_w M aM) hw a c).2
  have hG4 : ∀ a, Spec.contractedN T.d4 g a = ι (Spec.contractedN (Spec.stationary (Spec.kerrCalc M aM)).d4 (Spec.kerr4 M aM) a) := by
    intro a
    simp only [Spec.contractedN, Spec.christoffelN, Spec.christoffelLowN, hg, hi, hd4, map_sum, map_mul, map_add, map_sub, map_half]
  have hG3 : ∀ i, Spec.contracted T.toCalculus (γ.map ι) i = ι (Spec.contracted (Spec.kerrCalc M aM) γ i) := by
    intro i
    simp only [Spec.contracted, Spec.christoffel, Spec.christoffelLow, Spec.Metric.map, hO.d, map_sum, map_mul, map_add, map_sub, map_half]
  have htr : ι (Spec.trace γ K) = Spec.trace (γ.map ι) fun i j => ι (K i j) := by
    simp only [Spec.trace, Spec.Metric.map, map_sum, map_mul]
  refine ⟨g, ι (Spec.kN M aM), fun i => ι (β i), fun z a c => ?_, fun z => ?_, fun z i => ?_, ?_, ?_⟩
  · rw [hg, hO.ev, Kerr4.g_val]
  · rw [hO.ev]; exact Kerr3d.alpha_val _
  · rw [hO.ev]; exact Kerr3d.beta_val _ i
  · intro ψ P ρ z c hP h1 h2 h3 h4 h5 h6 h7 h8 h9 h10 h11 h12 h13
    have hA : Spec.ScalarAt T (ev z) (γ.map ι) (fun i => ι (β i)) (ι (Spec.kN M aM)) (ι (Spec.trace γ K)) ψ P (fun i => T.d i ψ) ρ c :=
      { Pi := h1
        dPi := h2
        dpsi := h3
        phi := h4
        dphi := h5
        alpha := by rw [h7, hO.ev]; exact Kerr3d.alpha_val _
        beta := fun i => by rw [h8, hO.ev]; exact Kerr3d.beta_val _ i
        gup := fun i j => by rw [h9, Spec.Metric.map, hO.ev]; exact Kerr3d.gup_val _ i j
        TrK := by rw [h10, hO.ev]; exact Kerr3d.TrK_val _
        G := fun i => by rw [h11, hG3, hO.ev]; exact Kerr3d.G_val _ i
        dalpha := fun i => by rw [h12, hO.d, hO.ev]; exact Kerr3d.dalpha_val _ i
        dbeta := fun i j => by rw [h13, hO.d, hO.ev]; exact Kerr3d.dbeta_val _ i j
        rho := h6 }
    have hK : ∀ i j, T.dt ((γ.map ι).g i j) = -2 * ι (Spec.kN M aM) * ι (K i j) + Spec.lie2 T.toCalculus (fun i => ι (β i)) (γ.map ι).g i j := by
      intro i j
      have e : ι (-2 * Spec.kN M aM * K i j + Spec.lie2 (Spec.kerrCalc M aM) β γ.g i j) = ι 0 :=
        congrArg ι (kerr_schild.stationary (kN_sq (M := M) (a := aM)) i j)
      rw [show T.dt ((γ.map ι).g i j) = 0 from hO.dt _, eq_comm, ← map_zero ι, ← e]
      simp only [Spec.lie2, Spec.Metric.map, hO.d, map_add, map_mul, map_neg, map_ofNat, map_sum]
    obtain ⟨e1, e2, e3⟩ := C130_wave hA hw htr hK hP fun i => rfl
    exact ⟨e2, e3, e1⟩
  · intro ψ ρ z c h1 h2 h3 h4 h5 h6 h7 h8 h9
    have hA : Spec.ScalarAt4 T (ev z) g ψ (T.dt ψ) ρ c :=
      { Pi := h3
        dPi := h4
        dpsi := h5
        ddpsi := h6
        gup := fun a e => by rw [h8, hi, hO.ev]; exact Kerr4.gup_val _ a e
        G := fun a => by rw [h9, hG4, hO.ev]; exact Kerr4.G_val _ a
        rho := h7 }
    have h0 : ev z (g.inv 0 0) ≠ 0 := by
      have e := congrArg (ev z) hw
      rw [map_mul, map_one] at e
      have : g.inv 0 0 = -ι (Spec.kN M aM * (1 + Spec.kphi M aM)) ^ 2 := rfl
      rw [this, map_neg, map_pow, neg_ne_zero]
      exact pow_ne_zero 2 (left_ne_zero_of_mul_eq_one e)
    obtain ⟨e1, e2⟩ := C131_wave hA h1 h2 rfl h0
    exact ⟨e2, e1⟩

end
/-! ## Examples

The field `ψ = t³ + x² y` at the time 1 and the point (2, 3, 1) of flat space with the lapse 2 and the shift `(x, 0, 0)`, where
`P = (x ∂_x ψ - ∂_t ψ) / 2 = (2 x² y - 3 t²) / 2` and `g^{tt} = -1/4`, `g^{tx} = x/4`, `g^{xx} = 1 - x²/4`, and the trace of the extrinsic
curvature is `∂_x β^x / 2 = 1/2`. -/

def exScalar : ScalarPt ℚ where
  dt := 0
  Pi := (2 * 4 * 3 - 3) / 2
  dPi := fun n => [12, 4, 0].getD n 0
  dpsi := fun n => [12, 4, 0].getD n 0
  phi := fun n => [12, 4, 0].getD n 0
  dphi := fun n => [6, 4, 0, 4, 0, 0, 0, 0, 0].getD n 0
  alpha := 2
  beta := fun n => [2, 0, 0].getD n 0
  gup := fun n => [1, 0, 0, 1, 0, 1].getD n 0
  TrK := 1 / 2
  G := fun _ => 0
  dalpha := fun _ => 0
  dbeta := fun n => [1, 0, 0, 0, 0, 0, 0, 0, 0].getD n 0
  rho := 0
  pre := fun n => n

/-! The derivatives of `ψ` and of its derivatives with respect to time are `3 t²` and zero. -/

example : (ScalarFirst.point exScalar).psi = 3 := by decide +kernel
example : (List.range 3).map (ScalarFirst.point exScalar).phi = [0, 0, 0] := by decide +kernel

/-! With the source `g^{ab} ∇_a ∇_b ψ = -51/4` that makes `ψ` a solution the derivative of `P` is `-3 t`. -/

example : (ScalarFirst.point exScalar).Pi = 45 / 2 := by decide +kernel
example : (ScalarFirst.point { exScalar with rho := -51 / 4 }).Pi = -3 := by decide +kernel
example : (ScalarFirst.point { exScalar with rho := -51 / 4, dt := 1 / 3 }).Pi = 0 - 1 := by decide +kernel

/-- The same field and background for `ScalarOnKerr_evolve`; the contracted Christoffel symbols are
`g^{ab} Γ^t_{ab} = -1/4` and `g^{ab} Γ^x_{ab} = x/2`. The second derivative of `ψ` with respect to time is `6 t`. -/
def exScalar4 (v : ℚ) : ScalarPt4 ℚ where
  firstorder := false
  scheelsPi := false
  dt := 0
  Pi := 3
  dPi := fun _ => 0
  dpsi := fun n => [12, 4, 0].getD n 0
  ddpsi := fun n => [6, 4, 0, 0, 0, 0].getD n 0
  phi := fun _ => v
  dphi := fun _ => v
  alpha := v
  beta := fun _ => v
  dalpha := fun _ => v
  dbeta := fun _ => v
  gup := fun n => [-1 / 4, 1 / 2, 0, 0, 0, 0, 0, 1, 0, 1].getD n 0
  G := fun n => [-1 / 4, 1, 0, 0].getD n 0
  rho := -51 / 4
  pre := fun n => n
  junk := fun _ => v

example : (ScalarSecond.point (exScalar4 7)).psi = 3 := by decide +kernel
example : (ScalarSecond.point (exScalar4 7)).Pi = 6 := by decide +kernel

end Sgrid

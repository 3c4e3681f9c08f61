import Verif.Model.Poisson
import Mathlib.Analysis.SpecialFunctions.Sqrt
import Mathlib.Analysis.SpecialFunctions.ExpDeriv
import Mathlib.Analysis.Calculus.Deriv.Inv
import Mathlib.Analysis.SpecialFunctions.Trigonometric.Basic
import Mathlib.Algebra.Order.Field.Rat

/-!
# C136: the example equations, their linearisations and their solutions
-/

namespace Sgrid

open Real

/-! ## The linearisations -/

/-- **C136.** Poisson and Poisson2: the equations at `u + du` are those at `u` plus the linearised ones at `du`; also on the boundaries.
The sources stay as they are. For every field and all values. -/
theorem C136_linear {K : Type} [Field K] (d l rhs all lall : Nat → K) (psi lpsi : K) (vind : Nat) (h1 : lall 20 = 0) (h2 : lall 21 = 0) :
    Poisson1.FPsi (fun n => d n + l n) rhs = Poisson1.FPsi d rhs + Poisson1.JPsi l ∧
    Poisson1.FChi (fun n => d n + l n) rhs = Poisson1.FChi d rhs + Poisson1.JChi l ∧
    Poisson2.FPsi (fun n => all n + lall n) = Poisson2.FPsi all + Poisson2.JPsi lall ∧
    Poisson2.FChi (fun n => all n + lall n) = Poisson2.FChi all + Poisson2.JChi lall ∧
    Poisson2.bcInner (psi + lpsi) vind 1 = Poisson2.bcInner psi vind 1 + Poisson2.bcInner lpsi vind 0 ∧
    Poisson2.bcOuter (psi + lpsi) vind 1 = Poisson2.bcOuter psi vind 1 + Poisson2.bcOuter lpsi vind 0 := by
  simp only [Poisson1.FPsi, Poisson1.FChi, Poisson1.JPsi, Poisson1.JChi, Poisson2.FPsi, Poisson2.FChi, Poisson2.JPsi, Poisson2.JChi,
    Poisson2.bcInner, Poisson2.bcOuter, h1, h2, Nat.cast_zero, Nat.cast_one]
  refine ⟨?_, ?_, ?_, ?_, ?_, ?_⟩ <;> ring

/-- **C136.** Poisson3, the equation for Chi and the outer boundary: `J_Poisson3` is the derivative of `F_Poisson3` in the direction of the
linearised variables. -/
theorem C136_chi (all lall : Nat → ℝ) (h : lall 21 = 0) :
    HasDerivAt (fun s => Poisson3.FChi (fun n => all n + s * lall n)) (Poisson3.JChi all lall) 0 := by
  have hl : ∀ n, HasDerivAt (fun s => all n + s * lall n) (lall n) (0 : ℝ) := fun n => by
    simpa using ((hasDerivAt_id (0 : ℝ)).mul_const (lall n)).const_add (all n)
  unfold Poisson3.FChi Poisson3.JChi
  refine ((((hl 14).add ((hl 1).mul (hl 17))).add (hl 19)).sub (hl 21)).congr_deriv ?_
  rw [h]; simp; ring

theorem C136_outer {K : Type} [Field K] (psi lpsi bc : K) (vind : Nat) :
    Poisson3.outerBC (psi + lpsi) bc vind 1 = Poisson3.outerBC psi bc vind 1 + Poisson3.outerBC lpsi bc vind 0 := by
  simp only [Poisson3.outerBC]
  rw [if_pos (by decide), if_neg (by decide : ¬(0 ≠ 0))]
  ring

/-- **C136.** Poisson3, the equation for Psi: the derivative of `F_Poisson3` is what `J_Poisson3` computes plus `2 (Chi - 1) lChi Psizz`, so
that `J_Poisson3` is the derivative only where Chi is 1 (or this product vanishes). -/
theorem C136_psi (all lall : Nat → ℝ) (h : lall 20 = 0) :
    HasDerivAt (fun s => Poisson3.FPsi (all 10 + s * lall 10) (fun n => all n + s * lall n))
      (Poisson3.JPsi (lall 10) all lall + 2 * (all 10 - 1) * lall 10 * all 9) 0 := by
  have hl : ∀ n, HasDerivAt (fun s => all n + s * lall n) (lall n) (0 : ℝ) := fun n => by
    simpa using ((hasDerivAt_id (0 : ℝ)).mul_const (lall n)).const_add (all n)
  unfold Poisson3.FPsi Poisson3.JPsi
  refine ((((hl 10).mul (hl 4)).add (hl 7)).add (((hl 10).mul (hl 10)).mul (hl 9))).sub (hl 20) |>.congr_deriv ?_
  rw [h]; simp; ring

/-- **C136.** With Chi = 9/10, its initial value, `J_Poisson3` is not the derivative of `F_Poisson3`: for Psizz = 1 and a change of Chi
alone the derivative is 9/5, but `J_Poisson3` computes 2 (Poisson3.c:419 has `2.0*lChi*Psizz` instead of `2.0*Chi*lChi*Psizz`). -/
theorem C136_psi_counterexample :
    ∃ all lall : Nat → ℝ, all 10 = 9 / 10 ∧ lall 20 = 0 ∧ Poisson3.JPsi (lall 10) all lall = 2 ∧
      HasDerivAt (fun s => Poisson3.FPsi (all 10 + s * lall 10) (fun n => all n + s * lall n)) (9 / 5) 0 := by
  let all : Nat → ℝ := fun n => if n = 10 then 9 / 10 else if n = 9 then 1 else 0
  let lall : Nat → ℝ := fun n => if n = 10 then 1 else 0
  have h20 : lall 20 = 0 := by simp [lall]
  refine ⟨all, lall, by simp [all], h20, ?_, (C136_psi all lall h20).congr_deriv ?_⟩
  · simp [Poisson3.JPsi, all, lall]
  · simp [Poisson3.JPsi, all, lall]
    norm_num

/-- The derivatives of Psi and Chi are where `VLuAll` has them: one value, three first and six second derivatives for each. -/
theorem C136_index (vind : Nat) : Poisson3.derivIndex vind = 10 * vind + 1 := by
  induction vind with
  | zero => rfl
  | succ n ih => rw [Poisson3.derivIndex, ih]; ring

/-! ## The solutions -/

namespace Spec

/-- `d2` is the second partial derivative of `u` in direction `i` at `x`. -/
def Second (u : (Fin 3 → ℝ) → ℝ) (x : Fin 3 → ℝ) (i : Fin 3) (d2 : ℝ) : Prop :=
  ∃ d1 : ℝ → ℝ, (∀ᶠ s in nhds (x i), HasDerivAt (fun t => u (Function.update x i t)) (d1 s) s) ∧ HasDerivAt d1 d2 (x i)

/-- The distance from the point `(a,0,0)`. -/
noncomputable def distFrom (a : ℝ) (x : Fin 3 → ℝ) : ℝ := √((x 0 - a) ^ 2 + x 1 ^ 2 + x 2 ^ 2)

/-- The error function: the integral from 0 of `2/√π exp(-t²)`. -/
def IsErf (erf : ℝ → ℝ) : Prop := erf 0 = 0 ∧ ∀ r, HasDerivAt erf (2 / √π * exp (-r ^ 2)) r

end Spec

/-- The coordinate in direction `i` relative to the point `(a,0,0)`. -/
noncomputable def relCoord (a : ℝ) (x : Fin 3 → ℝ) (i : Fin 3) : ℝ := if i = 0 then x 0 - a else x i

theorem distFrom_sq (a : ℝ) (x : Fin 3 → ℝ) : Spec.distFrom a x ^ 2 = (x 0 - a) ^ 2 + x 1 ^ 2 + x 2 ^ 2 := sq_sqrt (by positivity)

theorem distFrom_update (a : ℝ) (x : Fin 3 → ℝ) (i : Fin 3) (t : ℝ) :
    Spec.distFrom a (Function.update x i t) =
      √((t - if i = 0 then a else 0) ^ 2 + (Spec.distFrom a x ^ 2 - relCoord a x i ^ 2)) := by
  rw [distFrom_sq]
  unfold Spec.distFrom relCoord
  congr 1
  match i with
  | 0 => simp; ring
  | 1 => simp; ring
  | 2 => simp; ring

/-- The second derivative of a function of the distance in one direction. -/
theorem second_radial (a : ℝ) (f f1 f2 : ℝ → ℝ) (x : Fin 3 → ℝ) (hx : 0 < Spec.distFrom a x)
    (hf : ∀ᶠ r in nhds (Spec.distFrom a x), HasDerivAt f (f1 r) r) (hf1 : HasDerivAt f1 (f2 (Spec.distFrom a x)) (Spec.distFrom a x))
    (i : Fin 3) :
    let r := Spec.distFrom a x
    Spec.Second (fun x => f (Spec.distFrom a x)) x i
      (f2 r * (relCoord a x i / r) ^ 2 + f1 r * (1 / r - relCoord a x i ^ 2 / r ^ 3)) := by
  intro r
  set A : ℝ := if i = 0 then a else 0 with hA
  set c := Spec.distFrom a x ^ 2 - relCoord a x i ^ 2 with hc
  have hxi : x i - A = relCoord a x i := by
    simp only [hA, relCoord]
    by_cases h : i = 0
    · subst h; simp
    · simp [h]
  let q : ℝ → ℝ := fun s => √((s - A) ^ 2 + c)
  have hq0 : q (x i) = r := by
    simp only [q, hxi, hc]
    rw [show relCoord a x i ^ 2 + (Spec.distFrom a x ^ 2 - relCoord a x i ^ 2) = r ^ 2 by ring, sqrt_sq hx.le]
  have hqc : Continuous q := by fun_prop
  have hqpos : ∀ᶠ s in nhds (x i), 0 < q s := by
    have : 0 < q (x i) := hq0 ▸ hx
    exact hqc.continuousAt.eventually (lt_mem_nhds this)
  have hqd : ∀ s, 0 < q s → HasDerivAt q ((s - A) / q s) s := by
    intro s hs
    have hin : (s - A) ^ 2 + c ≠ 0 := fun h => by simp only [q, h, sqrt_zero, lt_irrefl] at hs
    have h1 : HasDerivAt (fun s => (s - A) ^ 2 + c) (2 * (s - A)) s := by
      have := (((hasDerivAt_id s).sub_const A).pow 2).add_const c
      simpa using this
    refine (h1.sqrt hin).congr_deriv ?_
    simp only [q]
    rw [mul_div_mul_left _ _ two_ne_zero]
  refine ⟨fun s => f1 (q s) * ((s - A) / q s), ?_, ?_⟩
  · have hnear : ∀ᶠ s in nhds (x i), HasDerivAt f (f1 (q s)) (q s) := by
      have h : ∀ᶠ r in nhds (q (x i)), HasDerivAt f (f1 r) r := by rw [hq0]; exact hf
      exact hqc.continuousAt.eventually h
    filter_upwards [hqpos, hnear] with s hs hfs
    have := hfs.comp s (hqd s hs)
    refine this.congr_of_eventuallyEq (Filter.Eventually.of_forall fun t => ?_)
    simp only [Function.comp, q, distFrom_update, hc, hA]
  · have hp : 0 < q (x i) := hq0 ▸ hx
    have hd := hqd (x i) hp
    have h1 : HasDerivAt (fun s => f1 (q s)) (f2 r * ((x i - A) / q (x i))) (x i) := by
      have hf1' : HasDerivAt f1 (f2 r) (q (x i)) := by rw [hq0]; exact hf1
      exact hf1'.comp (x i) hd
    have h2 := ((hasDerivAt_id (x i)).sub_const A).div hd hp.ne'
    refine (h1.mul h2).congr_deriv ?_
    simp only [id, hq0, hxi, Pi.div_apply]
    have hr : r ≠ 0 := hx.ne'
    field_simp

/-- The Laplacian of a function of the distance. -/
theorem laplace_radial (a : ℝ) (f1 f2 : ℝ → ℝ) (x : Fin 3 → ℝ) (hx : 0 < Spec.distFrom a x) :
    let r := Spec.distFrom a x
    (f2 r * (relCoord a x 0 / r) ^ 2 + f1 r * (1 / r - relCoord a x 0 ^ 2 / r ^ 3)) +
      (f2 r * (relCoord a x 1 / r) ^ 2 + f1 r * (1 / r - relCoord a x 1 ^ 2 / r ^ 3)) +
      (f2 r * (relCoord a x 2 / r) ^ 2 + f1 r * (1 / r - relCoord a x 2 ^ 2 / r ^ 3)) = f2 r + 2 * f1 r / r := by
  intro r
  have hr : r ≠ 0 := hx.ne'
  have e : relCoord a x 0 ^ 2 + relCoord a x 1 ^ 2 + relCoord a x 2 ^ 2 = r ^ 2 := by
    rw [distFrom_sq]; simp [relCoord]
  field_simp
  linear_combination (f2 r * r - f1 r) * e

/-- The second derivatives of a function of the distance exist, and their sum is `f'' + 2 f'/r`. -/
theorem radial_solution (a : ℝ) (f f1 f2 : ℝ → ℝ) (hf : ∀ r, 0 < r → HasDerivAt f (f1 r) r) (hf1 : ∀ r, 0 < r → HasDerivAt f1 (f2 r) r)
    (x : Fin 3 → ℝ) (hx : 0 < Spec.distFrom a x) :
    ∃ d : Fin 3 → ℝ, (∀ i, Spec.Second (fun x => f (Spec.distFrom a x)) x i (d i)) ∧
      d 0 + d 1 + d 2 = f2 (Spec.distFrom a x) + 2 * f1 (Spec.distFrom a x) / Spec.distFrom a x :=
  ⟨_, fun i => second_radial a f f1 f2 x hx ((lt_mem_nhds hx).mono hf) (hf1 _ hx) i, laplace_radial a f1 f2 x hx⟩

/-- Derivatives of a function over the distance. -/
theorem hasDeriv_over {F F1 : ℝ → ℝ} {r : ℝ} (hr : 0 < r) (hF : HasDerivAt F (F1 r) r) :
    HasDerivAt (fun r => F r / r) (F1 r / r - F r / r ^ 2) r := by
  refine (hF.div (hasDerivAt_id r) hr.ne').congr_deriv ?_
  simp only [id]
  field_simp

/-- **C136.** Poisson3: `Psi = erf(r)/(4πr)`, with which `Poisson3_analyze` compares and which is the boundary value, together with `Chi = 1`,
solves both equations with the sources of `Poisson3_startup` and the boundary condition, at every point other than the origin. -/
theorem C136_erf (erf : ℝ → ℝ) (he : Spec.IsErf erf) (x : Fin 3 → ℝ) (hx : 0 < Spec.distFrom 0 x) :
    let r := Spec.distFrom 0 x
    let Psi := fun r => 1 / (4 * π * r) * erf r
    ∃ d : Fin 3 → ℝ, (∀ i, Spec.Second (fun x => Psi (Spec.distFrom 0 x)) x i (d i)) ∧
      (∀ all : Nat → ℝ, all 4 = d 0 → all 7 = d 1 → all 9 = d 2 → all 20 = -exp (-(x 0 * x 0 + x 1 * x 1 + x 2 * x 2)) / √(π * π * π) →
        all 14 = 0 → all 17 = 0 → all 19 = 0 → all 21 = 0 → Poisson3.FPsi 1 all = 0 ∧ Poisson3.FChi all = 0) ∧
      Poisson3.outerBC (Psi r) (Psi r) 0 1 = 0 ∧ Poisson3.outerBC 1 (Psi r) 1 1 = 0 := by
  intro r Psi
  have hpi := pi_pos
  -- Psi is F/r with F'' = -r exp(-r²)/π^(3/2)
  let F : ℝ → ℝ := fun r => 1 / (4 * π) * erf r
  let F1 : ℝ → ℝ := fun r => 1 / (4 * π) * (2 / √π * exp (-r ^ 2))
  let F2 : ℝ → ℝ := fun r => 1 / (4 * π) * (2 / √π * (exp (-r ^ 2) * (-(2 * r))))
  have hF : ∀ r, HasDerivAt F (F1 r) r := fun r => (he.2 r).const_mul _
  have hF1 : ∀ r, HasDerivAt F1 (F2 r) r := fun r => by
    have : HasDerivAt (fun r : ℝ => -r ^ 2) (-(2 * r)) r := by
      have h := (hasDerivAt_pow 2 r).neg
      refine h.congr_deriv ?_
      simp
    exact (this.exp.const_mul _).const_mul _
  have hP : Psi = fun r => F r / r := by
    ext r
    simp only [Psi, F]
    rw [one_div, one_div, mul_inv, div_eq_mul_inv]; ring
  obtain ⟨d, hd, hsum⟩ := radial_solution 0 (fun r => F r / r) (fun r => F1 r / r - F r / r ^ 2)
    (fun r => (F2 r / r - F1 r / r ^ 2) - (F1 r / r ^ 2 - 2 * F r / r ^ 3)) (fun r hr => hasDeriv_over hr (hF r)) (fun r hr => by
      have h2 : HasDerivAt (fun r => F r / r ^ 2) (F1 r / r ^ 2 - 2 * F r / r ^ 3) r := by
        refine ((hF r).div ((hasDerivAt_id r).pow 2) (pow_ne_zero 2 hr.ne')).congr_deriv ?_
        have : r ≠ 0 := hr.ne'
        simp only [id, Nat.cast_ofNat, Pi.pow_apply]
        field_simp
        ring
      exact (hasDeriv_over hr (hF1 r)).sub h2) x hx
  refine ⟨d, by rw [hP]; exact hd, ?_, ?_, ?_⟩
  · intro all h4 h7 h9 h20 h14 h17 h19 h21
    constructor
    · unfold Poisson3.FPsi
      rw [h4, h7, h9, h20, one_mul, one_mul, one_mul, hsum, sub_eq_zero]
      have hr : Spec.distFrom 0 x ≠ 0 := hx.ne'
      have e1 : x 0 * x 0 + x 1 * x 1 + x 2 * x 2 = Spec.distFrom 0 x ^ 2 := by rw [distFrom_sq]; ring
      have e2 : √(π * π * π) = π * √π := by rw [sqrt_mul (by positivity), sqrt_mul_self hpi.le]
      have hs : √π ≠ 0 := (sqrt_pos.2 hpi).ne'
      rw [e1, e2]
      simp only [F1, F2]
      field_simp
      ring
    · unfold Poisson3.FChi
      rw [h14, h17, h19, h21]; ring
  · simp [Poisson3.outerBC]
  · simp [Poisson3.outerBC]

theorem poisson_inv_deriv (q r : ℝ) (hr : 0 < r) : HasDerivAt (fun r => q / r) (-q / r ^ 2) r := by
  refine ((hasDerivAt_const r q).div (hasDerivAt_id r) hr.ne').congr_deriv ?_
  simp

theorem inv_deriv2 (q r : ℝ) (hr : 0 < r) : HasDerivAt (fun r => -q / r ^ 2) (2 * q / r ^ 3) r := by
  refine ((hasDerivAt_const r (-q)).div ((hasDerivAt_id r).pow 2) (pow_ne_zero 2 hr.ne')).congr_deriv ?_
  have : r ≠ 0 := hr.ne'
  simp only [id, Nat.cast_ofNat, Pi.pow_apply]
  field_simp
  ring

/-- **C136.** Poisson2: `Psi = 1/r` and `Chi = 2/r`, with which `Poisson2_analyze` compares, solve the equations without sources, and the
boundary conditions if the shell is between `r = 1` and `r = 2`. -/
theorem C136_shell (x : Fin 3 → ℝ) (hx : 0 < Spec.distFrom 0 x) :
    let r := Spec.distFrom 0 x
    ∃ d e : Fin 3 → ℝ, (∀ i, Spec.Second (fun x => 1 / Spec.distFrom 0 x) x i (d i)) ∧
      (∀ i, Spec.Second (fun x => 2 / Spec.distFrom 0 x) x i (e i)) ∧
      (∀ all : Nat → ℝ, all 4 = d 0 → all 7 = d 1 → all 9 = d 2 → all 20 = 0 → all 14 = e 0 → all 17 = e 1 → all 19 = e 2 → all 21 = 0 →
        Poisson2.FPsi all = 0 ∧ Poisson2.FChi all = 0) ∧
      (r = 1 → Poisson2.bcInner (1 / r) 0 1 = 0 ∧ Poisson2.bcInner (2 / r) 1 1 = 0) ∧
      (r = 2 → Poisson2.bcOuter (1 / r) 0 1 = 0 ∧ Poisson2.bcOuter (2 / r) 1 1 = 0) := by
  intro r
  obtain ⟨d, hd, hs⟩ := radial_solution 0 (fun r => 1 / r) (fun r => -1 / r ^ 2) (fun r => 2 * 1 / r ^ 3)
    (fun r hr => poisson_inv_deriv 1 r hr) (fun r hr => inv_deriv2 1 r hr) x hx
  obtain ⟨e, he, hs'⟩ := radial_solution 0 (fun r => 2 / r) (fun r => -2 / r ^ 2) (fun r => 2 * 2 / r ^ 3)
    (fun r hr => poisson_inv_deriv 2 r hr) (fun r hr => inv_deriv2 2 r hr) x hx
  have hr : Spec.distFrom 0 x ≠ 0 := hx.ne'
  refine ⟨d, e, hd, he, ?_, ?_, ?_⟩
  · intro all h4 h7 h9 h20 h14 h17 h19 h21
    unfold Poisson2.FPsi Poisson2.FChi
    rw [h4, h7, h9, h20, h14, h17, h19, h21, hs, hs']
    constructor <;> (field_simp; ring)
  · intro h
    rw [h]
    constructor <;> norm_num [Poisson2.bcInner]
  · intro h
    rw [h]
    constructor <;> norm_num [Poisson2.bcOuter]

/-- **C136.** Poisson with two stars: inside a star of radius `R` around `(a,0,0)` the function `q (-r²/(2R³) + 3/(2R))` has the Laplacian
`-3q/R³`, which is the source there (`q = 1` for Psi, `q = 2` for Chi), outside `q/r` has none; on the surface both agree with their radial
derivatives. -/
theorem C136_stars (q R a : ℝ) (hR : 0 < R) (x : Fin 3 → ℝ) (hx : 0 < Spec.distFrom a x) :
    let inside := fun r : ℝ => q * (-(1 / 2) * r ^ 2 / R ^ 3 + 3 / 2 / R)
    (∃ d : Fin 3 → ℝ, (∀ i, Spec.Second (fun x => inside (Spec.distFrom a x)) x i (d i)) ∧
      ∀ all rhs : Nat → ℝ, all 3 = d 0 → all 6 = d 1 → all 8 = d 2 → rhs 0 = -3 * q / (R * R * R) → Poisson1.FPsi all rhs = 0) ∧
    (∃ d : Fin 3 → ℝ, (∀ i, Spec.Second (fun x => q / Spec.distFrom a x) x i (d i)) ∧
      ∀ all rhs : Nat → ℝ, all 3 = d 0 → all 6 = d 1 → all 8 = d 2 → rhs 0 = 0 → Poisson1.FPsi all rhs = 0) ∧
    inside R = q / R ∧ ∃ v, HasDerivAt inside v R ∧ HasDerivAt (fun r => q / r) v R := by
  intro inside
  have hin : ∀ r, HasDerivAt inside (q * (-r / R ^ 3)) r := fun r => by
    have := (((((hasDerivAt_id r).pow 2).const_mul (-(1 / 2))).div_const (R ^ 3)).add_const (3 / 2 / R)).const_mul q
    refine this.congr_deriv ?_
    simp only [id, Nat.cast_ofNat]
    ring
  have hin2 : ∀ r, HasDerivAt (fun r => q * (-r / R ^ 3)) (q * (-1 / R ^ 3)) r := fun r => by
    simpa using (((hasDerivAt_id r).neg).div_const (R ^ 3)).const_mul q
  have hR' : R ≠ 0 := hR.ne'
  have hr : Spec.distFrom a x ≠ 0 := hx.ne'
  refine ⟨?_, ?_, ?_, -q / R ^ 2, ?_, poisson_inv_deriv q R hR⟩
  · obtain ⟨d, hd, hs⟩ := radial_solution a inside _ _ (fun r _ => hin r) (fun r _ => hin2 r) x hx
    refine ⟨d, hd, fun all rhs h3 h6 h8 h0 => ?_⟩
    unfold Poisson1.FPsi
    rw [h3, h6, h8, h0, hs]
    field_simp
    ring
  · obtain ⟨d, hd, hs⟩ := radial_solution a (fun r => q / r) _ _ (fun r hr => poisson_inv_deriv q r hr) (fun r hr => inv_deriv2 q r hr) x hx
    refine ⟨d, hd, fun all rhs h3 h6 h8 h0 => ?_⟩
    unfold Poisson1.FPsi
    rw [h3, h6, h8, h0, hs]
    field_simp
    ring
  · simp only [inside]
    field_simp
    ring
  · refine (hin R).congr_deriv ?_
    field_simp

/-- Non-vacuity: at the point (1,2,2) the Laplacian of `1/r` exists and vanishes. -/
example : ∃ d : Fin 3 → ℝ, (∀ i, Spec.Second (fun x => 1 / Spec.distFrom 0 x) ![1, 2, 2] i (d i)) ∧ d 0 + d 1 + d 2 = 0 := by
  have h : Spec.distFrom 0 ![1, 2, 2] = 3 := by
    unfold Spec.distFrom
    rw [show ((![1, 2, 2] : Fin 3 → ℝ) 0 - 0) ^ 2 + (![1, 2, 2] : Fin 3 → ℝ) 1 ^ 2 + (![1, 2, 2] : Fin 3 → ℝ) 2 ^ 2 = 3 ^ 2 by
      norm_num [Matrix.cons_val_two]]
    exact sqrt_sq (by norm_num)
  obtain ⟨d, hd, hs⟩ := radial_solution 0 (fun r => 1 / r) (fun r => -1 / r ^ 2) (fun r => 2 * 1 / r ^ 3)
    (fun r hr => poisson_inv_deriv 1 r hr) (fun r hr => inv_deriv2 1 r hr) ![1, 2, 2] (by rw [h]; norm_num)
  exact ⟨d, hd, by rw [hs, h]; norm_num⟩

/-- Non-vacuity: values of the equations and of the linearisation of Poisson3. -/
example : Poisson3.FPsi (2 : ℚ) (fun n => n) = 2 * 4 + 7 + 4 * 9 - 20 ∧
    Poisson3.JPsi (3 : ℚ) (fun n => n) (fun n => n) = 10 * 4 + 3 * 4 + 7 + 100 * 9 + 2 * 3 * 9 ∧
    Poisson3.JChi (fun n => (n : ℚ)) (fun n => n) = 14 + 17 + 17 + 19 := by
  decide +kernel

end Sgrid

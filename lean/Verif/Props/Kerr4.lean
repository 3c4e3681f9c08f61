import Verif.Model.Kerr4
import Verif.Props.Kerr3d
import Verif.Props.Spacetime

/-!
# C129: the four dimensional metric of a black hole
-/

set_option linter.unusedSimpArgs false

namespace Sgrid
open Finset

/-- The number of a component of a symmetric tensor in four dimensions, in the order 00, 01, 02, 03, 11, 12, 13, 22, 23, 33. -/
def Spec.sym4 (a b : Fin 4) : Nat :=
  [0, 1, 2, 3, 1, 4, 5, 6, 2, 5, 7, 8, 3, 6, 8, 9].getD (4 * a + b) 0

/-- The calculus for fields that do not depend on time. -/
def Spec.stationary {A : Type} [CommRing A] (C : Spec.Calculus A) : Spec.TimeCalculus A where
  toCalculus := C
  dt := fun _ => 0
  dt_add := fun _ _ => (add_zero 0).symm
  dt_mul := fun x y => by rw [zero_mul, mul_zero, add_zero]
  dt_comm := fun i _ => (C.zero i).symm

section
variable {A : Type} [CommRing A] {C : Spec.Calculus A} {l : Fin 3 → A} {α β φ t m N w : A}

/-- The metric of a black hole as a metric with lapse and shift: `g_{ab} = η_{ab} + φ l_a l_b` with `l_0 = 1`. -/
theorem ks_adm [Invertible (2 : A)] (h : Spec.KerrSchild C l α β φ t m) (hN : N ^ 2 = t) (hw : w * N = 1) :
    (Spec.admMetric h.metric (fun i => φ * t * l i) N w hw).g = Fin.cases (Fin.cases (-1 + φ) fun j => φ * l j)
      (fun i => Fin.cases (φ * l i) fun j => Spec.kd i j + φ * l i * l j) ∧
    (Spec.admMetric h.metric (fun i => φ * t * l i) N w hw).inv = Fin.cases (Fin.cases (-1 - φ) fun j => φ * l j)
      (fun i => Fin.cases (φ * l i) fun j => Spec.kd i j - φ * l i * l j) := by
  have hu := h.unit
  have ht := h.ht
  have hw2 : w ^ 2 = 1 + φ := by
    have : w ^ 2 * t = 1 := by rw [← hN, ← mul_pow, hw, one_pow]
    linear_combination (1 + φ) * this - w ^ 2 * ht
  rw [Fin.sum_univ_three] at hu
  constructor
  · funext a b
    cases a using Fin.cases with
    | zero =>
      cases b using Fin.cases with
      | zero =>
        simp only [Spec.admMetric, Fin.cases_zero, hN, Spec.KerrSchild.metric, Spec.ksMetric, Fin.sum_univ_three, Spec.kd, Fin.reduceEq, if_true, if_false]
        linear_combination φ ^ 2 * t ^ 2 * (1 + φ * (1 + (l 0 * l 0 + l 1 * l 1 + l 2 * l 2))) * hu + (φ ^ 2 * t + φ - 1) * ht
      | succ j =>
        simp only [Spec.admMetric, Fin.cases_zero, Fin.cases_succ, Spec.KerrSchild.metric, Spec.ksMetric, Fin.sum_univ_three]
        fin_cases j <;> simp only [Fin.zero_eta, Fin.mk_one, Fin.reduceFinMk, Spec.kd, Fin.reduceEq, if_true, if_false]
        · linear_combination φ ^ 2 * t * l 0 * hu + φ * l 0 * ht
        · linear_combination φ ^ 2 * t * l 1 * hu + φ * l 1 * ht
        · linear_combination φ ^ 2 * t * l 2 * hu + φ * l 2 * ht
    | succ i =>
      cases b using Fin.cases with
      | zero =>
        simp only [Spec.admMetric, Fin.cases_zero, Fin.cases_succ, Spec.KerrSchild.metric, Spec.ksMetric, Fin.sum_univ_three]
        fin_cases i <;> simp only [Fin.zero_eta, Fin.mk_one, Fin.reduceFinMk, Spec.kd, Fin.reduceEq, if_true, if_false]
        · linear_combination φ ^ 2 * t * l 0 * hu + φ * l 0 * ht
        · linear_combination φ ^ 2 * t * l 1 * hu + φ * l 1 * ht
        · linear_combination φ ^ 2 * t * l 2 * hu + φ * l 2 * ht
      | succ j => rfl
  · funext a b
    cases a using Fin.cases with
    | zero =>
      cases b using Fin.cases with
      | zero =>
        simp only [Spec.admMetric, Fin.cases_zero, hw2]
        ring
      | succ j =>
        simp only [Spec.admMetric, Fin.cases_zero, Fin.cases_succ, hw2]
        linear_combination φ * l j * ht
    | succ i =>
      cases b using Fin.cases with
      | zero =>
        simp only [Spec.admMetric, Fin.cases_zero, Fin.cases_succ, hw2]
        linear_combination φ * l i * ht
      | succ j =>
        simp only [Spec.admMetric, Fin.cases_succ, hw2, Spec.KerrSchild.metric, Spec.ksMetric]
        linear_combination (-(φ ^ 2 * t * l i * l j) - φ * l i * l j) * ht

/-- The flat metric of four dimensions. -/
def Spec.eta (a b : Fin 4) : A := if a = b then (if a = 0 then -1 else 1) else 0

/-- The form of the metric in `ks_adm` with one formula for all components. -/
theorem ks_low (φ : A) (l : Fin 3 → A) (a b : Fin 4) : (Fin.cases (Fin.cases (-1 + φ) fun j => φ * l j)
      (fun i => Fin.cases (φ * l i) fun j => Spec.kd i j + φ * l i * l j) : Fin 4 → Fin 4 → A) a b =
    Spec.eta a b + φ * (Fin.cons 1 l : Fin 4 → A) a * (Fin.cons 1 l : Fin 4 → A) b := by
  cases a using Fin.cases <;> cases b using Fin.cases <;>
    simp [Spec.eta, Spec.kd, Fin.succ_ne_zero, (Fin.succ_ne_zero _).symm]

end

section
variable {M : ℝ} {S : Fin 3 → ℝ} {b : Bool}

local notation "aM" => Spec.spinOverMass M S

theorem kN_w (M : ℝ) (a : Fin 3 → ℝ) : Spec.kN M a * (1 + Spec.kphi M a) * Spec.kN M a = 1 := by
  linear_combination (1 + Spec.kphi M a) * kN_sq (M := M) (a := a) + (kerr_schild (M := M) (a := a)).ht

/-- The metric of the black hole with lapse and shift. -/
noncomputable def Spec.kerr4 (M : ℝ) (a : Fin 3 → ℝ) : Spec.MetricN 4 (Spec.smoothOn (Spec.kerrDomain M a)) :=
  Spec.admMetric (Spec.KerrSchild.metric (kerr_schild (M := M) (a := a))) (fun i => Spec.kphi M a * Spec.kt M a * Spec.kl M a i) (Spec.kN M a)
    (Spec.kN M a * (1 + Spec.kphi M a)) (kN_w M a)

variable (x : Spec.kerrDomain M (Spec.spinOverMass M S))
local notation "pt" => Spec.kerrPt M S b x
local notation "pa" => Spec.kerrPt M aM b x
local notation "val" => Spec.valueAt x
local notation "D" => Spec.TimeCalculus.d4 (Spec.stationary (Spec.kerrCalc M aM))

/-- The components of `l`. -/
def Kerr4.lT {𝔽 : Type} [Field 𝔽] [DecidableEq 𝔽] (c : KerrPt 𝔽) : Fin 4 → 𝔽 := fun a => [l0 c, l1 c, l2 c, l3 c].getD a 0

/-- The derivatives of `H`. -/
def Kerr4.dHT {𝔽 : Type} [Field 𝔽] [DecidableEq 𝔽] (c : KerrPt 𝔽) : Fin 4 → 𝔽 := fun a => [dH0 c, dH1 c, dH2 c, dH3 c].getD a 0

/-- The derivatives of `l`; the last index is the one of the derivative. -/
def Kerr4.dlT {𝔽 : Type} [Field 𝔽] [DecidableEq 𝔽] (c : KerrPt 𝔽) (a : Fin 4) : Fin 4 → 𝔽 := fun k =>
  [dl00 c, dl01 c, dl02 c, dl03 c, dl10 c, dl11 c, dl12 c, dl13 c, dl20 c, dl21 c, dl22 c, dl23 c, dl30 c, dl31 c, dl32 c, dl33 c].getD (4 * a + k) 0

theorem Kerr4.H_val : Kerr4.H pt = Spec.kerrH M aM x := KS.H_val (b := b) x

theorem Kerr4.l_val (a : Fin 4) : Kerr4.lT pt a = val ((Fin.cons 1 (Spec.kl M aM) : Fin 4 → _) a) := by
  cases a using Fin.cases with
  | zero => rw [Fin.cons_zero, map_one]; rfl
  | succ i =>
    rw [Fin.cons_succ, ← KS.l_val (b := b)]
    fin_cases i <;> rfl

theorem Kerr4.dH_val (k : Fin 4) : 2 * Kerr4.dHT pt k = val (D k (Spec.kphi M aM)) := by
  cases k using Fin.cases with
  | zero =>
    show 2 * 0 = val 0
    rw [map_zero, mul_zero]
  | succ i =>
    show _ = val ((Spec.kerrCalc M aM).d i _)
    rw [← KS.dH_val (b := b)]
    fin_cases i <;> rfl

theorem Kerr4.dl_val (a k : Fin 4) : Kerr4.dlT pt a k = val (D k ((Fin.cons 1 (Spec.kl M aM) : Fin 4 → _) a)) := by
  cases k using Fin.cases with
  | zero =>
    show _ = val 0
    rw [map_zero]
    fin_cases a <;> rfl
  | succ i =>
    cases a using Fin.cases with
    | zero =>
      show _ = val ((Spec.kerrCalc M aM).d i 1)
      rw [Spec.Calculus.one, map_zero]
      fin_cases i <;> rfl
    | succ j =>
      show _ = val ((Spec.kerrCalc M aM).d i (Spec.kl M aM j))
      rw [← KS.dl_val (b := b)]
      fin_cases i <;> fin_cases j <;> rfl

theorem kerr4_g (a c : Fin 4) : (Spec.kerr4 M aM).g a c =
    Spec.eta a c + Spec.kphi M aM * (Fin.cons 1 (Spec.kl M aM) : Fin 4 → _) a * (Fin.cons 1 (Spec.kl M aM) : Fin 4 → _) c := by
  rw [Spec.kerr4, (ks_adm kerr_schild kN_sq _).1, ks_low]

theorem eta_val (a c : Fin 4) : val (Spec.eta a c) = Spec.eta a c := by
  unfold Spec.eta
  split
  · split <;> simp
  · simp

theorem Kerr4.g_val (a c : Fin 4) : (Kerr4.point pt).g (Spec.sym4 a c) = val ((Spec.kerr4 M aM).g a c) := by
  rw [kerr4_g, map_add, map_mul, map_mul, eta_val, v_kphi, ← Kerr4.H_val (b := b), ← Kerr4.l_val (b := b), ← Kerr4.l_val (b := b)]
  fin_cases a <;> fin_cases c <;>
    simp only [Fin.zero_eta, Fin.mk_one, Fin.reduceFinMk, Spec.sym4, Nat.reduceMul, Fin.coe_ofNat_eq_mod, Nat.reduceMod, Nat.reduceAdd,
      List.getD_cons_zero, List.getD_cons_succ, Kerr4.point, Kerr4.lT, Spec.eta, Fin.reduceEq, if_true, if_false,
      Kerr4.g00, Kerr4.g01, Kerr4.g02, Kerr4.g03, Kerr4.g11, Kerr4.g12, Kerr4.g13, Kerr4.g22, Kerr4.g23, Kerr4.g33] <;> ring1

theorem Kerr4.gup_val (a c : Fin 4) : (Kerr4.point pt).gup (Spec.sym4 a c) = val ((Spec.kerr4 M aM).inv a c) := by
  have e : ∀ i j : Fin 3, val (Spec.kd i j) = Spec.kd i j := fun i j => by unfold Spec.kd; split <;> simp
  have hl : ∀ j : Fin 3, val (Spec.kl M aM j) = Kerr4.lT pt j.succ := fun j => by rw [Kerr4.l_val (b := b), Fin.cons_succ]
  rw [Spec.kerr4, (ks_adm kerr_schild kN_sq _).2]
  cases a using Fin.cases with
  | zero =>
    cases c using Fin.cases with
    | zero =>
      simp only [Fin.cases_zero, map_sub, map_neg, map_one, v_kphi, ← Kerr4.H_val (b := b)]
      show Kerr4.gup00 pt = _
      unfold Kerr4.gup00 Kerr4.lup0 Kerr4.l0
      ring
    | succ j =>
      simp only [Fin.cases_zero, Fin.cases_succ, map_mul, v_kphi, ← Kerr4.H_val (b := b), hl]
      fin_cases j
      · show Kerr4.gup01 pt = 2 * Kerr4.H pt * Kerr4.l1 pt
        unfold Kerr4.gup01 Kerr4.lup0 Kerr4.l0 Kerr4.lup1
        ring
      · show Kerr4.gup02 pt = 2 * Kerr4.H pt * Kerr4.l2 pt
        unfold Kerr4.gup02 Kerr4.lup0 Kerr4.l0 Kerr4.lup2
        ring
      · show Kerr4.gup03 pt = 2 * Kerr4.H pt * Kerr4.l3 pt
        unfold Kerr4.gup03 Kerr4.lup0 Kerr4.l0 Kerr4.lup3
        ring
  | succ i =>
    cases c using Fin.cases with
    | zero =>
      simp only [Fin.cases_zero, Fin.cases_succ, map_mul, v_kphi, ← Kerr4.H_val (b := b), hl]
      fin_cases i
      · show Kerr4.gup01 pt = 2 * Kerr4.H pt * Kerr4.l1 pt
        unfold Kerr4.gup01 Kerr4.lup0 Kerr4.l0 Kerr4.lup1
        ring
      · show Kerr4.gup02 pt = 2 * Kerr4.H pt * Kerr4.l2 pt
        unfold Kerr4.gup02 Kerr4.lup0 Kerr4.l0 Kerr4.lup2
        ring
      · show Kerr4.gup03 pt = 2 * Kerr4.H pt * Kerr4.l3 pt
        unfold Kerr4.gup03 Kerr4.lup0 Kerr4.l0 Kerr4.lup3
        ring
    | succ j =>
      simp only [Fin.cases_succ, map_sub, map_mul, v_kphi, ← Kerr4.H_val (b := b), hl, e]
      fin_cases i <;> fin_cases j <;>
        simp only [Fin.zero_eta, Fin.mk_one, Fin.reduceFinMk, Fin.succ_zero_eq_one, Fin.succ_one_eq_two, Fin.reduceSucc, Spec.sym4, Nat.reduceMul, Fin.coe_ofNat_eq_mod, Nat.reduceMod,
          Nat.reduceAdd, List.getD_cons_zero, List.getD_cons_succ, Kerr4.point, Kerr4.lT, Spec.kd, Fin.reduceEq, if_true, if_false,
          Kerr4.gup00, Kerr4.gup01, Kerr4.gup02, Kerr4.gup03, Kerr4.gup11, Kerr4.gup12, Kerr4.gup13, Kerr4.gup22, Kerr4.gup23, Kerr4.gup33, Kerr4.lup1, Kerr4.lup2, Kerr4.lup3] <;> ring1

/-- The derivatives of the metric; the last index is the one of the derivative. -/
def Kerr4.dgT {𝔽 : Type} [Field 𝔽] [DecidableEq 𝔽] (c : KerrPt 𝔽) (i j : Fin 4) : Fin 4 → 𝔽 := fun k =>
  [dg000 c, dg001 c, dg002 c, dg003 c, dg010 c, dg011 c, dg012 c, dg013 c, dg020 c, dg021 c, dg022 c, dg023 c, dg030 c, dg031 c,
    dg032 c, dg033 c, dg110 c, dg111 c, dg112 c, dg113 c, dg120 c, dg121 c, dg122 c, dg123 c, dg130 c, dg131 c, dg132 c, dg133 c,
    dg220 c, dg221 c, dg222 c, dg223 c, dg230 c, dg231 c, dg232 c, dg233 c, dg330 c, dg331 c, dg332 c, dg333 c].getD (4 * Spec.sym4 i j + k) 0

theorem Kerr4.dg_val (i j k : Fin 4) : Kerr4.dgT pt i j k = val (D k ((Spec.kerr4 M aM).g i j)) := by
  have h4 := derivs4 (Spec.stationary (Spec.kerrCalc M aM))
  have hneg : ∀ y, D k (-y) = -D k y := fun y => by
    have := h4.add k y (-y)
    rw [add_neg_cancel, h4.zero] at this
    linear_combination -this
  have hk : D k (Spec.eta i j) = 0 := by
    unfold Spec.eta
    split
    · split
      · rw [hneg, h4.one, neg_zero]
      · exact h4.one _
    · exact h4.zero _
  have e : val (D k ((Spec.kerr4 M aM).g i j)) = 2 * Kerr4.dHT pt k * Kerr4.lT pt i * Kerr4.lT pt j +
      2 * Kerr4.H pt * (Kerr4.dlT pt i k * Kerr4.lT pt j + Kerr4.lT pt i * Kerr4.dlT pt j k) := by
    rw [kerr4_g, h4.add, h4.mul, h4.mul, hk]
    simp only [map_add, map_mul, map_zero, ← Kerr4.l_val (b := b), ← Kerr4.dl_val (b := b), ← Kerr4.dH_val (b := b), v_kphi, ← Kerr4.H_val (b := b)]
    ring
  rw [e]
  fin_cases i <;> fin_cases j <;> fin_cases k <;>
    simp only [Fin.zero_eta, Fin.mk_one, Fin.reduceFinMk, Spec.sym4, Kerr4.dgT, Kerr4.lT, Kerr4.dlT, Kerr4.dHT, Nat.reduceMul, Fin.coe_ofNat_eq_mod, Nat.reduceMod, Nat.reduceAdd,
      List.getD_cons_zero, List.getD_cons_succ,
      Kerr4.dg000, Kerr4.dg001, Kerr4.dg002, Kerr4.dg003, Kerr4.dg010, Kerr4.dg011, Kerr4.dg012, Kerr4.dg013, Kerr4.dg020, Kerr4.dg021, Kerr4.dg022, Kerr4.dg023, Kerr4.dg030, Kerr4.dg031, Kerr4.dg032, Kerr4.dg033, Kerr4.dg110, Kerr4.dg111, Kerr4.dg112, Kerr4.dg113, Kerr4.dg120, Kerr4.dg121, Kerr4.dg122, Kerr4.dg123, Kerr4.dg130, Kerr4.dg131, Kerr4.dg132, Kerr4.dg133, Kerr4.dg220, Kerr4.dg221, Kerr4.dg222, Kerr4.dg223, Kerr4.dg230, Kerr4.dg231, Kerr4.dg232, Kerr4.dg233, Kerr4.dg330, Kerr4.dg331, Kerr4.dg332, Kerr4.dg333] <;> ring1

/-- The Christoffel symbols with the first index lowered. -/
def Kerr4.GamdoT {𝔽 : Type} [Field 𝔽] [DecidableEq 𝔽] (c : KerrPt 𝔽) (k i j : Fin 4) : 𝔽 :=
  [Gamdo000 c, Gamdo001 c, Gamdo002 c, Gamdo003 c, Gamdo011 c, Gamdo012 c, Gamdo013 c, Gamdo022 c, Gamdo023 c, Gamdo033 c,
    Gamdo100 c, Gamdo101 c, Gamdo102 c, Gamdo103 c, Gamdo111 c, Gamdo112 c, Gamdo113 c, Gamdo122 c, Gamdo123 c, Gamdo133 c,
    Gamdo200 c, Gamdo201 c, Gamdo202 c, Gamdo203 c, Gamdo211 c, Gamdo212 c, Gamdo213 c, Gamdo222 c, Gamdo223 c, Gamdo233 c,
    Gamdo300 c, Gamdo301 c, Gamdo302 c, Gamdo303 c, Gamdo311 c, Gamdo312 c, Gamdo313 c, Gamdo322 c, Gamdo323 c, Gamdo333 c].getD (10 * k + Spec.sym4 i j) 0

theorem Kerr4.Gamdo_val (k i j : Fin 4) : Kerr4.GamdoT pt k i j = val (Spec.christoffelLowN D (Spec.kerr4 M aM) k i j) := by
  unfold Spec.christoffelLowN
  simp only [map_mul, map_add, map_sub, valueAt_half, ← Kerr4.dg_val (b := b)]
  fin_cases k <;> fin_cases i <;> fin_cases j <;>
    simp only [Fin.zero_eta, Fin.mk_one, Fin.reduceFinMk, Spec.sym4, Kerr4.dgT, Kerr4.GamdoT, Nat.reduceMul, Fin.coe_ofNat_eq_mod, Nat.reduceMod, Nat.reduceAdd,
      List.getD_cons_zero, List.getD_cons_succ, Kerr4.Gamdo000, Kerr4.Gamdo001, Kerr4.Gamdo002, Kerr4.Gamdo003, Kerr4.Gamdo011, Kerr4.Gamdo012, Kerr4.Gamdo013, Kerr4.Gamdo022, Kerr4.Gamdo023, Kerr4.Gamdo033, Kerr4.Gamdo100, Kerr4.Gamdo101, Kerr4.Gamdo102, Kerr4.Gamdo103, Kerr4.Gamdo111, Kerr4.Gamdo112, Kerr4.Gamdo113, Kerr4.Gamdo122, Kerr4.Gamdo123, Kerr4.Gamdo133, Kerr4.Gamdo200, Kerr4.Gamdo201, Kerr4.Gamdo202, Kerr4.Gamdo203, Kerr4.Gamdo211, Kerr4.Gamdo212, Kerr4.Gamdo213, Kerr4.Gamdo222, Kerr4.Gamdo223, Kerr4.Gamdo233, Kerr4.Gamdo300, Kerr4.Gamdo301, Kerr4.Gamdo302, Kerr4.Gamdo303, Kerr4.Gamdo311, Kerr4.Gamdo312, Kerr4.Gamdo313, Kerr4.Gamdo322, Kerr4.Gamdo323, Kerr4.Gamdo333] <;> ring1

theorem Kerr4.Gam_val (k i j : Fin 4) : (Kerr4.point pt).Gam (10 * k + Spec.sym4 i j) = val (Spec.christoffelN D (Spec.kerr4 M aM) k i j) := by
  unfold Spec.christoffelN
  simp only [map_sum, map_mul, ← Kerr4.gup_val (b := b), ← Kerr4.Gamdo_val (b := b)]
  fin_cases k <;> fin_cases i <;> fin_cases j <;>
    simp only [Fin.zero_eta, Fin.mk_one, Fin.reduceFinMk, Spec.sym4, Kerr4.GamdoT, Nat.reduceMul, Fin.coe_ofNat_eq_mod, Nat.reduceMod, Nat.reduceAdd,
      List.getD_cons_zero, List.getD_cons_succ, Kerr4.point, Fin.sum_univ_four, Kerr4.Gam000, Kerr4.Gam001, Kerr4.Gam002, Kerr4.Gam003, Kerr4.Gam011, Kerr4.Gam012, Kerr4.Gam013, Kerr4.Gam022, Kerr4.Gam023, Kerr4.Gam033, Kerr4.Gam100, Kerr4.Gam101, Kerr4.Gam102, Kerr4.Gam103, Kerr4.Gam111, Kerr4.Gam112, Kerr4.Gam113, Kerr4.Gam122, Kerr4.Gam123, Kerr4.Gam133, Kerr4.Gam200, Kerr4.Gam201, Kerr4.Gam202, Kerr4.Gam203, Kerr4.Gam211, Kerr4.Gam212, Kerr4.Gam213, Kerr4.Gam222, Kerr4.Gam223, Kerr4.Gam233, Kerr4.Gam300, Kerr4.Gam301, Kerr4.Gam302, Kerr4.Gam303, Kerr4.Gam311, Kerr4.Gam312, Kerr4.Gam313, Kerr4.Gam322, Kerr4.Gam323, Kerr4.Gam333] <;> ring1

theorem Kerr4.G_val (k : Fin 4) : (Kerr4.point pt).G k = val (Spec.contractedN D (Spec.kerr4 M aM) k) := by
  unfold Spec.contractedN
  simp only [map_sum, map_mul, ← Kerr4.gup_val (b := b), ← Kerr4.Gam_val (b := b)]
  fin_cases k <;>
    simp only [Fin.zero_eta, Fin.mk_one, Fin.reduceFinMk, Spec.sym4, Nat.reduceMul, Fin.coe_ofNat_eq_mod, Nat.reduceMod, Nat.reduceAdd,
      List.getD_cons_zero, List.getD_cons_succ, Kerr4.point, Fin.sum_univ_four, Kerr4.G0, Kerr4.G1, Kerr4.G2, Kerr4.G3] <;> ring1

end

variable (M : ℝ) (S : Fin 3 → ℝ) (b : Bool)

/-- **C129.** At every point where the Kerr metric with the parameter `a = S / M` is regular, `Kerr` writes the four dimensional metric
`-α² dt² + γ_ij (dx^i + β^i dt) (dx^j + β^j dt)` that belongs to the lapse `α`, the shift `β` and the metric `γ` that `Kerr3d` writes, its
inverse, its Christoffel symbols and their contraction. -/
theorem C129_kerr : ∃ (γ : Spec.Metric (Spec.smoothOn (Spec.kerrDomain M (Spec.spinOverMass M S))))
    (α w : Spec.smoothOn (Spec.kerrDomain M (Spec.spinOverMass M S))) (β : Fin 3 → Spec.smoothOn (Spec.kerrDomain M (Spec.spinOverMass M S)))
    (hw : w * α = 1),
    (∀ (x : Spec.kerrDomain M (Spec.spinOverMass M S)) (i j : Fin 3),
      (Kerr3d.point (Spec.kerrPt M S b x)).g (Spec.sym2 i j) = Spec.valueAt x (γ.g i j) ∧
      (Kerr3d.point (Spec.kerrPt M S b x)).alpha = Spec.valueAt x α ∧
      (Kerr3d.point (Spec.kerrPt M S b x)).beta i = Spec.valueAt x (β i)) ∧
    ∀ (x : Spec.kerrDomain M (Spec.spinOverMass M S)) (a c e : Fin 4),
      (Kerr4.point (Spec.kerrPt M S b x)).g (Spec.sym4 a c) = Spec.valueAt x ((Spec.admMetric γ β α w hw).g a c) ∧
      (Kerr4.point (Spec.kerrPt M S b x)).gup (Spec.sym4 a c) = Spec.valueAt x ((Spec.admMetric γ β α w hw).inv a c) ∧
      (Kerr4.point (Spec.kerrPt M S b x)).Gam (10 * e + Spec.sym4 a c) =
        Spec.valueAt x (Spec.christoffelN (Spec.stationary (Spec.calculusOn (kerrDomain_open _ _))).d4 (Spec.admMetric γ β α w hw) e a c) ∧
      (Kerr4.point (Spec.kerrPt M S b x)).G a =
        Spec.valueAt x (Spec.contractedN (Spec.stationary (Spec.calculusOn (kerrDomain_open _ _))).d4 (Spec.admMetric γ β α w hw) a) :=
  ⟨Spec.KerrSchild.metric kerr_schild, Spec.kN M (Spec.spinOverMass M S), Spec.kN M _ * (1 + Spec.kphi M _), fun i => Spec.kphi M (Spec.spinOverMass M S) * Spec.kt M (Spec.spinOverMass M S) *
      Spec.kl M (Spec.spinOverMass M S) i, kN_w M _,
    fun x i j => ⟨Kerr3d.g_val x i j, Kerr3d.alpha_val x, Kerr3d.beta_val x i⟩,
    fun x a c e => ⟨Kerr4.g_val x a c, Kerr4.gup_val x a c, Kerr4.Gam_val x e a c, Kerr4.G_val x a⟩⟩

/-! A black hole of mass 12 and spin 60 at a point where all roots are rational; the point is the one of the example for C118. -/

example : (List.range 10).map (Kerr4.point exKerr3d).g = [2, 9 / 5, 0, 12 / 5, 52 / 25, 0, 36 / 25, 1, 0, 73 / 25] := by decide +kernel
example : (List.range 10).map (Kerr4.point exKerr3d).gup = [-4, 9 / 5, 0, 12 / 5, -2 / 25, 0, -36 / 25, 1, 0, -23 / 25] := by decide +kernel
example : (List.range 10).map (Kerr4.point exKerr3d).Gam =
    [0, -9 / 80, -9 / 64, 27 / 320, -3 / 8, -27 / 320, 9 / 64, -3 / 8, -9 / 80, 0] := by decide +kernel
example : (List.range 4).map (Kerr4.point exKerr3d).G = [-3 / 4, 9 / 20, 0, 3 / 5] := by decide +kernel

end Sgrid

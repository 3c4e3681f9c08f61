import Verif.Model.PNOrbit
import Mathlib.Tactic.FieldSimp
import Mathlib.Tactic.Ring
import Mathlib.Tactic.LinearCombination
import Mathlib.Tactic.NormNum
import Mathlib.Tactic.Positivity
import Mathlib.Tactic.IntervalCases

/-!
# C137: the post-Newtonian orbit
-/

namespace Sgrid

open Real

namespace Spec

/-- The two bodies exchanged: the masses. -/
def swapMasses (p : PNPar) : PNPar := { p with m1 := p.m2, m2 := p.m1 }

/-- The two bodies exchanged: the spins, which are at 2-4 and 5-7. -/
def swapSpins (y : Nat → ℝ) (n : Nat) : ℝ :=
  if 2 ≤ n ∧ n ≤ 4 then y (n + 3) else if 5 ≤ n ∧ n ≤ 7 then y (n - 3) else y n

/-- The spins of the bodies multiplied by `a` and `b`. -/
def scaleSpins (a b : ℝ) (y : Nat → ℝ) (n : Nat) : ℝ :=
  if 2 ≤ n ∧ n ≤ 4 then a * y n else if 5 ≤ n ∧ n ≤ 7 then b * y n else y n

end Spec

open PN

/-- The lengths of both spins and of the direction of the orbital angular momentum do not change. -/
theorem C137_lengths (p : PNPar) (y : Nat → ℝ) :
    y 2 * derivs p y 2 + y 3 * derivs p y 3 + y 4 * derivs p y 4 = 0 ∧
    y 5 * derivs p y 5 + y 6 * derivs p y 6 + y 7 * derivs p y 7 = 0 ∧
    y 8 * derivs p y 8 + y 9 * derivs p y 9 + y 10 * derivs p y 10 = 0 := by
  refine ⟨?_, ?_, ?_⟩
  · simp [derivs, rhs, renorm]; ring
  · simp [derivs, rhs, renorm]; ring
  · simp [derivs, rhs, renorm]; ring

/-- Precession does not change the total angular momentum: with the Newtonian orbital angular momentum, of length
`nu m^2 / v`, the changes of the directions and of both spins add up to zero. -/
theorem C137_momentum (p : PNPar) (h1 : 0 < p.m1) (h2 : 0 < p.m2) (y : Nat → ℝ) (hy : 0 < y 1) (i : Nat) (hi : i < 3) :
    let m := p.m1 + p.m2
    p.m1 * p.m2 / (m * y 1) ^ ((1 : ℝ) / 3) * derivs p y (8 + i) + derivs p y (2 + i) + derivs p y (5 + i) = 0 := by
  intro m'
  have hm : 0 < p.m1 + p.m2 := by positivity
  have hv : 0 < ((p.m1 + p.m2) * y 1) ^ ((1 : ℝ) / 3) := rpow_pos_of_pos (by positivity) _
  simp only [m', derivs]
  rw [show PN.m p = p.m1 + p.m2 from rfl]
  generalize ((p.m1 + p.m2) * y 1) ^ ((1 : ℝ) / 3) = v at hv
  generalize renorm y = z
  have := h1.ne'; have := h2.ne'; have := hm.ne'; have := hv.ne'
  interval_cases i <;>
  · simp only [rhs, LNS1, LNS2, LNS, c15, c16, c17, c18, c19, c20, nu, mu, PN.m]
    simp
    field_simp
    ring

/-- The hypotheses are met, and both sides move: two stars of mass 1, the spin of the first lying in the plane of the orbit. -/
example : derivs ⟨1, 1, 0, 1, 1, 1, 1, 1, 1, 1, 1, 1, 1, 1, 1, 1, 1, .buonanno⟩ (fun n => [0, 1 / 2, 1, 0, 0, 0, 0, 0, 0, 0, 1, 0].getD n 0) 3 = 7 / 16 ∧
    derivs ⟨1, 1, 0, 1, 1, 1, 1, 1, 1, 1, 1, 1, 1, 1, 1, 1, 1, .buonanno⟩ (fun n => [0, 1 / 2, 1, 0, 0, 0, 0, 0, 0, 0, 1, 0].getD n 0) 9 = -7 / 16 := by
  constructor <;>
  · simp [derivs, rhs, LNS1, LNS, renorm, PN.m, nu, mu, c15, c16, c17, c18, c19, c20, LS1, LS2]
    norm_num

theorem LS1_swap (y : Nat → ℝ) : LS1 (Spec.swapSpins y) = LS2 y := by simp [LS1, LS2, Spec.swapSpins]

theorem LS2_swap (y : Nat → ℝ) : LS2 (Spec.swapSpins y) = LS1 y := by simp [LS1, LS2, Spec.swapSpins]

theorem SS_swap (y : Nat → ℝ) : SS (Spec.swapSpins y) = SS y := by simp [SS, Spec.swapSpins]; ring

theorem renorm_swap (y : Nat → ℝ) : renorm (Spec.swapSpins y) = Spec.swapSpins (renorm y) := by
  funext n
  by_cases h1 : 8 ≤ n ∧ n ≤ 10
  · have a : ¬ (2 ≤ n ∧ n ≤ 4) := by omega
    have b : ¬ (5 ≤ n ∧ n ≤ 7) := by omega
    simp [renorm, Spec.swapSpins, h1, a, b]
  · by_cases a : 2 ≤ n ∧ n ≤ 4
    · have c : ¬ (8 ≤ n + 3 ∧ n + 3 ≤ 10) := by omega
      simp only [renorm, Spec.swapSpins, if_neg h1, if_pos a, if_neg c]
    · by_cases b : 5 ≤ n ∧ n ≤ 7
      · have c : ¬ (8 ≤ n - 3 ∧ n - 3 ≤ 10) := by omega
        simp only [renorm, Spec.swapSpins, if_neg h1, if_neg a, if_pos b, if_neg c]
      · simp only [renorm, Spec.swapSpins, if_neg h1, if_neg a, if_neg b]

theorem consts_swap (p : PNPar) : PN.m (Spec.swapMasses p) = PN.m p ∧ nu (Spec.swapMasses p) = nu p ∧
    deltam (Spec.swapMasses p) = -deltam p := by
  refine ⟨?_, ?_, ?_⟩
  · simp [PN.m, Spec.swapMasses]; ring
  · simp [nu, mu, PN.m, Spec.swapMasses, mul_comm, add_comm]
  · simp [deltam, Spec.swapMasses]

theorem chiDots_swap (p : PNPar) (y : Nat → ℝ) :
    chiDots (Spec.swapMasses p) (Spec.swapSpins y) =
      let d := chiDots p y
      { d with dm := -d.dm, Lchia := -d.Lchia, Lchia3 := -d.Lchia3, chis_chia := -d.chis_chia } := by
  obtain ⟨a, b, c⟩ := consts_swap p
  simp only [chiDots, a, b, c, LS1_swap, LS2_swap, SS_swap]
  have s2 : Spec.swapSpins y 2 = y 5 := by simp [Spec.swapSpins]
  have s3 : Spec.swapSpins y 3 = y 6 := by simp [Spec.swapSpins]
  have s4 : Spec.swapSpins y 4 = y 7 := by simp [Spec.swapSpins]
  have s5 : Spec.swapSpins y 5 = y 2 := by simp [Spec.swapSpins]
  have s6 : Spec.swapSpins y 6 = y 3 := by simp [Spec.swapSpins]
  have s7 : Spec.swapSpins y 7 = y 4 := by simp [Spec.swapSpins]
  simp only [s2, s3, s4, s5, s6, s7, Spec.swapMasses]
  congr 1 <;> ring

theorem t4bug_swap (gE v1 V2 V3 V4 V5 V6 V7 : ℝ) (d : ChiDots) :
    t4bug gE v1 V2 V3 V4 V5 V6 V7 { d with dm := -d.dm, Lchia := -d.Lchia, Lchia3 := -d.Lchia3, chis_chia := -d.chis_chia } =
      t4bug gE v1 V2 V3 V4 V5 V6 V7 d := by
  simp only [t4bug]; ring

theorem t4_swap (gE v1 V2 V3 V4 V5 V6 V7 : ℝ) (d : ChiDots) :
    t4 gE v1 V2 V3 V4 V5 V6 V7 { d with dm := -d.dm, Lchia := -d.Lchia, Lchia3 := -d.Lchia3, chis_chia := -d.chis_chia } =
      t4 gE v1 V2 V3 V4 V5 V6 V7 d := by
  simp only [t4]; ring

theorem coeffs_swap (p : PNPar) :
    c1 (Spec.swapMasses p) = c1 p ∧ c2 (Spec.swapMasses p) = c2 p ∧ c3 (Spec.swapMasses p) = c4 p ∧ c4 (Spec.swapMasses p) = c3 p ∧
    c6 (Spec.swapMasses p) = c6 p ∧ c7 (Spec.swapMasses p) = c7 p ∧ c8 (Spec.swapMasses p) = c8 p ∧ c9 (Spec.swapMasses p) = c9 p ∧
    c10 (Spec.swapMasses p) = c10 p ∧ c11 (Spec.swapMasses p) = c11 p ∧ c12 (Spec.swapMasses p) = c12 p ∧
    c14 (Spec.swapMasses p) = c14 p ∧ c15 (Spec.swapMasses p) = c15 p ∧ c16 (Spec.swapMasses p) = c18 p ∧
    c17 (Spec.swapMasses p) = c17 p ∧ c18 (Spec.swapMasses p) = c16 p ∧ c19 (Spec.swapMasses p) = c19 p ∧
    c20 (Spec.swapMasses p) = c20 p := by
  obtain ⟨a, b, c⟩ := consts_swap p
  simp only [c1, c2, c3, c4, c6, c7, c8, c9, c10, c11, c12, c14, c15, c16, c17, c18, c19, c20, a, b]
  simp only [Spec.swapMasses, and_true, true_and]
  refine ⟨?_, ?_⟩ <;> ring

theorem bracket_swap (p : PNPar) (v1 om : ℝ) (y : Nat → ℝ) :
    bracket (Spec.swapMasses p) v1 om (Spec.swapSpins y) = bracket p v1 om y := by
  obtain ⟨h1, h2, h3, h4, h6, h7, h8, h9, h10, h11, h12, h14, _⟩ := coeffs_swap p
  have hd := chiDots_swap p y
  have ht : (Spec.swapMasses p).typ = p.typ := rfl
  unfold bracket
  simp only [h2, h3, h4, h6, h7, h8, h9, h10, h11, h12, h14, LS1_swap, LS2_swap, SS_swap, hd, t4_swap, t4bug_swap, ht]
  simp only [Spec.swapMasses]
  rw [add_comm (c4 p * LS2 y) (c3 p * LS1 y), mul_right_comm (c8 p) (LS2 y) (LS1 y)]

/-- Exchanging the two bodies exchanges the equations: for every kind of equations of motion it does not matter which star is called 1. -/
theorem C137_exchange (p : PNPar) (y : Nat → ℝ) (n : Nat) :
    derivs (Spec.swapMasses p) (Spec.swapSpins y) n = Spec.swapSpins (derivs p y) n := by
  obtain ⟨a, b, _⟩ := consts_swap p
  obtain ⟨h1, -, -, -, -, -, -, -, -, -, -, -, h15, h16, h17, h18, h19, h20⟩ := coeffs_swap p
  have hy1 : Spec.swapSpins y 1 = y 1 := by simp [Spec.swapSpins]
  have key : ∀ v om z n, rhs (Spec.swapMasses p) v om (Spec.swapSpins z) n = Spec.swapSpins (rhs p v om z) n := by
    intro v om z n
    have e1 : LNS1 (Spec.swapMasses p) v (Spec.swapSpins z) 1 = LNS2 p v z 1 := by
      simp [LNS1, LNS2, b, h15, h16, h17, LS2_swap, Spec.swapSpins]
    have e2 : LNS1 (Spec.swapMasses p) v (Spec.swapSpins z) 2 = LNS2 p v z 2 := by
      simp [LNS1, LNS2, b, h15, h16, h17, LS2_swap, Spec.swapSpins]
    have e3 : LNS1 (Spec.swapMasses p) v (Spec.swapSpins z) 3 = LNS2 p v z 3 := by
      simp [LNS1, LNS2, b, h15, h16, h17, LS2_swap, Spec.swapSpins]
    have f1 : LNS2 (Spec.swapMasses p) v (Spec.swapSpins z) 1 = LNS1 p v z 1 := by
      simp [LNS1, LNS2, b, h15, h18, h17, LS1_swap, Spec.swapSpins]
    have f2 : LNS2 (Spec.swapMasses p) v (Spec.swapSpins z) 2 = LNS1 p v z 2 := by
      simp [LNS1, LNS2, b, h15, h18, h17, LS1_swap, Spec.swapSpins]
    have f3 : LNS2 (Spec.swapMasses p) v (Spec.swapSpins z) 3 = LNS1 p v z 3 := by
      simp [LNS1, LNS2, b, h15, h18, h17, LS1_swap, Spec.swapSpins]
    have g1 : LNS (Spec.swapMasses p) v (Spec.swapSpins z) 1 = LNS p v z 1 := by
      simp [LNS, h16, h18, h19, LS1_swap, LS2_swap, Spec.swapSpins]; ring
    have g2 : LNS (Spec.swapMasses p) v (Spec.swapSpins z) 2 = LNS p v z 2 := by
      simp [LNS, h16, h18, h19, LS1_swap, LS2_swap, Spec.swapSpins]; ring
    have g3 : LNS (Spec.swapMasses p) v (Spec.swapSpins z) 3 = LNS p v z 3 := by
      simp [LNS, h16, h18, h19, LS1_swap, LS2_swap, Spec.swapSpins]; ring
    have hb := bracket_swap p v om z
    rcases Nat.lt_or_ge n 12 with hn | hn
    · unfold rhs
      simp only [hb, e1, e2, e3, f1, f2, f3, g1, g2, g3, h1, h20]
      interval_cases n <;> simp [Spec.swapSpins]
    · have a1 : ¬ (2 ≤ n ∧ n ≤ 4) := by omega
      have a2 : ¬ (5 ≤ n ∧ n ≤ 7) := by omega
      simp only [Spec.swapSpins, if_neg a1, if_neg a2]
      obtain ⟨k, rfl⟩ := Nat.exists_eq_add_of_le hn
      rw [Nat.add_comm 12 k]
      rfl
  simp only [derivs]
  rw [a, hy1, renorm_swap, key]
  rfl

/-- … and the distance of the stars does not change. -/
theorem C137_exchange_radius (p : PNPar) (y : Nat → ℝ) :
    computeR (Spec.swapMasses p) (Spec.swapSpins y) = computeR p y := by
  obtain ⟨a, b, _⟩ := consts_swap p
  have hy1 : Spec.swapSpins y 1 = y 1 := by simp [Spec.swapSpins]
  simp only [computeR, radius, a, b, hy1, LS1_swap, LS2_swap, SS_swap]
  simp only [Spec.swapMasses]
  ring

/-- Kidder's equations with the factor that stops the growth at `v = v2cut` agree with those without up to terms of fifth order in `v`,
which these equations do not contain (flags 1). -/
theorem C137_kidder_v2cut (p : PNPar) (hf : p.f2 = 1 ∧ p.f3 = 1 ∧ p.f4 = 1) (v : ℝ) (y : Nat → ℝ) :
    ∃ r, bracket { p with typ := .kidderV2 } v (v ^ 3) y = bracket { p with typ := .kidder } v (v ^ 3) y + v ^ 5 * r := by
  obtain ⟨h2, h3, h4⟩ := hf
  refine ⟨-(1 / (p.v2cut * p.v2cut)) * (-(c3 p * LS1 y + c4 p * LS2 y - c5) +
    (c6 p * 0 - c7 p * SS y + c8 p * LS1 y * LS2 y + (-c2 p + 1 / (p.v2cut * p.v2cut)) * (1 / (p.v2cut * p.v2cut))) * v), ?_⟩
  simp only [bracket, h2, h3, h4, c2, c3, c4, c6, c7, c8, nu, mu, PN.m]
  ring

/-- The same for the sixth power. -/
theorem C137_kidder_v6cut (p : PNPar) (hf : p.f2 = 1 ∧ p.f3 = 1 ∧ p.f4 = 1 ∧ p.f6 = 1) (v : ℝ) (y : Nat → ℝ) :
    bracket { p with typ := .kidderV6 } v (v ^ 3) y = (1 - v ^ 6 / p.v6cut ^ 6) * bracket { p with typ := .kidder } v (v ^ 3) y := by
  obtain ⟨h2, h3, h4, h6⟩ := hf
  simp only [bracket, h2, h3, h4, h6, c2, c3, c4, c6, c7, c8, nu, mu, PN.m]
  ring

/-- With all terms the factor with the sixth power changes terms of eighth order only: `a6` is changed to make up for the factor. -/
theorem C137_buonanno_v6cut (p : PNPar) (hf : p.f2 = 1 ∧ p.f3 = 1 ∧ p.f4 = 1 ∧ p.f5 = 1 ∧ p.f6 = 1 ∧ p.f7 = 1) (v : ℝ) (y : Nat → ℝ) :
    bracket { p with typ := .buonannoV6 } v (v ^ 3) y = bracket { p with typ := .buonanno } v (v ^ 3) y -
      v ^ 6 / p.v6cut ^ 6 * (bracket { p with typ := .buonanno } v (v ^ 3) y - 1 + v ^ 6 / p.v6cut ^ 6) := by
  obtain ⟨h2, h3, h4, h5, h6, h7⟩ := hf
  simp only [bracket, h2, h3, h4, h5, h6, h7, c2, c3, c4, c6, c7, c8, c9, c10, c11, c12, c14, nu, mu, PN.m]
  ring

/-- All of them stop the growth of the frequency at the speed `v2cut` or `v6cut` (flags 1). -/
theorem C137_cut (p : PNPar) (hf : p.f2 = 1 ∧ p.f6 = 1) (v : ℝ) (hv : 0 < v) (y : Nat → ℝ) (om : ℝ) :
    ((p.typ = .kidderV2 ∨ p.typ = .buonannoV2) → p.v2cut = v → bracket p v om y = 0) ∧
    ((p.typ = .kidderV6 ∨ p.typ = .buonannoV6) → p.v6cut = v → bracket p v (v ^ 3) y = 0) := by
  have hv' := hv.ne'
  obtain ⟨h2, h6⟩ := hf
  have e2 : 1 - 1 / (v * v) * (v * v * 1) = 0 := by field_simp; ring
  have e6 : 1 - 1 / v ^ 6 * (v ^ 3 * v ^ 3 * 1) = 0 := by field_simp; ring
  refine ⟨?_, ?_⟩
  · rintro (h | h) hc <;> simp only [bracket, h, hc, h2, e2, zero_mul]
  · rintro (h | h) hc <;> simp only [bracket, h, hc, h6, e6, zero_mul]

/-- Without spins both `TaylorT4` and `TaylorT4_bug` are the equations of Buonanno et al., but for the digits of three rounded numbers. -/
theorem C137_nospin (p : PNPar) (v : ℝ) (hv : 0 < v) (om : ℝ) (y : Nat → ℝ) (hs : ∀ n, 2 ≤ n → n ≤ 7 → y n = 0) :
    ∃ a b c, |a| ≤ 1 / 10 ^ 15 ∧ |b| ≤ 1 / 10 ^ 13 ∧ |c| ≤ 1 / 10 ^ 15 ∧
      bracket { p with typ := .t4 } v om y =
        bracket { p with typ := .buonanno } v om y + a * (v ^ 2 * p.f2) + (b + c * PN.nu p ^ 2) * (om ^ 2 * p.f6) ∧
      bracket { p with typ := .t4bug } v om y =
        bracket { p with typ := .buonanno } v om y + a * (v ^ 2 * p.f2) + b * (om ^ 2 * p.f6) := by
  have h2 := hs 2 (by omega) (by omega)
  have h3 := hs 3 (by omega) (by omega)
  have h4 := hs 4 (by omega) (by omega)
  have h5 := hs 5 (by omega) (by omega)
  have h6 := hs 6 (by omega) (by omega)
  have h7 := hs 7 (by omega) (by omega)
  have hl : log (16 * (v * v)) = log 16 + 2 * log v := by
    rw [log_mul (by norm_num) (by positivity), log_mul hv.ne' hv.ne']; ring
  refine ⟨743 / 336 - 22113095238095237 / 10000000000000000, 11772574285227559 / 100000000000000 - 16447322263 / 139708800,
    6037946428571429 / 10000000000000000 - 541 / 896, by norm_num [abs_le], by norm_num [abs_le], by norm_num [abs_le], ?_, ?_⟩
  · have hd : chiDots { p with typ := .t4 } y = ⟨PN.nu p, PN.deltam p / PN.m p, 0, 0, 0, 0, 0, 0, 0, 0, 0⟩ := by
      simp [chiDots, LS1, LS2, SS, h2, h3, h4, h5, h6, h7, PN.nu, PN.mu, PN.m, PN.deltam]
    have hn : PN.nu { p with typ := .buonanno } = PN.nu p := rfl
    simp only [bracket, hd, t4, hl, LS1, LS2, SS, h2, h3, h4, h5, h6, h7, c2, c5, c6, c7, c8, c9, c10, c11, c12, c13, c14, theta_cap, hn]
    ring
  · have hd : chiDots { p with typ := .t4bug } y = ⟨PN.nu p, PN.deltam p / PN.m p, 0, 0, 0, 0, 0, 0, 0, 0, 0⟩ := by
      simp [chiDots, LS1, LS2, SS, h2, h3, h4, h5, h6, h7, PN.nu, PN.mu, PN.m, PN.deltam]
    have hn : PN.nu { p with typ := .buonanno } = PN.nu p := rfl
    simp only [bracket, hd, t4bug, hl, LS1, LS2, SS, h2, h3, h4, h5, h6, h7, c2, c5, c6, c7, c8, c9, c10, c11, c12, c13, c14, theta_cap, hn]
    ring

/-- The coupling of spin and orbit, the term of third order, is the same in `TaylorT4`, `TaylorT4_bug` and Buonanno et al. -/
theorem C137_spin_orbit (p : PNPar) (h1 : 0 < p.m1) (h2 : 0 < p.m2) (hf : p.f2 = 0 ∧ p.f4 = 0 ∧ p.f5 = 0 ∧ p.f6 = 0 ∧ p.f7 = 0)
    (hO : p.OLS1 = 1) (v om : ℝ) (y : Nat → ℝ) :
    bracket { p with typ := .t4 } v om y = bracket { p with typ := .buonanno } v om y ∧
    bracket { p with typ := .t4bug } v om y = bracket { p with typ := .buonanno } v om y := by
  obtain ⟨f2, f4, f5, f6, f7⟩ := hf
  have hm : 0 < p.m1 + p.m2 := by positivity
  have := h1.ne'; have := h2.ne'; have := hm.ne'
  refine ⟨?_, ?_⟩
  · simp only [bracket, t4, chiDots, hO, f2, f4, f5, f6, f7, mul_zero, zero_mul, add_zero, sub_zero, c3, c4, c5, nu, mu, PN.m, deltam]
    field_simp
    ring
  · simp only [bracket, t4bug, chiDots, hO, f2, f4, f5, f6, f7, mul_zero, add_zero, sub_zero, c3, c4, c5, nu, mu, PN.m, deltam]
    field_simp
    ring

/-- What depends on both spins in the term of fourth order: the value for both spins, minus those with only one, plus that with none. -/
noncomputable def Spec.spinSpin (p : PNPar) (v om : ℝ) (y : Nat → ℝ) : ℝ :=
  bracket p v om y - bracket p v om (Spec.scaleSpins 1 0 y) - bracket p v om (Spec.scaleSpins 0 1 y) + bracket p v om (Spec.scaleSpins 0 0 y)

/-- The coupling of the two spins is the same in `TaylorT4` and Buonanno et al.  -/
theorem C137_spin_spin (p : PNPar) (h1 : 0 < p.m1) (h2 : 0 < p.m2) (hf : p.f2 = 0 ∧ p.f3 = 0 ∧ p.f5 = 0 ∧ p.f6 = 0 ∧ p.f7 = 0)
    (hO : p.OLS1 = 1 ∧ p.OLS2 = 1 ∧ p.OSS1 = 1) (v om : ℝ) (y : Nat → ℝ) :
    Spec.spinSpin { p with typ := .t4 } v om y = Spec.spinSpin { p with typ := .buonanno } v om y := by
  obtain ⟨f2, f3, f5, f6, f7⟩ := hf
  obtain ⟨o1, o2, o3⟩ := hO
  have hm : 0 < p.m1 + p.m2 := by positivity
  have := h1.ne'; have := h2.ne'; have := hm.ne'
  have L1 : ∀ a b, LS1 (Spec.scaleSpins a b y) = a * LS1 y := by intro a b; simp [LS1, Spec.scaleSpins]; ring
  have L2 : ∀ a b, LS2 (Spec.scaleSpins a b y) = b * LS2 y := by intro a b; simp [LS2, Spec.scaleSpins]; ring
  have L3 : ∀ a b, SS (Spec.scaleSpins a b y) = a * b * SS y := by intro a b; simp [SS, Spec.scaleSpins]; ring
  have e2 : ∀ a b, Spec.scaleSpins a b y 2 = a * y 2 := by intro a b; simp [Spec.scaleSpins]
  have e3 : ∀ a b, Spec.scaleSpins a b y 3 = a * y 3 := by intro a b; simp [Spec.scaleSpins]
  have e4 : ∀ a b, Spec.scaleSpins a b y 4 = a * y 4 := by intro a b; simp [Spec.scaleSpins]
  have e5 : ∀ a b, Spec.scaleSpins a b y 5 = b * y 5 := by intro a b; simp [Spec.scaleSpins]
  have e6 : ∀ a b, Spec.scaleSpins a b y 6 = b * y 6 := by intro a b; simp [Spec.scaleSpins]
  have e7 : ∀ a b, Spec.scaleSpins a b y 7 = b * y 7 := by intro a b; simp [Spec.scaleSpins]
  simp only [Spec.spinSpin, bracket, t4, chiDots, o1, o2, o3, f2, f3, f5, f6, f7, mul_zero, zero_mul, add_zero, sub_zero,
    c3, c4, c5, c6, c7, c8, nu, mu, PN.m, deltam, L1, L2, L3, e2, e3, e4, e5, e6, e7]
  generalize LS1 y = A
  generalize LS2 y = B
  generalize SS y = C
  field_simp
  ring

/-- In `TaylorT4_bug` it is not: for equal masses and spins along the orbital angular momentum its size differs. -/
theorem C137_spin_spin_bug : ∃ (p : PNPar) (v om : ℝ) (y : Nat → ℝ), p.m1 = p.m2 ∧ 0 < p.m1 ∧
    Spec.spinSpin { p with typ := .t4bug } v om y ≠ Spec.spinSpin { p with typ := .buonanno } v om y := by
  refine ⟨⟨1, 1, 0, 0, 0, 1, 0, 0, 0, 1, 1, 1, 1, 1, 1, 1, 1, .t4⟩, 1, 1, fun n => if n = 4 ∨ n = 7 ∨ n = 10 then 1 else 0, rfl, by norm_num, ?_⟩
  simp only [Spec.spinSpin, bracket, t4bug, chiDots, mul_zero, zero_mul, add_zero, sub_zero,
    c3, c4, c5, c6, c7, c8, nu, mu, PN.m, deltam, LS1, LS2, SS, Spec.scaleSpins]
  norm_num

end Sgrid

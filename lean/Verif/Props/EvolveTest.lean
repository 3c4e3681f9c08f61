import Verif.Model.EvolveTest
import Verif.Props.RungeKutta
import Mathlib.Analysis.Complex.ExponentialBounds
import Mathlib.Tactic.FieldSimp
import Mathlib.Tactic.LinearCombination

/-!
C170: the test of the time integrators.
-/

namespace Sgrid
open Finset

section
variable {K : Type} [Field K] [DecidableEq K] {S : List Nat} {D : Dom}

theorem evolveTest_computes : Spec.Computes (K := K) S D evolveTestFuns (fun u _ => -u) (fun u _ => u) where
  rhs st unew upre ucur c hF h1 h2 h3 h4 h5 := by
    have hV := rep_of_family hF
    simp only [evolveTestFuns]
    by_cases hc : c = 0
    · rw [if_pos hc, if_pos hc]
      obtain ⟨s1, e1, r1⟩ := hV.vladd h1 (-1) 0 h3 h3
      refine ⟨s1.setTime unew (st.vl unew).time, by rw [e1]; rfl, hV.sets (r1.setTime _ _) h1 ?_
        fun l hl => by simp only [Function.update_of_ne hl]⟩
      have := D.mask_comb (-1 : K) 0 (fld_mask st D ucur) (fld_mask st D ucur)
      simp only [Function.update_self, zero_smul, add_zero, neg_smul, one_smul] at this ⊢
      rw [this]
    · rw [if_neg hc, if_neg hc]
      obtain ⟨s1, e1, r1⟩ := hV.vladd h1 1 (-c) h2 h3
      refine ⟨s1.setTime unew (st.vl unew).time, by rw [e1]; rfl, hV.sets (r1.setTime _ _) h1 ?_
        fun l hl => by simp only [Function.update_of_ne hl]⟩
      have := D.mask_comb 1 (-c) (fld_mask st D upre) (fld_mask st D ucur)
      simp only [Function.update_self, one_smul, neg_smul, smul_neg] at this ⊢
      rw [this]
  noAlg _ _ _ := rfl
  alg a h := by cases h

omit [DecidableEq K] in
theorem mask_smul {u : Fld K} (hu : D.mask u = u) (c : K) : D.mask (c • u) = c • u := by
  have := D.mask_comb c 0 hu hu
  simpa using this

omit [DecidableEq K] in
/-- The factors of the stages. -/
theorem exists_kappa (dt : K) (rk : Butcher K) (s : Nat) :
    ∃ κ : Nat → K, ∀ i, i < s → κ i = -(1 + ∑ j ∈ range i, dt * rk.A i j * κ j) := by
  induction s with
  | zero => exact ⟨fun _ => 0, by simp⟩
  | succ s ih =>
    obtain ⟨κ, h⟩ := ih
    refine ⟨Function.update κ s (-(1 + ∑ j ∈ range s, dt * rk.A s j * κ j)), ?_⟩
    have hsum : ∀ i, i ≤ s → ∑ j ∈ range i, dt * rk.A i j *
        Function.update κ s (-(1 + ∑ j ∈ range s, dt * rk.A s j * κ j)) j = ∑ j ∈ range i, dt * rk.A i j * κ j := by
      intro i hi
      refine Finset.sum_congr rfl fun j hj => ?_
      rw [Function.update_of_ne (by have := Finset.mem_range.1 hj; omega)]
    intro i hi
    rw [hsum i (by omega)]
    by_cases e : i = s
    · subst e; rw [Function.update_self]
    · rw [Function.update_of_ne e, h i (by omega)]

omit [DecidableEq K] in
/-- Stages that are multiples of u. -/
theorem stages_smul {dt : K} {rk : Butcher K} {u : Fld K} (hu : D.mask u = u) {k : Nat → Fld K} {s : Nat}
    (hk : ∀ i, i < s → k i = D.mask (-(D.mask (u + ∑ j ∈ range i, (dt * rk.A i j) • k j)))) {κ : Nat → K}
    (hκ : ∀ i, i < s → κ i = -(1 + ∑ j ∈ range i, dt * rk.A i j * κ j)) : ∀ i, i < s → k i = κ i • u := by
  intro i
  induction i using Nat.strong_induction_on with
  | _ i ih =>
    intro hi
    have e : u + ∑ j ∈ range i, (dt * rk.A i j) • k j = (1 + ∑ j ∈ range i, dt * rk.A i j * κ j) • u := by
      rw [add_smul, one_smul, Finset.sum_smul]
      congr 1
      refine Finset.sum_congr rfl fun j hj => ?_
      have hj' := Finset.mem_range.1 hj
      rw [ih j hj' (by omega), smul_smul]
    rw [hk i hi, e, mask_smul hu, ← neg_smul, mask_smul hu, hκ i hi]

omit [DecidableEq K] in
/-- The factor of one step. -/
theorem step_factor {dt : K} {rk : Butcher K} {u : Fld K} (hu : D.mask u = u) {k : Nat → Fld K}
    (hk : ∀ i, i < rk.nstages → k i = D.mask (-(D.mask (u + ∑ j ∈ range i, (dt * rk.A i j) • k j)))) {κ : Nat → K}
    (hκ : ∀ i, i < rk.nstages → κ i = -(1 + ∑ j ∈ range i, dt * rk.A i j * κ j)) :
    D.mask (u + ∑ j ∈ range rk.nstages, (dt * rk.B j) • k j) =
      (1 + ∑ j ∈ range rk.nstages, dt * rk.B j * κ j) • u := by
  have h := stages_smul hu hk hκ
  have e : u + ∑ j ∈ range rk.nstages, (dt * rk.B j) • k j =
      (1 + ∑ j ∈ range rk.nstages, dt * rk.B j * κ j) • u := by
    rw [add_smul, one_smul, Finset.sum_smul]
    congr 1
    refine Finset.sum_congr rfl fun j hj => ?_
    rw [h j (Finset.mem_range.1 hj), smul_smul]
  rw [e, mask_smul hu]

/-- The first terms of exp(-h). -/
def Spec.expTerms (p : Nat) (h : K) : K := ∑ m ∈ range (p + 1), (-h) ^ m / (Nat.factorial m : K)

/-- What one step of each method should multiply u with. -/
def Spec.stepFactor (name : String) (h : K) : K :=
  if name = "rk1" ∨ name = "euler" then Spec.expTerms 1 h
  else if name = "rk2" ∨ name = "rk2a" ∨ name = "midpoint" then Spec.expTerms 2 h
  else if name = "rk3" ∨ name = "rk3a" ∨ name = "rk3b" then Spec.expTerms 3 h
  else if name = "rk4" ∨ name = "rk4a" then Spec.expTerms 4 h
  else Spec.expTerms 5 h + h ^ 6 / 600

omit [DecidableEq K] in
theorem table_factor [CharZero K] {name : String} {rk : Butcher K} (hmem : (name, rk) ∈ (rkNames : List (String × Butcher K)))
    {h : K} {κ : Nat → K} (hκ : ∀ i, i < rk.nstages → κ i = -(1 + ∑ j ∈ range i, h * rk.A i j * κ j)) :
    1 + ∑ j ∈ range rk.nstages, h * rk.B j * κ j = Spec.stepFactor name h := by
  simp only [rkNames, List.mem_cons, Prod.mk.injEq, List.not_mem_nil, or_false] at hmem
  rcases hmem with ⟨rfl, rfl⟩ | ⟨rfl, rfl⟩ | ⟨rfl, rfl⟩ | ⟨rfl, rfl⟩ | ⟨rfl, rfl⟩ | ⟨rfl, rfl⟩ | ⟨rfl, rfl⟩ | ⟨rfl, rfl⟩ |
    ⟨rfl, rfl⟩ | ⟨rfl, rfl⟩ | ⟨rfl, rfl⟩
  · have h0 := hκ 0 (by simp [rk5])
    have h1 := hκ 1 (by simp [rk5])
    have h2 := hκ 2 (by simp [rk5])
    have h3 := hκ 3 (by simp [rk5])
    have h4 := hκ 4 (by simp [rk5])
    have h5 := hκ 5 (by simp [rk5])
    simp [Butcher.A, rk5, Finset.sum_range_succ] at h0 h1 h2 h3 h4 h5
    simp [Butcher.B, rk5, Finset.sum_range_succ, Spec.stepFactor, Spec.expTerms, Nat.factorial]
    simp only [h0, h1, h2, h3, h4, h5]
    field_simp
    ring
  · have h0 := hκ 0 (by simp [rk4a])
    have h1 := hκ 1 (by simp [rk4a])
    have h2 := hκ 2 (by simp [rk4a])
    have h3 := hκ 3 (by simp [rk4a])
    simp [Butcher.A, rk4a, Finset.sum_range_succ] at h0 h1 h2 h3
    simp [Butcher.B, rk4a, Finset.sum_range_succ, Spec.stepFactor, Spec.expTerms, Nat.factorial]
    simp only [h0, h1, h2, h3]
    field_simp
    ring
  · have h0 := hκ 0 (by simp [rk4])
    have h1 := hκ 1 (by simp [rk4])
    have h2 := hκ 2 (by simp [rk4])
    have h3 := hκ 3 (by simp [rk4])
    simp [Butcher.A, rk4, Finset.sum_range_succ] at h0 h1 h2 h3
    simp [Butcher.B, rk4, Finset.sum_range_succ, Spec.stepFactor, Spec.expTerms, Nat.factorial]
    simp only [h0, h1, h2, h3]
    field_simp
    ring
  · have h0 := hκ 0 (by simp [rk3b])
    have h1 := hκ 1 (by simp [rk3b])
    have h2 := hκ 2 (by simp [rk3b])
    simp [Butcher.A, rk3b, Finset.sum_range_succ] at h0 h1 h2
    simp [Butcher.B, rk3b, Finset.sum_range_succ, Spec.stepFactor, Spec.expTerms, Nat.factorial]
    simp only [h0, h1, h2]
    field_simp
    ring
  · have h0 := hκ 0 (by simp [rk3a])
    have h1 := hκ 1 (by simp [rk3a])
    have h2 := hκ 2 (by simp [rk3a])
    simp [Butcher.A, rk3a, Finset.sum_range_succ] at h0 h1 h2
    simp [Butcher.B, rk3a, Finset.sum_range_succ, Spec.stepFactor, Spec.expTerms, Nat.factorial]
    simp only [h0, h1, h2]
    field_simp
    ring
  · have h0 := hκ 0 (by simp [rk3])
    have h1 := hκ 1 (by simp [rk3])
    have h2 := hκ 2 (by simp [rk3])
    simp [Butcher.A, rk3, Finset.sum_range_succ] at h0 h1 h2
    simp [Butcher.B, rk3, Finset.sum_range_succ, Spec.stepFactor, Spec.expTerms, Nat.factorial]
    simp only [h0, h1, h2]
    field_simp
    ring
  · have h0 := hκ 0 (by simp [rk2a])
    have h1 := hκ 1 (by simp [rk2a])
    simp [Butcher.A, rk2a] at h0 h1
    simp [Butcher.B, rk2a, Finset.sum_range_succ, Spec.stepFactor, Spec.expTerms, Nat.factorial]
    simp only [h0, h1]
    field_simp
    ring
  · have h0 := hκ 0 (by simp [rk2])
    have h1 := hκ 1 (by simp [rk2])
    simp [Butcher.A, rk2] at h0 h1
    simp [Butcher.B, rk2, Finset.sum_range_succ, Spec.stepFactor, Spec.expTerms, Nat.factorial]
    simp only [h0, h1]
    field_simp
    ring
  · have h0 := hκ 0 (by simp [rk1])
    simp [Butcher.A, rk1] at h0
    simp [Butcher.B, rk1, Finset.sum_range_succ, Spec.stepFactor, Spec.expTerms, Nat.factorial]
    simp only [h0]
    field_simp
  · have h0 := hκ 0 (by simp [rk2a])
    have h1 := hκ 1 (by simp [rk2a])
    simp [Butcher.A, rk2a] at h0 h1
    simp [Butcher.B, rk2a, Finset.sum_range_succ, Spec.stepFactor, Spec.expTerms, Nat.factorial]
    simp only [h0, h1]
    field_simp
    ring
  · have h0 := hκ 0 (by simp [rk1])
    simp [Butcher.A, rk1] at h0
    simp [Butcher.B, rk1, Finset.sum_range_succ, Spec.stepFactor, Spec.expTerms, Nat.factorial]
    simp only [h0]
    field_simp

omit [DecidableEq K] in
theorem table_sum [CharZero K] {name : String} {rk : Butcher K}
    (hmem : (name, rk) ∈ (rkNames : List (String × Butcher K))) (h : K) :
    ∑ j ∈ range rk.nstages, h * rk.B j = h := by
  simp only [rkNames, List.mem_cons, Prod.mk.injEq, List.not_mem_nil, or_false] at hmem
  rcases hmem with ⟨rfl, rfl⟩ | ⟨rfl, rfl⟩ | ⟨rfl, rfl⟩ | ⟨rfl, rfl⟩ | ⟨rfl, rfl⟩ | ⟨rfl, rfl⟩ | ⟨rfl, rfl⟩ | ⟨rfl, rfl⟩ |
    ⟨rfl, rfl⟩ | ⟨rfl, rfl⟩ | ⟨rfl, rfl⟩ <;>
  simp [Butcher.B, rk5, rk4a, rk4, rk3b, rk3a, rk3, rk2a, rk2, rk1, Finset.sum_range_succ] <;> field_simp <;> ring

/-- C170: one step of the test with any of the methods multiplies u with the first terms of exp(-dt) and
takes the time to t + dt. -/
theorem C170_step [CharZero K] (dt : K) (method : CStr) (name : String) (rk : Butcher K)
    (hpick : rkPick method = .ok (name, rk)) (uc up : Nat) (huc : uc ∈ S) (hup : up ∈ S) (hne : uc ≠ up)
    (uk : Nat → Option Nat)
    (huk : ∀ i, i < (if name = "rk4" then 2 else rk.nstages) → ∃ l ∈ S, uk i = some l ∧ l ≠ uc ∧ l ≠ up)
    (hinj : ∀ i j, i < (if name = "rk4" then 2 else rk.nstages) → j < (if name = "rk4" then 2 else rk.nstages) →
      uk i = uk j → i = j) (st : DState K) (hF : st.Family S D) :
    ∃ st', evolveRk evolveTestFuns dt method uc up uk st = .ok st' ∧ st'.Family S D ∧
      st'.fld D uc = Spec.stepFactor name dt • st.fld D uc ∧ (st'.vl uc).time = (st.vl uc).time + dt := by
  have hmem : (name, rk) ∈ (rkNames : List (String × Butcher K)) := by
    unfold rkPick at hpick
    split at hpick
    · cases hpick
    · rename_i p hp
      cases hpick
      exact List.mem_of_find?_eq_some hp
  have hu := fld_mask st D uc
  by_cases h4 : name = "rk4"
  · subst h4
    simp only [if_true] at huk hinj
    obtain ⟨r, hr, e0, hr1, hr2⟩ := huk 0 (by omega)
    obtain ⟨v, hv, e1, hv1, hv2⟩ := huk 1 (by omega)
    have hrv : r ≠ v := fun e => by
      have := hinj 0 1 (by omega) (by omega) (by rw [e0, e1, e])
      omega
    obtain ⟨st', hst, hfam, hf, ht, -⟩ := C29_evolve_rk (S := S) (D := D) evolveTestFuns _ _ evolveTest_computes dt method
      rk hpick uc up r v (by simp [huc, hup, hr, hv]) (by simp [hne, hrv, Ne.symm hr1, Ne.symm hr2, Ne.symm hv1,
        Ne.symm hv2]) uk e0 e1 st hF
    refine ⟨st', hst, hfam, ?_, by rw [ht]; field_simp; ring⟩
    rw [hf]
    have e : ∀ a : K, D.mask (-(a • st.fld D uc)) = (-a) • st.fld D uc := fun a => by
      rw [← neg_smul, mask_smul hu]
    have c : ∀ a b : K, st.fld D uc + a • b • st.fld D uc = (1 + a * b) • st.fld D uc := fun a b => by
      rw [smul_smul, add_smul, one_smul]
    have e' : D.mask (-(st.fld D uc)) = (-1 : K) • st.fld D uc := by
      have := e 1
      simpa using this
    simp only [hu, e', c, mask_smul hu, e]
    rw [smul_smul, smul_smul, smul_smul, ← add_smul, ← add_smul, ← add_smul, mask_smul hu]
    congr 1
    simp [Spec.stepFactor, Spec.expTerms, Finset.sum_range_succ, Nat.factorial]
    field_simp
    ring
  · simp only [h4, if_false] at huk hinj
    obtain ⟨st', hst, hfam, ⟨k, hk, hf⟩, ht, -⟩ := C27_evolve_rk (S := S) (D := D) evolveTestFuns _ _ evolveTest_computes dt
      method name rk hpick h4 uc up huc hup hne uk huk hinj st hF
    obtain ⟨κ, hκ⟩ := exists_kappa dt rk rk.nstages
    refine ⟨st', hst, hfam, ?_, by rw [ht, table_sum hmem]⟩
    rw [hf, step_factor hu hk hκ, table_factor hmem hκ]

/-- C170: n steps. -/
theorem C170_run [CharZero K] (dt : K) (method : CStr) (name : String) (rk : Butcher K)
    (hpick : rkPick method = .ok (name, rk)) (uc up : Nat) (huc : uc ∈ S) (hup : up ∈ S) (hne : uc ≠ up)
    (uk : Nat → Option Nat)
    (huk : ∀ i, i < (if name = "rk4" then 2 else rk.nstages) → ∃ l ∈ S, uk i = some l ∧ l ≠ uc ∧ l ≠ up)
    (hinj : ∀ i j, i < (if name = "rk4" then 2 else rk.nstages) → j < (if name = "rk4" then 2 else rk.nstages) →
      uk i = uk j → i = j) (st : DState K) (hF : st.Family S D) (n : Nat) :
    ∃ st', forN n (fun _ st => evolveRk evolveTestFuns dt method uc up uk st) st = .ok st' ∧ st'.Family S D ∧
      st'.fld D uc = Spec.stepFactor name dt ^ n • st.fld D uc ∧ (st'.vl uc).time = (st.vl uc).time + n * dt := by
  refine forN_inv (P := fun n (st' : DState K) => st'.Family S D ∧
      st'.fld D uc = Spec.stepFactor name dt ^ n • st.fld D uc ∧ (st'.vl uc).time = (st.vl uc).time + n * dt)
    ?_ ?_
  · simp [hF]
  · rintro i _ s ⟨h1, h2, h3⟩
    obtain ⟨s', e, f1, f2, f3⟩ := C170_step dt method name rk hpick uc up huc hup hne uk huk hinj s h1
    refine ⟨s', e, f1, ?_, ?_⟩
    · rw [f2, h2, smul_smul, pow_succ']
    · rw [f3, h3]; push_cast; ring

end

/-- The order of each method. -/
def Spec.rkOrder (name : String) : Nat :=
  if name = "rk1" ∨ name = "euler" then 1
  else if name = "rk2" ∨ name = "rk2a" ∨ name = "midpoint" then 2
  else if name = "rk3" ∨ name = "rk3a" ∨ name = "rk3b" then 3
  else if name = "rk4" ∨ name = "rk4a" then 4
  else 5

theorem expTerms_bound {p : Nat} {h : ℝ} (h0 : 0 ≤ h) (h1 : h ≤ 1) :
    |Real.exp (-h) - Spec.expTerms p h| ≤ h ^ (p + 1) * ((p + 2 : ℝ) / ((p + 1).factorial * (p + 1 : ℝ))) := by
  have := Real.exp_bound (x := -h) (by rw [abs_neg, abs_of_nonneg h0]; exact h1) (n := p + 1) (by omega)
  rw [abs_neg, abs_of_nonneg h0] at this
  refine this.trans (le_of_eq ?_)
  push_cast
  ring_nf

theorem factor_bound (name : String) {h : ℝ} (h0 : 0 ≤ h) (h1 : h ≤ 1) :
    |Spec.stepFactor name h - Real.exp (-h)| ≤ h ^ (Spec.rkOrder name + 1) := by
  have key : ∀ p : Nat, (p + 2 : ℝ) / ((p + 1).factorial * (p + 1 : ℝ)) ≤ 1 →
      |Spec.expTerms p h - Real.exp (-h)| ≤ h ^ (p + 1) := by
    intro p hp
    rw [abs_sub_comm]
    refine (expTerms_bound h0 h1).trans ?_
    exact mul_le_of_le_one_right (pow_nonneg h0 _) hp
  unfold Spec.stepFactor Spec.rkOrder
  split_ifs
  · exact key 1 (by norm_num [Nat.factorial])
  · exact key 2 (by norm_num [Nat.factorial])
  · exact key 3 (by norm_num [Nat.factorial])
  · exact key 4 (by norm_num [Nat.factorial])
  · have a := expTerms_bound (p := 5) h0 h1
    rw [abs_sub_comm] at a
    have e : Spec.expTerms 5 h + h ^ 6 / 600 - Real.exp (-h) = (Spec.expTerms 5 h - Real.exp (-h)) + h ^ 6 / 600 := by ring
    rw [e]
    refine (abs_add_le _ _).trans ?_
    rw [abs_of_nonneg (show (0 : ℝ) ≤ h ^ 6 / 600 by positivity)]
    have b : (0 : ℝ) ≤ h ^ 6 := by positivity
    norm_num [Nat.factorial] at a ⊢
    linarith

theorem pow_sub_one_bound {q d : ℝ} (hq : |q - 1| ≤ d) (n : Nat) : |q ^ n - 1| ≤ n * d * Real.exp (n * d) := by
  have hd : 0 ≤ d := (abs_nonneg _).trans hq
  have a : |q ^ n - 1| ≤ (1 + d) ^ n - 1 := by
    induction n with
    | zero => simp
    | succ n ih =>
      have e : q ^ (n + 1) - 1 = (q ^ n - 1) * q + (q - 1) := by ring
      have hq' : |q| ≤ 1 + d := by
        have := abs_add_le (q - 1) 1
        simp only [sub_add_cancel, abs_one] at this
        linarith
      rw [e]
      refine (abs_add_le _ _).trans ?_
      rw [abs_mul]
      have : |q ^ n - 1| * |q| ≤ ((1 + d) ^ n - 1) * (1 + d) :=
        mul_le_mul ih hq' (abs_nonneg _) ((abs_nonneg _).trans ih)
      have e2 : (1 + d) ^ (n + 1) = (1 + d) ^ n * (1 + d) := pow_succ _ _
      rw [e2]
      linarith
  have b : (1 + d) ^ n ≤ Real.exp (n * d) := by
    rw [Real.exp_nat_mul]
    exact pow_le_pow_left₀ (by linarith) (by linarith [Real.add_one_le_exp d]) _
  have c : Real.exp (n * d) - 1 ≤ n * d * Real.exp (n * d) := by
    have h := Real.add_one_le_exp (-(n * d))
    have h2 : Real.exp (-(n * d)) * Real.exp (n * d) = 1 := by rw [← Real.exp_add]; simp
    have h3 := mul_le_mul_of_nonneg_right h (Real.exp_pos (n * d)).le
    rw [h2] at h3
    linarith
  linarith

/-- C170: the normalised error of the test stays bounded for small time steps. -/
theorem C170_error (name : String) {h : ℝ} (h0 : 0 < h) (h1 : h ≤ 1) (n : Nat) :
    evolveTestError (Spec.stepFactor name h ^ n) (n * h) h (Spec.rkOrder name) ≤
      3 * (n * h) * Real.exp (3 * (n * h) * h ^ Spec.rkOrder name) := by
  have hp : 0 < h ^ Spec.rkOrder name := pow_pos h0 _
  unfold evolveTestError
  rw [div_le_iff₀ hp]
  have e1 : Real.exp (-(n * h)) = Real.exp (-h) ^ n := by
    rw [← Real.exp_nat_mul]; ring_nf
  rw [e1, ← div_pow]
  have hq : |Spec.stepFactor name h / Real.exp (-h) - 1| ≤ 3 * h ^ (Spec.rkOrder name + 1) := by
    have e2 : Spec.stepFactor name h / Real.exp (-h) - 1 = (Spec.stepFactor name h - Real.exp (-h)) * Real.exp h := by
      rw [Real.exp_neg]
      have := (Real.exp_pos h).ne'
      field_simp
    rw [e2, abs_mul, abs_of_pos (Real.exp_pos h)]
    have h3 : Real.exp h ≤ 3 := by
      have := Real.exp_le_exp.2 h1
      have := Real.exp_one_lt_d9
      linarith
    have := mul_le_mul (factor_bound name h0.le h1) h3 (Real.exp_pos h).le (by positivity)
    linarith
  refine (pow_sub_one_bound hq n).trans (le_of_eq ?_)
  rw [pow_succ]
  ring_nf

/-- C170: the whole test: where u is 1 at first, the error found after n steps. -/
theorem C170_test {S : List Nat} {D : Dom} {dt : ℝ} (hdt0 : 0 < dt) (hdt1 : dt ≤ 1) (method : CStr) (name : String)
    (rk : Butcher ℝ)
    (hpick : rkPick method = .ok (name, rk)) (uc up : Nat) (huc : uc ∈ S) (hup : up ∈ S) (hne : uc ≠ up)
    (uk : Nat → Option Nat)
    (huk : ∀ i, i < (if name = "rk4" then 2 else rk.nstages) → ∃ l ∈ S, uk i = some l ∧ l ≠ uc ∧ l ≠ up)
    (hinj : ∀ i j, i < (if name = "rk4" then 2 else rk.nstages) → j < (if name = "rk4" then 2 else rk.nstages) →
      uk i = uk j → i = j) (st : DState ℝ) (hF : st.Family S D) (htime : (st.vl uc).time = 0) (n : Nat) :
    ∃ st', forN n (fun _ st => evolveRk evolveTestFuns dt method uc up uk st) st = .ok st' ∧
      ∀ b v i, st.fld D uc b v i = 1 →
        evolveTestError (st'.fld D uc b v i) (st'.vl uc).time dt (Spec.rkOrder name) ≤
          3 * (n * dt) * Real.exp (3 * (n * dt) * dt ^ Spec.rkOrder name) := by
  obtain ⟨st', e, -, f, t⟩ := C170_run dt method name rk hpick uc up huc hup hne uk huk hinj st hF n
  refine ⟨st', e, fun b v i hu => ?_⟩
  rw [f, t, htime, zero_add]
  simp only [Pi.smul_apply, hu, smul_eq_mul, mul_one]
  exact C170_error name hdt0 hdt1 n

/-- One step of rk4 with dt = 1/2: 1 - 1/2 + 1/8 - 1/48 + 1/384. -/
example : Spec.stepFactor "rk4" (1 / 2 : ℚ) = 233 / 384 := by decide +kernel

/-- A method of fifth order is not the truncated exponential. -/
example : Spec.stepFactor "rk5" (1 : ℚ) = 11 / 30 + 1 / 600 := by decide +kernel

/-- The error of one Euler step with dt = 1 is exactly 1: u = 0. -/
example : evolveTestError (Spec.stepFactor "rk1" 1 ^ 1) 1 1 1 = 1 := by
  norm_num [evolveTestError, Spec.stepFactor, Spec.expTerms, Finset.sum_range_succ]

end Sgrid

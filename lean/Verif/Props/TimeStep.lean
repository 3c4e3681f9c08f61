import Mathlib.Algebra.Order.Ring.Rat
import Mathlib.Data.Rat.Floor
import Mathlib.Tactic.Linarith
import Mathlib.Tactic.FieldSimp
import Mathlib.Tactic.Positivity
import Mathlib.Algebra.Order.Field.Basic
import Verif.Model.TimeStep

/-!
C159: the time step fits into the required time, and is small enough in each box.
-/

namespace Sgrid

variable {K : Type} [Field K] [LinearOrder K] [FloorRing K] [IsStrictOrderedRing K]

namespace Spec

/-- The largest step for a box with n points: proportional to 1/n or 1/n². -/
def stepLimit (p : StepPars K) (q : Bool) (n : Int) : K :=
  p.dtfac * (p.coeff / (n : K) ^ (if q then 2 else 1))

end Spec

theorem dtBox_props (p : StepPars K) (q : Bool) (n : Int) (hc : 0 < p.coeff) (hd : 0 < p.dtfac) (hn : 0 < n) :
    0 < p.dtBox q n ∧ p.dtBox q n ≤ Spec.stepLimit p q n ∧
      (p.requiredtime ≤ 0 → p.dtBox q n = Spec.stepLimit p q n) ∧
      (0 < p.requiredtime → ∃ N : Nat, 0 < N ∧ (N : K) * p.dtBox q n = p.requiredtime ∧
        ((N : K) - 1) * Spec.stepLimit p q n ≤ p.requiredtime) := by
  have hnK : (0 : K) < (n : K) := by exact_mod_cast hn
  have e : p.dtfac * p.dsMin q n = Spec.stepLimit p q n := by
    unfold StepPars.dsMin Spec.stepLimit
    cases q <;> simp [pow_two]
  have hl : 0 < Spec.stepLimit p q n := by
    unfold Spec.stepLimit; positivity
  unfold StepPars.dtBox
  dsimp only
  rw [e]
  split_ifs with ht
  · have hq : 0 < p.requiredtime / Spec.stepLimit p q n := div_pos ht hl
    have htr : truncC (1 + p.requiredtime / Spec.stepLimit p q n) = 1 + ⌊p.requiredtime / Spec.stepLimit p q n⌋ := by
      unfold truncC
      rw [if_pos (by linarith)]
      rw [add_comm, Int.floor_add_one, add_comm]
    rw [htr]
    have h0 : 0 ≤ ⌊p.requiredtime / Spec.stepLimit p q n⌋ := Int.floor_nonneg.2 hq.le
    obtain ⟨m, hm⟩ := Int.eq_ofNat_of_zero_le h0
    have hfl := Int.floor_le (p.requiredtime / Spec.stepLimit p q n)
    have hlt := Int.lt_floor_add_one (p.requiredtime / Spec.stepLimit p q n)
    rw [hm] at hfl hlt ⊢
    have hcast : ((1 + (m : Int) : Int) : K) = (m : K) + 1 := by push_cast; ring
    rw [hcast]
    simp only [Int.cast_natCast] at hfl hlt
    have hm1 : (0 : K) < (m : K) + 1 := by positivity
    refine ⟨div_pos ht hm1, ?_, fun h => absurd ht (not_lt.2 h), fun _ => ⟨m + 1, by omega, ?_, ?_⟩⟩
    · rw [div_le_iff₀ hm1]
      rw [div_lt_iff₀ hl] at hlt
      rw [mul_comm]; exact hlt.le
    · push_cast
      field_simp
    · push_cast
      rw [add_sub_cancel_right]
      rwa [le_div_iff₀ hl] at hfl
  · exact ⟨hl, le_rfl, fun _ => rfl, fun h => absurd h ht⟩

omit [Field K] [FloorRing K] [IsStrictOrderedRing K] in
theorem run_fold (f : Int → K) : ∀ (l : List Int) (s : K × K),
    let r := l.foldl (fun s n => if f n < s.1 then (f n, f n) else s) s
    r.1 ≤ s.1 ∧ (∀ n ∈ l, r.1 ≤ f n) ∧ (r = s ∨ ∃ n ∈ l, r = (f n, f n))
  | [], s => by simp
  | n :: l, s => by
    have ih := run_fold f l (if f n < s.1 then (f n, f n) else s)
    dsimp only at ih ⊢
    rw [List.foldl_cons]
    split_ifs at ih ⊢ with h
    · obtain ⟨a, b, c⟩ := ih
      refine ⟨a.trans h.le, ?_, ?_⟩
      · intro k hk
        rcases List.mem_cons.1 hk with rfl | hk
        · exact a
        · exact b k hk
      · right
        rcases c with c | ⟨k, hk, c⟩
        · exact ⟨n, by simp, c⟩
        · exact ⟨k, by simp [hk], c⟩
    · obtain ⟨a, b, c⟩ := ih
      refine ⟨a, ?_, ?_⟩
      · intro k hk
        rcases List.mem_cons.1 hk with rfl | hk
        · exact a.trans (not_lt.1 h)
        · exact b k hk
      · rcases c with c | ⟨k, hk, c⟩
        · exact Or.inl c
        · exact Or.inr ⟨k, by simp [hk], c⟩

/-- C159: the time step that is set.  It is positive, and in no box larger than dtfac times the smallest distance.  If
a time is required, this is a whole number of steps.  The step is the one of some box, and there one step less would
have been too few (or just enough) for the required time with steps of the largest size. -/
theorem C159_step (p : StepPars K) (q : Bool) (hq : p.quadratic = some q) (hc : 0 < p.coeff) (hd : 0 < p.dtfac)
    (n1s : List Int) (hn : ∀ n ∈ n1s, 0 < n) (dtPar : K) (hbig : ∃ n ∈ n1s, Spec.stepLimit p q n < 10 ^ 300) :
    0 < (p.run n1s dtPar).2 ∧ (∀ n ∈ n1s, (p.run n1s dtPar).2 ≤ Spec.stepLimit p q n) ∧
    (p.requiredtime ≤ 0 → ∃ n ∈ n1s, (p.run n1s dtPar).2 = Spec.stepLimit p q n) ∧
    (0 < p.requiredtime → ∃ N : Nat, 0 < N ∧ (N : K) * (p.run n1s dtPar).2 = p.requiredtime ∧
      ∃ n ∈ n1s, ((N : K) - 1) * Spec.stepLimit p q n ≤ p.requiredtime) := by
  have hr : p.run n1s dtPar = n1s.foldl
      (fun s n1 => if p.dtBox q n1 < s.1 then (p.dtBox q n1, p.dtBox q n1) else s) (10 ^ 300, dtPar) := by
    unfold StepPars.run
    rw [hq]
  obtain ⟨-, h2, h3⟩ := run_fold (p.dtBox q) n1s (10 ^ 300, dtPar)
  rw [← hr] at h2 h3
  obtain ⟨n0, hn0, hlt⟩ := hbig
  have hne : p.run n1s dtPar ≠ (10 ^ 300, dtPar) := by
    intro he
    have := h2 n0 hn0
    rw [he] at this
    have := (dtBox_props p q n0 hc hd (hn n0 hn0)).2.1
    linarith
  rcases h3 with h3 | ⟨n, hnm, h3⟩
  · exact absurd h3 hne
  obtain ⟨a, b, c, d⟩ := dtBox_props p q n hc hd (hn n hnm)
  rw [h3] at h2 ⊢
  dsimp only at h2 ⊢
  refine ⟨a, fun k hk => (h2 k hk).trans (dtBox_props p q k hc hd (hn k hk)).2.1, fun ht => ⟨n, hnm, c ht⟩, fun ht => ?_⟩
  obtain ⟨N, hN, e1, e2⟩ := d ht
  exact ⟨N, hN, e1, n, hnm, e2⟩

omit [IsStrictOrderedRing K] in
/-- C159: nothing is set with the scaling `no`. -/
theorem C159_off (p : StepPars K) (hq : p.quadratic = none) (n1s : List Int) (dtPar : K) :
    (p.run n1s dtPar).2 = dtPar := by
  unfold StepPars.run
  rw [hq]

/-- Boxes with 10 and 20 points, steps up to 8/n²: at most 1/50, and 51 steps for the time 1. -/
example : (StepPars.run (K := ℚ) ⟨some true, 16, 1, 1 / 2⟩ [10, 20, 15] 7).2 = 1 / 51 := by decide +kernel

end Sgrid

import Mathlib.Tactic.Linarith
import Mathlib.Tactic.NormNum
import Verif.Model.DVCache
import Verif.Props.DVSource

/-!
The parameters of the orbit, and the results that are kept from one call to the next (C156).
-/

namespace Sgrid
open Real

/-- The values of the singular field at a point. -/
noncomputable def Spec.singVals (Q : ℝ) (P : ThzPar) (q : Fin 4 → ℝ) : SingVals :=
  ⟨singPsi Q P q, singDPsi Q P q, singDDPsi Q P q⟩

/-- Different points of the set are told apart by the test for the last point. -/
def Spec.PointsApart (A : Set (Fin 4 → ℝ)) : Prop := ∀ a ∈ A, ∀ b ∈ A, nearLast a b → a = b

/-- What is kept is right for every point of the set for which it would be used again. -/
def Spec.Good (Q : ℝ) (P : ThzPar) (A : Set (Fin 4 → ℝ)) (st : DVState) : Prop :=
  (∀ a ∈ A, nearLast st.lastT a → st.T = thzVals P a) ∧
  (∀ a ∈ A, nearLast st.lastS a → st.S = Spec.singVals Q P a)

/-- The points at which eval_source may call the other functions, if it is asked for q. -/
def Spec.Visited (P : ThzPar) (q : Fin 4 → ℝ) : Set (Fin 4 → ℝ) :=
  {a | a 0 = q 0 ∧ a 3 = q 3 ∧ (a 1 = q 1 ∨ a 1 = P.R + 6 / 1000 * P.M) ∧
    (a 2 = q 2 ∨ (q 2 = 0 ∧ a 2 = 1 / 10 ^ 12) ∨ a 2 = q 2 - 1 / 10 ^ 12)}

theorem nearLast_self (q : Fin 4 → ℝ) : nearLast q q := by
  simp [nearLast]

theorem singFrom_thz (Q : ℝ) (P : ThzPar) (q : Fin 4 → ℝ) :
    singFrom Q (thzVals P q).x (thzVals P q).y (thzVals P q).z (thzVals P q) = Spec.singVals Q P q := rfl

theorem evalThz_good {Q : ℝ} {P : ThzPar} {A : Set (Fin 4 → ℝ)} {st : DVState} {q : Fin 4 → ℝ} (hA : Spec.PointsApart A)
    (h : Spec.Good Q P A st) (hq : q ∈ A) :
    Spec.Good Q P A (evalThz P st q) ∧ (evalThz P st q).T = thzVals P q := by
  unfold evalThz
  split_ifs with hn
  · exact ⟨h, h.1 q hq hn⟩
  · refine ⟨⟨fun a ha hna => ?_, h.2⟩, rfl⟩
    rw [hA q hq a ha hna]

theorem evalSingular_good {Q : ℝ} {P : ThzPar} {A : Set (Fin 4 → ℝ)} {st : DVState} {q : Fin 4 → ℝ} (hA : Spec.PointsApart A)
    (h : Spec.Good Q P A st) (hq : q ∈ A) (hT : st.T = thzVals P q) :
    Spec.Good Q P A (evalSingular Q P st q) ∧ (evalSingular Q P st q).T = thzVals P q ∧
      (evalSingular Q P st q).S = Spec.singVals Q P q := by
  unfold evalSingular
  split_ifs with hn
  · exact ⟨h, hT, h.2 q hq hn⟩
  · have h1 : (evalThz P { st with lastS := q } q).T = thzVals P q := by
      unfold evalThz
      split_ifs with hm
      · exact hT
      · rfl
    have h2 : ∀ a ∈ A, nearLast (evalThz P { st with lastS := q } q).lastT a →
        (evalThz P { st with lastS := q } q).T = thzVals P a := by
      intro a ha
      unfold evalThz
      split_ifs with hm
      · exact h.1 a ha
      · intro hna
        rw [hA q hq a ha hna]
    have h3 : (evalThz P { st with lastS := q } q).lastS = q := by
      unfold evalThz
      split_ifs <;> rfl
    have h4 : singFrom Q st.T.x st.T.y st.T.z (evalThz P { st with lastS := q } q).T = Spec.singVals Q P q := by
      rw [h1, hT]; rfl
    refine ⟨⟨h2, fun a ha hna => ?_⟩, h1, h4⟩
    show singFrom Q st.T.x st.T.y st.T.z (evalThz P { st with lastS := q } q).T = _
    rw [h4, hA q hq a ha (h3 ▸ hna)]

/-- **C156.**  A call of eval_source gives the value for the point that was asked for, whatever was computed before, as
long as the points that the program uses are told apart by the test for the last point. -/
theorem C156_history (Q : ℝ) (w : WinPar) (P : ThzPar) (A : Set (Fin 4 → ℝ)) (st : DVState) (q : Fin 4 → ℝ)
    (hA : Spec.PointsApart A) (h : Spec.Good Q P A st) (hq : Spec.Visited P q ⊆ A) :
    (evalSourceSt Q w P st q).2 = evalSource Q w P q ∧ Spec.Good Q P A (evalSourceSt Q w P st q).1 := by
  have m0 : q ∈ A := hq ⟨rfl, rfl, Or.inl rfl, Or.inl rfl⟩
  obtain ⟨g1, t1⟩ := evalThz_good hA h m0
  set st1 := evalThz P st q with hst1
  have hrho : √(st1.T.x * st1.T.x + st1.T.y * st1.T.y + st1.T.z * st1.T.z) = singRho P q := by rw [t1]; rfl
  -- the move in r
  set q1 : Fin 4 → ℝ := if singRho P q < 5 / 1000 * P.M then ![q 0, P.R + 6 / 1000 * P.M, q 2, q 3] else q with hq1
  have q10 : q1 0 = q 0 := by rw [hq1]; split_ifs <;> rfl
  have q12 : q1 2 = q 2 := by rw [hq1]; split_ifs <;> rfl
  have q13 : q1 3 = q 3 := by rw [hq1]; split_ifs <;> rfl
  have q11 : q1 1 = q 1 ∨ q1 1 = P.R + 6 / 1000 * P.M := by
    rw [hq1]; split_ifs
    · exact Or.inr rfl
    · exact Or.inl rfl
  have m1 : q1 ∈ A := hq ⟨q10, q13, q11, Or.inl q12⟩
  set st2 := if singRho P q < 5 / 1000 * P.M then evalThz P st1 q1 else st1 with hst2
  have g2 : Spec.Good Q P A st2 ∧ st2.T = thzVals P q1 := by
    rw [hst2]; split_ifs with hc
    · exact evalThz_good hA g1 m1
    · refine ⟨g1, ?_⟩; rw [hq1, if_neg hc]; exact t1
  -- the move away from theta = 0
  set q2 : Fin 4 → ℝ := if q1 2 = 0 then ![q1 0, q1 1, q1 2 + 1 / 10 ^ 12, q1 3] else q1 with hq2
  have m2 : q2 ∈ A := by
    rw [hq2]; split_ifs with hc
    · exact hq ⟨q10, q13, q11, Or.inr (Or.inl ⟨by rw [← q12, hc], by
        show q1 2 + 1 / 10 ^ 12 = 1 / 10 ^ 12; rw [hc, zero_add]⟩)⟩
    · exact m1
  set st3 := if q1 2 = 0 then evalThz P st2 q2 else st2 with hst3
  have g3 : Spec.Good Q P A st3 ∧ st3.T = thzVals P q2 := by
    rw [hst3]; split_ifs with hc
    · exact evalThz_good hA g2.1 m2
    · refine ⟨g2.1, ?_⟩; rw [hq2, if_neg hc]; exact g2.2
  -- the move away from theta = π
  set q3 : Fin 4 → ℝ := if |q2 2 - π| < 1 / 10 ^ 12 then ![q2 0, q2 1, q2 2 - 1 / 10 ^ 12, q2 3] else q2 with hq3
  have m3 : q3 ∈ A := by
    rw [hq3]; split_ifs with hc
    · have hz : q1 2 ≠ 0 := by
        intro hz
        rw [hq2, if_pos hz] at hc
        change |q1 2 + 1 / 10 ^ 12 - π| < 1 / 10 ^ 12 at hc
        have hpi := Real.two_le_pi
        rw [hz, abs_lt] at hc
        have := hc.1
        norm_num at this
        linarith
      have e : q2 = q1 := by rw [hq2, if_neg hz]
      rw [e]
      exact hq ⟨q10, q13, q11, Or.inr (Or.inr (by show q1 2 - 1 / 10 ^ 12 = _; rw [q12]))⟩
    · exact m2
  set st4 := if |q2 2 - π| < 1 / 10 ^ 12 then evalThz P st3 q3 else st3 with hst4
  have g4 : Spec.Good Q P A st4 ∧ st4.T = thzVals P q3 := by
    rw [hst4]; split_ifs with hc
    · exact evalThz_good hA g3.1 m3
    · refine ⟨g3.1, ?_⟩; rw [hq3, if_neg hc]; exact g3.2
  obtain ⟨g5, t5, s5⟩ := evalSingular_good hA g4.1 m3 g4.2
  have hpt : q3 = srcPoint P q := by
    have q11' : q1 1 = if singRho P q < 5 / 1000 * P.M then P.R + 6 / 1000 * P.M else q 1 := by
      rw [hq1]; split_ifs <;> rfl
    have q20 : q2 0 = q1 0 := by rw [hq2]; split_ifs <;> rfl
    have q21 : q2 1 = q1 1 := by rw [hq2]; split_ifs <;> rfl
    have q22 : q2 2 = if q1 2 = 0 then q1 2 + 1 / 10 ^ 12 else q1 2 := by rw [hq2]; split_ifs <;> rfl
    have q23 : q2 3 = q1 3 := by rw [hq2]; split_ifs <;> rfl
    have q30 : q3 0 = q2 0 := by rw [hq3]; split_ifs <;> rfl
    have q31 : q3 1 = q2 1 := by rw [hq3]; split_ifs <;> rfl
    have q32 : q3 2 = if |q2 2 - π| < 1 / 10 ^ 12 then q2 2 - 1 / 10 ^ 12 else q2 2 := by rw [hq3]; split_ifs <;> rfl
    have q33 : q3 3 = q2 3 := by rw [hq3]; split_ifs <;> rfl
    rw [q12] at q22
    rw [q22] at q32
    funext i
    fin_cases i
    · exact q30.trans (q20.trans q10)
    · exact q31.trans (q21.trans q11')
    · exact q32
    · exact q33.trans (q23.trans q13)
  have hfin : ∀ st' : DVState, st'.S = Spec.singVals Q P q3 → srcSumOf st'.S w P q3 = evalSource Q w P q := by
    intro st' hs
    rw [hs, evalSource, ← hpt]; rfl
  have key : evalSourceSt Q w P st q =
      (if w.useWindow then evalThz P (evalSingular Q P (evalSingular Q P st4 q3) q3) q3 else evalSingular Q P st4 q3,
        srcSumOf (if w.useWindow then evalThz P (evalSingular Q P (evalSingular Q P st4 q3) q3) q3
          else evalSingular Q P st4 q3).S w P q3) := by
    simp only [evalSourceSt]
    rw [← hst1, hrho]
  rw [key]
  cases hu : w.useWindow
  · exact ⟨hfin _ s5, g5⟩
  · obtain ⟨g6, t6, s6⟩ := evalSingular_good hA g5 m3 t5
    obtain ⟨g7, t7⟩ := evalThz_good hA g6 m3
    refine ⟨hfin _ ?_, g7⟩
    show (evalThz P (evalSingular Q P (evalSingular Q P st4 q3) q3) q3).S = _
    unfold evalThz
    split_ifs
    · exact s6
    · exact s6

/-- The results of a sequence of calls of eval_source. -/
noncomputable def Spec.calls (Q : ℝ) (w : WinPar) (P : ThzPar) : DVState → List (Fin 4 → ℝ) → List ℝ
  | _, [] => []
  | st, q :: qs => (evalSourceSt Q w P st q).2 :: Spec.calls Q w P (evalSourceSt Q w P st q).1 qs

/-- **C156.**  From the start of the program every call in a sequence of calls gives the value for its point, if the
points are told apart and none of them is the origin, where the static variables begin. -/
theorem C156_sequence (Q : ℝ) (w : WinPar) (P : ThzPar) (qs : List (Fin 4 → ℝ)) (A : Set (Fin 4 → ℝ))
    (hA : Spec.PointsApart A) (hqs : ∀ q ∈ qs, Spec.Visited P q ⊆ A) (h0 : ∀ a ∈ A, 1 / 10 ^ 14 ≤ |a 1|) :
    Spec.calls Q w P dvStart qs = qs.map (evalSource Q w P) := by
  have hn : ∀ a ∈ A, ¬ nearLast (fun _ => 0) a := by
    intro a ha hna
    have h1 := h0 a ha
    simp only [nearLast, zero_sub, abs_neg] at hna
    have a0 := abs_nonneg (a 0)
    have a2 := abs_nonneg (a 2)
    have a3 := abs_nonneg (a 3)
    linarith
  have hg : Spec.Good Q P A dvStart := ⟨fun a ha h => (hn a ha h).elim, fun a ha h => (hn a ha h).elim⟩
  have : ∀ (qs : List (Fin 4 → ℝ)) (st : DVState), Spec.Good Q P A st → (∀ q ∈ qs, Spec.Visited P q ⊆ A) →
      Spec.calls Q w P st qs = qs.map (evalSource Q w P) := by
    intro qs
    induction qs with
    | nil => intro st _ _; rfl
    | cons q qs ih =>
      intro st hst hq
      obtain ⟨h1, h2⟩ := C156_history Q w P A st q hA hst (hq q (List.mem_cons_self ..))
      rw [Spec.calls, h1, ih _ h2 fun q' hq' => hq q' (List.mem_cons_of_mem _ hq'), List.map_cons]
  exact this qs dvStart hg hqs

/-- **C156, where the code is wrong.**  eval_singular on its own copies x, y, z before it computes them: at a new point
the field is the one of the point for which eval_THZ was called last. -/
theorem C156_stale_singular (Q : ℝ) (P : ThzPar) (st : DVState) (q : Fin 4 → ℝ) (h : ¬ nearLast st.lastS q) :
    (evalSingular Q P st q).S.Psi = Q / √(st.T.x * st.T.x + st.T.y * st.T.y + st.T.z * st.T.z) := by
  rw [evalSingular, if_neg h]
  rfl

/-- **C156, where the code is wrong.**  eval_WPsi multiplies the values that were there before the call: at the start of
the program it gives zero at every point. -/
theorem C156_stale_WPsi (Q : ℝ) (P : ThzPar) (W : ℝ) (q : Fin 4 → ℝ) : (evalWPsi Q P dvStart W q).2 = 0 := by
  simp [evalWPsi, dvStart]

/-- **C156.**  eval_WPsi gives the right product if it is called at the point of the last call of eval_singular, and
that call was right. -/
theorem C156_WPsi_again (Q : ℝ) (P : ThzPar) (st : DVState) (W : ℝ) (q : Fin 4 → ℝ) (h : Spec.Good Q P {q} st)
    (hq : nearLast st.lastS q) : evalWPsi Q P st W q = (st, W * singPsi Q P q) := by
  have e : st.S = Spec.singVals Q P q := h.2 q rfl hq
  unfold evalWPsi evalSingular
  rw [if_pos hq, e]
  rfl

theorem flat_thzx (R : ℝ) : thzx ⟨0, R, 0, 0⟩ ![0, 10, π / 2, 0] = 10 - R := by
  simp [thzx, thzxt, thzX, thzY, thzZ, thzxA1, thzxB1, thzxD1, thzxF1]

/-- **C156, where the code is wrong.**  If the parameters are changed after a call, a call at the same point
still gives the values for the old parameters: here x should be -1 and is 0. -/
theorem C156_stale_parameters :
    let q : Fin 4 → ℝ := ![0, 10, π / 2, 0]
    let old : ThzPar := ⟨0, 10, 0, 0⟩
    let new : ThzPar := ⟨0, 11, 0, 0⟩
    (evalThz new (evalThz old dvStart q) q).T.x = 0 ∧ thzx new q = -1 := by
  intro q old new
  have h0 : ¬ nearLast dvStart.lastT q := by
    intro h
    have h1 : |(0 : ℝ) - q 1| < 1 / 10 ^ 14 := by
      have h' : |(0 : ℝ) - q 0| + |(0 : ℝ) - q 1| + |(0 : ℝ) - q 2| + |(0 : ℝ) - q 3| < 1 / 10 ^ 14 := h
      have a0 := abs_nonneg ((0 : ℝ) - q 0)
      have a2 := abs_nonneg ((0 : ℝ) - q 2)
      have a3 := abs_nonneg ((0 : ℝ) - q 3)
      linarith
    have e : q 1 = 10 := rfl
    rw [e] at h1
    norm_num at h1
  have h1 : evalThz old dvStart q = { dvStart with lastT := q, T := thzVals old q } := by rw [evalThz, if_neg h0]
  constructor
  · rw [h1, evalThz, if_pos (nearLast_self q)]
    show thzx old q = 0
    rw [flat_thzx]; norm_num
  · rw [flat_thzx]; norm_num

/-- **C156.**  set_parameters for a hole of mass one: the orbit has the radius that was asked for, at least six times the
mass, and the frequencies of a circular orbit. -/
theorem C156_parameters (q r : ℝ) (P : ThzPar) (h : setParameters 1 q r = some P) :
    P.M = 1 ∧ P.R = r ∧ 6 * P.M ≤ P.R ∧ P.Orbit := by
  unfold setParameters at h
  split_ifs at h with hc
  obtain rfl := (Option.some.inj h).symm
  have hr : 6 ≤ r := by linarith [not_lt.1 hc]
  refine ⟨rfl, mul_one r, ?_, ?_, ?_, rfl, rfl⟩
  · show 6 * (1 : ℝ) ≤ r * 1; linarith
  · show (0 : ℝ) < 1; norm_num
  · show 3 * (1 : ℝ) < r * 1; linarith

/-- **C156.**  For every mass of at least one the orbits that are accepted have at least six times the radius. -/
theorem C156_far (m q r : ℝ) (P : ThzPar) (hm : 1 ≤ m) (h : setParameters m q r = some P) :
    6 * P.M ≤ P.R ∧ P.Orbit := by
  unfold setParameters at h
  split_ifs at h with hc
  obtain rfl := (Option.some.inj h).symm
  have hr : 6 * m ≤ r := not_lt.1 hc
  have h6 : 6 * m ≤ r * m := by nlinarith
  refine ⟨h6, ?_, ?_, rfl, rfl⟩
  · show (0 : ℝ) < m; linarith
  · show 3 * m < r * m; linarith

/-- **C156, where the code is wrong.**  ScalarOnKerr asks for the radius r0 = 10 M (ScalarOnKerr.c:453, 461), and
set_parameters multiplies by M once more: for every other mass than one the orbit is not where it should be. -/
theorem C156_wrong_radius (m q : ℝ) (hm : 0 < m) (h1 : m ≠ 1) :
    ∃ P, setParameters m q (10 * m) = some P ∧ P.R ≠ 10 * m := by
  refine ⟨_, if_neg (by linarith), ?_⟩
  show 10 * m * m ≠ 10 * m
  intro h
  apply h1
  have : 10 * m ≠ 0 := by positivity
  exact mul_left_cancel₀ this (by rw [h, mul_one])

/-- **C156, where the code is wrong.**  The test for the radius does not stop orbits that are too close: for the mass
1/10 the orbit asked for by ScalarOnKerr is accepted and is inside the hole. -/
theorem C156_inside (q : ℝ) : ∃ P, setParameters (1 / 10) q (10 * (1 / 10)) = some P ∧ P.R < 2 * P.M := by
  refine ⟨_, if_neg (by norm_num), ?_⟩
  show 10 * (1 / 10) * (1 / 10) < 2 * (1 / 10 : ℝ)
  norm_num

/-- The charge that is passed to set_parameters is not used. -/
theorem C156_charge (m q q' r : ℝ) : setParameters m q r = setParameters m q' r := rfl

/-- An example: two points at different radii are told apart. -/
example : ¬ nearLast ![0, 10, 1, 0] ![0, 11, 1, 0] := by
  show ¬ |(0 : ℝ) - 0| + |(10 : ℝ) - 11| + |(1 : ℝ) - 1| + |(0 : ℝ) - 0| < 1 / 10 ^ 14
  norm_num

end Sgrid

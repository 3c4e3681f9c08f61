import Mathlib.Algebra.Field.Rat
import Mathlib.Algebra.Order.Ring.Rat
import Mathlib.Tactic.Linarith
import Mathlib.Tactic.Ring
import Mathlib.Tactic.NormNum
import Verif.Model.FindExtrema

/-!
C163: the search for extrema in a box.
-/

namespace Sgrid

variable {K : Type} [Field K] [LinearOrder K]

namespace Spec

/-- The sides of the box are in order. -/
def BBoxOk (b : BBox3 K) : Prop := b.X0 ≤ b.X1 ∧ b.Y0 ≤ b.Y1 ∧ b.Z0 ≤ b.Z1

/-- The point is in the box. -/
def InBBox (b : BBox3 K) (v : Vec3K K) : Prop :=
  (b.X0 ≤ v.X ∧ v.X ≤ b.X1) ∧ (b.Y0 ≤ v.Y ∧ v.Y ≤ b.Y1) ∧ (b.Z0 ≤ v.Z ∧ v.Z ≤ b.Z1)

/-- The point of the box that is closest, coordinate by coordinate. -/
def nearest (b : BBox3 K) (v : Vec3K K) : Vec3K K :=
  ⟨max b.X0 (min v.X b.X1), max b.Y0 (min v.Y b.Y1), max b.Z0 (min v.Z b.Z1)⟩

/-- The number with the bits for the sides on which the point is outside: X, Y, Z below, then X, Y, Z above. -/
def sideBits (b : BBox3 K) (v : Vec3K K) : Nat :=
  (if v.X < b.X0 then 1 else 0) + (if v.Y < b.Y0 then 2 else 0) + (if v.Z < b.Z0 then 4 else 0) +
    (if b.X1 < v.X then 8 else 0) + (if b.Y1 < v.Y then 16 else 0) + (if b.Z1 < v.Z then 32 else 0)

end Spec

omit [Field K] in
theorem clamp_one {l h x : K} (hlh : l ≤ h) :
    (if (if x < l then l else x) > h then h else if x < l then l else x) = max l (min x h) ∧
    ((if x < l then l else x) > h ↔ h < x) := by
  by_cases h1 : x < l
  · rw [if_pos h1, if_neg (not_lt.2 hlh), min_eq_left (h1.le.trans hlh), max_eq_left h1.le]
    exact ⟨rfl, ⟨fun h' => absurd h' (not_lt.2 hlh), fun h' => absurd (h'.trans h1) (not_lt.2 hlh)⟩⟩
  · rw [if_neg h1]
    refine ⟨?_, Iff.rfl⟩
    by_cases h2 : x > h
    · rw [if_pos h2, min_eq_right h2.le, max_eq_right hlh]
    · rw [if_neg h2, min_eq_left (not_lt.1 h2), max_eq_right (not_lt.1 h1)]

omit [Field K] in
theorem clampBox_eq (b : BBox3 K) (hb : Spec.BBoxOk b) (v : Vec3K K) :
    clampBox b v = ⟨if v.X < b.X0 then 1 else 0, if v.Y < b.Y0 then 2 else 0, if v.Z < b.Z0 then 4 else 0,
      if b.X1 < v.X then 8 else 0, if b.Y1 < v.Y then 16 else 0, if b.Z1 < v.Z then 32 else 0, Spec.nearest b v⟩ := by
  obtain ⟨h1, h2, h3⟩ := hb
  unfold clampBox Spec.nearest
  dsimp only
  rw [(clamp_one h1 (x := v.X)).1, (clamp_one h2 (x := v.Y)).1, (clamp_one h3 (x := v.Z)).1]
  simp only [(clamp_one h1 (x := v.X)).2, (clamp_one h2 (x := v.Y)).2, (clamp_one h3 (x := v.Z)).2]

omit [Field K] in
theorem clamp_bits (b : BBox3 K) (hb : Spec.BBoxOk b) (v : Vec3K K) :
    ((clampBox b v).ox ||| (clampBox b v).oy ||| (clampBox b v).oz ||| (clampBox b v).ux ||| (clampBox b v).uy |||
      (clampBox b v).uz) = Spec.sideBits b v := by
  rw [clampBox_eq b hb]
  unfold Spec.sideBits
  dsimp only
  split_ifs <;> rfl

omit [Field K] in
theorem sideBits_zero (b : BBox3 K) (v : Vec3K K) : Spec.sideBits b v = 0 ↔ Spec.InBBox b v := by
  unfold Spec.sideBits Spec.InBBox
  constructor
  · intro h
    refine ⟨⟨?_, ?_⟩, ⟨?_, ?_⟩, ⟨?_, ?_⟩⟩ <;> (by_contra hc; rw [not_le] at hc; simp only [hc, if_true] at h; omega)
  · rintro ⟨⟨a, b⟩, ⟨c, d⟩, ⟨e, f⟩⟩
    simp [not_lt.2 a, not_lt.2 b, not_lt.2 c, not_lt.2 d, not_lt.2 e, not_lt.2 f]

omit [Field K] in
theorem nearest_of_in (b : BBox3 K) (v : Vec3K K) (h : Spec.InBBox b v) : Spec.nearest b v = v := by
  obtain ⟨⟨a, c⟩, ⟨d, e⟩, ⟨f, g⟩⟩ := h
  unfold Spec.nearest
  rw [min_eq_left c, min_eq_left e, min_eq_left g, max_eq_right a, max_eq_right d, max_eq_right f]

/-- C163: in the box, and on its sides, the function given to the Newton solver is the vector of the derivatives, and
the status is 0. -/
theorem C163_inside (b : BBox3 K) (hb : Spec.BBoxOk b) (D : Vec3K K → Vec3K K) (v : Vec3K K) (hv : Spec.InBBox b v) :
    f3vecFromCoeffs b D v = (D v, 0) := by
  have hbits := clamp_bits b hb v
  rw [(sideBits_zero b v).2 hv] at hbits
  have hn := nearest_of_in b v hv
  obtain ⟨⟨a1, a2⟩, ⟨a3, a4⟩, ⟨a5, a6⟩⟩ := hv
  unfold f3vecFromCoeffs
  dsimp only
  rw [hbits]
  rw [clampBox_eq b hb]
  simp only [not_lt.2 a1, not_lt.2 a2, not_lt.2 a3, not_lt.2 a4, not_lt.2 a5, not_lt.2 a6, if_false, ne_eq,
    not_true_eq_false, hn]

/-- C163: outside of the box the function has the derivatives at the closest point of the box, each times the distance
if the point is outside in this direction (with the sign for below).  In particular it is zero if and only if the
derivatives vanish at the closest point.  The status shows the sides on which the point is outside. -/
theorem C163_outside (b : BBox3 K) (hb : Spec.BBoxOk b) (D : Vec3K K → Vec3K K) (v : Vec3K K) :
    (f3vecFromCoeffs b D v).2 = Spec.sideBits b v ∧
    ((f3vecFromCoeffs b D v).1 = ⟨0, 0, 0⟩ ↔ D (Spec.nearest b v) = ⟨0, 0, 0⟩) ∧
    (v.X < b.X0 → (f3vecFromCoeffs b D v).1.X = (D (Spec.nearest b v)).X * (v.X - b.X0)) ∧
    (b.X1 < v.X → (f3vecFromCoeffs b D v).1.X = (D (Spec.nearest b v)).X * (b.X1 - v.X)) ∧
    (v.Y < b.Y0 → (f3vecFromCoeffs b D v).1.Y = (D (Spec.nearest b v)).Y * (v.Y - b.Y0)) ∧
    (b.Y1 < v.Y → (f3vecFromCoeffs b D v).1.Y = (D (Spec.nearest b v)).Y * (b.Y1 - v.Y)) ∧
    (v.Z < b.Z0 → (f3vecFromCoeffs b D v).1.Z = (D (Spec.nearest b v)).Z * (v.Z - b.Z0)) ∧
    (b.Z1 < v.Z → (f3vecFromCoeffs b D v).1.Z = (D (Spec.nearest b v)).Z * (b.Z1 - v.Z)) := by
  have comp : ∀ (l h x d : K) (u o : Nat), l ≤ h → u ≠ 0 → o ≠ 0 →
      (((if (if h < x then o else 0) ≠ 0 then -d * (x - h) else if (if x < l then u else 0) ≠ 0 then d * (x - l) else d) = 0
        ↔ d = 0) ∧
      (x < l → (if (if h < x then o else 0) ≠ 0 then -d * (x - h) else
        if (if x < l then u else 0) ≠ 0 then d * (x - l) else d) = d * (x - l)) ∧
      (h < x → (if (if h < x then o else 0) ≠ 0 then -d * (x - h) else
        if (if x < l then u else 0) ≠ 0 then d * (x - l) else d) = d * (h - x))) := by
    intro l h x d u o hlh hu ho
    by_cases h1 : h < x
    · have h2 : ¬ x < l := fun h' => absurd (h1.trans h') (not_lt.2 hlh)
      simp only [h1, h2, if_true, if_false, ho, ne_eq, not_false_eq_true, not_true_eq_false, true_implies, false_implies]
      refine ⟨?_, trivial, by ring⟩
      have : x - h ≠ 0 := sub_ne_zero.2 h1.ne'
      simp [this]
    · by_cases h2 : x < l
      · simp only [h1, h2, if_true, if_false, hu, ne_eq, not_false_eq_true, not_true_eq_false, true_implies,
          false_implies]
        have : x - l ≠ 0 := sub_ne_zero.2 h2.ne
        simp [this]
      · simp [h1, h2]
  obtain ⟨h1, h2, h3⟩ := hb
  have cx := comp b.X0 b.X1 v.X (D (Spec.nearest b v)).X 1 8 h1 (by omega) (by omega)
  have cy := comp b.Y0 b.Y1 v.Y (D (Spec.nearest b v)).Y 2 16 h2 (by omega) (by omega)
  have cz := comp b.Z0 b.Z1 v.Z (D (Spec.nearest b v)).Z 4 32 h3 (by omega) (by omega)
  refine ⟨clamp_bits b ⟨h1, h2, h3⟩ v, ?_, ?_⟩
  · unfold f3vecFromCoeffs
    rw [clampBox_eq b ⟨h1, h2, h3⟩]
    dsimp only
    rw [Vec3K.mk.injEq, cx.1, cy.1, cz.1]
    generalize D (Spec.nearest b v) = d
    cases d
    simp
  · unfold f3vecFromCoeffs
    rw [clampBox_eq b ⟨h1, h2, h3⟩]
    dsimp only
    exact ⟨cx.2.1, cx.2.2, cy.2.1, cy.2.2, cz.2.1, cz.2.2⟩

/-- C163: the search.  The point that is returned is in the box, and the value is the one of the function there.  If the
result is not negative, it is the number of steps of the solver and the point is the solver's; if the solver's point
is a root then the derivatives vanish there.  If the solver's point is outside, the result is minus the
number with the bits of the sides, and the point is the closest one in the box. -/
theorem C163_extremum (b : BBox3 K) (hb : Spec.BBoxOk b) (F : Vec3K K → K) (D : Vec3K K → Vec3K K)
    (newton : (Vec3K K → Vec3K K) → Vec3K K → Vec3K K × Bool × Int) (guess : Vec3K K) (status : Int) (p : Vec3K K)
    (Fextr : K) (h : boxExtremum b F D newton guess = (status, p, Fextr)) (q : Vec3K K)
    (hq : (newton (fun v => (f3vecFromCoeffs b D v).1) guess).1 = q) :
    Spec.InBBox b p ∧ Fextr = F p ∧ p = Spec.nearest b q ∧
    (Spec.InBBox b q → p = q ∧ status = (newton (fun v => (f3vecFromCoeffs b D v).1) guess).2.2) ∧
    (¬ Spec.InBBox b q → status = -(Spec.sideBits b q : Int) ∧ status < 0) ∧
    (0 ≤ status → (f3vecFromCoeffs b D q).1 = ⟨0, 0, 0⟩ → D p = ⟨0, 0, 0⟩) := by
  unfold boxExtremum at h
  dsimp only at h
  rw [hq, clamp_bits b hb q, clampBox_eq b hb q] at h
  dsimp only at h
  rw [Prod.mk.injEq, Prod.mk.injEq] at h
  obtain ⟨hs, hp, hF⟩ := h
  subst hp
  have hz := sideBits_zero b q
  obtain ⟨h1, h2, h3⟩ := hb
  refine ⟨?_, hF.symm, rfl, ?_, ?_, ?_⟩
  · unfold Spec.InBBox Spec.nearest
    exact ⟨⟨le_max_left _ _, max_le h1 (min_le_right _ _)⟩, ⟨le_max_left _ _, max_le h2 (min_le_right _ _)⟩,
      ⟨le_max_left _ _, max_le h3 (min_le_right _ _)⟩⟩
  · intro hin
    refine ⟨nearest_of_in b q hin, ?_⟩
    rw [← hs, hz.2 hin]
    simp
  · intro hout
    have : Spec.sideBits b q ≠ 0 := fun h => hout (hz.1 h)
    rw [← hs, if_neg (by omega)]
    exact ⟨rfl, by omega⟩
  · intro _ hroot
    exact ((C163_outside b ⟨h1, h2, h3⟩ D q).2.1).1 hroot

/-- C163: the flag `check` of the solver, which says that it got stuck at a point that is no root, does not
appear in the result: for a solver that stays at the first guess the result is 0 steps, without any sign of failure. -/
theorem C163_check_lost :
    (boxExtremum (K := ℚ) ⟨0, 1, 0, 1, 0, 1⟩ (fun v => v.X) (fun _ => ⟨1, 0, 0⟩) (fun _ g => (g, true, 0))
      ⟨1 / 2, 1 / 2, 1 / 2⟩).1 = 0 := by decide +kernel

/-- C163: the function given to the solver is not continuous at the sides of the box: it has the value of the
derivative on the side itself, and tends to 0 just outside. -/
theorem C163_jump : (f3vecFromCoeffs (K := ℚ) ⟨0, 1, 0, 1, 0, 1⟩ (fun _ => ⟨5, 0, 0⟩) ⟨1, 1 / 2, 1 / 2⟩).1.X = 5 ∧
    ∀ e : ℚ, 0 < e → (f3vecFromCoeffs (K := ℚ) ⟨0, 1, 0, 1, 0, 1⟩ (fun _ => ⟨5, 0, 0⟩) ⟨1 + e, 1 / 2, 1 / 2⟩).1.X = -5 * e := by
  constructor
  · decide +kernel
  · intro e he
    have := (C163_outside (K := ℚ) ⟨0, 1, 0, 1, 0, 1⟩ ⟨by norm_num, by norm_num, by norm_num⟩ (fun _ => ⟨5, 0, 0⟩)
      ⟨1 + e, 1 / 2, 1 / 2⟩).2.2.2.1 (by show (1 : ℚ) < 1 + e; linarith)
    rw [this]
    ring

/-- A point beyond the upper side in X and the lower side in Z. -/
example : (boxExtremum (K := ℚ) ⟨0, 1, 0, 1, 0, 1⟩ (fun v => v.X + 10 * v.Y + 100 * v.Z) (fun _ => ⟨1, 0, 0⟩)
    (fun _ _ => (⟨3, 1 / 2, -2⟩, false, 7)) ⟨1 / 2, 1 / 2, 1 / 2⟩) = (-12, ⟨1, 1 / 2, 0⟩, 6) := by decide +kernel

end Sgrid

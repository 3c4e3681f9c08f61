import Verif.Model.CubedSphere
import Verif.Props.CoordTrafo
import Verif.Props.ComplexFun

/-!
Properties C51, C80 and C81: the cubed sphere coordinates.
-/

namespace Sgrid

open Real Filter Topology

theorem pm_cases (b : CubBox) : b.pm = 1 ∨ b.pm = -1 := by
  unfold CubBox.pm
  rcases Int.emod_two_eq_zero_or_one (b.dom : ℤ) with h | h <;> rw [h] <;> norm_num

theorem pm_ne (b : CubBox) : b.pm ≠ 0 := by
  rcases pm_cases b with h | h <;> rw [h] <;> norm_num

theorem pm_sq (b : CubBox) : b.pm * b.pm = 1 := by
  rcases pm_cases b with h | h <;> rw [h] <;> norm_num

theorem one_A2_B2_pos (A B : ℝ) : 0 < 1 + A * A + B * B := by
  nlinarith [mul_self_nonneg A, mul_self_nonneg B]

theorem cubSnap_inside {lo hi A : ℝ} (h : lo ≤ A ∧ A ≤ hi) (n : ℤ) : cubSnap lo hi A n = (A, n) := by
  unfold cubSnap
  rw [if_neg (by rintro (h1 | h1) <;> linarith [h.1, h.2])]

/-- `|r| / √(r² + (A r)² + (B r)²) = 1/√(1 + A² + B²)` in the order of the three directions. -/
theorem oosqrt_eq {r A B : ℝ} (hr : r ≠ 0) {q : ℝ} (hq : q = r * r * (1 + A * A + B * B)) :
    |r| / √q = 1 / √(1 + A * A + B * B) := by
  have h1 := abs_pos.2 hr
  have h2 := Real.sqrt_pos.2 (one_A2_B2_pos A B)
  rw [hq, Real.sqrt_mul (mul_self_nonneg r), Real.sqrt_mul_self_eq_abs]
  field_simp

namespace Spec

/-- The component along the axis of the patch: x for domains 0, 1, y for 2, 3, z for 4, 5. -/
def axis : ℕ → Fin 3
  | 0 => 0
  | 1 => 0
  | 2 => 1
  | 3 => 1
  | _ => 2

/-- The component that belongs to `A`. -/
def axisA : ℕ → Fin 3
  | 0 => 1
  | 1 => 1
  | 2 => 0
  | 3 => 0
  | _ => 1

/-- The component that belongs to `B`. -/
def axisB : ℕ → Fin 3
  | 0 => 2
  | 1 => 2
  | 2 => 2
  | 3 => 2
  | _ => 0

/-- Domains 1, 3, 5 lie in the positive direction, domains 0, 2, 4 in the negative one. -/
def side : ℕ → ℝ
  | 1 => 1
  | 3 => 1
  | 5 => 1
  | _ => -1

/-- Distance of the point `x` from the centre `c`. -/
noncomputable def dist (x c : Fin 3 → ℝ) : ℝ := √(∑ i, (x i - c i) ^ 2)

/-- The inner surface (`i = 0`) is curved. -/
def curved : PatchType → Fin 2 → Prop
  | .PyramidFrustum, _ => False
  | .innerCubedSphere, i => i = 0
  | .outerCubedSphere, i => i = 1
  | .CubedShell, _ => True

/-- The point `x` of the patch lies on surface `i`: on the plane at distance `s i` from the centre if
the surface is flat, on the star shaped surface at distance `sigma i` if it is curved. -/
def OnSurface (b : CubBox) (i : Fin 2) (A B : ℝ) (x : Fin 3 → ℝ) : Prop :=
  (¬curved b.type i → x (axis b.dom) - b.xc (axis b.dom) = side b.dom * b.s i) ∧
  (curved b.type i → dist x b.xc = |b.sigma i A B| ∧
    ∃ q > 0, x (axis b.dom) - b.xc (axis b.dom) = side b.dom * q * b.sigma i A B)

end Spec

/-- The component along the axis of the image, relative to the centre. -/
noncomputable def cubR (b : CubBox) (lam A B : ℝ) : ℝ :=
  ((cubFaces b A B).2 - (cubFaces b A B).1) * lam + (cubFaces b A B).1

/-- The point with axis component `R` in direction `(A,B)`. -/
noncomputable def place (b : CubBox) (A B R : ℝ) : Fin 3 → ℝ :=
  if b.dir = 1 then ![b.xc 0 + R, b.xc 1 + A * R, b.xc 2 + B * R]
  else if b.dir = 2 then ![b.xc 0 + A * R, b.xc 1 + R, b.xc 2 + B * R]
  else ![b.xc 0 + B * R, b.xc 1 + A * R, b.xc 2 + R]

theorem xyz_place (b : CubBox) (lam A B : ℝ) : xyzOfLamAB b lam A B = place b A B (cubR b lam A B) := rfl

theorem place_zero (b : CubBox) (A B : ℝ) : place b A B 0 = b.xc := by
  unfold place
  funext i
  split_ifs <;> fin_cases i <;> simp

/-- With `oosqrt = 1/√(1+A²+B²)` the inverse uses the same faces. -/
theorem lam_faces (b : CubBox) (A B : ℝ) :
    lamFaces b A B (1 / √(1 + A * A + B * B)) = cubFaces b A B := by
  unfold cubFaces lamFaces
  cases b.type <;> simp [div_eq_mul_inv]

theorem lam_place (b : CubBox) (A B R : ℝ) (hr0 : R ≠ 0)
    (hA : b.bboxA 0 ≤ A ∧ A ≤ b.bboxA 1) (hB : b.bboxB 0 ≤ B ∧ B ≤ b.bboxB 1) :
    lamABOfXyz b (place b A B R) =
      (![(R - (cubFaces b A B).1) / ((cubFaces b A B).2 - (cubFaces b A B).1), A, B], 0) := by
  unfold lamABOfXyz place
  by_cases h1 : b.dir = 1
  · simp only [h1, if_true, Matrix.cons_val_zero, Matrix.cons_val_one, Matrix.cons_val, add_sub_cancel_left,
      mul_div_cancel_right₀ _ hr0, cubSnap_inside hA, cubSnap_inside hB]
    rw [oosqrt_eq hr0 (A := A) (B := B) (by ring), lam_faces b A B]
    simp
  · by_cases h2 : b.dir = 2
    · simp only [h2, if_true, show ¬(2 = 1) from by decide, if_false, Matrix.cons_val_zero, Matrix.cons_val_one,
        Matrix.cons_val, add_sub_cancel_left, mul_div_cancel_right₀ _ hr0, cubSnap_inside hA, cubSnap_inside hB]
      rw [oosqrt_eq hr0 (A := A) (B := B) (by ring), lam_faces b A B]
      simp
    · simp only [h1, h2, if_false, Matrix.cons_val_zero, Matrix.cons_val_one, Matrix.cons_val,
        add_sub_cancel_left, mul_div_cancel_right₀ _ hr0, cubSnap_inside hA, cubSnap_inside hB]
      rw [oosqrt_eq hr0 (A := A) (B := B) (by ring), lam_faces b A B]
      simp

/-- **C51.** lamAB_of_xyz_CubSph undoes xyz_of_lamAB_CubSph: for all patch types, all six domains and all
surfaces, whenever the two surfaces do not touch at `(A,B)` and the point is not the centre.  The status
is 0. -/
theorem C51_inverse (b : CubBox) (lam A B : ℝ)
    (hA : b.bboxA 0 ≤ A ∧ A ≤ b.bboxA 1) (hB : b.bboxB 0 ≤ B ∧ B ≤ b.bboxB 1)
    (hne : xyzOfLamAB b 0 A B ≠ xyzOfLamAB b 1 A B)
    (hr : xyzOfLamAB b lam A B ≠ b.xc) :
    lamABOfXyz b (xyzOfLamAB b lam A B) = (![lam, A, B], 0) := by
  have hd : (cubFaces b A B).2 - (cubFaces b A B).1 ≠ 0 := by
    intro h
    apply hne
    rw [xyz_place, xyz_place]
    congr 1
    unfold cubR
    rw [h]
    ring
  have hr0 : cubR b lam A B ≠ 0 := by
    intro h0
    apply hr
    rw [xyz_place, h0, place_zero]
  rw [xyz_place, lam_place b A B _ hr0 hA hB]
  have hl : (cubR b lam A B - (cubFaces b A B).1) / ((cubFaces b A B).2 - (cubFaces b A B).1) = lam := by
    unfold cubR
    field_simp
    ring
  rw [hl]

theorem dom_lt_six {n : ℕ} (h : n < 6) : n = 0 ∨ n = 1 ∨ n = 2 ∨ n = 3 ∨ n = 4 ∨ n = 5 := by omega

/-- The direction numbers of the six domains. -/
theorem place_axis (b : CubBox) (hdom : b.dom < 6) (A B R : ℝ) :
    place b A B R (Spec.axis b.dom) = b.xc (Spec.axis b.dom) + R ∧
    place b A B R (Spec.axisA b.dom) = b.xc (Spec.axisA b.dom) + A * R ∧
    place b A B R (Spec.axisB b.dom) = b.xc (Spec.axisB b.dom) + B * R := by
  unfold place CubBox.dir
  rcases dom_lt_six hdom with h | h | h | h | h | h <;> rw [h] <;> simp [Spec.axis, Spec.axisA, Spec.axisB]

theorem axis_cover (n : ℕ) (i : Fin 3) : i = Spec.axis n ∨ i = Spec.axisA n ∨ i = Spec.axisB n := by
  unfold Spec.axis Spec.axisA Spec.axisB
  split <;> revert i <;> decide

/-- A point is determined by its three components. -/
theorem eq_of_axis (n : ℕ) {x y : Fin 3 → ℝ} (h : x (Spec.axis n) = y (Spec.axis n))
    (hA : x (Spec.axisA n) = y (Spec.axisA n)) (hB : x (Spec.axisB n) = y (Spec.axisB n)) : x = y := by
  funext i
  rcases axis_cover n i with rfl | rfl | rfl <;> assumption

/-- **C51.** The other direction: for a point whose component along the axis of the patch is not zero and
whose `A`, `B` are in range, lamAB_of_xyz_CubSph returns status 0 and these `A`, `B`, and
xyz_of_lamAB_CubSph maps the result back to the point. -/
theorem C51_inverse_right (b : CubBox) (hdom : b.dom < 6) (x : Fin 3 → ℝ) (A B : ℝ)
    (hx : x (Spec.axis b.dom) ≠ b.xc (Spec.axis b.dom))
    (eA : x (Spec.axisA b.dom) - b.xc (Spec.axisA b.dom) = A * (x (Spec.axis b.dom) - b.xc (Spec.axis b.dom)))
    (eB : x (Spec.axisB b.dom) - b.xc (Spec.axisB b.dom) = B * (x (Spec.axis b.dom) - b.xc (Spec.axis b.dom)))
    (hA : b.bboxA 0 ≤ A ∧ A ≤ b.bboxA 1) (hB : b.bboxB 0 ≤ B ∧ B ≤ b.bboxB 1)
    (hne : xyzOfLamAB b 0 A B ≠ xyzOfLamAB b 1 A B) :
    ∃ lam, lamABOfXyz b x = (![lam, A, B], 0) ∧ xyzOfLamAB b lam A B = x := by
  have hd : (cubFaces b A B).2 - (cubFaces b A B).1 ≠ 0 := by
    intro h
    apply hne
    rw [xyz_place, xyz_place]
    congr 1
    unfold cubR
    rw [h]
    ring
  obtain ⟨R, hR⟩ : ∃ R, R = x (Spec.axis b.dom) - b.xc (Spec.axis b.dom) := ⟨_, rfl⟩
  have hr0 : R ≠ 0 := by rw [hR]; exact sub_ne_zero.2 hx
  obtain ⟨p1, p2, p3⟩ := place_axis b hdom A B R
  rw [← hR] at eA eB
  have e : x = place b A B R := by
    apply eq_of_axis b.dom
    · rw [p1, hR]; ring
    · rw [p2, ← eA]; ring
    · rw [p3, ← eB]; ring
  refine ⟨(R - (cubFaces b A B).1) / ((cubFaces b A B).2 - (cubFaces b A B).1), ?_, ?_⟩
  · rw [e]
    exact lam_place b A B R hr0 hA hB
  · rw [xyz_place, e]
    congr 1
    unfold cubR
    field_simp
    ring

namespace Spec

/-- What becomes of a coordinate `u` that should lie in `[lo, hi]`: kept if inside, moved to the nearer end
if it is outside by at most 1e-10, otherwise kept and reported. -/
noncomputable def snap (lo hi u : ℝ) : ℝ := if lo - 1e-10 ≤ u ∧ u ≤ hi + 1e-10 then max lo (min u hi) else u

/-- `u` lies in `[lo, hi]` up to 1e-10. -/
def NearTo (lo hi u : ℝ) : Prop := lo - 1e-10 ≤ u ∧ u ≤ hi + 1e-10

end Spec

theorem cubSnap_spec (lo hi A : ℝ) (n : ℤ) (h : lo + 1e-10 ≤ hi) :
    (Spec.NearTo lo hi A → cubSnap lo hi A n = (max lo (min A hi), n)) ∧
    (¬Spec.NearTo lo hi A → cubSnap lo hi A n = (A, -1)) := by
  have h10 : (0 : ℝ) < 1e-10 := by norm_num
  unfold Spec.NearTo cubSnap dequal
  generalize (1e-10 : ℝ) = e at *
  constructor
  · rintro ⟨h1, h2⟩
    by_cases ha : A < lo
    · rw [if_pos (.inl ha), if_pos (by push Not; constructor <;> linarith), min_eq_left (by linarith),
        max_eq_left ha.le]
    · by_cases hb : hi < A
      · rw [if_pos (.inr hb), if_neg, if_pos (by push Not; constructor <;> linarith), min_eq_right hb.le,
          max_eq_right (by linarith)]
        push Not
        right
        linarith
      · rw [if_neg (by push Not; constructor <;> linarith), min_eq_left (by linarith),
          max_eq_right (by linarith)]
  · intro h1
    by_cases ha : A < lo
    · rw [if_pos (.inl ha), if_neg, if_neg]
      · push Not
        left
        linarith
      · push Not
        left
        by_contra h3
        exact h1 ⟨by linarith, by linarith⟩
    · rw [if_pos, if_neg, if_neg]
      · push Not
        right
        by_contra h3
        exact h1 ⟨by linarith, by linarith⟩
      · push Not
        right
        by_contra h3
        exact h1 ⟨by linarith, by linarith⟩
      · right
        by_contra h3
        exact h1 ⟨by linarith, by linarith⟩

/-- **C51.** The status of lamAB_of_xyz_CubSph for an arbitrary point with non-zero axis component: 0 exactly
if `A` and `B` lie in their ranges up to 1e-10, and then the returned values lie in the ranges and differ by
at most 1e-10 from the true ones; otherwise -1, or -2 if a curved surface had to be interpolated. -/
theorem C51_status (b : CubBox) (hdom : b.dom < 6) (x : Fin 3 → ℝ) (A B : ℝ)
    (hx : x (Spec.axis b.dom) ≠ b.xc (Spec.axis b.dom))
    (eA : x (Spec.axisA b.dom) - b.xc (Spec.axisA b.dom) = A * (x (Spec.axis b.dom) - b.xc (Spec.axis b.dom)))
    (eB : x (Spec.axisB b.dom) - b.xc (Spec.axisB b.dom) = B * (x (Spec.axis b.dom) - b.xc (Spec.axis b.dom)))
    (hA : b.bboxA 0 + 1e-10 ≤ b.bboxA 1) (hB : b.bboxB 0 + 1e-10 ≤ b.bboxB 1) :
    ((lamABOfXyz b x).2 = 0 ↔ Spec.NearTo (b.bboxA 0) (b.bboxA 1) A ∧ Spec.NearTo (b.bboxB 0) (b.bboxB 1) B) ∧
    ((lamABOfXyz b x).2 ≠ 0 →
      (lamABOfXyz b x).2 = if b.type ≠ .PyramidFrustum ∧ b.indNeg = true then -2 else -1) ∧
    (lamABOfXyz b x).1 1 = Spec.snap (b.bboxA 0) (b.bboxA 1) A ∧
    (lamABOfXyz b x).1 2 = Spec.snap (b.bboxB 0) (b.bboxB 1) B := by
  obtain ⟨R, hR⟩ : ∃ R, R = x (Spec.axis b.dom) - b.xc (Spec.axis b.dom) := ⟨_, rfl⟩
  have hr0 : R ≠ 0 := by rw [hR]; exact sub_ne_zero.2 hx
  obtain ⟨p1, p2, p3⟩ := place_axis b hdom A B R
  rw [← hR] at eA eB
  have e : x = place b A B R := by
    apply eq_of_axis b.dom
    · rw [p1, hR]; ring
    · rw [p2, ← eA]; ring
    · rw [p3, ← eB]; ring
  have hform : ∃ lam, lamABOfXyz b x = (![lam, (cubSnap (b.bboxA 0) (b.bboxA 1) A 0).1,
      (cubSnap (b.bboxB 0) (b.bboxB 1) B (cubSnap (b.bboxA 0) (b.bboxA 1) A 0).2).1],
      if b.type ≠ .PyramidFrustum ∧ b.indNeg then
        (cubSnap (b.bboxB 0) (b.bboxB 1) B (cubSnap (b.bboxA 0) (b.bboxA 1) A 0).2).2 * 2
      else (cubSnap (b.bboxB 0) (b.bboxB 1) B (cubSnap (b.bboxA 0) (b.bboxA 1) A 0).2).2) := by
    rw [e]
    unfold lamABOfXyz place
    by_cases d1 : b.dir = 1
    · simp only [d1, if_true, Matrix.cons_val_zero, Matrix.cons_val_one, Matrix.cons_val,
        add_sub_cancel_left, mul_div_cancel_right₀ _ hr0]
      exact ⟨_, rfl⟩
    · by_cases d2 : b.dir = 2
      · simp only [d2, if_true, show ¬(2 = 1) from by decide, if_false, Matrix.cons_val_zero,
          Matrix.cons_val_one, Matrix.cons_val, add_sub_cancel_left, mul_div_cancel_right₀ _ hr0]
        exact ⟨_, rfl⟩
      · simp only [d1, d2, if_false, Matrix.cons_val_zero, Matrix.cons_val_one, Matrix.cons_val,
          add_sub_cancel_left, mul_div_cancel_right₀ _ hr0]
        exact ⟨_, rfl⟩
  obtain ⟨lam, hl⟩ := hform
  rw [hl]
  have snapA := cubSnap_spec (b.bboxA 0) (b.bboxA 1) A 0 hA
  have snapB := fun n => cubSnap_spec (b.bboxB 0) (b.bboxB 1) B n hB
  simp only [Matrix.cons_val_one, Matrix.cons_val, Matrix.cons_val_zero, Spec.snap]
  by_cases hnA : Spec.NearTo (b.bboxA 0) (b.bboxA 1) A
  · rw [snapA.1 hnA]
    by_cases hnB : Spec.NearTo (b.bboxB 0) (b.bboxB 1) B
    · rw [(snapB _).1 hnB]
      unfold Spec.NearTo at hnA hnB
      simp [Spec.NearTo, hnA, hnB]
    · rw [(snapB _).2 hnB]
      unfold Spec.NearTo at hnA hnB
      simp only [Spec.NearTo, if_pos hnA, if_neg hnB]
      refine ⟨⟨fun h => ?_, fun h => absurd h.2 hnB⟩, fun _ => ?_, trivial, trivial⟩
      · split_ifs at h
        norm_num at h
      · norm_num
  · rw [snapA.2 hnA]
    by_cases hnB : Spec.NearTo (b.bboxB 0) (b.bboxB 1) B
    · rw [(snapB _).1 hnB]
      unfold Spec.NearTo at hnA hnB
      simp only [Spec.NearTo, if_neg hnA, if_pos hnB]
      refine ⟨⟨fun h => ?_, fun h => absurd h.1 hnA⟩, fun _ => ?_, trivial, trivial⟩
      · split_ifs at h
        norm_num at h
      · norm_num
    · rw [(snapB _).2 hnB]
      unfold Spec.NearTo at hnA hnB
      simp only [Spec.NearTo, if_neg hnA, if_neg hnB]
      refine ⟨⟨fun h => ?_, fun h => absurd h.1 hnA⟩, fun _ => ?_, trivial, trivial⟩
      · split_ifs at h
        norm_num at h
      · norm_num

/-- A line from the centre meets the patch in the points of one `(A,B)`: the image lies on the ray, and it
moves along this ray at constant speed from the inner to the outer surface. -/
theorem C51_ray (b : CubBox) (hdom : b.dom < 6) (lam A B : ℝ) :
    (∀ i, xyzOfLamAB b lam A B i = (1 - lam) * xyzOfLamAB b 0 A B i + lam * xyzOfLamAB b 1 A B i) ∧
    xyzOfLamAB b lam A B (Spec.axisA b.dom) - b.xc (Spec.axisA b.dom) =
      A * (xyzOfLamAB b lam A B (Spec.axis b.dom) - b.xc (Spec.axis b.dom)) ∧
    xyzOfLamAB b lam A B (Spec.axisB b.dom) - b.xc (Spec.axisB b.dom) =
      B * (xyzOfLamAB b lam A B (Spec.axis b.dom) - b.xc (Spec.axis b.dom)) := by
  simp only [xyz_place]
  obtain ⟨p1, p2, p3⟩ := place_axis b hdom A B (cubR b lam A B)
  obtain ⟨q1, q2, q3⟩ := place_axis b hdom A B (cubR b 0 A B)
  obtain ⟨r1, r2, r3⟩ := place_axis b hdom A B (cubR b 1 A B)
  refine ⟨fun i => ?_, ?_, ?_⟩
  · rcases axis_cover b.dom i with rfl | rfl | rfl
    · rw [p1, q1, r1]; unfold cubR; ring
    · rw [p2, q2, r2]; unfold cubR; ring
    · rw [p3, q3, r3]; unfold cubR; ring
  · rw [p1, p2]; ring
  · rw [p1, p3]; ring

theorem side_eq (b : CubBox) (hdom : b.dom < 6) : b.pm = Spec.side b.dom := by
  unfold CubBox.pm
  rcases dom_lt_six hdom with h | h | h | h | h | h <;> rw [h] <;> norm_num [Spec.side]

theorem dist_place (b : CubBox) (A B R : ℝ) :
    Spec.dist (place b A B R) b.xc = |R| * √(1 + A * A + B * B) := by
  unfold Spec.dist place
  rw [← Real.sqrt_mul_self_eq_abs, ← Real.sqrt_mul (mul_self_nonneg R)]
  congr 1
  split_ifs <;> simp [Fin.sum_univ_three] <;> ring

/-- **C51.** `lam = 0` is the inner and `lam = 1` the outer surface of the patch. -/
theorem C51_surfaces (b : CubBox) (hdom : b.dom < 6) (A B : ℝ) :
    Spec.OnSurface b 0 A B (xyzOfLamAB b 0 A B) ∧ Spec.OnSurface b 1 A B (xyzOfLamAB b 1 A B) := by
  have hs := Real.sqrt_pos.2 (one_A2_B2_pos A B)
  have habs : |Spec.side b.dom| = 1 := by
    rw [← side_eq b hdom]
    rcases pm_cases b with h | h <;> rw [h] <;> norm_num
  have hdist : ∀ q, |Spec.side b.dom * q / √(1 + A * A + B * B)| * √(1 + A * A + B * B) = |q| := by
    intro q
    rw [abs_div, abs_mul, habs, abs_of_pos hs]
    field_simp
  have hpos := one_div_pos.2 hs
  simp only [xyz_place, Spec.OnSurface, dist_place, (place_axis b hdom A B _).1]
  unfold cubR cubFaces
  rw [side_eq b hdom]
  cases hty : b.type <;> simp [Spec.curved, hdist] <;>
    first
    | exact ⟨_, hpos, by ring⟩
    | exact ⟨⟨_, hpos, by ring⟩, ⟨_, hpos, by ring⟩⟩

/-! ### Derivatives -/

namespace Spec

/-- `dA` and `dB` are the partial derivatives of `f` at `(A,B)`: along every differentiable path through
`(A,B)` the value of `f` changes at the rate `dA A' + dB B'`. -/
def SurfaceDeriv (f : ℝ → ℝ → ℝ) (dA dB A B : ℝ) : Prop :=
  ∀ (Y Z : ℝ → ℝ) (t VY VZ : ℝ), Y t = A → Z t = B → HasDerivAt Y VY t → HasDerivAt Z VZ t →
    HasDerivAt (fun s => f (Y s) (Z s)) (dA * VY + dB * VZ) t

/-- The curved surfaces of the patch are differentiable at `(A,B)`, `dsigmaA`, `dsigmaB` are the partial
derivatives, and the surface does not go through the centre. -/
def SmoothSurfaces (b : CubBox) (A B : ℝ) : Prop :=
  ∀ i, curved b.type i → b.sigma i A B ≠ 0 ∧
    SurfaceDeriv (b.sigma i) (b.dsigmaA i A B) (b.dsigmaB i A B) A B

/-- A point of the patch where the coordinates are regular: the two surfaces do not touch there and it is
not the centre. -/
def Regular (b : CubBox) (lam A B : ℝ) : Prop :=
  SmoothSurfaces b A B ∧ xyzOfLamAB b 0 A B ≠ xyzOfLamAB b 1 A B ∧ xyzOfLamAB b lam A B ≠ b.xc

end Spec

theorem regular_faces {b : CubBox} {lam A B : ℝ} (h : Spec.Regular b lam A B) :
    (cubFaces b A B).2 - (cubFaces b A B).1 ≠ 0 ∧ cubR b lam A B ≠ 0 := by
  constructor
  · intro h0
    apply h.2.1
    rw [xyz_place, xyz_place]
    congr 1
    unfold cubR
    rw [h0]
    ring
  · intro h0
    apply h.2.2
    rw [xyz_place, h0, place_zero]

/-- The rate of change of a curved face. -/
theorem face_moves (pm : ℝ) {f : ℝ → ℝ → ℝ} {dA dB : ℝ} {Y Z : ℝ → ℝ} {t VY VZ : ℝ}
    (hf : Spec.SurfaceDeriv f dA dB (Y t) (Z t)) (h0 : f (Y t) (Z t) ≠ 0)
    (hY : HasDerivAt Y VY t) (hZ : HasDerivAt Z VZ t) :
    HasDerivAt (fun s => pm * f (Y s) (Z s) / √(1 + Y s * Y s + Z s * Z s))
      (pm * f (Y t) (Z t) / √(1 + Y t * Y t + Z t * Z t) *
        (dA / f (Y t) (Z t) * VY + dB / f (Y t) (Z t) * VZ -
          (Y t * VY + Z t * VZ) / (1 + Y t * Y t + Z t * Z t))) t := by
  have hp := one_A2_B2_pos (Y t) (Z t)
  have h1 := ((hf Y Z t VY VZ rfl rfl hY hZ).const_mul pm)
  have h2 : HasDerivAt (fun s => √(1 + Y s * Y s + Z s * Z s)) _ t :=
    ((((hY.mul hY).const_add 1).add (hZ.mul hZ)).sqrt (by simpa using hp.ne'))
  refine (h1.div h2 (Real.sqrt_pos.2 hp).ne').congr_deriv ?_
  have hs := (Real.sqrt_pos.2 hp).ne'
  have hq := Real.mul_self_sqrt hp.le
  simp only [Pi.add_apply, Pi.mul_apply]
  generalize √(1 + Y t * Y t + Z t * Z t) = q at *
  rw [← hq]
  field_simp
  ring

theorem faces_move {b : CubBox} {Y Z : ℝ → ℝ} {t VY VZ : ℝ}
    (h : Spec.SmoothSurfaces b (Y t) (Z t)) (hY : HasDerivAt Y VY t) (hZ : HasDerivAt Z VZ t) :
    HasDerivAt (fun s => (cubFaces b (Y s) (Z s)).1) (cubSlopes b (Y t) (Z t) 4 *
      (cubSlopes b (Y t) (Z t) 0 * VY + cubSlopes b (Y t) (Z t) 1 * VZ -
        (Y t * VY + Z t * VZ) / (1 + Y t * Y t + Z t * Z t))) t ∧
    HasDerivAt (fun s => (cubFaces b (Y s) (Z s)).2) (cubSlopes b (Y t) (Z t) 5 *
      (cubSlopes b (Y t) (Z t) 2 * VY + cubSlopes b (Y t) (Z t) 3 * VZ -
        (Y t * VY + Z t * VZ) / (1 + Y t * Y t + Z t * Z t))) t := by
  unfold Spec.SmoothSurfaces at h
  unfold cubSlopes cubFaces
  cases hty : b.type <;> simp only [hty, Spec.curved] at h ⊢
  · constructor
    · exact (hasDerivAt_const t _).congr_deriv (by simp)
    · exact (hasDerivAt_const t _).congr_deriv (by simp)
  · obtain ⟨h1, h2⟩ := h 0 rfl
    constructor
    · exact face_moves b.pm h2 h1 hY hZ
    · exact (hasDerivAt_const t _).congr_deriv (by simp)
  · obtain ⟨h1, h2⟩ := h 1 rfl
    constructor
    · exact (hasDerivAt_const t _).congr_deriv (by simp)
    · exact face_moves b.pm h2 h1 hY hZ
  · obtain ⟨h1, h2⟩ := h 0 trivial
    obtain ⟨h3, h4⟩ := h 1 trivial
    exact ⟨face_moves b.pm h2 h1 hY hZ, face_moves b.pm h4 h3 hY hZ⟩

set_option linter.unusedSimpArgs false in
/-- **C80.** The nine numbers of dlamAB_dxyz_CubSph are the derivatives of `lam, A, B` by `x, y, z`, for
all patch types, all domains and all differentiable surfaces. -/
theorem C80_derivs (b : CubBox) :
    Spec.FirstDerivs (xyzOfLamAB b) (dlamABDxyz b) (Spec.Regular b) := by
  intro L Y Z t V h hP
  obtain ⟨hL, hY, hZ⟩ := h
  obtain ⟨hd, hr⟩ := regular_faces hP
  obtain ⟨h0, h1⟩ := faces_move hP.1 hY hZ
  obtain ⟨W, hW, hR⟩ : ∃ W, W = (cubSlopes b (Y t) (Z t) 5 *
              (cubSlopes b (Y t) (Z t) 2 * V 1 + cubSlopes b (Y t) (Z t) 3 * V 2 -
                (Y t * V 1 + Z t * V 2) / (1 + Y t * Y t + Z t * Z t)) -
            cubSlopes b (Y t) (Z t) 4 *
              (cubSlopes b (Y t) (Z t) 0 * V 1 + cubSlopes b (Y t) (Z t) 1 * V 2 -
                (Y t * V 1 + Z t * V 2) / (1 + Y t * Y t + Z t * Z t))) *
          L t +
        ((cubFaces b (Y t) (Z t)).2 - (cubFaces b (Y t) (Z t)).1) * V 0 +
      cubSlopes b (Y t) (Z t) 4 *
        (cubSlopes b (Y t) (Z t) 0 * V 1 + cubSlopes b (Y t) (Z t) 1 * V 2 -
          (Y t * V 1 + Z t * V 2) / (1 + Y t * Y t + Z t * Z t)) ∧
      HasDerivAt (fun s => cubR b (L s) (Y s) (Z s)) W t := ⟨_, rfl, ((h1.sub h0).mul hL).add h0⟩
  have hp := one_A2_B2_pos (Y t) (Z t)
  unfold cubR at hr
  by_cases d1 : b.dir = 1
  · refine ⟨![W, V 1 * cubR b (L t) (Y t) (Z t) + Y t * W, V 2 * cubR b (L t) (Y t) (Z t) + Z t * W], fun i => ?_, fun a => ?_⟩
    · fin_cases i
      · exact ((hR).const_add (b.xc 0)).congr_of_eventuallyEq
          (.of_forall fun s => by simp [xyz_place, place, d1])
      · exact ((hY.mul hR).const_add (b.xc 1)).congr_of_eventuallyEq
          (.of_forall fun s => by simp [xyz_place, place, d1])
      · exact ((hZ.mul hR).const_add (b.xc 2)).congr_of_eventuallyEq
          (.of_forall fun s => by simp [xyz_place, place, d1])
    · unfold dlamABDxyz
      simp only [d1, if_true, if_false, show ¬(2 = 1) from by decide]
      unfold cubR
      generalize cubSlopes b (Y t) (Z t) 0 = s0 at *
      generalize cubSlopes b (Y t) (Z t) 1 = s1 at *
      generalize cubSlopes b (Y t) (Z t) 2 = s2 at *
      generalize cubSlopes b (Y t) (Z t) 3 = s3 at *
      generalize cubSlopes b (Y t) (Z t) 4 = s4 at *
      generalize cubSlopes b (Y t) (Z t) 5 = s5 at *
      clear hR h0 h1 hP hL hY hZ
      generalize (cubFaces b (Y t) (Z t)).1 = a0 at *
      generalize (cubFaces b (Y t) (Z t)).2 = a1 at *
      generalize hRR : (a1 - a0) * L t + a0 = R at *
      generalize Y t = A at *
      generalize Z t = B at *
      generalize L t = l at *
      have hrc : R * R + A * R * (A * R) + B * R * (B * R) = R * R * (1 + A * A + B * B) := by ring
      generalize hqq : 1 + A * A + B * B = q at *
      have hq := hp.ne'
      subst hW
      fin_cases a <;> simp [Fin.sum_univ_three, hrc]
      · field_simp
        rw [← hqq]
        ring
      · field_simp
        ring
      · field_simp
        ring
  · by_cases d2 : b.dir = 2
    · refine ⟨![V 1 * cubR b (L t) (Y t) (Z t) + Y t * W, W, V 2 * cubR b (L t) (Y t) (Z t) + Z t * W], fun i => ?_, fun a => ?_⟩
      · fin_cases i
        · exact ((hY.mul hR).const_add (b.xc 0)).congr_of_eventuallyEq
            (.of_forall fun s => by simp [xyz_place, place, d2])
        · exact ((hR).const_add (b.xc 1)).congr_of_eventuallyEq
            (.of_forall fun s => by simp [xyz_place, place, d2])
        · exact ((hZ.mul hR).const_add (b.xc 2)).congr_of_eventuallyEq
            (.of_forall fun s => by simp [xyz_place, place, d2])
      · unfold dlamABDxyz
        simp only [d2, if_true, if_false, show ¬(2 = 1) from by decide]
        unfold cubR
        generalize cubSlopes b (Y t) (Z t) 0 = s0 at *
        generalize cubSlopes b (Y t) (Z t) 1 = s1 at *
        generalize cubSlopes b (Y t) (Z t) 2 = s2 at *
        generalize cubSlopes b (Y t) (Z t) 3 = s3 at *
        generalize cubSlopes b (Y t) (Z t) 4 = s4 at *
        generalize cubSlopes b (Y t) (Z t) 5 = s5 at *
        clear hR h0 h1 hP hL hY hZ
        generalize (cubFaces b (Y t) (Z t)).1 = a0 at *
        generalize (cubFaces b (Y t) (Z t)).2 = a1 at *
        generalize hRR : (a1 - a0) * L t + a0 = R at *
        generalize Y t = A at *
        generalize Z t = B at *
        generalize L t = l at *
        have hrc : A * R * (A * R) + R * R + B * R * (B * R) = R * R * (1 + A * A + B * B) := by ring
        generalize hqq : 1 + A * A + B * B = q at *
        have hq := hp.ne'
        subst hW
        fin_cases a <;> simp [Fin.sum_univ_three, hrc]
        · field_simp
          rw [← hqq]
          ring
        · field_simp
          ring
        · field_simp
          ring
    · refine ⟨![V 2 * cubR b (L t) (Y t) (Z t) + Z t * W, V 1 * cubR b (L t) (Y t) (Z t) + Y t * W, W], fun i => ?_, fun a => ?_⟩
      · fin_cases i
        · exact ((hZ.mul hR).const_add (b.xc 0)).congr_of_eventuallyEq
            (.of_forall fun s => by simp [xyz_place, place, d1, d2])
        · exact ((hY.mul hR).const_add (b.xc 1)).congr_of_eventuallyEq
            (.of_forall fun s => by simp [xyz_place, place, d1, d2])
        · exact ((hR).const_add (b.xc 2)).congr_of_eventuallyEq
            (.of_forall fun s => by simp [xyz_place, place, d1, d2])
      · unfold dlamABDxyz
        simp only [d1, d2, if_true, if_false, show ¬(2 = 1) from by decide]
        unfold cubR
        generalize cubSlopes b (Y t) (Z t) 0 = s0 at *
        generalize cubSlopes b (Y t) (Z t) 1 = s1 at *
        generalize cubSlopes b (Y t) (Z t) 2 = s2 at *
        generalize cubSlopes b (Y t) (Z t) 3 = s3 at *
        generalize cubSlopes b (Y t) (Z t) 4 = s4 at *
        generalize cubSlopes b (Y t) (Z t) 5 = s5 at *
        clear hR h0 h1 hP hL hY hZ
        generalize (cubFaces b (Y t) (Z t)).1 = a0 at *
        generalize (cubFaces b (Y t) (Z t)).2 = a1 at *
        generalize hRR : (a1 - a0) * L t + a0 = R at *
        generalize Y t = A at *
        generalize Z t = B at *
        generalize L t = l at *
        have hrc : B * R * (B * R) + A * R * (A * R) + R * R = R * R * (1 + A * A + B * B) := by ring
        generalize hqq : 1 + A * A + B * B = q at *
        have hq := hp.ne'
        subst hW
        fin_cases a <;> simp [Fin.sum_univ_three, hrc]
        · field_simp
          rw [← hqq]
          ring
        · field_simp
          ring
        · field_simp
          ring

/-! ### The stretched version -/

/-- **C51** for the stretched version: rho and lam determine each other, `0, 1` correspond to `0, 1`, and
drho_dlam_of_rho_sig0sig1 is the derivative. -/
theorem C51_rho (sig0 sig1 : ℝ) (h0 : 0 < sig0) (h1 : sig0 < sig1) :
    (∀ lam, 0 ≤ lam → lamOfRho (rhoOfLam lam sig0 sig1) sig0 sig1 = lam) ∧
    (∀ rho, rho ≤ 1 → rhoOfLam (lamOfRho rho sig0 sig1) sig0 sig1 = rho) ∧
    lamOfRho 0 sig0 sig1 = 0 ∧ lamOfRho 1 sig0 sig1 = 1 ∧
    (∀ lam, 0 ≤ lam →
      HasDerivAt (fun l => rhoOfLam l sig0 sig1) (drhoDlam (rhoOfLam lam sig0 sig1) sig0 sig1) lam) := by
  have hL : sig1 - sig0 ≠ 0 := (sub_pos.2 h1).ne'
  have hs0 := h0.ne'
  have hs1 := (h0.trans h1).ne'
  have hr : ∀ lam, 0 ≤ lam → (sig1 - sig0) * lam + sig0 ≠ 0 := fun lam hl => by
    have := mul_nonneg (sub_pos.2 h1).le hl
    exact (by linarith : 0 < (sig1 - sig0) * lam + sig0).ne'
  have hd : ∀ rho, rho ≤ 1 → sig1 - (sig1 - sig0) * rho ≠ 0 := fun rho hl => by
    have := mul_nonneg (sub_pos.2 h1).le (sub_nonneg.2 hl)
    exact (by nlinarith : 0 < sig1 - (sig1 - sig0) * rho).ne'
  have key : ∀ lam, 0 ≤ lam → sig1 - (sig1 - sig0) * rhoOfLam lam sig0 sig1 =
      sig1 * sig0 / ((sig1 - sig0) * lam + sig0) := fun lam hl => by
    have := hr lam hl
    unfold rhoOfLam
    simp only
    field_simp
    ring
  refine ⟨fun lam hl => ?_, fun rho hl => ?_, ?_, ?_, fun lam hl => ?_⟩
  · have h2 := hr lam hl
    unfold lamOfRho
    simp only [key lam hl]
    field_simp
    ring
  · have h2 := hd rho hl
    have h3 : (sig1 - sig0) * lamOfRho rho sig0 sig1 + sig0 = sig0 * sig1 / (sig1 - (sig1 - sig0) * rho) := by
      unfold lamOfRho
      simp only
      field_simp
      ring
    unfold rhoOfLam
    simp only [h3]
    field_simp
    ring
  · simp [lamOfRho, hs1]
  · unfold lamOfRho
    simp only [mul_one, sub_sub_cancel]
    field_simp
  · have h2 := hr lam hl
    unfold drhoDlam
    simp only [key lam hl]
    have e1 : HasDerivAt (fun l => (sig1 - sig0) * l + sig0) (sig1 - sig0) lam :=
      (((hasDerivAt_id lam).const_mul (sig1 - sig0)).add_const sig0).congr_deriv (by simp)
    refine ((((hasDerivAt_const lam sig0).div e1 h2).const_sub 1).const_mul
      (sig1 / (sig1 - sig0))).congr_deriv ?_
    field_simp
    ring

/-- **C51** for the stretched version: rhoAB_of_xyz_CubSph undoes xyz_of_rhoAB_CubSph on a shell. -/
theorem C51_stretched (b : CubBox) (hty : b.type = .CubedShell) (rho A B : ℝ)
    (hrho : 0 ≤ rho ∧ rho ≤ 1)
    (hA : b.bboxA 0 ≤ A ∧ A ≤ b.bboxA 1) (hB : b.bboxB 0 ≤ B ∧ B ≤ b.bboxB 1)
    (h0 : 0 < b.sigma 0 A B) (h1 : b.sigma 0 A B < b.sigma 1 A B) :
    rhoABOfXyz b (xyzOfRhoAB b rho A B) = (![rho, A, B], 0) := by
  have hs := Real.sqrt_pos.2 (one_A2_B2_pos A B)
  have hpm := pm_ne b
  obtain ⟨-, i2, -, -, -⟩ := C51_rho _ _ h0 h1
  set lam := lamOfRho rho (b.sigma 0 A B) (b.sigma 1 A B) with hlam
  have hd : (cubFaces b A B).2 - (cubFaces b A B).1 ≠ 0 := by
    unfold cubFaces
    simp only [hty, ← sub_div, ← mul_sub]
    exact div_ne_zero (mul_ne_zero hpm (sub_pos.2 h1).ne') hs.ne'
  have hden : 0 < b.sigma 1 A B - (b.sigma 1 A B - b.sigma 0 A B) * rho := by
    nlinarith [mul_nonneg (sub_pos.2 h1).le (sub_nonneg.2 hrho.2)]
  have hr : cubR b lam A B ≠ 0 := by
    have h3 : (b.sigma 1 A B - b.sigma 0 A B) * lam + b.sigma 0 A B =
        b.sigma 0 A B * b.sigma 1 A B / (b.sigma 1 A B - (b.sigma 1 A B - b.sigma 0 A B) * rho) := by
      rw [hlam]
      unfold lamOfRho
      have := (sub_pos.2 h1).ne'
      have := hden.ne'
      simp only
      field_simp
      ring
    have h4 : cubR b lam A B = b.pm / √(1 + A * A + B * B) *
        ((b.sigma 1 A B - b.sigma 0 A B) * lam + b.sigma 0 A B) := by
      unfold cubR cubFaces
      simp only [hty]
      ring
    rw [h4, h3]
    have := h0.trans h1
    have := hden.ne'
    positivity
  have e : lamABOfXyz b (xyzOfRhoAB b rho A B) = (![lam, A, B], 0) := by
    unfold xyzOfRhoAB
    rw [← hlam, xyz_place, lam_place b A B _ hr hA hB]
    have : (cubR b lam A B - (cubFaces b A B).1) / ((cubFaces b A B).2 - (cubFaces b A B).1) = lam := by
      unfold cubR
      field_simp
      ring
    rw [this]
  unfold rhoABOfXyz
  rw [e]
  simp [i2 rho hrho.2, hlam]

/-- **C80** for the stretched version: the nine numbers of drhoAB_dxyz_CubSph are the derivatives of
`rho, A, B` by `x, y, z`.  The function works only with constant sigmas. -/
theorem C80_stretched (b : CubBox) (hty : b.type = .CubedShell) (c : Fin 2 → ℝ)
    (hc : ∀ i A B, b.sigma i A B = c i) (hA : ∀ i A B, b.dsigmaA i A B = 0)
    (hB : ∀ i A B, b.dsigmaB i A B = 0) (h0 : 0 < c 0) (h1 : c 0 < c 1) :
    Spec.FirstDerivs (xyzOfRhoAB b) (drhoABDxyz b) (fun rho _ _ => rho ≤ 1) := by
  intro X Y Z t V h hP
  obtain ⟨hX, hY, hZ⟩ := h
  have hL : c 1 - c 0 ≠ 0 := (sub_pos.2 h1).ne'
  have hs0 := h0.ne'
  have hs1 := (h0.trans h1).ne'
  have hden : 0 < c 1 - (c 1 - c 0) * X t := by
    nlinarith [mul_nonneg (sub_pos.2 h1).le (sub_nonneg.2 hP)]
  have hdn := hden.ne'
  have hs := Real.sqrt_pos.2 (one_A2_B2_pos (Y t) (Z t))
  have hpm := pm_ne b
  have hlam : HasDerivAt (fun s => lamOfRho (X s) (c 0) (c 1))
      (c 0 * c 1 / ((c 1 - (c 1 - c 0) * X t) * (c 1 - (c 1 - c 0) * X t)) * V 0) t := by
    have e1 : HasDerivAt (fun s => c 1 - (c 1 - c 0) * X s) (-((c 1 - c 0) * V 0)) t :=
      (hX.const_mul (c 1 - c 0)).const_sub (c 1)
    refine ((((hasDerivAt_const t (c 1)).div e1 hdn).sub_const 1).const_mul
      (c 0 / (c 1 - c 0))).congr_deriv ?_
    field_simp
    ring
  have hreg : Spec.Regular b (lamOfRho (X t) (c 0) (c 1)) (Y t) (Z t) := by
    have hr : cubR b (lamOfRho (X t) (c 0) (c 1)) (Y t) (Z t) = b.pm / √(1 + Y t * Y t + Z t * Z t) *
        (c 0 * c 1 / (c 1 - (c 1 - c 0) * X t)) := by
      unfold cubR cubFaces lamOfRho
      simp only [hty, hc]
      field_simp
      ring
    have hr1 : ∀ l, cubR b l (Y t) (Z t) = b.pm / √(1 + Y t * Y t + Z t * Z t) * ((c 1 - c 0) * l + c 0) := by
      intro l
      unfold cubR cubFaces
      simp only [hty, hc]
      ring
    have hax : ∀ R, (place b (Y t) (Z t) R = b.xc) → R = 0 := by
      intro R hR
      unfold place at hR
      split_ifs at hR
      · simpa using congrFun hR 0
      · simpa using congrFun hR 1
      · simpa using congrFun hR 2
    have hax2 : ∀ R R', (place b (Y t) (Z t) R = place b (Y t) (Z t) R') → R = R' := by
      intro R R' hR
      unfold place at hR
      split_ifs at hR
      · simpa using congrFun hR 0
      · simpa using congrFun hR 1
      · simpa using congrFun hR 2
    refine ⟨fun i _ => ⟨?_, ?_⟩, ?_, ?_⟩
    · rw [hc]
      fin_cases i
      · exact hs0
      · exact hs1
    · intro Y' Z' t' VY VZ _ _ _ _
      simp only [hc, hA, hB]
      exact (hasDerivAt_const _ _).congr_deriv (by ring)
    · intro e
      have := hax2 _ _ (by simpa only [xyz_place] using e)
      rw [hr1, hr1] at this
      have := mul_left_cancel₀ (div_ne_zero hpm hs.ne') this
      apply hL
      linarith
    · intro e
      have := hax _ (by simpa only [xyz_place] using e)
      rw [hr] at this
      revert this
      positivity
  obtain ⟨v, hv, hv'⟩ := C80_derivs b (fun s => lamOfRho (X s) (c 0) (c 1)) Y Z t
    ![_, V 1, V 2] ⟨hlam, hY, hZ⟩ hreg
  refine ⟨v, fun i => ?_, fun a => ?_⟩
  · refine (hv i).congr_of_eventuallyEq (.of_forall fun s => ?_)
    simp only [xyzOfRhoAB, hc]
  · have ha := hv' a
    unfold drhoABDxyz
    simp only [hc]
    fin_cases a
    · simp only [Fin.sum_univ_three, Fin.zero_eta, Matrix.cons_val_zero, Matrix.cons_val_one,
        Matrix.cons_val] at ha ⊢
      have : ∀ d a0 a1 a2 : ℝ, d * a0 * v 0 + d * a1 * v 1 + d * a2 * v 2 = d * (a0 * v 0 + a1 * v 1 + a2 * v 2) :=
        fun _ _ _ _ => by ring
      rw [this, ha]
      unfold drhoDlam
      simp only
      field_simp
    · simpa using ha
    · simpa using ha

/-- **C80.** r_dr_dlam_of_lamAB_CubSph: `|r|` is the distance from the centre, `r` has the sign of the side
of the patch, and `drdlam` is its derivative by `lam`. -/
theorem C80_r (b : CubBox) (hdom : b.dom < 6) (lam A B : ℝ) :
    Spec.dist (xyzOfLamAB b lam A B) b.xc = |(rOfLamAB b lam A B).1| ∧
    xyzOfLamAB b lam A B (Spec.axis b.dom) - b.xc (Spec.axis b.dom) =
      Spec.side b.dom * (rOfLamAB b lam A B).1 / √(1 + A ^ 2 + B ^ 2) ∧
    HasDerivAt (fun l => (rOfLamAB b l A B).1) (rOfLamAB b lam A B).2 lam := by
  have hs := Real.sqrt_pos.2 (one_A2_B2_pos A B)
  have hs' := hs.ne'
  have habs : |b.pm| = 1 := by
    rcases pm_cases b with h | h <;> rw [h] <;> norm_num
  have e : cubR b lam A B = b.pm * (rOfLamAB b lam A B).1 / √(1 + A * A + B * B) := by
    unfold cubR cubFaces rOfLamAB
    cases b.type <;> simp only <;> field_simp
  refine ⟨?_, ?_, ?_⟩
  · rw [xyz_place, dist_place, e, abs_div, abs_mul, habs, abs_of_pos hs]
    field_simp
  · rw [xyz_place, (place_axis b hdom A B _).1, e, side_eq b hdom, sq, sq]
    ring
  · unfold rOfLamAB
    exact (((hasDerivAt_id lam).const_mul _).add_const _).congr_deriv (by simp)

/-- lam_of_r_sig0sig1 is the inverse of r, and dlam_dr_of_lam_sig0sig1 its derivative. -/
theorem C80_lam_of_r (b : CubBox) (A B sig0 sig1 lam : ℝ) (hs : sig0 ≠ sig1)
    (h0 : (rOfLamAB b 0 A B).1 = sig0) (h1 : (rOfLamAB b 1 A B).1 = sig1) :
    lamOfR (rOfLamAB b lam A B).1 sig0 sig1 = lam ∧
    HasDerivAt (fun r => lamOfR r sig0 sig1) (dlamDr lam sig0 sig1) (rOfLamAB b lam A B).1 := by
  have hL : sig1 - sig0 ≠ 0 := fun h => hs (by linarith)
  constructor
  · have : (rOfLamAB b lam A B).1 = (sig1 - sig0) * lam + sig0 := by
      rw [← h0, ← h1]
      unfold rOfLamAB
      simp only
      ring
    rw [this]
    unfold lamOfR
    simp only
    field_simp
    ring
  · unfold lamOfR dlamDr
    exact (((hasDerivAt_id _).sub_const sig0).div_const (sig1 - sig0))

end Sgrid

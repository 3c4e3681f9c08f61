import Verif.Model.CubedSetup
import Verif.Props.CubedSphere
import Verif.Props.FSurfCoeffs

/-!
C142: the arrangements of setup_CubedSpheres.c fill space without gaps and without overlap.
-/

namespace Sgrid
open Real

namespace Spec

/-- Interpolation in a plane returns the constant if all values in the plane are this constant. -/
def KeepsConstants (interp : ℕ → ℕ → (ℕ → ℕ → ℝ) → ℝ → ℝ → ℝ) : Prop :=
  ∀ n2 n3 f c A B, 0 < n2 → 0 < n3 → (∀ j < n2, ∀ k < n3, f j k = c) → interp n2 n3 f A B = c

/-- All points of a box: the images of the coordinates in its range. -/
def Points (interp : ℕ → ℕ → (ℕ → ℕ → ℝ) → ℝ → ℝ → ℝ) (b : SetupBox) (x : Fin 3 → ℝ) : Prop :=
  ∃ X, (∀ i, b.min i ≤ X i ∧ X i ≤ b.max i) ∧ b.xyz interp (-1) X = x

/-- The inner points of a box: those whose coordinates are not at the end of the range. -/
def InnerPoint (interp : ℕ → ℕ → (ℕ → ℕ → ℝ) → ℝ → ℝ → ℝ) (b : SetupBox) (x : Fin 3 → ℝ) : Prop :=
  ∃ X, (∀ i, b.min i < X i ∧ X i < b.max i) ∧ b.xyz interp (-1) X = x

/-- The `n` boxes from `b0` on fill `R`: every point of `R` and no other belongs to one of them.  Their
inner points lie in `Ro`, and no inner point of one is an inner point of another. -/
def Tiles (interp : ℕ → ℕ → (ℕ → ℕ → ℝ) → ℝ → ℝ → ℝ) (B : ℕ → SetupBox) (b0 n : ℕ)
    (R Ro : (Fin 3 → ℝ) → Prop) : Prop :=
  (∀ x, (∃ i < n, Points interp (B (b0 + i)) x) ↔ R x) ∧
  (∀ i < n, ∀ x, InnerPoint interp (B (b0 + i)) x → Ro x) ∧
  (∀ i < n, ∀ j < n, i ≠ j → ∀ x, ¬(InnerPoint interp (B (b0 + i)) x ∧ InnerPoint interp (B (b0 + j)) x))

/-- Distance of `x` from the centre `c` in direction of domain `e`, in units of `D e`. -/
noncomputable def face (D : ℕ → ℝ) (c x : Fin 3 → ℝ) (e : ℕ) : ℝ := side e * (x (axis e) - c (axis e)) / D e

/-- The direction from `c` to `x` goes through side `d` of the cuboid with the distances `D`. -/
def Cone (D : ℕ → ℝ) (c x : Fin 3 → ℝ) (d : ℕ) : Prop :=
  0 < face D c x d ∧ ∀ e < 6, face D c x e ≤ face D c x d

/-- It goes through the inner part of this side. -/
def OpenCone (D : ℕ → ℝ) (c x : Fin 3 → ℝ) (d : ℕ) : Prop :=
  0 < face D c x d ∧ ∀ e < 6, e ≠ d → face D c x e < face D c x d

/-- `x` lies in the closed cuboid with the distances `D` from the centre `c` to its sides. -/
def InCuboid (D : ℕ → ℝ) (c x : Fin 3 → ℝ) : Prop :=
  (-D 0 ≤ x 0 - c 0 ∧ x 0 - c 0 ≤ D 1) ∧ (-D 2 ≤ x 1 - c 1 ∧ x 1 - c 1 ≤ D 3) ∧
    (-D 4 ≤ x 2 - c 2 ∧ x 2 - c 2 ≤ D 5)

/-- `x` lies in the open cuboid. -/
def InOpenCuboid (D : ℕ → ℝ) (c x : Fin 3 → ℝ) : Prop :=
  (-D 0 < x 0 - c 0 ∧ x 0 - c 0 < D 1) ∧ (-D 2 < x 1 - c 1 ∧ x 1 - c 1 < D 3) ∧
    (-D 4 < x 2 - c 2 ∧ x 2 - c 2 < D 5)

end Spec

/-! ### The cone of a patch -/

theorem scale_le {q D E y : ℝ} (hq : 0 < q) (hD : 0 < D) (hE : 0 < E) : y * q / E ≤ q / D ↔ y ≤ E / D := by
  rw [div_le_div_iff₀ hE hD, le_div_iff₀ hD]
  constructor
  · intro h
    have : q * (y * D) ≤ q * E := by linarith
    exact le_of_mul_le_mul_left this hq
  · intro h
    have := mul_le_mul_of_nonneg_left h hq.le
    linarith

theorem scale_lt {q D E y : ℝ} (hq : 0 < q) (hD : 0 < D) (hE : 0 < E) : y * q / E < q / D ↔ y < E / D := by
  rw [div_lt_div_iff₀ hE hD, lt_div_iff₀ hD]
  constructor
  · intro h
    have : q * (y * D) < q * E := by linarith
    exact lt_of_mul_lt_mul_left this hq.le
  · intro h
    have := mul_lt_mul_of_pos_left h hq
    linarith

theorem forall_six (P : ℕ → Prop) : (∀ e < 6, P e) ↔ P 0 ∧ P 1 ∧ P 2 ∧ P 3 ∧ P 4 ∧ P 5 := by
  constructor
  · intro h
    exact ⟨h 0 (by omega), h 1 (by omega), h 2 (by omega), h 3 (by omega), h 4 (by omega), h 5 (by omega)⟩
  · rintro ⟨h0, h1, h2, h3, h4, h5⟩ e he
    rcases dom_lt_six he with rfl | rfl | rfl | rfl | rfl | rfl <;> assumption

/-- The ranges of `A` and `B` of domain `d` are those of the directions through side `d`. -/
theorem cone_range {D : ℕ → ℝ} (hD : ∀ e < 6, 0 < D e) {d : ℕ} (hd : d < 6) {c x : Fin 3 → ℝ} {q A B : ℝ}
    (hq : 0 < q) (h1 : x (Spec.axis d) - c (Spec.axis d) = Spec.side d * q)
    (h2 : x (Spec.axisA d) - c (Spec.axisA d) = A * (Spec.side d * q))
    (h3 : x (Spec.axisB d) - c (Spec.axisB d) = B * (Spec.side d * q)) {m : ℝ × ℝ × ℝ × ℝ}
    (hm : setABminmax d D = .ok m) :
    ((m.1 ≤ A ∧ A ≤ m.2.1) ∧ m.2.2.1 ≤ B ∧ B ≤ m.2.2.2 ↔ Spec.Cone D c x d) ∧
    ((m.1 < A ∧ A < m.2.1) ∧ m.2.2.1 < B ∧ B < m.2.2.2 ↔ Spec.OpenCone D c x d) ∧
    Spec.face D c x d = q / D d := by
  obtain ⟨p0, p1, p2, p3, p4, p5⟩ := (forall_six _).1 hD
  have neg : ∀ {E F : ℝ}, 0 < E → 0 < F → -q / E < q / F := fun {E F} hE hF => by
    have := div_pos hq hF
    have := div_pos hq hE
    have e : -q / E = -(q / E) := by ring
    linarith
  unfold Spec.Cone Spec.OpenCone
  simp only [forall_six]
  rcases dom_lt_six hd with rfl | rfl | rfl | rfl | rfl | rfl <;>
    simp only [Spec.axis, Spec.axisA, Spec.axisB, Spec.side] at h1 h2 h3 <;>
    simp only [setABminmax, Res.ok.injEq] at hm <;> subst hm <;>
    simp only [Spec.face, Spec.axis, Spec.side, h1, h2, h3]
  all_goals
    have s1 : ∀ y, -1 * (y * (-1 * q)) = y * q := fun y => by ring
    have s2 : ∀ y, 1 * (y * (1 * q)) = y * q := fun y => by ring
    have s3 : ∀ y, -1 * (y * (1 * q)) = -y * q := fun y => by ring
    have s4 : ∀ y, 1 * (y * (-1 * q)) = -y * q := fun y => by ring
    have t1 : -1 * (-1 * q) = q := by ring
    have t2 : 1 * (1 * q) = q := by ring
    have t3 : 1 * (-1 * q) = -q := by ring
    have t4 : -1 * (1 * q) = -q := by ring
    have n1 : ∀ y z : ℝ, -y ≤ z ↔ -z ≤ y := fun y z => neg_le
    have n2 : ∀ y z : ℝ, -y < z ↔ -z < y := fun y z => neg_lt
    have u0 := (neg p0 p1)
    have u1 := (neg p1 p0)
    have u2 := (neg p2 p3)
    have u3 := (neg p3 p2)
    have u4 := (neg p4 p5)
    have u5 := (neg p5 p4)
    have v0 := u0.le
    have v1 := u1.le
    have v2 := u2.le
    have v3 := u3.le
    have v4 := u4.le
    have v5 := u5.le
    have z0 := div_pos hq p0
    have z1 := div_pos hq p1
    have z2 := div_pos hq p2
    have z3 := div_pos hq p3
    have z4 := div_pos hq p4
    have z5 := div_pos hq p5
    simp only [s1, s2, s3, s4, t1, t2, t3, t4, scale_le hq p0, scale_le hq p1, scale_le hq p2, scale_le hq p3,
      scale_le hq p4, scale_le hq p5, scale_lt hq p0, scale_lt hq p1, scale_lt hq p2, scale_lt hq p3,
      scale_lt hq p4, scale_lt hq p5, p0, p1, p2, p3, p4, p5, neg_div, n1 A, n1 B, n2 A, n2 B]
    simp only [neg_div] at u0 u1 u2 u3 u4 u5 v0 v1 v2 v3 v4 v5
    simp [u0, u1, u2, u3, u4, u5, v0, v1, v2, v3, v4, v5, z0, z1, z2, z3, z4, z5, -Left.neg_neg_iff,
      -Left.neg_nonpos_iff]
    try tauto

theorem side_sq (d : ℕ) : Spec.side d * Spec.side d = 1 := by
  unfold Spec.side
  split <;> norm_num

/-- A point in the cone of a patch has coordinates. -/
theorem cone_place {D : ℕ → ℝ} (hD : ∀ e < 6, 0 < D e) (c : CubBox) (hd : c.dom < 6) {x : Fin 3 → ℝ}
    (h : 0 < Spec.face D c.xc x c.dom) :
    ∃ A B q, 0 < q ∧ place c A B (Spec.side c.dom * q) = x := by
  have hp := hD c.dom hd
  have hq : 0 < Spec.side c.dom * (x (Spec.axis c.dom) - c.xc (Spec.axis c.dom)) := by
    unfold Spec.face at h
    by_contra hn
    have := div_nonpos_of_nonpos_of_nonneg (not_lt.1 hn) hp.le
    linarith
  have hs := side_sq c.dom
  have hr : x (Spec.axis c.dom) - c.xc (Spec.axis c.dom) ≠ 0 := by
    intro h0
    rw [h0, mul_zero] at hq
    exact lt_irrefl _ hq
  refine ⟨(x (Spec.axisA c.dom) - c.xc (Spec.axisA c.dom)) / (x (Spec.axis c.dom) - c.xc (Spec.axis c.dom)),
    (x (Spec.axisB c.dom) - c.xc (Spec.axisB c.dom)) / (x (Spec.axis c.dom) - c.xc (Spec.axis c.dom)), _, hq, ?_⟩
  have e : Spec.side c.dom * (Spec.side c.dom * (x (Spec.axis c.dom) - c.xc (Spec.axis c.dom))) =
      x (Spec.axis c.dom) - c.xc (Spec.axis c.dom) := by rw [← mul_assoc, hs, one_mul]
  rw [e]
  obtain ⟨g1, g2, g3⟩ := place_axis c hd
    ((x (Spec.axisA c.dom) - c.xc (Spec.axisA c.dom)) / (x (Spec.axis c.dom) - c.xc (Spec.axis c.dom)))
    ((x (Spec.axisB c.dom) - c.xc (Spec.axisB c.dom)) / (x (Spec.axis c.dom) - c.xc (Spec.axis c.dom)))
    (x (Spec.axis c.dom) - c.xc (Spec.axis c.dom))
  apply eq_of_axis c.dom
  · rw [g1]; ring
  · rw [g2, div_mul_cancel₀ _ hr]; ring
  · rw [g3, div_mul_cancel₀ _ hr]; ring

/-- The points of a patch: they lie in the cone of its domain and between its two surfaces. -/
theorem patch_mem {D : ℕ → ℝ} (hD : ∀ e < 6, 0 < D e) (c : CubBox) (hd : c.dom < 6) {m : ℝ × ℝ × ℝ × ℝ}
    (hm : setABminmax c.dom D = .ok m) (a0 a1 : ℝ → ℝ → ℝ)
    (hf : ∀ A B, cubFaces c A B = (c.pm * a0 A B, c.pm * a1 A B))
    (ha : ∀ A B, (m.1 ≤ A ∧ A ≤ m.2.1) ∧ m.2.2.1 ≤ B ∧ B ≤ m.2.2.2 → 0 < a0 A B ∧ a0 A B < a1 A B)
    (x : Fin 3 → ℝ) (L U Lo Uo : Prop)
    (hL : ∀ A B q, 0 < q → place c A B (Spec.side c.dom * q) = x → (a0 A B ≤ q ↔ L) ∧ (q ≤ a1 A B ↔ U) ∧
      (a0 A B < q ↔ Lo) ∧ (q < a1 A B ↔ Uo)) :
    ((∃ lam A B, (0 ≤ lam ∧ lam ≤ 1) ∧ ((m.1 ≤ A ∧ A ≤ m.2.1) ∧ m.2.2.1 ≤ B ∧ B ≤ m.2.2.2) ∧
      xyzOfLamAB c lam A B = x) ↔ Spec.Cone D c.xc x c.dom ∧ L ∧ U) ∧
    ((∃ lam A B, (0 < lam ∧ lam < 1) ∧ ((m.1 < A ∧ A < m.2.1) ∧ m.2.2.1 < B ∧ B < m.2.2.2) ∧
      xyzOfLamAB c lam A B = x) ↔ Spec.OpenCone D c.xc x c.dom ∧ Lo ∧ Uo) := by
  have hxyz : ∀ lam A B, xyzOfLamAB c lam A B =
      place c A B (Spec.side c.dom * ((a1 A B - a0 A B) * lam + a0 A B)) := by
    intro lam A B
    rw [xyz_place, cubR, hf, side_eq c hd]
    congr 1
    ring
  have hax : ∀ A B q, place c A B (Spec.side c.dom * q) = x →
      x (Spec.axis c.dom) - c.xc (Spec.axis c.dom) = Spec.side c.dom * q ∧
      x (Spec.axisA c.dom) - c.xc (Spec.axisA c.dom) = A * (Spec.side c.dom * q) ∧
      x (Spec.axisB c.dom) - c.xc (Spec.axisB c.dom) = B * (Spec.side c.dom * q) := by
    rintro A B q rfl
    obtain ⟨g1, g2, g3⟩ := place_axis c hd A B (Spec.side c.dom * q)
    rw [g1, g2, g3]
    refine ⟨?_, ?_, ?_⟩ <;> ring
  have hq : ∀ {lam A B}, 0 ≤ lam → (m.1 ≤ A ∧ A ≤ m.2.1) ∧ m.2.2.1 ≤ B ∧ B ≤ m.2.2.2 →
      0 < (a1 A B - a0 A B) * lam + a0 A B := by
    intro lam A B hl hr
    obtain ⟨k1, k2⟩ := ha A B hr
    have := mul_nonneg (sub_pos.2 k2).le hl
    linarith
  constructor
  · constructor
    · rintro ⟨lam, A, B, hl, hr, e⟩
      rw [hxyz] at e
      have hq' := hq hl.1 hr
      obtain ⟨h1, h2, h3⟩ := hax _ _ _ e
      obtain ⟨k1, k2⟩ := ha A B hr
      obtain ⟨l1, l2, -, -⟩ := hL _ _ _ hq' e
      refine ⟨(cone_range hD hd hq' h1 h2 h3 hm).1.1 hr, l1.1 ?_, l2.1 ?_⟩
      · have := mul_nonneg (sub_pos.2 k2).le hl.1
        linarith
      · have := mul_le_mul_of_nonneg_left hl.2 (sub_pos.2 k2).le
        linarith
    · rintro ⟨hC, l, u⟩
      obtain ⟨A, B, q, hq', e⟩ := cone_place hD c hd hC.1
      obtain ⟨h1, h2, h3⟩ := hax _ _ _ e
      have hr := (cone_range hD hd hq' h1 h2 h3 hm).1.2 hC
      obtain ⟨k1, k2⟩ := ha A B hr
      obtain ⟨l1, l2, -, -⟩ := hL _ _ _ hq' e
      have hw := sub_pos.2 k2
      refine ⟨(q - a0 A B) / (a1 A B - a0 A B), A, B, ⟨div_nonneg (by linarith [l1.2 l]) hw.le, ?_⟩, hr, ?_⟩
      · rw [div_le_one hw]
        linarith [l2.2 u]
      · rw [hxyz, mul_div_cancel₀ _ hw.ne', sub_add_cancel, e]
  · constructor
    · rintro ⟨lam, A, B, hl, hr, e⟩
      rw [hxyz] at e
      have hr' : (m.1 ≤ A ∧ A ≤ m.2.1) ∧ m.2.2.1 ≤ B ∧ B ≤ m.2.2.2 :=
        ⟨⟨hr.1.1.le, hr.1.2.le⟩, hr.2.1.le, hr.2.2.le⟩
      have hq' := hq hl.1.le hr'
      obtain ⟨h1, h2, h3⟩ := hax _ _ _ e
      obtain ⟨k1, k2⟩ := ha A B hr'
      obtain ⟨-, -, l1, l2⟩ := hL _ _ _ hq' e
      refine ⟨(cone_range hD hd hq' h1 h2 h3 hm).2.1.1 hr, l1.1 ?_, l2.1 ?_⟩
      · have := mul_pos (sub_pos.2 k2) hl.1
        linarith
      · have := mul_lt_mul_of_pos_left hl.2 (sub_pos.2 k2)
        linarith
    · rintro ⟨hC, l, u⟩
      obtain ⟨A, B, q, hq', e⟩ := cone_place hD c hd hC.1
      obtain ⟨h1, h2, h3⟩ := hax _ _ _ e
      have hr := (cone_range hD hd hq' h1 h2 h3 hm).2.1.2 hC
      obtain ⟨k1, k2⟩ := ha A B ⟨⟨hr.1.1.le, hr.1.2.le⟩, hr.2.1.le, hr.2.2.le⟩
      obtain ⟨-, -, l1, l2⟩ := hL _ _ _ hq' e
      have hw := sub_pos.2 k2
      refine ⟨(q - a0 A B) / (a1 A B - a0 A B), A, B, ⟨div_pos (by linarith [l1.2 l]) hw, ?_⟩, hr, ?_⟩
      · rw [div_lt_one hw]
        linarith [l2.2 u]
      · rw [hxyz, mul_div_cancel₀ _ hw.ne', sub_add_cancel, e]

/-- Curved surfaces are found by the distance from the centre. -/
theorem curved_side (c : CubBox) {A B q s : ℝ} {x : Fin 3 → ℝ} (hq : 0 < q)
    (e : place c A B (Spec.side c.dom * q) = x) :
    (s / √(1 + A * A + B * B) ≤ q ↔ s ≤ Spec.dist x c.xc) ∧ (q ≤ s / √(1 + A * A + B * B) ↔ Spec.dist x c.xc ≤ s) ∧
    (s / √(1 + A * A + B * B) < q ↔ s < Spec.dist x c.xc) ∧ (q < s / √(1 + A * A + B * B) ↔ Spec.dist x c.xc < s) := by
  have hs := Real.sqrt_pos.2 (one_A2_B2_pos A B)
  have habs : |Spec.side c.dom * q| = q := by
    rw [abs_mul, abs_of_pos hq]
    have : |Spec.side c.dom| = 1 := by
      unfold Spec.side
      split <;> norm_num
    rw [this, one_mul]
  have hd : Spec.dist x c.xc = q * √(1 + A * A + B * B) := by rw [← e, dist_place, habs]
  rw [hd]
  exact ⟨div_le_iff₀ hs, le_div_iff₀ hs, div_lt_iff₀ hs, lt_div_iff₀ hs⟩

/-- Flat surfaces are found by the distance along the axis. -/
theorem flat_side (D : ℕ → ℝ) (c : CubBox) (hd : c.dom < 6) (hp : 0 < D c.dom) {A B q s : ℝ} {x : Fin 3 → ℝ}
    (e : place c A B (Spec.side c.dom * q) = x) :
    (s ≤ q ↔ s / D c.dom ≤ Spec.face D c.xc x c.dom) ∧ (q ≤ s ↔ Spec.face D c.xc x c.dom ≤ s / D c.dom) ∧
    (s < q ↔ s / D c.dom < Spec.face D c.xc x c.dom) ∧ (q < s ↔ Spec.face D c.xc x c.dom < s / D c.dom) := by
  have : Spec.face D c.xc x c.dom = q / D c.dom := by
    unfold Spec.face
    rw [← e, (place_axis c hd A B _).1, add_sub_cancel_left, ← mul_assoc, side_sq, one_mul]
  rw [this]
  exact ⟨(div_le_div_iff_of_pos_right hp).symm, (div_le_div_iff_of_pos_right hp).symm,
    (div_lt_div_iff_of_pos_right hp).symm, (div_lt_div_iff_of_pos_right hp).symm⟩

/-! ### What the set-up makes of a box -/

/-- Box `b` is the patch of domain `i` with the given type, centre and distances. -/
structure IsPatch (interp : ℕ → ℕ → (ℕ → ℕ → ℝ) → ℝ → ℝ → ℝ) (b : SetupBox) (i : ℕ) (type : PatchType)
    (stretch : Bool) (xc : Fin 3 → ℝ) (Din Dout : ℕ → ℝ) : Prop where
  coords : b.coords = if stretch then .stretchedCubedSphere else .CubedSphere
  range : ∃ m, setABminmax i Din = .ok m ∧ b.min = ![0, m.1, m.2.2.1] ∧ b.max = ![1, m.2.1, m.2.2.2]
  xc : b.xc = xc
  s : b.s = ![Din i, Dout i]
  dom : b.dom = i
  ty : b.type = type
  sig : ∀ si, Spec.curved type si → ∀ (ind : ℤ) A B, ind < 0 ∨ ind.toNat < b.d.n1 * b.d.n2 * b.d.n3 →
    cubedSphereSigma (b.src interp si) si ind A B = b.s si

theorem exists_fin3 (P : ℝ → ℝ → ℝ → Prop) : (∃ X : Fin 3 → ℝ, P (X 0) (X 1) (X 2)) ↔ ∃ u v w, P u v w :=
  ⟨fun ⟨_, h⟩ => ⟨_, _, _, h⟩, fun ⟨u, v, w, h⟩ => ⟨![u, v, w], h⟩⟩

/-- The points of a box that is not stretched. -/
theorem points_patch {interp : ℕ → ℕ → (ℕ → ℕ → ℝ) → ℝ → ℝ → ℝ} {b : SetupBox} {m : ℝ × ℝ × ℝ × ℝ}
    (hc : b.coords = .CubedSphere) (h0 : b.min = ![0, m.1, m.2.2.1]) (h1 : b.max = ![1, m.2.1, m.2.2.2])
    (x : Fin 3 → ℝ) :
    (Spec.Points interp b x ↔ ∃ lam A B, (0 ≤ lam ∧ lam ≤ 1) ∧
      ((m.1 ≤ A ∧ A ≤ m.2.1) ∧ m.2.2.1 ≤ B ∧ B ≤ m.2.2.2) ∧ xyzOfLamAB (b.cub interp (-1)) lam A B = x) ∧
    (Spec.InnerPoint interp b x ↔ ∃ lam A B, (0 < lam ∧ lam < 1) ∧
      ((m.1 < A ∧ A < m.2.1) ∧ m.2.2.1 < B ∧ B < m.2.2.2) ∧ xyzOfLamAB (b.cub interp (-1)) lam A B = x) := by
  constructor
  · rw [← exists_fin3 (fun lam A B => (0 ≤ lam ∧ lam ≤ 1) ∧
      ((m.1 ≤ A ∧ A ≤ m.2.1) ∧ m.2.2.1 ≤ B ∧ B ≤ m.2.2.2) ∧ xyzOfLamAB (b.cub interp (-1)) lam A B = x)]
    simp [Spec.Points, SetupBox.xyz, hc, Fin.forall_fin_succ, h0, h1, and_assoc]
  · rw [← exists_fin3 (fun lam A B => (0 < lam ∧ lam < 1) ∧
      ((m.1 < A ∧ A < m.2.1) ∧ m.2.2.1 < B ∧ B < m.2.2.2) ∧ xyzOfLamAB (b.cub interp (-1)) lam A B = x)]
    simp [Spec.InnerPoint, SetupBox.xyz, hc, Fin.forall_fin_succ, h0, h1, and_assoc]

/-- The points of a stretched box: the surfaces are at the distances `s0 < s1`. -/
theorem points_stretched {interp : ℕ → ℕ → (ℕ → ℕ → ℝ) → ℝ → ℝ → ℝ} {b : SetupBox} {m : ℝ × ℝ × ℝ × ℝ}
    (hc : b.coords = .stretchedCubedSphere) (h0 : b.min = ![0, m.1, m.2.2.1])
    (h1 : b.max = ![1, m.2.1, m.2.2.2]) {s0 s1 : ℝ} (hs0 : 0 < s0) (hs : s0 < s1)
    (hsig : ∀ A B, (b.cub interp (-1)).sigma 0 A B = s0 ∧ (b.cub interp (-1)).sigma 1 A B = s1)
    (x : Fin 3 → ℝ) :
    (Spec.Points interp b x ↔ ∃ lam A B, (0 ≤ lam ∧ lam ≤ 1) ∧
      ((m.1 ≤ A ∧ A ≤ m.2.1) ∧ m.2.2.1 ≤ B ∧ B ≤ m.2.2.2) ∧ xyzOfLamAB (b.cub interp (-1)) lam A B = x) ∧
    (Spec.InnerPoint interp b x ↔ ∃ lam A B, (0 < lam ∧ lam < 1) ∧
      ((m.1 < A ∧ A < m.2.1) ∧ m.2.2.1 < B ∧ B < m.2.2.2) ∧ xyzOfLamAB (b.cub interp (-1)) lam A B = x) := by
  obtain ⟨r1, r2, -, -, -⟩ := C51_rho s0 s1 hs0 hs
  have hL := sub_pos.2 hs
  have hs1 := hs0.trans hs
  -- rho and lam lie in the range together
  have den : ∀ rho, rho ≤ 1 → 0 < s1 - (s1 - s0) * rho := fun rho h => by
    have := mul_le_mul_of_nonneg_left h hL.le
    linarith
  have lam_eq : ∀ rho, rho ≤ 1 → lamOfRho rho s0 s1 = s0 * rho / (s1 - (s1 - s0) * rho) := fun rho h => by
    have := (den rho h).ne'
    have := hL.ne'
    unfold lamOfRho
    simp only
    field_simp
    ring
  have rho_eq : ∀ lam, 0 ≤ lam → rhoOfLam lam s0 s1 = s1 * lam / ((s1 - s0) * lam + s0) := fun lam h => by
    have h2 : 0 < (s1 - s0) * lam + s0 := by
      have := mul_nonneg hL.le h
      linarith
    have := h2.ne'
    have := hL.ne'
    unfold rhoOfLam
    simp only
    field_simp
    ring
  constructor
  · have : Spec.Points interp b x ↔ ∃ rho A B, (0 ≤ rho ∧ rho ≤ 1) ∧
        ((m.1 ≤ A ∧ A ≤ m.2.1) ∧ m.2.2.1 ≤ B ∧ B ≤ m.2.2.2) ∧ xyzOfRhoAB (b.cub interp (-1)) rho A B = x := by
      rw [← exists_fin3 (fun rho A B => (0 ≤ rho ∧ rho ≤ 1) ∧
        ((m.1 ≤ A ∧ A ≤ m.2.1) ∧ m.2.2.1 ≤ B ∧ B ≤ m.2.2.2) ∧ xyzOfRhoAB (b.cub interp (-1)) rho A B = x)]
      simp [Spec.Points, SetupBox.xyz, hc, Fin.forall_fin_succ, h0, h1, and_assoc]
    rw [this]
    constructor
    · rintro ⟨rho, A, B, hr, hAB, e⟩
      rw [xyzOfRhoAB, (hsig A B).1, (hsig A B).2] at e
      refine ⟨_, A, B, ⟨?_, ?_⟩, hAB, e⟩
      · rw [lam_eq _ hr.2]
        exact div_nonneg (mul_nonneg hs0.le hr.1) (den _ hr.2).le
      · rw [lam_eq _ hr.2, div_le_one (den _ hr.2)]
        have := mul_le_mul_of_nonneg_left hr.2 hs1.le
        linarith
    · rintro ⟨lam, A, B, hl, hAB, e⟩
      have h2 : 0 < (s1 - s0) * lam + s0 := by
        have := mul_nonneg hL.le hl.1
        linarith
      refine ⟨rhoOfLam lam s0 s1, A, B, ⟨?_, ?_⟩, hAB, ?_⟩
      · rw [rho_eq _ hl.1]
        exact div_nonneg (mul_nonneg hs1.le hl.1) h2.le
      · rw [rho_eq _ hl.1, div_le_one h2]
        have := mul_le_mul_of_nonneg_left hl.2 hs0.le
        linarith
      · rw [xyzOfRhoAB, (hsig A B).1, (hsig A B).2, r1 lam hl.1, e]
  · have : Spec.InnerPoint interp b x ↔ ∃ rho A B, (0 < rho ∧ rho < 1) ∧
        ((m.1 < A ∧ A < m.2.1) ∧ m.2.2.1 < B ∧ B < m.2.2.2) ∧ xyzOfRhoAB (b.cub interp (-1)) rho A B = x := by
      rw [← exists_fin3 (fun rho A B => (0 < rho ∧ rho < 1) ∧
        ((m.1 < A ∧ A < m.2.1) ∧ m.2.2.1 < B ∧ B < m.2.2.2) ∧ xyzOfRhoAB (b.cub interp (-1)) rho A B = x)]
      simp [Spec.InnerPoint, SetupBox.xyz, hc, Fin.forall_fin_succ, h0, h1, and_assoc]
    rw [this]
    constructor
    · rintro ⟨rho, A, B, hr, hAB, e⟩
      rw [xyzOfRhoAB, (hsig A B).1, (hsig A B).2] at e
      refine ⟨_, A, B, ⟨?_, ?_⟩, hAB, e⟩
      · rw [lam_eq _ hr.2.le]
        exact div_pos (mul_pos hs0 hr.1) (den _ hr.2.le)
      · rw [lam_eq _ hr.2.le, div_lt_one (den _ hr.2.le)]
        have := mul_lt_mul_of_pos_left hr.2 hs1
        linarith
    · rintro ⟨lam, A, B, hl, hAB, e⟩
      have h2 : 0 < (s1 - s0) * lam + s0 := by
        have := mul_nonneg hL.le hl.1.le
        linarith
      refine ⟨rhoOfLam lam s0 s1, A, B, ⟨?_, ?_⟩, hAB, ?_⟩
      · rw [rho_eq _ hl.1.le]
        exact div_pos (mul_pos hs1 hl.1) h2
      · rw [rho_eq _ hl.1.le, div_lt_one h2]
        have := mul_lt_mul_of_pos_left hl.2 hs0
        linarith
      · rw [xyzOfRhoAB, (hsig A B).1, (hsig A B).2, r1 lam hl.1.le, e]

/-- The points of a patch with a flat inner and a spherical outer surface. -/
theorem points_outer {interp : ℕ → ℕ → (ℕ → ℕ → ℝ) → ℝ → ℝ → ℝ} {b : SetupBox} {i : ℕ} (hi : i < 6)
    {xc : Fin 3 → ℝ} {Din Dout : ℕ → ℝ} (hD : ∀ e < 6, 0 < Din e)
    (h : IsPatch interp b i .outerCubedSphere false xc Din Dout)
    (hr : ∀ m A B, setABminmax i Din = .ok m → (m.1 ≤ A ∧ A ≤ m.2.1) ∧ m.2.2.1 ≤ B ∧ B ≤ m.2.2.2 →
      Din i < Dout i / √(1 + A * A + B * B)) (x : Fin 3 → ℝ) :
    (Spec.Points interp b x ↔ Spec.Cone Din xc x i ∧ 1 ≤ Spec.face Din xc x i ∧ Spec.dist x xc ≤ Dout i) ∧
    (Spec.InnerPoint interp b x ↔ Spec.OpenCone Din xc x i ∧ 1 < Spec.face Din xc x i ∧ Spec.dist x xc < Dout i) := by
  obtain ⟨m, hm, h0, h1⟩ := h.range
  have hc : b.coords = .CubedSphere := by rw [h.coords]; rfl
  have hp := hD i hi
  have hdom : (b.cub interp (-1)).dom = i := h.dom
  have hxc : (b.cub interp (-1)).xc = xc := h.xc
  have hs1 : ∀ A B, (b.cub interp (-1)).sigma 1 A B = Dout i := fun A B => by
    rw [show (b.cub interp (-1)).sigma 1 A B = b.s 1 from h.sig 1 rfl (-1) A B (Or.inl (by norm_num)), h.s]
    rfl
  rw [(points_patch hc h0 h1 x).1, (points_patch hc h0 h1 x).2]
  have := patch_mem hD (b.cub interp (-1)) (by rw [hdom]; exact hi) (by rw [hdom]; exact hm)
    (fun _ _ => Din i) (fun A B => Dout i / √(1 + A * A + B * B)) (by
      intro A B
      rw [cubFaces, show (b.cub interp (-1)).type = .outerCubedSphere from h.ty]
      simp only [hs1]
      rw [show (b.cub interp (-1)).s 0 = Din i by rw [show (b.cub interp (-1)).s = b.s from rfl, h.s]; rfl,
        mul_div_assoc]) (fun A B hAB => ⟨hp, hr m A B hm hAB⟩) x
    (1 ≤ Spec.face Din xc x i) (Spec.dist x xc ≤ Dout i) (1 < Spec.face Din xc x i) (Spec.dist x xc < Dout i) (by
      intro A B q hq e
      have f := flat_side Din _ (by rw [hdom]; exact hi) (by rw [hdom]; exact hp) (s := Din i) e
      have g := curved_side _ (s := Dout i) hq e
      rw [hdom, hxc, div_self hp.ne'] at f
      rw [hxc] at g
      exact ⟨f.1, g.2.1, f.2.2.1, g.2.2.2⟩)
  rw [hdom, hxc] at this
  exact this

/-- The points of a patch with a spherical inner and a flat outer surface. -/
theorem points_inner {interp : ℕ → ℕ → (ℕ → ℕ → ℝ) → ℝ → ℝ → ℝ} {b : SetupBox} {i : ℕ} (hi : i < 6)
    {xc : Fin 3 → ℝ} {Din Dout : ℕ → ℝ} (hD : ∀ e < 6, 0 < Din e)
    (h : IsPatch interp b i .innerCubedSphere false xc Din Dout) (hr : Din i < Dout i) (x : Fin 3 → ℝ) :
    (Spec.Points interp b x ↔ Spec.Cone Din xc x i ∧ Din i ≤ Spec.dist x xc ∧
      Spec.face Din xc x i ≤ Dout i / Din i) ∧
    (Spec.InnerPoint interp b x ↔ Spec.OpenCone Din xc x i ∧ Din i < Spec.dist x xc ∧
      Spec.face Din xc x i < Dout i / Din i) := by
  obtain ⟨m, hm, h0, h1⟩ := h.range
  have hc : b.coords = .CubedSphere := by rw [h.coords]; rfl
  have hp := hD i hi
  have hdom : (b.cub interp (-1)).dom = i := h.dom
  have hxc : (b.cub interp (-1)).xc = xc := h.xc
  have hs0 : ∀ A B, (b.cub interp (-1)).sigma 0 A B = Din i := fun A B => by
    rw [show (b.cub interp (-1)).sigma 0 A B = b.s 0 from h.sig 0 rfl (-1) A B (Or.inl (by norm_num)), h.s]
    rfl
  rw [(points_patch hc h0 h1 x).1, (points_patch hc h0 h1 x).2]
  have := patch_mem hD (b.cub interp (-1)) (by rw [hdom]; exact hi) (by rw [hdom]; exact hm)
    (fun A B => Din i / √(1 + A * A + B * B)) (fun _ _ => Dout i) (by
      intro A B
      rw [cubFaces, show (b.cub interp (-1)).type = .innerCubedSphere from h.ty]
      simp only [hs0]
      rw [show (b.cub interp (-1)).s 1 = Dout i by rw [show (b.cub interp (-1)).s = b.s from rfl, h.s]; rfl,
        mul_div_assoc]) (fun A B _ => by
      have hs := Real.sqrt_pos.2 (one_A2_B2_pos A B)
      have h1 : 1 ≤ √(1 + A * A + B * B) := Real.one_le_sqrt.2 (by nlinarith [mul_self_nonneg A, mul_self_nonneg B])
      exact ⟨div_pos hp hs, lt_of_le_of_lt (div_le_self hp.le h1) hr⟩) x
    (Din i ≤ Spec.dist x xc) (Spec.face Din xc x i ≤ Dout i / Din i) (Din i < Spec.dist x xc)
    (Spec.face Din xc x i < Dout i / Din i) (by
      intro A B q hq e
      have f := flat_side Din _ (by rw [hdom]; exact hi) (by rw [hdom]; exact hp) (s := Dout i) e
      have g := curved_side _ (s := Din i) hq e
      rw [hdom, hxc] at f
      rw [hxc] at g
      exact ⟨g.1, f.2.1, g.2.2.1, f.2.2.2⟩)
  rw [hdom, hxc] at this
  exact this

/-- The points of a patch between two spheres, stretched or not. -/
theorem points_shell {interp : ℕ → ℕ → (ℕ → ℕ → ℝ) → ℝ → ℝ → ℝ} {b : SetupBox} {i : ℕ} (hi : i < 6)
    {xc : Fin 3 → ℝ} {Din Dout : ℕ → ℝ} {stretch : Bool} (hD : ∀ e < 6, 0 < Din e)
    (h : IsPatch interp b i .CubedShell stretch xc Din Dout) (hr : Din i < Dout i) (x : Fin 3 → ℝ) :
    (Spec.Points interp b x ↔ Spec.Cone Din xc x i ∧ Din i ≤ Spec.dist x xc ∧ Spec.dist x xc ≤ Dout i) ∧
    (Spec.InnerPoint interp b x ↔ Spec.OpenCone Din xc x i ∧ Din i < Spec.dist x xc ∧ Spec.dist x xc < Dout i) := by
  obtain ⟨m, hm, h0, h1⟩ := h.range
  have hp := hD i hi
  have hdom : (b.cub interp (-1)).dom = i := h.dom
  have hxc : (b.cub interp (-1)).xc = xc := h.xc
  have hs0 : ∀ A B, (b.cub interp (-1)).sigma 0 A B = Din i := fun A B => by
    rw [show (b.cub interp (-1)).sigma 0 A B = b.s 0 from h.sig 0 trivial (-1) A B (Or.inl (by norm_num)), h.s]
    rfl
  have hs1 : ∀ A B, (b.cub interp (-1)).sigma 1 A B = Dout i := fun A B => by
    rw [show (b.cub interp (-1)).sigma 1 A B = b.s 1 from h.sig 1 trivial (-1) A B (Or.inl (by norm_num)), h.s]
    rfl
  have hP : (Spec.Points interp b x ↔ ∃ lam A B, (0 ≤ lam ∧ lam ≤ 1) ∧
      ((m.1 ≤ A ∧ A ≤ m.2.1) ∧ m.2.2.1 ≤ B ∧ B ≤ m.2.2.2) ∧ xyzOfLamAB (b.cub interp (-1)) lam A B = x) ∧
    (Spec.InnerPoint interp b x ↔ ∃ lam A B, (0 < lam ∧ lam < 1) ∧
      ((m.1 < A ∧ A < m.2.1) ∧ m.2.2.1 < B ∧ B < m.2.2.2) ∧ xyzOfLamAB (b.cub interp (-1)) lam A B = x) := by
    cases stretch with
    | false => exact points_patch (by rw [h.coords]; rfl) h0 h1 x
    | true => exact points_stretched (by rw [h.coords]; rfl) h0 h1 hp hr (fun A B => ⟨hs0 A B, hs1 A B⟩) x
  rw [hP.1, hP.2]
  have := patch_mem hD (b.cub interp (-1)) (by rw [hdom]; exact hi) (by rw [hdom]; exact hm)
    (fun A B => Din i / √(1 + A * A + B * B)) (fun A B => Dout i / √(1 + A * A + B * B)) (by
      intro A B
      rw [cubFaces, show (b.cub interp (-1)).type = .CubedShell from h.ty]
      simp only [hs0, hs1]
      rw [mul_div_assoc, mul_div_assoc]) (fun A B _ => by
      have hs := Real.sqrt_pos.2 (one_A2_B2_pos A B)
      exact ⟨div_pos hp hs, (div_lt_div_iff_of_pos_right hs).2 hr⟩) x
    (Din i ≤ Spec.dist x xc) (Spec.dist x xc ≤ Dout i) (Din i < Spec.dist x xc) (Spec.dist x xc < Dout i) (by
      intro A B q hq e
      have f := curved_side _ (s := Dout i) hq e
      have g := curved_side _ (s := Din i) hq e
      rw [hxc] at f g
      exact ⟨g.1, f.2.1, g.2.2.1, f.2.2.2⟩)
  rw [hdom, hxc] at this
  exact this

/-! ### Regions -/

theorem open_cuboid_iff {D : ℕ → ℝ} (hD : ∀ e < 6, 0 < D e) (c x : Fin 3 → ℝ) :
    Spec.InOpenCuboid D c x ↔ ∀ e < 6, Spec.face D c x e < 1 := by
  obtain ⟨p0, p1, p2, p3, p4, p5⟩ := (forall_six _).1 hD
  rw [forall_six]
  simp only [Spec.InOpenCuboid, Spec.face, Spec.axis, Spec.side, div_lt_one p0, div_lt_one p1, div_lt_one p2,
    div_lt_one p3, div_lt_one p4, div_lt_one p5]
  constructor
  · rintro ⟨⟨a, b⟩, ⟨c, d⟩, e, f⟩
    exact ⟨by linarith, by linarith, by linarith, by linarith, by linarith, by linarith⟩
  · rintro ⟨a, b, c, d, e, f⟩
    exact ⟨⟨by linarith, by linarith⟩, ⟨by linarith, by linarith⟩, by linarith, by linarith⟩

theorem cuboid_iff {D : ℕ → ℝ} (hD : ∀ e < 6, 0 < D e) (c x : Fin 3 → ℝ) :
    Spec.InCuboid D c x ↔ ∀ e < 6, Spec.face D c x e ≤ 1 := by
  obtain ⟨p0, p1, p2, p3, p4, p5⟩ := (forall_six _).1 hD
  rw [forall_six]
  simp only [Spec.InCuboid, Spec.face, Spec.axis, Spec.side, div_le_one p0, div_le_one p1, div_le_one p2,
    div_le_one p3, div_le_one p4, div_le_one p5]
  constructor
  · rintro ⟨⟨a, b⟩, ⟨c, d⟩, e, f⟩
    exact ⟨by linarith, by linarith, by linarith, by linarith, by linarith, by linarith⟩
  · rintro ⟨a, b, c, d, e, f⟩
    exact ⟨⟨by linarith, by linarith⟩, ⟨by linarith, by linarith⟩, by linarith, by linarith⟩

/-- There is a side that a direction goes through. -/
theorem exists_side (D : ℕ → ℝ) (c x : Fin 3 → ℝ) : ∃ d < 6, ∀ e < 6, Spec.face D c x e ≤ Spec.face D c x d := by
  obtain ⟨d, hd, h⟩ := Finset.exists_max_image (Finset.range 6) (Spec.face D c x) ⟨0, by simp⟩
  exact ⟨d, by simpa using hd, fun e he => h e (by simpa using he)⟩

theorem dist_sq (x c : Fin 3 → ℝ) :
    Spec.dist x c ^ 2 = (x 0 - c 0) ^ 2 + (x 1 - c 1) ^ 2 + (x 2 - c 2) ^ 2 := by
  unfold Spec.dist
  rw [Real.sq_sqrt (Finset.sum_nonneg fun i _ => sq_nonneg _), Fin.sum_univ_three]

theorem dist_nonneg3 (x c : Fin 3 → ℝ) : 0 ≤ Spec.dist x c := Real.sqrt_nonneg _

/-- Away from the centre some side is met. -/
theorem exists_pos_side {D : ℕ → ℝ} (hD : ∀ e < 6, 0 < D e) {c x : Fin 3 → ℝ} (h : 0 < Spec.dist x c) :
    ∃ e < 6, 0 < Spec.face D c x e := by
  obtain ⟨p0, p1, p2, p3, p4, p5⟩ := (forall_six _).1 hD
  by_contra hn
  push Not at hn
  obtain ⟨h0, h1, h2, h3, h4, h5⟩ := (forall_six _).1 hn
  have key : ∀ {y E : ℝ}, 0 < E → y / E ≤ 0 → y ≤ 0 := fun {y E} hE hy => by
    by_contra hc
    have := div_pos (not_le.1 hc) hE
    linarith
  simp only [Spec.face, Spec.axis, Spec.side] at h0 h1 h2 h3 h4 h5
  have a0 := key p0 h0
  have a1 := key p1 h1
  have a2 := key p2 h2
  have a3 := key p3 h3
  have a4 := key p4 h4
  have a5 := key p5 h5
  have e0 : x 0 - c 0 = 0 := by linarith
  have e1 : x 1 - c 1 = 0 := by linarith
  have e2 : x 2 - c 2 = 0 := by linarith
  have := dist_sq x c
  rw [e0, e1, e2] at this
  nlinarith

theorem open_cones_disjoint {D : ℕ → ℝ} {c x : Fin 3 → ℝ} {d e : ℕ} (hd : d < 6) (he : e < 6) (hne : d ≠ e) :
    ¬(Spec.OpenCone D c x d ∧ Spec.OpenCone D c x e) := by
  rintro ⟨h1, h2⟩
  exact lt_asymm (h1.2 e he (Ne.symm hne)) (h2.2 d hd hne)

/-- A cone whose side is met at a positive distance. -/
theorem cone_of_max {D : ℕ → ℝ} {c x : Fin 3 → ℝ} {d e : ℕ} (he : e < 6)
    (hmax : ∀ e < 6, Spec.face D c x e ≤ Spec.face D c x d) (h : 0 < Spec.face D c x e) : Spec.Cone D c x d :=
  ⟨lt_of_lt_of_le h (hmax e he), hmax⟩

/-- Six patches between a cuboid and a sphere around it. -/
theorem tiles_outer {interp : ℕ → ℕ → (ℕ → ℕ → ℝ) → ℝ → ℝ → ℝ} {B : ℕ → SetupBox} {b0 : ℕ}
    {xc : Fin 3 → ℝ} {Din : ℕ → ℝ} {rho : ℝ} (hD : ∀ e < 6, 0 < Din e)
    (h : ∀ i < 6, IsPatch interp (B (b0 + i)) i .outerCubedSphere false xc Din (fun _ => rho))
    (hr : ∀ x, Spec.InCuboid Din xc x → Spec.dist x xc < rho) :
    Spec.Tiles interp B b0 6 (fun x => ¬Spec.InOpenCuboid Din xc x ∧ Spec.dist x xc ≤ rho)
      (fun x => ¬Spec.InCuboid Din xc x ∧ Spec.dist x xc < rho) := by
  have key : ∀ i (hi : i < 6) x,
      (Spec.Points interp (B (b0 + i)) x ↔ Spec.Cone Din xc x i ∧ 1 ≤ Spec.face Din xc x i ∧ Spec.dist x xc ≤ rho) ∧
      (Spec.InnerPoint interp (B (b0 + i)) x ↔ Spec.OpenCone Din xc x i ∧ 1 < Spec.face Din xc x i ∧
        Spec.dist x xc < rho) := by
    intro i hi x
    refine points_outer hi hD (h i hi) ?_ x
    intro m A C hm hAC
    have hs := Real.sqrt_pos.2 (one_A2_B2_pos A C)
    have hp := hD i hi
    rw [lt_div_iff₀ hs]
    -- the corner of the cuboid in this direction
    obtain ⟨c, rfl⟩ : ∃ c, c = (B (b0 + i)).cub interp (-1) := ⟨_, rfl⟩
    have hdom : ((B (b0 + i)).cub interp (-1)).dom = i := (h i hi).dom
    have hxc : ((B (b0 + i)).cub interp (-1)).xc = xc := (h i hi).xc
    obtain ⟨g1, g2, g3⟩ := place_axis ((B (b0 + i)).cub interp (-1)) (by rw [hdom]; exact hi) A C
      (Spec.side i * Din i)
    have hd := dist_place ((B (b0 + i)).cub interp (-1)) A C (Spec.side i * Din i)
    rw [hdom, hxc] at g1 g2 g3
    rw [hxc] at hd
    obtain ⟨k1, -, k3⟩ := cone_range (A := A) (B := C) (c := xc) (x := place ((B (b0 + i)).cub interp (-1)) A C (Spec.side i * Din i))
      hD hi hp (by rw [g1]; ring) (by rw [g2]; ring) (by rw [g3]; ring) hm
    rw [div_self hp.ne'] at k3
    have := hr _ ((cuboid_iff hD _ _).2 fun e he => ((k1.1 hAC).2 e he).trans k3.le)
    rw [hd] at this
    have habs : |Spec.side i * Din i| = Din i := by
      rw [abs_mul, abs_of_pos hp]
      have : |Spec.side i| = 1 := by
        unfold Spec.side
        split <;> norm_num
      rw [this, one_mul]
    rwa [habs] at this
  refine ⟨fun x => ⟨?_, ?_⟩, ?_, ?_⟩
  · rintro ⟨i, hi, hp⟩
    obtain ⟨-, h1, h2⟩ := (key i hi x).1.1 hp
    refine ⟨fun ho => ?_, h2⟩
    have := (open_cuboid_iff hD _ _).1 ho i hi
    linarith
  · rintro ⟨h1, h2⟩
    obtain ⟨d, hd, hmax⟩ := exists_side Din xc x
    have h1' : 1 ≤ Spec.face Din xc x d := by
      by_contra hn
      exact h1 ((open_cuboid_iff hD _ _).2 fun e he => lt_of_le_of_lt (hmax e he) (not_le.1 hn))
    exact ⟨d, hd, (key d hd x).1.2 ⟨cone_of_max hd hmax (by linarith), h1', h2⟩⟩
  · intro i hi x hx
    obtain ⟨-, h1, h2⟩ := (key i hi x).2.1 hx
    refine ⟨fun ho => ?_, h2⟩
    have := (cuboid_iff hD _ _).1 ho i hi
    linarith
  · rintro i hi j hj hij x ⟨h1, h2⟩
    exact open_cones_disjoint hi hj hij ⟨((key i hi x).2.1 h1).1, ((key j hj x).2.1 h2).1⟩

theorem face_const {a b : ℝ} (ha : 0 < a) (hb : 0 < b) (c x : Fin 3 → ℝ) (e : ℕ) :
    (Spec.face (fun _ => a) c x e ≤ b / a ↔ Spec.face (fun _ => b) c x e ≤ 1) ∧
    (Spec.face (fun _ => a) c x e < b / a ↔ Spec.face (fun _ => b) c x e < 1) := by
  unfold Spec.face
  rw [div_le_div_iff_of_pos_right ha, div_lt_div_iff_of_pos_right ha, div_le_one hb, div_lt_one hb]
  exact ⟨Iff.rfl, Iff.rfl⟩

/-- Six patches between a sphere and a cube around it. -/
theorem tiles_inner {interp : ℕ → ℕ → (ℕ → ℕ → ℝ) → ℝ → ℝ → ℝ} {B : ℕ → SetupBox} {b0 : ℕ}
    {xc : Fin 3 → ℝ} {a rho : ℝ} (ha : 0 < a) (har : a < rho)
    (h : ∀ i < 6, IsPatch interp (B (b0 + i)) i .innerCubedSphere false xc (fun _ => a) (fun _ => rho)) :
    Spec.Tiles interp B b0 6 (fun x => a ≤ Spec.dist x xc ∧ Spec.InCuboid (fun _ => rho) xc x)
      (fun x => a < Spec.dist x xc ∧ Spec.InOpenCuboid (fun _ => rho) xc x) := by
  have hD : ∀ e < 6, 0 < (fun _ : ℕ => a) e := fun _ _ => ha
  have hrho := ha.trans har
  have hR : ∀ e < 6, 0 < (fun _ : ℕ => rho) e := fun _ _ => hrho
  have key := fun i hi x => points_inner hi hD (h i hi) har x
  refine ⟨fun x => ⟨?_, ?_⟩, ?_, ?_⟩
  · rintro ⟨i, hi, hp⟩
    obtain ⟨h0, h1, h2⟩ := (key i hi x).1.1 hp
    exact ⟨h1, (cuboid_iff hR _ _).2 fun e he => (face_const ha hrho _ _ e).1.1 ((h0.2 e he).trans h2)⟩
  · rintro ⟨h1, h2⟩
    obtain ⟨d, hd, hmax⟩ := exists_side (fun _ => a) xc x
    obtain ⟨e, he, hpos⟩ := exists_pos_side hD (lt_of_lt_of_le ha h1)
    exact ⟨d, hd, (key d hd x).1.2 ⟨cone_of_max he hmax hpos, h1,
      (face_const ha hrho _ _ d).1.2 ((cuboid_iff hR _ _).1 h2 d hd)⟩⟩
  · intro i hi x hx
    obtain ⟨h0, h1, h2⟩ := (key i hi x).2.1 hx
    refine ⟨h1, (open_cuboid_iff hR _ _).2 fun e he => (face_const ha hrho _ _ e).2.1 ?_⟩
    rcases eq_or_ne e i with rfl | hne
    · exact h2
    · exact (h0.2 e he hne).trans h2
  · rintro i hi j hj hij x ⟨h1, h2⟩
    exact open_cones_disjoint hi hj hij ⟨((key i hi x).2.1 h1).1, ((key j hj x).2.1 h2).1⟩

/-- Six patches between two spheres. -/
theorem tiles_shell {interp : ℕ → ℕ → (ℕ → ℕ → ℝ) → ℝ → ℝ → ℝ} {B : ℕ → SetupBox} {b0 : ℕ}
    {xc : Fin 3 → ℝ} {a rho : ℝ} {stretch : Bool} (ha : 0 < a) (har : a < rho)
    (h : ∀ i < 6, IsPatch interp (B (b0 + i)) i .CubedShell stretch xc (fun _ => a) (fun _ => rho)) :
    Spec.Tiles interp B b0 6 (fun x => a ≤ Spec.dist x xc ∧ Spec.dist x xc ≤ rho)
      (fun x => a < Spec.dist x xc ∧ Spec.dist x xc < rho) := by
  have hD : ∀ e < 6, 0 < (fun _ : ℕ => a) e := fun _ _ => ha
  have key := fun i hi x => points_shell hi hD (h i hi) har x
  refine ⟨fun x => ⟨?_, ?_⟩, ?_, ?_⟩
  · rintro ⟨i, hi, hp⟩
    exact ((key i hi x).1.1 hp).2
  · rintro ⟨h1, h2⟩
    obtain ⟨d, hd, hmax⟩ := exists_side (fun _ => a) xc x
    obtain ⟨e, he, hpos⟩ := exists_pos_side hD (lt_of_lt_of_le ha h1)
    exact ⟨d, hd, (key d hd x).1.2 ⟨cone_of_max he hmax hpos, h1, h2⟩⟩
  · intro i hi x hx
    exact ((key i hi x).2.1 hx).2
  · rintro i hi j hj hij x ⟨h1, h2⟩
    exact open_cones_disjoint hi hj hij ⟨((key i hi x).2.1 h1).1, ((key j hj x).2.1 h2).1⟩

/-- One cube. -/
theorem tiles_cube {interp : ℕ → ℕ → (ℕ → ℕ → ℝ) → ℝ → ℝ → ℝ} {B : ℕ → SetupBox} {b0 : ℕ}
    {xc : Fin 3 → ℝ} {a : ℝ} (hc : (B b0).coords = .Cartesian) (h0 : (B b0).min = fun d => xc d - a)
    (h1 : (B b0).max = fun d => xc d + a) :
    Spec.Tiles interp B b0 1 (Spec.InCuboid (fun _ => a) xc) (Spec.InOpenCuboid (fun _ => a) xc) := by
  have hP : ∀ x, Spec.Points interp (B b0) x ↔ Spec.InCuboid (fun _ => a) xc x := by
    intro x
    simp only [Spec.Points, SetupBox.xyz, hc, h0, h1, exists_eq_right, Fin.forall_fin_succ, Spec.InCuboid]
    constructor
    · rintro ⟨⟨p, q⟩, ⟨r, s⟩, ⟨t, u⟩, -⟩
      exact ⟨⟨by linarith, by linarith⟩, ⟨by simp at r s; linarith, by simp at r s; linarith⟩,
        by simp at t u; linarith, by simp at t u; linarith⟩
    · rintro ⟨⟨p, q⟩, ⟨r, s⟩, ⟨t, u⟩⟩
      refine ⟨⟨by linarith, by linarith⟩, ⟨by simp; linarith, by simp; linarith⟩,
        ⟨by simp; linarith, by simp; linarith⟩, fun i => i.elim0⟩
  have hI : ∀ x, Spec.InnerPoint interp (B b0) x ↔ Spec.InOpenCuboid (fun _ => a) xc x := by
    intro x
    simp only [Spec.InnerPoint, SetupBox.xyz, hc, h0, h1, exists_eq_right, Fin.forall_fin_succ, Spec.InOpenCuboid]
    constructor
    · rintro ⟨⟨p, q⟩, ⟨r, s⟩, ⟨t, u⟩, -⟩
      exact ⟨⟨by linarith, by linarith⟩, ⟨by simp at r s; linarith, by simp at r s; linarith⟩,
        by simp at t u; linarith, by simp at t u; linarith⟩
    · rintro ⟨⟨p, q⟩, ⟨r, s⟩, ⟨t, u⟩⟩
      refine ⟨⟨by linarith, by linarith⟩, ⟨by simp; linarith, by simp; linarith⟩,
        ⟨by simp; linarith, by simp; linarith⟩, fun i => i.elim0⟩
  refine ⟨fun x => ⟨?_, fun hx => ⟨0, by omega, (hP x).2 hx⟩⟩, ?_, ?_⟩
  · rintro ⟨i, hi, hp⟩
    obtain rfl : i = 0 := by omega
    exact (hP x).1 hp
  · intro i hi x hx
    obtain rfl : i = 0 := by omega
    exact (hI x).1 hx
  · intro i hi j hj hij
    omega

/-- Two groups of boxes whose inner regions do not meet. -/
theorem tiles_append {interp : ℕ → ℕ → (ℕ → ℕ → ℝ) → ℝ → ℝ → ℝ} {B : ℕ → SetupBox} {b0 n m : ℕ}
    {R Ro S So T To : (Fin 3 → ℝ) → Prop} (h1 : Spec.Tiles interp B b0 n R Ro)
    (h2 : Spec.Tiles interp B (b0 + n) m S So) (hd : ∀ x, Ro x → So x → False)
    (hT : ∀ x, T x ↔ R x ∨ S x) (hTo : ∀ x, Ro x ∨ So x → To x) : Spec.Tiles interp B b0 (n + m) T To := by
  obtain ⟨a1, a2, a3⟩ := h1
  obtain ⟨c1, c2, c3⟩ := h2
  have sh : ∀ {i}, ¬i < n → b0 + i = b0 + n + (i - n) := fun {i} h => by omega
  refine ⟨fun x => ?_, ?_, ?_⟩
  · rw [hT, ← a1, ← c1]
    constructor
    · rintro ⟨i, hi, hp⟩
      by_cases h : i < n
      · exact Or.inl ⟨i, h, hp⟩
      · exact Or.inr ⟨i - n, by omega, by rwa [← sh h]⟩
    · rintro (⟨i, hi, hp⟩ | ⟨i, hi, hp⟩)
      · exact ⟨i, by omega, hp⟩
      · exact ⟨n + i, by omega, by rwa [← Nat.add_assoc]⟩
  · intro i hi x hx
    by_cases h : i < n
    · exact hTo x (Or.inl (a2 i h x hx))
    · rw [sh h] at hx
      exact hTo x (Or.inr (c2 _ (by omega) x hx))
  · rintro i hi j hj hij x ⟨g1, g2⟩
    by_cases h : i < n <;> by_cases h' : j < n
    · exact a3 i h j h' hij x ⟨g1, g2⟩
    · rw [sh h'] at g2
      exact hd x (a2 i h x g1) (c2 _ (by omega) x g2)
    · rw [sh h] at g1
      exact hd x (a2 j h' x g2) (c2 _ (by omega) x g1)
    · rw [sh h] at g1
      rw [sh h'] at g2
      exact c3 _ (by omega) _ (by omega) (by omega) x ⟨g1, g2⟩

theorem tiles_congr {interp : ℕ → ℕ → (ℕ → ℕ → ℝ) → ℝ → ℝ → ℝ} {B B' : ℕ → SetupBox} {b0 n : ℕ}
    {R Ro : (Fin 3 → ℝ) → Prop} (h : Spec.Tiles interp B b0 n R Ro) (he : ∀ i < n, B' (b0 + i) = B (b0 + i)) :
    Spec.Tiles interp B' b0 n R Ro := by
  obtain ⟨a1, a2, a3⟩ := h
  refine ⟨fun x => ?_, fun i hi => by rw [he i hi]; exact a2 i hi,
    fun i hi j hj => by rw [he i hi, he j hj]; exact a3 i hi j hj⟩
  rw [← a1]
  constructor
  · rintro ⟨i, hi, hp⟩
    exact ⟨i, hi, by rwa [← he i hi]⟩
  · rintro ⟨i, hi, hp⟩
    exact ⟨i, hi, by rwa [he i hi]⟩

/-! ### The set-up functions -/

namespace Spec

/-- A box before the set-up: it has points, no surface is set yet, and the variable for the surface is
switched on (`c = true`) or not. -/
structure FreshBoxes (c : Bool) (b : SetupBox) : Prop where
  has : b.hasDef = c
  n1 : 2 ≤ b.d.n1
  n2 : 0 < b.d.n2
  n3 : 0 < b.d.n3
  surf : ∀ si, b.iSurf si = 0
  fs : ∀ si, b.iFS si = 0

end Spec

theorem setConst_plane (d : Dims) (v : ℕ → ℝ) (si : Fin 2) (s : ℝ) {j k : ℕ} (hj : j < d.n2) (hk : k < d.n3) :
    setConstInplane d v si s (d.idx (planeOf d si) j k) = s := by
  refine grid_up d.n2 d.n3 (fun k j v => aset v (d.idx (planeOf d si) j k) s) v
    (fun j k t => t (d.idx (planeOf d si) j k) = s) ?_ ?_ j hj k hk
  · intro j k t _ _
    exact aset_self _ _ _
  · intro j k j' k' t _ _ _ _ _ ht
    by_cases h : d.idx (planeOf d si) j' k' = d.idx (planeOf d si) j k
    · rw [h]
      exact aset_self _ _ _
    · rw [aset_ne _ _ h]
      exact ht

theorem copy_plane (d : Dims) (s v : ℕ → ℝ) (si : Fin 2) {j k : ℕ} (hj : j < d.n2) (hk : k < d.n3) :
    copyInplane d si s v (d.idx (planeOf d si) j k) = s (d.idx (planeOf d si) j k) := by
  refine grid_up d.n2 d.n3 (fun k j v => aset v (d.idx (planeOf d si) j k) (s (d.idx (planeOf d si) j k))) v
    (fun j k t => t (d.idx (planeOf d si) j k) = s (d.idx (planeOf d si) j k)) ?_ ?_ j hj k hk
  · intro j k t _ _
    exact aset_self _ _ _
  · intro j k j' k' t _ _ _ _ _ ht
    by_cases h : d.idx (planeOf d si) j' k' = d.idx (planeOf d si) j k
    · rw [h]
      exact aset_self _ _ _
    · rw [aset_ne _ _ h]
      exact ht

/-- A loop over a plane that does not change the value at `q`. -/
theorem plane_keep (d : Dims) (f : ℕ → ℕ → (ℕ → ℝ) → ℕ → ℝ) (v : ℕ → ℝ) (q : ℕ) (w : ℝ) (hv : v q = w)
    (hf : ∀ j k t, t q = w → f k j t q = w) :
    upLoop 0 d.n3 (fun k v => upLoop 0 d.n2 (fun j v => f k j v) v) v q = w := by
  refine upLoop_inv (lo := 0) (hi := d.n3) (by omega) (fun _ (t : ℕ → ℝ) => t q = w) hv ?_
  intro k t _ _ ht
  refine upLoop_inv (lo := 0) (hi := d.n2) (by omega) (fun _ (t : ℕ → ℝ) => t q = w) ht ?_
  intro j u _ _ hu
  exact hf j k u hu

theorem setConst_keep (d : Dims) (v : ℕ → ℝ) (si : Fin 2) (s : ℝ) (q : ℕ)
    (hq : ∀ j k, q ≠ d.idx (planeOf d si) j k) : setConstInplane d v si s q = v q := by
  refine plane_keep d (fun k j v => aset v (d.idx (planeOf d si) j k) s) v q (v q) rfl ?_
  intro j k t ht
  rw [aset_ne _ _ (hq j k)]
  exact ht

theorem copy_keep (d : Dims) (s v : ℕ → ℝ) (si : Fin 2) (q : ℕ) (w : ℝ) (hv : v q = w) (hs : s q = w) :
    copyInplane d si s v q = w := by
  refine plane_keep d (fun k j v => aset v (d.idx (planeOf d si) j k) (s (d.idx (planeOf d si) j k))) v q w hv ?_
  intro j k t ht
  by_cases h : q = d.idx (planeOf d si) j k
  · rw [h] at hs ⊢
    rw [aset_self, hs]
  · rw [aset_ne _ _ h]
    exact ht

theorem planes_differ {d : Dims} (h : 2 ≤ d.n1) (j k j' k' : ℕ) :
    d.idx (planeOf d 0) j k ≠ d.idx (planeOf d 1) j' k' := by
  intro e
  have e0 : planeOf d 0 = 0 := by simp [planeOf]
  have e1 : planeOf d 1 = d.n1 - 1 := by simp [planeOf]
  rw [e0, e1] at e
  unfold Dims.idx at e
  have := congrArg (· % d.n1) e
  simp only [Nat.add_mul_mod_self_left] at this
  rw [Nat.mod_eq_of_lt (by omega : 0 < d.n1), Nat.mod_eq_of_lt (by omega : d.n1 - 1 < d.n1)] at this
  omega

/-- The box after one pass of the loop in convert_6boxes_to_CubedSphere. -/
noncomputable def convPure (V : SetupVars) (b : SetupBox) (i : ℕ) (type : PatchType) (stretch : Bool)
    (xc : Fin 3 → ℝ) (Din Dout : ℕ → ℝ) (m : ℝ × ℝ × ℝ × ℝ) : SetupBox :=
  { b with
    coords := if stretch then .stretchedCubedSphere else .CubedSphere
    min := ![0, m.1, m.2.2.1]
    max := ![1, m.2.1, m.2.2.2]
    xc := xc
    s := ![Din i, Dout i]
    dom := i
    type := type
    vdef := if b.hasDef ∧ ¬stretch then
        match type with
        | .innerCubedSphere => setConstInplane b.d b.vdef 0 (Din i)
        | .outerCubedSphere => setConstInplane b.d b.vdef 1 (Dout i)
        | .CubedShell => setConstInplane b.d (setConstInplane b.d b.vdef 0 (Din i)) 1 (Dout i)
        | .PyramidFrustum => b.vdef
      else b.vdef
    iFS := if b.hasDef ∧ ¬stretch then
        match type with
        | .innerCubedSphere => Function.update b.iFS 0 V.isigdef
        | .outerCubedSphere => Function.update b.iFS 1 V.isigdef
        | .CubedShell => Function.update (Function.update b.iFS 0 V.isigdef) 1 V.isigdef
        | .PyramidFrustum => b.iFS
      else b.iFS
    iSurf := if b.hasDef ∧ ¬stretch then
        match type with
        | .innerCubedSphere => Function.update b.iSurf 0 V.isigma
        | .outerCubedSphere => Function.update b.iSurf 1 V.isigma
        | .CubedShell => Function.update (Function.update b.iSurf 0 V.isigma) 1 V.isigma
        | .PyramidFrustum => b.iSurf
      else b.iSurf }

theorem setAB_ok {i : ℕ} (hi : i < 6) (Din : ℕ → ℝ) : ∃ m, setABminmax i Din = .ok m := by
  rcases dom_lt_six hi with rfl | rfl | rfl | rfl | rfl | rfl <;> exact ⟨_, rfl⟩

theorem convertBox_eq (V : SetupVars) (b : SetupBox) {i : ℕ} (type : PatchType) (stretch : Bool)
    (xc : Fin 3 → ℝ) (Din Dout : ℕ → ℝ) {m : ℝ × ℝ × ℝ × ℝ} (hm : setABminmax i Din = .ok m)
    (ht : type ≠ .PyramidFrustum) :
    convertBox V b i type stretch xc Din Dout = .ok (convPure V b i type stretch xc Din Dout m) := by
  unfold convertBox convPure
  rw [hm]
  obtain ⟨m1, m2, m3, m4⟩ := m
  obtain ⟨c, hc⟩ : ∃ c, b.hasDef = c := ⟨_, rfl⟩
  cases c <;> cases stretch <;> cases type <;> simp [hc, bind, Res.bind] at ht ⊢

/-- The surfaces of a converted box, after the copies of init_6CubedSphereBoxes_from_CI_iFS. -/
theorem isPatch_conv {interp : ℕ → ℕ → (ℕ → ℕ → ℝ) → ℝ → ℝ → ℝ} (hI : Spec.KeepsConstants interp)
    {V : SetupVars} (hV : 1 ≤ V.isigma ∧ 1 ≤ V.isigdef) {b : SetupBox} {c : Bool} (hb : Spec.FreshBoxes c b) {i : ℕ}
    (type : PatchType) (stretch : Bool) (xc : Fin 3 → ℝ) (Din Dout : ℕ → ℝ) {m : ℝ × ℝ × ℝ × ℝ}
    (hm : setABminmax i Din = .ok m) (ht : type ≠ .PyramidFrustum) :
    (c = true ∧ stretch = false → IsPatch interp
      (init1ByCopying (init1ByCopying (convPure V b i type stretch xc Din Dout m) 0) 1)
      i type stretch xc Din Dout) ∧
    (¬(c = true ∧ stretch = false) →
      IsPatch interp (convPure V b i type stretch xc Din Dout m) i type stretch xc Din Dout) := by
  -- the value of sigma from the values in the plane
  have read : ∀ (b : SetupBox) (si : Fin 2), 2 ≤ b.d.n1 → 0 < b.d.n2 → 0 < b.d.n3 → 1 ≤ b.iSurf si →
      (∀ j < b.d.n2, ∀ k < b.d.n3, b.vsig (b.d.idx (planeOf b.d si) j k) = b.s si) →
      ∀ (ind : ℤ) A B, ind < 0 ∨ ind.toNat < b.d.n1 * b.d.n2 * b.d.n3 →
        cubedSphereSigma (b.src interp si) si ind A B = b.s si := by
    intro b si n1 n2 n3 hsurf hv ind A B hind
    have hn : ¬(b.src interp si).isig < 1 := by
      change ¬b.iSurf si < 1
      omega
    unfold cubedSphereSigma
    rw [if_neg hn]
    by_cases h0 : ind ≥ 0
    · simp only [if_pos h0]
      have hlt : ind.toNat < b.d.n1 * b.d.n2 * b.d.n3 := hind.resolve_left (by omega)
      have hpos : 0 < b.d.n1 * b.d.n2 := Nat.mul_pos (by omega) n2
      have hk : ind.toNat / (b.d.n1 * b.d.n2) < b.d.n3 := Nat.div_lt_of_lt_mul hlt
      have hj : (ind.toNat - b.d.n1 * b.d.n2 * (ind.toNat / (b.d.n1 * b.d.n2))) / b.d.n1 < b.d.n2 := by
        apply Nat.div_lt_of_lt_mul
        rw [← Nat.mod_eq_sub_mul_div]
        exact Nat.mod_lt _ hpos
      exact hv _ hj _ hk
    · simp only [if_neg h0]
      exact hI _ _ _ _ _ _ n2 n3 hv
  have hfs0 := hb.fs 0
  have hfs1 := hb.fs 1
  have hsf0 := hb.surf 0
  have hsf1 := hb.surf 1
  have hh := hb.has
  obtain ⟨v1, v2⟩ := hV
  have nd : ¬V.isigdef < 1 := by omega
  constructor
  · rintro ⟨rfl, rfl⟩
    have d0 : ∀ j k, j < b.d.n2 → k < b.d.n3 →
        setConstInplane b.d (setConstInplane b.d b.vdef 0 (Din i)) 1 (Dout i) (b.d.idx (planeOf b.d 0) j k) = Din i := by
      intro j k hj hk
      rw [setConst_keep _ _ _ _ _ (fun j' k' => planes_differ hb.n1 j k j' k')]
      exact setConst_plane _ _ _ _ hj hk
    cases type with
    | PyramidFrustum => exact absurd rfl ht
    | innerCubedSphere =>
      have e : init1ByCopying (init1ByCopying (convPure V b i .innerCubedSphere false xc Din Dout m) 0) 1 =
          { convPure V b i .innerCubedSphere false xc Din Dout m with
            vsig := copyInplane b.d 0 (setConstInplane b.d b.vdef 0 (Din i)) b.vsig } := by
        simp [init1ByCopying, convPure, hh, nd, hfs1]
      rw [e]
      refine ⟨rfl, ⟨m, hm, rfl, rfl⟩, rfl, rfl, rfl, rfl, ?_⟩
      rintro si rfl
      refine read _ 0 hb.n1 hb.n2 hb.n3 (by simpa [convPure, hh] using v1) ?_
      intro j hj k hk
      exact (copy_plane b.d _ _ 0 hj hk).trans (setConst_plane _ _ _ _ hj hk)
    | outerCubedSphere =>
      have e : init1ByCopying (init1ByCopying (convPure V b i .outerCubedSphere false xc Din Dout m) 0) 1 =
          { convPure V b i .outerCubedSphere false xc Din Dout m with
            vsig := copyInplane b.d 1 (setConstInplane b.d b.vdef 1 (Dout i)) b.vsig } := by
        simp [init1ByCopying, convPure, hh, nd, hfs0]
      rw [e]
      refine ⟨rfl, ⟨m, hm, rfl, rfl⟩, rfl, rfl, rfl, rfl, ?_⟩
      rintro si rfl
      refine read _ 1 hb.n1 hb.n2 hb.n3 (by simpa [convPure, hh] using v1) ?_
      intro j hj k hk
      exact (copy_plane b.d _ _ 1 hj hk).trans (setConst_plane _ _ _ _ hj hk)
    | CubedShell =>
      have e : init1ByCopying (init1ByCopying (convPure V b i .CubedShell false xc Din Dout m) 0) 1 =
          { convPure V b i .CubedShell false xc Din Dout m with
            vsig := copyInplane b.d 1 (setConstInplane b.d (setConstInplane b.d b.vdef 0 (Din i)) 1 (Dout i))
              (copyInplane b.d 0 (setConstInplane b.d (setConstInplane b.d b.vdef 0 (Din i)) 1 (Dout i)) b.vsig) } := by
        simp [init1ByCopying, convPure, hh, nd]
      rw [e]
      refine ⟨rfl, ⟨m, hm, rfl, rfl⟩, rfl, rfl, rfl, rfl, ?_⟩
      intro si _
      refine read _ si hb.n1 hb.n2 hb.n3 (by fin_cases si <;> simpa [convPure, hh] using v1) ?_
      intro j hj k hk
      have hj' : j < b.d.n2 := hj
      have hk' : k < b.d.n3 := hk
      have : si = 0 ∨ si = 1 := by omega
      rcases this with rfl | rfl
      · refine copy_keep b.d _ _ 1 _ _ ?_ (d0 j k hj' hk')
        exact (copy_plane b.d _ _ 0 hj' hk').trans (d0 j k hj' hk')
      · exact (copy_plane b.d _ _ 1 hj' hk').trans (setConst_plane _ _ _ _ hj' hk')
  · intro hc
    have hno : ¬(b.hasDef = true ∧ ¬stretch = true) := by
      rw [hh]
      simpa using hc
    refine ⟨rfl, ⟨m, hm, rfl, rfl⟩, rfl, rfl, rfl, rfl, ?_⟩
    intro si _ ind A B _
    unfold cubedSphereSigma
    have : ((convPure V b i type stretch xc Din Dout m).src interp si).isig < 1 := by
      have e : (convPure V b i type stretch xc Din Dout m).iSurf = b.iSurf := if_neg hno
      change (convPure V b i type stretch xc Din Dout m).iSurf si < 1
      rw [e, hb.surf]
      norm_num
    rw [if_pos this]
    rfl

/-- **C142.** convert_6boxes_to_CubedSphere makes the six patches, returns the index after them and leaves the other
boxes as they are. -/
theorem C142_convert {interp : ℕ → ℕ → (ℕ → ℕ → ℝ) → ℝ → ℝ → ℝ} (hI : Spec.KeepsConstants interp)
    {V : SetupVars} (hV : 1 ≤ V.isigma ∧ 1 ≤ V.isigdef) {g : SetupGrid} {b0 : ℕ} {c : Bool}
    (hg : b0 + 6 ≤ g.nboxes) (hb : ∀ i < 6, Spec.FreshBoxes c (g.box (b0 + i)))
    {type : PatchType} (stretch : Bool) (xc : Fin 3 → ℝ) (Din Dout : ℕ → ℝ) (ht : type ≠ .PyramidFrustum) :
    ∃ g', convert6boxes V g b0 type stretch xc Din Dout = .ok (b0 + 6, g') ∧ g'.nboxes = g.nboxes ∧
      (∀ k, k < b0 ∨ b0 + 6 ≤ k → g'.box k = g.box k) ∧
      ∀ i < 6, IsPatch interp (g'.box (b0 + i)) i type stretch xc Din Dout := by
  choose! m hm using fun i (hi : i < 6) => setAB_ok hi Din
  let b' := fun i => convPure V (g.box (b0 + i)) i type stretch xc Din Dout (m i)
  have has : ∀ i < 6, (b' i).hasDef = c := fun i hi => (hb i hi).has
  -- the grid before pass i
  let G : ℕ → SetupGrid := fun i => upLoop 0 i (fun i g => g.put (b0 + i) (b' i)) g
  have hG : ∀ i, (G i).nboxes = g.nboxes ∧ (∀ k, k < b0 ∨ b0 + i ≤ k → (G i).box k = g.box k) ∧
      ∀ k < i, (G i).box (b0 + k) = b' k := by
    intro i
    refine upLoop_inv (lo := 0) (hi := i) (by omega) (fun i (t : SetupGrid) => t.nboxes = g.nboxes ∧
      (∀ k, k < b0 ∨ b0 + i ≤ k → t.box k = g.box k) ∧ ∀ k < i, t.box (b0 + k) = b' k)
      ⟨rfl, fun _ _ => rfl, fun _ h => by omega⟩ ?_
    rintro i t _ _ ⟨t1, t2, t3⟩
    refine ⟨t1, fun k hk => ?_, fun k hk => ?_⟩
    · change aset t.box (b0 + i) (b' i) k = _
      rw [aset_ne _ _ (by omega)]
      exact t2 k (by omega)
    · change aset t.box (b0 + i) (b' i) (b0 + k) = _
      by_cases h : k = i
      · rw [h, aset_self]
      · rw [aset_ne _ _ (by omega)]
        exact t3 k (by omega)
  have step : ∀ fuel i, i < 6 → convertLoop V b0 type stretch xc Din Dout (fuel + 1) i (G i) =
      convertLoop V b0 type stretch xc Din Dout fuel (i + 1)
        (if c = true ∧ stretch = false ∧ i = 5 then init6Boxes (G (i + 1)) b0 else G (i + 1)) := by
    intro fuel i hi
    obtain ⟨h1, h2, -⟩ := hG i
    have hG' : G (i + 1) = (G i).put (b0 + i) (b' i) := upLoop_succ (by omega) _ _
    rw [convertLoop, if_neg (by rw [h1]; omega), h2 (b0 + i) (by omega),
      convertBox_eq V (g.box (b0 + i)) type stretch xc Din Dout (hm i hi) ht]
    change convertLoop V b0 type stretch xc Din Dout fuel (i + 1) _ = _
    congr 1
    rw [hG']
    have h5 := has i hi
    have : (b' i).dom = i := rfl
    change (if (b' i).hasDef = true ∧ ¬stretch = true ∧ (b' i).dom = 5 then _ else _) = _
    simp only [h5, this, Bool.not_eq_true]
    rfl
  have run : convert6boxes V g b0 type stretch xc Din Dout =
      .ok (b0 + 6, if c = true ∧ stretch = false then init6Boxes (G 6) b0 else G 6) := by
    have e0 : g = G 0 := (upLoop_nil (by omega) _ _).symm
    unfold convert6boxes
    conv_lhs => rw [e0]
    rw [step 5 0 (by omega), if_neg (by omega), step 4 1 (by omega), if_neg (by omega), step 3 2 (by omega),
      if_neg (by omega), step 2 3 (by omega), if_neg (by omega), step 1 4 (by omega), if_neg (by omega),
      step 0 5 (by omega)]
    simp [convertLoop]
  obtain ⟨h1, h2, h3⟩ := hG 6
  by_cases hc : c = true ∧ stretch = false
  · rw [if_pos hc] at run
    refine ⟨_, run, ?_⟩
    have hdom : ((G 6).box b0).dom = 0 := by
      rw [show b0 = b0 + 0 from rfl, h3 0 (by omega)]
      rfl
    have hty : ((G 6).box b0).type = type := by
      rw [show b0 = b0 + 0 from rfl, h3 0 (by omega)]
      rfl
    have hty' : type = .innerCubedSphere ∨ type = .outerCubedSphere ∨ type = .CubedShell := by
      cases type <;> simp at ht ⊢
    have e : init6Boxes (G 6) b0 = upLoop 0 6 (fun i g => g.put (b0 + i)
        (init1ByCopying (init1ByCopying (g.box (b0 + i)) 0) 1)) (G 6) := by
      unfold init6Boxes
      simp only [hdom, hty]
      simp [hty']
    rw [e]
    have inv := upLoop_inv (lo := 0) (hi := 6) (by omega) (body := fun i (g : SetupGrid) => g.put (b0 + i)
        (init1ByCopying (init1ByCopying (g.box (b0 + i)) 0) 1)) (s := G 6)
      (fun i (t : SetupGrid) => t.nboxes = g.nboxes ∧
        (∀ k, k < b0 ∨ b0 + i ≤ k → t.box k = (G 6).box k) ∧
        ∀ k < i, t.box (b0 + k) = init1ByCopying (init1ByCopying (b' k) 0) 1)
      ⟨h1, fun _ _ => rfl, fun _ h => by omega⟩ (by
        rintro i t _ hi ⟨t1, t2, t3⟩
        refine ⟨t1, fun k hk => ?_, fun k hk => ?_⟩
        · change aset t.box (b0 + i) _ k = _
          rw [aset_ne _ _ (by omega)]
          exact t2 k (by omega)
        · change aset t.box (b0 + i) _ (b0 + k) = _
          by_cases h : k = i
          · rw [h, aset_self, t2 _ (by omega), h3 i hi]
          · rw [aset_ne _ _ (by omega)]
            exact t3 k (by omega))
    obtain ⟨i1, i2, i3⟩ := inv
    refine ⟨i1, fun k hk => (i2 k (by omega)).trans (h2 k (by omega)), fun i hi => ?_⟩
    rw [i3 i hi]
    exact (isPatch_conv hI hV (hb i hi) type stretch xc Din Dout (hm i hi) ht).1 hc
  · rw [if_neg hc] at run
    refine ⟨_, run, h1, fun k hk => h2 k (by omega), fun i hi => ?_⟩
    rw [h3 i hi]
    exact (isPatch_conv hI hV (hb i hi) type stretch xc Din Dout (hm i hi) ht).2 hc

/-! ### The arrangements -/

theorem dist_lt_of {x c : Fin 3 → ℝ} {r : ℝ} (hr : 0 < r)
    (h : (x 0 - c 0) ^ 2 + (x 1 - c 1) ^ 2 + (x 2 - c 2) ^ 2 < r ^ 2) : Spec.dist x c < r := by
  rw [← dist_sq] at h
  exact lt_of_pow_lt_pow_left₀ 2 hr.le h

theorem sq_le_of_abs {y a : ℝ} (h1 : -a ≤ y) (h2 : y ≤ a) : y ^ 2 ≤ a ^ 2 := sq_le_sq' h1 h2

/-- A cube lies in the sphere through its corners. -/
theorem cube_dist {a r : ℝ} (hr : 0 < r) (har : 3 * a ^ 2 < r ^ 2) {x c : Fin 3 → ℝ}
    (h : Spec.InCuboid (fun _ => a) c x) : Spec.dist x c < r := by
  obtain ⟨⟨h1, h2⟩, ⟨h3, h4⟩, h5, h6⟩ := h
  apply dist_lt_of hr
  have := sq_le_of_abs h1 h2
  have := sq_le_of_abs h3 h4
  have := sq_le_of_abs h5 h6
  linarith

theorem comp_le_dist (x c : Fin 3 → ℝ) {r : ℝ} (hr : 0 < r) (h : Spec.dist x c < r) :
    Spec.InOpenCuboid (fun _ => r) c x := by
  have hd := dist_sq x c
  have h0 := dist_nonneg3 x c
  have h2 : Spec.dist x c ^ 2 < r ^ 2 := by nlinarith
  have key : ∀ y : ℝ, y ^ 2 < r ^ 2 → -r < y ∧ y < r := fun y hy => abs_lt.1 (abs_lt_of_sq_lt_sq hy hr.le)
  refine ⟨key _ ?_, key _ ?_, key _ ?_⟩
  · nlinarith [sq_nonneg (x 1 - c 1), sq_nonneg (x 2 - c 2)]
  · nlinarith [sq_nonneg (x 0 - c 0), sq_nonneg (x 2 - c 2)]
  · nlinarith [sq_nonneg (x 0 - c 0), sq_nonneg (x 1 - c 1)]

theorem cuboid_of_open {D : ℕ → ℝ} {c x : Fin 3 → ℝ} (h : Spec.InOpenCuboid D c x) : Spec.InCuboid D c x := by
  obtain ⟨⟨h1, h2⟩, ⟨h3, h4⟩, h5, h6⟩ := h
  exact ⟨⟨h1.le, h2.le⟩, ⟨h3.le, h4.le⟩, h5.le, h6.le⟩

theorem cube_mono {a b : ℝ} (hab : a < b) {c x : Fin 3 → ℝ} (h : Spec.InCuboid (fun _ => a) c x) :
    Spec.InOpenCuboid (fun _ => b) c x := by
  obtain ⟨⟨h1, h2⟩, ⟨h3, h4⟩, h5, h6⟩ := h
  exact ⟨⟨by linarith, by linarith⟩, ⟨by linarith, by linarith⟩, by linarith, by linarith⟩

/-- **C142.** arrange_12CubSph_into_empty_cube: twelve boxes fill the space between two cubes. -/
theorem C142_empty_cube {interp : ℕ → ℕ → (ℕ → ℕ → ℝ) → ℝ → ℝ → ℝ} (hI : Spec.KeepsConstants interp)
    {V : SetupVars} (hV : 1 ≤ V.isigma ∧ 1 ≤ V.isigdef) {g : SetupGrid} {b0 : ℕ} {c : Bool}
    (hg : b0 + 12 ≤ g.nboxes) (hb : ∀ i < 12, Spec.FreshBoxes c (g.box (b0 + i)))
    (xc : Fin 3 → ℝ) {din dmid dout : ℝ} (h0 : 0 < din) (hm : 0 < dmid) (h1 : 3 * din ^ 2 < dmid ^ 2)
    (h2 : dmid < dout) :
    ∃ g', arrange12 V g b0 xc din dmid dout = .ok (b0 + 12, g') ∧ g'.nboxes = g.nboxes ∧
      (∀ k, k < b0 ∨ b0 + 12 ≤ k → g'.box k = g.box k) ∧
      Spec.Tiles interp g'.box b0 12
        (fun x => Spec.InCuboid (fun _ => dout) xc x ∧ ¬Spec.InOpenCuboid (fun _ => din) xc x)
        (fun x => Spec.InOpenCuboid (fun _ => dout) xc x ∧ ¬Spec.InCuboid (fun _ => din) xc x) := by
  obtain ⟨g1, r1, n1, k1, p1⟩ := C142_convert hI hV (g := g) (b0 := b0) (c := c) (by omega)
    (fun i hi => hb i (by omega)) (type := .outerCubedSphere) false xc (fun _ => din) (fun _ => dmid) (by simp)
  obtain ⟨g2, r2, n2, k2, p2⟩ := C142_convert hI hV (g := g1) (b0 := b0 + 6) (c := c) (by omega)
    (fun i hi => by rw [k1 _ (by omega), Nat.add_assoc]; exact hb _ (by omega))
    (type := .innerCubedSphere) false xc (fun _ => dmid) (fun _ => dout) (by simp)
  refine ⟨g2, ?_, by rw [n2, n1], fun k hk => by rw [k2 k (by omega), k1 k (by omega)], ?_⟩
  · unfold arrange12
    rw [r1]
    simp only [bind, Res.bind]
    rw [r2]
  have t1 := tiles_congr (tiles_outer (fun _ _ => h0) p1 (fun x hx => cube_dist hm h1 hx)) (B' := g2.box)
    (fun i hi => k2 _ (by omega))
  have t2 := tiles_inner hm h2 p2
  have hlt : din < dmid := lt_of_pow_lt_pow_left₀ 2 hm.le (by nlinarith)
  refine tiles_append t1 t2 (fun x a b => ?_) (fun x => ⟨?_, ?_⟩) (fun x => ?_)
  · exact lt_asymm a.2 b.1
  · rintro ⟨a, b⟩
    by_cases h : Spec.dist x xc ≤ dmid
    · exact Or.inl ⟨b, h⟩
    · exact Or.inr ⟨(not_le.1 h).le, a⟩
  · rintro (⟨a, b⟩ | ⟨a, b⟩)
    · exact ⟨cuboid_of_open (comp_le_dist x xc (by linarith) (by linarith)), a⟩
    · refine ⟨b, fun ho => ?_⟩
      have := cube_dist hm h1 (cuboid_of_open ho)
      linarith
  · rintro (⟨a, b⟩ | ⟨a, b⟩)
    · exact ⟨comp_le_dist x xc (by linarith) (by linarith), a⟩
    · refine ⟨b, fun ho => ?_⟩
      have := cube_dist hm h1 ho
      linarith

/-- **C142.** arrange_1box12CubSph_into_full_cube: thirteen boxes fill a cube. -/
theorem C142_full_cube {interp : ℕ → ℕ → (ℕ → ℕ → ℝ) → ℝ → ℝ → ℝ} (hI : Spec.KeepsConstants interp)
    {V : SetupVars} (hV : 1 ≤ V.isigma ∧ 1 ≤ V.isigdef) {g : SetupGrid} {b0 : ℕ} {c : Bool}
    (hg : b0 + 13 ≤ g.nboxes) (hb : ∀ i < 13, Spec.FreshBoxes c (g.box (b0 + i)))
    (xc : Fin 3 → ℝ) {din dmid dout : ℝ} (h0 : 0 < din) (hm : 0 < dmid) (h1 : 3 * din ^ 2 < dmid ^ 2)
    (h2 : dmid < dout) :
    ∃ g', arrange13 V g b0 xc din dmid dout = .ok (b0 + 13, g') ∧ g'.nboxes = g.nboxes ∧
      (∀ k, k < b0 ∨ b0 + 13 ≤ k → g'.box k = g.box k) ∧
      Spec.Tiles interp g'.box b0 13 (Spec.InCuboid (fun _ => dout) xc) (Spec.InOpenCuboid (fun _ => dout) xc) := by
  obtain ⟨g1, hg1⟩ : ∃ g1, g1 = g.put b0 { g.box b0 with
      coords := .Cartesian, min := fun d => xc d - din, max := fun d => xc d + din } := ⟨_, rfl⟩
  have r1 : convert1box g b0 xc din = .ok (b0 + 1, g1) := by
    unfold convert1box
    rw [if_neg (by omega), if_neg (by omega), hg1]
  have k1 : ∀ k, k ≠ b0 → g1.box k = g.box k := fun k hk => by
    rw [hg1]
    exact aset_ne _ _ hk
  have hbox : g1.box b0 = { g.box b0 with
      coords := .Cartesian, min := fun d => xc d - din, max := fun d => xc d + din } := by
    rw [hg1]
    exact aset_self _ _ _
  have n1 : g1.nboxes = g.nboxes := by rw [hg1]; rfl
  obtain ⟨g2, r2, n2, k2, t2⟩ := C142_empty_cube hI hV (g := g1) (b0 := b0 + 1) (c := c) (by omega)
    (fun i hi => by rw [k1 _ (by omega), Nat.add_assoc]; exact hb _ (by omega)) xc h0 hm h1 h2
  refine ⟨g2, ?_, by rw [n2, n1], fun k hk => by rw [k2 k (by omega), k1 k (by omega)], ?_⟩
  · unfold arrange13
    rw [r1]
    simp only [bind, Res.bind]
    rw [r2]
  have t1 := tiles_congr (tiles_cube (interp := interp) (B := g1.box) (b0 := b0) (xc := xc) (a := din)
    (by rw [hbox]) (by rw [hbox]) (by rw [hbox])) (B' := g2.box) (fun i hi => k2 _ (by omega))
  have hlt : din < dout := (lt_of_pow_lt_pow_left₀ 2 hm.le (by nlinarith)).trans h2
  refine tiles_append t1 t2 (fun x a b => b.2 (cuboid_of_open a)) (fun x => ⟨?_, ?_⟩) (fun x => ?_)
  · intro a
    by_cases h : Spec.InOpenCuboid (fun _ => din) xc x
    · exact Or.inl (cuboid_of_open h)
    · exact Or.inr ⟨a, h⟩
  · rintro (a | a)
    · exact cuboid_of_open (cube_mono hlt a)
    · exact a.1
  · rintro (a | a)
    · exact cube_mono hlt (cuboid_of_open a)
    · exact a.1

/-- **C142.** two_full_cubes_touching_at_x0: 26 boxes fill two cubes that touch at `x = 0`. -/
theorem C142_two_cubes {interp : ℕ → ℕ → (ℕ → ℕ → ℝ) → ℝ → ℝ → ℝ} (hI : Spec.KeepsConstants interp)
    {V : SetupVars} (hV : 1 ≤ V.isigma ∧ 1 ≤ V.isigdef) {g : SetupGrid} {b0 : ℕ} {c : Bool}
    (hg : b0 + 26 ≤ g.nboxes) (hb : ∀ i < 26, Spec.FreshBoxes c (g.box (b0 + i)))
    {dc din1 dmid1 din2 dmid2 : ℝ} (h1 : 0 < din1 ∧ 0 < dmid1 ∧ 3 * din1 ^ 2 < dmid1 ^ 2 ∧ dmid1 < dc)
    (h2 : 0 < din2 ∧ 0 < dmid2 ∧ 3 * din2 ^ 2 < dmid2 ^ 2 ∧ dmid2 < dc) :
    ∃ g', twoFullCubes V g b0 dc din1 dmid1 din2 dmid2 = .ok (b0 + 26, g') ∧ g'.nboxes = g.nboxes ∧
      (∀ k, k < b0 ∨ b0 + 26 ≤ k → g'.box k = g.box k) ∧
      Spec.Tiles interp g'.box b0 26
        (fun x => (-(2 * dc) ≤ x 0 ∧ x 0 ≤ 2 * dc) ∧ (-dc ≤ x 1 ∧ x 1 ≤ dc) ∧ -dc ≤ x 2 ∧ x 2 ≤ dc)
        (fun x => (-(2 * dc) < x 0 ∧ x 0 < 2 * dc) ∧ (-dc < x 1 ∧ x 1 < dc) ∧ -dc < x 2 ∧ x 2 < dc) := by
  obtain ⟨a0, a1, a2, a3⟩ := h1
  obtain ⟨c0, c1, c2, c3⟩ := h2
  obtain ⟨g1, r1, n1, k1, t1⟩ := C142_full_cube hI hV (g := g) (b0 := b0) (c := c) (by omega)
    (fun i hi => hb i (by omega)) ![dc, 0, 0] a0 a1 a2 a3
  obtain ⟨g2, r2, n2, k2, t2⟩ := C142_full_cube hI hV (g := g1) (b0 := b0 + 13) (c := c) (by omega)
    (fun i hi => by rw [k1 _ (by omega), Nat.add_assoc]; exact hb _ (by omega)) ![-dc, 0, 0] c0 c1 c2 c3
  refine ⟨g2, ?_, by rw [n2, n1], fun k hk => by rw [k2 k (by omega), k1 k (by omega)], ?_⟩
  · unfold twoFullCubes
    rw [r1]
    simp only [bind, Res.bind]
    rw [r2]
  have t1' := tiles_congr t1 (B' := g2.box) (fun i hi => k2 _ (by omega))
  have hdc : 0 < dc := a1.trans a3
  refine tiles_append t1' t2 (fun x a b => ?_) (fun x => ?_) (fun x => ?_)
  · obtain ⟨⟨u1, -⟩, -⟩ := a
    obtain ⟨⟨-, u2⟩, -⟩ := b
    simp at u1 u2
    linarith
  · simp only [Spec.InCuboid, Matrix.cons_val_zero, Matrix.cons_val_one, Matrix.cons_val, sub_zero, sub_neg_eq_add]
    constructor
    · rintro ⟨⟨u1, u2⟩, h⟩
      rcases le_total 0 (x 0) with h0 | h0
      · exact Or.inl ⟨⟨by linarith, by linarith⟩, h⟩
      · exact Or.inr ⟨⟨by linarith, by linarith⟩, h⟩
    · rintro (⟨⟨u1, u2⟩, h⟩ | ⟨⟨u1, u2⟩, h⟩)
      · exact ⟨⟨by linarith, by linarith⟩, h⟩
      · exact ⟨⟨by linarith, by linarith⟩, h⟩
  · simp only [Spec.InOpenCuboid, Matrix.cons_val_zero, Matrix.cons_val_one, Matrix.cons_val, sub_zero,
      sub_neg_eq_add]
    rintro (⟨⟨u1, u2⟩, h⟩ | ⟨⟨u1, u2⟩, h⟩)
    · exact ⟨⟨by linarith, by linarith⟩, h⟩
    · exact ⟨⟨by linarith, by linarith⟩, h⟩

/-- **C142.** sphere_around_two_full_cubes_touching_at_x0: 32 boxes fill the ball of radius `r0`. -/
theorem C142_sphere {interp : ℕ → ℕ → (ℕ → ℕ → ℝ) → ℝ → ℝ → ℝ} (hI : Spec.KeepsConstants interp)
    {V : SetupVars} (hV : 1 ≤ V.isigma ∧ 1 ≤ V.isigdef) {g : SetupGrid} {b0 : ℕ} {c : Bool}
    (hg : b0 + 32 ≤ g.nboxes) (hb : ∀ i < 32, Spec.FreshBoxes c (g.box (b0 + i)))
    {dc din1 dmid1 din2 dmid2 r0 : ℝ} (h1 : 0 < din1 ∧ 0 < dmid1 ∧ 3 * din1 ^ 2 < dmid1 ^ 2 ∧ dmid1 < dc)
    (h2 : 0 < din2 ∧ 0 < dmid2 ∧ 3 * din2 ^ 2 < dmid2 ^ 2 ∧ dmid2 < dc) (hr : 0 < r0)
    (h3 : 6 * dc ^ 2 < r0 ^ 2) :
    ∃ g', sphereAroundTwo V g b0 dc din1 dmid1 din2 dmid2 r0 = .ok (b0 + 32, g') ∧ g'.nboxes = g.nboxes ∧
      (∀ k, k < b0 ∨ b0 + 32 ≤ k → g'.box k = g.box k) ∧
      Spec.Tiles interp g'.box b0 32 (fun x => Spec.dist x ![0, 0, 0] ≤ r0) (fun x => Spec.dist x ![0, 0, 0] < r0) := by
  obtain ⟨g1, s1, n1, k1, t1⟩ := C142_two_cubes hI hV (g := g) (b0 := b0) (c := c) (by omega)
    (fun i hi => hb i (by omega)) h1 h2
  obtain ⟨g2, s2, n2, k2, p2⟩ := C142_convert hI hV (g := g1) (b0 := b0 + 26) (c := c) (by omega)
    (fun i hi => by rw [k1 _ (by omega), Nat.add_assoc]; exact hb _ (by omega))
    (type := .outerCubedSphere) false ![0, 0, 0] (fun i => if i < 2 then 2 * dc else dc) (fun _ => r0) (by simp)
  refine ⟨g2, ?_, by rw [n2, n1], fun k hk => by rw [k2 k (by omega), k1 k (by omega)], ?_⟩
  · unfold sphereAroundTwo
    rw [s1]
    simp only [bind, Res.bind]
    rw [s2]
  have hdc : 0 < dc := h1.2.1.trans h1.2.2.2
  have hD : ∀ e < 6, 0 < (fun i : ℕ => if i < 2 then 2 * dc else dc) e := by
    intro e _
    change 0 < if e < 2 then 2 * dc else dc
    split <;> linarith
  have hcub : ∀ x, Spec.InCuboid (fun i => if i < 2 then 2 * dc else dc) ![0, 0, 0] x ↔
      (-(2 * dc) ≤ x 0 ∧ x 0 ≤ 2 * dc) ∧ (-dc ≤ x 1 ∧ x 1 ≤ dc) ∧ -dc ≤ x 2 ∧ x 2 ≤ dc := by
    intro x
    simp [Spec.InCuboid]
  have hopen : ∀ x, Spec.InOpenCuboid (fun i => if i < 2 then 2 * dc else dc) ![0, 0, 0] x ↔
      (-(2 * dc) < x 0 ∧ x 0 < 2 * dc) ∧ (-dc < x 1 ∧ x 1 < dc) ∧ -dc < x 2 ∧ x 2 < dc := by
    intro x
    simp [Spec.InOpenCuboid]
  have hin : ∀ x, Spec.InCuboid (fun i => if i < 2 then 2 * dc else dc) ![0, 0, 0] x →
      Spec.dist x ![0, 0, 0] < r0 := by
    intro x hx
    obtain ⟨⟨u1, u2⟩, ⟨u3, u4⟩, u5, u6⟩ := (hcub x).1 hx
    apply dist_lt_of hr
    simp only [Matrix.cons_val_zero, Matrix.cons_val_one, Matrix.cons_val, sub_zero]
    have := sq_le_of_abs u1 u2
    have := sq_le_of_abs u3 u4
    have := sq_le_of_abs u5 u6
    nlinarith
  have t1' := tiles_congr t1 (B' := g2.box) (fun i hi => k2 _ (by omega))
  have t2 := tiles_outer hD p2 hin
  refine tiles_append t1' t2 (fun x a b => b.1 (cuboid_of_open ((hopen x).2 a))) (fun x => ⟨?_, ?_⟩) (fun x => ?_)
  · intro a
    by_cases h : Spec.InOpenCuboid (fun i => if i < 2 then 2 * dc else dc) ![0, 0, 0] x
    · exact Or.inl ((hcub x).1 (cuboid_of_open h))
    · exact Or.inr ⟨h, a⟩
  · rintro (a | a)
    · exact (hin x ((hcub x).2 a)).le
    · exact a.2
  · rintro (a | a)
    · exact hin x (cuboid_of_open ((hopen x).2 a))
    · exact a.2

/-- **C142.** two_spheres_around_two_full_cubes: 38 boxes fill the ball of radius `r1` without gaps, and no
inner point of one box is an inner point of another. -/
theorem C142_two_spheres {interp : ℕ → ℕ → (ℕ → ℕ → ℝ) → ℝ → ℝ → ℝ} (hI : Spec.KeepsConstants interp)
    {V : SetupVars} (hV : 1 ≤ V.isigma ∧ 1 ≤ V.isigdef) {g : SetupGrid} {b0 : ℕ} {c : Bool}
    (hg : b0 + 38 ≤ g.nboxes) (hb : ∀ i < 38, Spec.FreshBoxes c (g.box (b0 + i)))
    {dc din1 dmid1 din2 dmid2 r0 r1 : ℝ} (h1 : 0 < din1 ∧ 0 < dmid1 ∧ 3 * din1 ^ 2 < dmid1 ^ 2 ∧ dmid1 < dc)
    (h2 : 0 < din2 ∧ 0 < dmid2 ∧ 3 * din2 ^ 2 < dmid2 ^ 2 ∧ dmid2 < dc) (hr : 0 < r0)
    (h3 : 6 * dc ^ 2 < r0 ^ 2) (h4 : r0 < r1) :
    ∃ g', twoSpheresAroundTwo V g b0 dc din1 dmid1 din2 dmid2 r0 r1 = .ok (b0 + 38, g') ∧
      g'.nboxes = g.nboxes ∧ (∀ k, k < b0 ∨ b0 + 38 ≤ k → g'.box k = g.box k) ∧
      Spec.Tiles interp g'.box b0 38 (fun x => Spec.dist x ![0, 0, 0] ≤ r1) (fun x => Spec.dist x ![0, 0, 0] < r1) := by
  obtain ⟨g1, s1, n1, k1, t1⟩ := C142_sphere hI hV (g := g) (b0 := b0) (c := c) (by omega)
    (fun i hi => hb i (by omega)) h1 h2 hr h3
  obtain ⟨g2, s2, n2, k2, p2⟩ := C142_convert hI hV (g := g1) (b0 := b0 + 32) (c := c) (by omega)
    (fun i hi => by rw [k1 _ (by omega), Nat.add_assoc]; exact hb _ (by omega))
    (type := .CubedShell) true ![0, 0, 0] (fun _ => r0) (fun _ => r1) (by simp)
  refine ⟨g2, ?_, by rw [n2, n1], fun k hk => by rw [k2 k (by omega), k1 k (by omega)], ?_⟩
  · unfold twoSpheresAroundTwo
    rw [s1]
    simp only [bind, Res.bind]
    rw [s2]
  have t1' := tiles_congr t1 (B' := g2.box) (fun i hi => k2 _ (by omega))
  have t2 := tiles_shell hr h4 p2
  refine tiles_append t1' t2 (fun x a b => lt_asymm a b.1) (fun x => ⟨?_, ?_⟩) (fun x => ?_)
  · intro a
    rcases le_total (Spec.dist x ![0, 0, 0]) r0 with h | h
    · exact Or.inl h
    · exact Or.inr ⟨h, a⟩
  · rintro (a | a)
    · exact a.trans h4.le
    · exact a.2
  · rintro (a | a)
    · exact a.trans h4
    · exact a.2

/-- The pointer to the box is read before the number of boxes is tested: for `b0 = nboxes` the message
"nboxes is too small" comes too late. -/
theorem C142_too_few_counterexample (g : SetupGrid) (xc : Fin 3 → ℝ) (dout : ℝ) :
    convert1box g g.nboxes xc dout = .ub := by
  simp [convert1box]

/-- With too few boxes convert_6boxes_to_CubedSphere converts those that exist and returns `nboxes`. -/
theorem C142_few_boxes (V : SetupVars) (g : SetupGrid) (b0 : ℕ) (hg : b0 ≤ g.nboxes) (h6 : g.nboxes < b0 + 6)
    {type : PatchType} (ht : type ≠ .PyramidFrustum) (stretch : Bool) (xc : Fin 3 → ℝ) (Din Dout : ℕ → ℝ) :
    ∃ g', convert6boxes V g b0 type stretch xc Din Dout = .ok (g.nboxes, g') ∧
      ∀ k, k < b0 ∨ g.nboxes ≤ k → g'.box k = g.box k := by
  have step : ∀ fuel i (t : SetupGrid), fuel + i = 6 → t.nboxes = g.nboxes → b0 + i ≤ g.nboxes →
      (∀ k, k < b0 ∨ g.nboxes ≤ k → t.box k = g.box k) →
      ∃ g', convertLoop V b0 type stretch xc Din Dout fuel i t = .ok (g.nboxes, g') ∧
        ∀ k, k < b0 ∨ g.nboxes ≤ k → g'.box k = g.box k := by
    intro fuel
    induction fuel with
    | zero => intro i t h1 _ h3 _; omega
    | succ n ih =>
      intro i t h1 h2 h3 h4
      rw [convertLoop]
      by_cases h : b0 + i ≥ t.nboxes
      · rw [if_pos h]
        exact ⟨t, by rw [show b0 + i = g.nboxes by omega], h4⟩
      · rw [if_neg h]
        obtain ⟨m, hm⟩ := setAB_ok (i := i) (by omega) Din
        rw [convertBox_eq V _ type stretch xc Din Dout hm ht]
        simp only [bind, Res.bind]
        rw [if_neg (by rintro ⟨-, -, h5⟩; change i = 5 at h5; omega)]
        refine ih (i + 1) _ (by omega) h2 (by omega) (fun k hk => ?_)
        exact (aset_ne _ _ (by omega)).trans (h4 k hk)
  exact step 6 0 g rfl rfl (by omega) (fun _ _ => rfl)

/-- Example: the point (1/2, 1/10, 0) belongs to domain 1 of six patches around a cube of half width 1/4. -/
example : Spec.Cone (fun _ => 1 / 4) ![0, 0, 0] ![1 / 2, 1 / 10, 0] 1 ∧
    ¬Spec.InOpenCuboid (fun _ => 1 / 4) ![0, 0, 0] ![1 / 2, 1 / 10, 0] := by
  refine ⟨⟨?_, ?_⟩, ?_⟩
  · norm_num [Spec.face, Spec.axis, Spec.side]
  · rw [forall_six]
    simp only [Spec.face, Spec.axis, Spec.side, Matrix.cons_val_zero, Matrix.cons_val_one, Matrix.cons_val]
    norm_num
  · norm_num [Spec.InOpenCuboid]

/-- Example: for two cubes of half width 1 side by side, domain 0 has `A` between -1/2 and 1/2 and domain 2
has `A` between -2 and 2. -/
example : setABminmax 0 (fun i => if i < 2 then 2 else 1) = .ok (-1 / 2, 1 / 2, -1 / 2, 1 / 2) ∧
    setABminmax 2 (fun i => if i < 2 then 2 else 1) = .ok (-2, 2, -1, 1) := by
  constructor <;> norm_num [setABminmax]

/-- Example: the hypotheses can be met.  Two cubes of half width 1 in spheres of radius 3 and 10, boxes with
5 points in each direction: the point (1, 0, 7) belongs to one of the 38 boxes. -/
example (g : SetupGrid) (hg : g = ⟨38, fun _ => ⟨.Cartesian, 0, 0, 0, 0, 0, .CubedShell, 0, 0, ⟨5, 5, 5⟩, true, 0, 0⟩⟩) :
    ∃ g', twoSpheresAroundTwo ⟨8, 9⟩ g 0 1 (1 / 4) (1 / 2) (1 / 5) (1 / 2) 3 10 = .ok (38, g') ∧
      ∃ i < 38, Spec.Points (fun _ _ f _ _ => f 0 0) (g'.box (0 + i)) ![1, 0, 7] := by
  obtain ⟨g', h, -, -, t, -⟩ := C142_two_spheres (interp := fun _ _ f _ _ => f 0 0) (V := ⟨8, 9⟩) (g := g) (b0 := 0)
    (c := true) (dc := 1) (din1 := 1 / 4) (dmid1 := 1 / 2) (din2 := 1 / 5) (dmid2 := 1 / 2) (r0 := 3) (r1 := 10)
    (fun n2 n3 f c A B h2 h3 h => h 0 h2 0 h3) (by norm_num) (by rw [hg])
    (fun i _ => by rw [hg]; exact ⟨rfl, by norm_num, by norm_num, by norm_num, fun _ => rfl, fun _ => rfl⟩)
    (by norm_num) (by norm_num) (by norm_num) (by norm_num) (by norm_num)
  refine ⟨g', h, (t _).2 (le_of_lt (dist_lt_of (by norm_num) ?_))⟩
  simp only [Matrix.cons_val_zero, Matrix.cons_val_one, Matrix.cons_val]
  norm_num

end Sgrid

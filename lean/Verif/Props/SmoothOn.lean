import Verif.Props.SmoothFields

/-!
# Smooth functions on an open set

The functions on an open subset of `ℝ³` with all partial derivatives are an instance of `Spec.Calculus`.
-/

namespace Sgrid
open scoped ContDiff

/-- The smooth functions on a set. -/
def Spec.smoothOn (U : Set (Fin 3 → ℝ)) : Subring (U → ℝ) where
  carrier := {f | ∃ F : (Fin 3 → ℝ) → ℝ, ContDiffOn ℝ ∞ F U ∧ ∀ x : U, f x = F x}
  mul_mem' := by
    intro a b ha hb
    rw [Set.mem_ofPred_eq] at *
    obtain ⟨F, hF, h1⟩ := ha
    obtain ⟨G, hG, h2⟩ := hb
    exact ⟨fun x => F x * G x, hF.mul hG, fun x => by rw [Pi.mul_apply, h1, h2]⟩
  one_mem' := by
    rw [Set.mem_ofPred_eq]
    exact ⟨fun _ => 1, contDiffOn_const, fun _ => rfl⟩
  add_mem' := by
    intro a b ha hb
    rw [Set.mem_ofPred_eq] at *
    obtain ⟨F, hF, h1⟩ := ha
    obtain ⟨G, hG, h2⟩ := hb
    exact ⟨fun x => F x + G x, hF.add hG, fun x => by rw [Pi.add_apply, h1, h2]⟩
  zero_mem' := by
    rw [Set.mem_ofPred_eq]
    exact ⟨fun _ => 0, contDiffOn_const, fun _ => rfl⟩
  neg_mem' := by
    intro a ha
    rw [Set.mem_ofPred_eq] at *
    obtain ⟨F, hF, h1⟩ := ha
    exact ⟨fun x => -F x, hF.neg, fun x => by rw [Pi.neg_apply, h1]⟩

variable {U : Set (Fin 3 → ℝ)}

theorem mem_smoothOn {f : U → ℝ} :
    f ∈ Spec.smoothOn U ↔ ∃ F : (Fin 3 → ℝ) → ℝ, ContDiffOn ℝ ∞ F U ∧ ∀ x : U, f x = F x := by
  show f ∈ {f | ∃ F : (Fin 3 → ℝ) → ℝ, ContDiffOn ℝ ∞ F U ∧ ∀ x : U, f x = F x} ↔ _
  rw [Set.mem_ofPred_eq]

/-- A function that is smooth on the set, restricted to the set. -/
def Spec.restrict (F : (Fin 3 → ℝ) → ℝ) (h : ContDiffOn ℝ ∞ F U) : Spec.smoothOn U :=
  ⟨fun x => F x, mem_smoothOn.2 ⟨F, h, fun _ => rfl⟩⟩

open Classical in
/-- The extension by zero. -/
noncomputable def Spec.extend (f : U → ℝ) (x : Fin 3 → ℝ) : ℝ := if h : x ∈ U then f ⟨x, h⟩ else 0

theorem extend_eq (f : U → ℝ) (x : U) : Spec.extend f x = f x := by
  unfold Spec.extend
  rw [dif_pos x.2]

theorem extend_smooth (f : Spec.smoothOn U) : ContDiffOn ℝ ∞ (Spec.extend f.1) U := by
  obtain ⟨F, hF, h⟩ := mem_smoothOn.1 f.2
  exact hF.congr fun x hx => (extend_eq f.1 ⟨x, hx⟩).trans (h ⟨x, hx⟩)

theorem extend_pd (hU : IsOpen U) (f : U → ℝ) (F : (Fin 3 → ℝ) → ℝ) (h : ∀ x : U, f x = F x) (i : Fin 3) (x : U) :
    Spec.pd i (Spec.extend f) x = Spec.pd i F x := by
  unfold Spec.pd
  rw [Filter.EventuallyEq.fderiv_eq]
  filter_upwards [hU.mem_nhds x.2] with y hy
  exact (extend_eq f ⟨y, hy⟩).trans (h ⟨y, hy⟩)

theorem pd_smoothOn (hU : IsOpen U) {F : (Fin 3 → ℝ) → ℝ} (h : ContDiffOn ℝ ∞ F U) (i : Fin 3) : ContDiffOn ℝ ∞ (Spec.pd i F) U :=
  (h.fderiv_of_isOpen hU (by simp)).clm_apply contDiffOn_const

theorem pd_comm_at {f : (Fin 3 → ℝ) → ℝ} {x : Fin 3 → ℝ} (h : ContDiffAt ℝ ∞ f x) (i j : Fin 3) :
    Spec.pd i (Spec.pd j f) x = Spec.pd j (Spec.pd i f) x := by
  have h1 : DifferentiableAt ℝ (fderiv ℝ f) x := (h.fderiv_right (m := ∞) (by simp)).differentiableAt (by simp)
  have e : ∀ i j : Fin 3, Spec.pd i (Spec.pd j f) x = fderiv ℝ (fderiv ℝ f) x (Pi.single i 1) (Pi.single j 1) := by
    intro i j
    unfold Spec.pd
    rw [fderiv_clm_apply h1 (differentiableAt_const _)]
    simp
  rw [e, e]
  exact h.isSymmSndFDerivAt (by
    rw [minSmoothness_of_isRCLikeNormedField]
    exact WithTop.coe_le_coe.2 (le_top : (2 : ℕ∞) ≤ ⊤)) _ _

/-- The calculus of smooth functions on an open set. -/
noncomputable def Spec.calculusOn (hU : IsOpen U) : Spec.Calculus (Spec.smoothOn U) where
  d := fun i f => Spec.restrict (Spec.pd i (Spec.extend f.1)) (pd_smoothOn hU (extend_smooth f) i)
  add := fun i f g => by
    refine Subtype.ext (funext fun x => ?_)
    have hf := ((extend_smooth f).contDiffAt (hU.mem_nhds x.2)).differentiableAt (by simp)
    have hg := ((extend_smooth g).contDiffAt (hU.mem_nhds x.2)).differentiableAt (by simp)
    show Spec.pd i (Spec.extend (f + g).1) x = Spec.pd i (Spec.extend f.1) x + Spec.pd i (Spec.extend g.1) x
    rw [extend_pd hU (f + g).1 (Spec.extend f.1 + Spec.extend g.1) (fun y => by
      rw [Pi.add_apply, extend_eq, extend_eq]
      rfl)]
    unfold Spec.pd
    rw [fderiv_add hf hg]
    rfl
  mul := fun i f g => by
    refine Subtype.ext (funext fun x => ?_)
    have hf := ((extend_smooth f).contDiffAt (hU.mem_nhds x.2)).differentiableAt (by simp)
    have hg := ((extend_smooth g).contDiffAt (hU.mem_nhds x.2)).differentiableAt (by simp)
    show Spec.pd i (Spec.extend (f * g).1) x = Spec.pd i (Spec.extend f.1) x * g.1 x + f.1 x * Spec.pd i (Spec.extend g.1) x
    rw [extend_pd hU (f * g).1 (Spec.extend f.1 * Spec.extend g.1) (fun y => by
      rw [Pi.mul_apply, extend_eq, extend_eq]
      rfl), ← extend_eq f.1, ← extend_eq g.1]
    unfold Spec.pd
    rw [fderiv_mul hf hg]
    simp only [add_apply, smul_apply, smul_eq_mul]
    ring
  comm := fun i j f => by
    refine Subtype.ext (funext fun x => ?_)
    have hf := (extend_smooth f).contDiffAt (hU.mem_nhds x.2)
    have e : ∀ i j, Spec.pd i (Spec.extend fun x : U => Spec.pd j (Spec.extend f.1) x) x = Spec.pd i (Spec.pd j (Spec.extend f.1)) x :=
      fun i j => extend_pd hU _ _ (fun _ => rfl) i x
    exact (e i j).trans ((pd_comm_at hf i j).trans (e j i).symm)

/-- The derivatives are the partial derivatives. -/
theorem calculusOn_d (hU : IsOpen U) (F : (Fin 3 → ℝ) → ℝ) (h : ContDiffOn ℝ ∞ F U) (i : Fin 3) (x : U) :
    ((Spec.calculusOn hU).d i (Spec.restrict F h)).1 x = Spec.pd i F x :=
  extend_pd hU _ _ (fun _ => rfl) i x

/-- The value at a point. -/
def Spec.valueAt (x : U) : Spec.smoothOn U →+* ℝ where
  toFun := fun f => f.1 x
  map_one' := rfl
  map_mul' := fun _ _ => rfl
  map_zero' := rfl
  map_add' := fun _ _ => rfl

theorem smoothOn_ext {f g : Spec.smoothOn U} (h : ∀ x, Spec.valueAt x f = Spec.valueAt x g) : f = g :=
  Subtype.ext (funext h)

theorem valueAt_restrict (F : (Fin 3 → ℝ) → ℝ) (h : ContDiffOn ℝ ∞ F U) (x : U) : Spec.valueAt x (Spec.restrict F h) = F x := rfl

theorem valueAt_half (x : U) [Invertible (2 : Spec.smoothOn U)] : Spec.valueAt x ⅟2 = 1 / 2 := by
  have h := congrArg (Spec.valueAt x) (invOf_mul_self (2 : Spec.smoothOn U))
  rw [map_mul, map_ofNat, map_one] at h
  linarith

noncomputable instance : Invertible (2 : Spec.smoothOn U) where
  invOf := Spec.restrict (fun _ => 1 / 2) contDiffOn_const
  invOf_mul_self := by
    refine Subtype.ext (funext fun x => ?_)
    rw [show (2 : Spec.smoothOn U) = 1 + 1 by norm_num]
    show (1 / 2 : ℝ) * (1 + 1) = 1
    norm_num
  mul_invOf_self := by
    refine Subtype.ext (funext fun x => ?_)
    rw [show (2 : Spec.smoothOn U) = 1 + 1 by norm_num]
    show (1 + 1) * (1 / 2 : ℝ) = 1
    norm_num

end Sgrid

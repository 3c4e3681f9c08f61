import Verif.Model.AnsorgFull
import Verif.Props.AnsorgNS
import Verif.Props.AnsorgXR
import Verif.Props.TransfDerivs

/-!
Property C152: the composed Ansorg coordinates return the derivatives of the Cartesian coordinates, and their
inverse returns the derivatives of the box coordinates.
-/

namespace Sgrid

open Real Filter Topology

namespace Spec

/-- A function that returns tables computes the point together with its first and second derivatives at all
points in `P`. -/
def Differentiates (T : ℝ → ℝ → ℝ → AnsTab) (P : ℝ → ℝ → ℝ → Prop) : Prop :=
  Jacobian (fun A B C => (T A B C).x) (fun A B C => (T A B C).dx) P ∧
  Hessian (fun A B C => (T A B C).dx) (fun A B C => (T A B C).ddx) P

/-- The points of a domain where the code takes the coordinates as they are: off the axis, and in the two inner
domains away from the end at A = 1. -/
def ansRegular (Sp Sm : AnsSig) (domain : Int) (A B phi : ℝ) : Prop :=
  AnsorgPoint (if domain ≤ 1 then Sp else Sm) A B phi ∧ B ≠ 1 ∧ (domain = 0 ∨ domain = 3 → A ≠ 1)

end Spec

theorem arr2_eq (J : Fin 3 → Fin 3 → ℝ) : arr2 J = Spec.mat J := rfl

theorem pairIx_eq (p : Pair) : pairIx p = Spec.ofPair p := by cases p <;> rfl

/-- Tables that agree near a path have the same derivatives. -/
theorem Spec.Differentiates.congr {T U : ℝ → ℝ → ℝ → AnsTab} {P Q : ℝ → ℝ → ℝ → Prop}
    (h : Spec.Differentiates U Q) (hPQ : ∀ A B C, P A B C → Q A B C)
    (he : ∀ X Y Z t V, Spec.Moves X Y Z t V → P (X t) (Y t) (Z t) →
      ∀ᶠ s in 𝓝 t, T (X s) (Y s) (Z s) = U (X s) (Y s) (Z s)) : Spec.Differentiates T P := by
  refine ⟨fun X Y Z t V hm hP i => ?_, fun X Y Z t V hm hP i k => ?_⟩
  · have e := he X Y Z t V hm hP
    have := h.1 X Y Z t V hm (hPQ _ _ _ hP) i
    dsimp only at this ⊢
    rw [← e.self_of_nhds] at this
    exact this.congr_of_eventuallyEq (e.mono fun s hs => by simp only [hs])
  · have e := he X Y Z t V hm hP
    have := h.2 X Y Z t V hm (hPQ _ _ _ hP) i k
    dsimp only at this ⊢
    rw [← e.self_of_nhds] at this
    exact this.congr_of_eventuallyEq (e.mono fun s hs => by simp only [hs])

theorem ansB_same {eps B : ℝ} (h0 : B ≠ 0) (h1 : B ≠ 1) : ansB eps B = B := by simp [ansB, h0, h1]

theorem ansA_same {eps A : ℝ} (h1 : A ≠ 1) : ansA eps A = A := by simp [ansA, h1]

/-- The tables of the first step, without the changes on the axis. -/
theorem ansXR_spec (eps : ℝ) (Sp Sm : AnsSig) (hp : Spec.RoundEnd Sp) (hm : Spec.RoundEnd Sm) {domain : Int}
    (h0 : 0 ≤ domain) (h3 : domain ≤ 3) :
    ∃ T : ℝ → ℝ → ℝ → AnsTab, (∀ A B phi, ansXR eps Sp Sm domain A B phi = .ok (T A B phi)) ∧
      Spec.Differentiates T (Spec.ansRegular Sp Sm domain) := by
  have hd : domain = 0 ∨ domain = 1 ∨ domain = 2 ∨ domain = 3 := by omega
  have nb : ∀ {f : ℝ → ℝ} {t v c : ℝ}, HasDerivAt f v t → f t ≠ c → ∀ᶠ s in 𝓝 t, f s ≠ c :=
    fun h hne => h.continuousAt.eventually_ne hne
  rcases hd with rfl | rfl | rfl | rfl
  · refine ⟨fun A B phi => ⟨ns0X Sp (ansA eps A) (ansB eps B) phi, ns0DX Sp (ansA eps A) (ansB eps B) phi,
      ns0DDX Sp (ansA eps A) (ansB eps B) phi⟩, fun A B phi => by simp [ansXR], ?_⟩
    refine Spec.Differentiates.congr (U := fun A B phi => ⟨ns0X Sp A B phi, ns0DX Sp A B phi, ns0DDX Sp A B phi⟩)
      (Q := Spec.AnsorgPoint Sp) ⟨C151_ns0_first Sp hp, C151_ns0_second Sp hp⟩
      (fun A B C h => by simpa using h.1) ?_
    intro X Y Z t V hmv h
    filter_upwards [nb hmv.1 (h.2.2 (.inl rfl)), nb hmv.2.1 h.2.1, nb hmv.2.1 h.1.2.1.ne'] with s a b c
    rw [ansA_same a, ansB_same c b]
  · refine ⟨fun A B phi => ⟨ns1X Sp A (ansB eps B) phi, ns1DX Sp A (ansB eps B) phi,
      ns1DDX Sp A (ansB eps B) phi⟩, fun A B phi => by simp [ansXR], ?_⟩
    refine Spec.Differentiates.congr (U := fun A B phi => ⟨ns1X Sp A B phi, ns1DX Sp A B phi, ns1DDX Sp A B phi⟩)
      (Q := Spec.AnsorgPoint Sp) ⟨C151_ns1_first Sp hp, C151_ns1_second Sp hp⟩
      (fun A B C h => by simpa using h.1) ?_
    intro X Y Z t V hmv h
    filter_upwards [nb hmv.2.1 h.2.1, nb hmv.2.1 h.1.2.1.ne'] with s b c
    rw [ansB_same c b]
  · refine ⟨fun A B phi => ⟨ns1X Sm A (ansB eps B) phi, ns1DX Sm A (ansB eps B) phi,
      ns1DDX Sm A (ansB eps B) phi⟩, fun A B phi => by simp [ansXR], ?_⟩
    refine Spec.Differentiates.congr (U := fun A B phi => ⟨ns1X Sm A B phi, ns1DX Sm A B phi, ns1DDX Sm A B phi⟩)
      (Q := Spec.AnsorgPoint Sm) ⟨C151_ns1_first Sm hm, C151_ns1_second Sm hm⟩
      (fun A B C h => by simpa using h.1) ?_
    intro X Y Z t V hmv h
    filter_upwards [nb hmv.2.1 h.2.1, nb hmv.2.1 h.1.2.1.ne'] with s b c
    rw [ansB_same c b]
  · refine ⟨fun A B phi => ⟨ns3X Sm (ansA eps A) (ansB eps B) phi, ns3DX Sm (ansA eps A) (ansB eps B) phi,
      ns3DDX Sm (ansA eps A) (ansB eps B) phi⟩, fun A B phi => by simp [ansXR], ?_⟩
    refine Spec.Differentiates.congr (U := fun A B phi => ⟨ns3X Sm A B phi, ns3DX Sm A B phi, ns3DDX Sm A B phi⟩)
      (Q := Spec.AnsorgPoint Sm) ⟨C151_ns3_first Sm hm, C151_ns3_second Sm hm⟩
      (fun A B C h => by simpa using h.1) ?_
    intro X Y Z t V hmv h
    filter_upwards [nb hmv.1 (h.2.2 (.inr rfl)), nb hmv.2.1 h.2.1, nb hmv.2.1 h.1.2.1.ne'] with s a b c
    rw [ansA_same a, ansB_same c b]

theorem secondComp_arr3 (a b : Nat → Nat → ℝ) (G H : Fin 3 → Pair → ℝ) (i : Nat) (p : Pair) :
    secondComp a b (arr3 G) (arr3 H) i (pairIx p).1 (pairIx p).2 =
      secondComp a b (Spec.mat2 G) (Spec.mat2 H) i (Spec.ofPair p).1 (Spec.ofPair p).2 := by
  cases p <;> simp only [pairIx, Spec.ofPair] <;> rfl

theorem secondInverse_arr3 (a : Nat → Nat → ℝ) (H : Fin 3 → Pair → ℝ) (i : Nat) (p : Pair) :
    secondInverse a (arr3 H) i (pairIx p).1 (pairIx p).2 =
      secondInverse a (Spec.mat2 H) i (Spec.ofPair p).1 (Spec.ofPair p).2 := by
  cases p <;> simp only [pairIx, Spec.ofPair] <;> rfl

/-- The composition of two steps that come with their derivatives does so as well. -/
theorem ansComp_spec {T U : ℝ → ℝ → ℝ → AnsTab} {P Q : ℝ → ℝ → ℝ → Prop} (hU : Spec.Differentiates U P)
    (hT : Spec.Differentiates T Q) (hPQ : ∀ A B C, P A B C → Q ((U A B C).x 0) ((U A B C).x 1) ((U A B C).x 2)) :
    Spec.Differentiates
      (fun A B C => ansComp (T ((U A B C).x 0) ((U A B C).x 1) ((U A B C).x 2)) (U A B C)) P := by
  refine ⟨fun X Y Z t V hm hP i => ?_, fun X Y Z t V hm hP i k => ?_⟩
  · exact C69_comp_first (x := fun a b c => (T a b c).x) (U := fun a b c => (U a b c).x)
      (Jx := fun a b c => (T a b c).dx) (JU := fun a b c => (U a b c).dx) (P := P) (Q := Q)
      (fun i X Y Z t V hm hP => hU.1 X Y Z t V hm hP i) (fun i X Y Z t V hm hP => hT.1 X Y Z t V hm hP i) hPQ i
      X Y Z t V hm hP
  · have := C69_comp_second (U := fun a b c => (U a b c).x)
      (Jx := fun a b c => (T a b c).dx) (JU := fun a b c => (U a b c).dx) (Hx := fun a b c => (T a b c).ddx)
      (HU := fun a b c => (U a b c).ddx) (P := P) (Q := Q)
      (fun i X Y Z t V hm hP => hU.1 X Y Z t V hm hP i) (fun i k X Y Z t V hm hP => hU.2 X Y Z t V hm hP i k)
      (fun i k X Y Z t V hm hP => hT.2 X Y Z t V hm hP i k) hPQ i k X Y Z t V hm hP
    simp only [← secondComp_arr3] at this
    exact this

theorem xr_spec (b e : ℝ) : Spec.Differentiates (fun X R p => ⟨xrX b e X R p, xrDX b e X R p, xrDDX b e X R p⟩)
    (fun X R _ => X ≠ 0 ∨ R ≠ 0) := ⟨C150_xr_first b e, C150_xr_second b e⟩

/-- **C152.** In each of the four domains the function returns a point with the tables of its first and second
derivatives.  `XR` is the point of the first step, which must not be the origin. -/
theorem C152_forward (eps b : ℝ) (Sp Sm : AnsSig) (hp : Spec.RoundEnd Sp) (hm : Spec.RoundEnd Sm) {domain : Int}
    (h0 : 0 ≤ domain) (h3 : domain ≤ 3) :
    ∃ XR T : ℝ → ℝ → ℝ → AnsTab, (∀ A B phi, ansXR eps Sp Sm domain A B phi = .ok (XR A B phi)) ∧
      (∀ A B phi, ansABphi eps b Sp Sm domain A B phi = .ok (T A B phi)) ∧
      (∀ A B phi, (T A B phi).x = xrX b eps ((XR A B phi).x 0) ((XR A B phi).x 1) ((XR A B phi).x 2)) ∧
      Spec.Differentiates T (fun A B phi => Spec.ansRegular Sp Sm domain A B phi ∧
        ((XR A B phi).x 0 ≠ 0 ∨ (XR A B phi).x 1 ≠ 0)) := by
  obtain ⟨U, hU, hD⟩ := ansXR_spec eps Sp Sm hp hm h0 h3
  refine ⟨U, _, hU, fun A B phi => by rw [ansABphi, hU]; rfl, fun A B phi => rfl, ?_⟩
  exact ansComp_spec (hD.congr (fun A B C h => h.1) fun _ _ _ _ _ _ _ => .of_forall fun _ => rfl) (xr_spec b eps)
    fun A B C h => h.2

/-- **C152.** For any other number of the domain the program stops. -/
theorem C152_domain (eps b : ℝ) (Sp Sm : AnsSig) {domain : Int} (h : domain < 0 ∨ 3 < domain) (A B phi : ℝ) :
    ansABphi eps b Sp Sm domain A B phi = .abort ∧ ansAfBfPhi eps b Sp Sm domain A B phi = .abort ∧
      ansInv eps b Sp Sm domain A B phi = .abort := by
  have e : ∀ A B phi, ansABphi eps b Sp Sm domain A B phi = .abort := by
    intro A B phi
    have h0 : domain ≠ 0 := by omega
    have h1 : domain ≠ 1 := by omega
    have h2 : domain ≠ 2 := by omega
    have h3 : domain ≠ 3 := by omega
    simp [ansABphi, ansXR, h0, h1, h2, h3, Res.bind]
  refine ⟨e _ _ _, ?_, ?_⟩ <;> simp only [ansAfBfPhi, ansInv, e, Res.bind]

/-- **C152.** With the rescaling of B in front, the returned tables are again the derivatives. -/
theorem C152_rescaled (eps b : ℝ) (Sp Sm : AnsSig) (hp : Spec.RoundEnd Sp) (hm : Spec.RoundEnd Sm) {domain : Int}
    (h0 : 0 ≤ domain) (h3 : domain ≤ 3) :
    ∃ XR T : ℝ → ℝ → ℝ → AnsTab, (∀ A B phi, ansXR eps Sp Sm domain A B phi = .ok (XR A B phi)) ∧
      (∀ Af Bf Phi, ansAfBfPhi eps b Sp Sm domain Af Bf Phi = .ok (T Af Bf Phi)) ∧
      (∀ Af Bf Phi, (ansABphi eps b Sp Sm domain Af (bfX Af Bf Phi 1) Phi).bind (fun u => .ok u.x) =
        .ok (T Af Bf Phi).x) ∧
      Spec.Differentiates T (fun Af Bf Phi => Spec.ansRegular Sp Sm domain Af (bfX Af Bf Phi 1) Phi ∧
        ((XR Af (bfX Af Bf Phi 1) Phi).x 0 ≠ 0 ∨ (XR Af (bfX Af Bf Phi 1) Phi).x 1 ≠ 0)) := by
  obtain ⟨U, T, hU, hT, -, hD⟩ := C152_forward eps b Sp Sm hp hm h0 h3
  refine ⟨U, _, hU, fun A B phi => by rw [ansAfBfPhi]; dsimp only; rw [hT]; rfl, fun A B phi => ?_, ?_⟩
  · rw [hT]
    rfl
  · refine ansComp_spec (U := fun A B C => ⟨bfX A B C, bfDX A B C, bfDDX A B C⟩) ?_ hD fun A B C h => h
    exact ⟨fun X Y Z t V hm _ => C150_bfunc_first X Y Z t V hm trivial,
      fun X Y Z t V hm _ => C150_bfunc_second X Y Z t V hm trivial⟩

/-- **C152.** The inverted tables are the first and second derivatives of A, B, phi with respect to x, y, z,
wherever the determinant of the derivatives of x, y, z is not zero. -/
theorem C152_inverse (eps b : ℝ) (Sp Sm : AnsSig) (hp : Spec.RoundEnd Sp) (hm : Spec.RoundEnd Sm) {domain : Int}
    (h0 : 0 ≤ domain) (h3 : domain ≤ 3) :
    ∃ XR T I : ℝ → ℝ → ℝ → AnsTab, (∀ A B phi, ansXR eps Sp Sm domain A B phi = .ok (XR A B phi)) ∧
      (∀ A B phi, ansABphi eps b Sp Sm domain A B phi = .ok (T A B phi)) ∧
      (∀ A B phi, ansInv eps b Sp Sm domain A B phi = .ok (I A B phi)) ∧
      (∀ A B phi, (I A B phi).x = (T A B phi).x) ∧
      Spec.FirstDerivs (fun A B phi => (I A B phi).x) (fun A B phi => (I A B phi).dx)
        (fun A B phi => (Spec.ansRegular Sp Sm domain A B phi ∧
          ((XR A B phi).x 0 ≠ 0 ∨ (XR A B phi).x 1 ≠ 0)) ∧ (Matrix.of (T A B phi).dx).det ≠ 0) ∧
      Spec.SecondDerivs (fun A B phi => (I A B phi).x) (fun A B phi => (I A B phi).dx)
        (fun A B phi => (I A B phi).ddx)
        (fun A B phi => (Spec.ansRegular Sp Sm domain A B phi ∧
          ((XR A B phi).x 0 ≠ 0 ∨ (XR A B phi).x 1 ≠ 0)) ∧ (Matrix.of (T A B phi).dx).det ≠ 0) := by
  obtain ⟨U, T, hU, hT, -, hD⟩ := C152_forward eps b Sp Sm hp hm h0 h3
  have hdet : ∀ J : Fin 3 → Fin 3 → ℝ, det3 (Spec.mat J) = (Matrix.of J).det := by
    intro J
    rw [Matrix.det_fin_three]
    have k : ∀ i j : Fin 3, Matrix.of J i j = Spec.mat J (i + 1) (j + 1) := by
      intro i j
      fin_cases i <;> fin_cases j <;> rfl
    simp only [det3, k, Fin.isValue, Fin.val_zero, Fin.val_one, Fin.val_two, Nat.reduceAdd]
    ring
  refine ⟨U, T, fun A B phi => ⟨(T A B phi).x, fun i k => inverse3 eps (arr2 (T A B phi).dx) (i + 1) (k + 1),
    fun i p => secondInverse (inverse3 eps (arr2 (T A B phi).dx)) (arr3 (T A B phi).ddx) (i + 1) (pairIx p).1
      (pairIx p).2⟩, hU, hT, fun A B phi => by rw [ansInv, hT]; rfl, fun A B phi => rfl, ?_, ?_⟩
  · exact C69_first eps (x := fun a b c => (T a b c).x) (J := fun a b c => (T a b c).dx)
      (fun i X Y Z t V hm hP => hD.1 X Y Z t V hm hP.1 i) fun X Y Z h => (hdet _).symm ▸ h.2
  · have := C69_second eps (x := fun a b c => (T a b c).x) (J := fun a b c => (T a b c).dx)
      (H := fun a b c => (T a b c).ddx) (P := fun A B phi => (Spec.ansRegular Sp Sm domain A B phi ∧
          ((U A B phi).x 0 ≠ 0 ∨ (U A B phi).x 1 ≠ 0)) ∧ (Matrix.of (T A B phi).dx).det ≠ 0)
      (fun i X Y Z t V hm hP => hD.1 X Y Z t V hm hP.1 i)
      (fun i k X Y Z t V hm hP => hD.2 X Y Z t V hm hP.1 i k) fun X Y Z h => (hdet _).symm ▸ h.2
    simp only [← secondInverse_arr3] at this
    exact this

/-- **C152.** On the axis the code returns the values of a neighbouring point: at B = 0 those at B = eps, at
B = 1 those at B = 1 - eps, and in the domains 0 and 3 at A = 1 those at A = 1 - eps. -/
theorem C152_axis {eps : ℝ} (h0 : 0 < eps) (h1 : eps < 1) (b : ℝ) (Sp Sm : AnsSig) (domain : Int) (A B phi : ℝ) :
    ansInv eps b Sp Sm domain A 0 phi = ansInv eps b Sp Sm domain A eps phi ∧
    ansInv eps b Sp Sm domain A 1 phi = ansInv eps b Sp Sm domain A (1 - eps) phi ∧
    (domain = 0 ∨ domain = 3 →
      ansInv eps b Sp Sm domain 1 B phi = ansInv eps b Sp Sm domain (1 - eps) B phi) := by
  have e0 : ansB eps 0 = eps := by simp [ansB]
  have e1 : ansB eps eps = eps := ansB_same h0.ne' h1.ne
  have e2 : ansB eps 1 = 1 - eps := by simp [ansB]
  have e3 : ansB eps (1 - eps) = 1 - eps := ansB_same (by linarith) (by linarith)
  have e4 : ansA eps 1 = 1 - eps := by simp [ansA]
  have e5 : ansA eps (1 - eps) = 1 - eps := ansA_same (by linarith)
  refine ⟨?_, ?_, ?_⟩
  · simp only [ansInv, ansABphi, ansXR, e0, e1]
  · simp only [ansInv, ansABphi, ansXR, e2, e3]
  · rintro (rfl | rfl)
    · simp only [ansInv, ansABphi, ansXR, e4, e5, if_true]
    · simp [ansInv, ansABphi, ansXR, e4, e5]

/-- In domain 1 with a surface of constant sigma the point with B = 1/2 is regular. -/
example (c A : ℝ) : let S : AnsSig := ⟨fun _ _ => c, fun _ _ => 0, fun _ _ => 0, fun _ _ => 0, fun _ _ => 0, fun _ _ => 0⟩
    Spec.ansRegular S S 1 A (1 / 2) 0 := by
  refine ⟨⟨⟨?_, ?_, ?_⟩, by norm_num, by norm_num⟩, by norm_num, by norm_num⟩ <;>
    intro b q t U W _ _ _ _ <;> simpa using hasDerivAt_const t _

end Sgrid

import Verif.Model.TransfDerivs
import Verif.Props.CartDerivs

/-!
Property C69: derivatives of the inverse and of the composition of coordinate transformations.
-/

namespace Sgrid

section
variable {K : Type} [Field K]

/-- The product of two matrices. -/
def Spec.mul3 (A B : Nat → Nat → K) (i j : Nat) : K := ∑ k ∈ Finset.Icc 1 3, A i k * B k j

theorem product3_eq (A B : Nat → Nat → K) : product3 A B = Spec.mul3 A B := by
  funext i j
  unfold Spec.mul3
  rw [sumIcc]
  simp [product3, upLoop, range3]

/-- **C69**, inverse: if the determinant is not zero, `dXdx_from_dxdX` gives the inverse matrix. -/
theorem C69_inverse [DecidableEq K] (eps : K) (M : Nat → Nat → K) (h : det3 M ≠ 0) {i j : Nat} (hi : 1 ≤ i)
    (hi' : i ≤ 3) (hj : 1 ≤ j) (hj' : j ≤ 3) :
    Spec.mul3 M (inverse3 eps M) i j = (if i = j then 1 else 0) ∧
    Spec.mul3 (inverse3 eps M) M i j = if i = j then 1 else 0 := by
  unfold Spec.mul3
  rw [sumIcc, sumIcc]
  unfold inverse3
  rw [if_neg h]
  rcases three hi hi' with rfl | rfl | rfl <;> rcases three hj hj' with rfl | rfl | rfl <;>
    constructor <;> simp only [Nat.reduceEqDiff, if_true, if_false] <;> field_simp <;> unfold det3 <;> ring

/-- **C69**, singular matrices: no error is reported, and the product with the result is zero. -/
theorem C69_singular [DecidableEq K] (eps : K) (M : Nat → Nat → K) (h : det3 M = 0) {i j : Nat} (hi : 1 ≤ i)
    (hi' : i ≤ 3) (hj : 1 ≤ j) (hj' : j ≤ 3) :
    Spec.mul3 M (inverse3 eps M) i j = 0 ∧ Spec.mul3 (inverse3 eps M) M i j = 0 := by
  unfold Spec.mul3
  rw [sumIcc, sumIcc]
  unfold inverse3
  rw [if_pos h]
  unfold det3 at h
  rcases three hi hi' with rfl | rfl | rfl <;> rcases three hj hj' with rfl | rfl | rfl <;>
    constructor <;> first
      | (simp only; ring1)
      | (simp only; linear_combination (eps * eps * eps)⁻¹ * h)

/-- **C69**, determinant: `DetOf3Dmatrix` is the determinant. -/
theorem C69_det (M : Nat → Nat → K) : det3 M = (Matrix.of fun i j : Fin 3 => M (i + 1) (j + 1)).det := by
  rw [Matrix.det_fin_three]
  simp only [Matrix.of_apply, Fin.val_zero, Fin.val_one, Fin.val_two]
  unfold det3
  ring

/-- **C69**, transpose. -/
theorem C69_transpose (M : Nat → Nat → K) {i j : Nat} (hi : 1 ≤ i) (hi' : i ≤ 3) (hj : 1 ≤ j) (hj' : j ≤ 3) :
    transpose3 M i j = M j i := by
  rcases three hi hi' with rfl | rfl | rfl <;> rcases three hj hj' with rfl | rfl | rfl <;> rfl

/-- **C69**, product. -/
theorem C69_product (A B : Nat → Nat → K) : product3 A B = Spec.mul3 A B := product3_eq A B

theorem secondInverse_eq (dX : Nat → Nat → K) (ddx : Nat → Nat → Nat → K) (i j k : Nat) :
    secondInverse dX ddx i j k = -∑ n ∈ Finset.Icc 1 3, ∑ m ∈ Finset.Icc 1 3, ∑ l ∈ Finset.Icc 1 3,
      dX i n * dX m j * dX l k * ddx n (min m l) (max m l) := by
  simp only [sumIcc]
  simp [secondInverse, upLoop, range3]
  ring

theorem secondComp_eq (dxdU dUdX : Nat → Nat → K) (ddxdUdU ddUdXdX : Nat → Nat → Nat → K) (i m n : Nat) :
    secondComp dxdU dUdX ddxdUdU ddUdXdX i m n = ∑ j ∈ Finset.Icc 1 3, dxdU i j * ddUdXdX j m n +
      ∑ j ∈ Finset.Icc 1 3, ∑ k ∈ Finset.Icc 1 3, dUdX j m * dUdX k n * ddxdUdU i (min j k) (max j k) := by
  simp only [sumIcc]
  simp [secondComp, upLoop, range3]
  ring

end

/-! ### Derivatives of the inverse -/

open Filter Topology

/-- The matrix with the indices 1, 2, 3. -/
def Spec.mat (J : Fin 3 → Fin 3 → ℝ) (i j : Nat) : ℝ := J (Spec.ix i) (Spec.ix j)

/-- Second derivatives with the indices 1, 2, 3. -/
def Spec.mat2 (H : Fin 3 → Pair → ℝ) (i j k : Nat) : ℝ := H (Spec.ix i) (Spec.pair (Spec.ix j) (Spec.ix k))

/-- The indices of a pair, the smaller one first. -/
def Spec.ofPair : Pair → Nat × Nat
  | .xx => (1, 1)
  | .xy => (1, 2)
  | .xz => (1, 3)
  | .yy => (2, 2)
  | .yz => (2, 3)
  | .zz => (3, 3)

theorem inverse_fin (eps : ℝ) (J : Fin 3 → Fin 3 → ℝ) (h : det3 (Spec.mat J) ≠ 0) (a c : Fin 3) :
    (∑ i : Fin 3, inverse3 eps (Spec.mat J) (a + 1) (i + 1) * J i c = if a = c then 1 else 0) ∧
    ∑ i : Fin 3, J a i * inverse3 eps (Spec.mat J) (i + 1) (c + 1) = if a = c then 1 else 0 := by
  have key := C69_inverse eps (Spec.mat J) h (i := a + 1) (j := c + 1) (by omega) (by omega) (by omega) (by omega)
  unfold Spec.mul3 at key
  simp only [sumIcc] at key
  have e : ∀ i j : Fin 3, Spec.mat J (i + 1) (j + 1) = J i j := by
    intro i j
    fin_cases i <;> fin_cases j <;> rfl
  have e1 := fun i => e i c
  have e2 := fun i => e a i
  simp only [Fin.sum_univ_three, ← e1 0, ← e1 1, ← e1 2, ← e2 0, ← e2 1, ← e2 2]
  simp only [Nat.add_right_cancel_iff, Fin.val_inj] at key
  exact ⟨key.2, key.1⟩

/-- **C69**, first derivatives of the inverse: if `J` is the matrix of the derivatives of `x` and is not singular,
`dXdx_from_dxdX` gives the first derivatives of the inverse of `x`. -/
theorem C69_first (eps : ℝ) {x : ℝ → ℝ → ℝ → Fin 3 → ℝ} {J : ℝ → ℝ → ℝ → Fin 3 → Fin 3 → ℝ}
    {P : ℝ → ℝ → ℝ → Prop}
    (hJ : ∀ i, Spec.BoxGrad (fun X Y Z => x X Y Z i) (fun X Y Z k => J X Y Z i k) P)
    (hdet : ∀ X Y Z, P X Y Z → det3 (Spec.mat (J X Y Z)) ≠ 0) :
    Spec.FirstDerivs x (fun X Y Z i k => inverse3 eps (Spec.mat (J X Y Z)) (i + 1) (k + 1)) P := by
  intro X Y Z t V hm hP
  refine ⟨_, fun i => hJ i X Y Z t V hm hP, fun a => ?_⟩
  have k := fun c => (inverse_fin eps _ (hdet _ _ _ hP) a c).1
  have e : V a = ∑ c, (if a = c then 1 else 0) * V c := by simp
  rw [e]
  simp only [← k, Finset.mul_sum, Finset.sum_mul]
  rw [Finset.sum_comm]
  exact Finset.sum_congr rfl fun c _ => Finset.sum_congr rfl fun i _ => by ring

theorem inverse3_differentiable (eps : ℝ) {M : ℝ → Nat → Nat → ℝ} {t : ℝ}
    (hM : ∀ i j, DifferentiableAt ℝ (fun s => M s i j) t) (hdet : det3 (M t) ≠ 0) (i j : Nat) :
    DifferentiableAt ℝ (fun s => inverse3 eps (M s) i j) t := by
  have hd : DifferentiableAt ℝ (fun s => det3 (M s)) t := by unfold det3; fun_prop
  have hev : ∀ᶠ s in 𝓝 t, det3 (M s) ≠ 0 := hd.continuousAt.eventually_ne hdet
  have hd' : DifferentiableAt ℝ (fun s => if det3 (M s) = 0 then eps * eps * eps else det3 (M s)) t :=
    hd.congr_of_eventuallyEq (hev.mono fun s hs => if_neg hs)
  have hne : (if det3 (M t) = 0 then eps * eps * eps else det3 (M t)) ≠ 0 := by rwa [if_neg hdet]
  unfold inverse3
  simp only
  split <;> first
    | exact differentiableAt_const _
    | (refine DifferentiableAt.div ?_ hd' hne
       fun_prop)

/-- **C69**, second derivatives of the inverse: if `H` are the second derivatives of `x`,
`ddXdxdx_from_dXdx_ddxdXdX` gives the second derivatives of the inverse of `x`. -/
theorem C69_second (eps : ℝ) {x : ℝ → ℝ → ℝ → Fin 3 → ℝ} {J : ℝ → ℝ → ℝ → Fin 3 → Fin 3 → ℝ}
    {H : ℝ → ℝ → ℝ → Fin 3 → Pair → ℝ} {P : ℝ → ℝ → ℝ → Prop}
    (hJ : ∀ i, Spec.BoxGrad (fun X Y Z => x X Y Z i) (fun X Y Z k => J X Y Z i k) P)
    (hH : ∀ i k, Spec.BoxGrad (fun X Y Z => J X Y Z i k) (fun X Y Z l => H X Y Z i (Spec.pair k l)) P)
    (hdet : ∀ X Y Z, P X Y Z → det3 (Spec.mat (J X Y Z)) ≠ 0) :
    Spec.SecondDerivs x (fun X Y Z i k => inverse3 eps (Spec.mat (J X Y Z)) (i + 1) (k + 1))
      (fun X Y Z i p => secondInverse (inverse3 eps (Spec.mat (J X Y Z))) (Spec.mat2 (H X Y Z)) (i + 1)
        (Spec.ofPair p).1 (Spec.ofPair p).2) P := by
  intro X Y Z t V v hm hP hv a i
  obtain ⟨w, hw, hV⟩ := C69_first eps hJ hdet X Y Z t V hm hP
  obtain rfl := ImageMoves_unique hv hw
  have hd := hdet _ _ _ hP
  have hJ' := fun i k => hH i k X Y Z t V hm hP
  have hM : ∀ i j, DifferentiableAt ℝ (fun s => Spec.mat (J (X s) (Y s) (Z s)) i j) t :=
    fun i j => (hJ' (Spec.ix i) (Spec.ix j)).differentiableAt
  have hA := fun i j => (inverse3_differentiable eps hM hd i j).hasDerivAt
  have hdd : DifferentiableAt ℝ (fun s => det3 (Spec.mat (J (X s) (Y s) (Z s)))) t := by
    unfold det3; fun_prop
  have hev : ∀ᶠ s in 𝓝 t, det3 (Spec.mat (J (X s) (Y s) (Z s))) ≠ 0 := hdd.continuousAt.eventually_ne hd
  have key : ∀ c : Fin 3, _ := fun c => HasDerivAt.unique
    (((((hA (a + 1) 1).mul (hJ' 0 c)).add ((hA (a + 1) 2).mul (hJ' 1 c))).add ((hA (a + 1) 3).mul (hJ' 2 c))))
    ((hasDerivAt_const t (if a = c then (1 : ℝ) else 0)).congr_of_eventuallyEq (hev.mono fun s hs => by
      have := (inverse_fin eps _ hs a c).1
      rw [Fin.sum_univ_three] at this
      exact this))
  refine (hA (a + 1) (i + 1)).congr_deriv ?_
  have hV' : ∀ l : Fin 3, V l = inverse3 eps (Spec.mat (J (X t) (Y t) (Z t))) (l + 1) 1 * v 0 +
      inverse3 eps (Spec.mat (J (X t) (Y t) (Z t))) (l + 1) 2 * v 1 +
      inverse3 eps (Spec.mat (J (X t) (Y t) (Z t))) (l + 1) 3 * v 2 := fun l => by
    rw [← hV l, Fin.sum_univ_three]; rfl
  have kk := fun c => (inverse_fin eps _ hd c i).2
  simp only [Fin.sum_univ_three] at key kk
  simp only [secondInverse_eq, sumIcc, Fin.sum_univ_three]
  have k0 := key 0
  have k1 := key 1
  have k2 := key 2
  have q0 := kk 0
  have q1 := kk 1
  have q2 := kk 2
  rw [hV' 0, hV' 1, hV' 2] at k0 k1 k2
  clear key kk hV' hV hdet hw hv hm hJ' hM hdd hev hA hJ hH hP hd
  obtain ⟨D, hD⟩ : ∃ D : Nat → ℝ, ∀ k,
      deriv (fun s => inverse3 eps (Spec.mat (J (X s) (Y s) (Z s))) (a + 1) k) t = D k := ⟨_, fun _ => rfl⟩
  rw [hD]
  rw [hD, hD, hD] at k0 k1 k2
  clear hD
  generalize inverse3 eps (Spec.mat (J (X t) (Y t) (Z t))) = A at *
  generalize J (X t) (Y t) (Z t) = j at *
  generalize H (X t) (Y t) (Z t) = h at *
  fin_cases i <;> simp [Spec.ofPair, Spec.pair, Spec.mat2, Spec.ix, Fin.ofNat] at *
  · linear_combination A 1 1 * k0 + A 2 1 * k1 + A 3 1 * k2 - D 1 * q0 - D 2 * q1 - D 3 * q2
  · linear_combination A 1 2 * k0 + A 2 2 * k1 + A 3 2 * k2 - D 1 * q0 - D 2 * q1 - D 3 * q2
  · linear_combination A 1 3 * k0 + A 2 3 * k1 + A 3 3 * k2 - D 1 * q0 - D 2 * q1 - D 3 * q2

/-! ### Compositions -/

/-- **C69**, first derivatives of a composition: `dxdX_from_dxdU_dUdX` gives the derivatives of `x(U(X))`. -/
theorem C69_comp_first {x U : ℝ → ℝ → ℝ → Fin 3 → ℝ} {Jx JU : ℝ → ℝ → ℝ → Fin 3 → Fin 3 → ℝ}
    {P Q : ℝ → ℝ → ℝ → Prop}
    (hU : ∀ i, Spec.BoxGrad (fun X Y Z => U X Y Z i) (fun X Y Z k => JU X Y Z i k) P)
    (hx : ∀ i, Spec.BoxGrad (fun A B C => x A B C i) (fun A B C k => Jx A B C i k) Q)
    (hPQ : ∀ X Y Z, P X Y Z → Q (U X Y Z 0) (U X Y Z 1) (U X Y Z 2)) (i : Fin 3) :
    Spec.BoxGrad (fun X Y Z => x (U X Y Z 0) (U X Y Z 1) (U X Y Z 2) i)
      (fun X Y Z k => product3 (Spec.mat (Jx (U X Y Z 0) (U X Y Z 1) (U X Y Z 2))) (Spec.mat (JU X Y Z))
        (i + 1) (k + 1)) P := by
  intro X Y Z t V hm hP
  have h := hx i (fun s => U (X s) (Y s) (Z s) 0) (fun s => U (X s) (Y s) (Z s) 1)
    (fun s => U (X s) (Y s) (Z s) 2) t (fun c => ∑ l, JU (X t) (Y t) (Z t) c l * V l)
    ⟨hU 0 X Y Z t V hm hP, hU 1 X Y Z t V hm hP, hU 2 X Y Z t V hm hP⟩ (hPQ _ _ _ hP)
  refine h.congr_deriv ?_
  simp only [product3_eq, Spec.mul3, sumIcc, Fin.sum_univ_three]
  fin_cases i <;> simp [Spec.mat, Spec.ix, Fin.ofNat] <;> ring

/-- **C69**, second derivatives of a composition: `ddxdXdX_from_dxdU_dUdX_ddxdUdU_ddUdXdX` gives the second
derivatives of `x(U(X))`. -/
theorem C69_comp_second {U : ℝ → ℝ → ℝ → Fin 3 → ℝ} {Jx JU : ℝ → ℝ → ℝ → Fin 3 → Fin 3 → ℝ}
    {Hx HU : ℝ → ℝ → ℝ → Fin 3 → Pair → ℝ} {P Q : ℝ → ℝ → ℝ → Prop}
    (hU : ∀ i, Spec.BoxGrad (fun X Y Z => U X Y Z i) (fun X Y Z k => JU X Y Z i k) P)
    (hU2 : ∀ i k, Spec.BoxGrad (fun X Y Z => JU X Y Z i k) (fun X Y Z l => HU X Y Z i (Spec.pair k l)) P)
    (hx2 : ∀ i k, Spec.BoxGrad (fun A B C => Jx A B C i k) (fun A B C l => Hx A B C i (Spec.pair k l)) Q)
    (hPQ : ∀ X Y Z, P X Y Z → Q (U X Y Z 0) (U X Y Z 1) (U X Y Z 2)) (i k : Fin 3) :
    Spec.BoxGrad (fun X Y Z => product3 (Spec.mat (Jx (U X Y Z 0) (U X Y Z 1) (U X Y Z 2))) (Spec.mat (JU X Y Z))
        (i + 1) (k + 1))
      (fun X Y Z l => secondComp (Spec.mat (Jx (U X Y Z 0) (U X Y Z 1) (U X Y Z 2))) (Spec.mat (JU X Y Z))
        (Spec.mat2 (Hx (U X Y Z 0) (U X Y Z 1) (U X Y Z 2))) (Spec.mat2 (HU X Y Z)) (i + 1)
        (Spec.ofPair (Spec.pair k l)).1 (Spec.ofPair (Spec.pair k l)).2) P := by
  intro X Y Z t V hm hP
  have h1 := fun c => hx2 i c (fun s => U (X s) (Y s) (Z s) 0) (fun s => U (X s) (Y s) (Z s) 1)
    (fun s => U (X s) (Y s) (Z s) 2) t (fun c => ∑ l, JU (X t) (Y t) (Z t) c l * V l)
    ⟨hU 0 X Y Z t V hm hP, hU 1 X Y Z t V hm hP, hU 2 X Y Z t V hm hP⟩ (hPQ _ _ _ hP)
  have h2 := fun c => hU2 c k X Y Z t V hm hP
  have h := (((h1 0).mul (h2 0)).add ((h1 1).mul (h2 1))).add ((h1 2).mul (h2 2))
  refine (h.congr_of_eventuallyEq (Eventually.of_forall fun s => ?_)).congr_deriv ?_
  · simp only [product3_eq, Spec.mul3, sumIcc]
    fin_cases i <;> fin_cases k <;> rfl
  · simp only [secondComp_eq, sumIcc, Fin.sum_univ_three]
    fin_cases i <;> fin_cases k <;> simp [Spec.mat, Spec.mat2, Spec.ix, Fin.ofNat, Spec.ofPair, Spec.pair] <;> ring

/-! ### Generic derivatives -/

section
variable {K : Type} [Field K] [DecidableEq K]

/-- `n` variables for each of three coordinates, all different. -/
def Spec.Apart (d : Nat → Nat) (n : Nat) : Prop :=
  ∀ i k i' k', 1 ≤ i → i ≤ 3 → k < n → 1 ≤ i' → i' ≤ 3 → k' < n → d i + k = d i' + k' → i = i' ∧ k = k'

omit [Field K] [DecidableEq K] in
/-- The derivatives of the three Cartesian coordinates are stored. -/
theorem initFirst_fill (n : Nat) (D : Nat → (Nat → K) → Nat → K) (ix d : Nat → Nat) (m : Nat × Nat → K)
    (hd : Spec.Apart d 3) (hx : ∀ a i k, 1 ≤ a → a ≤ 3 → 1 ≤ i → i ≤ 3 → k < 3 → ix a ≠ d i + k) :
    let m' := upLoop 1 4 (fun i m => upLoop 1 4 (fun k m =>
      setArray n m (d i + (k - 1)) (D k fun j => m (ix i, j))) m) m
    (∀ i k ind, 1 ≤ i → i ≤ 3 → 1 ≤ k → k ≤ 3 → ind < n →
      m' (d i + (k - 1), ind) = D k (fun j => m (ix i, j)) ind) ∧
    ∀ x, (∀ i k, 1 ≤ i → i ≤ 3 → k < 3 → x.2 < n → x.1 ≠ d i + k) → m' x = m x := by
  have key := upLoop_inv (show 1 ≤ 4 by omega)
    (body := fun i m => upLoop 1 4 (fun k m => setArray n m (d i + (k - 1)) (D k fun j => m (ix i, j))) m) (s := m)
    (fun I (m' : Nat × Nat → K) =>
      (∀ i k ind, 1 ≤ i → i < I → 1 ≤ k → k ≤ 3 → ind < n →
        m' (d i + (k - 1), ind) = D k (fun j => m (ix i, j)) ind) ∧
      ∀ x, (∀ i k, 1 ≤ i → i < I → k < 3 → x.2 < n → x.1 ≠ d i + k) → m' x = m x)
    ⟨fun i k _ h h' => by omega, fun _ _ => rfl⟩ ?_
  · exact ⟨fun i k ind h1 h2 => key.1 i k ind h1 (by omega),
      fun x hx => key.2 x fun i k h1 h2 => hx i k h1 (by omega)⟩
  · intro i m' h1 h2 ⟨ih1, ih2⟩
    obtain ⟨a1, a2⟩ := setArrays n 3 m' (ix i) (fun k => d i + (k - 1)) D
      (fun k k' q1 q2 q3 q4 e => by omega) (fun k q1 q2 e => hx i i (k - 1) h1 (by omega) h1 (by omega) (by omega) e.symm)
    have hvv : (fun j => m' (ix i, j)) = fun j => m (ix i, j) := by
      funext j
      exact ih2 _ fun i' k h h' h'' _ e => hx i i' k h1 (by omega) h (by omega) h'' e
    refine ⟨fun i' k ind hi hi' hk hk' hind => ?_, fun x hxx => ?_⟩
    · by_cases e : i' = i
      · subst e
        rw [← hvv]
        exact a1 k ind hk hk' hind
      · rw [← ih1 i' k ind hi (by omega) hk hk' hind]
        refine a2 _ fun k' q1 q2 _ e' => e ?_
        exact (hd i' (k - 1) i (k' - 1) hi (by omega) (by omega) h1 (by omega) (by omega) e').1
    · rw [← ih2 x fun i' k q1 q2 => hxx i' k q1 (by omega)]
      exact a2 x fun k q1 q2 q3 => hxx i (k - 1) h1 (by omega) (by omega) q3

omit [Field K] [DecidableEq K] in
/-- The numbers of one point are replaced. -/
theorem storeThree (d : Nat → Nat) (hd : Spec.Apart d 3) (F : Nat → Nat → K) (ind : Nat) (m : Nat × Nat → K) :
    let m' := upLoop 1 4 (fun k m => put (put (put m (d 1 + (k - 1)) ind (F 1 k)) (d 2 + (k - 1)) ind (F 2 k))
      (d 3 + (k - 1)) ind (F 3 k)) m
    (∀ i k, 1 ≤ i → i ≤ 3 → 1 ≤ k → k ≤ 3 → m' (d i + (k - 1), ind) = F i k) ∧
    ∀ w j, (j = ind → ∀ i k, 1 ≤ i → i ≤ 3 → k < 3 → w ≠ d i + k) → m' (w, j) = m (w, j) := by
  have hd' : ∀ i k i' k', 1 ≤ i → i ≤ 3 → k < 3 → 1 ≤ i' → i' ≤ 3 → k' < 3 → (d i + k = d i' + k' ↔ i = i' ∧ k = k') :=
    fun i k i' k' h1 h2 h3 h4 h5 h6 => ⟨hd i k i' k' h1 h2 h3 h4 h5 h6, fun h => by rw [h.1, h.2]⟩
  intro m'
  simp only [m', upLoop, range3, List.foldl_cons, List.foldl_nil, put_apply, show (4 : Nat) - 1 = 3 from rfl]
  refine ⟨fun i k h1 h2 h3 h4 => ?_, fun w j h => ?_⟩
  · simp only [hd' i (k - 1) _ _ h1 h2 (by omega) (by decide : 1 ≤ 1) (by decide : 1 ≤ 3) (by decide : 1 - 1 < 3),
      hd' i (k - 1) _ _ h1 h2 (by omega) (by decide : 1 ≤ 2) (by decide : 2 ≤ 3) (by decide : 1 - 1 < 3),
      hd' i (k - 1) _ _ h1 h2 (by omega) (by decide : 1 ≤ 3) (by decide : 3 ≤ 3) (by decide : 1 - 1 < 3),
      hd' i (k - 1) _ _ h1 h2 (by omega) (by decide : 1 ≤ 1) (by decide : 1 ≤ 3) (by decide : 2 - 1 < 3),
      hd' i (k - 1) _ _ h1 h2 (by omega) (by decide : 1 ≤ 2) (by decide : 2 ≤ 3) (by decide : 2 - 1 < 3),
      hd' i (k - 1) _ _ h1 h2 (by omega) (by decide : 1 ≤ 3) (by decide : 3 ≤ 3) (by decide : 2 - 1 < 3),
      hd' i (k - 1) _ _ h1 h2 (by omega) (by decide : 1 ≤ 1) (by decide : 1 ≤ 3) (by decide : 3 - 1 < 3),
      hd' i (k - 1) _ _ h1 h2 (by omega) (by decide : 1 ≤ 2) (by decide : 2 ≤ 3) (by decide : 3 - 1 < 3),
      hd' i (k - 1) _ _ h1 h2 (by omega) (by decide : 1 ≤ 3) (by decide : 3 ≤ 3) (by decide : 3 - 1 < 3)]
    rcases three h1 h2 with rfl | rfl | rfl <;> rcases three h3 h4 with rfl | rfl | rfl <;> simp
  · repeat rw [if_neg (fun e => h e.2 _ _ (by decide) (by decide) (by decide) e.1)]

theorem inverse3_congr (eps : K) {M M' : Nat → Nat → K} (h : ∀ i j, 1 ≤ i → i ≤ 3 → 1 ≤ j → j ≤ 3 → M i j = M' i j) :
    inverse3 eps M = inverse3 eps M' := by
  have e : ∀ a b : Fin 3, M (a + 1) (b + 1) = M' (a + 1) (b + 1) :=
    fun a b => h _ _ (by omega) (by omega) (by omega) (by omega)
  have e11 : M 1 1 = M' 1 1 := e 0 0
  have e12 : M 1 2 = M' 1 2 := e 0 1
  have e13 : M 1 3 = M' 1 3 := e 0 2
  have e21 : M 2 1 = M' 2 1 := e 1 0
  have e22 : M 2 2 = M' 2 2 := e 1 1
  have e23 : M 2 3 = M' 2 3 := e 1 2
  have e31 : M 3 1 = M' 3 1 := e 2 0
  have e32 : M 3 2 = M' 3 2 := e 2 1
  have e33 : M 3 3 = M' 3 3 := e 2 2
  unfold inverse3 det3
  rw [e11, e12, e13, e21, e22, e23, e31, e32, e33]

omit [Field K] [DecidableEq K] in
/-- A loop over the points whose passes replace the numbers `v a` of their point, which are computed from the
numbers of this point. -/
theorem gridLoop {ι : Type} (R : ι → Prop) (v : ι → Nat) (p : Nat → (Nat × Nat → K) → Nat × Nat → K)
    (G : (Nat → K) → ι → K) (h1 : ∀ ind m a, R a → p ind m (v a, ind) = G (fun w => m (w, ind)) a)
    (h2 : ∀ ind m w j, (j = ind → ∀ a, R a → w ≠ v a) → p ind m (w, j) = m (w, j)) (n : Nat) (m : Nat × Nat → K) :
    (∀ a j, R a → j < n → upLoop 0 n p m (v a, j) = G (fun w => m (w, j)) a) ∧
    ∀ w j, (j < n → ∀ a, R a → w ≠ v a) → upLoop 0 n p m (w, j) = m (w, j) := by
  refine upLoop_inv (Nat.zero_le n) (fun N (m' : Nat × Nat → K) =>
      (∀ a j, R a → j < N → m' (v a, j) = G (fun w => m (w, j)) a) ∧
      ∀ w j, (j < N → ∀ a, R a → w ≠ v a) → m' (w, j) = m (w, j))
    ⟨fun _ _ _ h => by omega, fun _ _ _ => rfl⟩ ?_
  intro ind m' _ _ ⟨ih1, ih2⟩
  have e : (fun w => m' (w, ind)) = fun w => m (w, ind) := by
    funext w
    exact ih2 _ _ fun h => absurd h (lt_irrefl _)
  refine ⟨fun a j ha hj => ?_, fun w j h => ?_⟩
  · by_cases hj' : j = ind
    · subst hj'
      rw [h1 _ _ _ ha, e]
    · rw [← ih1 a j ha (by omega)]
      exact h2 _ _ _ _ fun h => absurd h hj'
  · rw [← ih2 w j fun q => h (by omega)]
    exact h2 _ _ _ _ fun q => h (by omega)

/-- **C69**, generic first derivatives: after `init_dXdx_generic` the variables of the point `ind` hold the inverse
of the matrix of the derivatives of `x`, `y`, `z` at this point, and nothing else is changed. -/
theorem C69_generic_first (eps : K) (n : Nat) (D : Nat → (Nat → K) → Nat → K) (ix d : Nat → Nat)
    (m : Nat × Nat → K) (hd : Spec.Apart d 3)
    (hx : ∀ a i k, 1 ≤ a → a ≤ 3 → 1 ≤ i → i ≤ 3 → k < 3 → ix a ≠ d i + k) :
    (∀ i k ind, 1 ≤ i → i ≤ 3 → 1 ≤ k → k ≤ 3 → ind < n → initFirst eps n D ix d m (d i + (k - 1), ind) =
      inverse3 eps (fun a b => D b (fun j => m (ix a, j)) ind) i k) ∧
    ∀ w j, (j < n → ∀ i k, 1 ≤ i → i ≤ 3 → k < 3 → w ≠ d i + k) → initFirst eps n D ix d m (w, j) = m (w, j) := by
  obtain ⟨f1, f2⟩ := initFirst_fill n D ix d m hd hx
  unfold initFirst
  generalize upLoop 1 4 (fun i m => upLoop 1 4 (fun k m =>
      setArray n m (d i + (k - 1)) (D k fun j => m (ix i, j))) m) m = m1 at f1 f2 ⊢
  obtain ⟨g1, g2⟩ := gridLoop (fun a : Nat × Nat => (1 ≤ a.1 ∧ a.1 ≤ 3) ∧ 1 ≤ a.2 ∧ a.2 ≤ 3)
    (fun a => d a.1 + (a.2 - 1)) (initFirstPass eps d)
    (fun r a => inverse3 eps (fun i k => r (d i + (k - 1))) a.1 a.2)
    (fun ind m a ha => (storeThree d hd _ ind m).1 a.1 a.2 ha.1.1 ha.1.2 ha.2.1 ha.2.2)
    (fun ind m w j h => (storeThree d hd _ ind m).2 w j fun q i k q1 q2 q3 =>
      h q (i, k + 1) ⟨⟨q1, q2⟩, by omega, by omega⟩) n m1
  refine ⟨fun i k ind h1 h2 h3 h4 h5 => ?_, fun w j h => ?_⟩
  · refine (g1 (i, k) ind ⟨⟨h1, h2⟩, h3, h4⟩ h5).trans ?_
    exact congrFun (congrFun (inverse3_congr eps fun a b q1 q2 q3 q4 => f1 a b ind q1 q2 q3 q4 h5) i) k
  · rw [← f2 (w, j) fun i k q1 q2 q3 q4 => h q4 i k q1 q2 q3]
    exact g2 w j fun q a ha => h q a.1 (a.2 - 1) ha.1.1 ha.1.2 (by omega)

omit [Field K] [DecidableEq K] in
/-- The second derivatives of the three Cartesian coordinates are stored. -/
theorem initSecond_fill (n : Nat) (DD : Nat → (Nat → K) → Nat → K) (ix dd t : Nat → Nat) (m : Nat × Nat → K)
    (hdd : Spec.Apart dd 6) (ht : ∀ a b, 1 ≤ a → a ≤ 3 → 1 ≤ b → b ≤ 3 → t a = t b → a = b)
    (htd : ∀ a i k, 1 ≤ a → a ≤ 3 → 1 ≤ i → i ≤ 3 → k < 6 → t a ≠ dd i + k)
    (hx : ∀ a i k, 1 ≤ a → a ≤ 3 → 1 ≤ i → i ≤ 3 → k < 6 → ix a ≠ dd i + k)
    (hxt : ∀ a b, 1 ≤ a → a ≤ 3 → 1 ≤ b → b ≤ 3 → ix a ≠ t b) :
    let m' := upLoop 1 4 (fun i m =>
      let a := fun j => m (ix i, j)
      upLoop 1 10 (fun k m => setArray n m (if k ≤ 3 then t k else dd i + (k - 4)) (DD k a)) m) m
    (∀ i k ind, 1 ≤ i → i ≤ 3 → k < 6 → ind < n →
      m' (dd i + k, ind) = DD (4 + k) (fun j => m (ix i, j)) ind) ∧
    ∀ x, (∀ i k, 1 ≤ i → i ≤ 3 → k < 6 → x.2 < n → x.1 ≠ dd i + k) →
      (∀ k, 1 ≤ k → k ≤ 3 → x.2 < n → x.1 ≠ t k) → m' x = m x := by
  have key := upLoop_inv (show 1 ≤ 4 by omega)
    (body := fun i (m : Nat × Nat → K) =>
      let a := fun j => m (ix i, j)
      upLoop 1 10 (fun k m => setArray n m (if k ≤ 3 then t k else dd i + (k - 4)) (DD k a)) m) (s := m)
    (fun I (m' : Nat × Nat → K) =>
      (∀ i k ind, 1 ≤ i → i < I → k < 6 → ind < n →
        m' (dd i + k, ind) = DD (4 + k) (fun j => m (ix i, j)) ind) ∧
      ∀ x, (∀ i k, 1 ≤ i → i < I → k < 6 → x.2 < n → x.1 ≠ dd i + k) →
        (∀ k, 1 ≤ k → k ≤ 3 → x.2 < n → x.1 ≠ t k) → m' x = m x)
    ⟨fun i k _ h h' => by omega, fun _ _ _ => rfl⟩ ?_
  · exact ⟨fun i k ind h1 h2 => key.1 i k ind h1 (by omega),
      fun x hx => key.2 x fun i k h1 h2 => hx i k h1 (by omega)⟩
  · intro i m' h1 h2 ⟨ih1, ih2⟩
    obtain ⟨a1, a2⟩ := setArraysAll n 9 m' (fun j => m' (ix i, j)) (fun k => if k ≤ 3 then t k else dd i + (k - 4)) DD
      (fun k k' q1 q2 q3 q4 e => by
        by_cases c : k ≤ 3 <;> by_cases c' : k' ≤ 3
        · rw [if_pos c, if_pos c'] at e; exact ht k k' q1 c q3 c' e
        · rw [if_pos c, if_neg c'] at e; exact absurd e (htd _ _ _ q1 c h1 (by omega) (by omega))
        · rw [if_neg c, if_pos c'] at e; exact absurd e.symm (htd _ _ _ q3 c' h1 (by omega) (by omega))
        · rw [if_neg c, if_neg c'] at e; omega)
    have hvv : (fun j => m' (ix i, j)) = fun j => m (ix i, j) := by
      funext j
      exact ih2 _ (fun i' k h h' h'' _ e => hx i i' k h1 (by omega) h (by omega) h'' e)
        fun k q1 q2 _ e => hxt i k h1 (by omega) q1 q2 e
    refine ⟨fun i' k ind hi hi' hk hind => ?_, fun x hxx hxxt => ?_⟩
    · by_cases e : i' = i
      · subst e
        rw [← hvv]
        have := a1 (4 + k) ind (by omega) (by omega) hind
        rw [if_neg (by omega), show 4 + k - 4 = k by omega] at this
        exact this
      · rw [← ih1 i' k ind hi (by omega) hk hind]
        refine a2 _ fun k' q1 q2 _ e' => ?_
        beta_reduce at e'
        split at e'
        · exact htd k' i' k q1 (by assumption) hi (by omega) hk e'.symm
        · exact e (hdd i' k i (k' - 4) hi (by omega) hk h1 (by omega) (by omega) e').1
    · rw [← ih2 x (fun i' k q1 q2 => hxx i' k q1 (by omega)) hxxt]
      refine a2 x fun k q1 q2 q3 e' => ?_
      beta_reduce at e'
      split at e'
      · exact hxxt k q1 (by assumption) q3 e'
      · exact hxx i (k - 4) h1 (by omega) (by omega) q3 e'

omit [DecidableEq K] in
theorem secondInverse_congr {dX dX' : Nat → Nat → K} {ddx ddx' : Nat → Nat → Nat → K} {i j k : Nat}
    (hi : 1 ≤ i ∧ i ≤ 3) (hj : 1 ≤ j ∧ j ≤ 3) (hk : 1 ≤ k ∧ k ≤ 3)
    (h1 : ∀ i j, 1 ≤ i → i ≤ 3 → 1 ≤ j → j ≤ 3 → dX i j = dX' i j)
    (h2 : ∀ i j k, 1 ≤ i → i ≤ 3 → 1 ≤ j → j ≤ k → k ≤ 3 → ddx i j k = ddx' i j k) :
    secondInverse dX ddx i j k = secondInverse dX' ddx' i j k := by
  rw [secondInverse_eq, secondInverse_eq]
  refine congrArg Neg.neg (Finset.sum_congr rfl fun n hn => Finset.sum_congr rfl fun m hm =>
    Finset.sum_congr rfl fun l hl => ?_)
  rw [Finset.mem_Icc] at hn hm hl
  rw [h1 i n hi.1 hi.2 hn.1 hn.2, h1 m j hm.1 hm.2 hj.1 hj.2, h1 l k hl.1 hl.2 hk.1 hk.2,
    h2 n (min m l) (max m l) hn.1 hn.2 (by omega) (by omega) (by omega)]

omit [DecidableEq K] in
/-- The pass for one point. -/
theorem initSecondPass_eq (d dd : Nat → Nat) (hdd : Spec.Apart dd 6) (ind : Nat) (m : Nat × Nat → K) :
    (∀ i j k, 1 ≤ i → i ≤ 3 → 1 ≤ j → j ≤ k → k ≤ 3 →
      initSecondPass d dd ind m (dd i + Spec.sixth j k, ind) = secondInverse (fun i k => m (d i + (k - 1), ind))
        (fun i j k => m (ddXvar (dd i) 1 j k, ind)) i j k) ∧
    ∀ w j, (j = ind → ∀ i k, 1 ≤ i → i ≤ 3 → k < 6 → w ≠ dd i + k) →
      initSecondPass d dd ind m (w, j) = m (w, j) := by
  have hd' : ∀ i k i' k', 1 ≤ i → i ≤ 3 → k < 6 → 1 ≤ i' → i' ≤ 3 → k' < 6 →
      (dd i + k = dd i' + k' ↔ i = i' ∧ k = k') :=
    fun i k i' k' h1 h2 h3 h4 h5 h6 => ⟨hdd i k i' k' h1 h2 h3 h4 h5 h6, fun h => by rw [h.1, h.2]⟩
  unfold initSecondPass
  generalize secondInverse (fun i k => m (d i + (k - 1), ind)) (fun i j k => m (ddXvar (dd i) 1 j k, ind)) = F
  have r2 : List.range' 2 2 = [2, 3] := rfl
  have r1 : List.range' 3 1 = [3] := rfl
  simp only [upLoop, range3, r2, r1, List.foldl_cons, List.foldl_nil, put_apply, show (4 : Nat) - 1 = 3 from rfl,
    show (4 : Nat) - 2 = 2 from rfl, show (4 : Nat) - 3 = 1 from rfl, Nat.zero_add, Nat.reduceAdd]
  refine ⟨fun i j k h1 h2 h3 h4 h5 => ?_, fun w j h => ?_⟩
  · have hs : Spec.sixth j k < 6 := by
      unfold Spec.sixth; split <;> omega
    have q := fun k' (h' : k' < 6) => hd' i (Spec.sixth j k) 1 k' h1 h2 hs (by omega) (by omega) h'
    have q' := fun k' (h' : k' < 6) => hd' i (Spec.sixth j k) 2 k' h1 h2 hs (by omega) (by omega) h'
    have q'' := fun k' (h' : k' < 6) => hd' i (Spec.sixth j k) 3 k' h1 h2 hs (by omega) (by omega) h'
    simp only [q 0 (by omega), q 1 (by omega), q 2 (by omega), q 3 (by omega), q 4 (by omega), q 5 (by omega),
      q' 0 (by omega), q' 1 (by omega), q' 2 (by omega), q' 3 (by omega), q' 4 (by omega), q' 5 (by omega),
      q'' 0 (by omega), q'' 1 (by omega), q'' 2 (by omega), q'' 3 (by omega), q'' 4 (by omega), q'' 5 (by omega)]
    clear q q' q'' hd' hs
    rcases three h1 h2 with rfl | rfl | rfl <;> rcases three h3 (by omega) with rfl | rfl | rfl <;>
      rcases three (show 1 ≤ k by omega) h5 with rfl | rfl | rfl <;> first
        | omega
        | simp [Spec.sixth]
  · repeat rw [if_neg (fun e => h e.2 _ _ (by decide) (by decide) (by decide) e.1)]

omit [DecidableEq K] in
/-- **C69**, generic second derivatives: after `init_ddXdxdx_generic` the variables of the point `ind` hold the second
derivatives that follow from the stored first derivatives and from the second derivatives of `x`, `y`, `z` at this
point. Apart from them only the temporary variables are changed. -/
theorem C69_generic_second (n : Nat) (DD : Nat → (Nat → K) → Nat → K) (ix d dd t : Nat → Nat)
    (m : Nat × Nat → K) (hdd : Spec.Apart dd 6) (ht : ∀ a b, 1 ≤ a → a ≤ 3 → 1 ≤ b → b ≤ 3 → t a = t b → a = b)
    (htd : ∀ a i k, 1 ≤ a → a ≤ 3 → 1 ≤ i → i ≤ 3 → k < 6 → t a ≠ dd i + k)
    (hx : ∀ a i k, 1 ≤ a → a ≤ 3 → 1 ≤ i → i ≤ 3 → k < 6 → ix a ≠ dd i + k)
    (hxt : ∀ a b, 1 ≤ a → a ≤ 3 → 1 ≤ b → b ≤ 3 → ix a ≠ t b)
    (hd : ∀ a b i k, 1 ≤ a → a ≤ 3 → b < 3 → 1 ≤ i → i ≤ 3 → k < 6 → d a + b ≠ dd i + k)
    (hdt : ∀ a b c, 1 ≤ a → a ≤ 3 → b < 3 → 1 ≤ c → c ≤ 3 → d a + b ≠ t c) :
    (∀ i j k ind, 1 ≤ i → i ≤ 3 → 1 ≤ j → j ≤ k → k ≤ 3 → ind < n →
      initSecond n DD ix d dd t m (dd i + Spec.sixth j k, ind) =
        secondInverse (fun a b => m (d a + (b - 1), ind))
          (fun a b c => DD (4 + Spec.sixth b c) (fun j => m (ix a, j)) ind) i j k) ∧
    ∀ w j, (j < n → ∀ i k, 1 ≤ i → i ≤ 3 → k < 6 → w ≠ dd i + k) → (j < n → ∀ k, 1 ≤ k → k ≤ 3 → w ≠ t k) →
      initSecond n DD ix d dd t m (w, j) = m (w, j) := by
  obtain ⟨f1, f2⟩ := initSecond_fill n DD ix dd t m hdd ht htd hx hxt
  unfold initSecond
  generalize upLoop 1 4 (fun i m =>
      let a := fun j => m (ix i, j)
      upLoop 1 10 (fun k m => setArray n m (if k ≤ 3 then t k else dd i + (k - 4)) (DD k a)) m) m = m1 at f1 f2 ⊢
  obtain ⟨g1, g2⟩ := gridLoop (fun a : Nat × Nat × Nat => (1 ≤ a.1 ∧ a.1 ≤ 3) ∧ 1 ≤ a.2.1 ∧ a.2.1 ≤ a.2.2 ∧ a.2.2 ≤ 3)
    (fun a => dd a.1 + Spec.sixth a.2.1 a.2.2) (initSecondPass d dd)
    (fun r a => secondInverse (fun i k => r (d i + (k - 1))) (fun i j k => r (ddXvar (dd i) 1 j k)) a.1 a.2.1 a.2.2)
    (fun ind m a ha => (initSecondPass_eq d dd hdd ind m).1 a.1 a.2.1 a.2.2 ha.1.1 ha.1.2 ha.2.1 ha.2.2.1 ha.2.2.2)
    (fun ind m w j h => (initSecondPass_eq d dd hdd ind m).2 w j fun q i k q1 q2 q3 => by
      have : ∃ a b, 1 ≤ a ∧ a ≤ b ∧ b ≤ 3 ∧ Spec.sixth a b = k := by
        clear h
        interval_cases k
        · exact ⟨1, 1, by decide⟩
        · exact ⟨1, 2, by decide⟩
        · exact ⟨1, 3, by decide⟩
        · exact ⟨2, 2, by decide⟩
        · exact ⟨2, 3, by decide⟩
        · exact ⟨3, 3, by decide⟩
      obtain ⟨a, b, r1, r2, r3, r4⟩ := this
      rw [← r4]
      exact h q (i, a, b) ⟨⟨q1, q2⟩, r1, r2, r3⟩) n m1
  refine ⟨fun i j k ind h1 h2 h3 h4 h5 h6 => ?_, fun w j h h' => ?_⟩
  · refine (g1 (i, j, k) ind ⟨⟨h1, h2⟩, h3, h4, h5⟩ h6).trans ?_
    refine secondInverse_congr ⟨h1, h2⟩ ⟨h3, h4.trans h5⟩ ⟨h3.trans h4, h5⟩ (fun a b q1 q2 q3 q4 => ?_) ?_
    · exact f2 _ (fun i k r1 r2 r3 _ => hd a (b - 1) i k q1 q2 (by omega) r1 r2 r3)
        fun c r1 r2 _ => hdt a (b - 1) c q1 q2 (by omega) r1 r2
    · intro a b c q1 q2 q3 q4 q5
      rw [ddXvar_eq _ _ q3 q4 q5]
      have hs : Spec.sixth b c < 6 := by
        unfold Spec.sixth; split <;> omega
      have := f1 a (Spec.sixth b c) ind q1 q2 hs h6
      rw [← this]
      simp
  · rw [← f2 (w, j) (fun i k q1 q2 q3 q4 => h q4 i k q1 q2 q3) fun k q1 q2 q3 => h' q3 k q1 q2]
    refine g2 w j fun q a ha => h q a.1 _ ha.1.1 ha.1.2 ?_
    unfold Spec.sixth; split <;> omega

end

/-- The variables of the generic derivatives are different variables. -/
structure Spec.GenericVars (ix d dd t : Nat → Nat) : Prop where
  hd : Spec.Apart d 3
  hdd : Spec.Apart dd 6
  ht : ∀ a b, 1 ≤ a → a ≤ 3 → 1 ≤ b → b ≤ 3 → t a = t b → a = b
  hxd : ∀ a i k, 1 ≤ a → a ≤ 3 → 1 ≤ i → i ≤ 3 → k < 3 → ix a ≠ d i + k
  hxdd : ∀ a i k, 1 ≤ a → a ≤ 3 → 1 ≤ i → i ≤ 3 → k < 6 → ix a ≠ dd i + k
  hxt : ∀ a b, 1 ≤ a → a ≤ 3 → 1 ≤ b → b ≤ 3 → ix a ≠ t b
  htdd : ∀ a i k, 1 ≤ a → a ≤ 3 → 1 ≤ i → i ≤ 3 → k < 6 → t a ≠ dd i + k
  hddd : ∀ a b i k, 1 ≤ a → a ≤ 3 → b < 3 → 1 ≤ i → i ≤ 3 → k < 6 → d a + b ≠ dd i + k
  hdt : ∀ a b c, 1 ≤ a → a ≤ 3 → b < 3 → 1 ≤ c → c ≤ 3 → d a + b ≠ t c

/-- **C69**, exact input gives exact output: if the derivatives of `x`, `y`, `z` in the directions of the box are exact
at a point, the generic first and second derivatives at this point are the derivatives of the inverse of the
transformation. -/
theorem C69_generic_exact (eps : ℝ) {x : ℝ → ℝ → ℝ → Fin 3 → ℝ} {J dX : ℝ → ℝ → ℝ → Fin 3 → Fin 3 → ℝ}
    {H ddX : ℝ → ℝ → ℝ → Fin 3 → Pair → ℝ} {P : ℝ → ℝ → ℝ → Prop}
    (hJ : ∀ i, Spec.BoxGrad (fun X Y Z => x X Y Z i) (fun X Y Z k => J X Y Z i k) P)
    (hH : ∀ i k, Spec.BoxGrad (fun X Y Z => J X Y Z i k) (fun X Y Z l => H X Y Z i (Spec.pair k l)) P)
    (hdet : ∀ X Y Z, P X Y Z → det3 (Spec.mat (J X Y Z)) ≠ 0)
    (h1 : Spec.FirstDerivs x dX P) (h2 : Spec.SecondDerivs x dX ddX P)
    (hopen : ∀ X Y Z t V, Spec.Moves X Y Z t V → P (X t) (Y t) (Z t) → ∀ᶠ s in 𝓝 t, P (X s) (Y s) (Z s))
    (n : Nat) (D DD : Nat → (Nat → ℝ) → Nat → ℝ) (ix d dd t : Nat → Nat) (m : Nat × Nat → ℝ)
    (hv : Spec.GenericVars ix d dd t) (ind : Nat) (hi : ind < n) (X Y Z : ℝ) (hP : P X Y Z)
    (e1 : ∀ i k, 1 ≤ i → i ≤ 3 → 1 ≤ k → k ≤ 3 →
      D k (fun j => m (ix i, j)) ind = J X Y Z (Spec.ix i) (Spec.ix k))
    (e2 : ∀ i j k, 1 ≤ i → i ≤ 3 → 1 ≤ j → j ≤ k → k ≤ 3 →
      DD (4 + Spec.sixth j k) (fun j => m (ix i, j)) ind = H X Y Z (Spec.ix i) (Spec.pair (Spec.ix j) (Spec.ix k))) :
    let m' := initSecond n DD ix d dd t (initFirst eps n D ix d m)
    (∀ i k, 1 ≤ i → i ≤ 3 → 1 ≤ k → k ≤ 3 → m' (d i + (k - 1), ind) = dX X Y Z (Spec.ix i) (Spec.ix k)) ∧
    ∀ i j k, 1 ≤ i → i ≤ 3 → 1 ≤ j → j ≤ k → k ≤ 3 → m' (dd i + Spec.sixth j k, ind) =
      ddX X Y Z (Spec.ix i) (Spec.pair (Spec.ix j) (Spec.ix k)) := by
  have g1 := C69_first eps hJ hdet
  have g2 := C69_second eps hJ hH hdet
  have u1 := fun a b c (h : P a b c) => FirstDerivs_unique g1 h1 a b c h
  have g2' : Spec.SecondDerivs x dX (fun X Y Z i p => secondInverse (inverse3 eps (Spec.mat (J X Y Z)))
      (Spec.mat2 (H X Y Z)) (i + 1) (Spec.ofPair p).1 (Spec.ofPair p).2) P := by
    intro X Y Z t V v hm hP hvv a i
    refine (g2 X Y Z t V v hm hP hvv a i).congr_of_eventuallyEq ((hopen X Y Z t V hm hP).mono fun s hs => ?_)
    exact (congrFun (congrFun (u1 _ _ _ hs) a) i).symm
  have u2 := SecondDerivs_unique h1 g2' h2 X Y Z hP
  obtain ⟨f1, f2⟩ := C69_generic_first eps n D ix d m hv.hd hv.hxd
  obtain ⟨s1, s2⟩ := C69_generic_second n DD ix d dd t (initFirst eps n D ix d m) hv.hdd hv.ht hv.htdd hv.hxdd hv.hxt
    hv.hddd hv.hdt
  have eM : inverse3 eps (fun a b => D b (fun j => m (ix a, j)) ind) = inverse3 eps (Spec.mat (J X Y Z)) :=
    inverse3_congr eps fun i j q1 q2 q3 q4 => e1 i j q1 q2 q3 q4
  have fx : ∀ i : Nat, 1 ≤ i → i ≤ 3 → ((Spec.ix i : Fin 3) : Nat) + 1 = i := by
    intro i q1 q2
    rcases three q1 q2 with rfl | rfl | rfl <;> rfl
  intro m'
  refine ⟨fun i k q1 q2 q3 q4 => ?_, fun i j k q1 q2 q3 q4 q5 => ?_⟩
  · have : m' (d i + (k - 1), ind) = initFirst eps n D ix d m (d i + (k - 1), ind) :=
      s2 _ _ (fun _ a b r1 r2 r3 => hv.hddd i (k - 1) a b q1 q2 (by omega) r1 r2 r3)
        fun _ c r1 r2 => hv.hdt i (k - 1) c q1 q2 (by omega) r1 r2
    rw [this, f1 i k ind q1 q2 q3 q4 hi, eM, ← u1 X Y Z hP]
    beta_reduce
    rw [fx i q1 q2, fx k q3 q4]
  · refine (s1 i j k ind q1 q2 q3 q4 q5 hi).trans ?_
    rw [← u2, fx i q1 q2]
    have pj : Spec.ofPair (Spec.pair (Spec.ix j) (Spec.ix k)) = (j, k) := by
      rcases three q3 (q4.trans q5) with rfl | rfl | rfl <;> rcases three (q3.trans q4) q5 with rfl | rfl | rfl <;>
        first | omega | rfl
    rw [pj]
    refine secondInverse_congr ⟨q1, q2⟩ ⟨q3, q4.trans q5⟩ ⟨q3.trans q4, q5⟩ (fun a b r1 r2 r3 r4 => ?_)
      fun a b c r1 r2 r3 r4 r5 => ?_
    · rw [f1 a b ind r1 r2 r3 r4 hi, eM]
    · unfold Spec.mat2
      rw [← e2 a b c r1 r2 r3 r4 r5]
      refine congrFun (congrArg _ (funext fun l => ?_)) _
      exact f2 _ _ fun _ a' b' t1 t2 t3 => hv.hxd a a' b' r1 r2 t1 t2 t3

/-- **C69**, where the code fails: if only the second derivatives are generic and the first derivatives are not stored
(`CoordinateTransforms_stored = no`), the variables of the first derivatives were just allocated and hold zeros. The
second derivatives are then zero whatever the transformation is. -/
theorem C69_unstored_counterexample {K : Type} [Field K] (n : Nat) (DD : Nat → (Nat → K) → Nat → K)
    (ix d dd t : Nat → Nat) (m : Nat × Nat → K) (hv : Spec.GenericVars ix d dd t)
    (h0 : ∀ i k ind, 1 ≤ i → i ≤ 3 → k < 3 → ind < n → m (d i + k, ind) = 0) (i j k ind : Nat) (h1 : 1 ≤ i) (h2 : i ≤ 3)
    (h3 : 1 ≤ j) (h4 : j ≤ k) (h5 : k ≤ 3) (h6 : ind < n) :
    initSecond n DD ix d dd t m (dd i + Spec.sixth j k, ind) = 0 := by
  rw [(C69_generic_second n DD ix d dd t m hv.hdd hv.ht hv.htdd hv.hxdd hv.hxt hv.hddd hv.hdt).1 i j k ind h1 h2 h3 h4
    h5 h6, secondInverse_eq]
  refine neg_eq_zero.mpr (Finset.sum_eq_zero fun a ha => ?_)
  rw [Finset.mem_Icc] at ha
  rw [h0 i (a - 1) ind h1 h2 (by omega) h6]
  simp

/-! ### Examples -/

/-- The matrix used in the examples. -/
def exJac : Nat → Nat → ℚ := fun i j => ([2, 1, 0, 0, 3, 1, 1, 0, 4] : List ℚ).getD (3 * (i - 1) + (j - 1)) 0

example : det3 exJac = 25 := by decide +kernel

example : (List.range' 1 3).map (fun i => (List.range' 1 3).map (inverse3 (1 / 10) exJac i)) =
    [[12 / 25, -4 / 25, 1 / 25], [1 / 25, 8 / 25, -2 / 25], [-3 / 25, 1 / 25, 6 / 25]] := by decide +kernel

/-- Second derivatives used in the examples. -/
def exHess : Nat → Nat → Nat → ℚ := fun i j k => (i + 2 * j + 3 * k * k : ℕ)

example : (List.range' 1 3).map (fun i => secondInverse (inverse3 (1 / 10) exJac) exHess i 1 2) =
    [-1978 / 3125, -1594 / 3125, -1018 / 3125] := by decide +kernel

example : (List.range' 1 3).map (fun i => secondComp exJac (inverse3 (1 / 10) exJac) exHess exHess i 1 3) =
    [11682 / 125, 15942 / 125, 20077 / 125] := by decide +kernel

/-- The variables of the examples. -/
theorem exGenVars : Spec.GenericVars (fun i => i - 1) (fun i => 3 * i) (fun i => 12 + 6 * (i - 1)) (fun i => 29 + i) := by
  constructor <;> (try unfold Spec.Apart) <;> intros <;> beta_reduce at * <;> omega

/-- A box with two points. -/
def exPoints : Nat × Nat → ℚ := fun p => if p.1 < 3 then (p.1 + 1) ^ 2 + p.2 else (p.1 * p.1 % 7 : ℕ)

example : (List.range 13).map (fun v => initFirst (K := ℚ) (1 / 10) 2 (fun k a ind => a ind ^ k)
    (fun i => i - 1) (fun i => 3 * i) exPoints (v, 1)) =
    [2, 5, 10, 25 / 24, -4 / 15, 1 / 40, -5 / 16, 4 / 25, -7 / 400, 1 / 48, -1 / 75, 1 / 400, 4] := by decide +kernel

example : (List.range 34).map (fun v => initSecond (K := ℚ) 1 (fun k a ind => k * a ind)
    (fun i => i - 1) (fun i => 3 * i) (fun i => 12 + 6 * (i - 1)) (fun i => 29 + i) exPoints (v, 0)) =
    [1, 4, 9, 2, 2, 4, 1, 0, 1, 4, 2, 2, -15962, -8556, -14214, -4600, -7636, -12650, -3470, -1860, -3090, -1000,
      -1660, -2750, -10410, -5580, -9270, -3000, -4980, -8250, 9, 18, 27, 4] := by decide +kernel

end Sgrid

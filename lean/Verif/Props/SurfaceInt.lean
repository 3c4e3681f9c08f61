import Verif.Model.SurfaceInt
import Verif.Props.TransfDerivs
import Verif.Props.StdBox

/-!
Property C100: surface integrals.
-/

namespace Sgrid

/-- The other two directions of a surface of constant coordinate `norm`. -/
def Spec.tangents (norm : Nat) : Nat × Nat :=
  if norm = 1 then (2, 3) else if norm = 2 then (1, 3) else (1, 2)

/-- The scalar product of the columns `a` and `b` of the matrix `J`. -/
def Spec.dot (J g : Nat → Nat → ℝ) (a b : Nat) : ℝ :=
  ∑ i ∈ Finset.Icc 1 3, ∑ j ∈ Finset.Icc 1 3, J i a * g i j * J j b

/-- The surface element: the area of the parallelogram that is spanned by two columns of the Jacobian matrix. -/
noncomputable def Spec.area (norm : Nat) (J g : Nat → Nat → ℝ) : ℝ :=
  let (a, b) := Spec.tangents norm
  Real.sqrt |Spec.dot J g a a * Spec.dot J g b b - Spec.dot J g a b * Spec.dot J g b a|

theorem boxMetric_eq (J g : Nat → Nat → ℝ) {a b : Nat} (ha : 1 ≤ a) (ha' : a ≤ 3) :
    boxMetric J g a b = Spec.dot J g a b := by
  unfold boxMetric Spec.dot
  rw [product3_eq, product3_eq]
  unfold Spec.mul3
  refine Finset.sum_congr rfl fun i hi => ?_
  rw [Finset.mem_Icc] at hi
  rw [C69_transpose J ha ha' hi.1 hi.2, Finset.mul_sum]
  exact Finset.sum_congr rfl fun j _ => by ring

/-- **C100**, surface element: the number computed at a point is the area of the parallelogram spanned by the two
tangent vectors of the surface. -/
theorem C100_element (norm : Nat) (J g : Nat → Nat → ℝ) :
    (det2 norm (boxMetric J g)).map (fun d => Real.sqrt |d|) =
      if 1 ≤ norm ∧ norm ≤ 3 then .ok (Spec.area norm J g) else .abort := by
  by_cases h1 : norm = 1
  · subst h1
    simp [det2, Spec.area, Spec.tangents, boxMetric_eq, Res.map]
  by_cases h2 : norm = 2
  · subst h2
    simp [det2, Spec.area, Spec.tangents, boxMetric_eq, Res.map]
  by_cases h3 : norm = 3
  · subst h3
    simp [det2, Spec.area, Spec.tangents, boxMetric_eq, Res.map]
  rw [if_neg (by omega)]
  unfold det2
  rw [if_neg h1, if_neg h2, if_neg h3]
  rfl

/-- The cross product of two columns of the Jacobian matrix. -/
def Spec.cross (J : Nat → Nat → ℝ) (a b : Nat) : Fin 3 → ℝ := fun i => match i with
  | 0 => J 2 a * J 3 b - J 3 a * J 2 b
  | 1 => J 3 a * J 1 b - J 1 a * J 3 b
  | 2 => J 1 a * J 2 b - J 2 a * J 1 b

/-- **C100**, flat space: the surface element is the length of the cross product of the tangent vectors. -/
theorem C100_flat (norm : Nat) (J : Nat → Nat → ℝ) :
    Spec.area norm J (fun i j => if i = j then 1 else 0) =
      Real.sqrt (∑ i, Spec.cross J (Spec.tangents norm).1 (Spec.tangents norm).2 i ^ 2) := by
  unfold Spec.area
  generalize Spec.tangents norm = ab
  obtain ⟨a, b⟩ := ab
  simp only
  have e : Spec.dot J (fun i j => if i = j then 1 else 0) a a * Spec.dot J (fun i j => if i = j then 1 else 0) b b -
      Spec.dot J (fun i j => if i = j then 1 else 0) a b * Spec.dot J (fun i j => if i = j then 1 else 0) b a =
      ∑ i, Spec.cross J a b i ^ 2 := by
    unfold Spec.dot
    simp only [sumIcc, Fin.sum_univ_three, Spec.cross]
    simp
    ring
  rw [e, abs_of_nonneg]
  exact Finset.sum_nonneg fun i _ => sq_nonneg _

/-- The Jacobian matrix at a point: the inverse of the stored derivatives, or the identity. -/
def Spec.IsJac (b : SurfBox) (r : Nat → ℝ) (J : Nat → Nat → ℝ) : Prop :=
  ∀ i k, 1 ≤ i → i ≤ 3 → 1 ≤ k → k ≤ 3 →
    if b.trafo then Spec.mul3 (fun i k => r (b.d i + (k - 1))) J i k = if i = k then 1 else 0
    else J i k = if i = k then 1 else 0

theorem det3_mul (A B : Nat → Nat → ℝ) : det3 (Spec.mul3 A B) = det3 A * det3 B := by
  unfold Spec.mul3 det3
  simp only [sumIcc]
  ring

theorem mul3_assoc (A B C : Nat → Nat → ℝ) : Spec.mul3 (Spec.mul3 A B) C = Spec.mul3 A (Spec.mul3 B C) := by
  funext i j
  unfold Spec.mul3
  simp only [sumIcc]
  ring

/-- The inverse matrix is unique. -/
theorem inverse3_unique (eps : ℝ) (M J : Nat → Nat → ℝ)
    (h : ∀ i k, 1 ≤ i → i ≤ 3 → 1 ≤ k → k ≤ 3 → Spec.mul3 M J i k = if i = k then 1 else 0) :
    ∀ i k, 1 ≤ i → i ≤ 3 → 1 ≤ k → k ≤ 3 → inverse3 eps M i k = J i k := by
  have hd : det3 M ≠ 0 := by
    intro h0
    have e := det3_mul M J
    rw [h0, zero_mul] at e
    have e1 : det3 (Spec.mul3 M J) = 1 := by
      unfold det3
      rw [h 1 1, h 1 2, h 1 3, h 2 1, h 2 2, h 2 3, h 3 1, h 3 2, h 3 3] <;> norm_num
    rw [e1] at e
    exact one_ne_zero e
  intro i k h1 h2 h3 h4
  have e := congrFun (congrFun (mul3_assoc (inverse3 eps M) M J) i) k
  have e2 : Spec.mul3 (inverse3 eps M) (Spec.mul3 M J) i k = inverse3 eps M i k := by
    conv_lhs => rw [Spec.mul3, sumIcc, h 1 k (by omega) (by omega) h3 h4, h 2 k (by omega) (by omega) h3 h4,
      h 3 k (by omega) (by omega) h3 h4]
    rcases three h3 h4 with rfl | rfl | rfl <;> simp
  have e1 : Spec.mul3 (Spec.mul3 (inverse3 eps M) M) J i k = J i k := by
    conv_lhs => rw [Spec.mul3, sumIcc, (C69_inverse eps M hd h1 h2 (j := 1) (by omega) (by omega)).2,
      (C69_inverse eps M hd h1 h2 (j := 2) (by omega) (by omega)).2,
      (C69_inverse eps M hd h1 h2 (j := 3) (by omega) (by omega)).2]
    rcases three h1 h2 with rfl | rfl | rfl <;> simp
  rw [← e2, ← e, e1]

/-- The metric that is used at a point: the six stored components, or the identity. -/
def Spec.metricAt (b : SurfBox) (r : Nat → ℝ) (i j : Nat) : ℝ :=
  match b.ig with
  | none => if i = j then 1 else 0
  | some ig => r (ig + Spec.sixth (min i j) (max i j))

theorem metric_eq (b : SurfBox) (r : Nat → ℝ) {i j : Nat} (h1 : 1 ≤ i) (h2 : i ≤ 3) (h3 : 1 ≤ j) (h4 : j ≤ 3) :
    b.metric r i j = Spec.metricAt b r i j := by
  unfold SurfBox.metric Spec.metricAt
  cases b.ig with
  | none => rfl
  | some ig => rcases three h1 h2 with rfl | rfl | rfl <;> rcases three h3 h4 with rfl | rfl | rfl <;> rfl

theorem area_congr (norm : Nat) {J J' g g' : Nat → Nat → ℝ}
    (h : ∀ i k, 1 ≤ i → i ≤ 3 → 1 ≤ k → k ≤ 3 → J i k = J' i k)
    (h' : ∀ i k, 1 ≤ i → i ≤ 3 → 1 ≤ k → k ≤ 3 → g i k = g' i k) : Spec.area norm J g = Spec.area norm J' g' := by
  have e : ∀ a b, 1 ≤ a → a ≤ 3 → 1 ≤ b → b ≤ 3 → Spec.dot J g a b = Spec.dot J' g' a b := by
    intro a b q1 q2 q3 q4
    unfold Spec.dot
    refine Finset.sum_congr rfl fun i hi => Finset.sum_congr rfl fun j hj => ?_
    rw [Finset.mem_Icc] at hi hj
    rw [h i a hi.1 hi.2 q1 q2, h j b hj.1 hj.2 q3 q4, h' i j hi.1 hi.2 hj.1 hj.2]
  unfold Spec.area Spec.tangents
  split_ifs <;> simp only <;> simp only [e, Nat.le_refl, Nat.one_le_ofNat, Nat.reduceLeDiff]

/-- **C100**, integrand: the pass for a point stores the value times the surface element. -/
theorem surfacePass_eq (b : SurfBox) (eps : ℝ) (norm u U i : Nat) (mem : Arrays ℝ) (J : Nat → Nat → ℝ)
    (hn : 1 ≤ norm ∧ norm ≤ 3) (hs : b.trafo → b.stored) (hJ : Spec.IsJac b (fun v => mem v i) J) :
    surfacePass b eps norm u U i mem = .ok (aset mem U (aset (mem U) i
      (mem u i * Spec.area norm J (Spec.metricAt b fun v => mem v i)))) := by
  have key : ∃ J', b.jac eps (fun v => mem v i) = .ok J' ∧ ∀ i k, 1 ≤ i → i ≤ 3 → 1 ≤ k → k ≤ 3 → J' i k = J i k := by
    unfold SurfBox.jac
    unfold Spec.IsJac at hJ
    cases ht : b.trafo with
    | true =>
      rw [ht] at hJ
      rw [if_pos (rfl : true = true), if_pos (hs ht)]
      exact ⟨_, rfl, inverse3_unique eps _ J hJ⟩
    | false =>
      rw [ht] at hJ
      exact ⟨_, rfl, fun i k q1 q2 q3 q4 => (hJ i k q1 q2 q3 q4).symm⟩
  obtain ⟨J', e, hJ'⟩ := key
  unfold surfacePass
  simp only
  rw [e, Res.bind_ok]
  have el := C100_element norm J' (b.metric fun v => mem v i)
  rw [if_pos hn] at el
  cases hd : det2 norm (boxMetric J' (b.metric fun v => mem v i)) with
  | ok d =>
    rw [hd] at el
    have el' : Real.sqrt |d| = Spec.area norm J' (b.metric fun v => mem v i) := by simpa [Res.map] using el
    rw [Res.bind_ok]
    simp only [el']
    rw [area_congr norm hJ' fun i k q1 q2 q3 q4 => metric_eq b (fun v => mem v _) q1 q2 q3 q4]
  | abort => rw [hd] at el; cases el
  | ub => rw [hd] at el; cases el

/-- The loop over the points. -/
theorem surfaceLoop (sb : SurfBox) (eps : ℝ) (norm u U : Nat) (mem : Arrays ℝ) (n : Nat) (J : Nat → Nat → Nat → ℝ)
    (hn : 1 ≤ norm ∧ norm ≤ 3) (hs : sb.trafo → sb.stored)
    (hJ : ∀ p, p < n → Spec.IsJac sb (fun v => mem v p) (J p)) :
    ∃ m', upLoop 0 n (fun i (r : Res (Arrays ℝ)) => r.bind (surfacePass sb eps norm u U i)) (Res.ok mem) = .ok m' ∧
      (∀ p, p < n → m' U p = mem u p * Spec.area norm (J p) (Spec.metricAt sb fun v => mem v p)) ∧
      ∀ v p, (v = U → n ≤ p) → m' v p = mem v p := by
  refine upLoop_inv (Nat.zero_le n) (fun N (r : Res (Arrays ℝ)) => ∃ m', r = .ok m' ∧
      (∀ p, p < N → m' U p = mem u p * Spec.area norm (J p) (Spec.metricAt sb fun v => mem v p)) ∧
      ∀ v p, (v = U → N ≤ p) → m' v p = mem v p)
    ⟨mem, rfl, fun _ h => by omega, fun _ _ _ => rfl⟩ ?_
  rintro i r - hi ⟨m', rfl, i1, i2⟩
  have e : ∀ v, m' v i = mem v i := fun v => i2 v i fun _ => le_refl i
  have e' : (fun v => m' v i) = fun v => mem v i := funext e
  have hJ' : Spec.IsJac sb (fun v => m' v i) (J i) := by rw [e']; exact hJ i hi
  rw [Res.bind_ok, surfacePass_eq sb eps norm u U i m' (J i) hn hs hJ', e', e u]
  refine ⟨_, rfl, fun p hp => ?_, fun v p hv => ?_⟩
  · rw [aset_self]
    by_cases h : p = i
    · subst h; rw [aset_self]
    · rw [aset_ne _ _ h]; exact i1 p (by omega)
  · by_cases h : v = U
    · subst h
      have := hv rfl
      rw [aset_self, aset_ne _ _ (by omega)]
      exact i2 _ _ fun _ => by omega
    · rw [aset_ne _ _ h]
      exact i2 _ _ fun q => absurd q h

/-- The direction with a number. -/
def Spec.direction : Nat → Axis
  | 1 => .one
  | 2 => .two
  | _ => .three

/-- **C100.** `spec_SurfaceIntegral` gives at every point the integral of `u` over the surface of constant coordinate
`norm` through the point with the surface element of the metric, provided that `u` times the surface element is a
function that the basis of the box represents exactly. Only the array of the results is changed. -/
theorem C100_surface {g : Nat → (Nat → ℝ) × (Nat → ℝ) × (Nat → ℝ)} (D : Axis → BDir) (hD : ∀ ax, (D ax).good)
    (fft : Axis → Bool) (W F : Axis → Nat → ℝ) (sb : SurfBox) (eps : ℝ) (norm u U : Nat) (mem : Arrays ℝ)
    (J : Nat → Nat → Nat → ℝ) (hn : 1 ≤ norm ∧ norm ≤ 3) (hs : sb.trafo → sb.stored)
    (hJ : ∀ i j k, Spec.inBox (dirDims D) i j k →
      Spec.IsJac sb (fun v => mem v ((dirDims D).idx i j k)) (J ((dirDims D).idx i j k)))
    (Q : ℝ → ℝ → ℝ → ℝ) (hQ : Separately (D .one).space (D .two).space (D .three).space Q)
    (hu : ∀ i j k, Spec.inBox (dirDims D) i j k →
      mem u ((dirDims D).idx i j k) * Spec.area norm (J ((dirDims D).idx i j k))
        (Spec.metricAt sb fun v => mem v ((dirDims D).idx i j k)) =
      Q ((D .one).point i) ((D .two).point j) ((D .three).point k)) :
    ∃ mem', specSurfaceIntegral g (stdBox D fft W F) (fun ax => (D ax).method) (fun ax => (D ax).a)
        (fun ax => (D ax).b) sb eps norm u U mem = .ok mem' ∧
      (∀ i j k, Spec.inBox (dirDims D) i j k → mem' U ((dirDims D).idx i j k) =
        Spec.surface D (Spec.direction norm) Q i j k) ∧
      ∀ a, a ≠ U → mem' a = mem a := by
  obtain ⟨m1, e1, f1, f2⟩ := surfaceLoop sb eps norm u U mem ((dirDims D).n1 * (dirDims D).n2 * (dirDims D).n3) J hn hs
    (fun p hp => by
      obtain ⟨i, j, k, hi, rfl⟩ := idx_surj (dirDims D) p hp
      exact hJ i j k hi)
  obtain ⟨m2, e2, h1, h2⟩ := C73_integral2d (g := g) D hD fft W F (axisOf norm) U U m1 Q hQ fun i j k hb => by
    rw [← hu i j k hb]
    exact f1 _ (idx_lt hb)
  have hax : axisOf norm = Spec.direction norm := by
    obtain ⟨n1, n3⟩ := hn
    have : norm = 1 ∨ norm = 2 ∨ norm = 3 := by omega
    rcases this with rfl | rfl | rfl <;> rfl
  refine ⟨m2, ?_, hax ▸ h1, fun a ha => ?_⟩
  · unfold specSurfaceIntegral
    rw [show (stdBox D fft W F).d = dirDims D from rfl, e1, Res.bind_ok, e2]
  · rw [h2 a ha]
    funext p
    exact f2 a p fun q => absurd q ha

/-- **C100**, wrong use: another value of `norm`, or a transformation whose derivatives are not stored, stops the
program. -/
theorem C100_abort (g : Nat → (Nat → ℝ) × (Nat → ℝ) × (Nat → ℝ)) (b : LBox ℝ)
    (meth : Axis → IMethod) (lo hi : Axis → ℝ) (sb : SurfBox) (eps : ℝ) (norm u U : Nat) (mem : Arrays ℝ)
    (hn : 0 < b.d.n1 * b.d.n2 * b.d.n3) (h : ¬ (1 ≤ norm ∧ norm ≤ 3) ∨ sb.trafo ∧ sb.stored = false) :
    specSurfaceIntegral g b meth lo hi sb eps norm u U mem = .abort := by
  have key : ∀ i m, surfacePass sb eps norm u U i m = .abort := by
    intro i m
    unfold surfacePass
    simp only
    cases hj : sb.jac eps (fun v => m v i) with
    | abort => rfl
    | ub =>
      unfold SurfBox.jac at hj
      split_ifs at hj
    | ok J =>
      rcases h with h | ⟨h1, h2⟩
      · have el := C100_element norm J (sb.metric fun v => m v i)
        rw [if_neg h] at el
        rw [Res.bind_ok]
        cases hd : det2 norm (boxMetric J (sb.metric fun v => m v i)) with
        | ok d => rw [hd] at el; cases el
        | abort => rfl
        | ub => rw [hd] at el; cases el
      · unfold SurfBox.jac at hj
        rw [h1, h2] at hj
        simp at hj
  unfold specSurfaceIntegral
  have := upLoop_inv (show 1 ≤ b.d.n1 * b.d.n2 * b.d.n3 from hn)
    (body := fun i (r : Res (Arrays ℝ)) => r.bind (surfacePass sb eps norm u U i))
    (s := (Res.ok mem).bind (surfacePass sb eps norm u U 0)) (fun _ r => r = .abort) (key 0 mem)
    (fun j r _ _ hr => by rw [hr]; rfl)
  have e : upLoop 0 (b.d.n1 * b.d.n2 * b.d.n3) (fun i (r : Res (Arrays ℝ)) => r.bind (surfacePass sb eps norm u U i))
      (Res.ok mem) = .abort := by
    rw [← this]
    obtain ⟨k, hk⟩ := Nat.exists_eq_succ_of_ne_zero (Nat.ne_of_gt hn)
    rw [hk]
    rfl
  rw [e]
  rfl

/-! ### Examples -/

/-- A point of a surface where the tangent vectors `(0, 2, 0)` and `(0, 0, 1)` span a rectangle of area 2. -/
example : Spec.area 1 (fun i j => ([1, 0, 0, 0, 2, 0, 0, 0, 1] : List ℝ).getD (3 * (i - 1) + (j - 1)) 0)
    (fun i j => if i = j then 1 else 0) = 2 := by
  rw [C100_flat]
  simp [Spec.tangents, Spec.cross, Fin.sum_univ_three]

/-- With the metric `4 delta` lengths are doubled and areas are four times as large. -/
example : (det2 (K := ℚ) 3 (boxMetric (fun i j => ([1, 2, 0, 1, 3, 0, 0, 1, 1] : List ℚ).getD (3 * (i - 1) + (j - 1)) 0)
    fun i j => if i = j then 4 else 0)).map (fun d => d) = .ok (16 * 3) := by decide +kernel

end Sgrid

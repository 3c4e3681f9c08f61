import Verif.Model.Interbox
import Verif.Props.InPlane

/-!
# C105: boundary conditions between boxes
-/

namespace Sgrid
open Finset

/-! ## Statements -/

/-- Three components. -/
def Spec.dot3 {K : Type} [Field K] (x y : Nat → K) : K := x 1 * y 1 + x 2 * y 2 + x 3 * y 3

/-- `m'` has `val x` in variable `v0` of box `b0` at the points of `S`, and all else is as in `m`. -/
def Spec.SetOn {K : Type} (b0 v0 : Nat) (S : Nat → Prop) (val : Nat → K) (m m' : Nat → Arrays K) : Prop :=
  (∀ x, S x → m' b0 v0 x = val x) ∧ ∀ b v x, ¬ (b = b0 ∧ v = v0 ∧ S x) → m' b v x = m b v x

/-- Agreement in all but one variable of one box. -/
def Spec.Keeps {K : Type} (b0 v0 : Nat) (m m' : Nat → Arrays K) : Prop :=
  ∀ b v x, ¬ (b = b0 ∧ v = v0) → m' b v x = m b v x

/-- `FPsi` is none of the variables that are read. -/
def Spec.Fresh {K : Type} (a : FIds) (bf : IFace) (nb : NBox K) : Prop :=
  a.iF ≠ a.iP ∧ (a.iF ≠ a.idP 1 ∧ a.iF ≠ a.idP 2 ∧ a.iF ≠ a.idP 3) ∧
  (a.iF ≠ bf.oXi.toNat ∧ a.iF ≠ bf.oYi.toNat ∧ a.iF ≠ bf.oZi.toNat) ∧
  (a.iF ≠ nb.iX ∧ a.iF ≠ nb.iX + 1 ∧ a.iF ≠ nb.iX + 2) ∧
  ∀ c, a.iF ≠ nb.idX c ∧ a.iF ≠ nb.idX c + 1 ∧ a.iF ≠ nb.idX c + 2

/-! ## Normals -/

section normal

/-- The sign: odd faces are at the upper end. -/
theorem faceSig_cases (f : Int) (h0 : 0 ≤ f) : (f % 2 = 1 ∧ faceSig f = 1) ∨ (f % 2 = 0 ∧ faceSig f = -1) := by
  unfold faceSig
  rw [Int.tmod_eq_emod_of_nonneg h0]
  omega

theorem faceDir_eq (f : Int) (h0 : 0 ≤ f) : (faceDir f : Int) = 1 + f / 2 := by
  unfold faceDir
  rw [Int.tdiv_eq_ediv_of_nonneg h0]
  omega

/-- What the normalisation gives: a vector of length 1 along `sig * g`. -/
theorem normalize_spec (sig : Int) (hs : sig = 1 ∨ sig = -1) (g : Nat → ℝ) (hg : ¬ (g 1 = 0 ∧ g 2 = 0 ∧ g 3 = 0)) :
    let n := normalizeSig Real.sqrt sig g
    ∃ c : ℝ, 0 < c ∧ (∀ j, 1 ≤ j → j ≤ 3 → n j = (sig : ℝ) * c * g j) ∧ Spec.dot3 n n = 1 := by
  set q := g 1 * g 1 + g 2 * g 2 + g 3 * g 3 with hq
  have hpos : 0 < q := by
    by_contra h
    refine hg ⟨?_, ?_, ?_⟩ <;> nlinarith [mul_self_nonneg (g 1), mul_self_nonneg (g 2), mul_self_nonneg (g 3)]
  have hr : 0 < Real.sqrt q := Real.sqrt_pos.2 hpos
  have hsq : Real.sqrt q * Real.sqrt q = q := Real.mul_self_sqrt hpos.le
  have hsig : (sig : ℝ) = 1 ∨ (sig : ℝ) = -1 := by rcases hs with h | h <;> simp [h]
  have hs2 : (sig : ℝ) * sig = 1 := by rcases hsig with h | h <;> rw [h] <;> norm_num
  have hs0 : (sig : ℝ) ≠ 0 := by rcases hsig with h | h <;> rw [h] <;> norm_num
  have hne : (sig : ℝ) * Real.sqrt q ≠ 0 := mul_ne_zero hs0 hr.ne'
  have hn : ∀ x : ℝ, x / ((sig : ℝ) * Real.sqrt q) = (sig : ℝ) * (Real.sqrt q)⁻¹ * x := by
    intro x
    rw [div_eq_iff hne]
    calc x = 1 * (Real.sqrt q)⁻¹ * Real.sqrt q * x := by field_simp
      _ = _ := by rw [← hs2]; ring
  have hN : ∀ j, 1 ≤ j → j ≤ 3 → normalizeSig Real.sqrt sig g j = (sig : ℝ) * (Real.sqrt q)⁻¹ * g j := by
    intro j h1 h3
    have e : (if (sig : ℝ) * Real.sqrt q = 0 then (sig : ℝ) else (sig : ℝ) * Real.sqrt q) = sig * Real.sqrt q :=
      if_neg hne
    unfold normalizeSig vecN
    simp only [← hq, e, hn]
    obtain rfl | rfl | rfl : j = 1 ∨ j = 2 ∨ j = 3 := by omega
    all_goals simp
  refine ⟨(Real.sqrt q)⁻¹, inv_pos.2 hr, hN, ?_⟩
  unfold Spec.dot3
  rw [hN 1 (by omega) (by omega), hN 2 (by omega) (by omega), hN 3 (by omega) (by omega)]
  calc _ = ((sig : ℝ) * sig) * ((Real.sqrt q)⁻¹ * (Real.sqrt q)⁻¹) * q := by rw [hq]; ring
    _ = (Real.sqrt q * Real.sqrt q)⁻¹ * q := by rw [hs2, mul_inv]; ring
    _ = 1 := by rw [hsq]; field_simp

/-- The gradient of the coordinate that is constant on the face, as the box provides it at point `ijk`. -/
noncomputable def Spec.faceGrad (b : NBox ℝ) (v : Arrays ℝ) (ijk dir j : Nat) : ℝ :=
  if b.cart then (if j = dir then 1 else 0)
  else if b.hasVar then v (b.idX dir + (j - 1)) ijk
  else b.dXdx dir j (v b.iX ijk) (v (b.iX + 1) ijk) (v (b.iX + 2) ijk)

/-- What a normal has to be: of length 1, pointing to larger values of the coordinate with gradient `g` on odd faces
and to smaller values on even faces, and orthogonal to all vectors in the face. -/
def Spec.OutwardNormal (f : Int) (g n : Nat → ℝ) : Prop :=
  Spec.dot3 n n = 1 ∧ (f % 2 = 1 → 0 < Spec.dot3 g n) ∧ (f % 2 = 0 → Spec.dot3 g n < 0) ∧
    ∀ t, Spec.dot3 g t = 0 → Spec.dot3 n t = 0

theorem normalize_outward (f : Int) (h0 : 0 ≤ f) (g g' : Nat → ℝ) (hgg : ∀ j, 1 ≤ j → j ≤ 3 → g' j = g j)
    (hg : ¬ (g 1 = 0 ∧ g 2 = 0 ∧ g 3 = 0)) : Spec.OutwardNormal f g (normalizeSig Real.sqrt (faceSig f) g') := by
  have e1 := hgg 1 (by omega) (by omega)
  have e2 := hgg 2 (by omega) (by omega)
  have e3 := hgg 3 (by omega) (by omega)
  have hs := faceSig_cases f h0
  obtain ⟨c, hc, hn, hu⟩ := normalize_spec (faceSig f) (by omega) g' (by rw [e1, e2, e3]; exact hg)
  have n1 := hn 1 (by omega) (by omega)
  have n2 := hn 2 (by omega) (by omega)
  have n3 := hn 3 (by omega) (by omega)
  rw [e1] at n1
  rw [e2] at n2
  rw [e3] at n3
  have hpos : 0 < g 1 * g 1 + g 2 * g 2 + g 3 * g 3 := by
    by_contra h
    refine hg ⟨?_, ?_, ?_⟩ <;> nlinarith [mul_self_nonneg (g 1), mul_self_nonneg (g 2), mul_self_nonneg (g 3)]
  have hd : Spec.dot3 g (normalizeSig Real.sqrt (faceSig f) g') =
      (faceSig f : ℝ) * (c * (g 1 * g 1 + g 2 * g 2 + g 3 * g 3)) := by
    unfold Spec.dot3
    rw [n1, n2, n3]
    ring
  have hp := mul_pos hc hpos
  refine ⟨hu, fun ho => ?_, fun ho => ?_, fun t ht => ?_⟩
  · rw [hd, show faceSig f = 1 by omega]
    push_cast
    linarith
  · rw [hd, show faceSig f = -1 by omega]
    push_cast
    linarith
  · unfold Spec.dot3 at ht ⊢
    rw [n1, n2, n3]
    calc _ = (faceSig f : ℝ) * c * (g 1 * t 1 + g 2 * t 2 + g 3 * t 3) := by ring
      _ = 0 := by rw [ht, mul_zero]

/-- **C105.** `boxface_normal_at_ijk` gives the outward unit normal of the face. -/
theorem C105_normal (b : NBox ℝ) (f : Int) (h0 : 0 ≤ f) (h5 : f ≤ 5) (ijk : Nat) (v : Arrays ℝ)
    (dir : Nat) (hdir : (dir : Int) = 1 + f / 2)
    (hg : ¬ (Spec.faceGrad b v ijk dir 1 = 0 ∧ Spec.faceGrad b v ijk dir 2 = 0 ∧ Spec.faceGrad b v ijk dir 3 = 0)) :
    ∃ n, normalAtIjk Real.sqrt b f ijk v = .ok n ∧ Spec.OutwardNormal f (Spec.faceGrad b v ijk dir) n := by
  have hd : faceDir f = dir := by have := faceDir_eq f h0; omega
  unfold normalAtIjk
  rw [if_neg (by omega)]
  refine ⟨_, rfl, normalize_outward f h0 _ _ ?_ hg⟩
  intro j h1 h3
  rw [hd]
  unfold Spec.faceGrad dirVec
  cases b.cart <;> cases b.hasVar <;>
    simp [show b.idX dir + j - 1 = b.idX dir + (j - 1) by omega, aset, Function.update_apply]

/-- **C105.** `boxface_normal_at_XYZ` does the same with the functions. -/
theorem C105_normal_XYZ (b : NBox ℝ) (f : Int) (h0 : 0 ≤ f) (h5 : f ≤ 5) (X Y Z : ℝ)
    (dir : Nat) (hdir : (dir : Int) = 1 + f / 2) (g : Nat → ℝ)
    (hgd : ∀ j, g j = if b.cart then (if j = dir then 1 else 0) else b.dXdx dir j X Y Z)
    (hg : ¬ (g 1 = 0 ∧ g 2 = 0 ∧ g 3 = 0)) :
    ∃ n, normalAtXYZ Real.sqrt b f X Y Z = .ok n ∧ Spec.OutwardNormal f g n := by
  have hd : faceDir f = dir := by have := faceDir_eq f h0; omega
  unfold normalAtXYZ
  rw [if_neg (by omega)]
  refine ⟨_, rfl, normalize_outward f h0 _ _ ?_ hg⟩
  intro j _ _
  rw [hgd, hd]
  unfold dirVec
  cases b.cart <;> simp [aset, Function.update_apply]

/-- **C105.** A gradient that vanishes gives no normal: the result is zero. -/
theorem C105_normal_zero (sqrt : ℝ → ℝ) (f : Int) (g : Nat → ℝ)
    (hg : g 1 = 0 ∧ g 2 = 0 ∧ g 3 = 0) (j : Nat) : normalizeSig sqrt (faceSig f) g j = 0 := by
  obtain ⟨h1, h2, h3⟩ := hg
  unfold normalizeSig vecN
  simp [h1, h2, h3]

/-- **C105.** Other numbers of faces are errors. -/
theorem C105_normal_abort {K : Type} [Field K] [LinearOrder K] (sqrt : K → K) (b : NBox K) (f : Int)
    (h : f < 0 ∨ 5 < f) (ijk : Nat) (v : Arrays K) (X Y Z : K) :
    normalAtIjk sqrt b f ijk v = .abort ∧ outwardAtIjk sqrt b f ijk v = .abort ∧
    normalAtXYZ sqrt b f X Y Z = .abort ∧ outwardAtXYZ sqrt b f X Y Z = .abort := by
  have h' : f > 5 ∨ f < 0 := by omega
  unfold normalAtIjk outwardAtIjk normalAtXYZ outwardAtXYZ
  simp [h']

/-- What the direction out of the box along a coordinate line has to be: length 1, the other two coordinates, with
gradients `G c`, do not change in this direction, and the coordinate of the face grows on odd faces and becomes
smaller on even ones. -/
def Spec.OutwardDir (f : Int) (dir : Nat) (G : Nat → Nat → ℝ) (n : Nat → ℝ) : Prop :=
  Spec.dot3 n n = 1 ∧ (∀ c, 1 ≤ c → c ≤ 3 → c ≠ dir → Spec.dot3 (G c) n = 0) ∧
    (f % 2 = 1 → 0 < Spec.dot3 (G dir) n) ∧ (f % 2 = 0 → Spec.dot3 (G dir) n < 0)

theorem normalize_dir (f : Int) (h0 : 0 ≤ f) (dir : Nat) (h1d : 1 ≤ dir) (h3d : dir ≤ 3) (G : Nat → Nat → ℝ)
    (t t' : Nat → ℝ) (htt : ∀ j, 1 ≤ j → j ≤ 3 → t' j = t j)
    (hinv : ∀ c, 1 ≤ c → c ≤ 3 → Spec.dot3 (G c) t = if c = dir then 1 else 0) :
    Spec.OutwardDir f dir G (normalizeSig Real.sqrt (faceSig f) t') := by
  have e1 := htt 1 (by omega) (by omega)
  have e2 := htt 2 (by omega) (by omega)
  have e3 := htt 3 (by omega) (by omega)
  have hs := faceSig_cases f h0
  have ht : ¬ (t' 1 = 0 ∧ t' 2 = 0 ∧ t' 3 = 0) := by
    rw [e1, e2, e3]
    rintro ⟨a1, a2, a3⟩
    have h := hinv dir h1d h3d
    rw [if_pos rfl] at h
    unfold Spec.dot3 at h
    rw [a1, a2, a3] at h
    simp at h
  obtain ⟨c, hc, hn, hu⟩ := normalize_spec (faceSig f) (by omega) t' ht
  have hd : ∀ d, 1 ≤ d → d ≤ 3 → Spec.dot3 (G d) (normalizeSig Real.sqrt (faceSig f) t') =
      (faceSig f : ℝ) * c * if d = dir then 1 else 0 := by
    intro d g1 g3
    rw [← hinv d g1 g3]
    unfold Spec.dot3
    rw [hn 1 (by omega) (by omega), hn 2 (by omega) (by omega), hn 3 (by omega) (by omega), e1, e2, e3]
    ring
  refine ⟨hu, fun d g1 g3 hne => ?_, fun ho => ?_, fun ho => ?_⟩
  · rw [hd d g1 g3, if_neg hne, mul_zero]
  · rw [hd dir h1d h3d, if_pos rfl, show faceSig f = 1 by omega]
    push_cast
    linarith
  · rw [hd dir h1d h3d, if_pos rfl, show faceSig f = -1 by omega]
    push_cast
    linarith

/-- **C105.** `boxface_outwarddir_at_ijk` leaves the box along the coordinate line, if `dx/dX` and `dX/dx` (here `G`)
are inverse to each other. -/
theorem C105_outward (b : NBox ℝ) (f : Int) (h0 : 0 ≤ f) (h5 : f ≤ 5) (ijk : Nat) (v : Arrays ℝ)
    (dir : Nat) (hdir : (dir : Int) = 1 + f / 2) (hc : b.cart = false) (hD : b.hasD dir = true)
    (G : Nat → Nat → ℝ)
    (hinv : ∀ c, 1 ≤ c → c ≤ 3 → Spec.dot3 (G c)
      (fun j => b.dxdX j dir (v b.iX ijk) (v (b.iX + 1) ijk) (v (b.iX + 2) ijk)) = if c = dir then 1 else 0) :
    ∃ n, outwardAtIjk Real.sqrt b f ijk v = .ok n ∧ Spec.OutwardDir f dir G n := by
  have hd : faceDir f = dir := by have := faceDir_eq f h0; omega
  unfold outwardAtIjk
  rw [if_neg (by omega), hc, hd, hD]
  exact ⟨_, rfl, normalize_dir f h0 dir (by omega) (by omega) G _ _ (fun _ _ _ => rfl) hinv⟩

/-- **C105.** The same for `boxface_outwarddir_at_XYZ`. -/
theorem C105_outward_XYZ (b : NBox ℝ) (f : Int) (h0 : 0 ≤ f) (h5 : f ≤ 5) (X Y Z : ℝ)
    (dir : Nat) (hdir : (dir : Int) = 1 + f / 2) (hc : b.cart = false) (hD : b.hasD dir = true)
    (G : Nat → Nat → ℝ)
    (hinv : ∀ c, 1 ≤ c → c ≤ 3 → Spec.dot3 (G c) (fun j => b.dxdX j dir X Y Z) = if c = dir then 1 else 0) :
    ∃ n, outwardAtXYZ Real.sqrt b f X Y Z = .ok n ∧ Spec.OutwardDir f dir G n := by
  have hd : faceDir f = dir := by have := faceDir_eq f h0; omega
  unfold outwardAtXYZ
  rw [if_neg (by omega), hc, hd, hD]
  exact ⟨_, rfl, normalize_dir f h0 dir (by omega) (by omega) G _ _ (fun _ _ _ => rfl) hinv⟩

/-- **C105.** Without `dx/dX`, and in Cartesian boxes, the direction is the normal. -/
theorem C105_outward_normal {K : Type} [Field K] [LinearOrder K] (sqrt : K → K) (b : NBox K) (f : Int)
    (ijk : Nat) (v : Arrays K) (X Y Z : K) (h : b.cart = true ∨ b.hasD (faceDir f) = false) :
    outwardAtIjk sqrt b f ijk v = normalAtIjk sqrt b f ijk v ∧
    outwardAtXYZ sqrt b f X Y Z = normalAtXYZ sqrt b f X Y Z := by
  unfold outwardAtIjk outwardAtXYZ normalAtIjk normalAtXYZ
  by_cases hf : f > 5 ∨ f < 0
  · simp [hf]
  · cases hc : b.cart
    · simp [hf, h.resolve_left (by simp [hc])]
    · simp [hf]

end normal

/-! ## The loop over the points -/

section loop
variable {K : Type} [Field K] [LinearOrder K]

omit [Field K] [LinearOrder K] in
theorem setF_same (b iF ind : Nat) (x : K) (m : Nat → Arrays K) : setF b iF ind x m b iF ind = x := by
  simp [setF, aset]

omit [Field K] [LinearOrder K] in
theorem setF_other (b iF ind : Nat) (x : K) (m : Nat → Arrays K) (b' v y : Nat) (h : ¬ (b' = b ∧ v = iF ∧ y = ind)) :
    setF b iF ind x m b' v y = m b' v y := by
  unfold setF aset
  by_cases h1 : b' = b
  · by_cases h2 : v = iF
    · have h3 : y ≠ ind := fun h3 => h ⟨h1, h2, h3⟩
      subst h1 h2
      simp [h3]
    · subst h1
      simp [h2]
  · simp [h1]

omit [Field K] [LinearOrder K] in
/-- A loop that sets, at the points of `S`, values that do not depend on what was set before. -/
theorem forPts_set (b iF : Nat) (S : Nat → Prop) (val : Nat → K) (m0 : Nat → Arrays K)
    (body : Nat → Nat → (Nat → Arrays K) → Res (Nat → Arrays K)) :
    ∀ (pts : List Nat) (p0 : Nat) (s : Nat → Arrays K), Spec.Keeps b iF m0 s →
      (∀ pi ind s, pts[pi]? = some ind → Spec.Keeps b iF m0 s →
        (S ind → body (p0 + pi) ind s = .ok (setF b iF ind (val ind) s)) ∧
        (¬ S ind → body (p0 + pi) ind s = .ok s)) →
      ∃ m', forPts body p0 pts s = .ok m' ∧ Spec.SetOn b iF (fun x => x ∈ pts ∧ S x) val s m' := by
  intro pts
  induction pts with
  | nil => exact fun p0 s _ _ => ⟨s, rfl, fun x h => absurd h.1 (by simp), fun _ _ _ _ => rfl⟩
  | cons ind rest ih =>
    intro p0 s hk hb
    have h0 := hb 0 ind s rfl hk
    have hrest : ∀ pi ind s, rest[pi]? = some ind → Spec.Keeps b iF m0 s →
        (S ind → body (p0 + 1 + pi) ind s = .ok (setF b iF ind (val ind) s)) ∧
        (¬ S ind → body (p0 + 1 + pi) ind s = .ok s) := by
      intro pi ind' s hp hk
      have h := hb (pi + 1) ind' s (by simpa using hp) hk
      rwa [show p0 + (pi + 1) = p0 + 1 + pi by omega] at h
    by_cases hS : S ind
    · obtain ⟨m', e, hv, hu⟩ := ih (p0 + 1) (setF b iF ind (val ind) s)
        (fun b' v x h => (setF_other b iF ind _ s b' v x fun h' => h ⟨h'.1, h'.2.1⟩).trans (hk b' v x h)) hrest
      refine ⟨m', ?_, fun x hx => ?_, fun b' v x hx => ?_⟩
      · unfold forPts
        rw [show body p0 ind s = _ from h0.1 hS]
        exact e
      · by_cases hr : x ∈ rest
        · exact hv x ⟨hr, hx.2⟩
        · have : x = ind := (List.mem_cons.1 hx.1).resolve_right hr
          subst this
          rw [hu b iF x fun h => hr h.2.2.1, setF_same]
      · rw [hu b' v x fun h => hx ⟨h.1, h.2.1, List.mem_cons_of_mem _ h.2.2.1, h.2.2.2⟩]
        exact setF_other b iF ind _ s b' v x fun h => hx ⟨h.1, h.2.1, by rw [h.2.2]; simp, by rw [h.2.2]; exact hS⟩
    · obtain ⟨m', e, hv, hu⟩ := ih (p0 + 1) s hk hrest
      refine ⟨m', ?_, fun x hx => ?_, fun b' v x hx => ?_⟩
      · unfold forPts
        rw [show body p0 ind s = _ from h0.2 hS]
        exact e
      · rcases List.mem_cons.1 hx.1 with h | h
        · exact absurd (h ▸ hx.2) hS
        · exact hv x ⟨h, hx.2⟩
      · exact hu b' v x fun h => hx ⟨h.1, h.2.1, List.mem_cons_of_mem _ h.2.2.1, h.2.2.2⟩

omit [Field K] [LinearOrder K] in
/-- A loop that sets values at some of its points. -/
theorem forPts_some (b iF : Nat) (S : Nat → Prop) (val : Nat → K) (m : Nat → Arrays K)
    (body : Nat → Nat → (Nat → Arrays K) → Res (Nat → Arrays K)) (pts : List Nat)
    (h : ∀ pi ind s, pts[pi]? = some ind → Spec.Keeps b iF m s →
      (S ind → body pi ind s = .ok (setF b iF ind (val ind) s)) ∧ (¬ S ind → body pi ind s = .ok s)) :
    ∃ m', forPts body 0 pts m = .ok m' ∧ Spec.SetOn b iF (fun x => x ∈ pts ∧ S x) val m m' :=
  forPts_set b iF S val m body pts 0 m (fun _ _ _ _ => rfl) fun pi ind s hp hk => by
    rw [Nat.zero_add]
    exact h pi ind s hp hk

omit [Field K] [LinearOrder K] in
/-- A loop that sets values at all of its points. -/
theorem forPts_all (b iF : Nat) (val : Nat → K) (m : Nat → Arrays K)
    (body : Nat → Nat → (Nat → Arrays K) → Res (Nat → Arrays K)) (pts : List Nat)
    (h : ∀ pi ind s, pts[pi]? = some ind → Spec.Keeps b iF m s →
      body pi ind s = .ok (setF b iF ind (val ind) s)) :
    ∃ m', forPts body 0 pts m = .ok m' ∧ Spec.SetOn b iF (· ∈ pts) val m m' := by
  obtain ⟨m', e, h1, h2⟩ := forPts_some b iF (fun _ => True) val m body pts fun pi ind s hp hk =>
    ⟨fun _ => h pi ind s hp hk, fun h => absurd trivial h⟩
  exact ⟨m', e, fun x hx => h1 x ⟨hx, trivial⟩, fun b v x hx => h2 b v x fun h => hx ⟨h.1, h.2.1, h.2.2.1⟩⟩

/-- The normal does not read `FPsi`. -/
theorem normalAtIjk_keeps (sqrt : K → K) (a : FIds) (bf : IFace) (nb : NBox K) (hfr : Spec.Fresh a bf nb)
    (m s : Nat → Arrays K) (hk : Spec.Keeps bf.b a.iF m s) (ind : Nat) :
    normalAtIjk sqrt nb bf.f ind (s bf.b) = normalAtIjk sqrt nb bf.f ind (m bf.b) := by
  obtain ⟨-, -, -, ⟨x0, x1, x2⟩, hd⟩ := hfr
  have k : ∀ v, a.iF ≠ v → s bf.b v ind = m bf.b v ind := fun v hv => hk _ _ _ fun h => hv h.2.symm
  obtain ⟨d0, d1, d2⟩ := hd (faceDir bf.f)
  unfold normalAtIjk
  simp only [k _ x0, k _ x1, k _ x2]
  split
  · rfl
  · congr 1
    unfold normalizeSig
    have e1 : nb.idX (faceDir bf.f) + 1 - 1 = nb.idX (faceDir bf.f) := by omega
    have e2 : nb.idX (faceDir bf.f) + 2 - 1 = nb.idX (faceDir bf.f) + 1 := by omega
    have e3 : nb.idX (faceDir bf.f) + 3 - 1 = nb.idX (faceDir bf.f) + 2 := by omega
    cases nb.cart <;> cases nb.hasVar <;> simp [e1, e2, e3, k _ d0, k _ d1, k _ d2]

end loop

/-! ## Interpolation -/

/-- The other box has directions `D`, and variable `v` of it has the values of a function `Q` that its bases resolve. -/
def Spec.Resolved (D : Axis → BDir) (ob : Nat) (m : Nat → Arrays ℝ) (v : Nat) (Q : ℝ → ℝ → ℝ → ℝ) : Prop :=
  Separately (D .one).space (D .two).space (D .three).space Q ∧
  ∀ i j k, Spec.inBox (dirDims D) i j k → Spec.view (dirDims D) (m ob) v i j k =
    Q ((D .one).point i) ((D .two).point j) ((D .three).point k)

/-- A box with directions `D`. -/
def Spec.HasDirs (e : IEnv ℝ) (ob : Nat) (D : Axis → BDir) : Prop :=
  (∀ ax, (D ax).good) ∧ (∃ fft W F, (e.box ob).lb = stdBox D fft W F) ∧
    (e.box ob).basis = fun ax k X => (D ax).basis k X

theorem interp3_eq (e : IEnv ℝ) (ob : Nat) (D : Axis → BDir) (hd : Spec.HasDirs e ob D) (m : Nat → Arrays ℝ) (v : Nat)
    (Q : ℝ → ℝ → ℝ → ℝ) (hQ : Spec.Resolved D ob m v Q) (X Y Z : ℝ) (hX : (D .one).okAt X) (hY : (D .two).okAt Y)
    (hZ : (D .three).okAt Z) :
    specInterpolate (e.box ob).lb.d (coeffs3Of e ob (m ob v)) (fun k => (e.box ob).basis .one k X)
      (fun k => (e.box ob).basis .two k Y) (fun k => (e.box ob).basis .three k Z) = Q X Y Z := by
  obtain ⟨hD, ⟨fft, W, F, hlb⟩, hba⟩ := hd
  have h := C38_interpolate e.g3 D hD fft W F 0 1 (fun a' => if a' = 0 then m ob v else e.junk) Q hQ.1 hQ.2
    _ _ _ hX hY hZ
  unfold coeffs3Of
  rw [hlb, hba, ← h]
  rfl

section d3
variable (e : IEnv ℝ) (a : FIds) (bf : IFace) (m : Nat → Arrays ℝ) (ob : Nat) (hob : bf.ob = ob)
  (pts : List Nat) (hpts : bf.fpts = some pts) (hX : 0 < bf.oXi) (hY : 0 < bf.oYi) (hZ : 0 < bf.oZi)
  (hfr : Spec.Fresh a bf (e.box bf.b).nb) (D : Axis → BDir) (hd : Spec.HasDirs e ob D)
  (hok : ∀ ind ∈ pts, (D .one).okAt (m bf.b bf.oXi.toNat ind) ∧ (D .two).okAt (m bf.b bf.oYi.toNat ind) ∧
    (D .three).okAt (m bf.b bf.oZi.toNat ind))
include hob hpts hX hY hZ hfr hd hok

/-- **C105.** Fields, 3d: at the points of the face `FPsi` is the difference between `Psi` and the function `Q` that
`Psi` is in the other box, at the coordinates `oX, oY, oZ`; nothing else changes. -/
theorem C105_3d (hnd : bf.setnd = false) (Q : ℝ → ℝ → ℝ → ℝ) (hQ : Spec.Resolved D ob m a.iP Q) :
    ∃ m', fpsi3D e a bf m = .ok m' ∧ Spec.SetOn bf.b a.iF (· ∈ pts) (fun ind => m bf.b a.iP ind -
      Q (m bf.b bf.oXi.toNat ind) (m bf.b bf.oYi.toNat ind) (m bf.b bf.oZi.toNat ind)) m m' := by
  obtain ⟨f1, -, ⟨fX, fY, fZ⟩, -⟩ := hfr
  unfold fpsi3D
  rw [if_neg (by omega), if_neg (by omega)]
  simp only [hnd, hob, Int.toNat_natCast, derefPts, hpts, Res.bind, if_true]
  refine forPts_all _ _ _ _ _ _ fun pi ind s hp hk => ?_
  have k : ∀ v, a.iF ≠ v → s bf.b v ind = m bf.b v ind := fun v hv => hk _ _ _ fun h => hv h.2.symm
  obtain ⟨o1, o2, o3⟩ := hok ind (List.mem_of_getElem? hp)
  rw [k _ f1, k _ fX, k _ fY, k _ fZ, interp3_eq e ob D hd m a.iP Q hQ _ _ _ o1 o2 o3]

/-- **C105.** Normal derivatives, 3d: `FPsi` is the difference of the derivatives along the normal. -/
theorem C105_3d_deriv (hnd : bf.setnd = true) (Q : Nat → ℝ → ℝ → ℝ → ℝ)
    (hQ : ∀ j, 1 ≤ j → j ≤ 3 → Spec.Resolved D ob m (a.idP j) (Q j)) (n : Nat → Nat → ℝ)
    (hn : ∀ ind ∈ pts, normalAtIjk e.sqrt (e.box bf.b).nb bf.f ind (m bf.b) = .ok (n ind)) :
    ∃ m', fpsi3D e a bf m = .ok m' ∧ Spec.SetOn bf.b a.iF (· ∈ pts) (fun ind =>
      Spec.dot3 (n ind) (fun j => m bf.b (a.idP j) ind) - Spec.dot3 (n ind) fun j =>
        Q j (m bf.b bf.oXi.toNat ind) (m bf.b bf.oYi.toNat ind) (m bf.b bf.oZi.toNat ind)) m m' := by
  have hfr' := hfr
  obtain ⟨-, ⟨g1, g2, g3⟩, ⟨fX, fY, fZ⟩, -⟩ := hfr
  unfold fpsi3D
  rw [if_neg (by omega), if_neg (by omega)]
  simp only [hnd, hob, Int.toNat_natCast, derefPts, hpts, Res.bind, reduceCtorEq, if_false]
  refine forPts_all _ _ _ _ _ _ fun pi ind s hp hk => ?_
  have k : ∀ v, a.iF ≠ v → s bf.b v ind = m bf.b v ind := fun v hv => hk _ _ _ fun h => hv h.2.symm
  have hmem := List.mem_of_getElem? hp
  obtain ⟨o1, o2, o3⟩ := hok ind hmem
  rw [normalAtIjk_keeps e.sqrt a bf _ hfr' m s hk, hn ind hmem]
  simp only [k _ fX, k _ fY, k _ fZ, normalJump, k _ g1, k _ g2, k _ g3]
  rw [interp3_eq e ob D hd m _ _ (hQ 1 (by omega) (by omega)) _ _ _ o1 o2 o3,
    interp3_eq e ob D hd m _ _ (hQ 2 (by omega) (by omega)) _ _ _ o1 o2 o3,
    interp3_eq e ob D hd m _ _ (hQ 3 (by omega) (by omega)) _ _ _ o1 o2 o3]
  congr 2
  unfold Spec.dot3
  ring

end d3

/-- The upper or lower face of the other box: index of the plane. -/
def Spec.facePlane (f : Int) (n : Nat) : Nat := if f % 2 = 1 then n - 1 else 0

/-- Variable `v` of the other box has the values of `Q` on the face in which coordinate `pl` has index `p`. -/
def Spec.FaceResolved (D : Axis → BDir) (pl : Axis) (p ob : Nat) (m : Nat → Arrays ℝ) (v : Nat) (Q : ℝ → ℝ → ℝ) : Prop :=
  (∀ Y, (D (Spec.fstAx pl)).space fun X => Q X Y) ∧ (∀ X, (D (Spec.sndAx pl)).space fun Y => Q X Y) ∧
  ∀ x y, x < (D (Spec.fstAx pl)).n → y < (D (Spec.sndAx pl)).n → Spec.onPl pl (Spec.view (dirDims D) (m ob) v) p x y =
    Q ((D (Spec.fstAx pl)).point x) ((D (Spec.sndAx pl)).point y)

theorem interp2_eq (e : IEnv ℝ) (ob : Nat) (D : Axis → BDir) (hd : Spec.HasDirs e ob D) (m : Nat → Arrays ℝ) (v : Nat)
    (pl : Axis) (p : Nat) (hp : p < (D pl).n) :
    ∃ c, coeffs2Of e ob (Spec.axNum pl) p (m ob v) = .ok c ∧ ∀ Q, Spec.FaceResolved D pl p ob m v Q → ∀ C1 C2,
      (D (Spec.fstAx pl)).okAt C1 → (D (Spec.sndAx pl)).okAt C2 →
      specInterpolateInPlane (e.box ob).lb.d (e.box ob).basis (Spec.axNum pl) p c C1 C2 = .ok (Q C1 C2) := by
  obtain ⟨hD, ⟨fft, W, F, hlb⟩, hba⟩ := hd
  obtain ⟨m1, e1, -⟩ := C104_coeffs e.g2 (stdBox D fft W F) (stdBox_linear D fft W F) pl p 0 1
    (fun a => if a = 0 then m ob v else e.junk)
  refine ⟨m1 1, ?_, fun Q hQ C1 C2 h1 h2 => ?_⟩
  · unfold coeffs2Of
    rw [hlb, e1]
    rfl
  · have h := C104_exact e.g2 D hD fft W F pl p 0 1 hp (fun a => if a = 0 then m ob v else e.junk) Q hQ.1 hQ.2.1
      hQ.2.2 C1 C2 h1 h2
    rw [e1] at h
    rw [hlb, hba]
    exact h

/-- The variables with the coordinates in the plane `pl` (`oYi, oZi` for plane 1). -/
def Spec.planeVars (bf : IFace) (pl : Axis) : Int × Int :=
  match pl with
  | .one => (bf.oYi, bf.oZi)
  | .two => (bf.oXi, bf.oZi)
  | .three => (bf.oXi, bf.oYi)

/-- Position of an axis in `bbox`. -/
def Spec.axPos : Axis → Nat
  | .one => 0
  | .two => 2
  | .three => 4

section d2
variable (e : IEnv ℝ) (a : FIds) (bf : IFace) (m : Nat → Arrays ℝ) (ob ofi : Nat) (hob : bf.ob = ob)
  (hofi : bf.ofi = ofi) (obf : IFace) (hobf : (e.box ob).bfaces[ofi]? = some obf) (hof : 0 ≤ obf.f)
  (pts : List Nat) (hpts : bf.fpts = some pts) (pl : Axis) (hC1 : 0 < (Spec.planeVars bf pl).1)
  (hC2 : 0 < (Spec.planeVars bf pl).2)
  (hfr : Spec.Fresh a bf (e.box bf.b).nb) (D : Axis → BDir) (hd : Spec.HasDirs e ob D)

/-- The points whose coordinates are in the range of the other box. -/
def Spec.inRange (ind : Nat) : Prop :=
  ((e.box ob).bbox (Spec.axPos (Spec.fstAx pl)) ≤ m bf.b (Spec.planeVars bf pl).1.toNat ind ∧
    m bf.b (Spec.planeVars bf pl).1.toNat ind ≤ (e.box ob).bbox (Spec.axPos (Spec.fstAx pl) + 1)) ∧
  ((e.box ob).bbox (Spec.axPos (Spec.sndAx pl)) ≤ m bf.b (Spec.planeVars bf pl).2.toNat ind ∧
    m bf.b (Spec.planeVars bf pl).2.toNat ind ≤ (e.box ob).bbox (Spec.axPos (Spec.sndAx pl) + 1))

variable (hok : ∀ ind ∈ pts, Spec.inRange e bf m ob pl ind →
    (D (Spec.fstAx pl)).okAt (m bf.b (Spec.planeVars bf pl).1.toNat ind) ∧
    (D (Spec.sndAx pl)).okAt (m bf.b (Spec.planeVars bf pl).2.toNat ind))
include hob hofi hobf hof hpts hC1 hC2 hfr hd hok

/-- **C105.** Fields, 2d: at the points of the face whose coordinates are in the range of the other box, `FPsi` is the
difference between `Psi` and the function `Q` that `Psi` is on the face of the other box; nothing else changes. -/
theorem C105_2d (hnd : bf.setnd = false) (Q : ℝ → ℝ → ℝ)
    (hQ : Spec.FaceResolved D pl (Spec.facePlane obf.f (D pl).n) ob m a.iP Q) :
    ∃ m', fpsi2D e a bf (Spec.axNum pl) m = .ok m' ∧
      Spec.SetOn bf.b a.iF (fun ind => ind ∈ pts ∧ Spec.inRange e bf m ob pl ind) (fun ind => m bf.b a.iP ind -
        Q (m bf.b (Spec.planeVars bf pl).1.toNat ind) (m bf.b (Spec.planeVars bf pl).2.toNat ind)) m m' := by
  obtain ⟨f1, -, ⟨fX, fY, fZ⟩, -⟩ := hfr
  have hn1 : 1 ≤ (D pl).n := (hd.1 pl).2.1
  have hdims : (e.box ob).lb.d = dirDims D := by
    obtain ⟨-, ⟨fft, W, F, hlb⟩, -⟩ := hd
    rw [hlb]
    rfl
  have hs : ∀ n, (n - 1) * (obf.f.tmod 2).toNat = Spec.facePlane obf.f n := by
    intro n
    unfold Spec.facePlane
    rw [Int.tmod_eq_emod_of_nonneg hof]
    rcases Int.emod_two_eq_zero_or_one obf.f with h | h <;> simp [h]
  have hp : Spec.facePlane obf.f (D pl).n < (D pl).n := by
    unfold Spec.facePlane
    split <;> omega
  obtain ⟨c, hc, hint⟩ := interp2_eq e ob D hd m a.iP pl _ hp
  have hget : otherFace e bf = .ok obf := by
    unfold otherFace aget
    rw [hob, hofi]
    simp only [Int.toNat_natCast]
    rw [hobf]
  unfold fpsi2D
  rw [if_neg (by omega), if_neg (by omega), hget]
  simp only [Res.bind, hob, Int.toNat_natCast, hs, hdims, hnd, if_true]
  cases pl
  all_goals
    simp only [Spec.axNum] at hc hint ⊢
    simp only [Spec.planeVars] at hC1 hC2
    simp only [dirDims, if_true, Int.reduceEq, if_false]
    rw [if_neg (by omega), hc]
    simp only [derefPts, hpts]
    refine forPts_some _ _ (Spec.inRange e bf m ob _) _ _ _ _ fun pi ind s hpi hk => ?_
    have k : ∀ v, a.iF ≠ v → s bf.b v ind = m bf.b v ind := fun v hv => hk _ _ _ fun h => hv h.2.symm
    simp only [k _ f1, k _ fX, k _ fY, k _ fZ]
    constructor
    · intro hr
      obtain ⟨o1, o2⟩ := hok ind (List.mem_of_getElem? hpi) hr
      rw [if_neg]
      · have := hint Q hQ _ _ o1 o2
        rw [hdims] at this
        simp only [Spec.planeVars] at this ⊢
        simp only [dirDims] at this
        rw [this]
      · obtain ⟨⟨a1, a2⟩, a3, a4⟩ := hr
        rintro (h | h | h | h)
        · exact absurd a1 (not_le.2 h)
        · exact absurd a2 (not_le.2 h)
        · exact absurd a3 (not_le.2 h)
        · exact absurd a4 (not_le.2 h)
    · intro hr
      rw [if_pos]
      by_contra hcon
      push Not at hcon
      exact hr ⟨⟨hcon.1, hcon.2.1⟩, hcon.2.2.1, hcon.2.2.2⟩

/-- **C105.** Normal derivatives, 2d. -/
theorem C105_2d_deriv (hnd : bf.setnd = true) (Q : Nat → ℝ → ℝ → ℝ)
    (hQ : ∀ j, 1 ≤ j → j ≤ 3 → Spec.FaceResolved D pl (Spec.facePlane obf.f (D pl).n) ob m (a.idP j) (Q j))
    (n : Nat → Nat → ℝ)
    (hn : ∀ ind ∈ pts, normalAtIjk e.sqrt (e.box bf.b).nb bf.f ind (m bf.b) = .ok (n ind)) :
    ∃ m', fpsi2D e a bf (Spec.axNum pl) m = .ok m' ∧
      Spec.SetOn bf.b a.iF (fun ind => ind ∈ pts ∧ Spec.inRange e bf m ob pl ind) (fun ind =>
        Spec.dot3 (n ind) (fun j => m bf.b (a.idP j) ind) - Spec.dot3 (n ind) fun j =>
          Q j (m bf.b (Spec.planeVars bf pl).1.toNat ind) (m bf.b (Spec.planeVars bf pl).2.toNat ind)) m m' := by
  have hfr' := hfr
  obtain ⟨-, ⟨g1, g2, g3⟩, ⟨fX, fY, fZ⟩, -⟩ := hfr
  have hn1 : 1 ≤ (D pl).n := (hd.1 pl).2.1
  have hdims : (e.box ob).lb.d = dirDims D := by
    obtain ⟨-, ⟨fft, W, F, hlb⟩, -⟩ := hd
    rw [hlb]
    rfl
  have hs : ∀ n, (n - 1) * (obf.f.tmod 2).toNat = Spec.facePlane obf.f n := by
    intro n
    unfold Spec.facePlane
    rw [Int.tmod_eq_emod_of_nonneg hof]
    rcases Int.emod_two_eq_zero_or_one obf.f with h | h <;> simp [h]
  have hp : Spec.facePlane obf.f (D pl).n < (D pl).n := by
    unfold Spec.facePlane
    split <;> omega
  obtain ⟨c1, hc1, hint1⟩ := interp2_eq e ob D hd m (a.idP 1) pl _ hp
  obtain ⟨c2, hc2, hint2⟩ := interp2_eq e ob D hd m (a.idP 2) pl _ hp
  obtain ⟨c3, hc3, hint3⟩ := interp2_eq e ob D hd m (a.idP 3) pl _ hp
  have hget : otherFace e bf = .ok obf := by
    unfold otherFace aget
    rw [hob, hofi]
    simp only [Int.toNat_natCast]
    rw [hobf]
  unfold fpsi2D
  rw [if_neg (by omega), if_neg (by omega), hget]
  simp only [Res.bind, hob, Int.toNat_natCast, hs, hdims, hnd, reduceCtorEq, if_false]
  cases pl
  all_goals
    simp only [Spec.axNum] at hc1 hint1 hc2 hint2 hc3 hint3 ⊢
    simp only [Spec.planeVars] at hC1 hC2
    simp only [dirDims, if_true, Int.reduceEq, if_false]
    rw [if_neg (by omega), hc1, hc2, hc3]
    simp only [derefPts, hpts]
    refine forPts_some _ _ (Spec.inRange e bf m ob _) _ _ _ _ fun pi ind s hpi hk => ?_
    have k : ∀ v, a.iF ≠ v → s bf.b v ind = m bf.b v ind := fun v hv => hk _ _ _ fun h => hv h.2.symm
    simp only [k _ fX, k _ fY, k _ fZ]
    have hmem := List.mem_of_getElem? hpi
    constructor
    · intro hr
      obtain ⟨o1, o2⟩ := hok ind hmem hr
      rw [if_neg]
      · have t1 := hint1 _ (hQ 1 (by omega) (by omega)) _ _ o1 o2
        have t2 := hint2 _ (hQ 2 (by omega) (by omega)) _ _ o1 o2
        have t3 := hint3 _ (hQ 3 (by omega) (by omega)) _ _ o1 o2
        rw [hdims] at t1 t2 t3
        simp only [Spec.planeVars] at t1 t2 t3 ⊢
        simp only [dirDims] at t1 t2 t3
        rw [t1, t2, t3]
        simp only
        rw [normalAtIjk_keeps e.sqrt a bf _ hfr' m s hk, hn ind hmem]
        simp only [normalJump, k _ g1, k _ g2, k _ g3, vecN]
        congr 2
        unfold Spec.dot3
        simp only [if_true, OfNat.ofNat_ne_one, Nat.reduceEqDiff, if_false]
        ring
      · obtain ⟨⟨a1, a2⟩, a3, a4⟩ := hr
        rintro (h | h | h | h)
        · exact absurd a1 (not_le.2 h)
        · exact absurd a2 (not_le.2 h)
        · exact absurd a3 (not_le.2 h)
        · exact absurd a4 (not_le.2 h)
    · intro hr
      rw [if_pos]
      by_contra hcon
      push Not at hcon
      exact hr ⟨⟨hcon.1, hcon.2.1⟩, hcon.2.2.1, hcon.2.2.2⟩

end d2

/-! ## Copies -/

section copy
variable {K : Type} [Field K] [LinearOrder K] (e : IEnv K) (a : FIds) (bf : IFace) (m : Nat → Arrays K)
  (ob : Nat) (hob : bf.ob = ob) (pts : List Nat) (hpts : bf.fpts = some pts)
  (hfr : Spec.Fresh a bf (e.box bf.b).nb) (partner : Nat → Nat) (getOijk : Nat → Res Int)
  (hpa : ∀ pi ind, pts[pi]? = some ind → getOijk pi = .ok (partner ind : Nat))

section
include hob hpts hfr hpa

/-- **C105.** Fields that are copied: `FPsi` is the difference of `Psi` at the point and at its partner. -/
theorem C105_copy (hnd : bf.setnd = false) :
    ∃ m', fpsiCopy e a bf getOijk m = .ok m' ∧ Spec.SetOn bf.b a.iF (· ∈ pts)
      (fun ind => m bf.b a.iP ind - m ob a.iP (partner ind)) m m' := by
  obtain ⟨f1, -⟩ := hfr
  unfold fpsiCopy
  rw [if_neg (by omega)]
  simp only [hnd, hob, Int.toNat_natCast, derefPts, hpts, Res.bind, if_true]
  refine forPts_all _ _ _ _ _ _ fun pi ind s hp hk => ?_
  rw [hpa pi ind hp]
  simp only [atInd]
  rw [if_neg (by omega)]
  simp only [Int.toNat_natCast]
  rw [hk bf.b a.iP ind fun h => f1 h.2.symm, hk ob a.iP _ fun h => f1 h.2.symm]

/-- **C105.** Normal derivatives that are copied. -/
theorem C105_copy_deriv (hnd : bf.setnd = true) (n : Nat → Nat → K)
    (hn : ∀ ind ∈ pts, normalAtIjk e.sqrt (e.box bf.b).nb bf.f ind (m bf.b) = .ok (n ind)) :
    ∃ m', fpsiCopy e a bf getOijk m = .ok m' ∧ Spec.SetOn bf.b a.iF (· ∈ pts)
      (fun ind => Spec.dot3 (n ind) (fun j => m bf.b (a.idP j) ind) -
        Spec.dot3 (n ind) fun j => m ob (a.idP j) (partner ind)) m m' := by
  have hfr' := hfr
  obtain ⟨-, ⟨g1, g2, g3⟩, -⟩ := hfr
  unfold fpsiCopy
  rw [if_neg (by omega)]
  simp only [hnd, hob, Int.toNat_natCast, derefPts, hpts, Res.bind, reduceCtorEq, if_false]
  refine forPts_all _ _ _ _ _ _ fun pi ind s hp hk => ?_
  have k : ∀ b v x, a.iF ≠ v → s b v x = m b v x := fun b v x hv => hk _ _ _ fun h => hv h.2.symm
  rw [hpa pi ind hp]
  simp only [atInd]
  rw [normalAtIjk_keeps e.sqrt a bf _ hfr' m s hk, hn ind (List.mem_of_getElem? hp), if_neg (by omega),
    if_neg (by omega), if_neg (by omega)]
  simp only [Int.toNat_natCast, normalJump, k _ _ _ g1, k _ _ _ g2, k _ _ _ g3, vecN]
  congr 2
  unfold Spec.dot3
  simp only [if_true, OfNat.ofNat_ne_one, Nat.reduceEqDiff, if_false]
  ring

end

omit [Field K] [LinearOrder K] in
/-- **C105.** With `same_fpts` the partner of a point is the point with the same number in the other list. -/
theorem C105_partner_same (hob : bf.ob = ob) (ofi : Nat) (hofi : bf.ofi = ofi) (obf : IFace)
    (hobf : (e.box ob).bfaces[ofi]? = some obf) (opts : List Nat) (hopts : obf.fpts = some opts) (pi q : Nat)
    (hq : opts[pi]? = some q) : oijkSame e bf pi = .ok (q : Nat) := by
  have hlt : pi < opts.length := (List.getElem?_eq_some_iff.1 hq).1
  unfold oijkSame otherFace aget
  rw [if_neg (by omega), hob, hofi]
  simp only [Int.toNat_natCast, hobf, Res.bind, hopts]
  rw [if_neg (by omega), hq]

omit [Field K] [LinearOrder K] in
/-- **C105.** Without another box or another face there is no partner. -/
theorem C105_partner_none (h : bf.ob < 0 ∨ bf.ofi < 0) (pi : Nat) : oijkSame e bf pi = .ok (-1) := by
  unfold oijkSame
  rw [if_pos h]

/-- Coordinate `ax` of a point replaced by `p`. -/
def Spec.replace (ax : Axis) (p i j k : Nat) : Nat × Nat × Nat :=
  match ax with
  | .one => (p, j, k)
  | .two => (i, p, k)
  | .three => (i, j, p)

omit [Field K] [LinearOrder K] in
/-- **C105.** In touching boxes with the same coordinates and points the partner of a point has the same indices, but
lies on the face of the other box. -/
theorem C105_partner_touch (hob : bf.ob = ob) (hpts : bf.fpts = some pts) (ofi : Nat) (hofi : bf.ofi = ofi)
    (obf : IFace) (hobf : (e.box ob).bfaces[ofi]? = some obf) (h0 : 0 ≤ obf.f) (ax : Axis)
    (hax : Spec.axNum ax = 1 + obf.f / 2) (pi i j k : Nat) (hi : i < (e.box bf.b).lb.d.n1)
    (hj : j < (e.box bf.b).lb.d.n2) (hp : pts[pi]? = some ((e.box bf.b).lb.d.idx i j k)) :
    let q := Spec.replace ax (Spec.facePlane obf.f ((e.box ob).lb.d.len ax)) i j k
    oijkTouch e bf pi = .ok ((e.box ob).lb.d.idx q.1 q.2.1 q.2.2 : Nat) := by
  have hlt : pi < pts.length := (List.getElem?_eq_some_iff.1 hp).1
  have hs : ∀ n, (n - 1) * (obf.f.tmod 2).toNat = Spec.facePlane obf.f n := by
    intro n
    unfold Spec.facePlane
    rw [Int.tmod_eq_emod_of_nonneg h0]
    rcases Int.emod_two_eq_zero_or_one obf.f with h | h <;> simp [h]
  set d := (e.box bf.b).lb.d with hd
  have hk : d.idx i j k / (d.n1 * d.n2) = k := by
    have e1 : d.idx i j k = (i + d.n1 * j) + d.n1 * d.n2 * k := by unfold Dims.idx; ring
    have hlt : i + d.n1 * j < d.n1 * d.n2 := by
      calc i + d.n1 * j < d.n1 + d.n1 * j := by omega
        _ = d.n1 * (j + 1) := by ring
        _ ≤ d.n1 * d.n2 := Nat.mul_le_mul_left _ hj
    rw [e1, Nat.add_mul_div_left _ _ (by omega), Nat.div_eq_of_lt hlt, Nat.zero_add]
  have hr : d.idx i j k - d.n1 * d.n2 * k = i + d.n1 * j := by
    have e1 : d.idx i j k = (i + d.n1 * j) + d.n1 * d.n2 * k := by unfold Dims.idx; ring
    omega
  have hjj : (i + d.n1 * j) / d.n1 = j := by
    rw [Nat.add_mul_div_left _ _ (by omega), Nat.div_eq_of_lt hi, Nat.zero_add]
  unfold oijkTouch derefPts otherFace aget
  rw [hpts, hob, hofi]
  simp only [Res.bind, Int.toNat_natCast, hp, hobf, ← hd, hk, hr, hjj, Nat.add_sub_cancel, hs]
  rw [if_neg (by omega), if_neg (by omega), if_neg (by omega), Int.tdiv_eq_ediv_of_nonneg h0, ← hax]
  cases ax <;> simp [Spec.axNum, Spec.replace, Dims.len]

end copy

/-! ## The cases -/

section cases
variable {K : Type} [Field K] [LinearOrder K] (e : IEnv K) (a : FIds) (bf : IFace) (m : Nat → Arrays K)

/-- **C105.** Faces without another box are left alone. -/
theorem C105_no_box (h : bf.ob < 0) : interboxFace e a bf m = .ok m := by
  unfold interboxFace
  rw [if_neg (by omega)]

/-- **C105.** Touching faces with the same points are copied. -/
theorem C105_case_copy (h : 0 ≤ bf.ob) (ht : bf.touch = true) (hs : bf.sameFpts = true) :
    interboxFace e a bf m = fpsiCopy e a bf (oijkSame e bf) m := by
  unfold interboxFace
  simp [h, ht, hs]

/-- **C105.** With three equal coordinates the partner is found from the indices. -/
theorem C105_case_touch (h : 0 ≤ bf.ob) (ht : bf.touch = true) (hs : bf.sameFpts = false)
    (hX : bf.sameX = true) (hY : bf.sameY = true) (hZ : bf.sameZ = true) (pts : List Nat) (hp : bf.fpts = some pts) :
    interboxFace e a bf m = fpsiCopy e a bf (oijkTouch e bf) m := by
  unfold interboxFace
  simp [h, ht, hs, hX, hY, hZ, hp]

/-- The flag of a coordinate. -/
def Spec.sameAx (bf : IFace) : Axis → Bool
  | .one => bf.sameX
  | .two => bf.sameY
  | .three => bf.sameZ

/-- **C105.** If only the coordinate `pl` is the same, interpolation is in the plane `pl`. -/
theorem C105_case_2d (h : 0 ≤ bf.ob) (ht : bf.touch = true) (hs : bf.sameFpts = false) (pl : Axis)
    (hpl : ∀ ax, Spec.sameAx bf ax = decide (ax = pl)) :
    interboxFace e a bf m = fpsi2D e a bf (Spec.axNum pl) m := by
  have h1 := hpl .one
  have h2 := hpl .two
  have h3 := hpl .three
  simp only [Spec.sameAx] at h1 h2 h3
  unfold interboxFace
  cases pl <;> simp [h, ht, hs, h1, h2, h3, Spec.axNum]

/-- **C105.** Two equal coordinates call for 1d interpolation, which is not implemented: the program stops at the
first point. -/
theorem C105_case_1d (h : 0 ≤ bf.ob) (ht : bf.touch = true) (hs : bf.sameFpts = false) (idir : Axis)
    (hpl : ∀ ax, Spec.sameAx bf ax = decide (ax ≠ idir)) (ofi : Nat) (hofi : bf.ofi = ofi) (obf : IFace)
    (hobf : (e.box bf.ob.toNat).bfaces[ofi]? = some obf) (p : Nat) (rest : List Nat)
    (hp : bf.fpts = some (p :: rest)) :
    interboxFace e a bf m = .abort := by
  have h1 := hpl .one
  have h2 := hpl .two
  have h3 := hpl .three
  simp only [Spec.sameAx] at h1 h2 h3
  have key : interboxFace e a bf m = fpsi1D e bf (Spec.axNum idir) m := by
    unfold interboxFace
    cases idir <;> simp [h, ht, hs, h1, h2, h3, Spec.axNum]
  rw [key]
  unfold fpsi1D otherFace aget
  rw [if_neg (by omega), if_neg (by omega), hofi]
  simp only [Int.toNat_natCast, hobf, Res.bind, derefPts, hp, forPts]
  split_ifs <;> rfl

/-- **C105.** Touching faces without any flag stop the program. -/
theorem C105_case_none (h : 0 ≤ bf.ob) (ht : bf.touch = true) (hs : bf.sameFpts = false)
    (hpl : ∀ ax, Spec.sameAx bf ax = false) : interboxFace e a bf m = .abort := by
  have h1 := hpl .one
  have h2 := hpl .two
  have h3 := hpl .three
  simp only [Spec.sameAx] at h1 h2 h3
  unfold interboxFace
  simp [h, ht, hs, h1, h2, h3]

/-- **C105.** Faces that do not touch just one face: 3d interpolation of the field. -/
theorem C105_case_3d (h : 0 ≤ bf.ob) (ht : bf.touch = false) (hnd : bf.setnd = false) :
    interboxFace e a bf m = fpsi3D e a bf m := by
  unfold interboxFace
  simp only [ge_iff_le, h, ht, hnd, if_true, Bool.false_eq_true, if_false]
  cases fpsi3D e a bf m <;> rfl

/-- **C105.** Normal derivatives on such faces never come out. -/
theorem C105_case_3d_deriv (h : 0 ≤ bf.ob) (ht : bf.touch = false) (hnd : bf.setnd = true) :
    ∀ m', interboxFace e a bf m ≠ .ok m' := by
  unfold interboxFace
  simp only [ge_iff_le, h, ht, hnd, if_true, Bool.false_eq_true, if_false]
  cases fpsi3D e a bf m <;> simp [Res.bind]

/-- **C105.** With `same_fpts`, a point without a partner (the lists differ in length, or the other one is missing)
is read at index -1. -/
theorem C105_partner_missing (h : 0 ≤ bf.ob) (ht : bf.touch = true) (hs : bf.sameFpts = true) (p : Nat)
    (rest : List Nat) (hp : bf.fpts = some (p :: rest)) (ofi : Nat) (hofi : bf.ofi = ofi) (obf : IFace)
    (hobf : (e.box bf.ob.toNat).bfaces[ofi]? = some obf) (ho : obf.fpts = none ∨ obf.fpts = some [])
    (h0 : 0 ≤ bf.f) (h5 : bf.f ≤ 5) :
    interboxFace e a bf m = .ub := by
  rw [C105_case_copy e a bf m h ht hs]
  have hm : oijkSame e bf 0 = .ok (-1) := by
    unfold oijkSame otherFace aget
    rw [if_neg (by omega), hofi]
    simp only [Int.toNat_natCast, hobf, Res.bind]
    rcases ho with ho | ho <;> simp [ho]
  unfold fpsiCopy
  rw [if_neg (by omega)]
  simp only [derefPts, hp, Res.bind, forPts, hm, atInd]
  have hnorm : ∃ n, normalAtIjk e.sqrt (e.box bf.b).nb bf.f p (m bf.b) = .ok n := by
    unfold normalAtIjk
    rw [if_neg (by omega)]
    exact ⟨_, rfl⟩
  obtain ⟨n, hn⟩ := hnorm
  rw [hn]
  simp

/-! ## All faces of a box -/

omit [Field K] [LinearOrder K] in
theorem forFaces_append (body : IFace → (Nat → Arrays K) → Res (Nat → Arrays K)) (l1 l2 : List IFace)
    (m : Nat → Arrays K) : forFaces body (l1 ++ l2) m = (forFaces body l1 m).bind fun m => forFaces body l2 m := by
  induction l1 generalizing m with
  | nil => rfl
  | cons x xs ih =>
    simp only [List.cons_append, forFaces]
    cases body x m with
    | ok m' => exact ih m'
    | abort => rfl
    | ub => rfl

/-- **C105.** `set_interbox_BC_onface` does the faces with number `face`, in order, with the flag for normal
derivatives from the caller: 0 for fields, 1 for derivatives, below 0 for what the face says. -/
theorem C105_onface (b : Nat) (face setnd : Int) :
    interboxOnface e a b face setnd m = forFaces (interboxFace e a) (((e.box b).bfaces.filter (·.f = face)).map
      fun bf => if setnd < 0 then bf else { bf with setnd := setnd % 2 = 1 }) m := by
  unfold interboxOnface
  generalize (e.box b).bfaces = l
  induction l generalizing m with
  | nil => rfl
  | cons x xs ih =>
    by_cases hx : x.f = face
    · rw [List.filter_cons_of_pos (by simpa using hx), List.map_cons]
      unfold forFaces
      have hsel : (if setnd ≥ 0 then { x with setnd := decide (setnd % 2 = 1) } else x) =
          if setnd < 0 then x else { x with setnd := decide (setnd % 2 = 1) } := by
        by_cases h : setnd < 0
        · rw [if_pos h, if_neg (by omega)]
        · rw [if_neg h, if_pos (by omega)]
      rw [if_neg (by simpa using hx), hsel]
      congr 1
      funext m'
      exact ih m'
    · rw [List.filter_cons_of_neg (by simpa using hx), ← ih]
      simp only [forFaces, if_pos hx, Res.bind]

end cases

/-! ## Nothing else changes -/

section frame
variable {K : Type} [Field K] [LinearOrder K]

omit [Field K] [LinearOrder K] in
theorem bind_ok {α β : Type} {x : Res α} {f : α → Res β} {y : β} (h : x.bind f = .ok y) :
    ∃ a, x = .ok a ∧ f a = .ok y := by
  cases x with
  | ok a => exact ⟨a, rfl, h⟩
  | abort => exact absurd h (by simp [Res.bind])
  | ub => exact absurd h (by simp [Res.bind])

/-- Only `FPsi` at points of the list differs. -/
def Spec.Only {K : Type} (b0 v0 : Nat) (pts : List Nat) (m m' : Nat → Arrays K) : Prop :=
  ∀ b v x, ¬ (b = b0 ∧ v = v0 ∧ x ∈ pts) → m' b v x = m b v x

omit [Field K] [LinearOrder K] in
theorem forPts_only (b iF : Nat) (body : Nat → Nat → (Nat → Arrays K) → Res (Nat → Arrays K))
    (hb : ∀ pi ind s s', body pi ind s = .ok s' → s' = s ∨ ∃ x, s' = setF b iF ind x s) :
    ∀ (pts : List Nat) (p0 : Nat) (s s' : Nat → Arrays K), forPts body p0 pts s = .ok s' →
      Spec.Only b iF pts s s' := by
  intro pts
  induction pts with
  | nil =>
    intro p0 s s' h
    simp only [forPts, Res.ok.injEq] at h
    subst h
    exact fun _ _ _ _ => rfl
  | cons ind rest ih =>
    intro p0 s s' h b' v x hx
    obtain ⟨s1, h1, h2⟩ := bind_ok h
    rw [ih _ _ _ h2 b' v x fun h => hx ⟨h.1, h.2.1, List.mem_cons_of_mem _ h.2.2⟩]
    rcases hb _ _ _ _ h1 with rfl | ⟨y, rfl⟩
    · rfl
    · exact setF_other b iF ind y s b' v x fun h => hx ⟨h.1, h.2.1, by rw [h.2.2]; simp⟩

variable (e : IEnv K) (a : FIds) (bf : IFace)

theorem derefPts_ok {pts : List Nat} (h : derefPts bf = .ok pts) : bf.fpts = some pts := by
  unfold derefPts at h
  split at h
  · simp at h
  · rename_i l hl
    simp only [Res.ok.injEq] at h
    rw [hl, h]

omit [Field K] [LinearOrder K] in
theorem fpsi1D_only (idir : Int) (m m' : Nat → Arrays K) (h : fpsi1D e bf idir m = .ok m') :
    Spec.Only bf.b a.iF (bf.fpts.getD []) m m' := by
  unfold fpsi1D at h
  split at h
  · simp at h
  · split at h
    · simp at h
    · obtain ⟨obf, -, h⟩ := bind_ok h
      simp only at h
      generalize (if idir = 1 then bf.oXi else if idir = 2 then bf.oYi else bf.oZi) = oCi at h
      split at h
      · simp at h
      · split at h
        · simp at h
        · split at h
          · simp at h
          · obtain ⟨pts, hp, h⟩ := bind_ok h
            rw [derefPts_ok bf hp]
            exact forPts_only _ _ _ (fun _ _ _ _ h => by simp at h) _ _ _ _ h

theorem fpsi2D_only (plN : Int) (m m' : Nat → Arrays K) (h : fpsi2D e a bf plN m = .ok m') :
    Spec.Only bf.b a.iF (bf.fpts.getD []) m m' := by
  unfold fpsi2D at h
  split at h
  · simp at h
  · split at h
    · simp at h
    · obtain ⟨obf, -, h⟩ := bind_ok h
      obtain ⟨⟨op, c1, c2, r1, r2⟩, -, h⟩ := bind_ok h
      simp only at h
      split at h
      · simp at h
      · split at h
        · obtain ⟨c, -, h⟩ := bind_ok h
          obtain ⟨pts, hp, h⟩ := bind_ok h
          rw [derefPts_ok bf hp]
          refine forPts_only _ _ _ (fun pi ind s s' h => ?_) _ _ _ _ h
          split at h
          · exact .inl (Res.ok.inj h).symm
          · obtain ⟨q, -, h⟩ := bind_ok h
            exact .inr ⟨_, (Res.ok.inj h).symm⟩
        · obtain ⟨k1, -, h⟩ := bind_ok h
          obtain ⟨k2, -, h⟩ := bind_ok h
          obtain ⟨k3, -, h⟩ := bind_ok h
          obtain ⟨pts, hp, h⟩ := bind_ok h
          rw [derefPts_ok bf hp]
          refine forPts_only _ _ _ (fun pi ind s s' h => ?_) _ _ _ _ h
          split at h
          · exact .inl (Res.ok.inj h).symm
          · obtain ⟨q1, -, h⟩ := bind_ok h
            obtain ⟨q2, -, h⟩ := bind_ok h
            obtain ⟨q3, -, h⟩ := bind_ok h
            obtain ⟨n, -, h⟩ := bind_ok h
            exact .inr ⟨_, (Res.ok.inj h).symm⟩

theorem fpsi3D_only (m m' : Nat → Arrays K) (h : fpsi3D e a bf m = .ok m') :
    Spec.Only bf.b a.iF (bf.fpts.getD []) m m' := by
  unfold fpsi3D at h
  split at h
  · simp at h
  · split at h
    · simp at h
    · simp only at h
      split at h
      · obtain ⟨pts, hp, h⟩ := bind_ok h
        rw [derefPts_ok bf hp]
        exact forPts_only _ _ _ (fun pi ind s s' h => .inr ⟨_, (Res.ok.inj h).symm⟩) _ _ _ _ h
      · obtain ⟨pts, hp, h⟩ := bind_ok h
        rw [derefPts_ok bf hp]
        refine forPts_only _ _ _ (fun pi ind s s' h => ?_) _ _ _ _ h
        obtain ⟨n, -, h⟩ := bind_ok h
        exact .inr ⟨_, (Res.ok.inj h).symm⟩

theorem fpsiCopy_only (get : Nat → Res Int) (m m' : Nat → Arrays K) (h : fpsiCopy e a bf get m = .ok m') :
    Spec.Only bf.b a.iF (bf.fpts.getD []) m m' := by
  unfold fpsiCopy at h
  split at h
  · simp at h
  · simp only at h
    split at h
    · obtain ⟨pts, hp, h⟩ := bind_ok h
      rw [derefPts_ok bf hp]
      refine forPts_only _ _ _ (fun pi ind s s' h => ?_) _ _ _ _ h
      obtain ⟨o, -, h⟩ := bind_ok h
      obtain ⟨q, -, h⟩ := bind_ok h
      exact .inr ⟨_, (Res.ok.inj h).symm⟩
    · obtain ⟨pts, hp, h⟩ := bind_ok h
      rw [derefPts_ok bf hp]
      refine forPts_only _ _ _ (fun pi ind s s' h => ?_) _ _ _ _ h
      obtain ⟨o, -, h⟩ := bind_ok h
      obtain ⟨n, -, h⟩ := bind_ok h
      obtain ⟨q1, -, h⟩ := bind_ok h
      obtain ⟨q2, -, h⟩ := bind_ok h
      obtain ⟨q3, -, h⟩ := bind_ok h
      exact .inr ⟨_, (Res.ok.inj h).symm⟩

/-- **C105.** Whatever the flags are: `set_interbox_BCs_for_bface` writes to `FPsi` at the points of the face only. -/
theorem C105_only (m m' : Nat → Arrays K) (h : interboxFace e a bf m = .ok m') :
    Spec.Only bf.b a.iF (bf.fpts.getD []) m m' := by
  unfold interboxFace at h
  split at h
  · split at h
    · split at h
      · exact fpsiCopy_only e a bf _ m m' h
      · split at h
        · split at h
          · simp at h
          · exact fpsiCopy_only e a bf _ m m' h
        · split at h
          · exact fpsi1D_only e a bf _ m m' h
          · split at h
            · exact fpsi1D_only e a bf _ m m' h
            · split at h
              · exact fpsi1D_only e a bf _ m m' h
              · split at h
                · exact fpsi2D_only e a bf _ m m' h
                · simp at h
    · obtain ⟨m1, h1, h⟩ := bind_ok h
      split at h
      · simp at h
      · rw [← Res.ok.inj h]
        exact fpsi3D_only e a bf m m1 h1
  · rw [← Res.ok.inj h]
    exact fun _ _ _ _ => rfl

/-- **C105.** The boundary conditions of all faces of box `b` change `FPsi` at points of the faces of this box only. -/
theorem C105_box_only (b : Nat) (hb : ∀ bf ∈ (e.box b).bfaces, bf.b = b) (m m' : Nat → Arrays K)
    (h : interboxBox e a b m = .ok m') (b' v x : Nat)
    (hx : ¬ (b' = b ∧ v = a.iF ∧ ∃ bf ∈ (e.box b).bfaces, x ∈ bf.fpts.getD [])) : m' b' v x = m b' v x := by
  unfold interboxBox at h
  generalize (e.box b).bfaces = l at h hb hx
  induction l generalizing m with
  | nil =>
    simp only [forFaces, Res.ok.injEq] at h
    rw [h]
  | cons y ys ih =>
    obtain ⟨m1, h1, h2⟩ := bind_ok h
    rw [ih m1 h2 (fun bf hbf => hb bf (List.mem_cons_of_mem _ hbf)) fun h => hx ⟨h.1, h.2.1,
      h.2.2.choose, List.mem_cons_of_mem _ h.2.2.choose_spec.1, h.2.2.choose_spec.2⟩]
    exact C105_only e a y m m1 h1 b' v x fun h => hx ⟨h.1.trans (hb y (by simp)), h.2.1, y, by simp, h.2.2⟩

end frame

/-! ## Examples -/

/-- A box whose coordinates are not Cartesian: `X` has the gradient `(3, 4, 0)`. -/
def exNBox : NBox ℚ where
  cart := false
  hasVar := false
  iX := 10
  idX _ := 20
  dXdx _ j _ _ _ := if j = 1 then 3 else if j = 2 then 4 else 0
  hasD _ := true
  dxdX j _ _ _ _ := if j = 3 then 2 else 0

/-- Exact for the squares of this example. -/
def exSqrt (x : ℚ) : ℚ := if x = 25 then 5 else if x = 4 then 2 else if x = 1 then 1 else 0

/-- The normals of the faces 0 and 1, and the direction out of face 0. -/
example : ((normalAtIjk exSqrt exNBox 0 0 fun _ _ => 0).bind fun n => .ok [n 1, n 2, n 3]) = .ok [-3/5, -4/5, 0] ∧
    ((normalAtXYZ exSqrt exNBox 1 7 7 7).bind fun n => .ok [n 1, n 2, n 3]) = .ok [3/5, 4/5, 0] ∧
    ((outwardAtIjk exSqrt exNBox 0 0 fun _ _ => 0).bind fun n => .ok [n 1, n 2, n 3]) = .ok [0, 0, -1] := by
  refine ⟨?_, ?_, ?_⟩ <;> decide +kernel

/-- A face with upper number 1 of box 0, next to face 0 of box 1; both have 2 x 2 x 2 points. -/
def exIFace : IFace := ⟨0, 1, some [1, 3, 5, 7], 1, 0, 6, 7, 8, true, true, true, true, false, false, false⟩

def exIFaceO : IFace := ⟨1, 0, some [0, 2, 4, 6], 0, 0, 6, 7, 8, true, true, true, true, false, false, false⟩

def exLBox : LBox ℚ where
  d := ⟨2, 2, 2⟩
  coeffs _ _ u _ := u
  deriv _ _ u _ := u
  eval _ _ u _ := u
  fft _ := true
  D _ _ := 0
  DD _ _ := 0
  F _ _ := 0
  Mcoeffs _ _ := 0
  Meval _ _ := 0

def exIEnv : IEnv ℚ where
  sqrt := exSqrt
  box b := ⟨exLBox, fun _ k X => X ^ k, fun _ => 0, exNBox, if b = 0 then [exIFace] else [exIFaceO]⟩
  g3 _ := (fun _ => 0, fun _ => 0, fun _ => 0)
  g2 := (fun _ => 0, fun _ => 0, fun _ => 0)
  junk _ := 0

/-- `Psi` is variable 1 and `10 b + ijk` in box `b`; `FPsi` is variable 0. The partners of 1, 3, 5, 7 are
0, 2, 4, 6. -/
example : ((interboxBox exIEnv ⟨0, 1, fun j => 1 + j⟩ 0 fun b v p => if v = 0 then -1 else 10 * b + p).bind fun m =>
    .ok ((List.range 8).map (m 0 0))) = .ok [-1, -9, -1, -9, -1, -9, -1, -9] := by decide +kernel

/-- The jump of the normal derivatives; here all three derivatives have the jump `-9`. -/
example : ((interboxOnface exIEnv ⟨0, 1, fun j => 1 + j⟩ 0 1 1 fun b v p => if v = 0 then -1 else 10 * b + p).bind
    fun m => .ok ((List.range 8).map (m 0 0))) =
    .ok [-1, -63/5, -1, -63/5, -1, -63/5, -1, -63/5] := by decide +kernel

/-- No other face has number 2. -/
example : ((interboxOnface exIEnv ⟨0, 1, fun j => 1 + j⟩ 0 2 1 fun b v p => if v = 0 then -1 else 10 * b + p).bind
    fun m => .ok ((List.range 8).map (m 0 0))) = .ok [-1, -1, -1, -1, -1, -1, -1, -1] := by decide +kernel

/-- Ranges of the coordinates: `Z` ends at 14. -/
def exIEnv2 : IEnv ℚ :=
  { exIEnv with box := fun b => { exIEnv.box b with
      bbox := fun i => if i = 5 then 14 else if i % 2 = 0 then 0 else 100 } }

/-- Interpolation in space and in the planes 2 and 1; the last point has `Z = 15`. -/
example : let m0 : Nat → Arrays ℚ := fun b v p => if v = 0 then -1 else if b = 1 then 10 + p else p + v
    ((interboxFace exIEnv ⟨0, 1, fun j => 1 + j⟩ { exIFace with touch := false } m0).bind fun m =>
      .ok ((List.range 8).map (m 0 0))) = .ok [-1, -11700, -1, -21624, -1, -35980, -1, -55584] ∧
    ((interboxFace exIEnv2 ⟨0, 1, fun j => 1 + j⟩ { exIFace with sameX := false, sameZ := false } m0).bind fun m =>
      .ok ((List.range 8).map (m 0 0))) = .ok [-1, -1156, -1, -1744, -1, -2452, -1, -1] ∧
    ((interboxFace exIEnv2 ⟨0, 1, fun j => 1 + j⟩ { exIFace with sameY := false, sameZ := false } m0).bind fun m =>
      .ok ((List.range 8).map (m 0 0))) = .ok [-1, -1382, -1, -2040, -1, -2826, -1, -1] := by
  refine ⟨?_, ?_, ?_⟩ <;> decide +kernel

end Sgrid

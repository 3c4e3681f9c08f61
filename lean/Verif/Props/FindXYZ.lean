import Verif.Model.FindXYZ
import Verif.Props.NewtonLine

/-!
# C103: finding coordinates

The functions of findXYZ_of_xyz.c, find_ijk.c and Singularities.c.
-/

namespace Sgrid
open Finset

/-! ### Specifications -/

namespace Spec

/-- The distance of two points. -/
noncomputable def dist3 (p q : ℝ × ℝ × ℝ) : ℝ :=
  Real.sqrt ((p.1 - q.1) ^ 2 + (p.2.1 - q.2.1) ^ 2 + (p.2.2 - q.2.2) ^ 2)

/-- The Cartesian coordinates of a point of the box. -/
def image (xOf : Nat → ℝ → ℝ → ℝ → ℝ) (X : ℝ × ℝ × ℝ) : ℝ × ℝ × ℝ :=
  (xOf 1 X.1 X.2.1 X.2.2, xOf 2 X.1 X.2.1 X.2.2, xOf 3 X.1 X.2.1 X.2.2)

/-- Every coordinate is in the interval `[bb(2d)-eps, bb(2d+1)+eps]`. -/
def Inside (eps : ℝ) (bb : Nat → ℝ) (X : ℝ × ℝ × ℝ) : Prop :=
  (bb 0 - eps ≤ X.1 ∧ X.1 ≤ bb 1 + eps) ∧ (bb 2 - eps ≤ X.2.1 ∧ X.2.1 ≤ bb 3 + eps) ∧
    (bb 4 - eps ≤ X.2.2 ∧ X.2.2 ≤ bb 5 + eps)

/-- The error is at most `100 tol` relative to the distance of the point from the origin. -/
def Accurate (xOf : Nat → ℝ → ℝ → ℝ → ℝ) (tol : ℝ) (X x : ℝ × ℝ × ℝ) : Prop :=
  dist3 (image xOf X) x ≤ 100 * tol * (if x = (0, 0, 0) then 1 else dist3 x (0, 0, 0))

/-- `r` is the number of the first box of the list where the search succeeds with coordinates inside, and `X'` are these
coordinates after rounding. Otherwise it is `fail`, and the coordinates are unchanged. -/
def FirstBox (find : Nat → ℝ × ℝ × ℝ → FRes (Int × (ℝ × ℝ × ℝ))) (bbox : Nat → Nat → ℝ)
    (round : Nat → ℝ × ℝ × ℝ → ℝ × ℝ × ℝ) (blist : List Nat) (X : ℝ × ℝ × ℝ) (fail r : Int) (X' : ℝ × ℝ × ℝ) : Prop :=
  (∃ (l1 : List Nat) (b : Nat) (l2 : List Nat) (s : Int) (Q : ℝ × ℝ × ℝ), blist = l1 ++ b :: l2 ∧ r = (b : Int) ∧ find b X = some (.ok (s, Q)) ∧ 0 ≤ s ∧
    Inside (1 / 10 ^ 10) (bbox b) Q ∧ X' = round b Q ∧
    ∀ b' ∈ l1, ∃ s Q, find b' X = some (.ok (s, Q)) ∧ (s < 0 ∨ ¬Inside (1 / 10 ^ 10) (bbox b') Q)) ∨
  (r = fail ∧ X' = X ∧
    ∀ b' ∈ blist, ∃ s Q, find b' X = some (.ok (s, Q)) ∧ (s < 0 ∨ ¬Inside (1 / 10 ^ 10) (bbox b') Q))

end Spec

/-! ### Lemmas -/

theorem FRes.bind_ok {α β : Type} {r : FRes α} {f : α → FRes β} {v : β} (h : r.bind f = some (.ok v)) :
    ∃ a, r = some (.ok a) ∧ f a = some (.ok v) := by
  unfold FRes.bind at h
  split at h
  · cases h
  · exact ⟨_, rfl, h⟩
  · cases h
  · cases h

theorem not_outside {bb : Nat → ℝ} {X : P3} : ¬outsideBox bb X ↔ Spec.Inside (1 / 10 ^ 10) bb X := by
  unfold outsideBox dless Spec.Inside
  norm_num only [not_or, not_lt]
  constructor
  · rintro ⟨⟨a, b⟩, ⟨c, d⟩, e, f⟩
    exact ⟨⟨by linarith, by linarith⟩, ⟨by linarith, by linarith⟩, by linarith, by linarith⟩
  · rintro ⟨⟨a, b⟩, ⟨c, d⟩, e, f⟩
    exact ⟨⟨by linarith, by linarith⟩, ⟨by linarith, by linarith⟩, by linarith, by linarith⟩

theorem dequal_iff (a b : ℝ) : dequal a b ↔ |a - b| ≤ 1 / 10 ^ 10 := by
  unfold dequal
  rw [abs_le, not_or, not_lt, not_lt]
  norm_num only
  constructor
  · rintro ⟨h1, h2⟩; exact ⟨by linarith, by linarith⟩
  · rintro ⟨h1, h2⟩; exact ⟨by linarith, by linarith⟩

/-! ### The error -/

/-- **C103** (`check_xyz_error`). The result is 1 if the error is at most `100 tol` relative to the distance from the
origin, -1 otherwise. -/
theorem C103_error (b : FBox) (X x : ℝ × ℝ × ℝ) (tol : ℝ) :
    checkXyzError b X x tol = 1 ∧ Spec.Accurate b.xOf tol X x ∨
    checkXyzError b X x tol = -1 ∧ ¬Spec.Accurate b.xOf tol X x := by
  have hd : Spec.dist3 (Spec.image b.xOf X) x = Real.sqrt (xyzFun b x (vec3 X) 0 * xyzFun b x (vec3 X) 0 +
      xyzFun b x (vec3 X) 1 * xyzFun b x (vec3 X) 1 + xyzFun b x (vec3 X) 2 * xyzFun b x (vec3 X) 2) := by
    unfold Spec.dist3 Spec.image xyzFun vec3
    congr 1
    norm_num
    ring
  have hr : Spec.dist3 x (0, 0, 0) = Real.sqrt (x.1 * x.1 + x.2.1 * x.2.1 + x.2.2 * x.2.2) := by
    unfold Spec.dist3
    congr 1
    simp only [sub_zero]
    ring
  have hz : Real.sqrt (x.1 * x.1 + x.2.1 * x.2.1 + x.2.2 * x.2.2) > 0 ↔ x ≠ (0, 0, 0) := by
    rw [gt_iff_lt, Real.sqrt_pos]
    constructor
    · rintro h rfl; norm_num at h
    · intro h
      by_contra hn
      have h1 := mul_self_nonneg x.1
      have h2 := mul_self_nonneg x.2.1
      have h3 := mul_self_nonneg x.2.2
      have e1 : x.1 * x.1 = 0 := by linarith
      have e2 : x.2.1 * x.2.1 = 0 := by linarith
      have e3 : x.2.2 * x.2.2 = 0 := by linarith
      exact h (Prod.ext (mul_self_eq_zero.1 e1) (Prod.ext (mul_self_eq_zero.1 e2) (mul_self_eq_zero.1 e3)))
  unfold checkXyzError Spec.Accurate
  dsimp only
  rw [hd, hr]
  generalize Real.sqrt (xyzFun b x (vec3 X) 0 * xyzFun b x (vec3 X) 0 +
      xyzFun b x (vec3 X) 1 * xyzFun b x (vec3 X) 1 + xyzFun b x (vec3 X) 2 * xyzFun b x (vec3 X) 2) = e
  generalize Real.sqrt (x.1 * x.1 + x.2.1 * x.2.1 + x.2.2 * x.2.2) = r at hz
  by_cases hx : x = (0, 0, 0)
  · rw [if_neg (fun h => hz.1 h hx), if_pos hx]
    split
    · rename_i h; exact Or.inr ⟨rfl, by push Not; linarith⟩
    · rename_i h; exact Or.inl ⟨rfl, by push Not at h; linarith⟩
  · have hr := hz.2 hx
    rw [if_pos hr, if_neg hx]
    split
    · rename_i h
      refine Or.inr ⟨rfl, ?_⟩
      rw [gt_iff_lt, lt_div_iff₀ hr] at h
      push Not; linarith
    · rename_i h
      refine Or.inl ⟨rfl, ?_⟩
      rw [gt_iff_lt, not_lt, div_le_iff₀ hr] at h
      linarith

/-! ### One box -/

/-- **C103.** In a Cartesian box the coordinates are the given ones; a box with its own function uses it. -/
theorem C103_cartesian (q : FindPars) (b : FBox) (X x : ℝ × ℝ × ℝ) :
    (b.cart = true → xyzOfxyz q b X x = some (.ok (0, x))) ∧
    ∀ inv, b.cart = false → b.inv = some inv → xyzOfxyz q b X x = some (.ok (inv x X)) := by
  unfold xyzOfxyz
  refine ⟨fun h => by rw [if_pos h], fun inv h h2 => ?_⟩
  rw [if_neg (by simp [h]), h2]

/-- **C103** (`X_of_x_forgiven_YZ`). A result that is not negative means that the start was good enough or that Newton's
method ended in one of its ways. -/
theorem C103_X_of_x (q : FindPars) (ht : 0 < q.tol) (b : FBox) (hc : b.cart = false) {X x Y Z : ℝ} {s : Int} {X' : ℝ}
    (h : xOfxForgivenYZ q b X x Y Z = some (.ok (s, X'))) (hs : 0 ≤ s) :
    (X' = X ∧ |b.xOf 1 X Y Z - x| < q.tol / 100) ∨
    ∃ (v : Nat → ℝ) (check : Bool), v 0 = X' ∧ v 1 = Y ∧ v 2 = Z ∧
      Spec.Ending 1 (fun v _ => b.xOf 1 (v 0) (v 1) (v 2) - x) q.tol check v := by
  unfold xOfxForgivenYZ at h
  rw [if_neg (by simp [hc])] at h
  obtain ⟨⟨ret, check, v⟩, h1, h2⟩ := FRes.bind_ok h
  obtain ⟨htail, hcase⟩ := C94_report ht h1
  dsimp only at h2
  cases h2
  rcases hcase with ⟨r0, rc, rv, rr⟩ | ⟨r1, _, re⟩ | ⟨r0, _⟩
  · exact Or.inl ⟨by rw [rv]; rfl, rr 0 (by omega)⟩
  · exact Or.inr ⟨v, check, rfl, htail 1 (by omega), htail 2 (by omega), re⟩
  · exfalso
    have : 0 ≤ checkInt check := by unfold checkInt; split <;> omega
    omega

/-- **C103** (`Y_of_y_forgiven_XZ`). -/
theorem C103_Y_of_y (q : FindPars) (ht : 0 < q.tol) (b : FBox) (hc : b.cart = false) {Y y X Z : ℝ} {s : Int} {Y' : ℝ}
    (h : yOfyForgivenXZ q b Y y X Z = some (.ok (s, Y'))) (hs : 0 ≤ s) :
    (Y' = Y ∧ |b.xOf 2 X Y Z - y| < q.tol / 100) ∨
    ∃ (v : Nat → ℝ) (check : Bool), v 0 = Y' ∧ v 1 = X ∧ v 2 = Z ∧
      Spec.Ending 1 (fun v _ => b.xOf 2 (v 1) (v 0) (v 2) - y) q.tol check v := by
  unfold yOfyForgivenXZ at h
  rw [if_neg (by simp [hc])] at h
  obtain ⟨⟨ret, check, v⟩, h1, h2⟩ := FRes.bind_ok h
  obtain ⟨htail, hcase⟩ := C94_report ht h1
  dsimp only at h2
  cases h2
  rcases hcase with ⟨r0, rc, rv, rr⟩ | ⟨r1, _, re⟩ | ⟨r0, _⟩
  · exact Or.inl ⟨by rw [rv]; rfl, rr 0 (by omega)⟩
  · exact Or.inr ⟨v, check, rfl, htail 1 (by omega), htail 2 (by omega), re⟩
  · exfalso
    have : 0 ≤ checkInt check := by unfold checkInt; split <;> omega
    omega

/-- **C103**, counterexample: where x does not depend on X, Newton's method returns 1 with `check = 1`, which means that
it failed. `X_of_x_forgiven_YZ` returns `stat-check`, which is 0, and `b_X_of_x_forgiven_YZ` takes this for success:
it "finds" x=7 in a box where x is 5 everywhere. -/
theorem C103_check_counterexample (q : FindPars) (ht : q.tol = 1) (hf : 1 ≤ q.fuel) (hit : 1 ≤ q.itmax) (b : FBox)
    (hc : b.cart = false) (hx : ∀ X Y Z, b.xOf 1 X Y Z = 5) (hb0 : b.bbox = fun f => ((f % 2 : Nat) : ℝ)) :
    xOfxForgivenYZ q b 0 7 0 0 = some (.ok (0, 0)) ∧
    bXforYZ q (fun _ => b) 1 (fun _ => false) (0, 0, 0) 7 = some (.ok (0, 0, 0, 0)) := by
  have hv : vec3 (0, 0, 0) = fun _ => (0 : ℝ) := by
    funext i; unfold vec3; split_ifs <;> rfl
  have hFd : (fun (v : RArr) (_ : Nat) => b.xOf 1 (v 0) (v 1) (v 2) - 7) = fun _ _ => (-2 : ℝ) := by
    funext v i; rw [hx]; norm_num
  have key : newtonLinesearch q.fuel 1 (fun _ _ => (-2 : ℝ)) q.itmax 1 (fun _ => 0) q.check0 =
      some (.ok (1, true, fun _ => 0)) := by
    set F : RArr → RArr := fun _ _ => (-2 : ℝ) with hFd
    have hJ := C94_jacobian_affine (n := 1) (F := F) (A := fun _ _ => 0) (b := fun _ => -2)
      (by intro y i _; simp [hFd]) (fun _ => 0)
    have hF0 : F (fun _ => 0) = fun _ => -2 := rfl
    have hs : ¬maxLoop 1 (fun i => |F (fun _ => 0) i|) < 1 / 100 * 1 := by
      rw [maxLoop_lt (by positivity), hF0]
      push Not
      exact ⟨0, by omega, by norm_num⟩
    have j00 := hJ 0 0 (by omega) (by omega)
    have hgr : Spec.gradient 1 F (fun _ => 0) 0 = 0 := by
      unfold Spec.gradient
      rw [sum_range_one, j00, zero_mul]
    generalize hJJ : fdJacobian 1 F (fun _ => 0) (F fun _ => 0) = J at *
    have hstep : ∃ p, nlStep 1 J (F fun _ => 0) = .ok p ∧ p 0 = 0 := by
      unfold nlStep
      obtain ⟨r, s, h1, h2⟩ := C46_returns 1 J (fun _ => 0) (fun _ => 0) 0
      rw [h1]
      have h3 : r ≠ 0 ∧ s.A = J := by
        rcases h2 with ⟨_, h, _⟩ | ⟨j, _, h, hA, _⟩ | ⟨j, _, h, hA, _⟩
        · obtain ⟨i, hi, hne⟩ := h 0 (by omega)
          obtain rfl : i = 0 := by omega
          exact absurd j00 (by simpa using hne)
        · exact ⟨by omega, hA⟩
        · exact ⟨by omega, hA⟩
      refine ⟨_, rfl, ?_⟩
      rw [if_pos h3.1, h3.2]
      simp [singStep, singSearch, upLoop, List.range'_succ, aset, j00]
    obtain ⟨p, hp1, hp0⟩ := hstep
    have hp : ∀ i, i < 1 → p i = 0 := by
      intro i hi
      obtain rfl : i = 0 := by omega
      exact hp0
    obtain ⟨hI, hst⟩ := nlInit (check0 := q.check0) one_pos hs
    have hpass : nlPass q.fuel 1 F (100 * max (Real.sqrt (sumLoop 1 (fun i => (fun _ => 0 : RArr) i *
        (fun _ => 0 : RArr) i))) (1 : Nat)) 1 1
        ⟨fun _ => 0, lineObj 1 (F fun _ => 0), F fun _ => 0, q.check0⟩ =
        .inl (some (.ok (1, true, fun _ => 0))) := by
      unfold nlPass
      dsimp only
      rw [gradient_eq, hJJ, hp1]
      dsimp only
      rw [linesrch_tiny (z := fun _ => 0) hf F _ _ hst ?_ ?_ ?_ (fun _ _ => rfl)]
      · have htst : nlTests 1 1 (fun _ => 0) (Spec.gradient 1 F fun _ => 0)
            ⟨fun _ => 0, Spec.half2 1 (F fun _ => 0), F fun _ => 0, true⟩ = .inl true := by
          unfold nlTests
          rw [if_neg, if_pos rfl]
          · dsimp only
            congr 1
            rw [decide_eq_true_iff, maxLoop_lt (by positivity)]
            intro i hi
            obtain rfl : i = 0 := by omega
            rw [hgr]
            norm_num
          · rw [maxLoop_lt one_pos, hF0]
            push Not
            exact ⟨0, by omega, by norm_num⟩
        dsimp only
        rw [htst]
        rfl
      · rw [sum_eq_zero fun i hi => by rw [hp i (mem_range.mp hi)]; ring, Real.sqrt_zero]
        exact hst.le
      · intro i hi
        rw [hp i hi]
        simp
      · intro i hi
        rw [hp i hi, add_zero]
    unfold newtonLinesearch
    dsimp only
    rw [if_neg hs, forRet_first hit hpass]
  have h1 : xOfxForgivenYZ q b 0 7 0 0 = some (.ok (0, 0)) := by
    unfold xOfxForgivenYZ
    rw [if_neg (by simp [hc]), hFd, hv, ht, key]
    rfl
  refine ⟨h1, ?_⟩
  unfold bXforYZ activeBoxes
  simp only [List.range_one, List.filter_cons, List.filter_nil, Bool.not_false, if_true]
  unfold searchBoxes findXforYZ
  rw [h1]
  simp only [FRes.bind]
  rw [if_neg]
  · unfold roundInside
    rw [hb0]
    norm_num
  · rw [not_or, not_outside, hb0]
    unfold Spec.Inside
    norm_num

/-- **C103** (`recover_if_start_on_singularity`). If the result is not negative, the coordinates found are accurate. If
it is negative or not, a direction that is not tried is unchanged. -/
theorem C103_recover (q : FindPars) (b : FBox) {X x X' : ℝ × ℝ × ℝ} (si : SingInfo) {s : Int}
    (h : recoverSing q b X x si = some (.ok (s, X'))) :
    X'.2.2 = X.2.2 ∧ (0 ≤ s → s = 1 ∧ Spec.Accurate b.xOf q.tol X' x) := by
  have good : ∀ (r : Int) (P : P3), 0 ≤ (if r ≥ 0 then checkXyzError b P x q.tol else r) →
      (if r ≥ 0 then checkXyzError b P x q.tol else r) = 1 ∧ Spec.Accurate b.xOf q.tol P x := by
    intro r P hr
    split at hr
    · rename_i h0
      rw [if_pos h0]
      rcases C103_error b P x q.tol with ⟨e1, e2⟩ | ⟨e1, _⟩
      · exact ⟨e1, e2⟩
      · rw [e1] at hr; omega
    · omega
  have hX : ∀ s0 s' : Int × P3, recoverX q b x si s0 = some (.ok s') →
      (s0.2.2.2 = X.2.2 ∧ (0 ≤ s0.1 → s0.1 = 1 ∧ Spec.Accurate b.xOf q.tol s0.2 x)) →
      s'.2.2.2 = X.2.2 ∧ (0 ≤ s'.1 → s'.1 = 1 ∧ Spec.Accurate b.xOf q.tol s'.2 x) := by
    intro s0 s' h0 hi
    unfold recoverX at h0
    split at h0
    · obtain ⟨r, _, h2⟩ := FRes.bind_ok h0
      cases h2
      exact ⟨hi.1, good _ _⟩
    · split at h0
      · cases h0
      · split at h0
        · cases h0
        · cases h0; exact hi
  unfold recoverSing at h
  dsimp only at h
  obtain ⟨s1, h1, h⟩ := FRes.bind_ok h
  obtain ⟨s2, h2, h⟩ := FRes.bind_ok h
  have i1 : s1.2.2.2 = X.2.2 ∧ (0 ≤ s1.1 → s1.1 = 1 ∧ Spec.Accurate b.xOf q.tol s1.2 x) := by
    split at h1
    · split at h1
      · cases h1
      · split at h1
        · obtain ⟨r, _, h3⟩ := FRes.bind_ok h1
          cases h3
          exact ⟨rfl, good _ _⟩
        · split at h1
          · cases h1
          · cases h1; exact ⟨rfl, fun h => by omega⟩
    · cases h1; exact ⟨rfl, fun h => by omega⟩
  have i2 : s2.2.2.2 = X.2.2 ∧ (0 ≤ s2.1 → s2.1 = 1 ∧ Spec.Accurate b.xOf q.tol s2.2 x) := by
    split at h2
    · exact hX _ _ h2 i1
    · cases h2; exact i1
  split at h
  · exact hX _ _ h i2
  · cases h; exact i2

/-- **C103** (`XYZ_of_xyz`). If the result is not negative, then the coordinates are accurate, or Newton's method ended with
`check == 0`: at a root, next to a root, or after a tiny step. -/
theorem C103_found (q : FindPars) (ht : 0 < q.tol) (b : FBox) (hc : b.cart = false) (hi : b.inv = none)
    {X x X' : ℝ × ℝ × ℝ} {s : Int} (h : xyzOfxyz q b X x = some (.ok (s, X'))) (hs : 0 ≤ s) :
    Spec.Accurate b.xOf q.tol X' x ∨
    (∀ i, i < 3 → |xyzFun b x (vec3 X') i| < q.tol / 100) ∨
    ∃ v : Nat → ℝ, (v 0, v 1, v 2) = X' ∧ Spec.Ending 3 (xyzFun b x) q.tol false v := by
  unfold xyzOfxyz at h
  rw [if_neg (by simp [hc]), hi] at h
  dsimp only at h
  generalize (if q.guess then (nearestInner b x 0 X).P else X) = X0 at h
  split at h
  · left
    exact ((C103_recover q b _ h).2 hs).2
  obtain ⟨⟨ret, check, v⟩, h1, h2⟩ := FRes.bind_ok h
  obtain ⟨htail, hcase⟩ := C94_report ht h1
  dsimp only at h2
  cases check
  · simp only [checkInt, ne_eq, not_true, false_or, if_false, Bool.false_eq_true, sub_zero, ite_self] at h2
    cases h2
    rcases hcase with ⟨r0, rc, rv, rr⟩ | ⟨r1, _, re⟩ | ⟨r0, _⟩
    · right; left
      intro i hi'
      have := rr i hi'
      rw [rv]
      exact this
    · exact Or.inr (Or.inr ⟨v, rfl, re⟩)
    · omega
  · simp only [checkInt, ne_eq, if_true, one_ne_zero, not_false_eq_true, true_or] at h2
    split at h2
    · cases h2
      rename_i h1'
      left
      rcases C103_error b (v 0, v 1, v 2) x q.tol with ⟨_, e2⟩ | ⟨e1, _⟩
      · exact e2
      · omega
    · cases h2
      have := abs_nonneg ret
      omega

/-- **C103** (`isSing_AnsorgNS12`, `isSing_AnsorgNS03`). The whole answer: singular exactly at Y=0 and Y=1; flagged is
face 3 if Y is 1 and face 2 otherwise; `dx/dX` and all derivatives with respect to Y exist, `dy/dX` and `dz/dX` and all
derivatives with respect to Z vanish. -/
theorem C103_sing (X : ℝ × ℝ × ℝ) :
    (isSingAnsorg X = none ↔ ¬(|X.2.1| ≤ 1 / 10 ^ 10 ∨ |X.2.1 - 1| ≤ 1 / 10 ^ 10)) ∧
    ∀ si, isSingAnsorg X = some si →
      (∀ f, si.f f = true ↔ (|X.2.1 - 1| ≤ 1 / 10 ^ 10 ∧ f = 3) ∨ (¬|X.2.1 - 1| ≤ 1 / 10 ^ 10 ∧ f = 2)) ∧
      si.dx 1 1 = '.' ∧ si.dx 2 1 = '0' ∧ si.dx 3 1 = '0' ∧ (∀ i, si.dx i 2 = '.') ∧ ∀ i, si.dx i 3 = '0' := by
  have h0 : dequal X.2.1 0 ↔ |X.2.1| ≤ 1 / 10 ^ 10 := by rw [dequal_iff, sub_zero]
  have h1 : dequal X.2.1 1 ↔ |X.2.1 - 1| ≤ 1 / 10 ^ 10 := by rw [dequal_iff]
  unfold isSingAnsorg
  rw [h0, h1]
  constructor
  · split_ifs with h
    · exact ⟨fun e => e.elim, fun e => absurd h e⟩
    · exact ⟨fun _ => h, fun _ => rfl⟩
  · intro si hsi
    split_ifs at hsi with h h'
    · cases hsi
      refine ⟨fun f => by
        rw [decide_eq_true_iff]
        constructor
        · intro e
          tauto
        · rintro (⟨e, e'⟩ | ⟨e, e'⟩) <;> tauto, rfl, rfl, rfl, fun i => rfl, fun i => rfl⟩
    · cases hsi
      refine ⟨fun f => by
        rw [decide_eq_true_iff]
        constructor
        · intro e
          tauto
        · rintro (⟨e, e'⟩ | ⟨e, e'⟩) <;> tauto, rfl, rfl, rfl, fun i => rfl, fun i => rfl⟩

/-- **C103** (`isSing_AnsorgNS12`, `isSing_AnsorgNS03`). At Y=0 and Y=1, and only there, the point is singular; then
`XYZ_of_xyz` keeps Y and Z, looks for X alone, and a result that is not negative means that the coordinates are
accurate. -/
theorem C103_ansorg (q : FindPars) (hg : q.guess = false) (b : FBox) (hc : b.cart = false) (hi : b.inv = none)
    (hsing : b.isSing = some isSingAnsorg) {X x X' : ℝ × ℝ × ℝ} {s : Int}
    (hY : |X.2.1| ≤ 1 / 10 ^ 10 ∨ |X.2.1 - 1| ≤ 1 / 10 ^ 10) (h : xyzOfxyz q b X x = some (.ok (s, X'))) :
    X'.2 = X.2 ∧ (∃ s', xOfxForgivenYZ q b X.1 x.1 X.2.1 X.2.2 = some (.ok (s', X'.1))) ∧
      (0 ≤ s → s = 1 ∧ Spec.Accurate b.xOf q.tol X' x) := by
  unfold xyzOfxyz at h
  have hY' : dequal X.2.1 0 ∨ dequal X.2.1 1 := by rw [dequal_iff, dequal_iff, sub_zero]; exact hY
  rw [if_neg (by simp [hc]), hi, hsing] at h
  dsimp only at h
  rw [if_neg (by simp [hg])] at h
  simp only [Option.bind_some] at h
  have hsi : ∃ si, isSingAnsorg X = some si ∧ si.f 0 = false ∧ si.f 1 = false ∧ si.f 4 = false ∧ si.f 5 = false ∧
      (si.f 2 = true ∨ si.f 3 = true) ∧ si.dx 1 1 = '.' ∧ ∀ i, si.dx i 3 = '0' := by
    unfold isSingAnsorg
    rw [if_pos hY']
    refine ⟨_, rfl, ?_⟩
    split_ifs <;> simp
  obtain ⟨si, h0, f0, f1, f4, f5, f23, d11, d3⟩ := hsi
  rw [h0] at h
  dsimp only at h
  refine ⟨?_, ?_, (C103_recover q b si h).2⟩ <;>
  · unfold recoverSing at h
    simp only [f0, f1, f4, f5, Bool.or_self, Bool.false_and, Bool.false_eq_true, if_false] at h
    obtain ⟨s1, h1, h⟩ := FRes.bind_ok h
    cases h1
    obtain ⟨s2, h2, h⟩ := FRes.bind_ok h
    cases h
    have hcond : ((si.f 2 || si.f 3) && decide ((-1 : Int) < 0) &&
        (si.dx 1 3 == '0' && si.dx 2 3 == '0' && si.dx 3 3 == '0')) = true := by
      rw [d3, d3, d3]
      rcases f23 with h | h <;> rw [h] <;> simp
    rw [if_pos hcond] at h2
    unfold recoverX at h2
    rw [if_pos d11] at h2
    obtain ⟨r, h3, h4⟩ := FRes.bind_ok h2
    cases h4
    first | rfl | exact ⟨_, h3⟩

/-! ### All boxes -/

theorem searchBoxes_spec (find : Nat → P3 → FRes (Int × P3)) (bbox : Nat → Nat → ℝ) (round : Nat → P3 → P3) (X : P3)
    (fin : Int) (blist : List Nat) {r : Int} {X' : P3} (h : searchBoxes find bbox round X fin blist = some (.ok (r, X'))) :
    Spec.FirstBox find bbox round blist X (-fin - 10000) r X' := by
  induction blist with
  | nil =>
    unfold searchBoxes at h
    cases h
    exact Or.inr ⟨rfl, rfl, fun _ h => absurd h (by simp)⟩
  | cons bi l ih =>
    unfold searchBoxes at h
    obtain ⟨⟨s, Q⟩, h1, h2⟩ := FRes.bind_ok h
    dsimp only at h2
    split at h2
    · rename_i hn
      rw [← not_not (a := outsideBox _ _), not_outside] at hn
      rcases ih h2 with ⟨l1, b, l2, s', Q', e1, e2, e3, e4, e5, e6, e7⟩ | ⟨e1, e2, e3⟩
      · refine Or.inl ⟨bi :: l1, b, l2, s', Q', by rw [e1]; rfl, e2, e3, e4, e5, e6, fun b' hb' => ?_⟩
        rcases List.mem_cons.1 hb' with rfl | hb'
        · exact ⟨s, Q, h1, hn⟩
        · exact e7 b' hb'
      · refine Or.inr ⟨e1, e2, fun b' hb' => ?_⟩
        rcases List.mem_cons.1 hb' with rfl | hb'
        · exact ⟨s, Q, h1, hn⟩
        · exact e3 b' hb'
    · rename_i hn
      rw [not_or, not_outside, not_lt] at hn
      cases h2
      exact Or.inl ⟨[], bi, l, s, Q, rfl, rfl, h1, hn.1, hn.2, rfl, fun _ h => absurd h (by simp)⟩

/-- **C103** (`b_XYZ_of_xyz`). The box is the first active one where the coordinates are found inside the box up to
1e-10; if there is none, the result is negative and the coordinates are unchanged. -/
theorem C103_boxes (q : FindPars) (box : Nat → FBox) (nboxes : Nat) (inactive : Nat → Bool) {X x X' : ℝ × ℝ × ℝ} {r : Int}
    (h : bXYZ q box nboxes inactive X x = some (.ok (r, X'))) :
    Spec.FirstBox (fun b X => xyzOfxyz q (box b) X x) (fun b => (box b).bbox) (fun b => roundBox (box b).bbox)
      ((List.range nboxes).filter fun b => !inactive b) X (-nboxes - 10000) r X' :=
  searchBoxes_spec _ _ _ _ _ _ h

/-- **C103** (`b_XYZ_of_xyz_inboxlist`). -/
theorem C103_boxlist (q : FindPars) (box : Nat → FBox) (blist : List Nat) {X x X' : ℝ × ℝ × ℝ} {r : Int}
    (h : bXYZlist q box blist X x = some (.ok (r, X'))) :
    Spec.FirstBox (fun b X => xyzOfxyz q (box b) X x) (fun b => (box b).bbox) (fun b => roundBox (box b).bbox)
      blist X (-(blist.getLastD 0 : Nat) - 10000) r X' :=
  searchBoxes_spec _ _ _ _ _ _ h

/-- **C103** (`b_X_of_x_forgiven_YZ`). -/
theorem C103_X_boxes (q : FindPars) (box : Nat → FBox) (nboxes : Nat) (inactive : Nat → Bool) {X X' : ℝ × ℝ × ℝ} {x : ℝ}
    {r : Int} (h : bXforYZ q box nboxes inactive X x = some (.ok (r, X'))) :
    Spec.FirstBox (findXforYZ q box x) (fun b => (box b).bbox)
      (fun b Q => (min (max Q.1 ((box b).bbox 0)) ((box b).bbox 1), Q.2))
      ((List.range nboxes).filter fun b => !inactive b) X (-nboxes - 10000) r X' := by
  have := searchBoxes_spec _ _ _ _ _ _ h
  unfold activeBoxes at this
  convert this using 1
  funext b Q
  refine Prod.ext ?_ rfl
  simp only [roundInside]
  split_ifs with h1 h2 h2
  · rw [max_eq_right h1.le, min_eq_right h2.le]
  · rw [max_eq_right h1.le, min_eq_left (not_lt.1 h2)]
  · rw [max_eq_left (not_lt.1 h1), min_eq_right h2.le]
  · rw [max_eq_left (not_lt.1 h1), min_eq_left (not_lt.1 h2)]

/-- **C103** (`b_X_of_x_forgiven_YZ_inboxlist`). -/
theorem C103_X_boxlist (q : FindPars) (box : Nat → FBox) (blist : List Nat) {X X' : ℝ × ℝ × ℝ} {x : ℝ}
    {r : Int} (h : bXforYZlist q box blist X x = some (.ok (r, X'))) :
    Spec.FirstBox (findXforYZ q box x) (fun b => (box b).bbox)
      (fun b Q => (min (max Q.1 ((box b).bbox 0)) ((box b).bbox 1), Q.2))
      blist X (-(blist.getLastD 0 : Nat) - 10000) r X' := by
  have := searchBoxes_spec _ _ _ _ _ _ h
  convert this using 1
  funext b Q
  refine Prod.ext ?_ rfl
  simp only [roundInside]
  split_ifs with h1 h2 h2
  · rw [max_eq_right h1.le, min_eq_right h2.le]
  · rw [max_eq_right h1.le, min_eq_left (not_lt.1 h2)]
  · rw [max_eq_left (not_lt.1 h1), min_eq_right h2.le]
  · rw [max_eq_left (not_lt.1 h1), min_eq_left (not_lt.1 h2)]

/-- **C103.** If the search in every box of the list returns, so does the loop over boxes. -/
theorem C103_returns (find : Nat → ℝ × ℝ × ℝ → FRes (Int × (ℝ × ℝ × ℝ))) (bbox : Nat → Nat → ℝ)
    (round : Nat → ℝ × ℝ × ℝ → ℝ × ℝ × ℝ) (X : ℝ × ℝ × ℝ) (fin : Int) (blist : List Nat)
    (h : ∀ b ∈ blist, ∃ a, find b X = some (.ok a)) : ∃ a, searchBoxes find bbox round X fin blist = some (.ok a) := by
  induction blist with
  | nil => exact ⟨_, rfl⟩
  | cons bi l ih =>
    unfold searchBoxes
    obtain ⟨a, ha⟩ := h bi (by simp)
    rw [ha]
    simp only [FRes.bind]
    split
    · exact ih fun b hb => h b (by simp [hb])
    · exact ⟨_, rfl⟩

theorem roundInside_spec {lo hi X : ℝ} (h : lo ≤ hi) (h1 : lo - 1 / 10 ^ 10 ≤ X) (h2 : X ≤ hi + 1 / 10 ^ 10) :
    lo ≤ roundInside lo hi X ∧ roundInside lo hi X ≤ hi ∧ |roundInside lo hi X - X| ≤ 1 / 10 ^ 10 ∧
      (lo ≤ X → X ≤ hi → roundInside lo hi X = X) := by
  unfold roundInside
  dsimp only
  split_ifs with ha hb hb
  · exact absurd h (not_le.2 hb)
  · exact ⟨le_refl _, h, by rw [abs_le]; constructor <;> linarith, fun h3 _ => absurd ha (not_lt.2 h3)⟩
  · exact ⟨h, le_refl _, by rw [abs_le]; constructor <;> linarith, fun _ h3 => absurd hb (not_lt.2 h3)⟩
  · exact ⟨not_lt.1 ha, not_lt.1 hb, by norm_num, fun _ _ => rfl⟩

/-- **C103.** The rounded coordinates are inside the box, they are off by at most 1e-10, and coordinates inside the box do
not change. -/
theorem C103_round {bb : Nat → ℝ} (h0 : bb 0 ≤ bb 1) (h2 : bb 2 ≤ bb 3) (h4 : bb 4 ≤ bb 5) {Q : ℝ × ℝ × ℝ}
    (hQ : Spec.Inside (1 / 10 ^ 10) bb Q) :
    Spec.Inside 0 bb (roundBox bb Q) ∧ |(roundBox bb Q).1 - Q.1| ≤ 1 / 10 ^ 10 ∧
    |(roundBox bb Q).2.1 - Q.2.1| ≤ 1 / 10 ^ 10 ∧ |(roundBox bb Q).2.2 - Q.2.2| ≤ 1 / 10 ^ 10 ∧
    (Spec.Inside 0 bb Q → roundBox bb Q = Q) := by
  obtain ⟨⟨a1, a2⟩, ⟨b1, b2⟩, c1, c2⟩ := hQ
  obtain ⟨x1, x2, x3, x4⟩ := roundInside_spec h0 a1 a2
  obtain ⟨y1, y2, y3, y4⟩ := roundInside_spec h2 b1 b2
  obtain ⟨z1, z2, z3, z4⟩ := roundInside_spec h4 c1 c2
  refine ⟨⟨⟨by rwa [sub_zero], by rwa [add_zero]⟩, ⟨by rwa [sub_zero], by rwa [add_zero]⟩, by rwa [sub_zero],
    by rwa [add_zero]⟩, x3, y3, z3, ?_⟩
  rintro ⟨⟨a1, a2⟩, ⟨b1, b2⟩, c1, c2⟩
  rw [sub_zero, add_zero] at *
  exact Prod.ext (x4 a1 a2) (Prod.ext (y4 b1 b2) (z4 c1 c2))

/-! ### Nearest points -/

theorem near_fold (pX px : Nat → P3) (x : P3) (l1 : List Nat) (ind : Nat) (P : P3) :
    let s := l1.foldl (nearStep pX px x) ⟨-1, ind, P⟩
    (l1 = [] ∧ s = ⟨-1, ind, P⟩) ∨
    ∃ a i c, l1 = a ++ i :: c ∧ s.ind = i ∧ s.P = pX i ∧ s.rmin = Spec.dist3 (px i) x ^ 2 ∧
      (∀ j ∈ a, Spec.dist3 (px i) x ≤ Spec.dist3 (px j) x) ∧ ∀ j ∈ c, Spec.dist3 (px i) x < Spec.dist3 (px j) x := by
  have hsq : ∀ i, ((px i).1 - x.1) * ((px i).1 - x.1) + ((px i).2.1 - x.2.1) * ((px i).2.1 - x.2.1) +
      ((px i).2.2 - x.2.2) * ((px i).2.2 - x.2.2) = Spec.dist3 (px i) x ^ 2 := by
    intro i
    unfold Spec.dist3
    rw [Real.sq_sqrt (by positivity)]
    ring
  have hnn : ∀ i, 0 ≤ Spec.dist3 (px i) x := fun i => Real.sqrt_nonneg _
  induction l1 using List.reverseRecOn with
  | nil => exact Or.inl ⟨rfl, rfl⟩
  | append_singleton l i ih =>
    right
    dsimp only at ih ⊢
    rw [List.foldl_append, List.foldl_cons, List.foldl_nil]
    generalize l.foldl (nearStep pX px x) ⟨-1, ind, P⟩ = s0 at ih ⊢
    unfold nearStep
    dsimp only
    rw [hsq]
    rcases ih with ⟨rfl, h⟩ | ⟨a, k, c, e1, e2, e3, e4, e5, e6⟩
    · rw [h, if_pos (Or.inr (by norm_num))]
      exact ⟨[], i, [], rfl, rfl, rfl, rfl, fun _ h => absurd h (by simp), fun _ h => absurd h (by simp)⟩
    · have hneg : ¬s0.rmin < 0 := by
        rw [e4, not_lt]; positivity
      by_cases hle : Spec.dist3 (px i) x ^ 2 ≤ s0.rmin
      · rw [if_pos (Or.inl hle)]
        rw [e4] at hle
        have hle' : Spec.dist3 (px i) x ≤ Spec.dist3 (px k) x := (sq_le_sq₀ (hnn i) (hnn k)).1 hle
        refine ⟨l, i, [], rfl, rfl, rfl, rfl, fun j hj => ?_, fun _ h => absurd h (by simp)⟩
        rw [e1, List.mem_append, List.mem_cons] at hj
        rcases hj with hj | rfl | hj
        · exact hle'.trans (e5 j hj)
        · exact hle'
        · exact hle'.trans (e6 j hj).le
      · rw [if_neg (not_or.2 ⟨hle, hneg⟩)]
        refine ⟨a, k, c ++ [i], by rw [e1]; simp, e2, e3, e4, e5, fun j hj => ?_⟩
        rw [List.mem_append, List.mem_singleton] at hj
        rcases hj with hj | rfl
        · exact e6 j hj
        · rw [e4, not_le] at hle
          exact lt_of_pow_lt_pow_left₀ 2 (hnn _) hle

theorem nearLoop_spec (pX px : Nat → P3) (x : P3) (pts : List Nat) (ind : Nat) (P : P3) :
    (pts = [] ∧ nearLoop pX px x pts ind P = ⟨-1, ind, P⟩) ∨
    ∃ a i c, pts = a ++ i :: c ∧ nearLoop pX px x pts ind P = ⟨Spec.dist3 (px i) x, i, pX i⟩ ∧
      (∀ j ∈ a, Spec.dist3 (px i) x ≤ Spec.dist3 (px j) x) ∧ ∀ j ∈ c, Spec.dist3 (px i) x < Spec.dist3 (px j) x := by
  unfold nearLoop
  dsimp only
  have h := near_fold pX px x pts ind P
  dsimp only at h
  generalize pts.foldl (nearStep pX px x) ⟨-1, ind, P⟩ = s at h ⊢
  rcases h with ⟨h1, rfl⟩ | ⟨a, i, c, e1, e2, e3, e4, e5, e6⟩
  · refine Or.inl ⟨h1, ?_⟩
    norm_num
  · refine Or.inr ⟨a, i, c, e1, ?_, e5, e6⟩
    rw [e2, e3, e4]
    have hnn : 0 ≤ Spec.dist3 (px i) x := Real.sqrt_nonneg _
    congr 1
    split
    · exact Real.sqrt_sq hnn
    · rename_i hn
      have h0 : Spec.dist3 (px i) x ^ 2 = 0 := le_antisymm (not_lt.1 hn) (by positivity)
      rw [h0]
      exact (pow_eq_zero_iff two_ne_zero |>.1 h0).symm

/-- **C103** (`nearestXYZ_of_xyz`). The index, coordinates and distance of the nearest point of the box; of several nearest
points it is the last one. -/
theorem C103_nearest (b : FBox) (x : ℝ × ℝ × ℝ) (ind : Nat) (P : ℝ × ℝ × ℝ) (hN : 0 < b.d.n1 * b.d.n2 * b.d.n3) :
    let t := nearestXYZ b x ind P
    t.ind < b.d.n1 * b.d.n2 * b.d.n3 ∧ t.P = b.pX t.ind ∧ t.rmin = Spec.dist3 (b.px t.ind) x ∧
    (∀ j, j < b.d.n1 * b.d.n2 * b.d.n3 → t.rmin ≤ Spec.dist3 (b.px j) x) ∧
    ∀ j, t.ind < j → j < b.d.n1 * b.d.n2 * b.d.n3 → t.rmin < Spec.dist3 (b.px j) x := by
  intro t
  rcases nearLoop_spec b.pX b.px x (List.range (b.d.n1 * b.d.n2 * b.d.n3)) ind P with ⟨h, _⟩ | ⟨a, i, c, e1, e2, e3, e4⟩
  · rw [List.range_eq_nil] at h; omega
  · rw [show t = _ from e2]
    have hmem : ∀ j, j < b.d.n1 * b.d.n2 * b.d.n3 → j ∈ a ∨ j = i ∨ j ∈ c := by
      intro j hj
      have : j ∈ List.range (b.d.n1 * b.d.n2 * b.d.n3) := List.mem_range.2 hj
      rw [e1, List.mem_append, List.mem_cons] at this
      exact this
    have hs : (a ++ i :: c).Pairwise (· < ·) := by rw [← e1]; exact List.pairwise_lt_range
    refine ⟨?_, rfl, rfl, fun j hj => ?_, fun j hij hj => ?_⟩
    · rw [← List.mem_range, e1]; simp
    · rcases hmem j hj with h | rfl | h
      · exact e3 j h
      · exact le_refl _
      · exact (e4 j h).le
    · rcases hmem j hj with h | rfl | h
      · exact absurd ((List.pairwise_append.1 hs).2.2 j h i (by simp)) (by dsimp only at hij; omega)
      · exact absurd hij (lt_irrefl _)
      · exact e4 j h

theorem mem_innerPts (d : Dims) (p : Nat) :
    p ∈ innerPts d ↔ ∃ i j k, 1 ≤ i ∧ i + 1 < d.n1 ∧ 1 ≤ j ∧ j + 1 < d.n2 ∧ 1 ≤ k ∧ k + 1 < d.n3 ∧ p = d.idx i j k := by
  unfold innerPts
  simp only [List.mem_flatMap, List.mem_map, List.mem_range'_1]
  constructor
  · rintro ⟨k, hk, j, hj, i, hi, rfl⟩
    exact ⟨i, j, k, by omega, by omega, by omega, by omega, by omega, by omega, rfl⟩
  · rintro ⟨i, j, k, h1, h2, h3, h4, h5, h6, rfl⟩
    exact ⟨k, by omega, j, by omega, i, by omega, rfl⟩

/-- **C103** (`nearestinnerXYZ_of_xyz`, `guessXYZ_of_xyz`). The nearest point among those that are on no face. Without such
points nothing is set, and the result is -1. -/
theorem C103_inner (b : FBox) (x : ℝ × ℝ × ℝ) (ind : Nat) (P : ℝ × ℝ × ℝ) :
    let t := nearestInner b x ind P
    (3 ≤ b.d.n1 ∧ 3 ≤ b.d.n2 ∧ 3 ≤ b.d.n3 →
      (∃ i j k, 1 ≤ i ∧ i + 1 < b.d.n1 ∧ 1 ≤ j ∧ j + 1 < b.d.n2 ∧ 1 ≤ k ∧ k + 1 < b.d.n3 ∧ t.ind = b.d.idx i j k) ∧
      t.P = b.pX t.ind ∧ t.rmin = Spec.dist3 (b.px t.ind) x ∧
      ∀ i j k, 1 ≤ i → i + 1 < b.d.n1 → 1 ≤ j → j + 1 < b.d.n2 → 1 ≤ k → k + 1 < b.d.n3 →
        t.rmin ≤ Spec.dist3 (b.px (b.d.idx i j k)) x) ∧
    (b.d.n1 < 3 ∨ b.d.n2 < 3 ∨ b.d.n3 < 3 → t = ⟨-1, ind, P⟩) := by
  intro t
  rcases nearLoop_spec b.pX b.px x (innerPts b.d) ind P with ⟨h, h'⟩ | ⟨a, i, c, e1, e2, e3, e4⟩
  · refine ⟨fun ⟨h1, h2, h3⟩ => ?_, fun _ => h'⟩
    have : b.d.idx 1 1 1 ∈ innerPts b.d :=
      (mem_innerPts _ _).2 ⟨1, 1, 1, by omega, by omega, by omega, by omega, by omega, by omega, rfl⟩
    rw [h] at this
    exact absurd this (by simp)
  · have hi : i ∈ innerPts b.d := by rw [e1]; simp
    have hi' := (mem_innerPts _ _).1 hi
    rw [show t = _ from e2]
    refine ⟨fun _ => ⟨hi', rfl, rfl, fun i' j k h1 h2 h3 h4 h5 h6 => ?_⟩, fun h => ?_⟩
    · have : b.d.idx i' j k ∈ innerPts b.d := (mem_innerPts _ _).2 ⟨i', j, k, h1, h2, h3, h4, h5, h6, rfl⟩
      rw [e1, List.mem_append, List.mem_cons] at this
      rcases this with h | h | h
      · exact e3 _ h
      · rw [h]
      · exact (e4 _ h).le
    · obtain ⟨i', j, k, h1, h2, h3, h4, h5, h6, _⟩ := hi'
      omega

/-- The points of a plane by their indices. -/
def Spec.InPlane (n1 n2 n3 : Nat) (plane : Int) (pind i j k : Nat) : Prop :=
  (plane = 1 ∧ i = pind ∧ j < n2 ∧ k < n3) ∨ (plane = 2 ∧ i < n1 ∧ j = pind ∧ k < n3) ∨
    (plane = 3 ∧ i < n1 ∧ j < n2 ∧ k = pind)

/-- **C103** (`nearestXYZ_of_xyz_inplane`). The nearest point of the plane; a wrong direction is an error. -/
theorem C103_inplane (b : FBox) (x : ℝ × ℝ × ℝ) (plane : Int) (pind ind : Nat) (P : ℝ × ℝ × ℝ) (h1 : 0 < b.d.n1)
    (h2 : 0 < b.d.n2) (h3 : 0 < b.d.n3) :
    (plane ≠ 1 ∧ plane ≠ 2 ∧ plane ≠ 3 ∧ nearestInPlane b x plane pind ind P = .abort) ∨
    ∃ t, nearestInPlane b x plane pind ind P = .ok t ∧
      (∃ i j k, Spec.InPlane b.d.n1 b.d.n2 b.d.n3 plane pind i j k ∧ t.ind = b.d.idx i j k) ∧
      t.P = b.pX t.ind ∧ t.rmin = Spec.dist3 (b.px t.ind) x ∧
      ∀ i j k, Spec.InPlane b.d.n1 b.d.n2 b.d.n3 plane pind i j k → t.rmin ≤ Spec.dist3 (b.px (b.d.idx i j k)) x := by
  have gen : ∀ pts : List Nat, (∀ p, p ∈ pts ↔ ∃ i j k, Spec.InPlane b.d.n1 b.d.n2 b.d.n3 plane pind i j k ∧
      p = b.d.idx i j k) → pts ≠ [] →
      let t := nearLoop b.pX b.px x pts ind P
      (∃ i j k, Spec.InPlane b.d.n1 b.d.n2 b.d.n3 plane pind i j k ∧ t.ind = b.d.idx i j k) ∧
      t.P = b.pX t.ind ∧ t.rmin = Spec.dist3 (b.px t.ind) x ∧
      ∀ i j k, Spec.InPlane b.d.n1 b.d.n2 b.d.n3 plane pind i j k → t.rmin ≤ Spec.dist3 (b.px (b.d.idx i j k)) x := by
    intro pts hp hne t
    rcases nearLoop_spec b.pX b.px x pts ind P with ⟨h, _⟩ | ⟨a, i, c, e1, e2, e3, e4⟩
    · exact absurd h hne
    · rw [show t = _ from e2]
      refine ⟨(hp i).1 (by rw [e1]; simp), rfl, rfl, fun i' j k h => ?_⟩
      have : b.d.idx i' j k ∈ pts := (hp _).2 ⟨i', j, k, h, rfl⟩
      rw [e1, List.mem_append, List.mem_cons] at this
      rcases this with h | h | h
      · exact e3 _ h
      · rw [h]
      · exact (e4 _ h).le
  unfold nearestInPlane
  by_cases p1 : plane = 1
  · right
    rw [if_pos p1]
    refine ⟨_, rfl, gen _ (fun p => ?_) ?_⟩
    · unfold planePts Spec.InPlane
      simp only [List.mem_flatMap, List.mem_map, List.mem_range]
      constructor
      · rintro ⟨k, hk, j, hj, rfl⟩; exact ⟨pind, j, k, Or.inl ⟨p1, rfl, hj, hk⟩, rfl⟩
      · rintro ⟨i, j, k, h, rfl⟩
        rcases h with ⟨_, rfl, hj, hk⟩ | ⟨h, _⟩ | ⟨h, _⟩
        · exact ⟨k, hk, j, hj, rfl⟩
        · omega
        · omega
    · intro h
      have : b.d.idx pind 0 0 ∈ planePts b.d .one pind := by
        unfold planePts
        simp only [List.mem_flatMap, List.mem_map, List.mem_range]
        exact ⟨0, h3, 0, h2, rfl⟩
      rw [h] at this; exact absurd this (by simp)
  · rw [if_neg p1]
    by_cases p2 : plane = 2
    · right
      rw [if_pos p2]
      refine ⟨_, rfl, gen _ (fun p => ?_) ?_⟩
      · unfold planePts Spec.InPlane
        simp only [List.mem_flatMap, List.mem_map, List.mem_range]
        constructor
        · rintro ⟨k, hk, i, hi, rfl⟩; exact ⟨i, pind, k, Or.inr (Or.inl ⟨p2, hi, rfl, hk⟩), rfl⟩
        · rintro ⟨i, j, k, h, rfl⟩
          rcases h with ⟨h, _⟩ | ⟨_, hi, rfl, hk⟩ | ⟨h, _⟩
          · omega
          · exact ⟨k, hk, i, hi, rfl⟩
          · omega
      · intro h
        have : b.d.idx 0 pind 0 ∈ planePts b.d .two pind := by
          unfold planePts
          simp only [List.mem_flatMap, List.mem_map, List.mem_range]
          exact ⟨0, h3, 0, h1, rfl⟩
        rw [h] at this; exact absurd this (by simp)
    · rw [if_neg p2]
      by_cases p3 : plane = 3
      · right
        rw [if_pos p3]
        refine ⟨_, rfl, gen _ (fun p => ?_) ?_⟩
        · unfold planePts Spec.InPlane
          simp only [List.mem_flatMap, List.mem_map, List.mem_range]
          constructor
          · rintro ⟨j, hj, i, hi, rfl⟩; exact ⟨i, j, pind, Or.inr (Or.inr ⟨p3, hi, hj, rfl⟩), rfl⟩
          · rintro ⟨i, j, k, h, rfl⟩
            rcases h with ⟨h, _⟩ | ⟨h, _⟩ | ⟨_, hi, hj, rfl⟩
            · omega
            · omega
            · exact ⟨j, hj, i, hi, rfl⟩
        · intro h
          have : b.d.idx 0 0 pind ∈ planePts b.d .three pind := by
            unfold planePts
            simp only [List.mem_flatMap, List.mem_map, List.mem_range]
            exact ⟨0, h2, 0, h1, rfl⟩
          rw [h] at this; exact absurd this (by simp)
      · rw [if_neg p3]
        exact Or.inl ⟨p1, p2, p3, rfl⟩

/-- **C103** (`nearest_b_XYZ_of_xyz`, `nearest_b_XYZ_of_xyz_inboxlist`). The nearest point of all boxes of the list. -/
theorem C103_nearest_box (box : Nat → FBox) (x : ℝ × ℝ × ℝ) (blist : List Nat) (hne : blist ≠ [])
    (hN : ∀ b ∈ blist, 0 < (box b).d.n1 * (box b).d.n2 * (box b).d.n3) (b0 ind0 : Nat) (P0 : ℝ × ℝ × ℝ) (ind1 : Nat)
    (P1 : ℝ × ℝ × ℝ) :
    let r := nearestB box x blist b0 ind0 P0 ind1 P1
    r.1 ∈ blist ∧ r.2.ind < (box r.1).d.n1 * (box r.1).d.n2 * (box r.1).d.n3 ∧ r.2.P = (box r.1).pX r.2.ind ∧
    r.2.rmin = Spec.dist3 ((box r.1).px r.2.ind) x ∧
    ∀ b ∈ blist, ∀ j, j < (box b).d.n1 * (box b).d.n2 * (box b).d.n3 → r.2.rmin ≤ Spec.dist3 ((box b).px j) x := by
  have key : ∀ l : List Nat, (∀ b ∈ l, 0 < (box b).d.n1 * (box b).d.n2 * (box b).d.n3) →
      let r := (l.foldl (nearBoxStep box x) ((b0, ⟨-1, ind0, P0⟩), ind1, P1)).1
      (l = [] ∧ r.2.rmin = -1) ∨ (r.1 ∈ l ∧ r.2.ind < (box r.1).d.n1 * (box r.1).d.n2 * (box r.1).d.n3 ∧
        r.2.P = (box r.1).pX r.2.ind ∧ r.2.rmin = Spec.dist3 ((box r.1).px r.2.ind) x ∧
        ∀ b ∈ l, ∀ j, j < (box b).d.n1 * (box b).d.n2 * (box b).d.n3 → r.2.rmin ≤ Spec.dist3 ((box b).px j) x) := by
    intro l
    induction l using List.reverseRecOn with
    | nil => intro _; exact Or.inl ⟨rfl, rfl⟩
    | append_singleton l bi ih =>
      intro hl
      have ih := ih fun b hb => hl b (by simp [hb])
      dsimp only at ih ⊢
      rw [List.foldl_append, List.foldl_cons, List.foldl_nil]
      generalize l.foldl (nearBoxStep box x) ((b0, ⟨-1, ind0, P0⟩), ind1, P1) = s at ih ⊢
      right
      unfold nearBoxStep
      dsimp only
      obtain ⟨n1, n2, n3, n4, _⟩ := C103_nearest (box bi) x s.2.1 s.2.2 (hl bi (by simp))
      generalize nearestXYZ (box bi) x s.2.1 s.2.2 = t at n1 n2 n3 n4 ⊢
      by_cases hc : t.rmin ≤ s.1.2.rmin ∨ s.1.2.rmin < 0
      · rw [if_pos hc]
        refine ⟨by simp, n1, n2, n3, fun b hb j hj => ?_⟩
        rw [List.mem_append, List.mem_singleton] at hb
        rcases hb with hb | rfl
        · rcases ih with ⟨rfl, _⟩ | ⟨_, _, _, e4, e5⟩
          · exact absurd hb (by simp)
          · rcases hc with hc | hc
            · exact hc.trans (e5 b hb j hj)
            · rw [e4] at hc
              exact absurd (Real.sqrt_nonneg _) (not_le.2 hc)
        · exact n4 j hj
      · rw [if_neg hc]
        rcases ih with ⟨_, h⟩ | ⟨e1, e2, e3, e4, e5⟩
        · exact absurd (Or.inr (by rw [h]; norm_num)) hc
        · refine ⟨by simp [e1], e2, e3, e4, fun b hb j hj => ?_⟩
          rw [List.mem_append, List.mem_singleton] at hb
          rcases hb with hb | rfl
          · exact e5 b hb j hj
          · rw [not_or, not_le] at hc
            exact hc.1.le.trans (n4 j hj)
  rcases key blist hN with ⟨h, _⟩ | h
  · exact absurd h hne
  · exact h

/-! ### Faces and indices -/

/-- **C103** (`XYZ_on_face`). `face[f]` is 1 for the faces that the point is on up to 1e-10, 0 for the others; the result
is their number. -/
theorem C103_on_face (bb : Nat → ℝ) (X : ℝ × ℝ × ℝ) (face : Nat → Nat) :
    let r := xyzOnFace bb X face
    let c : Nat → ℝ := fun f => if f < 2 then X.1 else if f < 4 then X.2.1 else X.2.2
    (∀ f, f < 6 → (|c f - bb f| ≤ 1 / 10 ^ 10 → r.1 f = 1) ∧ (¬|c f - bb f| ≤ 1 / 10 ^ 10 → r.1 f = 0)) ∧
    (∀ f, 6 ≤ f → r.1 f = face f) ∧ r.2 = ∑ f ∈ range 6, r.1 f := by
  intro r c
  have hc : ∀ f, f < 6 → vec3 X (f / 2) = c f := by
    intro f hf
    have : f = 0 ∨ f = 1 ∨ f = 2 ∨ f = 3 ∨ f = 4 ∨ f = 5 := by omega
    rcases this with rfl | rfl | rfl | rfl | rfl | rfl <;> rfl
  have key := upLoop_inv (lo := 0) (hi := 6) (by omega)
    (body := fun f (s : (Nat → Nat) × Nat) => open Classical in
      if dequal (vec3 X (f / 2)) (bb f) then (aset s.1 f 1, s.2 + 1) else s)
    (s := (upLoop 0 6 (fun f face => aset face f 0) face, 0))
    (fun n s => (∀ f, f < n → (|c f - bb f| ≤ 1 / 10 ^ 10 → s.1 f = 1) ∧ (¬|c f - bb f| ≤ 1 / 10 ^ 10 → s.1 f = 0)) ∧
      (∀ f, n ≤ f → f < 6 → s.1 f = 0) ∧ (∀ f, 6 ≤ f → s.1 f = face f) ∧ s.2 = ∑ f ∈ range n, s.1 f)
    (by
      refine ⟨fun f h => absurd h (by omega), fun f _ h => ?_, fun f h => ?_, by simp⟩
      · dsimp only; rw [upLoop_fill, if_pos (by omega)]
      · dsimp only; rw [upLoop_fill, if_neg (by omega)])
    (by
      rintro n s _ hn ⟨h1, h2, h3, h4⟩
      rw [dequal_iff, hc n hn]
      by_cases h : |c n - bb n| ≤ 1 / 10 ^ 10
      · rw [if_pos h]
        refine ⟨fun f hf => ?_, fun f hf hf6 => ?_, fun f hf => ?_, ?_⟩
        · by_cases hfn : f = n
          · subst hfn; exact ⟨fun _ => aset_self _ _ _, fun h' => absurd h h'⟩
          · dsimp only; rw [aset_ne _ _ hfn]; exact h1 f (by omega)
        · dsimp only; rw [aset_ne _ _ (by omega)]; exact h2 f (by omega) hf6
        · dsimp only; rw [aset_ne _ _ (by omega)]; exact h3 f hf
        · dsimp only
          rw [sum_range_succ, aset_self, h4]
          congr 1
          refine sum_congr rfl fun f hf => ?_
          rw [mem_range] at hf
          rw [aset_ne _ _ (by omega)]
      · rw [if_neg h]
        refine ⟨fun f hf => ?_, fun f hf hf6 => h2 f (by omega) hf6, h3, ?_⟩
        · by_cases hfn : f = n
          · subst hfn; exact ⟨fun h' => absurd h' h, fun _ => h2 f (le_refl _) hn⟩
          · exact h1 f (by omega)
        · rw [sum_range_succ, h2 n (le_refl _) hn, add_zero, h4])
  obtain ⟨h1, _, h3, h4⟩ := key
  exact ⟨h1, h3, h4⟩

/-- The coordinate after `moveXYZ_off_face`: moved by a millionth of the length of the box, away from a face the point
is on. -/
noncomputable def Spec.movedOff (lo hi X : ℝ) : ℝ :=
  open Classical in
  if |X - hi| ≤ 1 / 10 ^ 10 then X - (hi - lo) / 10 ^ 6
  else if |X - lo| ≤ 1 / 10 ^ 10 then X + (hi - lo) / 10 ^ 6 else X

theorem moveLoop (face : Nat → Nat) (g : Nat → ℝ) (d : Nat) (hd : d < 3) :
    upLoop 0 6 (fun f dX => if face f ≠ 0 then aset dX (f / 2) (g f) else dX) (fun _ => (0 : ℝ)) d =
      if face (2 * d + 1) ≠ 0 then g (2 * d + 1) else if face (2 * d) ≠ 0 then g (2 * d) else 0 := by
  have hb : ∀ (f : Nat) (dX : Nat → ℝ) (d : Nat), (if face f ≠ 0 then aset dX (f / 2) (g f) else dX) d =
      if d = f / 2 ∧ face f ≠ 0 then g f else dX d := by
    intro f dX d
    by_cases h : face f ≠ 0
    · rw [if_pos h]
      by_cases h' : d = f / 2
      · rw [if_pos ⟨h', h⟩, h', aset_self]
      · rw [if_neg (fun h'' => h' h''.1), aset_ne _ _ h']
    · rw [if_neg h, if_neg (fun h'' => h h''.2)]
  simp only [upLoop, List.range', List.foldl]
  rw [hb, hb, hb, hb, hb, hb]
  have : d = 0 ∨ d = 1 ∨ d = 2 := by omega
  rcases this with rfl | rfl | rfl <;> simp

/-- **C103** (`moveXYZ_off_face`). -/
theorem C103_move (bb : Nat → ℝ) (X : ℝ × ℝ × ℝ) :
    (moveOffFace bb X).2 = (Spec.movedOff (bb 0) (bb 1) X.1, Spec.movedOff (bb 2) (bb 3) X.2.1,
      Spec.movedOff (bb 4) (bb 5) X.2.2) := by
  obtain ⟨h1, _, h3⟩ := C103_on_face bb X (fun _ => 0)
  unfold moveOffFace
  dsimp only at h1 h3 ⊢
  generalize xyzOnFace bb X (fun _ => 0) = s at h1 h3 ⊢
  have c0 := h1 0 (by omega)
  have c1 := h1 1 (by omega)
  have c2 := h1 2 (by omega)
  have c3 := h1 3 (by omega)
  have c4 := h1 4 (by omega)
  have c5 := h1 5 (by omega)
  simp only [Nat.reduceLT, if_true, if_false] at c0 c1 c2 c3 c4 c5
  have hif : ∀ (P : Prop) [Decidable P] (n : Nat), (P → n = 1) → (¬P → n = 0) → (n ≠ 0 ↔ P) := by
    intro P _ n h h'
    by_cases hP : P
    · simp [h hP, hP]
    · simp [h' hP, hP]
  by_cases hz : s.2 = 0
  · rw [if_neg (by simpa using hz)]
    rw [h3, sum_eq_zero_iff] at hz
    have z : ∀ f, f < 6 → s.1 f = 0 := fun f hf => hz f (mem_range.2 hf)
    have n0 : ¬|X.1 - bb 0| ≤ 1 / 10 ^ 10 := fun h => by have := c0.1 h; rw [z 0 (by omega)] at this; omega
    have n1 : ¬|X.1 - bb 1| ≤ 1 / 10 ^ 10 := fun h => by have := c1.1 h; rw [z 1 (by omega)] at this; omega
    have n2 : ¬|X.2.1 - bb 2| ≤ 1 / 10 ^ 10 := fun h => by have := c2.1 h; rw [z 2 (by omega)] at this; omega
    have n3 : ¬|X.2.1 - bb 3| ≤ 1 / 10 ^ 10 := fun h => by have := c3.1 h; rw [z 3 (by omega)] at this; omega
    have n4 : ¬|X.2.2 - bb 4| ≤ 1 / 10 ^ 10 := fun h => by have := c4.1 h; rw [z 4 (by omega)] at this; omega
    have n5 : ¬|X.2.2 - bb 5| ≤ 1 / 10 ^ 10 := fun h => by have := c5.1 h; rw [z 5 (by omega)] at this; omega
    unfold Spec.movedOff
    rw [if_neg n0, if_neg n1, if_neg n2, if_neg n3, if_neg n4, if_neg n5]
  · rw [if_pos hz]
    have e0 := hif _ _ c0.1 c0.2
    have e1 := hif _ _ c1.1 c1.2
    have e2 := hif _ _ c2.1 c2.2
    have e3 := hif _ _ c3.1 c3.2
    have e4 := hif _ _ c4.1 c4.2
    have e5 := hif _ _ c5.1 c5.2
    have m := moveLoop s.1 (fun f => 1e-6 * (bb (2 * (f / 2) + 1) - bb (2 * (f / 2))) * (1 - 2 * ((f % 2 : Nat) : ℝ)))
    rw [m 0 (by omega), m 1 (by omega), m 2 (by omega)]
    simp only [Nat.reduceMul, Nat.reduceAdd, Nat.reduceDiv, Nat.reduceMod, Nat.cast_zero, Nat.cast_one, e0, e1, e2, e3,
      e4, e5, Nat.zero_div, Nat.zero_mod]
    unfold Spec.movedOff
    refine Prod.ext ?_ (Prod.ext ?_ ?_) <;> dsimp only <;> split_ifs <;> norm_num <;> ring

/-- **C103.** In a box whose intervals are longer than 0.0003, a point inside the box is on no face after
`moveXYZ_off_face`, and still inside. -/
theorem C103_moved {bb : Nat → ℝ} (h0 : bb 0 + 3 / 10 ^ 4 ≤ bb 1) (h2 : bb 2 + 3 / 10 ^ 4 ≤ bb 3)
    (h4 : bb 4 + 3 / 10 ^ 4 ≤ bb 5) {X : ℝ × ℝ × ℝ} (hX : Spec.Inside 0 bb X) :
    Spec.Inside 0 bb (moveOffFace bb X).2 ∧ (xyzOnFace bb (moveOffFace bb X).2 (fun _ => 0)).2 = 0 := by
  have one : ∀ lo hi x : ℝ, lo + 3 / 10 ^ 4 ≤ hi → lo ≤ x → x ≤ hi →
      lo + 1 / 10 ^ 10 < Spec.movedOff lo hi x ∧ Spec.movedOff lo hi x < hi - 1 / 10 ^ 10 := by
    intro lo hi x h hl hh
    unfold Spec.movedOff
    split_ifs with h1 h2
    · rw [abs_le] at h1
      norm_num at h1 h ⊢
      constructor <;> linarith
    · rw [abs_le] at h2
      norm_num at h2 h ⊢
      constructor <;> linarith
    · rw [abs_le, not_and_or, not_le, not_le] at h1 h2
      norm_num at h1 h2 h ⊢
      constructor
      · rcases h2 with h2 | h2 <;> linarith
      · rcases h1 with h1 | h1 <;> linarith
  obtain ⟨⟨a1, a2⟩, ⟨b1, b2⟩, d1, d2⟩ := hX
  rw [sub_zero, add_zero] at *
  obtain ⟨x1, x2⟩ := one _ _ X.1 h0 a1 a2
  obtain ⟨y1, y2⟩ := one _ _ X.2.1 h2 b1 b2
  obtain ⟨z1, z2⟩ := one _ _ X.2.2 h4 d1 d2
  rw [C103_move]
  constructor
  · unfold Spec.Inside
    dsimp only
    norm_num at x1 x2 y1 y2 z1 z2 ⊢
    exact ⟨⟨by linarith, by linarith⟩, ⟨by linarith, by linarith⟩, by linarith, by linarith⟩
  · obtain ⟨h1, _, h3⟩ := C103_on_face bb (Spec.movedOff (bb 0) (bb 1) X.1, Spec.movedOff (bb 2) (bb 3) X.2.1,
      Spec.movedOff (bb 4) (bb 5) X.2.2) (fun _ => 0)
    dsimp only at h1 h3
    rw [h3]
    refine sum_eq_zero fun f hf => ?_
    rw [mem_range] at hf
    refine (h1 f hf).2 ?_
    rw [abs_le, not_and_or, not_le, not_le]
    have : f = 0 ∨ f = 1 ∨ f = 2 ∨ f = 3 ∨ f = 4 ∨ f = 5 := by omega
    rcases this with rfl | rfl | rfl | rfl | rfl | rfl <;> simp only [Nat.reduceLT, if_true, if_false]
    · right; linarith
    · left; linarith
    · right; linarith
    · left; linarith
    · right; linarith
    · left; linarith

/-- **C103** (`find_i_Of_X`, `find_j_Of_Y`, `find_k_Of_Z`). The first index with this coordinate up to 1e-10, or -1. -/
theorem C103_find_index (n : Nat) (a : Nat → ℝ) (x0 : ℝ) :
    (∃ i, i < n ∧ findIdx n a x0 = (i : Int) ∧ |a i - x0| ≤ 1 / 10 ^ 10 ∧ ∀ j, j < i → ¬|a j - x0| ≤ 1 / 10 ^ 10) ∨
    (findIdx n a x0 = -1 ∧ ∀ i, i < n → ¬|a i - x0| ≤ 1 / 10 ^ 10) := by
  unfold findIdx
  split
  · rename_i i h
    rw [List.find?_range_eq_some] at h
    simp only [decide_eq_true_eq, dequal_iff, List.mem_range, Bool.not_eq_true', decide_eq_false_iff_not] at h
    exact Or.inl ⟨i, h.2.1, rfl, h.1, h.2.2⟩
  · rename_i h
    rw [List.find?_eq_none] at h
    simp only [decide_eq_true_eq, dequal_iff, List.mem_range] at h
    exact Or.inr ⟨rfl, h⟩

/-- **C103.** On a grid whose points are more than 1e-10 apart, the three functions give back the indices of a point. -/
theorem C103_find_ijk (b : FBox) (X Y Z : Nat → ℝ)
    (hb : ∀ i j k, i < b.d.n1 → j < b.d.n2 → k < b.d.n3 → b.pX (b.d.idx i j k) = (X i, Y j, Z k))
    (hX : ∀ i i', i < i' → i' < b.d.n1 → 1 / 10 ^ 10 < |X i - X i'|)
    (hY : ∀ i i', i < i' → i' < b.d.n2 → 1 / 10 ^ 10 < |Y i - Y i'|)
    (hZ : ∀ i i', i < i' → i' < b.d.n3 → 1 / 10 ^ 10 < |Z i - Z i'|)
    {i j k : Nat} (hi : i < b.d.n1) (hj : j < b.d.n2) (hk : k < b.d.n3) :
    findI b (b.pX (b.d.idx i j k)).1 = i ∧ findJ b (b.pX (b.d.idx i j k)).2.1 = j ∧
    findK b (b.pX (b.d.idx i j k)).2.2 = k := by
  have gen : ∀ (n : Nat) (a A : Nat → ℝ) (m : Nat), m < n → (∀ i, i < n → a i = A i) →
      (∀ i i', i < i' → i' < n → 1 / 10 ^ 10 < |A i - A i'|) → findIdx n a (A m) = m := by
    intro n a A m hm ha hA
    rcases C103_find_index n a (A m) with ⟨i, h1, h2, h3, h4⟩ | ⟨_, h⟩
    · rw [h2]
      rw [ha i h1] at h3
      rcases Nat.lt_trichotomy i m with h | h | h
      · exact absurd h3 (not_le.2 (hA i m h hm))
      · rw [h]
      · refine absurd ?_ (h4 m h)
        rw [ha m hm]; norm_num
    · refine absurd ?_ (h m hm)
      rw [ha m hm]; norm_num
  rw [hb i j k hi hj hk]
  refine ⟨gen _ _ X i hi (fun i' hi' => ?_) hX, gen _ _ Y j hj (fun j' hj' => ?_) hY, gen _ _ Z k hk (fun k' hk' => ?_) hZ⟩
  · have := hb i' 0 0 hi' (by omega) (by omega)
    rw [show b.d.idx i' 0 0 = i' by simp [Dims.idx]] at this
    rw [this]
  · have := hb 0 j' 0 (by omega) hj' (by omega)
    rw [show b.d.idx 0 j' 0 = j' * b.d.n1 by simp [Dims.idx, mul_comm]] at this
    rw [this]
  · have := hb 0 0 k' (by omega) (by omega) hk'
    rw [show b.d.idx 0 0 k' = k' * (b.d.n1 * b.d.n2) by simp [Dims.idx]; ring] at this
    rw [this]

/-- A point on the faces X=0 and Z=1 of the unit cube, and where it is moved. -/
example : (moveOffFace (fun f => ((f % 2 : Nat) : ℝ)) (0, 1 / 2, 1)).2 = (1 / 10 ^ 6, 1 / 2, 1 - 1 / 10 ^ 6) := by
  rw [C103_move]
  unfold Spec.movedOff
  norm_num [abs_of_pos, abs_of_neg]

/-- Points of a line at 0, 1/2 and 1. -/
example : findIdx 3 (fun i => (i : ℝ) / 2) (1 / 2) = 1 := by
  rcases C103_find_index 3 (fun i => (i : ℝ) / 2) (1 / 2) with ⟨i, h1, h2, h3, h4⟩ | ⟨_, h⟩
  · rw [h2]
    have : i = 0 ∨ i = 1 ∨ i = 2 := by omega
    rcases this with rfl | rfl | rfl
    · norm_num [abs_of_neg] at h3
    · rfl
    · norm_num at h3
  · exact absurd (by norm_num) (h 1 (by omega))

end Sgrid

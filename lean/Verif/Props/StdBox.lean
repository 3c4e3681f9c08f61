import Verif.Props.Box3d
import Mathlib.Analysis.SpecialFunctions.Integrals.Basic

/-!
# C38, C39, C41, C71 and C73 for boxes with Chebyshev and Fourier directions
-/

namespace Sgrid
open Finset Real

/-! ## The boxes -/

/-- The bases of a direction (spec_coeffs.c:646-700). -/
inductive SKind
  | extrema | zeros | fourier
  deriving DecidableEq

/-- A direction of a box: basis, interval and number of points. -/
structure BDir where
  kind : SKind
  (a b : ℝ)
  n : Nat

/-- The routines that `get_spec_functionpointerTO_get_coeffs` and the other selectors choose
(spec_coeffs.c:646-700), in the versions without fast transforms. -/
noncomputable def BDir.coeffs (D : BDir) : LineFun ℝ :=
  match D.kind with
  | .extrema => chebFromExtrema
  | .zeros => chebFromZeros
  | .fourier => fourCoeffs

noncomputable def BDir.deriv (D : BDir) : LineFun ℝ :=
  match D.kind with
  | .extrema => fun out c m => chebDeriv D.a D.b c out m
  | .zeros => fun out c m => chebDeriv D.a D.b c out m
  | .fourier => fun out c m => fourDeriv D.a D.b c out m

noncomputable def BDir.eval (D : BDir) : LineFun ℝ :=
  match D.kind with
  | .extrema => fun out c m => chebOnExtrema c out m
  | .zeros => fun out c m => chebOnZeros c out m
  | .fourier => fun out c m => fourEval c out m

noncomputable def BDir.basis (D : BDir) (k : Nat) (X : ℝ) : ℝ :=
  match D.kind with
  | .extrema => chebBasis D.a D.b k X
  | .zeros => chebBasis D.a D.b k X
  | .fourier => fourBasis D.a D.b k D.n X

/-- The grid points of the direction. -/
noncomputable def BDir.point (D : BDir) (i : Nat) : ℝ :=
  match D.kind with
  | .extrema => pointExtrema D.a D.b D.n i
  | .zeros => pointZeros D.a D.b D.n i
  | .fourier => pointPeriodic D.a D.b D.n i

def BDir.method (D : BDir) : IMethod :=
  match D.kind with
  | .extrema => .cheb
  | .zeros => .cheb
  | .fourier => .four

/-- The functions that the points of the direction resolve: polynomials of degree below the number of
points, or trigonometric sums. -/
def BDir.space (D : BDir) (f : ℝ → ℝ) : Prop :=
  match D.kind with
  | .fourier => ∃ c, f = fun X => Spec.fourSeries D.a D.b c D.n X
  | _ => ∃ p : Polynomial ℝ, p.degree < D.n ∧ f = fun X => p.eval X

/-- Sensible directions: two points at least for extrema, one else; intervals of positive length. -/
def BDir.good (D : BDir) : Prop := D.a < D.b ∧ 1 ≤ D.n ∧ (D.kind = .extrema → 2 ≤ D.n)

/-- Sizes of the box. -/
def dirDims (D : Axis → BDir) : Dims := ⟨(D .one).n, (D .two).n, (D .three).n⟩

theorem dirDims_len (D : Axis → BDir) (ax : Axis) : (dirDims D).len ax = (D ax).n := by cases ax <;> rfl

/-- A box as `make_grid` sets it up: routines, and matrices read off from the routines; `W` is what was
in the memory of the matrices before. -/
noncomputable def stdBox (D : Axis → BDir) (fft : Axis → Bool) (W F : Axis → Nat → ℝ) : LBox ℝ where
  d := dirDims D
  coeffs ax := (D ax).coeffs
  deriv ax := (D ax).deriv
  eval ax := (D ax).eval
  fft := fft
  D ax := (initDiff (W ax) (W ax) (D ax).n (D ax).coeffs (D ax).deriv (D ax).eval).1
  DD ax := (initDiff (W ax) (W ax) (D ax).n (D ax).coeffs (D ax).deriv (D ax).eval).2
  F := F
  Mcoeffs ax := initMatrix (W ax) (D ax).n (D ax).coeffs
  Meval ax := initMatrix (W ax) (D ax).n (D ax).eval

theorem BDir.coeffs_linear (D : BDir) (n : Nat) : Spec.LineLinear D.coeffs n := by
  obtain ⟨kind, a, b, m⟩ := D
  cases kind
  · exact fromExtrema_linear n
  · exact fromZeros_linear n
  · exact fourCoeffs_linear n

theorem BDir.deriv_linear (D : BDir) (n : Nat) : Spec.LineLinear D.deriv n := by
  obtain ⟨kind, a, b, m⟩ := D
  cases kind
  · exact chebDeriv_linear a b n
  · exact chebDeriv_linear a b n
  · exact fourDeriv_linear a b n

theorem BDir.eval_linear (D : BDir) (n : Nat) : Spec.LineLinear D.eval n := by
  obtain ⟨kind, a, b, m⟩ := D
  cases kind
  · exact onExtrema_linear n
  · exact onZeros_linear n
  · exact fourEval_linear n

theorem stdBox_linear (D : Axis → BDir) (fft : Axis → Bool) (W F : Axis → Nat → ℝ) (ax : Axis) :
    BoxLinear (stdBox D fft W F) ax :=
  ⟨(D ax).coeffs_linear _, (D ax).deriv_linear _, (D ax).eval_linear _⟩

theorem stdBox_coeffsOp (D : Axis → BDir) (fft : Axis → Bool) (W F : Axis → Nat → ℝ) (ax : Axis)
    (u w : Nat → ℝ) (i : Nat) (hi : i < (D ax).n) :
    coeffsOp (stdBox D fft W F) ax u i = (D ax).coeffs w u ((D ax).n - 1) i := by
  have hlen : (stdBox D fft W F).d.len ax = (D ax).n := dirDims_len D ax
  unfold coeffsOp
  split
  · unfold funOp
    rw [hlen]
    exact ((D ax).coeffs_linear (D ax).n).loc _ _ _ _ (fun _ _ => rfl) i hi
  · rw [hlen]
    have := C70_matrix (D ax).coeffs (D ax).n ((D ax).coeffs_linear _) (W ax) u w w i hi
    rw [matTimesVec_eq, if_pos hi] at this
    exact this

theorem stdBox_evalOp (D : Axis → BDir) (fft : Axis → Bool) (W F : Axis → Nat → ℝ) (ax : Axis)
    (u w : Nat → ℝ) (i : Nat) (hi : i < (D ax).n) :
    evalOp (stdBox D fft W F) ax u i = (D ax).eval w u ((D ax).n - 1) i := by
  have hlen : (stdBox D fft W F).d.len ax = (D ax).n := dirDims_len D ax
  unfold evalOp
  split
  · unfold funOp
    rw [hlen]
    exact ((D ax).eval_linear (D ax).n).loc _ _ _ _ (fun _ _ => rfl) i hi
  · rw [hlen]
    have := C70_matrix (D ax).eval (D ax).n ((D ax).eval_linear _) (W ax) u w w i hi
    rw [matTimesVec_eq, if_pos hi] at this
    exact this

theorem stdBox_d12 (D : Axis → BDir) (fft : Axis → Bool) (W F : Axis → Nat → ℝ) (ax : Axis)
    (u w : Nat → ℝ) (i : Nat) (hi : i < (D ax).n) :
    d1Op (stdBox D fft W F) ax u i =
      (D ax).eval w ((D ax).deriv w ((D ax).coeffs w u ((D ax).n - 1)) ((D ax).n - 1)) ((D ax).n - 1) i ∧
    d2Op (stdBox D fft W F) ax u i =
      (D ax).eval w ((D ax).deriv w ((D ax).deriv w ((D ax).coeffs w u ((D ax).n - 1)) ((D ax).n - 1))
        ((D ax).n - 1)) ((D ax).n - 1) i := by
  have hlen : (stdBox D fft W F).d.len ax = (D ax).n := dirDims_len D ax
  have hc := (D ax).coeffs_linear (D ax).n
  have hd := (D ax).deriv_linear (D ax).n
  have he := (D ax).eval_linear (D ax).n
  unfold d1Op d2Op
  by_cases hf : (stdBox D fft W F).fft ax = true
  · rw [if_pos hf, if_pos hf]
    unfold derivOp derivOp2 funOp
    rw [hlen]
    exact ⟨he.loc _ _ _ _ (fun j hj => hd.loc _ _ _ _ (fun j hj => hc.loc _ _ _ _ (fun _ _ => rfl) j hj)
        j hj) i hi,
      he.loc _ _ _ _ (fun j hj => hd.loc _ _ _ _ (fun j hj => hd.loc _ _ _ _ (fun j hj =>
        hc.loc _ _ _ _ (fun _ _ => rfl) j hj) j hj) j hj) i hi⟩
  · rw [if_neg hf, if_neg hf, hlen]
    have := C70_diffmatrix (D ax).coeffs (D ax).deriv (D ax).eval (D ax).n hc hd he (W ax) (W ax) u w w w w w
      i hi
    rw [matTimesVec_eq, if_pos hi, matTimesVec_eq, if_pos hi] at this
    exact this

/-! ## Round trips -/

theorem BDir.eval_coeffs (D : BDir) (hD : D.good) (u w w' : Nat → ℝ) (i : Nat) (hi : i < D.n) :
    D.eval w (D.coeffs w' u (D.n - 1)) (D.n - 1) i = u i := by
  obtain ⟨-, h1, h2⟩ := hD
  obtain ⟨kind, a, b, n⟩ := D
  cases kind
  · have := h2 rfl
    exact C31_extrema (n - 1) (by simp only at this; omega) u w' w i (by simp only at hi; omega)
  · exact C32_zeros (n - 1) u w' w i (by simp only at hi; omega)
  · exact C33_inverse u w' w (n - 1) i (by simp only at hi; omega)

theorem BDir.coeffs_eval (D : BDir) (hD : D.good) (c w w' : Nat → ℝ) (i : Nat) (hi : i < D.n) :
    D.coeffs w (D.eval w' c (D.n - 1)) (D.n - 1) i = c i := by
  obtain ⟨-, h1, h2⟩ := hD
  obtain ⟨kind, a, b, n⟩ := D
  cases kind
  · exact C31_extrema_coeffs n (h2 rfl) c _ _ i hi
  · exact C32_zeros_coeffs n c _ _ i hi
  · exact C33_coeffs n c _ _ i hi

theorem stdBox_evalCoeffs (D : Axis → BDir) (hD : ∀ ax, (D ax).good) (fft : Axis → Bool)
    (W F : Axis → Nat → ℝ) : EvalCoeffs (stdBox D fft W F) := by
  intro ax u i hi
  rw [show (stdBox D fft W F).d.len ax = (D ax).n from dirDims_len D ax] at hi
  rw [stdBox_evalOp D fft W F ax _ u i hi]
  refine (((D ax).eval_linear (D ax).n).loc _ u _ _ (fun j hj =>
    stdBox_coeffsOp D fft W F ax u u j hj) i hi).trans ?_
  exact (D ax).eval_coeffs (hD ax) u u u i hi

theorem stdBox_coeffsEval (D : Axis → BDir) (hD : ∀ ax, (D ax).good) (fft : Axis → Bool)
    (W F : Axis → Nat → ℝ) : CoeffsEval (stdBox D fft W F) := by
  intro ax u i hi
  rw [show (stdBox D fft W F).d.len ax = (D ax).n from dirDims_len D ax] at hi
  rw [stdBox_coeffsOp D fft W F ax _ u i hi]
  refine (((D ax).coeffs_linear (D ax).n).loc _ u _ _ (fun j hj =>
    stdBox_evalOp D fft W F ax u u j hj) i hi).trans ?_
  exact (D ax).coeffs_eval (hD ax) u u u i hi

variable (g : Nat → (Nat → ℝ) × (Nat → ℝ) × (Nat → ℝ))

/-- **C41** for the boxes: from values to coefficients and back. -/
theorem C41_std_roundtrip (D : Axis → BDir) (hD : ∀ ax, (D ax).good) (fft : Axis → Bool)
    (W F : Axis → Nat → ℝ) (u c v : Nat) (mem : Arrays ℝ) (i j k : Nat)
    (hb : Spec.inBox (dirDims D) i j k) :
    let b := stdBox D fft W F
    Spec.view b.d (specEval g b v c (specCoeffs g b u c mem)) v i j k = Spec.view b.d mem u i j k :=
  C41_roundtrip g _ (stdBox_linear D fft W F) (stdBox_evalCoeffs D hD fft W F) u c v mem i j k hb

/-- **C39** for the boxes. -/
theorem C39_std_filter3d (D : Axis → BDir) (hD : ∀ ax, (D ax).good) (fft : Axis → Bool)
    (W F : Axis → Nat → ℝ) (var vc nf1 nf2 nf3 : Nat) (mem : Arrays ℝ) :
    let b := stdBox D fft W F
    let mem' := specFilter3d g b var vc nf1 nf2 nf3 mem
    (∀ i j k, Spec.inBox b.d i j k → coeffs3 b (Spec.view b.d mem' var) i j k =
      if i < nf1 ∧ j < nf2 ∧ k < nf3 then coeffs3 b (Spec.view b.d mem var) i j k else 0) ∧
    (b.d.n1 ≤ nf1 → b.d.n2 ≤ nf2 → b.d.n3 ≤ nf3 → ∀ i j k, Spec.inBox b.d i j k →
      Spec.view b.d mem' var i j k = Spec.view b.d mem var i j k) ∧
    (∀ i j k, Spec.inBox b.d i j k →
      Spec.view b.d (specFilter3d g b var vc nf1 nf2 nf3 mem') var i j k =
        Spec.view b.d mem' var i j k) ∧
    ∀ a, a ≠ var → a ≠ vc → mem' a = mem a :=
  C39_filter3d g _ (stdBox_linear D fft W F) (stdBox_evalCoeffs D hD fft W F)
    (stdBox_coeffsEval D hD fft W F) var vc nf1 nf2 nf3 mem

/-! ## Functionals in three directions -/

/-- A functional on lines that gives `E f` for the values of `f` at the points, for all `f` in `S`. -/
structure Exact1 (n : Nat) (x : Nat → ℝ) (S : (ℝ → ℝ) → Prop) (L : (Nat → ℝ) → ℝ) (E : (ℝ → ℝ) → ℝ) :
    Prop where
  lin : ∃ w : Nat → ℝ, ∀ u, L u = ∑ i ∈ range n, w i * u i
  exact : ∀ f, S f → L (fun i => f (x i)) = E f

/-- Closed under linear combinations. -/
def Closed (S : (ℝ → ℝ) → Prop) : Prop :=
  ∀ (n : Nat) (w : Nat → ℝ) (f : Nat → ℝ → ℝ), (∀ i, S (f i)) → S fun X => ∑ i ∈ range n, w i * f i X

/-- A function of three variables that is in the given spaces as function of each variable. -/
def Separately (S1 S2 S3 : (ℝ → ℝ) → Prop) (P : ℝ → ℝ → ℝ → ℝ) : Prop :=
  (∀ y z, S1 fun x => P x y z) ∧ (∀ x z, S2 fun y => P x y z) ∧ ∀ x y, S3 fun z => P x y z

theorem exact3 {n1 n2 n3 : Nat} {x y z : Nat → ℝ} {S1 S2 S3 : (ℝ → ℝ) → Prop}
    {L1 L2 L3 : (Nat → ℝ) → ℝ} {E1 E2 E3 : (ℝ → ℝ) → ℝ} (h1 : Exact1 n1 x S1 L1 E1)
    (h2 : Exact1 n2 y S2 L2 E2) (h3 : Exact1 n3 z S3 L3 E3) (c2 : Closed S2) (c3 : Closed S3)
    {P : ℝ → ℝ → ℝ → ℝ} (hP : Separately S1 S2 S3 P) :
    (L3 fun k => L2 fun j => L1 fun i => P (x i) (y j) (z k)) =
      E3 fun Z => E2 fun Y => E1 fun X => P X Y Z := by
  obtain ⟨p1, p2, p3⟩ := hP
  have e1 : ∀ Y Z, (L1 fun i => P (x i) Y Z) = E1 fun X => P X Y Z := fun Y Z => h1.exact _ (p1 Y Z)
  have s2 : ∀ Z, S2 fun Y => L1 fun i => P (x i) Y Z := by
    intro Z
    obtain ⟨w, hw⟩ := h1.lin
    simp only [hw]
    exact c2 n1 w (fun i Y => P (x i) Y Z) fun i => p2 (x i) Z
  have e2 : ∀ Z, (L2 fun j => L1 fun i => P (x i) (y j) Z) = E2 fun Y => L1 fun i => P (x i) Y Z :=
    fun Z => h2.exact _ (s2 Z)
  have s3 : S3 fun Z => L2 fun j => L1 fun i => P (x i) (y j) Z := by
    obtain ⟨w, hw⟩ := h1.lin
    obtain ⟨v, hv⟩ := h2.lin
    simp only [hw, hv]
    exact c3 n2 v (fun j Z => ∑ i ∈ range n1, w i * P (x i) (y j) Z) fun j =>
      c3 n1 w (fun i Z => P (x i) (y j) Z) fun i => p3 (x i) (y j)
  rw [h3.exact _ s3]
  simp only [e2]
  simp only [e1]

theorem fourSeries_sum (a b : ℝ) (N m : Nat) (w : Nat → ℝ) (c : Nat → Nat → ℝ) (X : ℝ) :
    Spec.fourSeries a b (fun l => ∑ i ∈ range m, w i * c i l) N X =
      ∑ i ∈ range m, w i * Spec.fourSeries a b (c i) N X := by
  induction m with
  | zero => simp [Spec.fourSeries]
  | succ m ih =>
    have e : (fun l => ∑ i ∈ range (m + 1), w i * c i l) =
        fun l => c m l * w m + ∑ i ∈ range m, w i * c i l := by
      funext l; rw [sum_range_succ]; ring
    rw [e, fourSeries_lin, ih, sum_range_succ]
    ring

theorem BDir.space_closed (D : BDir) : Closed D.space := by
  obtain ⟨kind, a, b, n⟩ := D
  have hpoly : Closed fun f => ∃ p : Polynomial ℝ, p.degree < n ∧ f = fun X => p.eval X := by
    intro m w f hf
    choose p hp he using hf
    refine ⟨∑ i ∈ range m, Polynomial.C (w i) * p i, ?_, ?_⟩
    · rw [← Polynomial.mem_degreeLT]
      refine Submodule.sum_mem _ fun i _ => ?_
      rw [← Polynomial.smul_eq_C_mul]
      exact Submodule.smul_mem _ _ (Polynomial.mem_degreeLT.2 (hp i))
    · funext X
      rw [Polynomial.eval_finsetSum]
      exact sum_congr rfl fun i _ => by rw [Polynomial.eval_mul, Polynomial.eval_C, he i]
  cases kind
  · exact hpoly
  · exact hpoly
  · intro m w f hf
    choose c he using hf
    refine ⟨fun l => ∑ i ∈ range m, w i * c i l, ?_⟩
    funext X
    rw [fourSeries_sum]
    exact sum_congr rfl fun i _ => by rw [he i]

/-! ## C38: interpolation -/

/-- Where `spec_interpolate` can be used: Chebyshev basis functions are computed exactly at the ends of
the interval and not within a relative distance of 10⁻¹⁰ of them; Fourier basis functions are right if the
interval starts at 0. -/
def BDir.okAt (D : BDir) (X : ℝ) : Prop :=
  if D.kind = .fourier then D.a = 0
  else X = D.a ∨ X = D.b ∨
    ((X - D.a) / (D.b - D.a) > 1 / 10 ^ 10 ∧ (D.b - X) / (D.b - D.a) > 1 / 10 ^ 10)

theorem BDir.interp (D : BDir) (hD : D.good) (X : ℝ) (hX : D.okAt X) (f : ℝ → ℝ) (hf : D.space f)
    (u w : Nat → ℝ) (hu : ∀ i, i < D.n → u i = f (D.point i)) :
    ∑ k ∈ range D.n, D.coeffs w u (D.n - 1) k * D.basis k X = f X := by
  obtain ⟨hab, h1, h2⟩ := hD
  obtain ⟨kind, a, b, n⟩ := D
  cases kind
  · obtain ⟨p, hp, rfl⟩ := hf
    change ∑ k ∈ range n, chebFromExtrema w u (n - 1) k * chebBasis a b k X = p.eval X
    rw [chebBasis_sum a b hab _ n (by have := h2 rfl; simp only at this; omega) X
      (by simpa [BDir.okAt] using hX), ← chebPoly_eval,
      extrema_poly a b hab.ne n (h2 rfl) p hp u _ hu]
  · obtain ⟨p, hp, rfl⟩ := hf
    change ∑ k ∈ range n, chebFromZeros w u (n - 1) k * chebBasis a b k X = p.eval X
    rw [chebBasis_sum a b hab _ n h1 X (by simpa [BDir.okAt] using hX), ← chebPoly_eval,
      zeros_poly a b hab.ne n h1 p hp u _ hu]
  · obtain ⟨c, rfl⟩ := hf
    have ha : a = 0 := by simpa [BDir.okAt] using hX
    change ∑ k ∈ range n, fourCoeffs w u (n - 1) k * fourBasis a b k n X = Spec.fourSeries a b c n X
    have e : ∀ k ∈ range n, fourCoeffs w u (n - 1) k * fourBasis a b k n X = c k * fourBasis a b k n X :=
      fun k hk => by rw [fourier_series a b hab.ne n h1 c u w hu k (mem_range.1 hk)]
    rw [sum_congr rfl e, fourBasis_sum a b c n h1 X, ha, add_zero]

theorem stdBox_exact (D : Axis → BDir) (hD : ∀ ax, (D ax).good) (fft : Axis → Bool)
    (W F : Axis → Nat → ℝ) (ax : Axis) (X : ℝ) (hX : (D ax).okAt X) :
    Exact1 (D ax).n (D ax).point (D ax).space
      (lineValue (stdBox D fft W F) ax fun k => (D ax).basis k X) (fun f => f X) := by
  have hlen : (stdBox D fft W F).d.len ax = (D ax).n := dirDims_len D ax
  constructor
  · obtain ⟨A, hA⟩ := coeffsOp_isMat (stdBox_linear D fft W F ax)
    rw [hlen] at hA
    refine ⟨fun j => ∑ k ∈ range (D ax).n, A k j * (D ax).basis k X, fun u => ?_⟩
    unfold lineValue
    rw [hlen]
    have e : ∀ k ∈ range (D ax).n, coeffsOp (stdBox D fft W F) ax u k * (D ax).basis k X =
        ∑ j ∈ range (D ax).n, A k j * (D ax).basis k X * u j := by
      intro k hk
      rw [hA u k (mem_range.1 hk), sum_mul]
      exact sum_congr rfl fun j _ => by ring
    rw [sum_congr rfl e, sum_comm]
    exact sum_congr rfl fun j _ => by rw [sum_mul]
  · intro f hf
    rw [← (D ax).interp (hD ax) X hX f hf (fun i => f ((D ax).point i)) (fun _ => 0) fun _ _ => rfl]
    unfold lineValue
    rw [hlen]
    exact sum_congr rfl fun k hk => by
      rw [stdBox_coeffsOp D fft W F ax _ (fun _ => 0) k (mem_range.1 hk)]

/-- **C38.** `spec_interpolate` is exact at every point for every function that is, as a function of each
coordinate, in the space of the direction (polynomials of degree below the number of points,
trigonometric sums). -/
theorem C38_interpolate (D : Axis → BDir) (hD : ∀ ax, (D ax).good) (fft : Axis → Bool)
    (W F : Axis → Nat → ℝ) (u c : Nat) (mem : Arrays ℝ) (P : ℝ → ℝ → ℝ → ℝ)
    (hP : Separately (D .one).space (D .two).space (D .three).space P)
    (hu : ∀ i j k, Spec.inBox (dirDims D) i j k → Spec.view (dirDims D) mem u i j k =
      P ((D .one).point i) ((D .two).point j) ((D .three).point k))
    (X Y Z : ℝ) (hX : (D .one).okAt X) (hY : (D .two).okAt Y) (hZ : (D .three).okAt Z) :
    specInterpolate (dirDims D) (specCoeffs g (stdBox D fft W F) u c mem c)
      (fun k => (D .one).basis k X) (fun k => (D .two).basis k Y) (fun k => (D .three).basis k Z) =
      P X Y Z := by
  have hl := stdBox_linear D fft W F
  have h := interpolate_eq g (stdBox D fft W F) hl u c mem (fun k => (D .one).basis k X)
    (fun k => (D .two).basis k Y) (fun k => (D .three).basis k Z)
  have h3 := exact3 (stdBox_exact D hD fft W F .one X hX) (stdBox_exact D hD fft W F .two Y hY)
    (stdBox_exact D hD fft W F .three Z hZ) (D .two).space_closed (D .three).space_closed hP
  refine h.trans (Eq.trans ?_ h3)
  exact lineValue_local (hl .three) _ _ _ fun k hk => lineValue_local (hl .two) _ _ _ fun j hj =>
    lineValue_local (hl .one) _ _ _ fun i hi => hu i j k ⟨hi, hj, hk⟩

/-- Grid points where interpolation returns the value on the grid: all points of Chebyshev directions
with at most 10000 points, all points of Fourier directions that start at 0. -/
def BDir.gridOk (D : BDir) : Prop := if D.kind = .fourier then D.a = 0 else D.n ≤ 10000

theorem BDir.at_point (D : BDir) (hD : D.good) (hg : D.gridOk) (i : Nat) (hi : i < D.n) (u w : Nat → ℝ) :
    ∑ k ∈ range D.n, D.coeffs w u (D.n - 1) k * D.basis k (D.point i) = u i := by
  obtain ⟨hab, h1, h2⟩ := hD
  obtain ⟨kind, a, b, n⟩ := D
  cases kind
  · exact C38_extrema_grid a b hab n i (h2 rfl) (by simpa [BDir.gridOk] using hg) hi u w
  · exact C38_zeros_grid a b hab n i (by simpa [BDir.gridOk] using hg) hi u w
  · have ha : a = 0 := by simpa [BDir.gridOk] using hg
    have hn : n - 1 + 1 = n := by simp only at h1; omega
    have h := C33_inverse u w (fun _ => 0) (n - 1) i (by simp only at hi; omega)
    rw [C33_eval a b hab.ne _ _ _ _ (by simp only at hi; omega), hn] at h
    change ∑ k ∈ range n, fourCoeffs w u (n - 1) k * fourBasis a b k n (pointPeriodic a b n i) = u i
    rw [fourBasis_sum a b _ n h1, ← h, ha, add_zero]
    congr 1
    unfold pointPeriodic
    ring

/-- **C38.** At every grid point `spec_interpolate` returns the value on the grid, for every array. -/
theorem C38_std_grid (D : Axis → BDir) (hD : ∀ ax, (D ax).good) (hg : ∀ ax, (D ax).gridOk)
    (fft : Axis → Bool) (W F : Axis → Nat → ℝ) (u c : Nat) (mem : Arrays ℝ) (i j k : Nat)
    (hb : Spec.inBox (dirDims D) i j k) :
    specInterpolate (dirDims D) (specCoeffs g (stdBox D fft W F) u c mem c)
      (fun l => (D .one).basis l ((D .one).point i)) (fun l => (D .two).basis l ((D .two).point j))
      (fun l => (D .three).basis l ((D .three).point k)) = mem u ((dirDims D).idx i j k) := by
  have key : ∀ ax i, i < (D ax).n → ∀ v, lineValue (stdBox D fft W F) ax
      (fun l => (D ax).basis l ((D ax).point i)) v = v i := by
    intro ax i hi v
    rw [← (D ax).at_point (hD ax) (hg ax) i hi v (fun _ => 0)]
    unfold lineValue
    rw [show (stdBox D fft W F).d.len ax = (D ax).n from dirDims_len D ax]
    exact sum_congr rfl fun k hk => by
      rw [stdBox_coeffsOp D fft W F ax _ (fun _ => 0) k (mem_range.1 hk)]
  exact C38_grid3d g _ (stdBox_linear D fft W F) u c mem _ _ _ i j k (key .one i hb.1)
    (key .two j hb.2.1) (key .three k hb.2.2)

/-! ## C71: derivatives -/

/-- The partial derivative in the direction. -/
noncomputable def Spec.partialD (ax : Axis) (P : ℝ → ℝ → ℝ → ℝ) (x y z : ℝ) : ℝ :=
  match ax with
  | .one => _root_.deriv (fun t => P t y z) x
  | .two => _root_.deriv (fun t => P x t z) y
  | .three => _root_.deriv (fun t => P x y t) z

theorem BDir.deriv_exact (D : BDir) (hD : D.good) (f : ℝ → ℝ) (hf : D.space f) (u w : Nat → ℝ)
    (hu : ∀ i, i < D.n → u i = f (D.point i)) (i : Nat) (hi : i < D.n) :
    D.eval w (D.deriv w (D.coeffs w u (D.n - 1)) (D.n - 1)) (D.n - 1) i =
      _root_.deriv f (D.point i) := by
  have h70 := (C70_diffmatrix D.coeffs D.deriv D.eval D.n (D.coeffs_linear _) (D.deriv_linear _)
    (D.eval_linear _) w w u w w w w w i hi).1
  rw [← h70]
  obtain ⟨hab, h1, h2⟩ := hD
  obtain ⟨kind, a, b, n⟩ := D
  cases kind
  · obtain ⟨p, hp, rfl⟩ := hf
    rw [Polynomial.deriv]
    exact (C71_extrema a b hab.ne n (h2 rfl) p hp u w w w hu i hi).1
  · obtain ⟨p, hp, rfl⟩ := hf
    rw [Polynomial.deriv]
    exact (C71_zeros a b hab.ne n p hp u w w w hu i hi).1
  · obtain ⟨c, rfl⟩ := hf
    exact (C71_fourier a b hab.ne n c u w w w hu i hi).1.deriv.symm

/-- **C71.** `spec_Deriv1` computes the partial derivative of every function that is in the space of the
direction as function of the coordinate of this direction, at every grid point. -/
theorem C71_deriv3d (D : Axis → BDir) (hD : ∀ ax, (D ax).good) (fft : Axis → Bool)
    (W F : Axis → Nat → ℝ) (ax : Axis) (u du : Nat) (hne : ax = .one → fft ax = false → u ≠ du)
    (mem : Arrays ℝ) (P : ℝ → ℝ → ℝ → ℝ)
    (hP : Separately (D .one).space (D .two).space (D .three).space P)
    (hu : ∀ i j k, Spec.inBox (dirDims D) i j k → Spec.view (dirDims D) mem u i j k =
      P ((D .one).point i) ((D .two).point j) ((D .three).point k))
    (i j k : Nat) (hb : Spec.inBox (dirDims D) i j k) :
    Spec.view (dirDims D) (specDeriv1 g (stdBox D fft W F) ax u du mem) du i j k =
      Spec.partialD ax P ((D .one).point i) ((D .two).point j) ((D .three).point k) := by
  have h := (C41_deriv1 g (stdBox D fft W F) ax (stdBox_linear D fft W F ax) u du hne mem).1 i j k hb
  refine h.trans ?_
  obtain ⟨b1, b2, b3⟩ := hb
  cases ax with
  | one =>
    refine ((stdBox_d12 D fft W F .one _ (fun _ => 0) i b1).1).trans ?_
    exact (D .one).deriv_exact (hD .one) _ (hP.1 _ _) _ _ (fun l hl => hu l j k ⟨hl, b2, b3⟩) i b1
  | two =>
    refine ((stdBox_d12 D fft W F .two _ (fun _ => 0) j b2).1).trans ?_
    exact (D .two).deriv_exact (hD .two) _ (hP.2.1 _ _) _ _ (fun l hl => hu i l k ⟨b1, hl, b3⟩) j b2
  | three =>
    refine ((stdBox_d12 D fft W F .three _ (fun _ => 0) k b3).1).trans ?_
    exact (D .three).deriv_exact (hD .three) _ (hP.2.2 _ _) _ _ (fun l hl => hu i j l ⟨b1, b2, hl⟩) k b3

/-! ## C73: integrals -/

theorem chebIntegral_sum (a b : ℝ) (c : Nat → ℝ) (n : Nat) :
    chebIntegral a b c n = 1 / 2 * c 0 * (b - a) + ∑ m ∈ Ico 1 ((n + 1) / 2),
      c (2 * m) * (b - a) / (1 - (2 * m : Nat) * (2 * m : Nat)) := by
  unfold chebIntegral
  rw [upLoop_sum]

/-- The integral of a line from its coefficients. -/
theorem integralOf_linear (m : IMethod) (a b : ℝ) (n : Nat) (hn : 1 ≤ n) (I : (Nat → ℝ) → ℝ)
    (hI : integralOf m a b n = .ok I) : Spec.LineLinear (fun _ c _ _ => I c) n := by
  cases m with
  | none => simp [integralOf] at hI
  | four =>
    simp only [integralOf, Res.ok.injEq] at hI
    subst hI
    unfold fourIntegral
    refine ⟨?_, ?_, ?_⟩
    · intro _ _ u v h i _; simp only [h 0 (by omega)]
    · intro _ u v i _; ring
    · intro _ s u i _; ring
  | cheb =>
    simp only [integralOf, Res.ok.injEq] at hI
    subst hI
    simp only [chebIntegral_sum]
    refine ⟨?_, ?_, ?_⟩
    · intro _ _ u v h i _
      rw [h 0 (by omega)]
      congr 1
      refine sum_congr rfl fun l hl => ?_
      have := mem_Ico.1 hl
      rw [h (2 * l) (by omega)]
    · intro _ u v i _
      have : ∀ l ∈ Ico 1 ((n + 1) / 2), (u (2 * l) + v (2 * l)) * (b - a) /
          (1 - ((2 * l : Nat) : ℝ) * (2 * l : Nat)) = u (2 * l) * (b - a) /
          (1 - ((2 * l : Nat) : ℝ) * (2 * l : Nat)) + v (2 * l) * (b - a) /
          (1 - ((2 * l : Nat) : ℝ) * (2 * l : Nat)) := by intro l _; ring
      rw [sum_congr rfl this, sum_add_distrib]
      ring
    · intro _ s u i _
      have : ∀ l ∈ Ico 1 ((n + 1) / 2), s * u (2 * l) * (b - a) /
          (1 - ((2 * l : Nat) : ℝ) * (2 * l : Nat)) = s * (u (2 * l) * (b - a) /
          (1 - ((2 * l : Nat) : ℝ) * (2 * l : Nat))) := by intro l _; ring
      rw [sum_congr rfl this, ← mul_sum]
      ring

theorem point_place (d : Dims) (ax : Axis) (i1 i2 i : Nat) : d.point ax i1 i2 i = d.place ax i1 i2 i := by
  cases ax with
  | one => exact (place_one d i1 i2 i).symm
  | two => exact (place_two d i1 i2 i).symm
  | three => exact (place_three d i1 i2 i).symm

theorem lineIntegral_act {K : Type} (d : Dims) (ax : Axis) (I : (Nat → K) → K)
    (hI : ∀ u v, (∀ j, j < d.len ax → u j = v j) → I u = I v) (U : Nat) :
    LineAct d ax (lineG (fun c _ => I c) U U) (lineIntegral d ax I U) := by
  refine LineAct.write (fun u v h _ _ => hI u v h) U U _ fun i1 i2 s =>
    ⟨fun _ => I (lineAt d ax s.mem i1 i2 U), ?_, fun _ _ => rfl⟩
  unfold lineIntegral LState.put putMemline
  simp only [point_place]
  refine upLoop_inv (Nat.zero_le (d.len ax)) (fun m mem => mem = aset s.mem U (upLoop 0 m
    (fun i u => aset u (d.place ax i1 i2 i) (I (lineAt d ax s.mem i1 i2 U))) (s.mem U))) ?_ ?_
  · rw [upLoop_nil (le_refl 0)]
    funext a
    by_cases h : a = U
    · subst h; rw [aset_self]
    · rw [aset_ne _ _ h]
  · intro m mem _ _ ih
    rw [upLoop_succ (Nat.zero_le m), ih]
    funext a
    by_cases h : a = U
    · subst h; rw [aset_self, aset_self, aset_self]; rfl
    · rw [aset_ne _ _ h, aset_ne _ _ h, aset_ne _ _ h]

/-- `spec_Integral1` replaces each value by the integral of its line. -/
theorem specIntegral1_eq (b : LBox ℝ) (meth : Axis → IMethod) (lo hi : Axis → ℝ) (ax : Axis)
    (h : BoxLinear b ax) (hn : 1 ≤ b.d.len ax) (I : (Nat → ℝ) → ℝ)
    (hI : integralOf (meth ax) (lo ax) (hi ax) (b.d.len ax) = .ok I) (u U : Nat) (mem : Arrays ℝ) :
    ∃ mem', specIntegral1 g b meth lo hi ax u U mem = .ok mem' ∧
      Spec.ActsAlong b.d ax (fun v _ => I (coeffsOp b ax v)) u U mem mem' := by
  unfold specIntegral1
  rw [hI, Res.bind_ok]
  refine ⟨_, rfl, ?_⟩
  have hIl : ∀ u v, (∀ j, j < b.d.len ax → u j = v j) → I u = I v := fun u v e =>
    (integralOf_linear _ _ _ _ hn I hI).loc (fun _ => 0) (fun _ => 0) u v e 0 hn
  have h1 := C41_analysis g b ax h u U mem
  have h2 := actsAlong_of_done (fun u v h _ _ => hIl u v h)
    (forLinesStatic_done (lineIntegral_act b.d ax I hIl U) (fun _ => 0, fun _ => 0, fun _ => 0)
      (specAnalysis1 g b ax u U mem))
  refine ⟨fun i j k hb => ?_, fun a p hap => by rw [h2.2 a p hap, h1.2 a p hap]⟩
  rw [h2.1 i j k hb]
  refine (along_congr (fun u v h _ _ => hIl u v h) (fun i j k hb => h1.1 i j k hb) i j k hb).trans ?_
  cases ax <;> rfl

/-- The integral of a line from its values. -/
noncomputable def lineInt (D : Axis → BDir) (b : LBox ℝ) (ax : Axis) (v : Nat → ℝ) : ℝ :=
  match (D ax).kind with
  | .fourier => fourIntegral (D ax).a (D ax).b (coeffsOp b ax v) (D ax).n
  | _ => chebIntegral (D ax).a (D ax).b (coeffsOp b ax v) (D ax).n

theorem stdBox_integralOf (D : Axis → BDir) (ax : Axis) :
    integralOf (D ax).method (D ax).a (D ax).b (D ax).n = .ok fun c =>
      match (D ax).kind with
      | .fourier => fourIntegral (D ax).a (D ax).b c (D ax).n
      | _ => chebIntegral (D ax).a (D ax).b c (D ax).n := by
  unfold BDir.method
  cases (D ax).kind <;> rfl

theorem BDir.quad (D : BDir) (hD : D.good) (f : ℝ → ℝ) (hf : D.space f) (u : Nat → ℝ)
    (hu : ∀ i, i < D.n → u i = f (D.point i)) :
    (match D.kind with
      | .fourier => fourIntegral D.a D.b (D.coeffs (fun _ => 0) u (D.n - 1)) D.n
      | _ => chebIntegral D.a D.b (D.coeffs (fun _ => 0) u (D.n - 1)) D.n) =
      ∫ X in D.a..D.b, f X := by
  obtain ⟨hab, hn, h2⟩ := hD
  obtain ⟨kind, a, b, n⟩ := D
  cases kind
  · obtain ⟨p, hp, rfl⟩ := hf
    change chebIntegral a b (chebFromExtrema _ _ (n - 1)) n = ∫ X in a..b, p.eval X
    rw [← C35_definite a b hab.ne _ n hn]
    simp only [← chebPoly_eval]
    rw [extrema_poly a b hab.ne n (h2 rfl) p hp _ _ hu]
  · obtain ⟨p, hp, rfl⟩ := hf
    change chebIntegral a b (chebFromZeros _ _ (n - 1)) n = ∫ X in a..b, p.eval X
    rw [← C35_definite a b hab.ne _ n hn]
    simp only [← chebPoly_eval]
    rw [zeros_poly a b hab.ne n hn p hp _ _ hu]
  · obtain ⟨c, rfl⟩ := hf
    change fourIntegral a b (fourCoeffs _ _ (n - 1)) n = ∫ X in a..b, Spec.fourSeries a b c n X
    rw [C68_definite a b hab.ne c n hn]
    unfold fourIntegral
    rw [fourier_series a b hab.ne n hn c _ _ hu 0 hn]

theorem stdBox_quad (D : Axis → BDir) (hD : ∀ ax, (D ax).good) (fft : Axis → Bool)
    (W F : Axis → Nat → ℝ) (ax : Axis) :
    Exact1 (D ax).n (D ax).point (D ax).space (lineInt D (stdBox D fft W F) ax)
      (fun f => ∫ X in (D ax).a..(D ax).b, f X) := by
  have hlen : (stdBox D fft W F).d.len ax = (D ax).n := dirDims_len D ax
  have hn := (hD ax).2.1
  have hlin := integralOf_linear _ _ _ _ hn _ (stdBox_integralOf D ax)
  constructor
  · obtain ⟨B, hB⟩ := (lineLinear_iff _ _).1 hlin
    obtain ⟨A, hA⟩ := coeffsOp_isMat (stdBox_linear D fft W F ax)
    rw [hlen] at hA
    refine ⟨fun j => ∑ k ∈ range (D ax).n, B 0 k * A k j, fun u => ?_⟩
    refine (hB (fun _ => 0) (coeffsOp (stdBox D fft W F) ax u) 0 hn).trans ?_
    have e : ∀ k ∈ range (D ax).n, B 0 k * coeffsOp (stdBox D fft W F) ax u k =
        ∑ j ∈ range (D ax).n, B 0 k * A k j * u j := by
      intro k hk
      rw [hA u k (mem_range.1 hk), mul_sum]
      exact sum_congr rfl fun j _ => by ring
    rw [sum_congr rfl e, sum_comm]
    exact sum_congr rfl fun j _ => by rw [sum_mul]
  · intro f hf
    have hco := fun (u : Nat → ℝ) i hi => stdBox_coeffsOp D fft W F ax u (fun _ => 0) i hi
    have hloc := hlin.loc (fun _ => 0) (fun _ => 0) _ _
      (hco fun i => f ((D ax).point i)) 0 hn
    exact hloc.trans ((D ax).quad (hD ax) f hf _ fun _ _ => rfl)

theorem lineInt_local (D : Axis → BDir) (hD : ∀ ax, (D ax).good) (fft : Axis → Bool)
    (W F : Axis → Nat → ℝ) (ax : Axis) (u v : Nat → ℝ) (h : ∀ i, i < (D ax).n → u i = v i) :
    lineInt D (stdBox D fft W F) ax u = lineInt D (stdBox D fft W F) ax v := by
  obtain ⟨w, hw⟩ := (stdBox_quad D hD fft W F ax).lin
  rw [hw, hw]
  exact sum_congr rfl fun i hi => by rw [h i (mem_range.1 hi)]

/-- `spec_Integral1` in a box: every value is replaced by the integral of its line. -/
theorem stdBox_integral1 (D : Axis → BDir) (hD : ∀ ax, (D ax).good) (fft : Axis → Bool)
    (W F : Axis → Nat → ℝ) (ax : Axis) (u U : Nat) (mem : Arrays ℝ) :
    ∃ mem', specIntegral1 g (stdBox D fft W F) (fun ax => (D ax).method) (fun ax => (D ax).a)
        (fun ax => (D ax).b) ax u U mem = .ok mem' ∧
      Spec.ActsAlong (dirDims D) ax (fun v _ => lineInt D (stdBox D fft W F) ax v) u U mem mem' := by
  have hlen : (stdBox D fft W F).d.len ax = (D ax).n := dirDims_len D ax
  refine specIntegral1_eq g (stdBox D fft W F) _ _ _ ax (stdBox_linear D fft W F ax)
    (by rw [hlen]; exact (hD ax).2.1) (fun c => match (D ax).kind with
      | .fourier => fourIntegral (D ax).a (D ax).b c (D ax).n
      | _ => chebIntegral (D ax).a (D ax).b c (D ax).n) ?_ u U mem
  rw [hlen]
  exact stdBox_integralOf D ax

theorem exact2 {n1 n2 : Nat} {x y : Nat → ℝ} {S1 S2 : (ℝ → ℝ) → Prop}
    {L1 L2 : (Nat → ℝ) → ℝ} {E1 E2 : (ℝ → ℝ) → ℝ} (h1 : Exact1 n1 x S1 L1 E1)
    (h2 : Exact1 n2 y S2 L2 E2) (c2 : Closed S2) {P : ℝ → ℝ → ℝ} (p1 : ∀ Y, S1 fun X => P X Y)
    (p2 : ∀ X, S2 fun Y => P X Y) :
    (L2 fun j => L1 fun i => P (x i) (y j)) = E2 fun Y => E1 fun X => P X Y := by
  have e1 : ∀ Y, (L1 fun i => P (x i) Y) = E1 fun X => P X Y := fun Y => h1.exact _ (p1 Y)
  have s2 : S2 fun Y => L1 fun i => P (x i) Y := by
    obtain ⟨w, hw⟩ := h1.lin
    simp only [hw]
    exact c2 n1 w (fun i Y => P (x i) Y) fun i => p2 (x i)
  rw [h2.exact _ s2]
  simp only [e1]

/-- **C73.** `spec_3dIntegral` returns the triple integral over the box of every function that is, as a
function of each coordinate, in the space of the direction; on return all points of `U` hold this
number and other arrays are unchanged. -/
theorem C73_integral3d (D : Axis → BDir) (hD : ∀ ax, (D ax).good) (fft : Axis → Bool)
    (W F : Axis → Nat → ℝ) (u U : Nat) (mem : Arrays ℝ) (P : ℝ → ℝ → ℝ → ℝ)
    (hP : Separately (D .one).space (D .two).space (D .three).space P)
    (hu : ∀ i j k, Spec.inBox (dirDims D) i j k → Spec.view (dirDims D) mem u i j k =
      P ((D .one).point i) ((D .two).point j) ((D .three).point k)) :
    ∃ mem', spec3dIntegral g (stdBox D fft W F) (fun ax => (D ax).method) (fun ax => (D ax).a)
        (fun ax => (D ax).b) u U mem = .ok (mem', ∫ Z in (D .three).a..(D .three).b,
          ∫ Y in (D .two).a..(D .two).b, ∫ X in (D .one).a..(D .one).b, P X Y Z) ∧
      (∀ i j k, Spec.inBox (dirDims D) i j k → Spec.view (dirDims D) mem' U i j k =
        ∫ Z in (D .three).a..(D .three).b, ∫ Y in (D .two).a..(D .two).b,
          ∫ X in (D .one).a..(D .one).b, P X Y Z) ∧
      ∀ a, a ≠ U → mem' a = mem a := by
  obtain ⟨m1, r1, a1⟩ := stdBox_integral1 g D hD fft W F .one u U mem
  obtain ⟨m2, r2, a2⟩ := stdBox_integral1 g D hD fft W F .two U U m1
  obtain ⟨m3, r3, a3⟩ := stdBox_integral1 g D hD fft W F .three U U m2
  have hv : ∀ i j k, Spec.inBox (dirDims D) i j k → Spec.view (dirDims D) m3 U i j k =
      ∫ Z in (D .three).a..(D .three).b, ∫ Y in (D .two).a..(D .two).b,
        ∫ X in (D .one).a..(D .one).b, P X Y Z := by
    rintro i j k ⟨b1, b2, b3⟩
    rw [a3.1 i j k ⟨b1, b2, b3⟩]
    refine Eq.trans ?_ (exact3 (stdBox_quad D hD fft W F .one) (stdBox_quad D hD fft W F .two)
      (stdBox_quad D hD fft W F .three) (D .two).space_closed (D .three).space_closed hP)
    refine lineInt_local D hD fft W F .three _ _ fun k' hk' => ?_
    rw [a2.1 i j k' ⟨b1, b2, hk'⟩]
    refine lineInt_local D hD fft W F .two _ _ fun j' hj' => ?_
    rw [a1.1 i j' k' ⟨b1, hj', hk'⟩]
    exact lineInt_local D hD fft W F .one _ _ fun i' hi' => hu i' j' k' ⟨hi', hj', hk'⟩
  refine ⟨m3, ?_, hv, ?_⟩
  · unfold spec3dIntegral
    rw [r1, Res.bind_ok, r2, Res.bind_ok, r3, Res.bind_ok]
    have h0 := hv 0 0 0 ⟨(hD .one).2.1, (hD .two).2.1, (hD .three).2.1⟩
    rw [← h0]
    simp [Spec.view]
  · intro a ha
    funext p
    rw [a3.2 a p (Or.inl ha), a2.2 a p (Or.inl ha), a1.2 a p (Or.inl ha)]

/-- The other two coordinates, in the order in which `spec_2dIntegral` integrates. -/
noncomputable def Spec.surface (D : Axis → BDir) (norm : Axis) (P : ℝ → ℝ → ℝ → ℝ) (i j k : Nat) : ℝ :=
  match norm with
  | .one => ∫ Z in (D .three).a..(D .three).b, ∫ Y in (D .two).a..(D .two).b, P ((D .one).point i) Y Z
  | .two => ∫ Z in (D .three).a..(D .three).b, ∫ X in (D .one).a..(D .one).b, P X ((D .two).point j) Z
  | .three => ∫ Y in (D .two).a..(D .two).b, ∫ X in (D .one).a..(D .one).b, P X Y ((D .three).point k)

/-- **C73.** `spec_2dIntegral` replaces each value by the double integral over the surface of constant
normal coordinate through the point. -/
theorem C73_integral2d (D : Axis → BDir) (hD : ∀ ax, (D ax).good) (fft : Axis → Bool)
    (W F : Axis → Nat → ℝ) (norm : Axis) (u U : Nat) (mem : Arrays ℝ) (P : ℝ → ℝ → ℝ → ℝ)
    (hP : Separately (D .one).space (D .two).space (D .three).space P)
    (hu : ∀ i j k, Spec.inBox (dirDims D) i j k → Spec.view (dirDims D) mem u i j k =
      P ((D .one).point i) ((D .two).point j) ((D .three).point k)) :
    ∃ mem', spec2dIntegral g (stdBox D fft W F) (fun ax => (D ax).method) (fun ax => (D ax).a)
        (fun ax => (D ax).b) norm u U mem = .ok mem' ∧
      (∀ i j k, Spec.inBox (dirDims D) i j k → Spec.view (dirDims D) mem' U i j k =
        Spec.surface D norm P i j k) ∧
      ∀ a, a ≠ U → mem' a = mem a := by
  have q := stdBox_quad D hD fft W F
  cases norm with
  | one =>
    obtain ⟨m1, r1, a1⟩ := stdBox_integral1 g D hD fft W F .two u U mem
    obtain ⟨m2, r2, a2⟩ := stdBox_integral1 g D hD fft W F .three U U m1
    refine ⟨m2, ?_, ?_, fun a ha => ?_⟩
    · unfold spec2dIntegral
      simp only
      rw [r1, Res.bind_ok, r2]
    · rintro i j k ⟨b1, b2, b3⟩
      rw [a2.1 i j k ⟨b1, b2, b3⟩]
      refine Eq.trans ?_ (exact2 (q .two) (q .three) (D .three).space_closed
        (P := fun Y Z => P ((D .one).point i) Y Z) (fun Z => hP.2.1 _ Z) fun Y => hP.2.2 _ Y)
      refine lineInt_local D hD fft W F .three _ _ fun k' hk' => ?_
      rw [a1.1 i j k' ⟨b1, b2, hk'⟩]
      exact lineInt_local D hD fft W F .two _ _ fun j' hj' => hu i j' k' ⟨b1, hj', hk'⟩
    · funext p
      rw [a2.2 a p (Or.inl ha), a1.2 a p (Or.inl ha)]
  | two =>
    obtain ⟨m1, r1, a1⟩ := stdBox_integral1 g D hD fft W F .one u U mem
    obtain ⟨m2, r2, a2⟩ := stdBox_integral1 g D hD fft W F .three U U m1
    refine ⟨m2, ?_, ?_, fun a ha => ?_⟩
    · unfold spec2dIntegral
      simp only
      rw [r1, Res.bind_ok, r2]
    · rintro i j k ⟨b1, b2, b3⟩
      rw [a2.1 i j k ⟨b1, b2, b3⟩]
      refine Eq.trans ?_ (exact2 (q .one) (q .three) (D .three).space_closed
        (P := fun X Z => P X ((D .two).point j) Z) (fun Z => hP.1 _ Z) fun X => hP.2.2 X _)
      refine lineInt_local D hD fft W F .three _ _ fun k' hk' => ?_
      rw [a1.1 i j k' ⟨b1, b2, hk'⟩]
      exact lineInt_local D hD fft W F .one _ _ fun i' hi' => hu i' j k' ⟨hi', b2, hk'⟩
    · funext p
      rw [a2.2 a p (Or.inl ha), a1.2 a p (Or.inl ha)]
  | three =>
    obtain ⟨m1, r1, a1⟩ := stdBox_integral1 g D hD fft W F .one u U mem
    obtain ⟨m2, r2, a2⟩ := stdBox_integral1 g D hD fft W F .two U U m1
    refine ⟨m2, ?_, ?_, fun a ha => ?_⟩
    · unfold spec2dIntegral
      simp only
      rw [r1, Res.bind_ok, r2]
    · rintro i j k ⟨b1, b2, b3⟩
      rw [a2.1 i j k ⟨b1, b2, b3⟩]
      refine Eq.trans ?_ (exact2 (q .one) (q .two) (D .two).space_closed
        (P := fun X Y => P X Y ((D .three).point k)) (fun Y => hP.1 Y _) fun X => hP.2.1 X _)
      refine lineInt_local D hD fft W F .two _ _ fun j' hj' => ?_
      rw [a1.1 i j' k ⟨b1, hj', b3⟩]
      exact lineInt_local D hD fft W F .one _ _ fun i' hi' => hu i' j' k ⟨hi', hj', b3⟩
    · funext p
      rw [a2.2 a p (Or.inl ha), a1.2 a p (Or.inl ha)]

/-- **C73.** A direction with another basis (finite differences) stops the program. -/
theorem C73_abort (b : LBox ℝ) (meth : Axis → IMethod) (lo hi : Axis → ℝ) (u U : Nat)
    (mem : Arrays ℝ) (ax : Axis) (h : meth ax = .none) :
    spec3dIntegral g b meth lo hi u U mem = .abort := by
  have key : ∀ ax u mem, meth ax = .none → specIntegral1 g b meth lo hi ax u U mem = .abort := by
    intro ax u mem h
    unfold specIntegral1
    rw [h]
    rfl
  have key' : ∀ ax u mem, specIntegral1 g b meth lo hi ax u U mem ≠ .ub := by
    intro ax u mem
    unfold specIntegral1 integralOf
    cases meth ax <;> simp [Res.bind]
  unfold spec3dIntegral
  cases h1 : specIntegral1 g b meth lo hi .one u U mem with
  | abort => rfl
  | ub => exact absurd h1 (key' _ _ _)
  | ok m1 =>
    rw [Res.bind_ok]
    cases h2 : specIntegral1 g b meth lo hi .two U U m1 with
    | abort => rfl
    | ub => exact absurd h2 (key' _ _ _)
    | ok m2 =>
      rw [Res.bind_ok]
      cases ax with
      | one => rw [key .one u mem h] at h1; cases h1
      | two => rw [key .two U m1 h] at h2; cases h2
      | three => rw [key .three U m2 h]; rfl

/-- A box of 3 × 2 × 4 points with Chebyshev extrema in [0,2], Chebyshev zeros in [-1,1] and Fourier in
[0,1]. -/
noncomputable def exDirs : Axis → BDir
  | .one => ⟨.extrema, 0, 2, 3⟩
  | .two => ⟨.zeros, -1, 1, 2⟩
  | .three => ⟨.fourier, 0, 1, 4⟩

theorem exDirs_good : ∀ ax, (exDirs ax).good := by
  intro ax
  cases ax <;> norm_num [exDirs, BDir.good]

theorem exSpace : Separately (exDirs .one).space (exDirs .two).space (exDirs .three).space
    fun x y _ => x ^ 2 * (1 + y) := by
  refine ⟨fun y _ => ⟨Polynomial.C (1 + y) * Polynomial.X ^ 2, ?_, ?_⟩,
    fun x _ => ⟨Polynomial.C (x ^ 2) * (Polynomial.X + Polynomial.C 1), ?_, ?_⟩, fun x y =>
      ⟨fun l => if l = 0 then 4 * (x ^ 2 * (1 + y)) else 0, ?_⟩⟩
  · exact lt_of_le_of_lt (Polynomial.degree_C_mul_X_pow_le _ _) (by decide)
  · funext x; simp; ring
  · refine lt_of_le_of_lt (Polynomial.degree_mul_le _ _) ?_
    rw [Polynomial.degree_X_add_C]
    refine lt_of_le_of_lt (add_le_add_left Polynomial.degree_C_le _) (by decide)
  · funext y
    rw [Polynomial.eval_mul, Polynomial.eval_C, Polynomial.eval_add, Polynomial.eval_X,
      Polynomial.eval_C, add_comm]
  · funext z
    simp [Spec.fourSeries, exDirs]

/-- The integral of `x² (1 + y)` over the box is `16/3`. -/
example (fft : Axis → Bool) (W F : Axis → Nat → ℝ) (u U : Nat) (mem : Arrays ℝ)
    (hu : ∀ i j k, Spec.inBox (dirDims exDirs) i j k → Spec.view (dirDims exDirs) mem u i j k =
      (exDirs .one).point i ^ 2 * (1 + (exDirs .two).point j)) :
    ∃ mem', spec3dIntegral g (stdBox exDirs fft W F) (fun ax => (exDirs ax).method)
      (fun ax => (exDirs ax).a) (fun ax => (exDirs ax).b) u U mem = .ok (mem', 16 / 3) := by
  obtain ⟨mem', h, _⟩ := C73_integral3d g exDirs exDirs_good fft W F u U mem _ exSpace hu
  refine ⟨mem', h.trans ?_⟩
  congr 2
  have e1 : ∀ y : ℝ, ∫ x in (0 : ℝ)..2, x ^ 2 * (1 + y) = 8 / 3 * (1 + y) := by
    intro y
    rw [intervalIntegral.integral_mul_const, integral_pow]
    norm_num
  have e2 : ∫ y in (-1 : ℝ)..1, (1 + y) = 2 := by
    have h1 : IntervalIntegrable (fun y : ℝ => y) MeasureTheory.volume (-1) 1 :=
      continuous_id.intervalIntegrable _ _
    rw [intervalIntegral.integral_add intervalIntegrable_const h1, integral_id]
    norm_num
  change ∫ _ in (0 : ℝ)..1, ∫ y in (-1 : ℝ)..1, ∫ x in (0 : ℝ)..2, x ^ 2 * (1 + y) = 16 / 3
  simp only [e1, intervalIntegral.integral_const_mul, e2]
  norm_num

end Sgrid

import Verif.Lemmas.Lines

/-!
# C41, C72: operations along grid lines
-/

namespace Sgrid
open Finset
variable {K : Type} [Field K]

/-! ## What the bodies of the loops do on one line -/

/-- The product of a matrix stored row by row and a line. -/
def matOp (M : Nat → K) (n : Nat) (u : Nat → K) (i : Nat) : K := ∑ j ∈ range n, M (n * i + j) * u j

theorem matOp_local (M : Nat → K) (n : Nat) : LocalFun (matOp M n) n := by
  intro u v h i _
  exact sum_congr rfl fun j hj => by rw [h j (mem_range.1 hj)]

/-- A line routine as a function of the line; its output array has zeros before. -/
def funOp (f : LineFun K) (n : Nat) (u : Nat → K) (i : Nat) : K := f (fun _ => 0) u (n - 1) i

theorem funOp_local {f : LineFun K} {n : Nat} (hf : Spec.LineLinear f n) : LocalFun (funOp f n) n :=
  fun u v h i hi => hf.loc _ _ u v h i hi

theorem funOp_eq {f : LineFun K} {n : Nat} (hf : Spec.LineLinear f n) (w u v : Nat → K)
    (h : ∀ j, j < n → u j = v j) (i : Nat) (hi : i < n) : f w u (n - 1) i = funOp f n v i :=
  hf.loc _ _ u v h i hi

omit [Field K] in
theorem LocalFun.comp {f h : (Nat → K) → Nat → K} {n : Nat} (hf : LocalFun f n) (hh : LocalFun h n) :
    LocalFun (fun u => h (f u)) n :=
  fun u v e i hi => hh _ _ (fun j hj => hf u v e j hj) i hi

omit [Field K] in
/-- One line: something is computed from array `src` and written to array `dst`. -/
theorem LineAct.write {d : Dims} {ax : Axis} {f : (Nat → K) → Nat → K} (hf : LocalFun f (d.len ax))
    (src dst : Nat) (T : Nat → Nat → LState K → LState K)
    (hT : ∀ i1 i2 s, ∃ B, (T i1 i2 s).mem = (s.put d ax i1 i2 dst B).mem ∧
      ∀ i, i < d.len ax → B i = f (lineAt d ax s.mem i1 i2 src) i) :
    LineAct d ax (lineG f src dst) T := by
  refine ⟨?_, ?_, fun m m' h a i hi => lineG_loc hf src dst m m' h a i hi⟩
  · intro i1 i2 h1 h2 s a i hi
    obtain ⟨B, e, hB⟩ := hT i1 i2 s
    rw [e, LState.put_mem_on d ax i1 i2 dst _ _ h1 h2 a i hi]
    unfold lineG
    by_cases h : a = dst
    · rw [if_pos h, if_pos h, hB i hi]
    · rw [if_neg h, if_neg h]; rfl
  · intro i1 i2 h1 h2 s a p hp
    obtain ⟨B, e, -⟩ := hT i1 i2 s
    rw [e, LState.put_mem_off d ax i1 i2 dst _ _ h1 h2 a p hp]

omit [Field K] in
/-- One line: two things are computed from array `src` and written to two arrays. -/
theorem LineAct.write2 {d : Dims} {ax : Axis} {f h : (Nat → K) → Nat → K} (hf : LocalFun f (d.len ax))
    (hh : LocalFun h (d.len ax)) (src d1 d2 : Nat) (hne : src ≠ d1)
    (T : Nat → Nat → LState K → LState K)
    (hT : ∀ i1 i2 s, ∃ B B', (T i1 i2 s).mem = ((s.put d ax i1 i2 d1 B).put d ax i1 i2 d2 B').mem ∧
      (∀ i, i < d.len ax → B i = f (lineAt d ax s.mem i1 i2 src) i) ∧
      ∀ i, i < d.len ax → B' i = h (lineAt d ax s.mem i1 i2 src) i) :
    LineAct d ax (fun m => lineG h src d2 (lineG f src d1 m)) T := by
  refine ⟨?_, ?_, fun m m' e a i hi => lineG_loc hh src d2 _ _
    (fun a i hi => lineG_loc hf src d1 m m' e a i hi) a i hi⟩
  · intro i1 i2 h1 h2 s a i hi
    obtain ⟨B, B', e, hB, hB'⟩ := hT i1 i2 s
    rw [e, LState.put_mem_on d ax i1 i2 d2 _ _ h1 h2 a i hi]
    have hl : lineG f src d1 (lineAt d ax s.mem i1 i2) src = lineAt d ax s.mem i1 i2 src := by
      funext i; exact lineG_ne _ _ _ _ hne _ _
    by_cases h : a = d2
    · subst h; rw [if_pos rfl, hB' i hi, lineG_dst, hl]
    · rw [if_neg h, lineG_ne _ _ _ _ h, LState.put_mem_on d ax i1 i2 d1 _ _ h1 h2 a i hi]
      by_cases h' : a = d1
      · subst h'; rw [if_pos rfl, hB i hi, lineG_dst]
      · rw [if_neg h', lineG_ne _ _ _ _ h']; rfl
  · intro i1 i2 h1 h2 s a p hp
    obtain ⟨B, B', e, -, -⟩ := hT i1 i2 s
    rw [e, LState.put_mem_off d ax i1 i2 d2 _ _ h1 h2 a p hp,
      LState.put_mem_off d ax i1 i2 d1 _ _ h1 h2 a p hp]

theorem lineMat_act (d : Dims) (ax : Axis) (M : Nat → K) (src dst : Nat) :
    LineAct d ax (lineG (matOp M (d.len ax)) src dst) (lineMat d ax M src dst) := by
  refine LineAct.write (matOp_local M _) src dst _ fun i1 i2 s => ⟨_, rfl, fun i hi => ?_⟩
  change matTimesVec _ _ _ _ i = _
  rw [matTimesVec_eq, if_pos hi]
  exact matOp_local M _ _ _ (fun j hj => LState.get_ul d ax i1 i2 src s j hj) i hi

theorem lineFun_act (d : Dims) (ax : Axis) (f : LineFun K) (hf : Spec.LineLinear f (d.len ax))
    (src dst : Nat) :
    LineAct d ax (lineG (funOp f (d.len ax)) src dst) (lineFun d ax f src dst) := by
  refine LineAct.write (funOp_local hf) src dst _ fun i1 i2 s => ⟨_, rfl, fun i hi => ?_⟩
  exact funOp_eq hf _ _ _ (fun j hj => LState.get_ul d ax i1 i2 src s j hj) i hi

/-- The three routines of a direction are linear. -/
structure BoxLinear (b : LBox K) (ax : Axis) : Prop where
  coeffs : Spec.LineLinear (b.coeffs ax) (b.d.len ax)
  deriv : Spec.LineLinear (b.deriv ax) (b.d.len ax)
  eval : Spec.LineLinear (b.eval ax) (b.d.len ax)

/-- The first derivative by transforms. -/
def derivOp (b : LBox K) (ax : Axis) (u : Nat → K) : Nat → K :=
  funOp (b.eval ax) (b.d.len ax) (funOp (b.deriv ax) (b.d.len ax) (funOp (b.coeffs ax) (b.d.len ax) u))

/-- The second derivative by transforms. -/
def derivOp2 (b : LBox K) (ax : Axis) (u : Nat → K) : Nat → K :=
  funOp (b.eval ax) (b.d.len ax) (funOp (b.deriv ax) (b.d.len ax) (funOp (b.deriv ax) (b.d.len ax)
    (funOp (b.coeffs ax) (b.d.len ax) u)))

theorem derivOp_local {b : LBox K} {ax : Axis} (h : BoxLinear b ax) :
    LocalFun (derivOp b ax) (b.d.len ax) :=
  ((funOp_local h.coeffs).comp (funOp_local h.deriv)).comp (funOp_local h.eval)

theorem derivOp2_local {b : LBox K} {ax : Axis} (h : BoxLinear b ax) :
    LocalFun (derivOp2 b ax) (b.d.len ax) :=
  (((funOp_local h.coeffs).comp (funOp_local h.deriv)).comp (funOp_local h.deriv)).comp
    (funOp_local h.eval)

theorem lineDeriv_act {b : LBox K} {ax : Axis} (h : BoxLinear b ax) (src dst : Nat) :
    LineAct b.d ax (lineG (derivOp b ax) src dst) (lineDeriv b ax src dst) := by
  refine LineAct.write (derivOp_local h) src dst _ fun i1 i2 s => ⟨_, rfl, fun i hi => ?_⟩
  exact funOp_eq h.eval _ _ _ (fun j hj => funOp_eq h.deriv _ _ _ (fun j hj =>
    funOp_eq h.coeffs _ _ _ (fun j hj => LState.get_ul b.d ax i1 i2 src s j hj) j hj) j hj) i hi

theorem lineDeriv2_act {b : LBox K} {ax : Axis} (h : BoxLinear b ax) (src dst : Nat) :
    LineAct b.d ax (lineG (derivOp2 b ax) src dst) (lineDeriv2 b ax src dst) := by
  refine LineAct.write (derivOp2_local h) src dst _ fun i1 i2 s => ⟨_, rfl, fun i hi => ?_⟩
  exact funOp_eq h.eval _ _ _ (fun j hj => funOp_eq h.deriv _ _ _ (fun j hj => funOp_eq h.deriv _ _ _
    (fun j hj => funOp_eq h.coeffs _ _ _ (fun j hj => LState.get_ul b.d ax i1 i2 src s j hj) j hj) j hj)
    j hj) i hi

theorem lineDirect_mem (d : Dims) (M : Nat → K) (src dst : Nat) (hne : src ≠ dst) (j k : Nat)
    (s : LState K) :
    (lineDirect d M src dst j k s).mem =
      (s.put d .one j k dst (matOp M d.n1 (lineAt d .one s.mem j k src))).mem := by
  unfold lineDirect LState.put putMemline
  change upLoop 0 d.n1 _ s.mem = aset s.mem dst (upLoop 0 d.n1 _ (s.mem dst))
  have := upLoop_inv (Nat.zero_le d.n1) (body := fun i (mem : Arrays K) =>
      aset mem dst (aset (mem dst) (d.idx 0 j k + i)
        (upLoop 0 d.n1 (fun l sum => sum + M (d.n1 * i + l) * mem src (d.idx 0 j k + l)) 0))) (s := s.mem)
    (fun m mem => mem = aset s.mem dst (upLoop 0 m (fun i u => aset u (d.place .one j k i)
      (matOp M d.n1 (lineAt d .one s.mem j k src) i)) (s.mem dst)))
    (by
      rw [upLoop_nil (le_refl 0)]
      funext a
      by_cases h : a = dst
      · subst h; rw [aset_self]
      · rw [aset_ne _ _ h])
    (by
      intro m mem _ hm ih
      rw [upLoop_succ (Nat.zero_le m), upLoop_range_sum]
      have hs : mem src = s.mem src := by rw [ih, aset_ne _ _ hne]
      have hd : mem dst = upLoop 0 m (fun i u => aset u (d.place .one j k i)
        (matOp M d.n1 (lineAt d .one s.mem j k src) i)) (s.mem dst) := by rw [ih, aset_self]
      rw [hs, hd, ih]
      funext a
      by_cases h : a = dst
      · subst h; rw [aset_self, aset_self]; rfl
      · rw [aset_ne _ _ h, aset_ne _ _ h, aset_ne _ _ h])
  exact this

theorem lineDirect_act (d : Dims) (M : Nat → K) (src dst : Nat) (hne : src ≠ dst) :
    LineAct d .one (lineG (matOp M d.n1) src dst) (lineDirect d M src dst) :=
  LineAct.write (f := matOp M d.n1) (ax := .one) (matOp_local M _) src dst _ fun i1 i2 s =>
    ⟨_, lineDirect_mem d M src dst hne i1 i2 s, fun _ _ => rfl⟩

theorem lineMatD_act (d : Dims) (ax : Axis) (M : Nat → K) (src dst : Nat)
    (hne : ax = .one → src ≠ dst) :
    LineAct d ax (lineG (matOp M (d.len ax)) src dst) (lineMatD d ax M src dst) := by
  unfold lineMatD
  split
  · rename_i h
    subst h
    exact lineDirect_act d M src dst (hne rfl)
  · exact lineMat_act d ax M src dst

/-! ## C41 -/

variable (g : Nat → (Nat → K) × (Nat → K) × (Nat → K))

/-- Values to coefficients in one direction: the routine if `TransformType` says so, else the matrix. -/
def coeffsOp (b : LBox K) (ax : Axis) : (Nat → K) → Nat → K :=
  if b.fft ax then funOp (b.coeffs ax) (b.d.len ax) else matOp (b.Mcoeffs ax) (b.d.len ax)

/-- Coefficients to values in one direction. -/
def evalOp (b : LBox K) (ax : Axis) : (Nat → K) → Nat → K :=
  if b.fft ax then funOp (b.eval ax) (b.d.len ax) else matOp (b.Meval ax) (b.d.len ax)

/-- The first derivative in one direction. -/
def d1Op (b : LBox K) (ax : Axis) : (Nat → K) → Nat → K :=
  if b.fft ax then derivOp b ax else matOp (b.D ax) (b.d.len ax)

/-- The second derivative in one direction. -/
def d2Op (b : LBox K) (ax : Axis) : (Nat → K) → Nat → K :=
  if b.fft ax then derivOp2 b ax else matOp (b.DD ax) (b.d.len ax)

theorem coeffsOp_local {b : LBox K} {ax : Axis} (h : BoxLinear b ax) :
    LocalFun (coeffsOp b ax) (b.d.len ax) := by
  unfold coeffsOp; split
  · exact funOp_local h.coeffs
  · exact matOp_local _ _

theorem evalOp_local {b : LBox K} {ax : Axis} (h : BoxLinear b ax) :
    LocalFun (evalOp b ax) (b.d.len ax) := by
  unfold evalOp; split
  · exact funOp_local h.eval
  · exact matOp_local _ _

theorem d1Op_local {b : LBox K} {ax : Axis} (h : BoxLinear b ax) :
    LocalFun (d1Op b ax) (b.d.len ax) := by
  unfold d1Op; split
  · exact derivOp_local h
  · exact matOp_local _ _

theorem d2Op_local {b : LBox K} {ax : Axis} (h : BoxLinear b ax) :
    LocalFun (d2Op b ax) (b.d.len ax) := by
  unfold d2Op; split
  · exact derivOp2_local h
  · exact matOp_local _ _

/-- **C41.** `spec_analysis1` is the one-dimensional analysis on every line of the direction and changes
nothing else; the two arrays may be the same. -/
theorem C41_analysis (b : LBox K) (ax : Axis) (h : BoxLinear b ax) (u c : Nat) (mem : Arrays K) :
    Spec.ActsAlong b.d ax (coeffsOp b ax) u c mem (specAnalysis1 g b ax u c mem) := by
  unfold specAnalysis1 coeffsOp
  split
  · exact actsAlong_of_done (funOp_local h.coeffs) (forLinesAlloc_done (lineFun_act _ _ _ h.coeffs u c) g mem)
  · exact actsAlong_of_done (matOp_local _ _) (forLinesAlloc_done (lineMat_act _ _ _ u c) g mem)

/-- **C41.** The same for `spec_synthesis1`. -/
theorem C41_synthesis (b : LBox K) (ax : Axis) (h : BoxLinear b ax) (u c : Nat) (mem : Arrays K) :
    Spec.ActsAlong b.d ax (evalOp b ax) c u mem (specSynthesis1 g b ax u c mem) := by
  unfold specSynthesis1 evalOp
  split
  · exact actsAlong_of_done (funOp_local h.eval) (forLinesAlloc_done (lineFun_act _ _ _ h.eval c u) g mem)
  · exact actsAlong_of_done (matOp_local _ _) (forLinesAlloc_done (lineMat_act _ _ _ c u) g mem)

/-- **C41.** `spec_analysis1_diffmatrix` and `spec_synthesis1_diffmatrix`. -/
theorem C41_matrix (d : Dims) (gs : (Nat → K) × (Nat → K) × (Nat → K)) (ax : Axis) (M : Nat → K)
    (src dst : Nat) (mem : Arrays K) :
    Spec.ActsAlong d ax (matOp M (d.len ax)) src dst mem (specMatrix1 d gs ax M src dst mem) :=
  actsAlong_of_done (matOp_local _ _) (forLinesStatic_done (lineMat_act d ax M src dst) gs mem)

/-- **C41.** `spec_Deriv1`. With matrices in direction 1 the two arrays have to be different. -/
theorem C41_deriv1 (b : LBox K) (ax : Axis) (h : BoxLinear b ax) (u du : Nat)
    (hne : ax = .one → b.fft ax = false → u ≠ du) (mem : Arrays K) :
    Spec.ActsAlong b.d ax (d1Op b ax) u du mem (specDeriv1 g b ax u du mem) := by
  unfold specDeriv1 d1Op
  split
  · exact actsAlong_of_done (derivOp_local h) (forLinesAlloc_done (lineDeriv_act h u du) g mem)
  · rename_i hf
    exact actsAlong_of_done (matOp_local _ _)
      (forLinesAlloc_done (lineMatD_act _ _ _ u du fun e => hne e (by simpa using hf)) g mem)

/-- **C41.** `spec_Deriv2`. -/
theorem C41_deriv2 (b : LBox K) (ax : Axis) (h : BoxLinear b ax) (u du : Nat)
    (hne : ax = .one → b.fft ax = false → u ≠ du) (mem : Arrays K) :
    Spec.ActsAlong b.d ax (d2Op b ax) u du mem (specDeriv2 g b ax u du mem) := by
  unfold specDeriv2 d2Op
  split
  · exact actsAlong_of_done (derivOp2_local h) (forLinesAlloc_done (lineDeriv2_act h u du) g mem)
  · rename_i hf
    exact actsAlong_of_done (matOp_local _ _)
      (forLinesAlloc_done (lineMatD_act _ _ _ u du fun e => hne e (by simpa using hf)) g mem)

/-- **C41.** `spec_Deriv1_diffmatrix` and `spec_Deriv2_diffmatrix`. -/
theorem C41_derivMatrix (d : Dims) (gs : (Nat → K) × (Nat → K) × (Nat → K)) (ax : Axis) (M : Nat → K)
    (u du : Nat) (hne : ax = .one → u ≠ du) (mem : Arrays K) :
    Spec.ActsAlong d ax (matOp M (d.len ax)) u du mem (specDerivMatrix d gs ax M u du mem) :=
  actsAlong_of_done (matOp_local _ _) (forLinesStatic_done (lineMatD_act d ax M u du hne) gs mem)

/-- **C41.** `spec_filter1` multiplies every line by the filter matrix, in place. -/
theorem C41_filter1 (b : LBox K) (ax : Axis) (u : Nat) (mem : Arrays K) :
    Spec.ActsAlong b.d ax (matOp (b.F ax) (b.d.len ax)) u u mem (specFilter1 b ax u mem) :=
  actsAlong_of_done (matOp_local _ _) (forLinesStatic_done (lineMat_act b.d ax _ u u) _ mem)

/-- **C41.** The lines may be worked on in any order with any buffers: for every list that has each line
of the direction once the result is the one of the loops. (Here for derivatives by transforms; it holds
for all bodies above.) -/
theorem C41_order (b : LBox K) (ax : Axis) (h : BoxLinear b ax) (u du : Nat) (mem : Arrays K)
    (gb : Nat × Nat → (Nat → K) × (Nat → K) × (Nat → K)) (l : List (Nat × Nat)) (hl : l.Nodup)
    (hr : ∀ j k, (j, k) ∈ l ↔ j < b.d.inner ax ∧ k < b.d.outer ax) :
    l.foldl (fun m q => (lineDeriv b ax u du q.1 q.2 ⟨m, (gb q).1, (gb q).2.1, (gb q).2.2⟩).mem) mem =
      forLinesAlloc b.d ax g (lineDeriv b ax u du) mem :=
  done_unique (done_congr (fun i1 i2 h1 h2 => ⟨fun _ => trivial, fun _ => (hr i1 i2).2 ⟨h1, h2⟩⟩)
    (done_order (lineDeriv_act h u du) gb mem l hl fun q hq => (hr q.1 q.2).1 hq))
    (forLinesAlloc_done (lineDeriv_act h u du) g mem)

/-- **C41 fails in place in direction 1**: with two points and the matrix (0 1; 1 0) on the array (1, 2)
the result is (2, 2) instead of (2, 1), while direction 2 is right. -/
theorem C41_inplace_counterexample :
    let d : Dims := ⟨2, 1, 1⟩
    let e : Dims := ⟨1, 2, 1⟩
    let M : Nat → ℚ := fun p => if p = 1 ∨ p = 2 then 1 else 0
    let mem : Arrays ℚ := fun _ p => if p = 0 then 1 else 2
    let gs : (Nat → ℚ) × (Nat → ℚ) × (Nat → ℚ) := (fun _ => 0, fun _ => 0, fun _ => 0)
    matOp M 2 (mem 0) 0 = 2 ∧ matOp M 2 (mem 0) 1 = 1 ∧
    specDerivMatrix d gs .one M 0 0 mem 0 0 = 2 ∧ specDerivMatrix d gs .one M 0 0 mem 0 1 = 2 ∧
    specDerivMatrix e gs .two M 0 0 mem 0 0 = 2 ∧ specDerivMatrix e gs .two M 0 0 mem 0 1 = 1 := by
  decide +kernel

/-- Example: first differences along direction 3 of a box with 2 × 1 × 2 points. -/
example :
    let d : Dims := ⟨2, 1, 2⟩
    let M : Nat → ℚ := fun p => if p = 0 ∨ p = 2 then -1 else 1
    let mem : Arrays ℚ := fun _ p => p * p
    let m := specDerivMatrix d (fun _ => 7, fun _ => 7, fun _ => 7) .three M 0 1 mem
    ((List.range 5).map (m 1), (List.range 5).map (m 0)) = ([4, 8, 4, 8, 16], [0, 1, 4, 9, 16]) := by
  decide +kernel

/-! ## Fused loops -/

omit [Field K] in
/-- One loop with two pieces of work on every line is the same as two loops. -/
theorem fission {d : Dims} {ax : Axis} {G H : Arrays K → Arrays K}
    {T U : Nat → Nat → LState K → LState K} (hT : LineAct d ax G T) (hU : LineAct d ax H U)
    (mem : Arrays K) :
    forLinesAlloc d ax g (fun i1 i2 s => U i1 i2 (T i1 i2 s)) mem =
      forLinesAlloc d ax g U (forLinesAlloc d ax g T mem) := by
  refine done_unique (forLinesAlloc_done (hT.comp hU) g mem) ?_
  have h1 := forLinesAlloc_done hT g mem
  have h2 := forLinesAlloc_done hU g (forLinesAlloc d ax g T mem)
  refine ⟨?_, ?_⟩
  · intro a i1 i2 i l1 l2 li _
    rw [h2.1 a i1 i2 i l1 l2 li trivial]
    exact hU.loc _ _ (fun a i hi => h1.1 a i1 i2 i l1 l2 hi trivial) a i li
  · intro a p hp
    rw [h2.2 a p hp, h1.2 a p hp]

/-! ## C72: all derivatives -/

/-- A step of `spec_allDerivs` on one line. -/
def stepBody (b : LBox K) (ax : Axis) (st : DStep) (i1 i2 : Nat) (s : LState K) : LState K :=
  if b.fft ax then stepFft b ax i1 i2 st s else stepMat b.d ax (b.D ax) (b.DD ax) i1 i2 st s

/-- What the step does on one line. -/
def stepG (b : LBox K) (ax : Axis) (st : DStep) (m : Arrays K) : Arrays K :=
  match st with
  | .both src d1 d2 => lineG (d2Op b ax) src d2 (lineG (d1Op b ax) src d1 m)
  | .one src dst => lineG (d1Op b ax) src dst m

/-- The arrays of a step are different. -/
def DStep.ok : DStep → Prop
  | .both src d1 d2 => src ≠ d1 ∧ src ≠ d2
  | .one src dst => src ≠ dst

theorem stepBody_act {b : LBox K} {ax : Axis} (h : BoxLinear b ax) (st : DStep) (hst : st.ok) :
    LineAct b.d ax (stepG b ax st) (stepBody b ax st) := by
  unfold stepBody
  by_cases hf : b.fft ax = true
  · have e : ∀ i1 i2 s, (if b.fft ax then stepFft b ax i1 i2 st s
        else stepMat b.d ax (b.D ax) (b.DD ax) i1 i2 st s) = stepFft b ax i1 i2 st s :=
      fun _ _ _ => if_pos hf
    simp only [e]
    cases st with
    | both src d1 d2 =>
      have e1 : d1Op b ax = derivOp b ax := if_pos hf
      have e2 : d2Op b ax = derivOp2 b ax := if_pos hf
      unfold stepG
      simp only [e1, e2]
      refine LineAct.write2 (derivOp_local h) (derivOp2_local h) src d1 d2 hst.1 _ fun i1 i2 s =>
        ⟨_, _, rfl, fun i hi => ?_, fun i hi => ?_⟩
      · exact funOp_eq h.eval _ _ _ (fun j hj => funOp_eq h.deriv _ _ _ (fun j hj =>
          funOp_eq h.coeffs _ _ _ (fun j hj => LState.get_ul b.d ax i1 i2 src s j hj) j hj) j hj) i hi
      · exact funOp_eq h.eval _ _ _ (fun j hj => funOp_eq h.deriv _ _ _ (fun j hj =>
          funOp_eq h.deriv _ _ _ (fun j hj => funOp_eq h.coeffs _ _ _ (fun j hj =>
            LState.get_ul b.d ax i1 i2 src s j hj) j hj) j hj) j hj) i hi
    | one src dst =>
      have e1 : d1Op b ax = derivOp b ax := if_pos hf
      unfold stepG
      rw [e1]
      exact lineDeriv_act h src dst
  · have e : ∀ i1 i2 s, (if b.fft ax then stepFft b ax i1 i2 st s
        else stepMat b.d ax (b.D ax) (b.DD ax) i1 i2 st s) =
        stepMat b.d ax (b.D ax) (b.DD ax) i1 i2 st s := fun _ _ _ => if_neg hf
    simp only [e]
    have e1 : d1Op b ax = matOp (b.D ax) (b.d.len ax) := if_neg hf
    have e2 : d2Op b ax = matOp (b.DD ax) (b.d.len ax) := if_neg hf
    have hget : ∀ i1 i2 src (s : LState K) (M w : Nat → K) i, i < b.d.len ax →
        matTimesVec M (s.get b.d ax i1 i2 src).ul w (b.d.len ax) i =
          matOp M (b.d.len ax) (lineAt b.d ax s.mem i1 i2 src) i := by
      intro i1 i2 src s M w i hi
      rw [matTimesVec_eq, if_pos hi]
      exact matOp_local M _ _ _ (fun j hj => LState.get_ul b.d ax i1 i2 src s j hj) i hi
    cases st with
    | both src d1 d2 =>
      unfold stepG
      rw [e1, e2]
      cases ax with
      | one =>
        exact LineAct.comp (lineDirect_act b.d (b.D .one) src d1 hst.1)
          (lineDirect_act b.d (b.DD .one) src d2 hst.2)
      | two => exact LineAct.write2 (matOp_local _ _) (matOp_local _ _) src d1 d2 hst.1 _ fun i1 i2 s =>
          ⟨_, _, rfl, fun i hi => hget _ _ _ s _ _ i hi, fun i hi => hget _ _ _ s _ _ i hi⟩
      | three => exact LineAct.write2 (matOp_local _ _) (matOp_local _ _) src d1 d2 hst.1 _ fun i1 i2 s =>
          ⟨_, _, rfl, fun i hi => hget _ _ _ s _ _ i hi, fun i hi => hget _ _ _ s _ _ i hi⟩
    | one src dst =>
      unfold stepG
      rw [e1]
      cases ax with
      | one => exact lineDirect_act b.d (b.D .one) src dst hst
      | two => exact lineMat_act b.d .two (b.D .two) src dst
      | three => exact lineMat_act b.d .three (b.D .three) src dst

/-- The arrays as functions of three indices after one step. -/
def vstep (b : LBox K) (ax : Axis) (st : DStep) (V : Nat → Nat → Nat → Nat → K) :
    Nat → Nat → Nat → Nat → K :=
  match st with
  | .both src d1 d2 =>
    let V := fun a => if a = d1 then Spec.onLines ax (d1Op b ax) (V src) else V a
    fun a => if a = d2 then Spec.onLines ax (d2Op b ax) (V src) else V a
  | .one src dst => fun a => if a = dst then Spec.onLines ax (d1Op b ax) (V src) else V a

/-- Arrays written by a step. -/
def DStep.writes : DStep → List Nat
  | .both _ d1 d2 => [d1, d2]
  | .one _ dst => [dst]

/-- Inside the box the arrays are `V`. -/
def Agree (d : Dims) (mem : Arrays K) (V : Nat → Nat → Nat → Nat → K) : Prop :=
  ∀ a i j k, Spec.inBox d i j k → Spec.view d mem a i j k = V a i j k

omit [Field K] in
theorem along_congr {d : Dims} {ax : Axis} {f : (Nat → K) → Nat → K} (hf : LocalFun f (d.len ax))
    {u v : Nat → Nat → Nat → K} (h : ∀ i j k, Spec.inBox d i j k → u i j k = v i j k) (i j k : Nat)
    (hb : Spec.inBox d i j k) : Spec.onLines ax f u i j k = Spec.onLines ax f v i j k := by
  cases ax with
  | one => exact hf _ _ (fun l hl => h l j k ⟨hl, hb.2.1, hb.2.2⟩) i hb.1
  | two => exact hf _ _ (fun l hl => h i l k ⟨hb.1, hl, hb.2.2⟩) j hb.2.1
  | three => exact hf _ _ (fun l hl => h i j l ⟨hb.1, hb.2.1, hl⟩) k hb.2.2

omit [Field K] in
theorem agree_step {d : Dims} {ax : Axis} {f : (Nat → K) → Nat → K} (hf : LocalFun f (d.len ax))
    {src dst : Nat} {mem mem' : Arrays K} {V : Nat → Nat → Nat → Nat → K} (hA : Agree d mem V)
    (h : Spec.ActsAlong d ax f src dst mem mem') :
    Agree d mem' (fun a => if a = dst then Spec.onLines ax f (V src) else V a) := by
  intro a i j k hb
  beta_reduce
  by_cases ha : a = dst
  · subst ha
    rw [if_pos rfl, h.1 i j k hb]
    exact along_congr hf (hA src) i j k hb
  · rw [if_neg ha, ← hA a i j k hb]
    exact h.2 a _ (Or.inl ha)

theorem stepG_loop {b : LBox K} {ax : Axis} (h : BoxLinear b ax) (st : DStep) (hst : st.ok)
    (mem : Arrays K) (V : Nat → Nat → Nat → Nat → K) (hA : Agree b.d mem V) :
    Agree b.d (forLinesAlloc b.d ax g (stepBody b ax st) mem) (vstep b ax st V) ∧
    ∀ a p, a ∉ st.writes ∨ b.d.n1 * b.d.n2 * b.d.n3 ≤ p →
      forLinesAlloc b.d ax g (stepBody b ax st) mem a p = mem a p := by
  have hD := forLinesAlloc_done (stepBody_act h st hst) g mem
  cases st with
  | one src dst =>
    have := actsAlong_of_done (d1Op_local h) hD
    exact ⟨agree_step (d1Op_local h) hA this, fun a p hap => this.2 a p (by
      simpa [DStep.writes] using hap)⟩
  | both src d1 d2 =>
    -- the loop is the same as two loops
    have t1 : LineAct b.d ax (lineG (d1Op b ax) src d1) (stepBody b ax (.one src d1)) :=
      stepBody_act h (.one src d1) hst.1
    obtain ⟨U, t2⟩ : ∃ U, LineAct b.d ax (lineG (d2Op b ax) src d2) U := by
      by_cases hf : b.fft ax = true
      · have e2 : d2Op b ax = derivOp2 b ax := if_pos hf
        rw [e2]; exact ⟨_, lineDeriv2_act h src d2⟩
      · have e2 : d2Op b ax = matOp (b.DD ax) (b.d.len ax) := if_neg hf
        rw [e2]; exact ⟨_, lineMat_act b.d ax _ src d2⟩
    have e := done_unique hD (forLinesAlloc_done (t1.comp t2) g mem)
    rw [e, fission g t1 t2]
    have a1 := actsAlong_of_done (d1Op_local h) (forLinesAlloc_done t1 g mem)
    have a2 := actsAlong_of_done (d2Op_local h) (forLinesAlloc_done t2 g
      (forLinesAlloc b.d ax g (stepBody b ax (.one src d1)) mem))
    refine ⟨agree_step (d2Op_local h) (agree_step (d1Op_local h) hA a1) a2, fun a p hap => ?_⟩
    have h1 : a ≠ d1 ∨ b.d.n1 * b.d.n2 * b.d.n3 ≤ p :=
      hap.imp_left fun h => by simp [DStep.writes] at h; exact h.1
    have h2 : a ≠ d2 ∨ b.d.n1 * b.d.n2 * b.d.n3 ≤ p :=
      hap.imp_left fun h => by simp [DStep.writes] at h; exact h.2
    rw [a2.2 a p h2, a1.2 a p h1]

/-- One loop of `spec_allDerivs`. -/
theorem pass_loop {b : LBox K} {ax : Axis} (h : BoxLinear b ax) (sts : List DStep)
    (hst : ∀ st ∈ sts, st.ok) (mem : Arrays K) (V : Nat → Nat → Nat → Nat → K)
    (hA : Agree b.d mem V) :
    Agree b.d (forLinesAlloc b.d ax g
        (fun i1 i2 s => sts.foldl (fun s st => stepBody b ax st i1 i2 s) s) mem)
      (sts.foldl (fun V st => vstep b ax st V) V) ∧
    ∀ a p, a ∉ sts.flatMap DStep.writes ∨ b.d.n1 * b.d.n2 * b.d.n3 ≤ p →
      forLinesAlloc b.d ax g (fun i1 i2 s => sts.foldl (fun s st => stepBody b ax st i1 i2 s) s) mem a p =
        mem a p := by
  have hact : ∀ sts : List DStep, (∀ st ∈ sts, st.ok) →
      LineAct b.d ax (fun m => sts.foldl (fun m st => stepG b ax st m) m)
        (fun i1 i2 s => sts.foldl (fun s st => stepBody b ax st i1 i2 s) s) := by
    intro sts
    induction sts using List.reverseRecOn with
    | nil =>
      intro _
      exact ⟨fun _ _ _ _ _ _ _ _ => rfl, fun _ _ _ _ _ _ _ _ => rfl, fun m m' h => h⟩
    | append_singleton sts st ih =>
      intro hh
      have h1 := ih fun st hst => hh st (List.mem_append_left _ hst)
      have h2 := stepBody_act h st (hh st (by simp))
      simpa only [List.foldl_append, List.foldl_cons, List.foldl_nil] using h1.comp h2
  induction sts using List.reverseRecOn with
  | nil =>
    have hD := forLinesAlloc_done (hact [] (by simp)) g mem
    have e : forLinesAlloc b.d ax g
        (fun i1 i2 s => [].foldl (fun s st => stepBody b ax st i1 i2 s) s) mem = mem :=
      done_unique hD ⟨fun _ _ _ _ _ _ _ _ => rfl, fun _ _ _ => rfl⟩
    rw [e]
    exact ⟨hA, fun _ _ _ => rfl⟩
  | append_singleton sts st ih =>
    have hs : ∀ st ∈ sts, st.ok := fun st h => hst st (List.mem_append_left _ h)
    have i1 := ih hs
    have i2 := stepG_loop g h st (hst st (by simp)) _ _ i1.1
    have e := fission g (hact sts hs) (stepBody_act h st (hst st (by simp))) mem
    simp only [List.foldl_append, List.foldl_cons, List.foldl_nil]
    rw [e]
    refine ⟨i2.1, fun a p hap => ?_⟩
    simp only [List.flatMap_append, List.flatMap_cons, List.flatMap_nil, List.append_nil,
      List.mem_append, not_or] at hap
    rw [i2.2 a p (hap.imp_left fun h => h.2), i1.2 a p (hap.imp_left fun h => h.1)]

theorem derivPass_eq (b : LBox K) (order : Int) (mem : Arrays K) (p : Axis × List DStep)
    (hf : b.fft p.1 = true → order = 123) :
    derivPass g b order mem p = .ok (forLinesAlloc b.d p.1 g
      (fun i1 i2 s => p.2.foldl (fun s st => stepBody b p.1 st i1 i2 s) s) mem) := by
  unfold derivPass stepBody
  by_cases h : b.fft p.1 = true
  · rw [if_pos h, if_pos (hf h)]; simp only [if_pos h]
  · rw [if_neg h]; simp only [if_neg h]

/-- All loops of `spec_allDerivs`. -/
theorem passes_loop {b : LBox K} (h : ∀ ax, BoxLinear b ax) (order : Int)
    (hf : ∀ ax, b.fft ax = true → order = 123) (ps : List (Axis × List DStep))
    (hst : ∀ p ∈ ps, ∀ st ∈ p.2, st.ok) (mem : Arrays K) (V : Nat → Nat → Nat → Nat → K)
    (hA : Agree b.d mem V) :
    ∃ mem', derivPasses g b order ps mem = .ok mem' ∧
      Agree b.d mem' (ps.foldl (fun V p => p.2.foldl (fun V st => vstep b p.1 st V) V) V) ∧
      ∀ a p, a ∉ ps.flatMap (fun q => q.2.flatMap DStep.writes) ∨ b.d.n1 * b.d.n2 * b.d.n3 ≤ p →
        mem' a p = mem a p := by
  induction ps generalizing mem V with
  | nil => exact ⟨mem, rfl, hA, fun _ _ _ => rfl⟩
  | cons q ps ih =>
    have h1 := pass_loop g (h q.1) q.2 (hst q (by simp)) mem V hA
    obtain ⟨mem', e, hA', hm⟩ := ih (fun p hp => hst p (by simp [hp])) _ _ h1.1
    refine ⟨mem', ?_, hA', fun a p hap => ?_⟩
    · unfold derivPasses
      rw [derivPass_eq g b order mem q (hf q.1), Res.bind_ok, e]
    · rw [List.flatMap_cons, List.mem_append, not_or] at hap
      rw [hm a p (hap.imp_left fun h => h.2), h1.2 a p (hap.imp_left fun h => h.1)]

/-- Multiplication by a matrix on the first `n` entries. -/
def IsMatOp (f : (Nat → K) → Nat → K) (n : Nat) : Prop :=
  ∃ A : Nat → Nat → K, ∀ u i, i < n → f u i = ∑ j ∈ range n, A i j * u j

theorem matOp_isMat (M : Nat → K) (n : Nat) : IsMatOp (matOp M n) n :=
  ⟨fun i j => M (n * i + j), fun _ _ _ => rfl⟩

theorem funOp_isMat {f : LineFun K} {n : Nat} (hf : Spec.LineLinear f n) : IsMatOp (funOp f n) n := by
  obtain ⟨A, hA⟩ := (lineLinear_iff f n).1 hf
  exact ⟨A, fun u i hi => hA _ u i hi⟩

theorem IsMatOp.comp {f h : (Nat → K) → Nat → K} {n : Nat} (hf : IsMatOp f n) (hh : IsMatOp h n) :
    IsMatOp (fun u => h (f u)) n := by
  obtain ⟨A, hA⟩ := hf
  obtain ⟨B, hB⟩ := hh
  refine ⟨fun i j => ∑ l ∈ range n, B i l * A l j, fun u i hi => ?_⟩
  beta_reduce
  rw [hB _ i hi]
  have e : ∀ l ∈ range n, B i l * f u l = ∑ j ∈ range n, B i l * A l j * u j := by
    intro l hl
    rw [hA u l (mem_range.1 hl), mul_sum]
    exact sum_congr rfl fun j _ => by ring
  rw [sum_congr rfl e, sum_comm]
  exact sum_congr rfl fun j _ => by rw [sum_mul]

theorem d1Op_isMat {b : LBox K} {ax : Axis} (h : BoxLinear b ax) : IsMatOp (d1Op b ax) (b.d.len ax) := by
  unfold d1Op; split
  · exact ((funOp_isMat h.coeffs).comp (funOp_isMat h.deriv)).comp (funOp_isMat h.eval)
  · exact matOp_isMat _ _

theorem coeffsOp_isMat {b : LBox K} {ax : Axis} (h : BoxLinear b ax) :
    IsMatOp (coeffsOp b ax) (b.d.len ax) := by
  unfold coeffsOp; split
  · exact funOp_isMat h.coeffs
  · exact matOp_isMat _ _

theorem evalOp_isMat {b : LBox K} {ax : Axis} (h : BoxLinear b ax) :
    IsMatOp (evalOp b ax) (b.d.len ax) := by
  unfold evalOp; split
  · exact funOp_isMat h.eval
  · exact matOp_isMat _ _

theorem sum_swap (A B : Nat → K) (F : Nat → Nat → K) (n m : Nat) :
    ∑ l ∈ range n, A l * ∑ k ∈ range m, B k * F l k = ∑ k ∈ range m, B k * ∑ l ∈ range n, A l * F l k := by
  simp only [mul_sum]
  rw [sum_comm]
  exact sum_congr rfl fun k _ => sum_congr rfl fun l _ => by ring

/-- Operations along different directions commute. -/
theorem along_comm {d : Dims} {ax ay : Axis} (hne : ax ≠ ay) {f h : (Nat → K) → Nat → K}
    (hf : IsMatOp f (d.len ax)) (hh : IsMatOp h (d.len ay)) (u : Nat → Nat → Nat → K) (i j k : Nat)
    (hb : Spec.inBox d i j k) :
    Spec.onLines ax f (Spec.onLines ay h u) i j k = Spec.onLines ay h (Spec.onLines ax f u) i j k := by
  obtain ⟨A, hA⟩ := hf
  obtain ⟨B, hB⟩ := hh
  obtain ⟨h1, h2, h3⟩ := hb
  cases ax <;> cases ay <;> first | exact absurd rfl hne | skip
  · change f (fun l => h (fun m => u l m k) j) i = h (fun m => f (fun l => u l m k) i) j
    rw [hA _ i h1, hB _ j h2]
    simp only [hB _ j h2, hA _ i h1]
    exact sum_swap _ _ (fun l m => u l m k) _ _
  · change f (fun l => h (fun m => u l j m) k) i = h (fun m => f (fun l => u l j m) i) k
    rw [hA _ i h1, hB _ k h3]
    simp only [hB _ k h3, hA _ i h1]
    exact sum_swap _ _ (fun l m => u l j m) _ _
  · change f (fun l => h (fun m => u m l k) i) j = h (fun m => f (fun l => u m l k) j) i
    rw [hA _ j h2, hB _ i h1]
    simp only [hB _ i h1, hA _ j h2]
    exact sum_swap _ _ (fun l m => u m l k) _ _
  · change f (fun l => h (fun m => u i l m) k) j = h (fun m => f (fun l => u i l m) j) k
    rw [hA _ j h2, hB _ k h3]
    simp only [hB _ k h3, hA _ j h2]
    exact sum_swap _ _ (fun l m => u i l m) _ _
  · change f (fun l => h (fun m => u m j l) i) k = h (fun m => f (fun l => u m j l) k) i
    rw [hA _ k h3, hB _ i h1]
    simp only [hB _ i h1, hA _ k h3]
    exact sum_swap _ _ (fun l m => u m j l) _ _
  · change f (fun l => h (fun m => u i m l) j) k = h (fun m => f (fun l => u i m l) k) j
    rw [hA _ k h3, hB _ j h2]
    simp only [hB _ j h2, hA _ k h3]
    exact sum_swap _ _ (fun l m => u i m l) _ _

/-- The ten arrays are different. -/
def DerivIds.distinct (a : DerivIds) : Prop :=
  [a.u, a.u1, a.u2, a.u3, a.u11, a.u12, a.u13, a.u22, a.u23, a.u33].Nodup

/-- What `spec_allDerivs` is to compute: first derivatives, pure second derivatives and mixed ones as
first derivatives of first derivatives. -/
def Spec.AllDerivs (d : Dims) (f1 f2 : Axis → (Nat → K) → Nat → K) (a : DerivIds) (mem mem' : Arrays K) :
    Prop :=
  (∀ i j k, Spec.inBox d i j k →
    let v := fun a => Spec.view d mem' a i j k
    let u := Spec.view d mem a.u
    v a.u1 = Spec.onLines .one (f1 .one) u i j k ∧ v a.u11 = Spec.onLines .one (f2 .one) u i j k ∧
    v a.u2 = Spec.onLines .two (f1 .two) u i j k ∧ v a.u22 = Spec.onLines .two (f2 .two) u i j k ∧
    v a.u3 = Spec.onLines .three (f1 .three) u i j k ∧ v a.u33 = Spec.onLines .three (f2 .three) u i j k ∧
    v a.u12 = Spec.onLines .one (f1 .one) (Spec.onLines .two (f1 .two) u) i j k ∧
    v a.u13 = Spec.onLines .one (f1 .one) (Spec.onLines .three (f1 .three) u) i j k ∧
    v a.u23 = Spec.onLines .two (f1 .two) (Spec.onLines .three (f1 .three) u) i j k) ∧
  ∀ q p, q ∉ [a.u1, a.u2, a.u3, a.u11, a.u12, a.u13, a.u22, a.u23, a.u33] ∨ d.n1 * d.n2 * d.n3 ≤ p →
    mem' q p = mem q p

/-- The orders that are implemented. -/
def derivOrders : List Int := [123, 132, 213, 231, 312, 321]

/-- **C72.** Every order of `Spectral_second_deriv_order` gives the first, second and mixed derivatives, with
matrices in all directions for all six orders and with transforms for the order 123. -/
theorem C72_allDerivs (b : LBox K) (h : ∀ ax, BoxLinear b ax) (order : Int) (ho : order ∈ derivOrders)
    (hf : ∀ ax, b.fft ax = true → order = 123) (a : DerivIds) (ha : a.distinct) (mem : Arrays K) :
    ∃ mem', specAllDerivs g b order a mem = .ok mem' ∧
      Spec.AllDerivs b.d (d1Op b) (d2Op b) a mem mem' := by
  have hA : Agree b.d mem (Spec.view b.d mem) := fun _ _ _ _ _ => rfl
  have c12 := fun u => along_comm (d := b.d) (ax := .one) (ay := .two) (by decide)
    (d1Op_isMat (h .one)) (d1Op_isMat (h .two)) u
  have c13 := fun u => along_comm (d := b.d) (ax := .one) (ay := .three) (by decide)
    (d1Op_isMat (h .one)) (d1Op_isMat (h .three)) u
  have c23 := fun u => along_comm (d := b.d) (ax := .two) (ay := .three) (by decide)
    (d1Op_isMat (h .two)) (d1Op_isMat (h .three)) u
  unfold DerivIds.distinct at ha
  obtain ⟨u, u1, u2, u3, u11, u12, u13, u22, u23, u33⟩ := a
  simp only [List.nodup_cons, List.mem_cons, not_or, List.not_mem_nil, not_false_iff, List.nodup_nil,
    and_true] at ha
  obtain ⟨⟨a1, a2, a3, a4, a5, a6, a7, a8, a9⟩, ⟨b2, b3, b4, b5, b6, b7, b8, b9⟩,
    ⟨c3, c4, c5, c6, c7, c8, c9⟩, ⟨d4, d5, d6, d7, d8, d9⟩, ⟨e5, e6, e7, e8, e9⟩, ⟨f6, f7, f8, f9⟩,
    ⟨g7, g8, g9⟩, ⟨h8, h9⟩, i9⟩ := ha
  simp only [derivOrders, List.mem_cons, List.not_mem_nil, or_false] at ho
  have key : ∀ ps, derivPlan ⟨u, u1, u2, u3, u11, u12, u13, u22, u23, u33⟩ order = .ok ps →
      (∀ p ∈ ps, ∀ st ∈ p.2, st.ok) →
      (∀ i j k, Spec.inBox b.d i j k →
        let V := ps.foldl (fun V p => p.2.foldl (fun V st => vstep b p.1 st V) V) (Spec.view b.d mem)
        let v := fun a => V a i j k
        let w := Spec.view b.d mem u
        v u1 = Spec.onLines .one (d1Op b .one) w i j k ∧ v u11 = Spec.onLines .one (d2Op b .one) w i j k ∧
        v u2 = Spec.onLines .two (d1Op b .two) w i j k ∧ v u22 = Spec.onLines .two (d2Op b .two) w i j k ∧
        v u3 = Spec.onLines .three (d1Op b .three) w i j k ∧
        v u33 = Spec.onLines .three (d2Op b .three) w i j k ∧
        v u12 = Spec.onLines .one (d1Op b .one) (Spec.onLines .two (d1Op b .two) w) i j k ∧
        v u13 = Spec.onLines .one (d1Op b .one) (Spec.onLines .three (d1Op b .three) w) i j k ∧
        v u23 = Spec.onLines .two (d1Op b .two) (Spec.onLines .three (d1Op b .three) w) i j k) →
      (∀ q, q ∉ [u1, u2, u3, u11, u12, u13, u22, u23, u33] →
        q ∉ ps.flatMap (fun q => q.2.flatMap DStep.writes)) →
      ∃ mem', specAllDerivs g b order ⟨u, u1, u2, u3, u11, u12, u13, u22, u23, u33⟩ mem = .ok mem' ∧
        Spec.AllDerivs b.d (d1Op b) (d2Op b) ⟨u, u1, u2, u3, u11, u12, u13, u22, u23, u33⟩ mem mem' := by
    intro ps hp hok hval hq
    obtain ⟨mem', e, hv, hm⟩ := passes_loop g h order hf ps hok mem _ hA
    refine ⟨mem', by unfold specAllDerivs; rw [hp, Res.bind_ok, e], ?_, ?_⟩
    · intro i j k hb
      simp only [hv _ i j k hb]
      exact hval i j k hb
    · intro q p hqp
      exact hm q p (hqp.imp_left (hq q))
  rcases ho with rfl | rfl | rfl | rfl | rfl | rfl
  all_goals
    refine key _ rfl ?_ ?_ ?_
    · simp only [List.mem_cons, List.not_mem_nil, or_false, forall_eq_or_imp, forall_eq, DStep.ok]
      simp [*]
    · intro i j k hb
      have hsymm : ∀ {x y : Nat}, ¬ x = y → ¬ y = x := fun h e => h e.symm
      have a1' := hsymm a1; have a2' := hsymm a2; have a3' := hsymm a3; have a4' := hsymm a4; have
      a5' := hsymm a5; have a6' := hsymm a6; have a7' := hsymm a7; have a8' := hsymm a8; have a9'
      := hsymm a9; have b2' := hsymm b2; have b3' := hsymm b3; have b4' := hsymm b4; have b5' :=
      hsymm b5; have b6' := hsymm b6; have b7' := hsymm b7; have b8' := hsymm b8; have b9' :=
      hsymm b9; have c3' := hsymm c3; have c4' := hsymm c4; have c5' := hsymm c5; have c6' :=
      hsymm c6; have c7' := hsymm c7; have c8' := hsymm c8; have c9' := hsymm c9; have d4' :=
      hsymm d4; have d5' := hsymm d5; have d6' := hsymm d6; have d7' := hsymm d7; have d8' :=
      hsymm d8; have d9' := hsymm d9; have e5' := hsymm e5; have e6' := hsymm e6; have e7' :=
      hsymm e7; have e8' := hsymm e8; have e9' := hsymm e9; have f6' := hsymm f6; have f7' :=
      hsymm f7; have f8' := hsymm f8; have f9' := hsymm f9; have g7' := hsymm g7; have g8' :=
      hsymm g8; have g9' := hsymm g9; have h8' := hsymm h8; have h9' := hsymm h9; have i9' :=
      hsymm i9
      have k12 := fun u => c12 u i j k hb
      have k13 := fun u => c13 u i j k hb
      have k23 := fun u => c23 u i j k hb
      clear key c12 c13 c23 hA hf h hb hsymm
      simp [vstep, *]
    · intro q hq
      simp only [List.mem_cons, List.not_mem_nil, or_false, not_or] at hq
      simp only [List.flatMap_cons, List.flatMap_nil, DStep.writes, List.mem_append, List.mem_cons,
        List.not_mem_nil, or_false, not_or]
      tauto

/-- **C72.** Without transforms the six orders give the same arrays. -/
theorem C72_order (b : LBox K) (h : ∀ ax, BoxLinear b ax) (hf : ∀ ax, b.fft ax = false) (o o' : Int)
    (ho : o ∈ derivOrders) (ho' : o' ∈ derivOrders) (a : DerivIds) (ha : a.distinct) (mem : Arrays K) :
    specAllDerivs g b o a mem = specAllDerivs g b o' a mem := by
  have hf' : ∀ (o : Int) ax, b.fft ax = true → o = 123 := fun o ax h => by rw [hf ax] at h; cases h
  obtain ⟨m, e, h1, h2⟩ := C72_allDerivs g b h o ho (hf' o) a ha mem
  obtain ⟨m', e', h1', h2'⟩ := C72_allDerivs g b h o' ho' (hf' o') a ha mem
  rw [e, e']
  congr 1
  funext q p
  by_cases hq : q ∉ [a.u1, a.u2, a.u3, a.u11, a.u12, a.u13, a.u22, a.u23, a.u33] ∨
      b.d.n1 * b.d.n2 * b.d.n3 ≤ p
  · rw [h2 q p hq, h2' q p hq]
  · rw [not_or, not_not, not_le] at hq
    obtain ⟨i, j, k, hb, rfl⟩ := idx_surj b.d p hq.2
    obtain ⟨t1, t2, t3, t4, t5, t6, t7, t8, t9⟩ := h1 i j k hb
    obtain ⟨s1, s2, s3, s4, s5, s6, s7, s8, s9⟩ := h1' i j k hb
    have hq1 := hq.1
    simp only [List.mem_cons, List.not_mem_nil, or_false] at hq1
    change Spec.view b.d m q i j k = Spec.view b.d m' q i j k
    rcases hq1 with rfl | rfl | rfl | rfl | rfl | rfl | rfl | rfl | rfl
    · exact t1.trans s1.symm
    · exact t3.trans s3.symm
    · exact t5.trans s5.symm
    · exact t2.trans s2.symm
    · exact t7.trans s7.symm
    · exact t8.trans s8.symm
    · exact t4.trans s4.symm
    · exact t9.trans s9.symm
    · exact t6.trans s6.symm

/-- **C72, what is refused.** Other orders stop the program, and so does every order but 123 if some
direction uses transforms. -/
theorem C72_abort (b : LBox K) (order : Int) (a : DerivIds) (mem : Arrays K)
    (h : order ∉ derivOrders ∨ (order ≠ 123 ∧ ∃ ax, b.fft ax = true)) :
    specAllDerivs g b order a mem = .abort := by
  unfold specAllDerivs
  by_cases ho : order ∈ derivOrders
  · obtain ⟨h1, ax, hax⟩ := h.resolve_left (not_not.2 ho)
    have key : ∀ ps : List (Axis × List DStep), (∃ p ∈ ps, p.1 = ax) → ∀ mem,
        derivPasses g b order ps mem = .abort := by
      intro ps
      induction ps with
      | nil => rintro ⟨p, hp, -⟩; simp at hp
      | cons q ps ih =>
        rintro ⟨p, hp, hpx⟩ mem
        unfold derivPasses derivPass
        by_cases hq : b.fft q.1 = true
        · rw [if_pos hq, if_neg h1]; rfl
        · rw [if_neg hq, Res.bind_ok]
          refine ih ⟨p, ?_, hpx⟩ _
          rcases List.mem_cons.1 hp with rfl | hp
          · rw [hpx] at hq; exact absurd hax hq
          · exact hp
    simp only [derivOrders, List.mem_cons, List.not_mem_nil, or_false] at ho
    rcases ho with rfl | rfl | rfl | rfl | rfl | rfl
    · exact absurd rfl h1
    all_goals
      refine key _ ?_ mem
      cases ax <;> simp
  · simp only [derivOrders, List.mem_cons, List.not_mem_nil, or_false, not_or] at ho
    obtain ⟨o1, o2, o3, o4, o5, o6⟩ := ho
    unfold derivPlan
    rw [if_neg o1, if_neg o2, if_neg o3, if_neg o4, if_neg o5, if_neg o6]
    rfl

/-- Example: values 0, 1, 2, 5 on 2 × 2 × 1 points, difference matrices; the order 231 gives the mixed
derivative (u(1,1)-u(0,1)) - (u(1,0)-u(0,0)). -/
example :
    let M : Nat → ℚ := fun p => if p = 0 ∨ p = 2 then -1 else 1
    let none : LineFun ℚ := fun out _ _ => out
    let b : LBox ℚ := ⟨⟨2, 2, 1⟩, fun _ => none, fun _ => none, fun _ => none, fun _ => false, fun _ => M,
      fun _ _ => 0, fun _ _ => 0, fun _ _ => 0, fun _ _ => 0⟩
    let mem : Arrays ℚ := fun _ p => if p = 3 then 5 else p
    let ids : DerivIds := ⟨0, 1, 2, 3, 4, 5, 6, 7, 8, 9⟩
    (match specAllDerivs (fun _ => (fun _ => 3, fun _ => 4, fun _ => 5)) b 231 ids mem with
      | .ok m => [(List.range 4).map (m 1), (List.range 4).map (m 2), (List.range 4).map (m 5)]
      | _ => []) = [[1, 1, 3, 3], [2, 4, 2, 4], [2, 2, 2, 2]] := by
  decide +kernel

end Sgrid

import Verif.Model.SphInt
import Verif.Model.Wigner
import Verif.Model.DoubleCover

/-!
# Modes of data on a sphere

src/physics/ModeComputer/ModeComputer.c. Doubles are real numbers. `ModeComputer_lmax` is not negative. All variables
are allocated. A data file is the list of its pieces from one label `iteration` to the next one; a piece has a time and
at least `ntheta*nphi` numbers. The text of the output files is not modelled, only the numbers in it. The header of the
data file (`n2`, `n3`, `gridtype`, `ntheta`, `nphi`) is given.
-/

namespace Sgrid
open Real

/-- The loops over `l` and `m` with the counter `i` (ModeComputer.c:95-98, 113-114; 345-348, 379-380; 391-393, 406-407). -/
def modeLoop {σ : Type} (lmax : Nat) (body : Nat → ℤ → ℤ → σ → σ) (s : σ) : Nat × σ :=
  upLoop 0 (lmax + 1) (fun l st => upLoop 0 (2 * l + 1) (fun q st => (st.1 + 1, body st.1 l ((q : ℤ) - l) st.2)) st) (0, s)

/-- The loops over the points of one hemisphere of directions, `j < n2/2` (ModeComputer.c:99-112, 349-378). -/
def halfLoop {σ : Type} (d : Dims) (body : Nat → Nat → σ → σ) (s : σ) : σ :=
  upLoop 0 d.n3 (fun k s => upLoop 0 (d.n2 / 2) (fun j s => body j k s) s) s

/-- What decides how the two parallel loops of copy_to_doubleCoveredPoints_SphericalDF run. -/
structure CopySched where
  ρ1 : Nat → Nat → ℝ
  ρ2 : Nat → Nat → ℝ
  s1 : List Nat
  s2 : List Nat

/-- copy_to_doubleCoveredPoints_SphericalDF for the variable `v`. -/
noncomputable def copyVar (d : Dims) (c : CopySched) (v : Nat) (mem : Arrays ℝ) : Res (Arrays ℝ) :=
  (copyToDoubleCovered d c.ρ1 c.ρ2 c.s1 c.s2 (mem v)).bind fun u => .ok (aset mem v u)

/-- `box->v[v][p] = x`. -/
def putVar (mem : Arrays ℝ) (v p : Nat) (x : ℝ) : Arrays ℝ := aset mem v (aset (mem v) p x)

/-- The indices of the variables of the module and of the coordinates. -/
structure ModeVars where
  X : Nat
  Y : Nat
  Z : Nat
  reVar : Nat
  imVar : Nat
  reMode : Nat
  imMode : Nat
  reY : Nat
  imY : Nat

/-- The inner part of the loops of ModeComputer_set_sYlm_inbox (ModeComputer.c:102-111). -/
noncomputable def sYlmBody (d : Dims) (v : ModeVars) (s : ℤ) (i : Nat) (l m : ℤ) (j k : Nat) (mem : Arrays ℝ) : Arrays ℝ :=
  let ijk := d.idx i j k
  let theta := mem v.Y ijk + π / (((1 + d.n2 % 2) * d.n2 : Nat) : ℝ)
  let phi := mem v.Z ijk
  let mem := putVar mem v.reY ijk (reSYlm l m s theta phi)
  putVar mem v.imY ijk (imSYlm l m s theta phi)

/-- ModeComputer_set_sYlm_inbox (ModeComputer.c:79-122): the number of modes and the memory. -/
noncomputable def setSYlm (d : Dims) (v : ModeVars) (s : ℤ) (lmax : Nat) (c1 c2 : CopySched) (mem : Arrays ℝ) :
    Res (Nat × Arrays ℝ) :=
  let st := modeLoop lmax (fun i l m mem => halfLoop d (fun j k mem => sYlmBody d v s i l m j k mem) mem) mem
  (copyVar d c1 v.reY st.2).bind fun mem => (copyVar d c2 v.imY mem).bind fun mem => .ok (st.1, mem)

/-- One piece of a data file: the time and the numbers in their order. -/
structure SphFrame where
  time : ℝ
  val : Nat → ℝ

/-- The header of a data file. -/
structure SphHeader where
  gridtype : CStr
  ntheta : Nat
  nphi : Nat

/-- The parameters `bitantsym`, `rotantsym`, `octantsym` of one variable. -/
structure SphSym where
  bitant : ℤ
  rotant : ℤ
  octant : ℤ

/-- `for(k=k0; k<k1; k++) for(j=j0; j<j1; j++) for(i=0; i<n1; i++) var[Index(i,j,k)] = sym * var[Index(i,fj(j),fk(k))]`. -/
def mirrorLoop (n1 k0 k1 j0 j1 : Nat) (dst src : Nat → Nat → Nat → Nat) (sym : ℤ) (u : Nat → ℝ) : Nat → ℝ :=
  upLoop k0 k1 (fun k u => upLoop j0 j1 (fun j u => upLoop 0 n1 (fun i u => aset u (dst i j k) (sym * u (src i j k))) u) u) u

/-- The numbers are put into the array, and the symmetries are used (ModeComputer.c:182-227). The counter is the number
of values read so far. -/
def readValues (d : Dims) (h : SphHeader) (y : SphSym) (f : SphFrame) (u : Nat → ℝ) : Nat → ℝ :=
  let st := upLoop 0 h.nphi (fun k st => upLoop 0 h.ntheta (fun j st =>
    let val := f.val st.1
    (st.1 + 1, upLoop 0 d.n1 (fun i u => aset u (d.idx i j k) val) st.2)) st) (0, u)
  let u := st.2
  let u := if h.gridtype = "bitant".toList ∨ h.gridtype = "quadrant".toList ∨ h.gridtype = "octant".toList then
    mirrorLoop d.n1 0 h.nphi h.ntheta (d.n2 / 2) d.idx (fun i j k => d.idx i (d.n2 / 2 - j - 1) k) y.bitant u else u
  let u := if h.gridtype = "octant".toList then
    mirrorLoop d.n1 h.nphi (d.n3 / 2) 0 (d.n2 / 2) d.idx (fun i j k => d.idx i j (d.n3 / 2 - k)) y.octant u else u
  if h.gridtype = "rotant".toList ∨ h.gridtype = "quadrant".toList ∨ h.gridtype = "octant".toList then
    mirrorLoop d.n1 (d.n3 / 2) d.n3 0 (d.n2 / 2) d.idx (fun i j k => d.idx i j (k - d.n3 / 2)) y.rotant u else u

/-- ModeComputer_read_spheredata (ModeComputer.c:161-233) when there is one more piece `f`. -/
noncomputable def readSphere (d : Dims) (h : SphHeader) (y : SphSym) (c : CopySched) (v : Nat) (f : SphFrame)
    (mem : Arrays ℝ) : Res (Arrays ℝ) :=
  copyVar d c v (aset mem v (readValues d h y f (mem v)))

/-- The inner part of the loops that set the integrands (ModeComputer.c:352-377). -/
noncomputable def integrandBody (d : Dims) (v : ModeVars) (i j k : Nat) (mem : Arrays ℝ) : Arrays ℝ :=
  let ijk := d.idx i j k
  let r := mem v.X ijk
  let RsYlm := mem v.reY ijk
  let IsYlm := mem v.imY ijk
  let R := mem v.reVar ijk
  let I := mem v.imVar ijk
  let mem := putVar mem v.reMode ijk (RsYlm * R + IsYlm * I)
  let mem := putVar mem v.imMode ijk (RsYlm * I - IsYlm * R)
  let mem := putVar mem v.reMode ijk (mem v.reMode ijk / (r * r))
  putVar mem v.imMode ijk (mem v.imMode ijk / (r * r))

/-- One line of an output file: the file is given by `l` and `m`. -/
structure ModeLine where
  l : ℤ
  m : ℤ
  time : ℝ
  re : ℝ
  im : ℝ

/-- The modes at one time (ModeComputer.c:344-407): the memory and the lines of the output in their order. -/
noncomputable def computeModes (g : Nat → (Nat → ℝ) × (Nat → ℝ) × (Nat → ℝ)) (b : LBox ℝ) (meth : Axis → IMethod)
    (lo hi : Axis → ℝ) (v : ModeVars) (lmax : Nat) (c1 c2 : CopySched) (time1 : ℝ) (mem : Arrays ℝ) :
    Res (Arrays ℝ × List ModeLine) :=
  let st := modeLoop lmax (fun i _ _ mem => halfLoop b.d (fun j k mem => integrandBody b.d v i j k mem) mem) mem
  (copyVar b.d c1 v.reMode st.2).bind fun mem =>
  (copyVar b.d c2 v.imMode mem).bind fun mem =>
  (sphIntegral2d g b meth lo hi v.X v.reMode v.reMode mem).bind fun mem =>
  (sphIntegral2d g b meth lo hi v.X v.imMode v.imMode mem).bind fun mem =>
  .ok (mem, (modeLoop lmax (fun i l m out => out ++ [⟨l, m, time1, mem v.reMode i, mem v.imMode i⟩]) []).2)

/-- What ModeComputer does after another: read a piece of the first or of the second file, or compute the modes. -/
inductive ModeStep
  | readRe (f : SphFrame)
  | readIm (f : SphFrame)
  | compute (time1 : ℝ)

/-- `while(t>t2 && ret!=EOF) ret=ModeComputer_read_spheredata(...)` (ModeComputer.c:324-329 and 332-337): the pieces that are
read and, unless the end of the file was met, the rest of the file and the last time. -/
noncomputable def catchUp (t : ℝ) : List SphFrame → ℝ → List SphFrame × Option (List SphFrame × ℝ)
  | [], t2 => if t > t2 then ([], none) else ([], some ([], t2))
  | f :: fs, t2 =>
    if t > t2 then
      let r := catchUp t fs f.time
      (f :: r.1, r.2)
    else ([], some (f :: fs, t2))

theorem catchUp_length (t : ℝ) (fs : List SphFrame) (t2 : ℝ) (L : List SphFrame) (fs' : List SphFrame) (t' : ℝ)
    (h : catchUp t fs t2 = (L, some (fs', t'))) :
    fs'.length ≤ fs.length ∧ (t > t2 → fs'.length < fs.length) ∧ (¬ t > t2 → t' = t2) := by
  induction fs generalizing t2 L with
  | nil =>
    unfold catchUp at h
    split at h
    · simp at h
    · rename_i hn
      simp only [Prod.mk.injEq, Option.some.injEq] at h
      obtain ⟨-, rfl, rfl⟩ := h
      exact ⟨le_rfl, fun h => absurd h hn, fun _ => rfl⟩
  | cons f fs ih =>
    unfold catchUp at h
    split at h
    · rename_i hp
      dsimp only at h
      simp only [Prod.mk.injEq] at h
      have := (ih f.time (catchUp t fs f.time).1 (Prod.ext rfl h.2)).1
      refine ⟨by simp only [List.length_cons]; omega, fun _ => by simp only [List.length_cons]; omega, fun h => absurd hp h⟩
    · rename_i hn
      simp only [Prod.mk.injEq, Option.some.injEq] at h
      obtain ⟨-, rfl, rfl⟩ := h
      exact ⟨le_rfl, fun h => absurd h hn, fun _ => rfl⟩

/-- `while(time1!=time2)` (ModeComputer.c:318-339): the steps and, unless the end of a file was met, the rests of the files and
the common time. -/
noncomputable def syncTimes (f1 f2 : List SphFrame) (t1 t2 : ℝ) :
    List ModeStep × Option (List SphFrame × List SphFrame × ℝ) :=
  open Classical in
  if ht : t1 = t2 then ([], some (f1, f2, t1))
  else
    match h2 : catchUp t1 f2 t2 with
    | (L2, none) => (L2.map .readIm, none)
    | (L2, some (f2', t2')) =>
      match h1 : catchUp t2' f1 t1 with
      | (L1, none) => (L2.map .readIm ++ L1.map .readRe, none)
      | (L1, some (f1', t1')) =>
        let r := syncTimes f1' f2' t1' t2'
        (L2.map .readIm ++ L1.map .readRe ++ r.1, r.2)
termination_by f1.length + f2.length
decreasing_by
  have a := catchUp_length _ _ _ _ _ _ h2
  have b := catchUp_length _ _ _ _ _ _ h1
  rcases lt_or_gt_of_ne ht with h | h
  · have e := a.2.2 (by exact not_lt.2 h.le)
    have := b.2.1 (by rw [e]; exact h)
    omega
  · have := a.2.1 h
    omega

theorem syncTimes_length (f1 f2 : List SphFrame) (t1 t2 : ℝ) (L : List ModeStep) (f1' f2' : List SphFrame) (t : ℝ)
    (h : syncTimes f1 f2 t1 t2 = (L, some (f1', f2', t))) : f1'.length ≤ f1.length ∧ f2'.length ≤ f2.length := by
  induction hn : f1.length + f2.length using Nat.strong_induction_on generalizing f1 f2 t1 t2 L with
  | _ n ih =>
    rw [syncTimes] at h
    split at h
    · simp only [Prod.mk.injEq, Option.some.injEq] at h
      obtain ⟨-, rfl, rfl, -⟩ := h
      exact ⟨le_rfl, le_rfl⟩
    · rename_i ht
      split at h
      · simp at h
      · rename_i L2 f2'' t2' h2
        split at h
        · simp at h
        · rename_i L1 f1'' t1' h1
          have a := catchUp_length _ _ _ _ _ _ h2
          have b := catchUp_length _ _ _ _ _ _ h1
          simp only [Prod.mk.injEq] at h
          have hlt : f1''.length + f2''.length < n := by
            rcases lt_or_gt_of_ne ht with h | h
            · have e := a.2.2 (by exact not_lt.2 h.le)
              have := b.2.1 (by rw [e]; exact h)
              omega
            · have := a.2.1 h
              omega
          have := ih _ hlt f1'' f2'' t1' t2' _ (Prod.ext rfl h.2) rfl
          omega

/-- The loop over the times (ModeComputer.c:309-408): the steps in their order. -/
noncomputable def modeSteps (f1 f2 : List SphFrame) : List ModeStep :=
  match f1 with
  | [] => []
  | a :: f1 =>
    match f2 with
    | [] => [.readRe a]
    | b :: f2 =>
      match h : syncTimes f1 f2 a.time b.time with
      | (L, none) => .readRe a :: .readIm b :: L
      | (L, some (f1', f2', t)) => .readRe a :: .readIm b :: L ++ (.compute t :: modeSteps f1' f2')
termination_by f1.length
decreasing_by
  have := syncTimes_length _ _ _ _ _ _ _ _ h
  simp only [List.length_cons]
  omega

/-- The parameters of a run. -/
structure ModeRun where
  h : SphHeader
  symRe : SphSym
  symIm : SphSym
  s : ℤ
  lmax : Nat
  sched : Nat → CopySched

/-- One step; `n` counts the calls of the parallel copy. -/
noncomputable def runStep (g : Nat → (Nat → ℝ) × (Nat → ℝ) × (Nat → ℝ)) (b : LBox ℝ) (meth : Axis → IMethod)
    (lo hi : Axis → ℝ) (v : ModeVars) (p : ModeRun) (n : Nat) (mem : Arrays ℝ) : ModeStep → Res (Arrays ℝ × List ModeLine)
  | .readRe f => (readSphere b.d p.h p.symRe (p.sched n) v.reVar f mem).bind fun mem => .ok (mem, [])
  | .readIm f => (readSphere b.d p.h p.symIm (p.sched n) v.imVar f mem).bind fun mem => .ok (mem, [])
  | .compute t => computeModes g b meth lo hi v p.lmax (p.sched n) (p.sched (n + 1)) t mem

/-- All steps. -/
noncomputable def runSteps (g : Nat → (Nat → ℝ) × (Nat → ℝ) × (Nat → ℝ)) (b : LBox ℝ) (meth : Axis → IMethod)
    (lo hi : Axis → ℝ) (v : ModeVars) (p : ModeRun) : List ModeStep → Nat → Arrays ℝ → Res (Arrays ℝ × List ModeLine)
  | [], _, mem => .ok (mem, [])
  | e :: es, n, mem => (runStep g b meth lo hi v p n mem e).bind fun r =>
    (runSteps g b meth lo hi v p es (n + 2) r.1).bind fun r' => .ok (r'.1, r.2 ++ r'.2)

/-- ModeComputer (ModeComputer.c:237-413): the lines that are appended to the output files. -/
noncomputable def modeComputer (g : Nat → (Nat → ℝ) × (Nat → ℝ) × (Nat → ℝ)) (b : LBox ℝ) (meth : Axis → IMethod)
    (lo hi : Axis → ℝ) (v : ModeVars) (p : ModeRun) (f1 f2 : List SphFrame) (mem : Arrays ℝ) : Res (List ModeLine) :=
  (setSYlm b.d v p.s p.lmax (p.sched 0) (p.sched 1) mem).bind fun r =>
    (runSteps g b meth lo hi v p (modeSteps f1 f2) 2 r.2).bind fun r => .ok r.2

end Sgrid

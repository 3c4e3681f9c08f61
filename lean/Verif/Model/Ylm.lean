import Mathlib.Analysis.SpecialFunctions.Pow.Real
import Mathlib.Analysis.SpecialFunctions.Trigonometric.Basic
import Verif.Model.Basic
import Verif.Model.Lines

/-!
# Associated Legendre functions and the filter that projects onto spherical harmonics

src/utility/s2kit: s2kit_primitive.c, s2kit_pmls.c, s2kit_makeweights.c, s2kit_naive_synthesis.c and YlmFilter.c.
Doubles are real numbers. The constants `PI` = 3.14159265358979 (s2kit_primitive.c:50) and 0.707106781186547
(s2kit_pmls.c:102, s2kit_primitive.c:309) stand for `π` and `1/√2`. The parts of the workspace do not overlap and are
separate arrays, and what is in them before the calls is `w`.
-/

namespace Sgrid
open Real

/-- `for(k=0; k<n%4; ++k) ...; for( ; k<n; k+=4) { ... four times ... }` (e.g. s2kit_primitive.c:136-145). -/
def unroll4 {σ : Type} (n : Nat) (body : Nat → σ → σ) (s : σ) : σ :=
  let s := upLoop 0 (n % 4) body s
  upLoop 0 (n / 4) (fun q s =>
    let k := n % 4 + 4 * q
    let s := body k s
    let s := body (k + 1) s
    let s := body (k + 2) s
    body (k + 3) s) s

/-- `vec_add` (s2kit_primitive.c:128-146). -/
def vecAdd (data1 data2 result : Nat → ℝ) (n : Nat) : Nat → ℝ :=
  unroll4 n (fun k r => aset r k (data1 k + data2 k)) result

/-- `vec_mul` (s2kit_primitive.c:153-172). -/
def vecMul (scalar : ℝ) (data1 result : Nat → ℝ) (n : Nat) : Nat → ℝ :=
  unroll4 n (fun k r => aset r k (scalar * data1 k)) result

/-- `vec_pt_mul` (s2kit_primitive.c:176-195). -/
def vecPtMul (data1 data2 result : Nat → ℝ) (n : Nat) : Nat → ℝ :=
  unroll4 n (fun k r => aset r k (data1 k * data2 k)) result

/-- `L2_an` (s2kit_primitive.c:61-68). -/
noncomputable def l2an (m l : Nat) : ℝ :=
  sqrt ((2 * l + 3) / (2 * l + 1) * ((l - m + 1) / (l + m + 1))) * ((2 * l + 1) / (l - m + 1))

/-- `L2_cn` (s2kit_primitive.c:71-84). -/
noncomputable def l2cn (m l : Nat) : ℝ :=
  if l ≠ 0 then
    -1 * sqrt ((2 * l + 3) / (2 * l - 1) * ((l - m + 1) / (l + m + 1)) * ((l - m) / (l + m))) * ((l + m) / (l - m + 1))
  else 0

/-- `L2_cn_inv` (s2kit_primitive.c:90-104). -/
noncomputable def l2cnInv (m l : Nat) : ℝ :=
  let dl : ℝ := l
  let dm : ℝ := m;
  -(1 + (1 - 2 * dm) / (dm + dl)) *
    sqrt ((-1 + 2 * dl) / (3 + 2 * dl) *
      ((dl + dl * dl + dm + 2 * dl * dm + dm * dm) / (dl + dl * dl - dm - 2 * dl * dm + dm * dm)))

/-- `L2_ancn` (s2kit_primitive.c:110-120). -/
noncomputable def l2ancn (m l : Nat) : ℝ :=
  let dl : ℝ := l
  let dm : ℝ := m
  sqrt (4 + (4 * dm * dm - 1) / (dl * dl - dm * dm))

/-- `ArcCosEvalPts` (s2kit_primitive.c:202-213). -/
noncomputable def arcCosEvalPts (n : Nat) (pts : Nat → ℝ) : Nat → ℝ :=
  let twoN : ℝ := (2 * n : Nat)
  upLoop 0 n (fun i p => aset p i ((2 * (i : ℝ) + 1) * π / twoN)) pts

/-- `EvalPts` (s2kit_primitive.c:217-228). -/
noncomputable def evalPts (n : Nat) (pts : Nat → ℝ) : Nat → ℝ :=
  let twoN : ℝ := (2 * n : Nat)
  upLoop 0 n (fun i p => aset p i (cos ((2 * (i : ℝ) + 1) * π / twoN))) pts

/-- `mcons` in `Pmm_L2` (s2kit_primitive.c:244-254); the state of the loop is `(mcons, id)`. -/
noncomputable def pmmCons (m : Nat) : ℝ :=
  let md : ℝ := m
  let mcons := (upLoop 0 m (fun _ s => (s.1 * sqrt ((md - s.2 / 2) / (md - s.2)), s.2 + 1)) (sqrt (md + 0.5), (0 : ℝ))).1
  let mcons := if m ≠ 0 then mcons * (2 : ℝ) ^ (-md / 2) else mcons
  if m % 2 ≠ 0 then mcons * -1 else mcons

/-- `Pmm_L2` (s2kit_primitive.c:236-259). -/
noncomputable def pmmL2 (m : Nat) (pts : Nat → ℝ) (n : Nat) (result : Nat → ℝ) : Nat → ℝ :=
  upLoop 0 n (fun i r => aset r i (pmmCons m * sin (pts i) ^ (m : ℝ))) result

/-- `memcpy(dst + off, src, sizeof(double) * n)`. -/
def memcpyAt (dst : Nat → ℝ) (off : Nat) (src : Nat → ℝ) (n : Nat) : Nat → ℝ :=
  upLoop 0 n (fun j d => aset d (off + j) (src j)) dst

/-- The first function: 0.707106781186547 or `Pmm_L2` (s2kit_pmls.c:100-104; s2kit_primitive.c:307-316). -/
noncomputable def firstP (m : Nat) (pts : Nat → ℝ) (n : Nat) (prev : Nat → ℝ) : Nat → ℝ :=
  if m = 0 then upLoop 0 n (fun i p => aset p i (1 / sqrt 2)) prev else pmmL2 m pts n prev

/-- `temp4` (s2kit_pmls.c:110-113; s2kit_primitive.c:323-326). -/
noncomputable def nextP (m i n : Nat) (x prev prevprev w : Nat → ℝ) : Nat → ℝ :=
  let temp1 := vecMul (l2cn m (m + i)) prevprev w n
  let temp2 := vecPtMul prev x w n
  let temp3 := vecMul (l2an m (m + i)) temp2 w n
  vecAdd temp3 temp1 w n

/-- `PmlTableGen` (s2kit_pmls.c:73-120); the state of the loop is `(storeplm, prev, prevprev)`, and in pass `i` the
pointer `storeplm` is `2*bw*(i+1)` places further. -/
noncomputable def pmlTableGen (bw m : Nat) (store w : Nat → ℝ) : Nat → ℝ :=
  let x := evalPts (2 * bw) w
  let args := arcCosEvalPts (2 * bw) w
  let prevprev := upLoop 0 (2 * bw) (fun i p => aset p i 0) w
  let prev := firstP m args (2 * bw) w
  let store := memcpyAt store 0 prev (2 * bw)
  (upLoop 0 (bw - m - 1) (fun i (s : (Nat → ℝ) × (Nat → ℝ) × (Nat → ℝ)) =>
    let temp4 := nextP m i (2 * bw) x s.2.1 s.2.2 w
    (memcpyAt s.1 (2 * bw * (i + 1)) temp4 (2 * bw), memcpyAt s.2.1 0 temp4 (2 * bw),
      memcpyAt s.2.2 0 s.2.1 (2 * bw))) (store, prev, prevprev)).1

/-- `P_eval` (s2kit_primitive.c:277-335); the state of the loop is `(result, prev, prevprev)`. -/
noncomputable def pEval (m : Nat) (coeffs args result w : Nat → ℝ) (bw : Nat) : Nat → ℝ :=
  let n := 2 * bw
  let x := evalPts n w
  let prevprev := upLoop 0 n (fun i p => aset p i 0) w
  let prev := firstP m args n w
  let result := upLoop 0 n (fun i r => aset r i (coeffs 0 * prev i)) result
  (upLoop 0 (bw - m - 1) (fun i (s : (Nat → ℝ) × (Nat → ℝ) × (Nat → ℝ)) =>
    let temp4 := nextP m i n x s.2.1 s.2.2 w
    let splat := coeffs (i + 1)
    (upLoop 0 n (fun j r => aset r j (r j + splat * temp4 j)) s.1, memcpyAt s.2.1 0 temp4 n,
      memcpyAt s.2.2 0 s.2.1 n)) (result, prev, prevprev)).1

/-- `makeweights` (s2kit_makeweights.c:74-98). -/
noncomputable def makeweights (bw : Nat) (weights : Nat → ℝ) : Nat → ℝ :=
  let fudge := π / (4 * bw : Nat)
  upLoop 0 (2 * bw) (fun j w =>
    let tmpsum := upLoop 0 bw (fun k s => s + 1 / (2 * k + 1 : Nat) * sin (((2 * j + 1) * (2 * k + 1) : Nat) * fudge)) (0 : ℝ)
    let tmpsum := tmpsum * sin ((2 * j + 1 : Nat) * fudge)
    let tmpsum := tmpsum * (2 / bw)
    let w := aset w j tmpsum
    aset w (j + 2 * bw) (tmpsum * sin ((2 * j + 1 : Nat) * fudge))) weights

/-- The sum with four results in `Naive_AnalysisX` (s2kit_naive_synthesis.c:119-132); `p` points to the row of the
table. -/
def dot4 (n : Nat) (wdata p : Nat → ℝ) : ℝ :=
  let r0 := upLoop 0 (n % 4) (fun j r => r + wdata j * p j) 0
  let r := upLoop 0 (n / 4) (fun q (r : ℝ × ℝ × ℝ × ℝ) =>
    let j := n % 4 + 4 * q
    (r.1 + wdata j * p j, r.2.1 + wdata (j + 1) * p (j + 1), r.2.2.1 + wdata (j + 2) * p (j + 2),
      r.2.2.2 + wdata (j + 3) * p (j + 3))) (r0, 0, 0, 0)
  r.1 + r.2.1 + r.2.2.1 + r.2.2.2

/-- `Naive_AnalysisX` (s2kit_naive_synthesis.c:83-149). -/
def naiveAnalysisX (data : Nat → ℝ) (bw m : Nat) (weights result plmtable workspace : Nat → ℝ) : Nat → ℝ :=
  let result := upLoop 0 (bw - m) (fun i r => aset r i 0) result
  let wdata := upLoop 0 (2 * bw) (fun i w => aset w i (data i * weights i)) workspace
  upLoop 0 (bw - m) (fun i r => aset r i (dot4 (2 * bw) wdata fun j => plmtable (2 * bw * i + j))) result

open Classical in
/-- `Naive_SynthesizeX` (s2kit_naive_synthesis.c:183-203). -/
noncomputable def naiveSynthesizeX (coeffs : Nat → ℝ) (bw m : Nat) (result plmtable : Nat → ℝ) : Nat → ℝ :=
  let result := upLoop 0 (2 * bw) (fun j r => aset r j 0) result
  upLoop 0 (bw - m) (fun i r =>
    let tmpcoef := coeffs i
    if tmpcoef ≠ 0 then upLoop 0 (2 * bw) (fun j r => aset r j (r j + tmpcoef * plmtable (2 * bw * i + j))) r else r) result

/-- The work on one line: analysis, removal, synthesis (YlmFilter.c:90-103). -/
noncomputable def ylmLine (bw m : Nat) (lmshift : Int) (weights plm samples coeffs workspace : Nat → ℝ) :
    (Nat → ℝ) × (Nat → ℝ) :=
  let coeffs := naiveAnalysisX samples bw m weights coeffs plm workspace
  let coeffs := upLoop ((bw : Int) - m + lmshift).toNat (bw - m) (fun l c => aset c l 0) coeffs
  (naiveSynthesizeX coeffs bw m samples plm, coeffs)

/-- The body of the loop over `k` (YlmFilter.c:73-125); the buffers `samples`, `coeffs`, `workspace` are new for every
`k`, the state of the loop over `i` is `(vc, samples, coeffs)`. -/
noncomputable def ylmMode (d : Dims) (bw : Nat) (lmshift : Int) (weights : Nat → ℝ) (plm : Nat → Nat → ℝ)
    (buf : (Nat → ℝ) × (Nat → ℝ) × (Nat → ℝ)) (k : Nat) (vc : Nat → ℝ) : Nat → ℝ :=
  let m := (k + 1) / 2
  if (m : Int) < bw + lmshift then
    (upLoop 0 d.n1 (fun i (s : (Nat → ℝ) × (Nat → ℝ) × (Nat → ℝ)) =>
      let samples := getMemline d .two s.1 s.2.1 i k
      let r := ylmLine bw m lmshift weights (plm m) samples s.2.2 buf.2.2
      (putMemline d .two s.1 r.1 i k, r.1, r.2)) (vc, buf.1, buf.2.1)).1
  else
    upLoop 0 d.n2 (fun j vc => upLoop 0 d.n1 (fun i vc => aset vc (d.idx i j k) 0) vc) vc

/-- The copy into the double covered region (YlmFilter.c:130-145). -/
def ylmCopy (d : Dims) (u : Nat → ℝ) : Nat → ℝ :=
  let u := upLoop 0 (d.n3 / 2) (fun k u => upLoop (d.n2 / 2) d.n2 (fun j u => upLoop 0 d.n1 (fun i u =>
    aset u (d.idx i j k) (u (d.idx i (d.n2 - j - 1) (k + d.n3 / 2)))) u) u) u
  upLoop (d.n3 / 2) d.n3 (fun k u => upLoop (d.n2 / 2) d.n2 (fun j u => upLoop 0 d.n1 (fun i u =>
    aset u (d.idx i j k) (u (d.idx i (d.n2 - j - 1) (k - d.n3 / 2)))) u) u) u

/-- What `malloc` returns: buffers of the transforms, of the loop over `k`, the tables, the weights and `workspace0`. -/
structure YlmBufs where
  g : Nat → (Nat → ℝ) × (Nat → ℝ) × (Nat → ℝ)
  buf : Nat → (Nat → ℝ) × (Nat → ℝ) × (Nat → ℝ)
  plm : Nat → Nat → ℝ
  weights : Nat → ℝ
  workspace0 : Nat → ℝ

/-- The work on one variable (YlmFilter.c:63-146), `t` is the variable `temp1`. -/
noncomputable def ylmVar (a : YlmBufs) (b : LBox ℝ) (lmshift : Int) (t v : Nat) (mem : Arrays ℝ) : Arrays ℝ :=
  let bw := b.d.n2 / 4
  let plm : Nat → Nat → ℝ := upLoop 0 bw (fun m p => aset p m (pmlTableGen bw m (a.plm m) a.workspace0)) a.plm
  let weights := makeweights bw a.weights
  let mem := specAnalysis1 a.g b .three v t mem
  let mem := aset mem t (upLoop 0 b.d.n3 (fun k vc => ylmMode b.d bw lmshift weights plm (a.buf k) k vc) (mem t))
  let mem := specSynthesis1 a.g b .three v t mem
  aset mem v (ylmCopy b.d (mem v))

/-- `Naive_YlmFilter_lmshift` (YlmFilter.c:16-147): the boxes in `bs`, which are all active boxes. The tables and
weights do not depend on the variable and are computed by `ylmVar`. -/
noncomputable def ylmFilter (a : YlmBufs) (box : Nat → LBox ℝ) (lmshift : Int) (t : Nat) (vars : List Nat) :
    List Nat → (Nat → Arrays ℝ) → Res (Nat → Arrays ℝ)
  | [], m => if lmshift > 0 then .abort else .ok m
  | b :: bs, m =>
    if lmshift > 0 then .abort
    else if (box b).d.n2 % 4 ≠ 0 then .abort
    else if (box b).d.n3 % 2 ≠ 0 then .abort
    else ylmFilter a box lmshift t vars bs
      (aset m b (vars.foldl (fun mb v => ylmVar a (box b) lmshift t v mb) (m b)))

end Sgrid

import Verif.Model.NrUtil

/-!
src/utility/NumericUtils/nrutil.c: f3tensor.  See Model/NrUtil for the pointers.
-/

namespace Sgrid

/-- A tensor: the pointers to pointers, the pointer to them that is returned, the pointers to numbers, and the size of the
block of numbers. -/
structure NrTensor where
  top : PtrBlock
  t : Int
  rows : PtrBlock
  size : Int

/-- `for(j=ncl+1;j<=nch;j++) t[i][j]=t[i][j-1]+ndep;` (nrutil.c:213, 217), where t[i] is ti. -/
def depLoop (rows : PtrBlock) (ti ncl nch ndep : Int) : Res PtrBlock :=
  forN (nch - ncl).toNat (fun k rows => (rows.load (ti + (ncl + 1 + k) - 1)).bind fun p =>
    rows.store (ti + (ncl + 1 + k)) (p + ndep)) rows

/-- The body of the loop over i (nrutil.c:214-218). -/
def tensorRow (t ncl nch ncol ndep : Int) (i : Int) (s : PtrBlock × PtrBlock) : Res (PtrBlock × PtrBlock) :=
  (s.1.load (t + i - 1)).bind fun p => (s.1.store (t + i) (p + ncol)).bind fun top =>
  (top.load (t + i - 1)).bind fun q => (s.2.load (q + ncl)).bind fun r =>
  (top.load (t + i)).bind fun q => (s.2.store (q + ncl) (r + ncol * ndep)).bind fun rows =>
  (depLoop rows q ncl nch ndep).bind fun rows => .ok (top, rows)

/-- f3tensor (nrutil.c:192-222). -/
def nrTensor (junk junk2 : Int → Int) (nrl nrh ncl nch ndl ndh : Int) : Res NrTensor :=
  let nrow := nrh - nrl + 1
  let ncol := nch - ncl + 1
  let ndep := ndh - ndl + 1
  (mallocPtrs (nrow + nrEnd) junk).bind fun top =>
  let t := 0 + nrEnd - nrl
  (mallocPtrs (nrow * ncol + nrEnd) junk2).bind fun rows =>
  (top.store (t + nrl) (0 + nrEnd - ncl)).bind fun top =>
  (mallocNums (nrow * ncol * ndep + nrEnd)).bind fun size =>
  (top.load (t + nrl)).bind fun q => (rows.store (q + ncl) (0 + nrEnd - ndl)).bind fun rows =>
  (depLoop rows q ncl nch ndep).bind fun rows =>
  (forN (nrh - nrl).toNat (fun k s => tensorRow t ncl nch ncol ndep (nrl + 1 + k) s) (top, rows)).bind fun s =>
  .ok ⟨s.1, t, s.2, size⟩

/-- The address of t[i][j][k] in the block of numbers, if t[i] and t[i][j] may be read. -/
def NrTensor.addr (a : NrTensor) (i j k : Int) : Res Int :=
  (a.top.load (a.t + i)).bind fun p => (a.rows.load (p + j)).bind fun q => .ok (q + k)

/-- The arguments of free in free_f3tensor (nrutil.c:288-295). -/
def freeTensorArgs (a : NrTensor) (nrl ncl ndl : Int) : Res (Int × Int × Int) :=
  (a.addr nrl ncl ndl).bind fun p => (a.top.load (a.t + nrl)).bind fun q =>
  .ok (p - nrEnd, q + ncl - nrEnd, a.t + nrl - nrEnd)

end Sgrid

import Verif.Model.Loop

/-!
src/utility/NumericUtils/nrutil.c: vectors, matrices and tensors whose indices start anywhere.  The copies of vector,
ivector, matrix and their free functions in src/utility/numerics/NumericUtils_shims.c:146-201 are the same.

A block from malloc has a number of elements, and a pointer into it is a number of elements from its start.  As on the
machines of today a pointer may be outside its block as long as it is not used, while C leaves this undefined.  malloc
succeeds if the number of elements is not negative.  long does not overflow.
-/

namespace Sgrid

/-- A block of pointers: their number, and where each one points to in the next block. -/
structure PtrBlock where
  size : Int
  val : Int → Int

/-- `*p = v` for a pointer p into the block. -/
def PtrBlock.store (b : PtrBlock) (p v : Int) : Res PtrBlock :=
  if 0 ≤ p ∧ p < b.size then .ok { b with val := fun q => if q = p then v else b.val q } else .ub

/-- `*p`. -/
def PtrBlock.load (b : PtrBlock) (p : Int) : Res Int := if 0 ≤ p ∧ p < b.size then .ok (b.val p) else .ub

/-- malloc of a block of pointers with arbitrary contents (nrerror if it fails). -/
def mallocPtrs (n : Int) (junk : Int → Int) : Res PtrBlock := if 0 ≤ n then .ok ⟨n, junk⟩ else .abort

/-- malloc of a block of numbers: its size. -/
def mallocNums (n : Int) : Res Int := if 0 ≤ n then .ok n else .abort

/-- NR_END (nrutil.c:13). -/
def nrEnd : Int := 1

/-- A vector: the size of its block, and the pointer that is returned. -/
structure NrVector where
  size : Int
  v : Int

/-- vector, ivector, cvector, lvector, dvector (nrutil.c:25-73). -/
def nrVector (nl nh : Int) : Res NrVector :=
  (mallocNums (nh - nl + 1 + nrEnd)).bind fun size => .ok ⟨size, 0 - nl + nrEnd⟩

/-- The argument of free in free_vector and the others (nrutil.c:219-253). -/
def freeVectorArg (v nl : Int) : Int := v + nl - nrEnd

/-- A matrix: the block of pointers, the pointer to it that is returned, and the size of the block of numbers. -/
structure NrMatrix where
  rows : PtrBlock
  m : Int
  size : Int

/-- `for(i=nrl+1;i<=nrh;i++) m[i]=m[i-1]+ncol;` (nrutil.c:93). -/
def rowLoop (rows : PtrBlock) (m nrl nrh ncol : Int) : Res PtrBlock :=
  forN (nrh - nrl).toNat (fun k rows => (rows.load (m + (nrl + 1 + k) - 1)).bind fun p =>
    rows.store (m + (nrl + 1 + k)) (p + ncol)) rows

/-- matrix, dmatrix, imatrix (nrutil.c:75-145). -/
def nrMatrix (junk : Int → Int) (nrl nrh ncl nch : Int) : Res NrMatrix :=
  let nrow := nrh - nrl + 1
  let ncol := nch - ncl + 1
  (mallocPtrs (nrow + nrEnd) junk).bind fun rows =>
  let m := 0 + nrEnd - nrl
  (mallocNums (nrow * ncol + nrEnd)).bind fun size =>
  (rows.store (m + nrl) 0).bind fun rows =>
  (rows.load (m + nrl)).bind fun p => (rows.store (m + nrl) (p + nrEnd)).bind fun rows =>
  (rows.load (m + nrl)).bind fun p => (rows.store (m + nrl) (p - ncl)).bind fun rows =>
  (rowLoop rows m nrl nrh ncol).bind fun rows => .ok ⟨rows, m, size⟩

/-- The address of m[i][j] in the block of numbers, if m[i] may be read. -/
def NrMatrix.addr (a : NrMatrix) (i j : Int) : Res Int := (a.rows.load (a.m + i)).bind fun p => .ok (p + j)

/-- The arguments of free in free_matrix (nrutil.c:255-260): one into each block. -/
def freeMatrixArgs (a : NrMatrix) (nrl ncl : Int) : Res (Int × Int) :=
  (a.addr nrl ncl).bind fun p => .ok (p - nrEnd, a.m + nrl - nrEnd)

/-- submatrix (nrutil.c:147-167): new pointers into the numbers of a. -/
def nrSubmatrix (junk : Int → Int) (a : NrMatrix) (oldrl oldrh oldcl newrl newcl : Int) : Res NrMatrix :=
  let nrow := oldrh - oldrl + 1
  let ncol := oldcl - newcl
  (mallocPtrs (nrow + nrEnd) junk).bind fun rows =>
  let m := 0 + nrEnd - newrl
  (forN (oldrh + 1 - oldrl).toNat (fun k rows => (a.rows.load (a.m + (oldrl + k))).bind fun p =>
    rows.store (m + (newrl + k)) (p + ncol)) rows).bind fun rows => .ok ⟨rows, m, a.size⟩

/-- convert_matrix (nrutil.c:169-190): pointers into the array `a` with `size` numbers. -/
def nrConvert (junk : Int → Int) (size nrl nrh ncl nch : Int) : Res NrMatrix :=
  let nrow := nrh - nrl + 1
  let ncol := nch - ncl + 1
  (mallocPtrs (nrow + nrEnd) junk).bind fun rows =>
  let m := 0 + nrEnd - nrl
  (rows.store (m + nrl) (0 - ncl)).bind fun rows =>
  (forN (nrow - 1).toNat (fun k rows => (rows.load (m + (nrl + 1 + k) - 1)).bind fun p =>
    rows.store (m + (nrl + 1 + k)) (p + ncol)) rows).bind fun rows => .ok ⟨rows, m, size⟩

end Sgrid

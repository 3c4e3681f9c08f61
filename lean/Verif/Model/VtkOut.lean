import Verif.Model.Loop
import Verif.Model.PureLoop

/-!
src/utility/output/VTK_out.c: the data in VTK files.

`D` are the doubles and `F` the floats of the machine.  Their bytes in memory, the conversion and the formats of fprintf
are parameters.  A file is the list of bytes that were written.  sizeof(char), sizeof(double), sizeof(float) are 1, 8, 4.
-/

namespace Sgrid

/-- What the machine does with numbers. -/
structure NumMachine (D F : Type) where
  /-- the bytes of a double at increasing addresses -/
  mem64 : D → List UInt8
  len64 : ∀ x, (mem64 x).length = 8
  /-- the bytes of a float -/
  mem32 : F → List UInt8
  len32 : ∀ x, (mem32 x).length = 4
  /-- (float) x -/
  toFloat : D → F
  /-- "%.16g" -/
  fmt16 : D → List UInt8
  /-- "%.7g" -/
  fmt7 : F → List UInt8
  /-- the machine is little endian (SGRID_return_BYTE_ORDER_LITTLE) -/
  little : Bool

variable {D F : Type}

/-- `x[k]` for the bytes of a number. -/
def byteAt (x : List UInt8) (k : Nat) : UInt8 := x.getD k 0

/-- c[0] = x[7]; … c[7] = x[0] (VTK_out.c:89-96). -/
def rev8 (x : List UInt8) : List UInt8 :=
  [byteAt x 7, byteAt x 6, byteAt x 5, byteAt x 4, byteAt x 3, byteAt x 2, byteAt x 1, byteAt x 0]

/-- c[0] = x[3]; … c[3] = x[0] (VTK_out.c:108-111). -/
def rev4 (x : List UInt8) : List UInt8 := [byteAt x 3, byteAt x 2, byteAt x 1, byteAt x 0]

/-- The tests at the start (VTK_out.c:35-40, 130-135): true if the code goes on. -/
def vtkArgsOk (dbl flt text binary : Bool) : Bool := !(!text && !binary) && !(text && binary) && !(dbl && flt)

/-- write_raw_vtk_data (VTK_out.c:28-119): the file with the new bytes. -/
def writeRawVtkData (M : NumMachine D F) (fp : List UInt8) (buffer : Nat → D) (n stride offset : Nat)
    (dbl flt text binary : Bool) : Res (List UInt8) :=
  if !vtkArgsOk dbl flt text binary then .abort
  else
    let fp := if text then
        (if dbl then upLoop 0 n (fun i fp => fp ++ M.fmt16 (buffer (stride * i + offset)) ++ [10]) fp
         else upLoop 0 n (fun i fp => fp ++ M.fmt7 (M.toFloat (buffer (stride * i + offset))) ++ [10]) fp)
      else fp
    if binary then
      if !M.little then
        let fp := if dbl then upLoop 0 n (fun i fp => fp ++ M.mem64 (buffer (stride * i + offset))) fp else fp
        let fp := if flt then upLoop 0 n (fun i fp => fp ++ M.mem32 (M.toFloat (buffer (stride * i + offset)))) fp else fp
        .ok fp
      else if dbl then
        .ok (upLoop 0 n (fun i fp => fp ++ rev8 (M.mem64 (buffer (stride * i + offset)))) fp)
      else if flt then
        .ok (upLoop 0 n (fun i fp => fp ++ rev4 (M.mem32 (M.toFloat (buffer (stride * i + offset))))) fp)
      else .abort
    else .ok fp

/-- write_raw_vtk_points (VTK_out.c:122-255).  For floats on a machine that is not little endian the variables are doubles, and
the first sizeof(float) bytes of them are written (lines 171-176). -/
def writeRawVtkPoints (M : NumMachine D F) (fp : List UInt8) (px py pz : Nat → D) (n stride offset : Nat)
    (dbl flt text binary : Bool) : Res (List UInt8) :=
  if !vtkArgsOk dbl flt text binary then .abort
  else
    let fp := if text then
        (if dbl then upLoop 0 n (fun i fp => fp ++ M.fmt16 (px (stride * i + offset)) ++ [32] ++
            M.fmt16 (py (stride * i + offset)) ++ [32] ++ M.fmt16 (pz (stride * i + offset)) ++ [10]) fp
         else upLoop 0 n (fun i fp => fp ++ M.fmt7 (M.toFloat (px (stride * i + offset))) ++ [32] ++
            M.fmt7 (M.toFloat (py (stride * i + offset))) ++ [32] ++
            M.fmt7 (M.toFloat (pz (stride * i + offset))) ++ [10]) fp)
      else fp
    if binary then
      if !M.little then
        let fp := if dbl then upLoop 0 n (fun i fp => fp ++ M.mem64 (px (stride * i + offset)) ++
          M.mem64 (py (stride * i + offset)) ++ M.mem64 (pz (stride * i + offset))) fp else fp
        let fp := if flt then upLoop 0 n (fun i fp => fp ++ (M.mem64 (px (stride * i + offset))).take 4 ++
          (M.mem64 (py (stride * i + offset))).take 4 ++ (M.mem64 (pz (stride * i + offset))).take 4) fp else fp
        .ok fp
      else if dbl then
        .ok (upLoop 0 n (fun i fp => fp ++ rev8 (M.mem64 (px (stride * i + offset))) ++
          rev8 (M.mem64 (py (stride * i + offset))) ++ rev8 (M.mem64 (pz (stride * i + offset)))) fp)
      else if flt then
        .ok (upLoop 0 n (fun i fp => fp ++ rev4 (M.mem32 (M.toFloat (px (stride * i + offset)))) ++
          rev4 (M.mem32 (M.toFloat (py (stride * i + offset)))) ++
          rev4 (M.mem32 (M.toFloat (pz (stride * i + offset))))) fp)
      else .abort
    else .ok fp

end Sgrid

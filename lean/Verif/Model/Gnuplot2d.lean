import Verif.Model.PureLoop

/-!
src/utility/output/gnuplot_out2d.c:9-82: the points of a plane.
-/

namespace Sgrid

/-- `Index(i,j,k)` (src/main/MemoryMan/sgrid_MemoryMan.h). -/
def planeIndex (n1 n2 i j k : Nat) : Nat := i + n1 * (j + n2 * k)

/-- The lines after the first one in write_plane (gnuplot_out2d.c:40-81): the index of the point of each line, or
`none` for an empty line.  Here imax, jmax and kmax are one more than in the code, where the loops run to `<= imax`.
The first line and the numbers printed at each point are left out. -/
def writePlane (n1 n2 n3 normal plane : Nat) : List (Option Nat) :=
  let (imin, imax) := if normal = 1 then (plane, plane + 1) else (0, n1)
  let (jmin, jmax) := if normal = 2 then (plane, plane + 1) else (0, n2)
  let (kmin, kmax) := if normal ≠ 1 ∧ normal ≠ 2 then (plane, plane + 1) else (0, n3)
  let out := upLoop kmin kmax (fun k out =>
    let out := upLoop jmin jmax (fun j out =>
      let out := upLoop imin imax (fun i out => out ++ [some (planeIndex n1 n2 i j k)]) out
      if normal = 3 then out ++ [none] else out) out
    if normal = 2 ∨ normal = 1 then out ++ [none] else out) []
  out ++ [none]

end Sgrid

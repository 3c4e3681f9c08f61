import Verif.Model.Gnuplot2d

/-!
src/utility/output/xgraph_out1d.c:8-97: the points of a line.
-/

namespace Sgrid

/-- The lines after the first one in write_line (xgraph_out1d.c:39-96): the index of the point of each line, or `none`
for an empty line.  `i0`, `j0` and `k0` are the results of find_ind_closest_to_X0, find_ind_closest_to_Y0 and
find_ind_closest_to_Z0 (findX, findY and findZ in Output.lean).  Here imax, jmax and kmax are one more than in the code.
The first line and the numbers printed at each point are left out. -/
def writeLine (n1 n2 n3 line i0 j0 k0 : Nat) : List (Option Nat) :=
  let (imin, imax) := if line = 1 then (0, n1) else (i0, i0 + 1)
  let (jmin, jmax) := if line = 1 then (j0, j0 + 1) else if line = 2 then (0, n2) else (j0, j0 + 1)
  let (kmin, kmax) := if line = 1 then (k0, k0 + 1) else if line = 2 then (k0, k0 + 1) else (0, n3)
  let out := upLoop kmin kmax (fun k out =>
    upLoop jmin jmax (fun j out =>
      upLoop imin imax (fun i out => out ++ [some (planeIndex n1 n2 i j k)]) out) out) []
  out ++ [none]

end Sgrid

import Verif.Model.Basic

/-!
Model of `src/main/main/tensors.c`: decoding of tensor index strings into component names
and reflection parities.
-/

namespace Sgrid

/-- Start value of a `for` loop in `tensorindexlist`: `0`, an outer loop variable (counted
from the left), or that variable plus one. -/
inductive TLo where
  | zero
  | var (m : Nat)
  | varSucc (m : Nat)

/-- Names of the coordinates used for an index (tensors.c:22-24). -/
inductive TCoord where
  | coord   -- "x","y","z", loop bound `< 3`
  | coord4  -- "t","x","y","z", loop bound `<= 3`
  | coord2  -- "1","2", loop bound `< 2`

/-- Which entry of `sym` is multiplied by -1 for an index value `i`:
`sym[3*n+i]`, `if(i>0) sym[3*n+i-1]`, or `if(i>0) sym[3*n+i]` (tensors.c:269-270). -/
inductive TSym where
  | plain
  | minusOne
  | noMinusOne

/-- One loop of a nest: start, coordinate table (fixes the bound) and parity update. -/
structure TLoop where
  lo : TLo
  coord : TCoord
  sym : TSym

/-- One `if(strcmp(tensorindices, ...) == 0 || ...) { for ... }` block. -/
structure TCase where
  keys : List String
  loops : List TLoop

def TCoord.names : TCoord → List Char
  | .coord => ['x', 'y', 'z']
  | .coord4 => ['t', 'x', 'y', 'z']
  | .coord2 => ['1', '2']

/-- `for(i=0; i<3; i++)` over 3d coordinates with `sym[3*n+i] *= -1`. -/
def l3 (lo : TLo) : TLoop := ⟨lo, .coord, .plain⟩
/-- `for(i=0; i<=3; i++)` over 4d coordinates with `if(i>0) sym[3*n+i-1] *= -1`. -/
def l4 (lo : TLo) : TLoop := ⟨lo, .coord4, .minusOne⟩
/-- `for(i=0; i<2; i++)` over 2d coordinates with `sym[3*n+i] *= -1`. -/
def l2 (lo : TLo) : TLoop := ⟨lo, .coord2, .plain⟩

/-- The blocks of `tensorindexlist` in source order, tensors.c:40-368. -/
def tensorCases : List TCase := [
  ⟨[""], []⟩,                                                              -- 41-44
  ⟨["i"], [l3 .zero]⟩,                                                     -- 47-53
  ⟨["ij"], [l3 .zero, l3 .zero]⟩,                                          -- 55-63
  ⟨["ij+ji", "(ij)"], [l3 .zero, l3 (.var 0)]⟩,                            -- 65-74
  ⟨["ij-ji", "[ij]"], [l3 .zero, l3 (.varSucc 0)]⟩,                        -- 76-85
  ⟨["ijk"], [l3 .zero, l3 .zero, l3 .zero]⟩,                               -- 87-97
  ⟨["ijk+ikj", "i(jk)"], [l3 .zero, l3 .zero, l3 (.var 1)]⟩,               -- 99-110
  ⟨["(ij)k", "ijk+jik"], [l3 .zero, l3 (.var 0), l3 .zero]⟩,               -- 112-123
  ⟨["ijk-jik", "[ij]k"], [l3 .zero, l3 (.varSucc 0), l3 .zero]⟩,           -- 125-136
  ⟨["ijkl"], [l3 .zero, l3 .zero, l3 .zero, l3 .zero]⟩,                    -- 138-151
  ⟨["ijkl+ijlk+jikl+jilk)", "(ij)(kl)"],
    [l3 .zero, l3 (.var 0), l3 .zero, l3 (.var 2)]⟩,                       -- 153-167
  ⟨["a"], [l4 .zero]⟩,                                                     -- 170-176
  ⟨["ab"], [l4 .zero, l4 .zero]⟩,                                          -- 178-186
  ⟨["ai"], [l4 .zero, l3 .zero]⟩,                                          -- 188-196
  ⟨["ab+ba", "(ab)"], [l4 .zero, l4 (.var 0)]⟩,                            -- 198-207
  ⟨["abc+acb", "a(bc)"], [l4 .zero, l4 .zero, l4 (.var 1)]⟩,               -- 209-220
  ⟨["aij+aji", "a(ij)"], [l4 .zero, l3 .zero, l3 (.var 1)]⟩,               -- 222-233
  ⟨["abc+bac", "(ab)c"], [l4 .zero, l4 (.var 0), l4 .zero]⟩,               -- 235-246
  ⟨["abi+bai", "(ab)i"], [l4 .zero, l4 (.var 0), l3 .zero]⟩,               -- 248-259
  ⟨["abij+abji+baij+baji)", "(ab)(ij)"],
    [⟨.zero, .coord4, .noMinusOne⟩, ⟨.var 0, .coord4, .noMinusOne⟩,
      l3 .zero, l3 (.var 2)]⟩,                                             -- 261-275
  ⟨["q"], [l2 .zero]⟩,                                                     -- 278-284
  ⟨["qr"], [l2 .zero, l2 .zero]⟩,                                          -- 286-294
  ⟨["qr+rq", "(qr)"], [l2 .zero, l2 (.var 0)]⟩,                            -- 296-305
  ⟨["qrs+rqs", "(qr)s"], [l2 .zero, l2 (.var 0), l2 .zero]⟩,               -- 307-318
  ⟨["qrst+qrts+rqst+rqts)", "(qr)(st)"],
    [l2 .zero, l2 (.var 0), l2 .zero, l2 (.var 2)]⟩,                       -- 320-335
  ⟨["iq"], [l3 .zero, l2 .zero]⟩,                                          -- 337-345
  ⟨["iqr"], [l3 .zero, l2 .zero, l2 .zero]⟩,                               -- 347-357
  ⟨["iqr+irq", "i(qr)"], [l3 .zero, l2 .zero, l2 (.var 1)]⟩ ]              -- 359-370

/-- Values taken by the loop variables of a nest, in the order of the loops. -/
def loopValues : List TLoop → List Nat → List (List Nat)
  | [], acc => [acc]
  | l :: ls, acc =>
    let lo := match l.lo with
      | .zero => 0
      | .var m => acc.getD m 0
      | .varSucc m => acc.getD m 0 + 1
    (List.range l.coord.names.length).flatMap fun i =>
      if lo ≤ i then loopValues ls (acc ++ [i]) else []

/-- `NINDEXLIST`, sgrid_main.h:169. -/
def nIndexList : Nat := 100

/-- `sym[k] *= -1`; writing behind the array is undefined behaviour. -/
def flipSym (sym : List Int) (k : Nat) : Res (List Int) :=
  if k < sym.length then .ok (sym.modify k (· * (-1))) else .ub

/-- The parity updates of one pass through the innermost loop body; `n` is the number of
the component. -/
def flipAll (n : Nat) : List TLoop → List Nat → List Int → Res (List Int)
  | l :: ls, i :: is, sym =>
    (match l.sym with
      | .plain => flipSym sym (3 * n + i)
      | .minusOne => if i > 0 then flipSym sym (3 * n + i - 1) else .ok sym
      | .noMinusOne => if i > 0 then flipSym sym (3 * n + i) else .ok sym).bind fun s =>
    flipAll n ls is s
  | _, _, sym => .ok sym

/-- The name printed by `sprintf(ilist[n++], "%s..", coord[i], ..)`. -/
def compName (ls : List TLoop) (is : List Nat) : CStr :=
  (ls.zip is).map fun p => p.1.coord.names.getD p.2 ' '

/-- One block: run through the nest, collecting component names and parities.
`ilist` has `NINDEXLIST` places. -/
def runNest (ls : List TLoop) : List (List Nat) → List CStr × List Int →
    Res (List CStr × List Int)
  | [], s => .ok s
  | is :: rest, s =>
    if s.1.length ≥ nIndexList then .ub
    else (flipAll s.1.length ls is s.2).bind fun sym =>
      runNest ls rest (s.1 ++ [compName ls is], sym)

/-- All blocks one after the other; a block runs if the string is one of its keys. -/
def runCases (t : CStr) : List TCase → List CStr × List Int → Res (List CStr × List Int)
  | [], s => .ok s
  | c :: cs, s =>
    (if c.keys.any (fun k => k.toList = t) then runNest c.loops (loopValues c.loops []) s
     else .ok s).bind fun s' => runCases t cs s'

/-- `tolower` in the C locale. -/
def toLowerC (c : Char) : Char :=
  if 'A'.val ≤ c.val ∧ c.val ≤ 'Z'.val then Char.ofNat (c.toNat + 32) else c

/-- `tensorindexlist`, tensors.c:18-389: component names and the array `sym`, whose entry
`3*n+d` is the parity of component `n` in direction `d`. Unknown strings abort. -/
def tensorIndexList (t : CStr) : Res (List CStr × List Int) :=
  (runCases (t.map toLowerC) tensorCases ([], List.replicate (3 * nIndexList) 1)).bind fun s =>
    if s.1 = [] then .abort else .ok s

end Sgrid

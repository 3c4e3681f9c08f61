import Verif.Model.VtkOut

/-!
C167: the data in VTK files.
-/

namespace Sgrid

variable {D F : Type}

namespace Spec

/-- The bytes of a double with the most significant one first. -/
def big64 (M : NumMachine D F) (x : D) : List UInt8 := if M.little then (M.mem64 x).reverse else M.mem64 x

/-- The bytes of a float with the most significant one first. -/
def big32 (M : NumMachine D F) (x : F) : List UInt8 := if M.little then (M.mem32 x).reverse else M.mem32 x

/-- How a number appears in a binary file. -/
def binaryNumber (M : NumMachine D F) (dbl : Bool) (x : D) : List UInt8 :=
  if dbl then big64 M x else big32 M (M.toFloat x)

/-- How a number appears in a text file. -/
def textNumber (M : NumMachine D F) (dbl : Bool) (x : D) : List UInt8 :=
  if dbl then M.fmt16 x else M.fmt7 (M.toFloat x)

end Spec

theorem rev8_eq {x : List UInt8} (h : x.length = 8) : rev8 x = x.reverse := by
  match x, h with
  | [_, _, _, _, _, _, _, _], _ => rfl

theorem rev4_eq {x : List UInt8} (h : x.length = 4) : rev4 x = x.reverse := by
  match x, h with
  | [_, _, _, _], _ => rfl

theorem upLoop_bytes (n : Nat) (f : Nat → List UInt8) (body : Nat → List UInt8 → List UInt8)
    (h : ∀ i fp, body i fp = fp ++ f i) (fp : List UInt8) : upLoop 0 n body fp = fp ++ (List.range n).flatMap f := by
  refine upLoop_inv (Nat.zero_le n) (fun m t => t = fp ++ (List.range m).flatMap f) (by simp) ?_
  intro j t _ _ ih
  rw [h, ih, List.range_succ, List.flatMap_append]
  simp

/-- C167: the numbers of a variable.  The code stops unless exactly one of text and binary is chosen, and not both of double
and float.  For text and for binary with a format the
file then gets the n numbers at offset, offset + stride, …, in this order, each one on a line of its own in a text file, and
with the most significant byte first in a binary file, whatever the machine. -/
theorem C167_data (M : NumMachine D F) (fp : List UInt8) (buffer : Nat → D) (n stride offset : Nat) (dbl flt : Bool) :
    (¬ (dbl = true ∧ flt = true) →
      writeRawVtkData M fp buffer n stride offset dbl flt true false =
        .ok (fp ++ (List.range n).flatMap fun i => Spec.textNumber M dbl (buffer (offset + stride * i)) ++ [10])) ∧
    (dbl = !flt → writeRawVtkData M fp buffer n stride offset dbl flt false true =
        .ok (fp ++ (List.range n).flatMap fun i => Spec.binaryNumber M dbl (buffer (offset + stride * i)))) ∧
    (∀ b, writeRawVtkData M fp buffer n stride offset dbl flt b b = .abort) ∧
    (∀ text binary, writeRawVtkData M fp buffer n stride offset true true text binary = .abort) := by
  refine ⟨fun h => ?_, fun h => ?_, fun b => ?_, fun t b => ?_⟩
  · have hok : vtkArgsOk dbl flt true false = true := by
      cases dbl <;> cases flt <;> simp_all [vtkArgsOk]
    unfold writeRawVtkData
    rw [hok]
    cases dbl
    · simp only [Bool.not_true, Bool.false_eq_true, if_false, if_true]
      rw [upLoop_bytes n (fun i => M.fmt7 (M.toFloat (buffer (stride * i + offset))) ++ [10]) _ (by simp)]
      simp [Spec.textNumber, Nat.add_comm]
    · simp only [Bool.not_true, Bool.false_eq_true, if_false, if_true]
      rw [upLoop_bytes n (fun i => M.fmt16 (buffer (stride * i + offset)) ++ [10]) _ (by simp)]
      simp [Spec.textNumber, Nat.add_comm]
  · subst h
    have hok : vtkArgsOk (!flt) flt false true = true := by cases flt <;> rfl
    unfold writeRawVtkData
    rw [hok]
    cases hl : M.little <;> cases flt <;>
      simp only [Bool.not_true, Bool.not_false, Bool.false_eq_true, if_false, if_true]
    · rw [upLoop_bytes n (fun i => M.mem64 (buffer (stride * i + offset))) _ (by simp)]
      simp [Spec.binaryNumber, Spec.big64, hl, Nat.add_comm]
    · rw [upLoop_bytes n (fun i => M.mem32 (M.toFloat (buffer (stride * i + offset)))) _ (by simp)]
      simp [Spec.binaryNumber, Spec.big32, hl, Nat.add_comm]
    · rw [upLoop_bytes n (fun i => rev8 (M.mem64 (buffer (stride * i + offset)))) _ (by simp)]
      simp [Spec.binaryNumber, Spec.big64, hl, Nat.add_comm, rev8_eq (M.len64 _)]
    · rw [upLoop_bytes n (fun i => rev4 (M.mem32 (M.toFloat (buffer (stride * i + offset))))) _ (by simp)]
      simp [Spec.binaryNumber, Spec.big32, hl, Nat.add_comm, rev4_eq (M.len32 _)]
  · cases b <;> rfl
  · cases t <;> cases b <;> rfl

/-- C167: the coordinates of the points, x, y, z for each point.  The same holds, except for binary floats on a machine that
is not little endian. -/
theorem C167_points (M : NumMachine D F) (fp : List UInt8) (px py pz : Nat → D) (n stride offset : Nat) (dbl flt : Bool) :
    (¬ (dbl = true ∧ flt = true) →
      writeRawVtkPoints M fp px py pz n stride offset dbl flt true false =
        .ok (fp ++ (List.range n).flatMap fun i => Spec.textNumber M dbl (px (offset + stride * i)) ++ [32] ++
          Spec.textNumber M dbl (py (offset + stride * i)) ++ [32] ++
          Spec.textNumber M dbl (pz (offset + stride * i)) ++ [10])) ∧
    (dbl = !flt → (M.little = true ∨ dbl = true) → writeRawVtkPoints M fp px py pz n stride offset dbl flt false true =
        .ok (fp ++ (List.range n).flatMap fun i => Spec.binaryNumber M dbl (px (offset + stride * i)) ++
          Spec.binaryNumber M dbl (py (offset + stride * i)) ++ Spec.binaryNumber M dbl (pz (offset + stride * i)))) ∧
    (∀ b, writeRawVtkPoints M fp px py pz n stride offset dbl flt b b = .abort) ∧
    (∀ text binary, writeRawVtkPoints M fp px py pz n stride offset true true text binary = .abort) := by
  refine ⟨fun h => ?_, fun h hL => ?_, fun b => ?_, fun t b => ?_⟩
  · have hok : vtkArgsOk dbl flt true false = true := by
      cases dbl <;> cases flt <;> simp_all [vtkArgsOk]
    unfold writeRawVtkPoints
    rw [hok]
    cases dbl
    · simp only [Bool.not_true, Bool.false_eq_true, if_false, if_true]
      rw [upLoop_bytes n (fun i => M.fmt7 (M.toFloat (px (stride * i + offset))) ++ [32] ++
        M.fmt7 (M.toFloat (py (stride * i + offset))) ++ [32] ++ M.fmt7 (M.toFloat (pz (stride * i + offset))) ++ [10]) _
        (by simp)]
      simp [Spec.textNumber, Nat.add_comm]
    · simp only [Bool.not_true, Bool.false_eq_true, if_false, if_true]
      rw [upLoop_bytes n (fun i => M.fmt16 (px (stride * i + offset)) ++ [32] ++
        M.fmt16 (py (stride * i + offset)) ++ [32] ++ M.fmt16 (pz (stride * i + offset)) ++ [10]) _ (by simp)]
      simp [Spec.textNumber, Nat.add_comm]
  · subst h
    have hok : vtkArgsOk (!flt) flt false true = true := by cases flt <;> rfl
    unfold writeRawVtkPoints
    rw [hok]
    cases hl : M.little <;> cases flt <;>
      simp only [Bool.not_true, Bool.not_false, Bool.false_eq_true, if_false, if_true]
    · rw [upLoop_bytes n (fun i => M.mem64 (px (stride * i + offset)) ++ M.mem64 (py (stride * i + offset)) ++
        M.mem64 (pz (stride * i + offset))) _ (by simp)]
      simp [Spec.binaryNumber, Spec.big64, hl, Nat.add_comm]
    · rw [hl] at hL; simp at hL
    · rw [upLoop_bytes n (fun i => rev8 (M.mem64 (px (stride * i + offset))) ++
        rev8 (M.mem64 (py (stride * i + offset))) ++ rev8 (M.mem64 (pz (stride * i + offset)))) _ (by simp)]
      simp [Spec.binaryNumber, Spec.big64, hl, Nat.add_comm, rev8_eq (M.len64 _)]
    · rw [upLoop_bytes n (fun i => rev4 (M.mem32 (M.toFloat (px (stride * i + offset)))) ++
        rev4 (M.mem32 (M.toFloat (py (stride * i + offset)))) ++ rev4 (M.mem32 (M.toFloat (pz (stride * i + offset))))) _
        (by simp)]
      simp [Spec.binaryNumber, Spec.big32, hl, Nat.add_comm, rev4_eq (M.len32 _)]
  · cases b <;> rfl
  · cases t <;> cases b <;> rfl

/-- C167, where the code is wrong: for binary floats on a big endian machine the points are the first halves of the doubles.
They are right only if these are the floats. -/
theorem C167_big_endian (M : NumMachine D F) (hM : M.little = false) (fp : List UInt8) (px py pz : Nat → D) (stride offset : Nat)
    (h : writeRawVtkPoints M fp px py pz 1 stride offset false true false true =
      .ok (fp ++ Spec.binaryNumber M false (px offset) ++ Spec.binaryNumber M false (py offset) ++
        Spec.binaryNumber M false (pz offset))) :
    (M.mem64 (px offset)).take 4 = M.mem32 (M.toFloat (px offset)) := by
  have e : writeRawVtkPoints M fp px py pz 1 stride offset false true false true =
      .ok (fp ++ (M.mem64 (px offset)).take 4 ++ (M.mem64 (py offset)).take 4 ++ (M.mem64 (pz offset)).take 4) := by
    unfold writeRawVtkPoints
    simp [vtkArgsOk, hM, upLoop]
  rw [e] at h
  injection h with h
  simp only [Spec.binaryNumber, Spec.big32, hM, Bool.false_eq_true, if_false, List.append_assoc, List.append_cancel_left_eq] at h
  exact (List.append_inj h (by rw [List.length_take, M.len64, M.len32]; rfl)).1

/-- C167: binary without double or float.  A little endian machine stops, and a big endian one writes nothing. -/
theorem C167_no_format (M : NumMachine D F) (fp : List UInt8) (px py pz : Nat → D) (n stride offset : Nat) :
    writeRawVtkData M fp px n stride offset false false false true = (if M.little then .abort else .ok fp) ∧
    writeRawVtkPoints M fp px py pz n stride offset false false false true = (if M.little then .abort else .ok fp) := by
  constructor
  · unfold writeRawVtkData
    cases M.little <;> simp [vtkArgsOk]
  · unfold writeRawVtkPoints
    cases M.little <;> simp [vtkArgsOk]

/-- A machine for the examples: numbers are bytes, and the bytes of a number x are x, x+1, …. -/
def exampleMachine (little : Bool) : NumMachine UInt8 UInt8 where
  mem64 x := [x, x + 1, x + 2, x + 3, x + 4, x + 5, x + 6, x + 7]
  len64 _ := rfl
  mem32 x := [x, x + 1, x + 2, x + 3]
  len32 _ := rfl
  toFloat x := x / 10
  fmt16 x := [x]
  fmt7 x := [x]
  little := little

/-- Two floats at offset 1 with stride 3 on a little endian machine. -/
example : writeRawVtkData (exampleMachine true) [7] (fun i => 10 * i.toUInt8) 2 3 1 false true false true =
    .ok [7, 4, 3, 2, 1, 7, 6, 5, 4] := by decide

/-- One point as floats on a big endian machine: the floats of 100, 110, 120 are 10, 11, 12, and the file
should contain 10, 11, 12, 13 for the first one. -/
example : writeRawVtkPoints (exampleMachine false) [] (fun _ => 100) (fun _ => 110) (fun _ => 120) 1 1 0 false true false true =
    .ok [100, 101, 102, 103, 110, 111, 112, 113, 120, 121, 122, 123] := by decide

end Sgrid

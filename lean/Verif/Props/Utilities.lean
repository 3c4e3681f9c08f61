import Verif.Model.Wolfio
import Mathlib.Data.List.TakeWhile
import Mathlib.Data.Nat.Bitwise
import Mathlib.Tactic.NormNum
import Mathlib.Tactic.Ring
import Verif.Model.Utilities

/-! C55, C56, C57, C75, C76: small utilities. -/

namespace Sgrid

/-! ## C57 -/

section
variable {K : Type} [LinearOrder K]

namespace Spec

/-- `m` is the smallest of the first `n` entries of `f` and `i` the first place where it occurs. -/
def FirstMin (f : Nat → K) (n : Nat) (m : K) (i : Nat) : Prop :=
  i < n ∧ f i = m ∧ (∀ j, j < n → m ≤ f j) ∧ ∀ j, j < i → m < f j

/-- `m` is the largest of the first `n` entries of `f` and `i` the first place where it occurs. -/
def FirstMax (f : Nat → K) (n : Nat) (m : K) (i : Nat) : Prop :=
  i < n ∧ f i = m ∧ (∀ j, j < n → f j ≤ m) ∧ ∀ j, j < i → f j < m

end Spec

/-- **C57.** min_in_1d_array returns the smallest entry and its first position. -/
theorem C57_min (f : Nat → K) (n : Nat) (hn : 0 < n) :
    Spec.FirstMin f n (minIn1d f n).1 (minIn1d f n).2 := by
  unfold minIn1d
  have h := upLoop_inv (show 1 ≤ n from hn) (body := fun i (s : K × Nat) => if f i < s.1 then (f i, i) else s)
    (s := (f 0, 0)) (fun k s => Spec.FirstMin f k s.1 s.2)
    ⟨by omega, rfl, fun j hj => by rw [show j = 0 by omega], fun j hj => by omega⟩ ?_
  · exact h
  · rintro k ⟨m, i⟩ _ _ ⟨h1, h2, h3, h4⟩
    simp only at h1 h2 h3 h4 ⊢
    by_cases h : f k < m
    · rw [if_pos h]
      refine ⟨by omega, rfl, fun j hj => ?_, fun j hj => lt_of_lt_of_le h (h3 j hj)⟩
      by_cases hjk : j = k
      · rw [hjk]
      · exact le_of_lt (lt_of_lt_of_le h (h3 j (by omega)))
    · rw [if_neg h]
      refine ⟨by simp only; omega, h2, fun j hj => ?_, h4⟩
      by_cases hjk : j = k
      · rw [hjk]; exact not_lt.1 h
      · exact h3 j (by omega)

/-- **C57.** max_in_1d_array returns the largest entry and its first position. -/
theorem C57_max (f : Nat → K) (n : Nat) (hn : 0 < n) :
    Spec.FirstMax f n (maxIn1d f n).1 (maxIn1d f n).2 :=
  C57_min (K := Kᵒᵈ) f n hn

/-- **C57.** Two arrays: the smallest entry of both, the number of the array (0 if both have it) and the
first position there. -/
theorem C57_min2 (f : Nat → Nat → K) (n : Nat → Nat) (h0 : 0 < n 0) (h1 : 0 < n 1) :
    let r := min2In1d (f 0) (n 0) (f 1) (n 1)
    r.2.1 < 2 ∧ Spec.FirstMin (f r.2.1) (n r.2.1) r.1 r.2.2 ∧
      (∀ a, a < 2 → ∀ j, j < n a → r.1 ≤ f a j) ∧ ∀ a, a < r.2.1 → ∀ j, j < n a → r.1 < f a j := by
  have m0 := C57_min (f 0) (n 0) h0
  have m1 := C57_min (f 1) (n 1) h1
  unfold min2In1d
  by_cases h : (minIn1d (f 1) (n 1)).1 < (minIn1d (f 0) (n 0)).1
  · simp only [if_pos h]
    refine ⟨by omega, m1, fun a ha j hj => ?_, fun a ha j hj => ?_⟩
    · obtain rfl | rfl : a = 0 ∨ a = 1 := by omega
      · exact le_of_lt (lt_of_lt_of_le h (m0.2.2.1 j hj))
      · exact m1.2.2.1 j hj
    · obtain rfl : a = 0 := by omega
      exact lt_of_lt_of_le h (m0.2.2.1 j hj)
  · simp only [if_neg h]
    refine ⟨by omega, m0, fun a ha j hj => ?_, fun a ha => by omega⟩
    obtain rfl | rfl : a = 0 ∨ a = 1 := by omega
    · exact m0.2.2.1 j hj
    · exact le_trans (not_lt.1 h) (m1.2.2.1 j hj)

/-- **C57.** Two arrays, largest entry. -/
theorem C57_max2 (f : Nat → Nat → K) (n : Nat → Nat) (h0 : 0 < n 0) (h1 : 0 < n 1) :
    let r := max2In1d (f 0) (n 0) (f 1) (n 1)
    r.2.1 < 2 ∧ Spec.FirstMax (f r.2.1) (n r.2.1) r.1 r.2.2 ∧
      (∀ a, a < 2 → ∀ j, j < n a → f a j ≤ r.1) ∧ ∀ a, a < r.2.1 → ∀ j, j < n a → f a j < r.1 :=
  C57_min2 (K := Kᵒᵈ) f n h0 h1

/-- **C57.** Three arrays: the smallest entry of all, in the first array that has it. -/
theorem C57_min3 (f : Nat → Nat → K) (n : Nat → Nat) (h : ∀ a, a < 3 → 0 < n a) :
    let r := min3In1d (f 0) (n 0) (f 1) (n 1) (f 2) (n 2)
    r.2.1 < 3 ∧ Spec.FirstMin (f r.2.1) (n r.2.1) r.1 r.2.2 ∧
      (∀ a, a < 3 → ∀ j, j < n a → r.1 ≤ f a j) ∧ ∀ a, a < r.2.1 → ∀ j, j < n a → r.1 < f a j := by
  have m0 := C57_min (f 0) (n 0) (h 0 (by omega))
  have m1 := C57_min (f 1) (n 1) (h 1 (by omega))
  have m2 := C57_min (f 2) (n 2) (h 2 (by omega))
  have hcase : ∀ a, a < 3 → a = 0 ∨ a = 1 ∨ a = 2 := by omega
  unfold min3In1d min2In1d
  by_cases h21 : (minIn1d (f 2) (n 2)).1 < (minIn1d (f 1) (n 1)).1
  · simp only [if_pos h21]
    by_cases h20 : (minIn1d (f 2) (n 2)).1 < (minIn1d (f 0) (n 0)).1
    · simp only [if_pos h20, if_true]
      refine ⟨by omega, m2, fun a ha j hj => ?_, fun a ha j hj => ?_⟩
      · rcases hcase a ha with rfl | rfl | rfl
        · exact le_of_lt (lt_of_lt_of_le h20 (m0.2.2.1 j hj))
        · exact le_of_lt (lt_of_lt_of_le h21 (m1.2.2.1 j hj))
        · exact m2.2.2.1 j hj
      · rcases hcase a (by omega) with rfl | rfl | rfl
        · exact lt_of_lt_of_le h20 (m0.2.2.1 j hj)
        · exact lt_of_lt_of_le h21 (m1.2.2.1 j hj)
        · omega
    · simp only [if_neg h20, if_true]
      have h01 := le_trans (not_lt.1 h20) (le_of_lt h21)
      refine ⟨by omega, m0, fun a ha j hj => ?_, fun a ha => by omega⟩
      rcases hcase a ha with rfl | rfl | rfl
      · exact m0.2.2.1 j hj
      · exact le_trans h01 (m1.2.2.1 j hj)
      · exact le_trans (not_lt.1 h20) (m2.2.2.1 j hj)
  · simp only [if_neg h21]
    by_cases h10 : (minIn1d (f 1) (n 1)).1 < (minIn1d (f 0) (n 0)).1
    · simp only [if_pos h10, zero_ne_one, if_false]
      refine ⟨by omega, m1, fun a ha j hj => ?_, fun a ha j hj => ?_⟩
      · rcases hcase a ha with rfl | rfl | rfl
        · exact le_of_lt (lt_of_lt_of_le h10 (m0.2.2.1 j hj))
        · exact m1.2.2.1 j hj
        · exact le_trans (not_lt.1 h21) (m2.2.2.1 j hj)
      · obtain rfl : a = 0 := by omega
        exact lt_of_lt_of_le h10 (m0.2.2.1 j hj)
    · simp only [if_neg h10, zero_ne_one, if_false]
      refine ⟨by omega, m0, fun a ha j hj => ?_, fun a ha => by omega⟩
      rcases hcase a ha with rfl | rfl | rfl
      · exact m0.2.2.1 j hj
      · exact le_trans (not_lt.1 h10) (m1.2.2.1 j hj)
      · exact le_trans (le_trans (not_lt.1 h10) (not_lt.1 h21)) (m2.2.2.1 j hj)

/-- **C57.** Three arrays, largest entry. -/
theorem C57_max3 (f : Nat → Nat → K) (n : Nat → Nat) (h : ∀ a, a < 3 → 0 < n a) :
    let r := max3In1d (f 0) (n 0) (f 1) (n 1) (f 2) (n 2)
    r.2.1 < 3 ∧ Spec.FirstMax (f r.2.1) (n r.2.1) r.1 r.2.2 ∧
      (∀ a, a < 3 → ∀ j, j < n a → f a j ≤ r.1) ∧ ∀ a, a < r.2.1 → ∀ j, j < n a → f a j < r.1 :=
  C57_min3 (K := Kᵒᵈ) f n h

end

/-- Example: the smallest entry 1 occurs twice in the second array. -/
example :
    let f : Nat → Nat → Int := fun a i => if a = 0 then 5 - i else if a = 1 then 4 - 3 * i * (3 - i) / 2 else i + 2
    min3In1d (f 0) 3 (f 1) 4 (f 2) 2 = (1, 1, 1) ∧ max3In1d (f 0) 3 (f 1) 4 (f 2) 2 = (5, 0, 0) := by
  decide +kernel

/-! ## C55 -/

theorem shiftCount_spec (n : Nat) (hn : n ≠ 0) : 2 ^ shiftCount n ≤ n ∧ n < 2 ^ (shiftCount n + 1) := by
  induction n using Nat.strong_induction_on with
  | _ n ih =>
    rw [shiftCount]
    by_cases h : n / 2 = 0
    · rw [dif_pos h]
      simp only [pow_zero, zero_add, pow_one]
      omega
    · rw [dif_neg h]
      obtain ⟨h1, h2⟩ := ih (n / 2) (by omega) h
      rw [pow_succ] at h2 ⊢
      rw [pow_succ (n := shiftCount (n / 2) + 1), pow_succ]
      omega

/-- **C55.** is_power_of_two returns 1 exactly for the powers of two, for every `int`. -/
theorem C55_power_of_two (N : Int) (h1 : -2 ^ 31 ≤ N) (h2 : N < 2 ^ 31) :
    (isPowerOfTwo N = 0 ∨ isPowerOfTwo N = 1) ∧ (isPowerOfTwo N = 1 ↔ ∃ k : Nat, N = 2 ^ k) := by
  refine ⟨by unfold isPowerOfTwo; simp only; split <;> simp, ?_⟩
  unfold isPowerOfTwo
  simp only
  by_cases hk : ∃ k : Nat, N = 2 ^ k
  · refine iff_of_true ?_ hk
    obtain ⟨k, hk⟩ := hk
    rw [if_pos]
    have hpos : (0 : Int) < 2 ^ k := by positivity
    have hmod : (N % 2 ^ 32).toNat = 2 ^ k := by
      rw [Int.emod_eq_of_lt (by omega) (by norm_num at h2 ⊢; omega), hk]
      have : ((2 : Int) ^ k) = ((2 ^ k : Nat) : Int) := by push_cast; rfl
      rw [this, Int.toNat_natCast]
    rw [hmod, hk]
    obtain ⟨a1, a2⟩ := shiftCount_spec (2 ^ k) (by positivity)
    have b1 := (Nat.pow_le_pow_iff_right (by omega : 1 < 2)).1 a1
    have b2 := (Nat.pow_lt_pow_iff_right (by omega : 1 < 2)).1 a2
    rw [show shiftCount (2 ^ k) = k by omega]
  · refine iff_of_false ?_ hk
    rw [if_neg fun h => hk ⟨_, h⟩]
    omega

example : (List.range 10).map (fun n : Nat => isPowerOfTwo n) = [0, 1, 1, 0, 1, 0, 0, 0, 1, 0] ∧
    isPowerOfTwo (-8) = 0 ∧ isPowerOfTwo (-2 ^ 31) = 0 ∧ isPowerOfTwo (2 ^ 30) = 1 := by
  decide +kernel

/-! ## C76 -/

/-- **C76.** finit returns 0 exactly for the bit patterns of infinities and NaNs: those whose eleven
exponent bits are all ones. -/
theorem C76_finit (b : BitVec 64) :
    finit b = if b.toNat / 2 ^ 52 % 2 ^ 11 = 2 ^ 11 - 1 then 0 else 1 := by
  have hmask : ∀ i, i < 64 → (0x800FFFFFFFFFFFFF#64).getLsbD i = !(decide (52 ≤ i ∧ i < 63)) := by
    decide +kernel
  have hones : ∀ i, i < 64 → (0xFFFFFFFFFFFFFFFF#64).getLsbD i = true := by decide +kernel
  have h1 : (b ||| 0x800FFFFFFFFFFFFF#64 = 0xFFFFFFFFFFFFFFFF#64) ↔
      ∀ i, i < 11 → b.toNat.testBit (52 + i) = true := by
    constructor
    · intro h i hi
      have := congrArg (fun x => x.getLsbD (52 + i)) h
      simp only [BitVec.getLsbD_or] at this
      rw [hmask _ (by omega), hones _ (by omega)] at this
      simpa [hi, BitVec.getLsbD, show 52 + i < 63 by omega] using this
    · intro h
      refine BitVec.eq_of_getLsbD_eq fun i hi => ?_
      rw [BitVec.getLsbD_or, hmask i hi, hones i hi]
      by_cases hc : 52 ≤ i ∧ i < 63
      · have := h (i - 52) (by omega)
        rw [show 52 + (i - 52) = i by omega] at this
        simp [BitVec.getLsbD, this]
      · simp [hc]
  have h2 : (b.toNat / 2 ^ 52 % 2 ^ 11 = 2 ^ 11 - 1) ↔
      ∀ i, i < 11 → b.toNat.testBit (52 + i) = true := by
    constructor
    · intro h i hi
      have := congrArg (fun x => x.testBit i) h
      simp only [Nat.testBit_mod_two_pow, Nat.testBit_div_two_pow, Nat.testBit_two_pow_sub_one] at this
      simpa [hi, Nat.add_comm] using this
    · intro h
      refine Nat.eq_of_testBit_eq fun i => ?_
      rw [Nat.testBit_mod_two_pow, Nat.testBit_div_two_pow, Nat.testBit_two_pow_sub_one]
      by_cases hi : i < 11
      · have := h i hi
        rw [Nat.add_comm] at this
        simp [hi, this]
      · simp [hi]
  unfold finit
  by_cases h : ∀ i, i < 11 → b.toNat.testBit (52 + i) = true
  · rw [if_pos (h1.2 h), if_pos (h2.2 h)]
  · rw [if_neg fun h' => h (h1.1 h'), if_neg fun h' => h (h2.1 h')]

/-- Example: 1.0, the largest double, infinity, minus infinity and two NaNs. -/
example : [0x3FF0000000000000#64, 0x7FEFFFFFFFFFFFFF#64, 0x7FF0000000000000#64, 0xFFF0000000000000#64,
    0x7FF8000000000000#64, 0xFFF0000000000001#64].map finit = [1, 1, 0, 0, 0, 0] := by
  decide +kernel

/-! ## C56 -/

namespace Spec

/-- The memory holds the string `s` with its terminating zero. -/
def Holds (m : Nat → Char) (s : CStr) : Prop :=
  (∀ c ∈ s, c ≠ Char.ofNat 0) ∧ (∀ i (h : i < s.length), m i = s[i]) ∧ m s.length = Char.ofNat 0

/-- `t` is `s` without leading and trailing white space. -/
def Trimmed (s t : CStr) : Prop :=
  (∃ a b, s = a ++ t ++ b ∧ (∀ c ∈ a, isSpace c = true) ∧ ∀ c ∈ b, isSpace c = true) ∧
  (∀ c, t.head? = some c → isSpace c = false) ∧ ∀ c, t.getLast? = some c → isSpace c = false

end Spec

theorem trimEnd_spec (m : Nat → Char) (n : Nat) :
    trimEnd m n ≤ n ∧ (∀ i, trimEnd m n ≤ i → i < n → isSpace (m i) = true) ∧
      (0 < trimEnd m n → isSpace (m (trimEnd m n - 1)) = false) := by
  induction n with
  | zero => exact ⟨le_refl _, fun i _ h => by omega, fun h => absurd h (lt_irrefl 0)⟩
  | succ n ih =>
    unfold trimEnd
    by_cases h : isSpace (m n) = true
    · rw [if_pos h]
      refine ⟨by omega, fun i h1 h2 => ?_, ih.2.2⟩
      by_cases hi : i = n
      · rw [hi]; exact h
      · exact ih.2.1 i h1 (by omega)
    · rw [if_neg h]
      exact ⟨le_refl _, fun i h1 h2 => by omega, fun _ => by simpa using h⟩

theorem firstNonSpace_spec (m : Nat → Char) (f k : Nat) :
    f ≤ firstNonSpace m f k ∧ firstNonSpace m f k ≤ f + k ∧
      (∀ i, f ≤ i → i < firstNonSpace m f k → isSpace (m i) = true) ∧
      (firstNonSpace m f k < f + k → isSpace (m (firstNonSpace m f k)) = false) := by
  induction k generalizing f with
  | zero => exact ⟨le_refl _, le_refl _, fun i h1 h2 => by simp only [firstNonSpace] at h2; omega,
      fun h => by simp only [firstNonSpace] at h; omega⟩
  | succ k ih =>
    unfold firstNonSpace
    by_cases h : isSpace (m f) = true
    · rw [if_pos h]
      obtain ⟨h1, h2, h3, h4⟩ := ih (f + 1)
      refine ⟨by omega, by omega, fun i hi1 hi2 => ?_, fun hl => h4 (by omega)⟩
      by_cases hi : i = f
      · rw [hi]; exact h
      · exact h3 i (by omega) hi2
    · rw [if_neg h]
      exact ⟨le_refl _, by omega, fun i h1 h2 => by omega, fun _ => by simpa using h⟩

theorem isSpace_nul : isSpace (Char.ofNat 0) = false := by decide

/-- **C56.** After trim_whitespace the memory holds the string without its leading and trailing white
space. -/
theorem C56_trim (m : Nat → Char) (s : CStr) (h : Spec.Holds m s) :
    ∃ t, Spec.Holds (trimWhitespace m s.length) t ∧ Spec.Trimmed s t := by
  obtain ⟨hnul, hm, hend⟩ := h
  obtain ⟨e1, e2, e3⟩ := trimEnd_spec m s.length
  generalize he : trimEnd m s.length = e at e1 e2 e3
  have hm' : ∀ i, i ≠ e → aset m e nulChar i = m i := fun i hi => aset_ne _ _ hi
  obtain ⟨-, f2, f3, f4⟩ := firstNonSpace_spec (aset m e nulChar) 0 e
  generalize hf : firstNonSpace (aset m e nulChar) 0 e = f at f2 f3 f4
  rw [Nat.zero_add] at f2 f4
  have hslice : ∀ i, i < e → m i = s.getD i nulChar := by
    intro i hi
    rw [hm i (by omega)]
    simp [show i < s.length by omega]
  refine ⟨(s.take e).drop f, ⟨?_, ?_, ?_⟩, ⟨s.take f, s.drop e, ?_, ?_, ?_⟩, ?_, ?_⟩
  · intro c hc
    exact hnul c (List.mem_of_mem_take (List.mem_of_mem_drop hc))
  · intro i hi
    rw [List.length_drop, List.length_take, min_eq_left e1] at hi
    unfold trimWhitespace
    simp only [he, hf]
    rw [List.getElem_drop, List.getElem_take, ← hm (f + i) (by omega), ← hm' (f + i) (by omega)]
    by_cases hf0 : f ≠ 0
    · rw [if_pos hf0]
      have := upLoop_inv (Nat.zero_le (e - f + 1))
        (body := fun i (str : Nat → Char) => aset str i (str (i + f))) (s := aset m e nulChar)
        (fun k str => (∀ j, j < k → str j = aset m e nulChar (j + f)) ∧
          ∀ j, k ≤ j → str j = aset m e nulChar j)
        ⟨fun j hj => by omega, fun _ _ => rfl⟩
        (by
          intro k str _ hk ⟨g1, g2⟩
          refine ⟨fun j hj => ?_, fun j hj => ?_⟩
          · by_cases hjk : j = k
            · subst hjk
              rw [aset_self, g2 _ (by omega)]
            · rw [aset_ne _ _ hjk, g1 j (by omega)]
          · rw [aset_ne _ _ (by omega), g2 j (by omega)])
      rw [this.1 i (by omega), Nat.add_comm]
    · rw [if_neg hf0]
      rw [show f + i = i by omega]
  · rw [List.length_drop, List.length_take, min_eq_left e1]
    unfold trimWhitespace
    simp only [he, hf]
    by_cases hf0 : f ≠ 0
    · rw [if_pos hf0]
      have := upLoop_inv (Nat.zero_le (e - f + 1))
        (body := fun i (str : Nat → Char) => aset str i (str (i + f))) (s := aset m e nulChar)
        (fun k str => (∀ j, j < k → str j = aset m e nulChar (j + f)) ∧
          ∀ j, k ≤ j → str j = aset m e nulChar j)
        ⟨fun j hj => by omega, fun _ _ => rfl⟩
        (by
          intro k str _ hk ⟨g1, g2⟩
          refine ⟨fun j hj => ?_, fun j hj => ?_⟩
          · by_cases hjk : j = k
            · subst hjk
              rw [aset_self, g2 _ (by omega)]
            · rw [aset_ne _ _ hjk, g1 j (by omega)]
          · rw [aset_ne _ _ (by omega), g2 j (by omega)])
      rw [this.1 (e - f) (by omega), show e - f + f = e by omega, aset_self]
      rfl
    · rw [if_neg hf0, show e - f = e by omega, aset_self]
      rfl
  · have : s.take f = (s.take e).take f := by rw [List.take_take, min_eq_left f2]
    rw [this, List.take_append_drop, List.take_append_drop]
  · intro c hc
    obtain ⟨i, hi, rfl⟩ := List.mem_iff_getElem.1 hc
    rw [List.length_take] at hi
    rw [List.getElem_take, ← hm i (by omega), ← hm' i (by omega)]
    exact f3 i (by omega) (by omega)
  · intro c hc
    obtain ⟨i, hi, rfl⟩ := List.mem_iff_getElem.1 hc
    rw [List.length_drop] at hi
    rw [List.getElem_drop, ← hm (e + i) (by omega)]
    exact e2 (e + i) (by omega) (by omega)
  · intro c hc
    rw [List.head?_eq_getElem?, List.getElem?_drop, List.getElem?_take] at hc
    by_cases hfe : f + 0 < e
    · rw [if_pos hfe, List.getElem?_eq_getElem (by omega), Option.some.injEq] at hc
      rw [← hc, ← hm (f + 0) (by omega), ← hm' (f + 0) (by omega)]
      exact f4 (by omega)
    · rw [if_neg hfe] at hc
      cases hc
  · intro c hc
    rw [List.getLast?_eq_getElem?, List.length_drop, List.length_take, min_eq_left e1,
      List.getElem?_drop, List.getElem?_take] at hc
    by_cases hfe : f < e
    · rw [if_pos (by omega), List.getElem?_eq_getElem (by omega), Option.some.injEq] at hc
      rw [← hc, ← hm _ (by omega), show f + (e - f - 1) = e - 1 by omega]
      exact e3 (by omega)
    · by_cases h0 : f + (e - f - 1) < e
      · omega
      · rw [if_neg h0] at hc
        cases hc

/-- The trimmed string is unique. -/
theorem Spec.Trimmed.unique {s t t' : CStr} (h : Spec.Trimmed s t) (h' : Spec.Trimmed s t') : t = t' := by
  have key : ∀ {s t : CStr}, Spec.Trimmed s t →
      t = ((s.dropWhile isSpace).reverse.dropWhile isSpace).reverse := by
    intro s t ⟨⟨a, b, hs, ha, hb⟩, hh, hl⟩
    subst hs
    have h1 : (a ++ t ++ b).dropWhile isSpace = (t ++ b).dropWhile isSpace := by
      rw [List.append_assoc, List.dropWhile_append_of_pos ha]
    rw [h1]
    cases t with
    | nil =>
      have : b.dropWhile isSpace = [] := List.dropWhile_eq_nil_iff.2 hb
      simp [this]
    | cons c t =>
      have hc : isSpace c = false := hh c rfl
      have h2 : (c :: t ++ b).dropWhile isSpace = c :: t ++ b := by
        rw [List.cons_append, List.dropWhile_cons_of_neg (by simp [hc])]
      rw [h2, List.reverse_append, List.dropWhile_append_of_pos (by simpa using hb)]
      have h3 : (c :: t).reverse.dropWhile isSpace = (c :: t).reverse := by
        cases hr : (c :: t).reverse with
        | nil => simp at hr
        | cons x xs =>
          have hx : (c :: t).getLast? = some x := by
            rw [← List.head?_reverse, hr]
            rfl
          rw [List.dropWhile_cons_of_neg (by simp [hl x hx])]
      rw [h3, List.reverse_reverse]
  rw [key h, key h']

/-- `trimStr` is the trimmed string. -/
theorem trimStr_spec (s : CStr) (h : ∀ c ∈ s, c ≠ Char.ofNat 0) : Spec.Trimmed s (trimStr s) := by
  obtain ⟨t, ⟨h1, h2, h3⟩, ht⟩ := C56_trim (fun i => s.getD i nulChar) s
    ⟨h, fun i hi => by simp [hi], by simp [nulChar]⟩
  have hlen : t.length ≤ s.length := by
    obtain ⟨⟨a, b, hs, -⟩, -⟩ := ht
    rw [hs]
    simp only [List.length_append]
    omega
  have : trimStr s = t := by
    unfold trimStr
    simp only
    generalize trimWhitespace (fun i => s.getD i nulChar) s.length = w at h2 h3
    have e : (List.range s.length).map w =
        t ++ ((List.range s.length).map w).drop t.length := by
      conv_lhs => rw [← List.take_append_drop t.length ((List.range s.length).map w)]
      congr 1
      refine List.ext_getElem (by simp [hlen]) fun i g1 g2 => ?_
      rw [List.getElem_take, List.getElem_map, List.getElem_range, h2 i g2]
    rw [e, List.takeWhile_append_of_pos fun c hc => by simpa [nulChar] using h1 c hc]
    have : (((List.range s.length).map w).drop t.length).takeWhile (· != nulChar) = [] := by
      cases hd : ((List.range s.length).map w).drop t.length with
      | nil => rfl
      | cons x xs =>
        have hx : (((List.range s.length).map w).drop t.length)[0]? = some x := by rw [hd]; rfl
        rw [List.getElem?_drop, List.getElem?_map, Nat.add_zero] at hx
        cases hr : (List.range s.length)[t.length]? with
        | none => rw [hr] at hx; cases hx
        | some y =>
          rw [hr] at hx
          have hy : y = t.length := by
            obtain ⟨hlt, hy⟩ := List.getElem?_eq_some_iff.1 hr
            rw [List.getElem_range] at hy
            exact hy.symm
          subst hy
          have : x = nulChar := by
            have := Option.some.inj hx
            rw [← this, h3]
            rfl
          rw [this]
          simp
    rw [this, List.append_nil]
  rw [this]
  exact ht

/-- Example for trim_whitespace. -/
example : trimStr " \t a b\n".toList = "a b".toList ∧ trimStr "  ".toList = [] := by decide +kernel

/-- The words of a string: pieces without the separator `d`, with separators between and around them. -/
inductive Spec.Words (d : Char) : CStr → List CStr → Prop
  | none (s : CStr) (h : ∀ c ∈ s, c = d) : Spec.Words d s []
  | cons (gap w rest : CStr) (ws : List CStr) (hg : ∀ c ∈ gap, c = d) (hw : w ≠ []) (hd : d ∉ w)
      (hr : ∀ c, rest.head? = some c → c = d) (h : Spec.Words d rest ws) :
      Spec.Words d (gap ++ w ++ rest) (w :: ws)

theorem takeWhile_ne (d : Char) (s : CStr) : d ∉ s.takeWhile (· != d) := by
  intro h
  have := List.mem_takeWhile_imp h
  simp at this

theorem mem_takeWhile_eq (d : Char) (s : CStr) (c : Char) (h : c ∈ s.takeWhile (· == d)) : c = d := by
  have := List.mem_takeWhile_imp h
  simpa using this

theorem dropWhile_head_false {p : Char → Bool} {s t : CStr} {c : Char} (h : s.dropWhile p = c :: t) :
    p c = false := by
  induction s with
  | nil => cases h
  | cons x s ih =>
    by_cases hx : p x = true
    · rw [List.dropWhile_cons_of_pos hx] at h
      exact ih h
    · rw [List.dropWhile_cons_of_neg hx] at h
      cases h
      simpa using hx

/-- What a call of `strtok_r` splits off. -/
theorem strtok_some {d : Char} {s tok rest : CStr} (h : strtok d s = some (tok, rest)) :
    tok ≠ [] ∧ d ∉ tok ∧ ∃ gap, (∀ c ∈ gap, c = d) ∧ (s = gap ++ tok ∧ rest = [] ∨ s = gap ++ tok ++ d :: rest) := by
  unfold strtok at h
  cases hd : s.dropWhile (· == d) with
  | nil => rw [hd] at h; cases h
  | cons c t =>
    rw [hd] at h
    simp only [Option.some.injEq, Prod.mk.injEq] at h
    obtain ⟨rfl, rfl⟩ := h
    have hc := dropWhile_head_false hd
    refine ⟨?_, takeWhile_ne d _, s.takeWhile (· == d), fun x hx => mem_takeWhile_eq d s x hx, ?_⟩
    · rw [List.takeWhile_cons_of_pos (by simpa using hc)]
      simp
    · have hs : s = s.takeWhile (· == d) ++ (c :: t) := by rw [← hd, List.takeWhile_append_dropWhile]
      have ht : c :: t = (c :: t).takeWhile (· != d) ++ (c :: t).dropWhile (· != d) :=
        (List.takeWhile_append_dropWhile).symm
      cases hr : (c :: t).dropWhile (· != d) with
      | nil =>
        left
        rw [hr, List.append_nil] at ht
        refine ⟨?_, by simp⟩
        rw [← ht]
        exact hs
      | cons x r =>
        right
        have hx := dropWhile_head_false hr
        have hxd : x = d := by simpa using hx
        rw [hr, hxd] at ht
        rw [List.tail_cons, List.append_assoc, ← ht]
        exact hs

theorem strtok_none {d : Char} {s : CStr} (h : strtok d s = none) : ∀ c ∈ s, c = d := by
  unfold strtok at h
  cases hd : s.dropWhile (· == d) with
  | nil => simpa using List.dropWhile_eq_nil_iff.1 hd
  | cons c t => rw [hd] at h; cases h

/-- A separator in front does not change the words. -/
theorem Spec.Words.gap {d : Char} {s : CStr} {ws : List CStr} (h : Spec.Words d s ws) :
    Spec.Words d (d :: s) ws := by
  cases h with
  | none _ h => exact .none _ fun c hc => (List.mem_cons.1 hc).elim id (h c)
  | cons gap w rest ws hg hw hd hr h =>
    exact .cons (d :: gap) w rest ws (fun c hc => (List.mem_cons.1 hc).elim id (hg c)) hw hd hr h

/-- **C56.** construct_argv gives the words between blanks. -/
theorem C56_argv (s : CStr) : Spec.Words ' ' s (constructArgv s) := by
  induction hn : s.length using Nat.strong_induction_on generalizing s with
  | _ n ih =>
    rw [constructArgv]
    split
    · rename_i h
      exact .none s (strtok_none h)
    · rename_i tok rest h
      have hrest := ih rest.length (by have := strtok_shorter h; omega) rest rfl
      obtain ⟨h1, h2, gap, hg, ⟨rfl, hr⟩ | rfl⟩ := strtok_some h
      · rw [← List.append_nil (gap ++ tok)]
        rw [hr] at hrest ⊢
        exact .cons gap tok [] _ hg h1 h2 (by simp) hrest
      · exact .cons gap tok (' ' :: rest) _ hg h1 h2 (fun c hc => by simpa using hc.symm) hrest.gap

/-- The words of a string are determined by the string. -/
theorem Spec.Words.unique {d : Char} {s : CStr} {ws ws' : List CStr} (h : Spec.Words d s ws)
    (h' : Spec.Words d s ws') : ws = ws' := by
  have key : ∀ {s : CStr} {ws : List CStr}, Spec.Words d s ws →
      (s.dropWhile (· == d) = [] → ws = []) ∧
      (∀ c t, s.dropWhile (· == d) = c :: t → ∃ ws', ws = (c :: t).takeWhile (· != d) :: ws' ∧
        Spec.Words d ((c :: t).dropWhile (· != d)) ws') := by
    intro s ws h
    cases h with
    | none _ h =>
      have : s.dropWhile (· == d) = [] := List.dropWhile_eq_nil_iff.2 (by simpa using h)
      exact ⟨fun _ => rfl, fun c t hc => by rw [this] at hc; cases hc⟩
    | cons gap w rest ws hg hw hd hr h =>
      have e : (gap ++ w ++ rest).dropWhile (· == d) = w ++ rest := by
        rw [List.append_assoc, List.dropWhile_append_of_pos (by simpa using hg)]
        cases w with
        | nil => exact absurd rfl hw
        | cons x w =>
          rw [List.cons_append, List.dropWhile_cons_of_neg]
          simp only [beq_iff_eq]
          rintro rfl
          exact hd List.mem_cons_self
      have hwd : ∀ c ∈ w, (c != d) = true := by
        intro c hc
        simp only [bne_iff_ne, ne_eq]
        rintro rfl
        exact hd hc
      have t1 : (w ++ rest).takeWhile (· != d) = w := by
        rw [List.takeWhile_append_of_pos hwd]
        cases rest with
        | nil => simp
        | cons x r => simp [hr x rfl]
      have t2 : (w ++ rest).dropWhile (· != d) = rest := by
        rw [List.dropWhile_append_of_pos hwd]
        cases rest with
        | nil => simp
        | cons x r => simp [hr x rfl]
      rw [e]
      refine ⟨fun h0 => ?_, fun c t hc => ?_⟩
      · simp only [List.append_eq_nil_iff] at h0
        exact absurd h0.1 hw
      · rw [← hc, t1, t2]
        exact ⟨ws, rfl, h⟩
  induction hn : s.length using Nat.strong_induction_on generalizing s ws ws' with
  | _ n ih =>
    cases hd : s.dropWhile (· == d) with
    | nil => rw [(key h).1 hd, (key h').1 hd]
    | cons c t =>
      obtain ⟨v, rfl, hv⟩ := (key h).2 c t hd
      obtain ⟨v', rfl, hv'⟩ := (key h').2 c t hd
      have hlen : ((c :: t).dropWhile (· != d)).length < n := by
        have hc := dropWhile_head_false hd
        have h1 : (s.dropWhile (· == d)).length ≤ s.length := (List.dropWhile_sublist _).length_le
        rw [List.dropWhile_cons_of_pos (by simpa using hc)]
        have h2 : (t.dropWhile (· != d)).length ≤ t.length := (List.dropWhile_sublist _).length_le
        rw [hd, List.length_cons] at h1
        omega
      rw [ih _ hlen hv hv' rfl]

/-- Example for construct_argv. -/
example : constructArgv "  cp -pr  a b ".toList = ["cp".toList, "-pr".toList, "a".toList, "b".toList] := by
  decide +kernel

/-! ## C56: splitting at '=' -/

theorem copyBefore_spec (str : Nat → Char) (len : Nat) (before : Nat → Char) (i : Nat) (hi : i ≤ len + 1) :
    let r := copyBefore str before len i
    i ≤ r.2 ∧ r.2 ≤ len + 1 ∧ (∀ k, i ≤ k → k < r.2 → str k ≠ '=' ∧ r.1 k = str k) ∧
      (∀ k, k < i → r.1 k = before k) ∧ (r.2 ≤ len → str r.2 = '=') := by
  induction hn : len + 1 - i generalizing i before with
  | zero =>
    rw [copyBefore, if_neg (by omega)]
    exact ⟨le_refl _, hi, fun k h1 h2 => by simp only at h2; omega, fun k _ => rfl,
      fun h => by simp only at h; omega⟩
  | succ n ih =>
    rw [copyBefore]
    by_cases h : i ≤ len ∧ str i ≠ '='
    · rw [if_pos h]
      obtain ⟨a1, a2, a3, a4, a5⟩ := ih (aset before i (str i)) (i + 1) (by omega) (by omega)
      refine ⟨by omega, a2, fun k h1 h2 => ?_, fun k hk => ?_, a5⟩
      · by_cases hk : k = i
        · subst hk
          exact ⟨h.2, by rw [a4 _ (Nat.lt_succ_self _), aset_self]⟩
        · exact a3 k (by omega) h2
      · rw [a4 k (by omega), aset_ne _ _ (by omega)]
    · rw [if_neg h]
      refine ⟨le_refl _, hi, fun k h1 h2 => by simp only at h2; omega, fun k _ => rfl, fun hle => ?_⟩
      by_contra hne
      exact h ⟨hle, hne⟩

/-- **C56.** extrstr_before_after_EQ splits a string at the first `=` and returns its position. -/
theorem C56_split (m : Nat → Char) (a b : CStr) (h : Spec.Holds m (a ++ '=' :: b)) (ha : '=' ∉ a)
    (before after : Nat → Char) :
    let r := extrstrBeforeAfterEQ m (a ++ '=' :: b).length before after
    Spec.Holds r.1 a ∧ Spec.Holds r.2.1 b ∧ r.2.2 = a.length := by
  obtain ⟨h0, h1, h2⟩ := h
  have hl : (a ++ '=' :: b).length = a.length + 1 + b.length := by
    rw [List.length_append, List.length_cons]; omega
  have hEQ : m a.length = '=' := by rw [h1 _ (by omega)]; simp
  have hA : ∀ k (hk : k < a.length), m k = a[k] := by
    intro k hk
    rw [h1 k (by omega), List.getElem_append_left hk]
  have hB : ∀ k (hk : k < b.length), m (a.length + 1 + k) = b[k] := by
    intro k hk
    rw [h1 _ (by omega), List.getElem_append_right (by omega)]
    simp [show a.length + 1 + k - a.length = k + 1 by omega]
  rw [hl] at h2 ⊢
  clear h1
  generalize hlen : a.length + 1 + b.length = len at *
  obtain ⟨-, c2, c3, -, c5⟩ := copyBefore_spec m len (aset before 0 nulChar) 0 (by omega)
  unfold extrstrBeforeAfterEQ
  simp only
  generalize copyBefore m (aset before 0 nulChar) len 0 = r at *
  obtain ⟨bef, e⟩ := r
  simp only at c2 c3 c5 ⊢
  have he : e = a.length := by
    rcases lt_trichotomy e a.length with hlt | heq | hgt
    · have := c5 (by omega)
      rw [hA e hlt] at this
      exact absurd (this ▸ List.getElem_mem hlt) ha
    · exact heq
    · exact absurd hEQ (c3 a.length (by omega) hgt).1
  subst he
  refine ⟨⟨fun c hc => h0 c (List.mem_append_left _ hc), fun i hi => ?_, by rw [aset_self]; rfl⟩,
    ⟨fun c hc => h0 c (List.mem_append_right _ (List.mem_cons_of_mem _ hc)), ?_⟩, by rw [if_neg (by omega)]⟩
  · rw [aset_ne _ _ (by omega), (c3 i (by omega) hi).2, hA i hi]
  · have hloop := upLoop_inv (show a.length + 1 ≤ len + 1 by omega)
      (body := fun i (t : Nat → Char) => aset t (i - a.length - 1) (m i)) (s := aset after 0 nulChar)
      (fun k t => ∀ j, a.length + 1 + j < k → t j = m (a.length + 1 + j)) (fun j hj => by omega) ?_
    · refine ⟨fun i hi => ?_, ?_⟩
      · rw [hloop i (by omega), hB i hi]
      · rw [hloop b.length (by omega), hlen, h2]
    · intro k t hk1 hk2 ht j hj
      by_cases hjk : a.length + 1 + j = k
      · rw [show k - a.length - 1 = j by omega, aset_self, hjk]
      · rw [aset_ne _ _ (by omega), ht j (by omega)]

/-- **C56.** Without a `=` everything is in front of it, nothing behind, and EOF is returned. -/
theorem C56_no_eq (m : Nat → Char) (s : CStr) (h : Spec.Holds m s) (hs : '=' ∉ s)
    (before after : Nat → Char) :
    let r := extrstrBeforeAfterEQ m s.length before after
    Spec.Holds r.1 s ∧ Spec.Holds r.2.1 [] ∧ r.2.2 = -1 := by
  obtain ⟨h0, h1, h2⟩ := h
  obtain ⟨-, c2, c3, -, c5⟩ := copyBefore_spec m s.length (aset before 0 nulChar) 0 (by omega)
  unfold extrstrBeforeAfterEQ
  simp only
  generalize copyBefore m (aset before 0 nulChar) s.length 0 = r at *
  obtain ⟨bef, e⟩ := r
  simp only at c2 c3 c5 ⊢
  have he : e = s.length + 1 := by
    by_contra hne
    have hE := c5 (by omega)
    by_cases hlt : e < s.length
    · rw [h1 e hlt] at hE
      exact hs (hE ▸ List.getElem_mem hlt)
    · rw [show e = s.length by omega, h2] at hE
      exact absurd hE (by decide)
  subst he
  refine ⟨⟨h0, fun i hi => ?_, ?_⟩, ⟨fun c hc => absurd hc List.not_mem_nil,
    fun i hi => absurd hi (Nat.not_lt_zero i), ?_⟩, by rw [if_pos (by omega)]⟩
  · rw [aset_ne _ _ (by omega), (c3 i (by omega) (by omega)).2, h1 i hi]
  · rw [aset_ne _ _ (by omega), (c3 s.length (by omega) (by omega)).2, h2]
  · rw [upLoop_nil (by omega)]
    exact aset_self _ _ _

/-- The reader of checkpoint files (Model/Checkpoint.lean) uses this splitting. -/
theorem beforeAfterEQ_split (a b : CStr) (ha : '=' ∉ a) :
    Wolfio.beforeAfterEQ (a ++ '=' :: b) = (a, b) ∧ Wolfio.beforeAfterEQ a = (a, []) := by
  have hp : ∀ c ∈ a, (decide (c ≠ '=')) = true := by
    intro c hc
    rw [decide_eq_true_eq]
    rintro rfl
    exact ha hc
  constructor
  · unfold Wolfio.beforeAfterEQ
    rw [List.takeWhile_append_of_pos hp, List.dropWhile_append_of_pos hp]
    simp
  · unfold Wolfio.beforeAfterEQ
    rw [List.takeWhile_eq_self_iff.2 hp, List.dropWhile_eq_nil_iff.2 hp]
    rfl

/-- Example: two signs of equality. -/
example : Wolfio.beforeAfterEQ "expr=a=b".toList = ("expr".toList, "a=b".toList) := by decide +kernel

/-! ## C75 -/

/-- **C75 as far as it holds.** A string of the form name, separator, value, where the name is not empty and
has no separator in it and the value has none either: get_par_from_str returns name and value without
leading and trailing white space. What fails is in the two counterexamples. -/
theorem C75_name_value_partial (d : Char) (nam val : CStr) (hn : nam ≠ []) (h1 : d ∉ nam) (h2 : d ∉ val)
    (z1 : ∀ c ∈ nam, c ≠ Char.ofNat 0) (z2 : ∀ c ∈ val, c ≠ Char.ofNat 0) :
    ∃ n v, getParFromStr d (nam ++ d :: val) = .ok (some (n, v)) ∧
      Spec.Trimmed nam n ∧ Spec.Trimmed val v := by
  have hnd : ∀ c ∈ nam, (c != d) = true := by
    intro c hc
    simp only [bne_iff_ne, ne_eq]
    rintro rfl
    exact h1 hc
  have hvd : ∀ c ∈ val, (c != d) = true := by
    intro c hc
    simp only [bne_iff_ne, ne_eq]
    rintro rfl
    exact h2 hc
  have e0 : (nam ++ d :: val).dropWhile (· == d) = nam ++ d :: val := by
    cases nam with
    | nil => exact absurd rfl hn
    | cons x w =>
      rw [List.cons_append, List.dropWhile_cons_of_neg]
      simpa using hnd x List.mem_cons_self
  have e1 : (nam ++ d :: val).takeWhile (· != d) = nam := by
    rw [List.takeWhile_append_of_pos hnd]; simp
  have e2 : (nam ++ d :: val).dropWhile (· != d) = d :: val := by
    rw [List.dropWhile_append_of_pos hnd]; simp
  have ht : strtok d (nam ++ d :: val) = some (nam, val) := by
    unfold strtok
    rw [e0]
    cases hc : nam ++ d :: val with
    | nil => simp at hc
    | cons c t =>
      simp only
      rw [← hc, e1, e2, List.tail_cons]
  unfold getParFromStr
  rw [ht]
  simp only [e0, e2]
  rw [if_neg (by simp)]
  cases val with
  | nil =>
    refine ⟨trimStr nam, [], rfl, trimStr_spec nam z1, ⟨[], [], rfl, by simp, by simp⟩, by simp, by simp⟩
  | cons x v =>
    have hx : (x == d) = false := by simpa using hvd x List.mem_cons_self
    have tw : (x :: v).takeWhile (· != d) = x :: v := List.takeWhile_eq_self_iff.2 hvd
    have hs : ∃ r, strtok d (x :: v) = some (x :: v, r) := by
      unfold strtok
      rw [List.dropWhile_cons_of_neg (by simp [hx])]
      simp only [tw]
      exact ⟨_, rfl⟩
    obtain ⟨r, hr⟩ := hs
    rw [hr]
    exact ⟨_, _, rfl, trimStr_spec nam z1, trimStr_spec (x :: v) z2⟩

/-- **C75.** A string without separator gives the return value 0. -/
theorem C75_no_delim (d : Char) (s : CStr) (hs : s ≠ []) (h : d ∉ s) : getParFromStr d s = .ok none := by
  have hsd : ∀ c ∈ s, (c != d) = true := by
    intro c hc
    simp only [bne_iff_ne, ne_eq]
    rintro rfl
    exact h hc
  have e0 : s.dropWhile (· == d) = s := by
    cases s with
    | nil => rfl
    | cons x w =>
      rw [List.dropWhile_cons_of_neg]
      simpa using hsd x List.mem_cons_self
  have e2 : s.dropWhile (· != d) = [] := List.dropWhile_eq_nil_iff.2 hsd
  unfold getParFromStr strtok
  rw [e0]
  cases s with
  | nil => exact absurd rfl hs
  | cons c t =>
    simp only [e2]
    rfl

/-- **C75 fails**: the empty string and strings of separators only, for example "=", make the program read
through a NULL pointer. -/
theorem C75_null_counterexample (d : Char) (s : CStr) (h : ∀ c ∈ s, c = d) : getParFromStr d s = .ub := by
  have : s.dropWhile (· == d) = [] := List.dropWhile_eq_nil_iff.2 (by simpa using h)
  unfold getParFromStr strtok
  rw [this]

/-- **C75.** A separator in front is ignored, whatever follows. -/
theorem C75_leading (d : Char) (s : CStr) : getParFromStr d (d :: s) = getParFromStr d s := by
  have : (d :: s).dropWhile (· == d) = s.dropWhile (· == d) := by simp
  unfold getParFromStr strtok
  rw [this]

/-- **C75 fails**: a value is cut at the next separator, and a separator in front of the name is ignored. -/
theorem C75_cut_counterexample :
    getParFromStr '=' "expr = a==b".toList = .ok (some ("expr".toList, "a".toList)) ∧
    getParFromStr '=' "= x = 1".toList = .ok (some ("x".toList, "1".toList)) := by
  decide +kernel

/-- Example. -/
example : getParFromStr '=' "  mass1 =  1.2 \n".toList = .ok (some ("mass1".toList, "1.2".toList)) := by
  decide +kernel

end Sgrid

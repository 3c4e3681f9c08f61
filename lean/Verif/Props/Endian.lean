import Verif.Model.Endian
import Verif.Lemmas.IntList

/-! C22: finit. C23: byte order of binary files. -/

namespace Sgrid
open Endian

/-! ### C22 -/

namespace Spec

/-- Exponent field of a double (IEEE 754 binary64: bits 52 to 62). -/
def dblExponent (x : BitVec 64) : Nat := x.toNat / 2 ^ 52 % 2 ^ 11

/-- Fraction field (bits 0 to 51). -/
def dblFraction (x : BitVec 64) : Nat := x.toNat % 2 ^ 52

/-- Infinities have all exponent bits set and fraction zero. -/
def isInf (x : BitVec 64) : Prop := dblExponent x = 2 ^ 11 - 1 ∧ dblFraction x = 0

/-- NaNs have all exponent bits set and a nonzero fraction. -/
def isNaN (x : BitVec 64) : Prop := dblExponent x = 2 ^ 11 - 1 ∧ dblFraction x ≠ 0

end Spec

theorem mask_bits : ∀ i : Fin 64, (0x800FFFFFFFFFFFFF#64).getLsbD i = !(decide (52 ≤ i.val) && decide (i.val < 63)) := by
  decide

theorem ones_bits : ∀ i : Fin 64, (0xFFFFFFFFFFFFFFFF#64).getLsbD i = true := by decide

/-- C22: `finit` is 0 exactly for infinities and NaNs, for all bit patterns. -/
theorem C22_finit (x : BitVec 64) :
    (finit x = 0 ↔ Spec.isInf x ∨ Spec.isNaN x) ∧ (finit x = 1 ↔ ¬ (Spec.isInf x ∨ Spec.isNaN x)) := by
  have hexp : (Spec.isInf x ∨ Spec.isNaN x) ↔ Spec.dblExponent x = 2 ^ 11 - 1 := by
    unfold Spec.isInf Spec.isNaN; tauto
  have he : Spec.dblExponent x = (x.extractLsb' 52 11).toNat := by
    rw [BitVec.extractLsb'_toNat, Nat.shiftRight_eq_div_pow, Spec.dblExponent]
  have key : x ||| 0x800FFFFFFFFFFFFF#64 = 0xFFFFFFFFFFFFFFFF#64 ↔ Spec.dblExponent x = 2 ^ 11 - 1 := by
    rw [he]
    have h2 : (x.extractLsb' 52 11).toNat = 2 ^ 11 - 1 ↔ x.extractLsb' 52 11 = BitVec.allOnes 11 := by
      rw [← BitVec.toNat_inj]; rfl
    rw [h2]
    constructor
    · intro h
      apply BitVec.eq_of_getLsbD_eq
      intro i hi
      have h3 : (x ||| 0x800FFFFFFFFFFFFF#64).getLsbD (52 + i) = true := by
        rw [h]; exact ones_bits ⟨52 + i, by omega⟩
      have h4 := mask_bits ⟨52 + i, by omega⟩
      simp only at h4
      rw [BitVec.getLsbD_or, h4] at h3
      rw [BitVec.getLsbD_extractLsb', BitVec.getLsbD_allOnes]
      simpa [hi, show 52 ≤ 52 + i by omega, show 52 + i < 63 by omega] using h3
    · intro h
      apply BitVec.eq_of_getLsbD_eq
      intro i hi
      have h4 := mask_bits ⟨i, hi⟩
      have h5 := ones_bits ⟨i, hi⟩
      simp only at h4 h5
      rw [BitVec.getLsbD_or, h4, h5]
      by_cases h6 : 52 ≤ i ∧ i < 63
      · have h7 : (x.extractLsb' 52 11).getLsbD (i - 52) = true := by
          rw [h, BitVec.getLsbD_allOnes]; simpa using (by omega : i - 52 < 11)
        rw [BitVec.getLsbD_extractLsb', show 52 + (i - 52) = i by omega] at h7
        simp only [Bool.and_eq_true] at h7
        simp [h7.2]
      · have : (!(decide (52 ≤ i) && decide (i < 63))) = true := by
          simp; omega
        simp [this]
  rw [hexp, ← key]
  unfold finit
  split <;> simp_all

example : finit 0x7FF0000000000000#64 = 0 ∧ finit 0xFFF8000000000001#64 = 0 ∧
    finit 0x7FEFFFFFFFFFFFFF#64 = 1 ∧ finit 0 = 1 := by decide
example : Spec.isNaN 0xFFF8000000000001#64 := by unfold Spec.isNaN; decide

/-! ### C23 -/

namespace Spec

/-- The bytes of the number `v` from the least to the most significant. -/
def bytes : Nat → Nat → List Byte
  | 0, _ => []
  | s + 1, v => BitVec.ofNat 8 v :: bytes s (v / 256)

/-- How a machine keeps an item in memory. -/
def item (little : Bool) (size v : Nat) : List Byte :=
  if little then bytes size v else (bytes size v).reverse

/-- How a machine keeps an array in memory. -/
def array (little : Bool) (size : Nat) (vs : List Nat) : List Byte := vs.flatMap (item little size)

/-- The number made of given bytes, the least significant first. -/
def number : List Byte → Nat
  | [] => 0
  | b :: bs => b.toNat + 256 * number bs

end Spec
open Spec

/-- Bytes determine the number, so the memory contents determine the values. -/
theorem number_bytes (s v : Nat) : number (bytes s v) = v % 256 ^ s := by
  induction s generalizing v with
  | zero => simp [bytes, number, Nat.mod_one]
  | succ s ih =>
    rw [bytes, number, ih, BitVec.toNat_ofNat, show (2 : Nat) ^ 8 = 256 from rfl, Nat.pow_succ',
      Nat.mod_mul]

@[simp] theorem bytes_length (s v : Nat) : (bytes s v).length = s := by
  induction s generalizing v with
  | zero => rfl
  | succ s ih => simp [bytes, ih]

@[simp] theorem item_length (l : Bool) (s v : Nat) : (item l s v).length = s := by
  cases l <;> simp [item]

theorem item_not (l : Bool) (s v : Nat) : item (!l) s v = (item l s v).reverse := by
  cases l <;> simp [item]

@[simp] theorem array_length (l : Bool) (s : Nat) (vs : List Nat) :
    (array l s vs).length = vs.length * s := by
  induction vs with
  | nil => simp [array]
  | cons v vs ih =>
    simp only [array, List.flatMap_cons, List.length_append, item_length, List.length_cons] at *
    rw [ih, Nat.succ_mul, Nat.add_comm]

theorem array_append (l : Bool) (s : Nat) (as bs : List Nat) :
    array l s (as ++ bs) = array l s as ++ array l s bs := by simp [array]

/-- A loop filling an array from its beginning. -/
theorem fill_spec {n : Nat} {src : Nat → Res Byte} {dst : List Byte} (g : Nat → Byte)
    (hs : ∀ b, b < n → src b = .ok (g b)) (hd : n ≤ dst.length) :
    fill n src dst = .ok ((List.range n).map g ++ dst.drop n) := by
  obtain ⟨t, h1, h2⟩ := forN_inv (n := n) (s := dst)
    (body := fun b c => (src b).bind fun x => aput c b x)
    (fun k (t : List Byte) => t = (List.range k).map g ++ dst.drop k) (by simp)
    (by
      rintro k hk t rfl
      refine ⟨_, by rw [hs k hk, Res.bind_ok, aput_ok _ (by simp; omega)], ?_⟩
      rw [List.set_append_right _ _ (by simp)]
      simp only [List.length_map, List.length_range, Nat.sub_self]
      rw [List.drop_eq_getElem_cons (by omega), List.set_cons_zero, List.range_succ]
      simp)
  rw [fill, h1, h2]

theorem reverse_eq_map (l : List Byte) :
    l.reverse = (List.range l.length).map fun b => l.getD (l.length - 1 - b) 0 := by
  apply List.ext_getElem
  · simp
  · intro i h1 h2
    simp only [List.length_reverse] at h1
    have h3 : l.length - 1 - i < l.length := by omega
    rw [List.getElem_reverse, List.getElem_map, List.getElem_range]
    simp [h3]

/-- The items in the middle of an array. -/
theorem array_get {l : Bool} {s : Nat} {pre : List Nat} {v : Nat} {post : List Nat} {b : Nat}
    (hb : b < s) :
    aget (array l s (pre ++ v :: post)) (pre.length * s + b) =
      .ok ((item l s v).getD b 0) := by
  have h : (array l s (pre ++ v :: post))[pre.length * s + b]? = (item l s v)[b]? := by
    rw [array_append, List.getElem?_append_right (by simp), array_length,
      Nat.add_sub_cancel_left]
    rw [array, List.flatMap_cons, List.getElem?_append_left (by simpa using hb)]
  rw [aget, h, List.getElem?_eq_getElem (by simpa using hb)]
  simp [hb]

/-- The swapping writer writes the items with their bytes in the opposite order. -/
theorem fwriteSwap_spec (junk : Byte) (l : Bool) (size : Nat) (hs : size ≠ 0) (vs : List Nat)
    (file : List Byte) :
    fwriteSwap junk (array l size vs) size vs.length file =
      .ok (file ++ array (!l) size vs, vs.length) := by
  obtain ⟨t, h1, h2⟩ := forN_inv (n := vs.length) (s := (file, 0))
    (body := fun i (s : List Byte × Nat) =>
      (fill size (fun b => aget (array l size vs) (i * size + size - 1 - b))
        (List.replicate size junk)).bind fun c => .ok (s.1 ++ c, s.2 + size))
    (fun k t => t = (file ++ array (!l) size (vs.take k), k * size)) (by simp [array])
    (by
      rintro k hk t rfl
      have hf := fill_spec (n := size) (dst := List.replicate size junk)
        (src := fun b => aget (array l size vs) (k * size + size - 1 - b))
        (fun b => (item l size vs[k]).getD (size - 1 - b) 0)
        (fun b hb => by
          have h := array_get (l := l) (s := size) (pre := vs.take k) (v := vs[k])
            (post := vs.drop (k + 1)) (b := size - 1 - b) (by omega)
          rw [← List.drop_eq_getElem_cons hk, List.take_append_drop, List.length_take,
            Nat.min_eq_left hk.le] at h
          rw [← h]
          congr 1
          omega) (by simp)
      refine ⟨_, by rw [hf, Res.bind_ok], ?_⟩
      have he := reverse_eq_map (item l size vs[k])
      rw [item_length] at he
      rw [List.drop_of_length_le (by simp), List.append_nil, ← he, ← item_not,
        List.take_add_one, List.getElem?_eq_getElem hk, array_append]
      simp [array, Nat.succ_mul])
  rw [fwriteSwap, h1, Res.bind_ok, h2, if_neg hs]
  simp [Nat.mul_div_cancel _ (Nat.pos_of_ne_zero hs)]

/-- C23: the file written by the little-endian writer contains the bytes of the values from the
least to the most significant, on machines of either byte order. -/
theorem C23_write_little (m : Bool) (junk : Byte) (size : Nat) (hs : size ≠ 0) (vs : List Nat)
    (file : List Byte) :
    fwriteLittle m junk (array m size vs) size vs.length file =
      .ok (file ++ array true size vs, vs.length) := by
  cases m
  · exact fwriteSwap_spec junk false size hs vs file
  · simp only [fwriteLittle, if_true, fwrite, array_length, Nat.mul_comm, lt_irrefl, if_false, hs]
    rw [List.take_of_length_le (by simp [Nat.mul_comm])]

/-- C23: the file written by the big-endian writer, from the most to the least significant. -/
theorem C23_write_big (m : Bool) (junk : Byte) (size : Nat) (hs : size ≠ 0) (vs : List Nat)
    (file : List Byte) :
    fwriteBig m junk (array m size vs) size vs.length file =
      .ok (file ++ array false size vs, vs.length) := by
  cases m
  · simp only [fwriteBig, Bool.not_false, if_true, fwrite, array_length, Nat.mul_comm, lt_irrefl,
      if_false, hs]
    rw [List.take_of_length_le (by simp [Nat.mul_comm])]
  · exact fwriteSwap_spec junk true size hs vs file

theorem putSwapped_spec {size i : Nat} {buf c : List Byte} (hc : c.length = size)
    (hb : i * size + size ≤ buf.length) :
    putSwapped buf c i size =
      .ok (buf.take (i * size) ++ c.reverse ++ buf.drop (i * size + size)) := by
  obtain ⟨t, h1, h2⟩ := forN_inv (n := size) (s := buf)
    (body := fun b d => (aget c (size - 1 - b)).bind fun x => aput d (i * size + b) x)
    (fun k (t : List Byte) =>
      t = buf.take (i * size) ++ c.reverse.take k ++ buf.drop (i * size + k)) (by simp)
    (by
      rintro k hk t rfl
      have hl : (buf.take (i * size) ++ c.reverse.take k).length = i * size + k := by
        simp; omega
      refine ⟨_, by
        rw [aget_ok (show size - 1 - k < c.length by omega), Res.bind_ok, aput_ok _ (by
          rw [List.length_append, hl, List.length_drop]; omega)], ?_⟩
      rw [List.set_append_right _ _ (by omega), hl, Nat.sub_self,
        List.drop_eq_getElem_cons (by omega), List.set_cons_zero, List.take_add_one,
        List.getElem?_eq_getElem (by simp; omega), List.getElem_reverse]
      simp [hc, Nat.add_assoc])
  rw [putSwapped, h1, h2, List.take_of_length_le (l := c.reverse) (by simp [hc])]

/-- The swapping reader fills the memory with the items in the opposite byte order. -/
theorem freadSwap_spec (junk : Byte) (l : Bool) (size : Nat) (hs : size ≠ 0) (vs : List Nat)
    (buf rest : List Byte) (hb : vs.length * size ≤ buf.length) :
    freadSwap junk buf size vs.length (array l size vs ++ rest) =
      .ok (array (!l) size vs ++ buf.drop (vs.length * size), rest, vs.length) := by
  obtain ⟨t, h1, h2, h3⟩ := forN_inv (n := vs.length)
    (s := ((buf, List.replicate size junk), array l size vs ++ rest, 0))
    (body := fun i (s : (List Byte × List Byte) × List Byte × Nat) =>
      let r := freadBytes s.1.2 size s.2.1
      (putSwapped s.1.1 r.1 i size).bind fun d => .ok ((d, r.1), r.2.1, s.2.2 + r.2.2))
    (fun k (t : (List Byte × List Byte) × List Byte × Nat) =>
      t.1.1 = array (!l) size (vs.take k) ++ buf.drop (k * size) ∧ t.1.2.length = size ∧
      t.2 = (array l size (vs.drop k) ++ rest, k * size)) (by simp [array])
    (by
      rintro k hk ⟨⟨d, c⟩, t⟩ ⟨rfl, hc, ht⟩
      simp only at hc ht
      subst ht
      have hk' : k * size + size ≤ vs.length * size := by
        have := Nat.mul_le_mul_right size (show k + 1 ≤ vs.length from hk)
        rw [Nat.succ_mul] at this; exact this
      have hd : array l size (vs.drop k) ++ rest =
          item l size vs[k] ++ (array l size (vs.drop (k + 1)) ++ rest) := by
        rw [List.drop_eq_getElem_cons hk, array, List.flatMap_cons, List.append_assoc]; rfl
      have hr : freadBytes c size (array l size (vs.drop k) ++ rest) =
          (item l size vs[k], array l size (vs.drop (k + 1)) ++ rest, size) := by
        rw [hd, freadBytes]
        simp [hc]
      have hp := putSwapped_spec (size := size) (i := k)
        (buf := array (!l) size (vs.take k) ++ buf.drop (k * size)) (c := item l size vs[k])
        (by simp) (by simp [Nat.min_eq_left hk.le]; omega)
      have hl : (array (!l) size (vs.take k)).length = k * size := by
        simp [Nat.min_eq_left hk.le]
      rw [List.take_append_of_le_length (l₁ := array (!l) size (vs.take k)) (by omega),
        List.take_of_length_le (l := array (!l) size (vs.take k)) (by omega),
        List.drop_append, List.drop_of_length_le (l := array (!l) size (vs.take k)) (by omega),
        hl, List.nil_append, List.drop_drop, ← item_not] at hp
      simp only [hr, hp, Res.bind_ok]
      refine ⟨_, rfl, ?_, by simp, by simp [Nat.succ_mul]⟩
      simp only
      rw [List.take_add_one, List.getElem?_eq_getElem hk, array_append]
      have e1 : k * size + (k * size + size - k * size) = (k + 1) * size := by
        rw [Nat.succ_mul]; omega
      rw [e1]
      simp [array])
  rw [freadSwap, h1, Res.bind_ok, if_neg hs, h2, h3.2]
  simp [array, Nat.mul_div_cancel _ (Nat.pos_of_ne_zero hs)]

theorem fread_spec (l : Bool) (size : Nat) (hs : size ≠ 0) (vs : List Nat)
    (buf rest : List Byte) (hb : vs.length * size ≤ buf.length) :
    fread buf size vs.length (array l size vs ++ rest) =
      .ok (array l size vs ++ buf.drop (vs.length * size), rest, vs.length) := by
  have hl : (array l size vs).length = size * vs.length := by simp [Nat.mul_comm]
  rw [fread, if_neg (by rw [Nat.mul_comm]; omega)]
  simp only [hs, if_false]
  rw [List.take_append_of_le_length (l₁ := array l size vs) (by omega),
    List.take_of_length_le (l := array l size vs) (by omega),
    List.drop_append_of_le_length (l₁ := array l size vs) (by omega),
    List.drop_of_length_le (l := array l size vs) (by omega), hl,
    Nat.mul_comm size, Nat.mul_div_cancel _ (Nat.pos_of_ne_zero hs)]
  simp

/-- C23: values written by a machine of one byte order with the little-endian writer and read by
a machine of any byte order with the little-endian reader are the same values. -/
theorem C23_little (m m' : Bool) (j j' : Byte) (size : Nat) (hs : size ≠ 0) (vs : List Nat)
    (buf rest : List Byte) (hb : vs.length * size ≤ buf.length) :
    ∃ file, fwriteLittle m j (array m size vs) size vs.length [] = .ok (file, vs.length) ∧
      freadLittle m' j' buf size vs.length (file ++ rest) =
        .ok (array m' size vs ++ buf.drop (vs.length * size), rest, vs.length) := by
  refine ⟨_, C23_write_little m j size hs vs [], ?_⟩
  rw [List.nil_append]
  cases m'
  · exact freadSwap_spec j' true size hs vs buf rest hb
  · exact fread_spec true size hs vs buf rest hb

/-- C23 for the big-endian format. -/
theorem C23_big (m m' : Bool) (j j' : Byte) (size : Nat) (hs : size ≠ 0) (vs : List Nat)
    (buf rest : List Byte) (hb : vs.length * size ≤ buf.length) :
    ∃ file, fwriteBig m j (array m size vs) size vs.length [] = .ok (file, vs.length) ∧
      freadBig m' j' buf size vs.length (file ++ rest) =
        .ok (array m' size vs ++ buf.drop (vs.length * size), rest, vs.length) := by
  refine ⟨_, C23_write_big m j size hs vs [], ?_⟩
  rw [List.nil_append]
  cases m'
  · exact fread_spec false size hs vs buf rest hb
  · exact freadSwap_spec j' false size hs vs buf rest hb

/-- C23: the functions for doubles. -/
theorem C23_doubles (m m' : Bool) (j j' : Byte) (vs : List Nat) (buf rest : List Byte)
    (hb : vs.length * 8 ≤ buf.length) :
    ∃ file, fwriteDoubleLittle m j (array m 8 vs) vs.length [] = .ok (file, vs.length) ∧
      freadDoubleLittle m' j' buf vs.length (file ++ rest) =
        .ok (array m' 8 vs ++ buf.drop (vs.length * 8), rest, vs.length) :=
  C23_little m m' j j' 8 (by decide) vs buf rest hb

/-- C23: arrays in memory are equal exactly if the values are. -/
theorem C23_array_injective (m : Bool) (size : Nat) (hs : size ≠ 0) (vs ws : List Nat)
    (hv : ∀ v ∈ vs, v < 256 ^ size) (hw : ∀ w ∈ ws, w < 256 ^ size)
    (h : array m size vs = array m size ws) : vs = ws := by
  induction vs generalizing ws with
  | nil =>
    cases ws with
    | nil => rfl
    | cons w ws =>
      have := congrArg List.length h
      simp [array] at this; omega
  | cons v vs ih =>
    cases ws with
    | nil =>
      have := congrArg List.length h
      simp [array] at this; omega
    | cons w ws =>
      have h' : item m size v ++ array m size vs = item m size w ++ array m size ws := h
      obtain ⟨h1, h2⟩ := List.append_inj h' (by simp)
      have h3 : bytes size v = bytes size w := by
        cases m
        · exact List.reverse_injective (by simpa [item] using h1)
        · simpa [item] using h1
      have h4 := congrArg number h3
      rw [number_bytes, number_bytes, Nat.mod_eq_of_lt (hv v List.mem_cons_self),
        Nat.mod_eq_of_lt (hw w List.mem_cons_self)] at h4
      rw [h4, ih ws (fun v hv' => hv v (List.mem_cons_of_mem _ hv'))
        (fun w hw' => hw w (List.mem_cons_of_mem _ hw')) h2]

example : (fwriteLittle false 0 (array false 2 [0x1234, 0x5678]) 2 2 []).map Prod.fst =
    .ok [0x34, 0x12, 0x78, 0x56] := by decide +kernel
example : freadLittle false 0 [0, 0, 0, 0, 9] 2 2 [0x34, 0x12, 0x78, 0x56, 1] =
    .ok ([0x12, 0x34, 0x56, 0x78, 9], [1], 2) := by decide +kernel

end Sgrid

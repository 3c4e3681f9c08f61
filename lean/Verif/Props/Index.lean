import Verif.Model.Index
import Mathlib.Data.List.Nodup
import Mathlib.Data.List.Chain
import Mathlib.Tactic.Linarith
import Mathlib.Tactic.Ring

/-! C21: point indices and loops over planes. -/

namespace Sgrid
open Index

/-- C21: the index of a grid point lies in the array. -/
theorem C21_bounds {n1 n2 n3 i j k : Int} (hi : 0 ≤ i ∧ i < n1) (hj : 0 ≤ j ∧ j < n2)
    (hk : 0 ≤ k ∧ k < n3) :
    0 ≤ index n1 n2 i j k ∧ index n1 n2 i j k < n1 * n2 * n3 := by
  have h1 : 0 ≤ j + n2 * k := by have := mul_nonneg (show 0 ≤ n2 by omega) hk.1; omega
  have h2 : j + n2 * k + 1 ≤ n2 * n3 := by nlinarith [mul_nonneg (show 0 ≤ n2 by omega) (show 0 ≤ n3 - 1 - k by omega)]
  constructor
  · have := mul_nonneg (show 0 ≤ n1 by omega) h1
    unfold index; omega
  · unfold index
    nlinarith [mul_nonneg (show 0 ≤ n1 by omega) (show 0 ≤ n2 * n3 - (j + n2 * k + 1) by omega)]

/-- C21: the decoding macros recover the coordinates of a grid point. -/
theorem C21_decode {n1 n2 i j k : Int} (hi : 0 ≤ i ∧ i < n1) (hj : 0 ≤ j ∧ j < n2) (hk : 0 ≤ k) :
    kOf (index n1 n2 i j k) n1 n2 = k ∧
    jOf (index n1 n2 i j k) n1 n2 k = j ∧
    iOf (index n1 n2 i j k) n1 n2 j k = i := by
  have hn1 : 0 < n1 := by omega
  have hn2 : 0 < n2 := by omega
  have e1 : index n1 n2 i j k = (i + n1 * j) + n1 * n2 * k := by unfold index; ring
  have p0 : 0 ≤ n1 * j := mul_nonneg hn1.le hj.1
  have p1 : i + n1 * j < n1 * n2 := by
    nlinarith [mul_nonneg hn1.le (show 0 ≤ n2 - 1 - j by omega)]
  have p2 : 0 ≤ n1 * n2 * k := mul_nonneg (mul_nonneg hn1.le hn2.le) hk
  refine ⟨?_, ?_, ?_⟩
  · rw [kOf, e1, Int.tdiv_eq_ediv_of_nonneg (by omega),
      Int.add_mul_ediv_left _ _ (by have := mul_pos hn1 hn2; omega),
      Int.ediv_eq_zero_of_lt (by omega) p1]
    omega
  · rw [jOf, e1, add_sub_cancel_right, Int.tdiv_eq_ediv_of_nonneg (by omega),
      Int.add_mul_ediv_left _ _ (by omega), Int.ediv_eq_zero_of_lt hi.1 hi.2]
    omega
  · rw [iOf, e1]; ring

/-- C21: every array place is the index of the grid point the macros decode from it. -/
theorem C21_encode {n1 n2 n3 m : Int} (h1 : 0 < n1) (h2 : 0 < n2) (hm : 0 ≤ m ∧ m < n1 * n2 * n3) :
    let k := kOf m n1 n2
    let j := jOf m n1 n2 k
    let i := iOf m n1 n2 j k
    (0 ≤ i ∧ i < n1) ∧ (0 ≤ j ∧ j < n2) ∧ (0 ≤ k ∧ k < n3) ∧ index n1 n2 i j k = m := by
  intro k j i
  have hp := mul_pos h1 h2
  have hk : k = m / (n1 * n2) := Int.tdiv_eq_ediv_of_nonneg hm.1
  have k0 : 0 ≤ k := by rw [hk]; exact Int.ediv_nonneg hm.1 hp.le
  have k1 : k < n3 := by
    rw [hk]; exact Int.ediv_lt_of_lt_mul hp (by linarith [mul_comm (n1 * n2) n3])
  have km := Int.emod_add_mul_ediv m (n1 * n2)
  rw [← hk] at km
  have r0 := Int.emod_nonneg m hp.ne'
  have r1 := Int.emod_lt_of_pos m hp
  have hr : m - n1 * n2 * k = m % (n1 * n2) := by omega
  have hj : j = m % (n1 * n2) / n1 := by
    show jOf m n1 n2 k = _
    rw [jOf, hr, Int.tdiv_eq_ediv_of_nonneg r0]
  have j0 : 0 ≤ j := by rw [hj]; exact Int.ediv_nonneg r0 h1.le
  have j1 : j < n2 := by
    rw [hj]; exact Int.ediv_lt_of_lt_mul h1 (by linarith [mul_comm n1 n2])
  have jm := Int.emod_add_mul_ediv (m % (n1 * n2)) n1
  rw [← hj] at jm
  have hi : i = m % (n1 * n2) % n1 := by
    show iOf m n1 n2 j k = _
    rw [iOf, hr]; omega
  have i0 := Int.emod_nonneg (m % (n1 * n2)) h1.ne'
  have i1 := Int.emod_lt_of_pos (m % (n1 * n2)) h1
  refine ⟨by omega, ⟨j0, j1⟩, ⟨k0, k1⟩, ?_⟩
  have : index n1 n2 i j k = (i + n1 * j) + n1 * n2 * k := by unfold index; ring
  omega

/-- C21: different grid points have different indices. -/
theorem C21_injective {n1 n2 i j k i' j' k' : Int} (hi : 0 ≤ i ∧ i < n1) (hj : 0 ≤ j ∧ j < n2)
    (hk : 0 ≤ k) (hi' : 0 ≤ i' ∧ i' < n1) (hj' : 0 ≤ j' ∧ j' < n2) (hk' : 0 ≤ k')
    (h : index n1 n2 i j k = index n1 n2 i' j' k') : i = i' ∧ j = j' ∧ k = k' := by
  obtain ⟨a, b, c⟩ := C21_decode hi hj hk
  obtain ⟨a', b', c'⟩ := C21_decode hi' hj' hk'
  rw [h] at a b c
  have hk2 : k = k' := a.symm.trans a'
  subst hk2
  have hj2 : j = j' := b.symm.trans b'
  subst hj2
  exact ⟨c.symm.trans c', rfl, rfl⟩

/-- C21: if the number of points fits into an `int`, so do all intermediate results. -/
theorem C21_no_overflow {n1 n2 n3 i j k : Int} (hi : 0 ≤ i ∧ i < n1) (hj : 0 ≤ j ∧ j < n2)
    (hk : 0 ≤ k ∧ k < n3) (hn : n1 * n2 * n3 ≤ 2147483647) :
    (0 ≤ n2 * k ∧ n2 * k ≤ 2147483647) ∧ (0 ≤ j + n2 * k ∧ j + n2 * k ≤ 2147483647) ∧
    (0 ≤ n1 * (j + n2 * k) ∧ n1 * (j + n2 * k) ≤ 2147483647) ∧
    (0 ≤ n1 * n2 ∧ n1 * n2 ≤ 2147483647) ∧
    (0 ≤ n1 * n2 * k ∧ n1 * n2 * k ≤ 2147483647) := by
  have hb := C21_bounds hi hj hk
  have a1 : 0 ≤ n2 * k := mul_nonneg (by omega) hk.1
  have a2 : 0 ≤ (n1 - 1) * (j + n2 * k) := mul_nonneg (by omega) (by omega)
  have a3 : 0 ≤ n1 * n2 := mul_nonneg (by omega) (by omega)
  have a4 : 0 ≤ n1 * n2 * k := mul_nonneg a3 hk.1
  have a5 : 0 ≤ n1 * n2 * (n3 - 1) := mul_nonneg a3 (by omega)
  have a6 : 0 ≤ n1 * j := mul_nonneg (by omega) hj.1
  have e : index n1 n2 i j k = i + n1 * (j + n2 * k) := rfl
  refine ⟨⟨a1, ?_⟩, ⟨?_, ?_⟩, ⟨?_, ?_⟩, ⟨a3, ?_⟩, ⟨a4, ?_⟩⟩ <;> nlinarith

example : index 4 3 2 1 5 = 66 ∧ kOf 66 4 3 = 5 ∧ jOf 66 4 3 5 = 1 ∧ iOf 66 4 3 1 5 = 2 := by
  decide

/-! ### Loops -/

/-- The integers from `a` up to, not including, `b`. -/
def Spec.irange (a b : Int) : List Int := (List.range (b - a).toNat).map fun i : Nat => a + i

open Spec

@[simp] theorem mem_irange {a b x : Int} : x ∈ irange a b ↔ a ≤ x ∧ x < b := by
  simp only [irange, List.mem_map, List.mem_range]
  constructor
  · rintro ⟨i, hi, rfl⟩; omega
  · rintro ⟨h1, h2⟩; exact ⟨(x - a).toNat, by omega, by omega⟩

theorem irange_nodup (a b : Int) : (irange a b).Nodup :=
  List.Nodup.map (fun x y h => by simpa using h) List.nodup_range

theorem irange_empty {a b : Int} (h : b ≤ a) : irange a b = [] := by
  simp [irange, show (b - a).toNat = 0 by omega]

theorem irange_cons {a b : Int} (h : a < b) : irange a b = a :: irange (a + 1) b := by
  rw [irange, show (b - a).toNat = (b - (a + 1)).toNat + 1 by omega, List.range_succ_eq_map]
  simp only [List.map_cons, List.map_map, irange]
  congr 1
  · simp
  · apply List.map_congr_left
    intro i _
    simp only [Function.comp]
    push_cast
    omega

theorem irange_snoc {a b : Int} (h : a < b) : irange a b = irange a (b - 1) ++ [b - 1] := by
  rw [irange, show (b - a).toNat = (b - 1 - a).toNat + 1 by omega, List.range_succ]
  simp [irange]
  omega

theorem cfor_up (F : Nat) (a b : Int) (cond : Int → Bool)
    (hc : ∀ x, a ≤ x → x ≤ max a b → cond x = decide (x < b)) (hF : (b - a).toNat < F) :
    cfor F a cond (· + 1) = some (irange a b) := by
  induction F generalizing a with
  | zero => omega
  | succ F ih =>
    rw [cfor]
    by_cases h : a < b
    · rw [hc a (le_refl a) (le_max_left _ _), irange_cons h, if_pos (by simpa using h),
        ih (a + 1) (fun x h1 h2 => hc x (by omega) (by omega)) (by omega)]
      rfl
    · rw [hc a (le_refl a) (le_max_left _ _), if_neg (by simpa using h), irange_empty (by omega)]

theorem cfor_down (F : Nat) (a : Int) (cond : Int → Bool)
    (hc : ∀ x, -1 ≤ x → x ≤ a → cond x = decide (0 ≤ x)) (ha : -1 ≤ a)
    (hF : (a + 1).toNat < F) :
    cfor F a cond (· + -1) = some (irange 0 (a + 1)).reverse := by
  induction F generalizing a with
  | zero => omega
  | succ F ih =>
    rw [cfor]
    by_cases h : 0 ≤ a
    · rw [hc a ha (le_refl a), if_pos (by simpa using h),
        ih (a + -1) (fun x h1 h2 => hc x h1 (by omega)) (by omega) (by omega),
        irange_snoc (show (0 : Int) < a + 1 by omega)]
      simp
    · rw [hc a ha (le_refl a), if_neg (by simpa using h), irange_empty (by omega)]
      simp

theorem upto_eq {F : Nat} {n : Int} (hF : n.toNat < F) : upto F n = some (irange 0 n) :=
  cfor_up F 0 n _ (fun _ _ _ => rfl) (by omega)

theorem flat_some {β : Type} (l : List Int) (f : Int → Option (List β)) (g : Int → List β)
    (h : ∀ x ∈ l, f x = some (g x)) : flat l f = some (l.flatMap g) := by
  induction l with
  | nil => rfl
  | cons a l ih =>
    rw [flat, h a List.mem_cons_self, ih fun x hx => h x (List.mem_cons_of_mem _ hx)]
    rfl

theorem nodup_flat {β : Type} {l : List Int} (hl : l.Nodup) (g : Int → List β) (key : β → Int)
    (hk : ∀ x, ∀ y ∈ g x, key y = x) (hg : ∀ x, (g x).Nodup) : (l.flatMap g).Nodup := by
  rw [List.nodup_flatMap]
  refine ⟨fun x _ => hg x, ?_⟩
  refine List.Pairwise.imp ?_ hl
  intro a b hab y ha hb
  exact hab (by rw [← hk a y ha, hk b y hb])

/-- Fuel that suffices for all loops of a box. -/
def Spec.enough (F : Nat) (n1 n2 n3 : Int) : Prop :=
  n1.toNat < F ∧ n2.toNat < F ∧ n3.toNat < F ∧ 2 < F

/-- Triples built from three loops. -/
def Spec.triples (li lj lk : List Int) : List (Int × Int × Int) :=
  lk.flatMap fun k => lj.flatMap fun j => li.map fun i => (i, j, k)

@[simp] theorem mem_triples {li lj lk : List Int} {i j k : Int} :
    (i, j, k) ∈ triples li lj lk ↔ i ∈ li ∧ j ∈ lj ∧ k ∈ lk := by
  simp [triples]
  tauto

theorem triples_nodup {li lj lk : List Int} (hi : li.Nodup) (hj : lj.Nodup) (hk : lk.Nodup) :
    (triples li lj lk).Nodup := by
  refine nodup_flat hk _ (fun t => t.2.2) (by simp; intros; omega) fun k => ?_
  refine nodup_flat hj _ (fun t => t.2.1) (by simp) fun j => ?_
  exact hi.map fun a b h => by simpa using h

theorem three_loops {oi oj ok : Option (List Int)} {li lj lk : List Int} (hi : oi = some li)
    (hj : oj = some lj) (hk : ok = some lk) :
    (ok.bind fun ks => flat ks fun k => oj.bind fun js => flat js fun j =>
      oi.bind fun is => some (is.map fun i => (i, j, k))) = some (triples li lj lk) := by
  subst hi; subst hj; subst hk
  simp only [Option.bind_some]
  exact flat_some _ _ _ fun k _ => flat_some _ _ _ fun j _ => rfl

theorem irange_flat (n m : Nat) :
    (irange 0 (m : Int)).flatMap (fun j => (irange 0 (n : Int)).map fun i => i + (n : Int) * j) =
      irange 0 ((n : Int) * m) := by
  have h : ∀ a : Nat, irange 0 (a : Int) = (List.range a).map fun i : Nat => (i : Int) := by
    intro a; simp [irange]
  rw [show (n : Int) * m = ((n * m : Nat) : Int) by push_cast; rfl, h, h, h]
  induction m with
  | zero => simp
  | succ m ih =>
    rw [List.range_succ, List.map_append, List.flatMap_append, ih, Nat.mul_succ, List.range_add,
      List.map_append]
    congr 1
    simp only [List.map_cons, List.map_nil, List.flatMap_cons, List.flatMap_nil, List.append_nil,
      List.map_map]
    apply List.map_congr_left
    intro i _
    simp only [Function.comp]
    push_cast
    ring

/-- C21: the loop over all points of a box visits the array places 0, 1, 2, … in order. -/
theorem C21_forallijk {F : Nat} {n1 n2 n3 : Int} (h1 : 0 ≤ n1) (h2 : 0 ≤ n2) (h3 : 0 ≤ n3)
    (hF : enough F n1 n2 n3) :
    ∃ l, forallijk F n1 n2 n3 = some l ∧
      (l.map fun t => index n1 n2 t.1 t.2.1 t.2.2) = irange 0 (n1 * n2 * n3) := by
  refine ⟨_, three_loops (upto_eq hF.1) (upto_eq hF.2.1) (upto_eq hF.2.2.1), ?_⟩
  obtain ⟨a, rfl⟩ := Int.eq_ofNat_of_zero_le h1
  obtain ⟨b, rfl⟩ := Int.eq_ofNat_of_zero_le h2
  obtain ⟨c, rfl⟩ := Int.eq_ofNat_of_zero_le h3
  rw [mul_assoc, show (b : Int) * c = ((b * c : Nat) : Int) by push_cast; rfl, ← irange_flat,
    show ((b * c : Nat) : Int) = (b : Int) * c by push_cast; rfl, ← irange_flat]
  simp only [triples, List.map_flatMap, List.map_map, List.flatMap_assoc, List.flatMap_map]
  rfl

/-- C21: the loop over the inner points visits exactly these, each once. -/
theorem C21_forinnerijk {F : Nat} {n1 n2 n3 : Int} (hF : enough F n1 n2 n3) :
    ∃ l, forinnerijk F n1 n2 n3 = some l ∧ l.Nodup ∧
      ∀ i j k, (i, j, k) ∈ l ↔ (0 < i ∧ i < n1 - 1) ∧ (0 < j ∧ j < n2 - 1) ∧ (0 < k ∧ k < n3 - 1) := by
  have h : ∀ n : Int, n.toNat < F →
      cfor F 1 (fun x => decide (x < n - 1)) (· + 1) = some (irange 1 (n - 1)) :=
    fun n hn => cfor_up F 1 (n - 1) _ (fun _ _ _ => rfl) (by omega)
  refine ⟨_, three_loops (h n1 hF.1) (h n2 hF.2.1) (h n3 hF.2.2.1),
    triples_nodup (irange_nodup _ _) (irange_nodup _ _) (irange_nodup _ _), fun i j k => ?_⟩
  rw [mem_triples, mem_irange, mem_irange, mem_irange]
  omega

/-- C21: the three plane loops visit exactly the points of their plane, each once. -/
theorem C21_forplane {F : Nat} {n1 n2 n3 : Int} (p : Int) (hF : enough F n1 n2 n3) :
    (∃ l, forplane1 F n2 n3 p = some l ∧ l.Nodup ∧
      ∀ i j k, (i, j, k) ∈ l ↔ i = p ∧ (0 ≤ j ∧ j < n2) ∧ (0 ≤ k ∧ k < n3)) ∧
    (∃ l, forplane2 F n1 n3 p = some l ∧ l.Nodup ∧
      ∀ i j k, (i, j, k) ∈ l ↔ (0 ≤ i ∧ i < n1) ∧ j = p ∧ (0 ≤ k ∧ k < n3)) ∧
    (∃ l, forplane3 F n1 n2 p = some l ∧ l.Nodup ∧
      ∀ i j k, (i, j, k) ∈ l ↔ (0 ≤ i ∧ i < n1) ∧ (0 ≤ j ∧ j < n2) ∧ k = p) := by
  obtain ⟨f1, f2, f3, -⟩ := hF
  refine ⟨⟨_, by rw [forplane1, upto_eq f3, upto_eq f2]; exact flat_some _ _ _ fun k _ => rfl,
      ?_, fun i j k => ?_⟩,
    ⟨_, by rw [forplane2, upto_eq f3, upto_eq f1]; exact flat_some _ _ _ fun k _ => rfl,
      ?_, fun i j k => ?_⟩,
    ⟨_, by rw [forplane3, upto_eq f2, upto_eq f1]; exact flat_some _ _ _ fun k _ => rfl,
      ?_, fun i j k => ?_⟩⟩
  · exact nodup_flat (irange_nodup _ _) _ (fun t => t.2.2) (by simp; intros; omega)
      fun k => (irange_nodup _ _).map fun a b h => by simpa using h
  · simp; tauto
  · exact nodup_flat (irange_nodup _ _) _ (fun t => t.2.2) (by simp; intros; omega)
      fun k => (irange_nodup _ _).map fun a b h => by simpa using h
  · simp; tauto
  · exact nodup_flat (irange_nodup _ _) _ (fun t => t.2.1) (by simp; intros; omega)
      fun k => (irange_nodup _ _).map fun a b h => by simpa using h
  · simp; tauto

theorem planeLoop_eq {F : Nat} {N d n p : Int} (hp : N = d → 0 ≤ p ∧ p < n) (hn : n.toNat < F)
    (h2 : 2 < F) :
    planeLoop F N d n p = some (if N = d then [p] else irange 0 n) := by
  unfold planeLoop
  by_cases h : N = d
  · obtain ⟨p0, p1⟩ := hp h
    rw [if_pos h, if_pos h, mul_one,
      cfor_up F p (p + 1) _ (fun x h1 h2 => ?_) (by omega), irange_cons (by omega),
      irange_empty (by omega)]
    simp only [h, ne_eq, not_true_eq_false, decide_false, Bool.or_false]
    have : x ≤ p + 1 := by omega
    by_cases hx : x = p
    · subst hx; simp [p1]
    · simp [hx]; omega
  · rw [if_neg h, if_neg h, mul_zero]
    exact cfor_up F 0 n _ (fun x _ _ => by simp [h]) (by omega)

/-- C21: `forplaneN` visits exactly the points of plane `p` in direction `N`, each once. -/
theorem C21_forplaneN {F : Nat} {N n1 n2 n3 p : Int} (hF : enough F n1 n2 n3)
    (hN : N = 1 ∨ N = 2 ∨ N = 3)
    (hp : 0 ≤ p ∧ (N = 1 → p < n1) ∧ (N = 2 → p < n2) ∧ (N = 3 → p < n3)) :
    ∃ l, forplaneN F N n1 n2 n3 p = some l ∧ l.Nodup ∧
      ∀ i j k, (i, j, k) ∈ l ↔ (0 ≤ i ∧ i < n1) ∧ (0 ≤ j ∧ j < n2) ∧ (0 ≤ k ∧ k < n3) ∧
        (if N = 1 then i else if N = 2 then j else k) = p := by
  obtain ⟨f1, f2, f3, f4⟩ := hF
  refine ⟨_, three_loops
    (planeLoop_eq (fun h => ⟨hp.1, hp.2.1 h⟩) f1 f4)
    (planeLoop_eq (fun h => ⟨hp.1, hp.2.2.1 h⟩) f2 f4)
    (planeLoop_eq (fun h => ⟨hp.1, hp.2.2.2 h⟩) f3 f4), ?_, fun i j k => ?_⟩
  · apply triples_nodup <;> split <;> first | exact irange_nodup _ _ | simp
  · rw [mem_triples]
    rcases hN with rfl | rfl | rfl <;> simp <;> omega

theorem innerLoop_eq {F : Nat} {N d n p : Int} (hp : N = d → 0 ≤ p ∧ p < n) (hn : n.toNat < F)
    (h2 : 2 < F) :
    innerLoop F N d n p = some (if N = d then [p] else irange 1 (n - 1)) := by
  unfold innerLoop
  by_cases h : N = d
  · obtain ⟨p0, p1⟩ := hp h
    rw [if_pos h, if_pos h, mul_one, add_sub_cancel,
      cfor_up F p (p + 1) _ (fun x h1 h2 => ?_) (by omega), irange_cons (by omega),
      irange_empty (by omega)]
    simp only [h, ne_eq, not_true_eq_false, decide_false, Bool.or_false, if_false, sub_zero]
    have : x ≤ p + 1 := by omega
    by_cases hx : x = p
    · subst hx; simp [p1]
    · simp [hx]; omega
  · rw [if_neg h, if_neg h, mul_zero, add_zero]
    exact cfor_up F 1 (n - 1) _ (fun x _ _ => by simp [h]) (by omega)

/-- C21: `forinnerplaneN` visits exactly the points of the plane off the edges, each once. -/
theorem C21_forinnerplaneN {F : Nat} {N n1 n2 n3 p : Int} (hF : enough F n1 n2 n3)
    (hN : N = 1 ∨ N = 2 ∨ N = 3)
    (hp : 0 ≤ p ∧ (N = 1 → p < n1) ∧ (N = 2 → p < n2) ∧ (N = 3 → p < n3)) :
    ∃ l, forinnerplaneN F N n1 n2 n3 p = some l ∧ l.Nodup ∧
      ∀ i j k, (i, j, k) ∈ l ↔
        (if N = 1 then i = p else 0 < i ∧ i < n1 - 1) ∧
        (if N = 2 then j = p else 0 < j ∧ j < n2 - 1) ∧
        (if N = 3 then k = p else 0 < k ∧ k < n3 - 1) := by
  obtain ⟨f1, f2, f3, f4⟩ := hF
  refine ⟨_, three_loops
    (innerLoop_eq (fun h => ⟨hp.1, hp.2.1 h⟩) f1 f4)
    (innerLoop_eq (fun h => ⟨hp.1, hp.2.2.1 h⟩) f2 f4)
    (innerLoop_eq (fun h => ⟨hp.1, hp.2.2.2 h⟩) f3 f4), ?_, fun i j k => ?_⟩
  · apply triples_nodup <;> split <;> first | exact irange_nodup _ _ | simp
  · rw [mem_triples]
    rcases hN with rfl | rfl | rfl <;> simp <;> omega

theorem zigzag_eq {F : Nat} {n k : Int} (hk : 0 ≤ k) (hn : n.toNat < F) (h0 : 0 ≤ n) :
    zigzag F n k = some (if k % 2 = 0 then irange 0 n else (irange 0 n).reverse) := by
  have hm : k.tmod 2 = k % 2 := Int.tmod_eq_emod_of_nonneg hk
  unfold zigzag
  rw [hm]
  rcases Int.emod_two_eq_zero_or_one k with h | h
  · rw [h, if_pos rfl, mul_zero]
    have : (fun x : Int => x + 1 - 2 * 0) = (· + 1) := by funext x; omega
    rw [this]
    refine cfor_up F 0 n _ (fun x h1 _ => ?_) (by omega)
    simp [h1]
  · rw [h, if_neg (by decide), mul_one]
    have : (fun x : Int => x + 1 - 2 * 1) = (· + -1) := by funext x; omega
    rw [this]
    have := cfor_down F (n - 1) (fun x => decide (x < n) && decide (x ≥ 0))
      (fun x h1 h2 => by simp [show x < n by omega]) (by omega) (by omega)
    rw [this]
    congr 3
    omega

/-- Two points that differ by one in exactly one coordinate. -/
def Spec.Near (a b : Int × Int × Int) : Prop :=
  (a.1 - b.1).natAbs + (a.2.1 - b.2.1).natAbs + (a.2.2 - b.2.2).natAbs = 1

theorem isChain_irange (n : Int) {β : Type} (R : β → β → Prop) (g : Int → β)
    (h : ∀ x, R (g x) (g (x + 1))) (a : Int) : List.IsChain R ((irange a n).map g) := by
  obtain ⟨m, hm⟩ : ∃ m, (n - a).toNat = m := ⟨_, rfl⟩
  induction m generalizing a with
  | zero => rw [irange_empty (by omega)]; exact .nil
  | succ m ih =>
    rw [irange_cons (by omega)]
    have := ih (a + 1) (by omega)
    by_cases hlt : a + 1 < n
    · rw [irange_cons hlt] at this ⊢
      exact .cons_cons (h a) this
    · rw [irange_empty (by omega)]; exact .singleton _

/-- A zigzag over a rectangle, in the coordinates of the plane. -/
def Spec.zig (n m : Int) : List (Int × Int) :=
  (irange 0 m).flatMap fun k =>
    (if k % 2 = 0 then irange 0 n else (irange 0 n).reverse).map fun j => (j, k)

/-- Two places in a plane that differ by one in exactly one coordinate. -/
def Spec.Near2 (a b : Int × Int) : Prop := (a.1 - b.1).natAbs + (a.2 - b.2).natAbs = 1

theorem zig_chain (n m : Int) (hn : 0 < n) : List.IsChain Near2 (zig n m) := by
  suffices ∀ m : Nat, List.IsChain Near2 (zig n m) ∧
      ∀ x ∈ (zig n m).getLast?, x = (if ((m : Int) - 1) % 2 = 0 then n - 1 else 0, (m : Int) - 1) by
    by_cases hm : 0 ≤ m
    · obtain ⟨a, rfl⟩ := Int.eq_ofNat_of_zero_le hm
      exact (this a).1
    · rw [zig, irange_empty (a := 0) (b := m) (by omega)]; exact .nil
  intro m
  induction m with
  | zero => 
    have : zig n ((0 : Nat) : Int) = [] := by
      rw [zig, irange_empty (a := 0) (b := ((0 : Nat) : Int)) (by simp)]; rfl
    rw [this]
    exact ⟨.nil, by simp⟩
  | succ m ih =>
    have hrow : ∀ k : Int,
        List.IsChain Near2 ((if k % 2 = 0 then irange 0 n else (irange 0 n).reverse).map fun j => (j, k)) := by
      intro k
      split
      · exact isChain_irange n _ _ (fun x => by simp [Near2]) 0
      · rw [List.map_reverse, List.isChain_reverse]
        exact isChain_irange n _ _ (fun x => by simp [Near2]) 0
    have hz : zig n ((m + 1 : Nat) : Int) = zig n m ++
        (if (m : Int) % 2 = 0 then irange 0 n else (irange 0 n).reverse).map fun j => (j, (m : Int)) := by
      rw [zig, irange_snoc (a := 0) (b := ((m + 1 : Nat) : Int)) (by omega), List.flatMap_append]
      simp [zig]
    have hfirst : (irange 0 n).head? = some 0 := by rw [irange_cons hn]; rfl
    have hlast : (irange 0 n).getLast? = some (n - 1) := by rw [irange_snoc hn]; simp
    rw [hz]
    refine ⟨List.isChain_append.2 ⟨ih.1, hrow m, ?_⟩, ?_⟩
    · intro x hx y hy
      have hx' := ih.2 x hx
      rw [List.head?_map] at hy
      by_cases he : (m : Int) % 2 = 0
      · rw [if_pos he, hfirst] at hy
        have : ¬ ((m : Int) - 1) % 2 = 0 := by omega
        rw [if_neg this] at hx'
        simp only [Option.map_some, Option.mem_def, Option.some.injEq] at hy
        subst hx'; subst hy
        simp [Near2]
      · rw [if_neg he, List.head?_reverse, hlast] at hy
        have : ((m : Int) - 1) % 2 = 0 := by omega
        rw [if_pos this] at hx'
        simp only [Option.map_some, Option.mem_def, Option.some.injEq] at hy
        subst hx'; subst hy
        simp [Near2]
    · intro x hx
      have hne : (if (m : Int) % 2 = 0 then irange 0 n else (irange 0 n).reverse).map
          (fun j => (j, (m : Int))) ≠ [] := by
        rw [irange_cons hn]; split <;> simp
      rw [List.getLast?_append_of_ne_nil _ hne, List.getLast?_map] at hx
      push_cast
      rw [add_sub_cancel_right]
      by_cases he : (m : Int) % 2 = 0
      · rw [if_pos he, hlast] at hx
        rw [if_pos he]
        simpa using hx.symm
      · rw [if_neg he, List.getLast?_reverse, hfirst] at hx
        rw [if_neg he]
        simpa using hx.symm

theorem zig_nodup (n m : Int) : (zig n m).Nodup := by
  refine nodup_flat (irange_nodup _ _) _ (fun t => t.2) (by simp) fun k => ?_
  refine List.Nodup.map (fun a b h => by simpa using h) ?_
  split
  · exact irange_nodup _ _
  · exact List.nodup_reverse.2 (irange_nodup _ _)

theorem mem_zig {n m j k : Int} : (j, k) ∈ zig n m ↔ (0 ≤ j ∧ j < n) ∧ (0 ≤ k ∧ k < m) := by
  simp only [zig, List.mem_flatMap, mem_irange, List.mem_map, Prod.mk.injEq]
  constructor
  · rintro ⟨k', hk', j', hj', rfl, rfl⟩
    refine ⟨?_, hk'⟩
    split at hj'
    · exact mem_irange.1 hj'
    · exact mem_irange.1 (List.mem_reverse.1 hj')
  · rintro ⟨hj, hk⟩
    refine ⟨k, hk, j, ?_, rfl, rfl⟩
    split
    · exact mem_irange.2 hj
    · exact List.mem_reverse.2 (mem_irange.2 hj)

theorem nojump_eq {F : Nat} {n m : Int} (g : Int → Int → Int × Int × Int) (hn : 0 ≤ n)
    (f1 : n.toNat < F) (f2 : m.toNat < F) :
    ((upto F m).bind fun ks => flat ks fun k =>
      (zigzag F n k).bind fun js => some (js.map fun j => g j k)) =
    some ((zig n m).map fun t => g t.1 t.2) := by
  rw [upto_eq f2, Option.bind_some,
    flat_some _ _ (fun k => (if k % 2 = 0 then irange 0 n else (irange 0 n).reverse).map fun j => g j k)]
  · simp only [zig, List.map_flatMap, List.map_map]
    rfl
  · intro k hk
    rw [zigzag_eq (mem_irange.1 hk).1 f1 hn]
    rfl

/-- C21: the plane loops without jumps visit exactly the points of the plane, each once, and
consecutive points are neighbours. -/
theorem C21_nojump {F : Nat} {n1 n2 n3 : Int} (p : Int) (hF : enough F n1 n2 n3) (h1 : 0 < n1)
    (h2 : 0 < n2) :
    (∃ l, forplane1_nojump F n2 n3 p = some l ∧ l.Nodup ∧ l.IsChain Near ∧
      ∀ i j k, (i, j, k) ∈ l ↔ i = p ∧ (0 ≤ j ∧ j < n2) ∧ (0 ≤ k ∧ k < n3)) ∧
    (∃ l, forplane2_nojump F n1 n3 p = some l ∧ l.Nodup ∧ l.IsChain Near ∧
      ∀ i j k, (i, j, k) ∈ l ↔ (0 ≤ i ∧ i < n1) ∧ j = p ∧ (0 ≤ k ∧ k < n3)) ∧
    (∃ l, forplane3_nojump F n1 n2 p = some l ∧ l.Nodup ∧ l.IsChain Near ∧
      ∀ i j k, (i, j, k) ∈ l ↔ (0 ≤ i ∧ i < n1) ∧ (0 ≤ j ∧ j < n2) ∧ k = p) := by
  obtain ⟨f1, f2, f3, -⟩ := hF
  refine ⟨⟨_, nojump_eq (fun j k => (p, j, k)) h2.le f2 f3, ?_, ?_, fun i j k => ?_⟩,
    ⟨_, nojump_eq (fun i k => (i, p, k)) h1.le f1 f3, ?_, ?_, fun i j k => ?_⟩,
    ⟨_, nojump_eq (fun i j => (i, j, p)) h1.le f1 f2, ?_, ?_, fun i j k => ?_⟩⟩
  · exact (zig_nodup _ _).map fun a b h => by simpa [Prod.ext_iff] using h
  · refine List.isChain_map_of_isChain _ (fun a b h => ?_) (zig_chain n2 n3 h2)
    simpa [Near, Near2] using h
  · simp only [List.mem_map, Prod.exists, mem_zig, Prod.mk.injEq]
    constructor
    · rintro ⟨a, b, h, rfl, rfl, rfl⟩; exact ⟨rfl, h⟩
    · rintro ⟨rfl, h⟩; exact ⟨j, k, h, rfl, rfl, rfl⟩
  · exact (zig_nodup _ _).map fun a b h => by simpa [Prod.ext_iff] using h
  · refine List.isChain_map_of_isChain _ (fun a b h => ?_) (zig_chain n1 n3 h1)
    simpa [Near, Near2] using h
  · simp only [List.mem_map, Prod.exists, mem_zig, Prod.mk.injEq]
    constructor
    · rintro ⟨a, b, h, rfl, rfl, rfl⟩; exact ⟨h.1, rfl, h.2⟩
    · rintro ⟨h, rfl, h'⟩; exact ⟨i, k, ⟨h, h'⟩, rfl, rfl, rfl⟩
  · exact (zig_nodup _ _).map fun a b h => by simpa [Prod.ext_iff] using h
  · refine List.isChain_map_of_isChain _ (fun a b h => ?_) (zig_chain n1 n2 h1)
    simpa [Near, Near2] using h
  · simp only [List.mem_map, Prod.exists, mem_zig, Prod.mk.injEq]
    constructor
    · rintro ⟨a, b, h, rfl, rfl, rfl⟩; exact ⟨h.1, h.2, rfl⟩
    · rintro ⟨h, h', rfl⟩; exact ⟨i, j, ⟨h, h'⟩, rfl, rfl, rfl⟩

example : forplaneN 9 2 2 3 2 1 = some [(0, 1, 0), (1, 1, 0), (0, 1, 1), (1, 1, 1)] := by decide
example : forplane1_nojump 9 3 2 5 =
    some [(5, 0, 0), (5, 1, 0), (5, 2, 0), (5, 2, 1), (5, 1, 1), (5, 0, 1)] := by decide
example : forinnerplaneN 9 3 4 3 5 2 = some [(1, 1, 2), (2, 1, 2)] := by decide
example : (forallijk 9 2 2 2).map List.length = some 8 := by decide

end Sgrid

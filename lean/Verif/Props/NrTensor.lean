import Verif.Model.NrTensor
import Verif.Props.NrUtil

/-!
C168: the tensors of Numerical Recipes.
-/

namespace Sgrid

/-- The pointers to the rows of one matrix of the tensor: if the first ones are right, the next n are too. -/
theorem depLoop_eq {b : PtrBlock} {ti ncl nch ndep c : Int} {q0 : Nat} (ht : ti = 1 - ncl + q0)
    (hb : 1 + (q0 : Int) + (nch - ncl) < b.size) (_hc : ncl ≤ nch)
    (hv : ∀ q : Nat, q ≤ q0 → b.val (1 + q) = c + q * ndep) :
    ∃ b', depLoop b ti ncl nch ndep = .ok b' ∧ b'.size = b.size ∧
      ∀ q : Nat, q ≤ q0 + (nch - ncl).toNat → b'.val (1 + q) = c + q * ndep := by
  unfold depLoop
  refine forN_inv (P := fun m (b' : PtrBlock) => b'.size = b.size ∧
    ∀ q : Nat, q ≤ q0 + m → b'.val (1 + q) = c + q * ndep) ⟨rfl, hv⟩ ?_
  rintro i hi t ⟨hs, hv⟩
  refine ⟨⟨t.size, fun q => if q = ti + (ncl + 1 + (i : Int)) then
    t.val (ti + (ncl + 1 + (i : Int)) - 1) + ndep else t.val q⟩, ?_, hs, ?_⟩
  · rw [load_ok (by omega) (by omega), Res.bind_ok, store_ok (by omega) (by omega)]
  · intro q hq
    dsimp only
    by_cases e : q = q0 + i + 1
    · subst e
      rw [if_pos (by push_cast; omega),
        show (ti + (ncl + 1 + (i : Int)) - 1) = 1 + ((q0 + i : Nat) : Int) by push_cast; omega, hv (q0 + i) le_rfl]
      push_cast
      ring
    · rw [if_neg (by omega), hv q (by omega)]

/-- C168: a tensor with at least one row and one column.  The addresses of t[i][j][k] exist for all i and j in the
ranges, they are in the block of numbers if k is in its range, all numbers follow each other without a gap, and
free gets the starts of the three blocks. -/
theorem C168_tensor (junk junk2 : Int → Int) {nrl nrh ncl nch ndl ndh : Int} (hr : nrl ≤ nrh) (hc : ncl ≤ nch)
    (hd : ndl ≤ ndh + 1) :
    ∃ (a : NrTensor) (at' : Int → Int → Int → Int), nrTensor junk junk2 nrl nrh ncl nch ndl ndh = .ok a ∧
      (∀ i j k, nrl ≤ i → i ≤ nrh → ncl ≤ j → j ≤ nch → a.addr i j k = .ok (at' i j k)) ∧
      (∀ i j k, nrl ≤ i → i ≤ nrh → ncl ≤ j → j ≤ nch → ndl ≤ k → k ≤ ndh →
        0 ≤ at' i j k ∧ at' i j k < a.size) ∧
      (∀ i j k, at' i j k = at' nrl ncl ndl +
        ((i - nrl) * (nch - ncl + 1) + (j - ncl)) * (ndh - ndl + 1) + (k - ndl)) ∧
      freeTensorArgs a nrl ncl ndl = .ok (0, 0, 0) := by
  obtain ⟨R, hR⟩ : ∃ R : Nat, nrh = nrl + R := ⟨(nrh - nrl).toNat, by omega⟩
  obtain ⟨C, hC⟩ : ∃ C : Nat, nch = ncl + C := ⟨(nch - ncl).toNat, by omega⟩
  obtain ⟨E, hE⟩ : ∃ E : Nat, ndh = ndl + E - 1 := ⟨(ndh - ndl + 1).toNat, by omega⟩
  subst hR hC hE
  have eR : nrl + (R : Int) - nrl + 1 = R + 1 := by omega
  have eC : ncl + (C : Int) - ncl + 1 = C + 1 := by omega
  have eE : ndl + (E : Int) - 1 - ndl + 1 = E := by omega
  have hp1 : (0 : Int) ≤ (R + 1) * (C + 1) := by positivity
  have hp2 : (0 : Int) ≤ (R + 1) * (C + 1) * E := by positivity
  let T0 : PtrBlock := ⟨R + 1 + nrEnd, junk⟩
  let T1 : PtrBlock := ⟨T0.size, fun q => if q = 0 + nrEnd - nrl + nrl then 0 + nrEnd - ncl else T0.val q⟩
  let B0 : PtrBlock := ⟨(R + 1) * (C + 1) + nrEnd, junk2⟩
  let B1 : PtrBlock := ⟨B0.size, fun q => if q = 0 + nrEnd - ncl + ncl then 0 + nrEnd - ndl else B0.val q⟩
  have hBsize : B0.size = (R + 1) * (C + 1) + 1 := rfl
  have hRC : (C : Int) + 1 ≤ (R + 1) * (C + 1) := by
    have : (0 : Int) ≤ R * (C + 1) := by positivity
    linarith [show ((R : Int) + 1) * (C + 1) = R * (C + 1) + (C + 1) by ring]
  obtain ⟨B2, hB2, hs2, hv2⟩ := depLoop_eq (b := B1) (ti := 0 + nrEnd - ncl) (ncl := ncl) (nch := ncl + C) (ndep := E)
    (c := 1 - ndl) (q0 := 0) (by unfold nrEnd; simp) (by
      change _ < B0.size; rw [hBsize]; push_cast; linarith) hc (by
      intro q hq
      obtain rfl : q = 0 := by omega
      simp only [B1]
      rw [if_pos (by unfold nrEnd; simp)]
      unfold nrEnd; simp)
  have hloop : ∃ s, forN R (fun k s => tensorRow (0 + nrEnd - nrl) ncl (ncl + C) (C + 1) E (nrl + 1 + k) s) (T1, B2) =
      .ok s ∧ s.1.size = T0.size ∧ s.2.size = B0.size ∧ (∀ k : Nat, k ≤ R → s.1.val (1 + k) = 1 - ncl + k * (C + 1)) ∧
      ∀ q : Nat, q ≤ R * (C + 1) + C → s.2.val (1 + q) = 1 - ndl + q * E := by
    refine forN_inv (P := fun m (s : PtrBlock × PtrBlock) => s.1.size = T0.size ∧ s.2.size = B0.size ∧
      (∀ k : Nat, k ≤ m → s.1.val (1 + k) = 1 - ncl + k * (C + 1)) ∧
      ∀ q : Nat, q ≤ m * (C + 1) + C → s.2.val (1 + q) = 1 - ndl + q * E) ⟨rfl, hs2, ?_, ?_⟩ ?_
    · intro k hk
      obtain rfl : k = 0 := by omega
      simp only [T1]
      rw [if_pos (by unfold nrEnd; push_cast; omega)]
      unfold nrEnd; simp
    · intro q hq
      exact hv2 q (by omega)
    · rintro i hi ⟨T, B⟩ ⟨hT, hB, hTv, hBv⟩
      dsimp only at hT hB hTv hBv ⊢
      have hTs : T.size = R + 2 := by rw [hT]; simp only [T0, nrEnd]; omega
      have hBs : B.size = (R + 1) * (C + 1) + 1 := hB
      have hle : ((i : Int) + 1) * (C + 1) + (C + 1) ≤ (R + 1) * (C + 1) := by
        have : (0 : Int) ≤ (R - (i + 1)) * (C + 1) := mul_nonneg (by omega) (by positivity)
        linarith [show ((R : Int) - (i + 1)) * (C + 1) = (R + 1) * (C + 1) - ((i + 1) * (C + 1) + (C + 1)) by ring]
      have hnn : (0 : Int) ≤ (i : Int) * (C + 1) := by positivity
      have hexp : ((i : Int) + 1) * (C + 1) = i * (C + 1) + (C + 1) := by ring
      let T' : PtrBlock := ⟨T.size, fun q => if q = 0 + nrEnd - nrl + (nrl + 1 + (i : Int)) then
        1 - ncl + i * (C + 1) + (C + 1) else T.val q⟩
      have l1 : T.load (0 + nrEnd - nrl + (nrl + 1 + (i : Int)) - 1) = .ok (1 - ncl + i * (C + 1)) := by
        rw [load_ok (by unfold nrEnd; omega) (by unfold nrEnd; omega),
          show 0 + nrEnd - nrl + (nrl + 1 + (i : Int)) - 1 = 1 + i by unfold nrEnd; omega, hTv i le_rfl]
      have s1 : T.store (0 + nrEnd - nrl + (nrl + 1 + (i : Int))) (1 - ncl + i * (C + 1) + (C + 1)) = .ok T' :=
        store_ok (by unfold nrEnd; omega) (by unfold nrEnd; omega)
      have l2 : T'.load (0 + nrEnd - nrl + (nrl + 1 + (i : Int)) - 1) = .ok (1 - ncl + i * (C + 1)) := by
        rw [load_ok (by unfold nrEnd; omega) (by simp only [T']; unfold nrEnd; omega)]
        simp only [T']
        rw [if_neg (by omega), show 0 + nrEnd - nrl + (nrl + 1 + (i : Int)) - 1 = 1 + i by unfold nrEnd; omega,
          hTv i le_rfl]
      have l3 : B.load (1 - ncl + i * (C + 1) + ncl) = .ok (1 - ndl + ((i * (C + 1) : Nat) : Int) * E) := by
        have := hBv (i * (C + 1)) (by omega)
        rw [load_ok (by linarith) (by rw [hBs]; linarith)]
        rw [show 1 - ncl + (i : Int) * (C + 1) + ncl = 1 + ((i * (C + 1) : Nat) : Int) by push_cast; ring, this]
      have l4 : T'.load (0 + nrEnd - nrl + (nrl + 1 + (i : Int))) = .ok (1 - ncl + i * (C + 1) + (C + 1)) := by
        rw [load_ok (by unfold nrEnd; omega) (by simp only [T']; unfold nrEnd; omega)]
        simp [T']
      let B' : PtrBlock := ⟨B.size, fun q => if q = 1 - ncl + i * (C + 1) + (C + 1) + ncl then
        1 - ndl + ((i * (C + 1) : Nat) : Int) * E + (C + 1) * E else B.val q⟩
      have s2 : B.store (1 - ncl + i * (C + 1) + (C + 1) + ncl)
          (1 - ndl + ((i * (C + 1) : Nat) : Int) * E + (C + 1) * E) = .ok B' :=
        store_ok (by linarith) (by rw [hBs]; linarith)
      obtain ⟨B'', hB'', hs'', hv''⟩ := depLoop_eq (b := B') (ti := 1 - ncl + i * (C + 1) + (C + 1)) (ncl := ncl)
        (nch := ncl + C) (ndep := E) (c := 1 - ndl) (q0 := (i + 1) * (C + 1)) (by push_cast; ring) (by
          simp only [B']; rw [hBs]; push_cast; linarith) hc (by
          intro q hq
          simp only [B']
          by_cases e : q = (i + 1) * (C + 1)
          · subst e
            rw [if_pos (by push_cast; ring)]
            push_cast
            ring
          · rw [if_neg (by
              intro h
              apply e
              have : (q : Int) = ((i + 1) * (C + 1) : Nat) := by push_cast; linarith
              exact_mod_cast this)]
            refine hBv q ?_
            have : (i + 1) * (C + 1) = i * (C + 1) + (C + 1) := by ring
            omega)
      refine ⟨(T', B''), ?_, hT, ?_, ?_, ?_⟩
      · unfold tensorRow
        dsimp only
        rw [l1, Res.bind_ok, s1, Res.bind_ok, l2, Res.bind_ok, l3, Res.bind_ok, l4, Res.bind_ok, s2, Res.bind_ok, hB'',
          Res.bind_ok]
      · rw [hs'']; exact hB
      · intro k hk
        simp only [T']
        by_cases e : k = i + 1
        · subst e
          rw [if_pos (by unfold nrEnd; push_cast; omega)]
          push_cast
          ring
        · rw [if_neg (by unfold nrEnd; omega), hTv k (by omega)]
      · intro q hq
        exact hv'' q (by omega)
  obtain ⟨⟨T, B⟩, hs, hT, hB, hTv, hBv⟩ := hloop
  dsimp only at hT hB hTv hBv
  have hTs : T.size = R + 2 := by rw [hT]; simp only [T0, nrEnd]; omega
  have hBs : B.size = (R + 1) * (C + 1) + 1 := hB
  let a : NrTensor := ⟨T, 0 + nrEnd - nrl, B, (R + 1) * (C + 1) * E + nrEnd⟩
  have hrun : nrTensor junk junk2 nrl (nrl + R) ncl (ncl + C) ndl (ndl + E - 1) = .ok a := by
    unfold nrTensor mallocPtrs mallocNums
    dsimp only
    rw [eR, eC, eE, if_pos (by unfold nrEnd; omega), Res.bind_ok, if_pos (by unfold nrEnd; omega), Res.bind_ok]
    have s1 : T0.store (0 + nrEnd - nrl + nrl) (0 + nrEnd - ncl) = .ok T1 :=
      store_ok (by unfold nrEnd; omega) (by simp only [T0, nrEnd]; omega)
    have l1 : T1.load (0 + nrEnd - nrl + nrl) = .ok (0 + nrEnd - ncl) := by
      rw [load_ok (by unfold nrEnd; omega) (by simp only [T1, T0, nrEnd]; omega)]
      simp [T1]
    have s2 : B0.store (0 + nrEnd - ncl + ncl) (0 + nrEnd - ndl) = .ok B1 :=
      store_ok (by unfold nrEnd; omega) (by rw [hBsize]; unfold nrEnd; linarith)
    change (T0.store _ _).bind _ = _
    rw [s1, Res.bind_ok, if_pos (by unfold nrEnd; omega), Res.bind_ok, l1, Res.bind_ok]
    change (B0.store _ _).bind _ = _
    rw [s2, Res.bind_ok, hB2, Res.bind_ok, show (nrl + (R : Int) - nrl).toNat = R by omega, hs, Res.bind_ok]
  have hT' : ∀ i, nrl ≤ i → i ≤ nrl + R → T.load (0 + nrEnd - nrl + i) = .ok (1 - ncl + (i - nrl) * (C + 1)) := by
    intro i h1 h2
    have := hTv (i - nrl).toNat (by omega)
    rw [Int.toNat_of_nonneg (by omega)] at this
    rw [load_ok (by unfold nrEnd; omega) (by unfold nrEnd; omega),
      show 0 + nrEnd - nrl + i = 1 + (i - nrl) by unfold nrEnd; omega, this]
  have haddr : ∀ i j k, nrl ≤ i → i ≤ nrl + R → ncl ≤ j → j ≤ ncl + C →
      a.addr i j k = .ok (1 - ndl + ((i - nrl) * (C + 1) + (j - ncl)) * E + k) := by
    intro i j k h1 h2 h3 h4
    have p1 : (0 : Int) ≤ (i - nrl) * (C + 1) := mul_nonneg (by omega) (by positivity)
    have p2 : (0 : Int) ≤ (nrl + R - i) * (C + 1) := mul_nonneg (by omega) (by positivity)
    have e2 : (nrl + R - i) * ((C : Int) + 1) + (i - nrl) * (C + 1) = R * (C + 1) := by ring
    have e3 : ((R : Int) + 1) * (C + 1) = R * (C + 1) + (C + 1) := by ring
    have hq := hBv ((i - nrl) * (C + 1) + (j - ncl)).toNat (by zify; rw [Int.toNat_of_nonneg (by linarith)]; linarith)
    rw [Int.toNat_of_nonneg (by linarith)] at hq
    unfold NrTensor.addr
    simp only [a]
    rw [hT' i h1 h2, Res.bind_ok, load_ok (by linarith) (by rw [hBs]; linarith), Res.bind_ok,
      show 1 - ncl + (i - nrl) * ((C : Int) + 1) + j = 1 + ((i - nrl) * (C + 1) + (j - ncl)) by ring, hq]
  refine ⟨a, fun i j k => 1 - ndl + ((i - nrl) * (C + 1) + (j - ncl)) * E + k, hrun, haddr, ?_, ?_, ?_⟩
  · intro i j k h1 h2 h3 h4 h5 h6
    have p1 : (0 : Int) ≤ (i - nrl) * (C + 1) := mul_nonneg (by omega) (by positivity)
    have p2 : (0 : Int) ≤ (nrl + R - i) * (C + 1) := mul_nonneg (by omega) (by positivity)
    have q1 : (0 : Int) ≤ ((i - nrl) * (C + 1) + (j - ncl)) * E := mul_nonneg (by linarith) (by positivity)
    have q2 : (0 : Int) ≤ ((nrl + R - i) * (C + 1) + (ncl + C - j)) * E := mul_nonneg (by linarith) (by positivity)
    refine ⟨by dsimp only; linarith, ?_⟩
    simp only [a, nrEnd]
    linarith [show ((R : Int) + 1) * (C + 1) * E = ((i - nrl) * (C + 1) + (j - ncl)) * E +
      ((nrl + R - i) * (C + 1) + (ncl + C - j)) * E + E by ring]
  · intro i j k
    dsimp only
    rw [eC, eE]
    ring
  · unfold freeTensorArgs
    rw [haddr nrl ncl ndl le_rfl hr le_rfl hc, Res.bind_ok]
    simp only [a]
    rw [hT' nrl le_rfl hr, Res.bind_ok]
    simp only [nrEnd]
    congr 2
    · ring
    · congr 1
      · ring
      · ring

/-- f3tensor(1, 2, 0, 1, 1, 3): t[2][0][3] is the number 9 of 13. -/
example : ((nrTensor (fun _ => 0) (fun _ => 0) 1 2 0 1 1 3).bind fun a => (a.addr 2 0 3).bind fun p => .ok (p, a.size)) =
    .ok (9, 13) := by
  decide

end Sgrid

import Verif.Model.NrUtil
import Mathlib.Tactic.Ring
import Mathlib.Tactic.Linarith

/-!
C168: the vectors and matrices of Numerical Recipes.
-/

namespace Sgrid

/-- C168: a vector with at least zero elements.  v[nl], …, v[nh] are in the block, different elements are at different
places, and free gets the start of the block. -/
theorem C168_vector {nl nh : Int} (h : nl ≤ nh + 1) :
    ∃ V, nrVector nl nh = .ok V ∧ (∀ i, nl ≤ i → i ≤ nh → 0 ≤ V.v + i ∧ V.v + i < V.size) ∧
      freeVectorArg V.v nl = 0 := by
  refine ⟨⟨nh - nl + 1 + nrEnd, 0 - nl + nrEnd⟩, ?_, ?_, ?_⟩
  · unfold nrVector mallocNums
    rw [if_pos (by unfold nrEnd; omega)]; rfl
  · intro i h1 h2
    simp only [nrEnd]; omega
  · simp only [freeVectorArg, nrEnd]; omega

theorem store_ok {b : PtrBlock} {p v : Int} (h0 : 0 ≤ p) (h1 : p < b.size) :
    b.store p v = .ok { b with val := fun q => if q = p then v else b.val q } := by
  unfold PtrBlock.store; rw [if_pos ⟨h0, h1⟩]

theorem load_ok {b : PtrBlock} {p : Int} (h0 : 0 ≤ p) (h1 : p < b.size) : b.load p = .ok (b.val p) := by
  unfold PtrBlock.load; rw [if_pos ⟨h0, h1⟩]

/-- The loop that sets the pointers to the rows. -/
theorem rowLoop_eq {b : PtrBlock} {nrl : Int} {n : Nat} {c ncol : Int} (hb : b.size = n + 2) (hc : b.val 1 = c) :
    ∃ b', forN n (fun k rows => (rows.load (0 + nrEnd - nrl + (nrl + 1 + k) - 1)).bind fun p =>
      rows.store (0 + nrEnd - nrl + (nrl + 1 + k)) (p + ncol)) b = .ok b' ∧ b'.size = b.size ∧
      ∀ k : Nat, k ≤ n → b'.val (1 + k) = c + k * ncol := by
  refine forN_inv (P := fun m (b' : PtrBlock) => b'.size = b.size ∧ ∀ k : Nat, k ≤ m → b'.val (1 + k) = c + k * ncol)
    ⟨rfl, ?_⟩ ?_
  · intro k hk
    obtain rfl : k = 0 := by omega
    simp [hc]
  · rintro i hi t ⟨hs, hv⟩
    refine ⟨⟨t.size, fun q => if q = 0 + nrEnd - nrl + (nrl + 1 + (i : Int)) then
      t.val (0 + nrEnd - nrl + (nrl + 1 + (i : Int)) - 1) + ncol else t.val q⟩, ?_, hs, ?_⟩
    · rw [load_ok (by unfold nrEnd; omega) (by unfold nrEnd; omega), Res.bind_ok,
        store_ok (by unfold nrEnd; omega) (by unfold nrEnd; omega)]
    · intro k hk
      dsimp only
      by_cases e : k = i + 1
      · subst e
        rw [if_pos (by unfold nrEnd; push_cast; omega),
          show (0 + nrEnd - nrl + (nrl + 1 + (i : Int)) - 1) = 1 + i by unfold nrEnd; omega, hv i le_rfl]
        push_cast
        ring
      · rw [if_neg (by unfold nrEnd; omega), hv k (by omega)]

/-- The pointers of a matrix. -/
theorem nrMatrix_eq (junk : Int → Int) {nrl nrh ncl nch : Int} (hr : nrl ≤ nrh) (hc : ncl ≤ nch + 1) :
    ∃ a, nrMatrix junk nrl nrh ncl nch = .ok a ∧ a.m = 1 - nrl ∧ a.size = (nrh - nrl + 1) * (nch - ncl + 1) + 1 ∧
      a.rows.size = nrh - nrl + 2 ∧
      ∀ k : Nat, k ≤ (nrh - nrl).toNat → a.rows.val (1 + k) = 1 - ncl + k * (nch - ncl + 1) := by
  have hpos : 0 ≤ (nrh - nrl + 1) * (nch - ncl + 1) := Int.mul_nonneg (by omega) (by omega)
  let b0 : PtrBlock := ⟨nrh - nrl + 1 + nrEnd, junk⟩
  let b1 : PtrBlock := ⟨b0.size, fun q => if q = 0 + nrEnd - nrl + nrl then 0 else b0.val q⟩
  let b2 : PtrBlock := ⟨b0.size, fun q => if q = 0 + nrEnd - nrl + nrl then 0 + nrEnd else b1.val q⟩
  let b3 : PtrBlock := ⟨b0.size, fun q => if q = 0 + nrEnd - nrl + nrl then 0 + nrEnd - ncl else b2.val q⟩
  obtain ⟨b', hb', hs, hv⟩ := rowLoop_eq (b := b3) (nrl := nrl) (n := (nrh - nrl).toNat) (c := 1 - ncl)
    (ncol := nch - ncl + 1) (by simp only [b3, b0, nrEnd]; omega) (by
      simp only [b3]; rw [if_pos (by unfold nrEnd; omega)]; unfold nrEnd; omega)
  refine ⟨⟨b', 0 + nrEnd - nrl, (nrh - nrl + 1) * (nch - ncl + 1) + nrEnd⟩, ?_, ?_, ?_, ?_, hv⟩
  · have e1 : b0.store (0 + nrEnd - nrl + nrl) 0 = .ok b1 :=
      store_ok (by unfold nrEnd; omega) (by simp only [b0, nrEnd]; omega)
    have l1 : b1.load (0 + nrEnd - nrl + nrl) = .ok 0 := by
      rw [load_ok (by unfold nrEnd; omega) (by simp only [b1, b0, nrEnd]; omega)]
      simp [b1]
    have e2 : b1.store (0 + nrEnd - nrl + nrl) (0 + nrEnd) = .ok b2 :=
      store_ok (by unfold nrEnd; omega) (by simp only [b1, b0, nrEnd]; omega)
    have l2 : b2.load (0 + nrEnd - nrl + nrl) = .ok (0 + nrEnd) := by
      rw [load_ok (by unfold nrEnd; omega) (by simp only [b2, b0, nrEnd]; omega)]
      simp [b2]
    have e3 : b2.store (0 + nrEnd - nrl + nrl) (0 + nrEnd - ncl) = .ok b3 :=
      store_ok (by unfold nrEnd; omega) (by simp only [b2, b0, nrEnd]; omega)
    unfold nrMatrix mallocPtrs mallocNums
    dsimp only
    rw [if_pos (by unfold nrEnd; omega), Res.bind_ok, if_pos (by unfold nrEnd; omega), Res.bind_ok]
    change (b0.store _ _).bind _ = _
    rw [e1, Res.bind_ok, l1, Res.bind_ok, e2, Res.bind_ok, l2, Res.bind_ok, e3, Res.bind_ok]
    unfold rowLoop
    rw [hb', Res.bind_ok]
  · simp [nrEnd]
  · simp [nrEnd]
  · rw [hs]; simp only [b3, b0, nrEnd]; omega

/-- C168: a matrix with at least one row.  The addresses of m[i][j] exist for all i and j in the ranges, they are in the
block of numbers, one row follows the other without a gap, different elements have different addresses, and
free gets the starts of the two blocks. -/
theorem C168_matrix (junk : Int → Int) {nrl nrh ncl nch : Int} (hr : nrl ≤ nrh) (hc : ncl ≤ nch + 1) :
    ∃ (a : NrMatrix) (at' : Int → Int → Int), nrMatrix junk nrl nrh ncl nch = .ok a ∧
      (∀ i j, nrl ≤ i → i ≤ nrh → a.addr i j = .ok (at' i j)) ∧
      (∀ i j, nrl ≤ i → i ≤ nrh → ncl ≤ j → j ≤ nch → 0 ≤ at' i j ∧ at' i j < a.size) ∧
      (∀ i j, nrl ≤ i → i ≤ nrh → at' i j = at' nrl ncl + (i - nrl) * (nch - ncl + 1) + (j - ncl)) ∧
      (∀ i j i' j', nrl ≤ i → i ≤ nrh → ncl ≤ j → j ≤ nch → nrl ≤ i' → i' ≤ nrh → ncl ≤ j' → j' ≤ nch →
        at' i j = at' i' j' → i = i' ∧ j = j') ∧
      freeMatrixArgs a nrl ncl = .ok (0, 0) := by
  obtain ⟨a, ha, hm, hsz, hrs, hv⟩ := nrMatrix_eq junk hr hc
  have hval : ∀ i, nrl ≤ i → i ≤ nrh → a.rows.val (a.m + i) = 1 - ncl + (i - nrl) * (nch - ncl + 1) := by
    intro i h1 h2
    have := hv (i - nrl).toNat (by omega)
    rw [Int.toNat_of_nonneg (by omega)] at this
    rw [hm, show 1 - nrl + i = 1 + (i - nrl) by ring, this]
  have hload : ∀ i j, nrl ≤ i → i ≤ nrh → a.addr i j = .ok (1 - ncl + (i - nrl) * (nch - ncl + 1) + j) := by
    intro i j h1 h2
    unfold NrMatrix.addr
    rw [load_ok (by rw [hm]; omega) (by rw [hm, hrs]; omega), Res.bind_ok, hval i h1 h2]
  refine ⟨a, fun i j => 1 - ncl + (i - nrl) * (nch - ncl + 1) + j, ha, hload, ?_, ?_, ?_, ?_⟩
  · intro i j h1 h2 h3 h4
    have p1 : 0 ≤ (i - nrl) * (nch - ncl + 1) := Int.mul_nonneg (by omega) (by omega)
    have p2 : 0 ≤ (nrh - i) * (nch - ncl + 1) := Int.mul_nonneg (by omega) (by omega)
    refine ⟨by dsimp only; omega, ?_⟩
    rw [hsz]
    dsimp only
    nlinarith
  · intro i j _ _
    dsimp only
    ring
  · intro i j i' j' h1 h2 h3 h4 h1' h2' h3' h4' e
    dsimp only at e
    have key : ∀ i j i' j' : Int, i < i' → ncl ≤ j → j ≤ nch → ncl ≤ j' → j' ≤ nch →
        1 - ncl + (i - nrl) * (nch - ncl + 1) + j ≠ 1 - ncl + (i' - nrl) * (nch - ncl + 1) + j' := by
      intro i j i' j' hi h3 h4 h3' h4' e
      have p : 0 ≤ (i' - i - 1) * (nch - ncl + 1) := Int.mul_nonneg (by omega) (by omega)
      nlinarith
    rcases lt_trichotomy i i' with h | h | h
    · exact absurd e (key i j i' j' h h3 h4 h3' h4')
    · subst h
      exact ⟨rfl, by omega⟩
    · exact absurd e.symm (key i' j' i j h h3' h4' h3 h4)
  · unfold freeMatrixArgs
    rw [hload nrl ncl le_rfl hr, Res.bind_ok, hm]
    simp only [nrEnd]
    congr 2
    · ring
    · ring

/-- C168: a matrix without rows is written to beyond the end of its block of pointers. -/
theorem C168_no_rows (junk : Int → Int) (nrl ncl nch : Int) : nrMatrix junk nrl (nrl - 1) ncl nch = .ub := by
  unfold nrMatrix mallocPtrs mallocNums
  dsimp only
  rw [if_pos (by unfold nrEnd; omega), Res.bind_ok, show nrl - 1 - nrl + 1 = 0 by omega, Int.zero_mul,
    if_pos (by unfold nrEnd; omega), Res.bind_ok]
  unfold PtrBlock.store
  rw [if_neg (by simp only [nrEnd]; omega)]
  rfl

/-- C168: the casts in ludcmpSing and lubksb of NumericUtils_shims.c:81-105.  `(double (*)[n]) &(a[1][1])` has its element
[i][j] at the address of a[i+1][j+1] if a comes from matrix(1, r, 1, n). -/
theorem C168_cast (junk : Int → Int) {r n : Int} (hr : 1 ≤ r) (hn : 0 ≤ n) :
    ∃ (a : NrMatrix) (p : Int), nrMatrix junk 1 r 1 n = .ok a ∧ a.addr 1 1 = .ok p ∧
      ∀ i j, 0 ≤ i → i < r → a.addr (i + 1) (j + 1) = .ok (p + i * n + j) := by
  obtain ⟨a, at', ha, h1, -, h2, -⟩ := C168_matrix junk (nrl := 1) (nrh := r) (ncl := 1) (nch := n) hr (by omega)
  refine ⟨a, at' 1 1, ha, h1 1 1 le_rfl hr, ?_⟩
  intro i j hi hj
  rw [h1 (i + 1) (j + 1) (by omega) (by omega), h2 (i + 1) (j + 1) (by omega) (by omega)]
  congr 1
  ring

/-- C168, where the casts are wrong: a matrix with more columns than n. -/
theorem C168_cast_counterexample (junk : Int → Int) :
    ∃ a p q, nrMatrix junk 1 2 1 3 = .ok a ∧ a.addr 1 1 = .ok p ∧ a.addr 2 1 = .ok q ∧ q ≠ p + 1 * 2 + 0 := by
  obtain ⟨a, at', ha, h1, -, h2, -⟩ := C168_matrix junk (nrl := 1) (nrh := 2) (ncl := 1) (nch := 3) (by omega) (by omega)
  refine ⟨a, at' 1 1, at' 2 1, ha, h1 1 1 (by omega) (by omega), h1 2 1 (by omega) (by omega), ?_⟩
  rw [h2 2 1 (by omega) (by omega)]
  omega

/-- C168: a submatrix.  Its element [newrl+k][newcl+l] is a[oldrl+k][oldcl+l] for all rows of the part, and free gets the
start of its block. -/
theorem C168_submatrix (junk : Int → Int) {a : NrMatrix} {oldrl oldrh : Int} (oldcl newrl newcl : Int)
    (hr : oldrl ≤ oldrh + 1)
    (ha : ∀ i, oldrl ≤ i → i ≤ oldrh → 0 ≤ a.m + i ∧ a.m + i < a.rows.size) :
    ∃ s, nrSubmatrix junk a oldrl oldrh oldcl newrl newcl = .ok s ∧
      (∀ k l, 0 ≤ k → k ≤ oldrh - oldrl → s.addr (newrl + k) (newcl + l) = a.addr (oldrl + k) (oldcl + l)) ∧
      freeVectorArg s.m newrl = 0 := by
  have hloop : ∃ b', forN (oldrh + 1 - oldrl).toNat (fun k rows => (a.rows.load (a.m + (oldrl + k))).bind fun p =>
      PtrBlock.store rows (0 + nrEnd - newrl + (newrl + k)) (p + (oldcl - newcl))) ⟨oldrh - oldrl + 1 + nrEnd, junk⟩ =
        .ok b' ∧ b'.size = oldrh - oldrl + 1 + nrEnd ∧
        ∀ k : Nat, k < (oldrh + 1 - oldrl).toNat → b'.val (1 + k) = a.rows.val (a.m + (oldrl + k)) + (oldcl - newcl) := by
    refine forN_inv (P := fun m (b' : PtrBlock) => b'.size = oldrh - oldrl + 1 + nrEnd ∧
      ∀ k : Nat, k < m → b'.val (1 + k) = a.rows.val (a.m + (oldrl + k)) + (oldcl - newcl)) ⟨rfl, by omega⟩ ?_
    rintro i hi t ⟨hs, hv⟩
    obtain ⟨g1, g2⟩ := ha (oldrl + i) (by omega) (by omega)
    refine ⟨⟨t.size, fun q => if q = 0 + nrEnd - newrl + (newrl + (i : Int)) then
      a.rows.val (a.m + (oldrl + i)) + (oldcl - newcl) else t.val q⟩, ?_, hs, ?_⟩
    · rw [load_ok g1 g2, Res.bind_ok, store_ok (by unfold nrEnd; omega) (by rw [hs]; unfold nrEnd; omega)]
    · intro k hk
      dsimp only
      by_cases e : k = i
      · subst e
        rw [if_pos (by unfold nrEnd; omega)]
      · rw [if_neg (by unfold nrEnd; omega), hv k (by omega)]
  obtain ⟨b', hb', hs, hv⟩ := hloop
  refine ⟨⟨b', 0 + nrEnd - newrl, a.size⟩, ?_, ?_, ?_⟩
  · unfold nrSubmatrix mallocPtrs
    dsimp only
    rw [if_pos (by unfold nrEnd; omega), Res.bind_ok, hb', Res.bind_ok]
  · intro k l h0 h1
    obtain ⟨g1, g2⟩ := ha (oldrl + k) (by omega) (by omega)
    have e := hv k.toNat (by omega)
    rw [Int.toNat_of_nonneg h0] at e
    unfold NrMatrix.addr
    dsimp only
    rw [load_ok g1 g2, load_ok (by unfold nrEnd; omega) (by rw [hs]; unfold nrEnd; omega), Res.bind_ok, Res.bind_ok,
      show 0 + nrEnd - newrl + (newrl + k) = 1 + k by unfold nrEnd; omega, e]
    congr 1
    ring
  · simp only [freeVectorArg, nrEnd]; omega

/-- C168: an array a[nrow][ncol] of C as a matrix.  Its element [nrl+k][ncl+l] is a[k][l]. -/
theorem C168_convert (junk : Int → Int) (size : Int) {nrl nrh : Int} (ncl nch : Int) (hr : nrl ≤ nrh) :
    ∃ s, nrConvert junk size nrl nrh ncl nch = .ok s ∧ s.size = size ∧
      (∀ k l, 0 ≤ k → k ≤ nrh - nrl → s.addr (nrl + k) (ncl + l) = .ok (k * (nch - ncl + 1) + l)) ∧
      freeVectorArg s.m nrl = 0 := by
  let b0 : PtrBlock := ⟨nrh - nrl + 1 + nrEnd, junk⟩
  let b1 : PtrBlock := ⟨b0.size, fun q => if q = 0 + nrEnd - nrl + nrl then 0 - ncl else b0.val q⟩
  obtain ⟨b', hb', hs, hv⟩ := rowLoop_eq (b := b1) (nrl := nrl) (n := (nrh - nrl + 1 - 1).toNat) (c := 0 - ncl)
    (ncol := nch - ncl + 1) (by simp only [b1, b0, nrEnd]; omega) (by
      simp only [b1]; rw [if_pos (by unfold nrEnd; omega)])
  refine ⟨⟨b', 0 + nrEnd - nrl, size⟩, ?_, rfl, ?_, ?_⟩
  · unfold nrConvert mallocPtrs
    dsimp only
    rw [if_pos (by unfold nrEnd; omega), Res.bind_ok,
      store_ok (by unfold nrEnd; omega) (by simp only [nrEnd]; omega), Res.bind_ok]
    change (forN _ _ b1).bind _ = _
    rw [hb', Res.bind_ok]
  · intro k l h0 h1
    have e := hv k.toNat (by omega)
    rw [Int.toNat_of_nonneg h0] at e
    have hs' : b'.size = nrh - nrl + 2 := by rw [hs]; simp only [b1, b0, nrEnd]; omega
    unfold NrMatrix.addr
    dsimp only
    rw [load_ok (by unfold nrEnd; omega) (by rw [hs']; unfold nrEnd; omega), Res.bind_ok,
      show 0 + nrEnd - nrl + (nrl + k) = 1 + k by unfold nrEnd; omega, e]
    congr 1
    ring
  · simp only [freeVectorArg, nrEnd]; omega

/-- matrix(1, 2, 1, 3): m[2][3] is the last of 7 numbers, of which the first one is not used. -/
example : ((nrMatrix (fun _ => 0) 1 2 1 3).bind fun a => (a.addr 2 3).bind fun p => .ok (p, a.size)) = .ok (6, 7) := by
  decide

/-- matrix(-1, 1, 0, 1): m[-1][0] is the number 1 of 7. -/
example : ((nrMatrix (fun _ => 0) (-1) 1 0 1).bind fun a => (a.addr (-1) 0).bind fun p => .ok (p, a.size)) = .ok (1, 7) := by
  decide

end Sgrid

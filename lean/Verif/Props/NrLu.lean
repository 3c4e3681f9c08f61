import Mathlib.Algebra.Order.Field.Basic
import Mathlib.Algebra.Order.Ring.Rat
import Mathlib.Algebra.Field.Rat
import Verif.Model.NrLu
import Verif.Props.LU

/-!
C166: the LU decomposition of Numerical Recipes, with indices from 1 to n.

The loops are those of lu.c with other indices; the proofs compare both step by step.
-/

namespace Sgrid

open Finset

/-- The matrix with indices from 0. -/
def Spec.fromZero {K : Type} (a : Nat → Nat → K) : Mat K := fun i j => a (i + 1) (j + 1)

theorem upLoop_shift {σ τ : Type} {lo hi : Nat} {body : Nat → σ → σ} {body' : Nat → τ → τ} {s : σ} {t : τ}
    (R : σ → τ → Prop) (h0 : R s t)
    (hs : ∀ k s t, lo ≤ k → k < hi → R s t → R (body (k + 1) s) (body' k t)) :
    R (upLoop (lo + 1) (hi + 1) body s) (upLoop lo hi body' t) := by
  rcases Nat.lt_or_ge hi lo with h | h
  · rw [upLoop_nil (by omega), upLoop_nil (by omega)]; exact h0
  · obtain ⟨d, rfl⟩ := Nat.exists_eq_add_of_le h
    clear h
    induction d with
    | zero => rw [upLoop_nil (by omega), upLoop_nil (by omega)]; exact h0
    | succ d ih =>
      rw [← Nat.add_assoc, upLoop_succ (by omega) body', upLoop_succ (by omega) body]
      exact hs _ _ _ (by omega) (by omega) (ih fun k s t h1 h2 => hs k s t h1 (by omega))

theorem downLoop_shift {σ τ : Type} {lo hi : Nat} {body : Nat → σ → σ} {body' : Nat → τ → τ} {s : σ} {t : τ}
    (R : σ → τ → Prop) (h0 : R s t)
    (hs : ∀ k s t, lo ≤ k → k < hi → R s t → R (body (k + 1) s) (body' k t)) :
    R (downLoop (lo + 1) (hi + 1) body s) (downLoop lo hi body' t) := by
  rcases Nat.lt_or_ge hi lo with h | h
  · rw [downLoop_nil (by omega), downLoop_nil (by omega)]; exact h0
  · obtain ⟨d, rfl⟩ := Nat.exists_eq_add_of_le h
    clear h
    induction d generalizing lo with
    | zero => rw [downLoop_nil (by omega), downLoop_nil (by omega)]; exact h0
    | succ d ih =>
      rw [downLoop_step (by omega) body', downLoop_step (by omega) body]
      refine hs _ _ _ (by omega) (by omega) ?_
      have e : lo + (d + 1) = lo + 1 + d := by omega
      rw [e] at hs ⊢
      exact ih fun k s t h1 h2 => hs k s t (by omega) h2

variable {K : Type} [Field K] [LinearOrder K]

omit [Field K] [LinearOrder K] in
theorem fromZero_set (a : Nat → Nat → K) (i j : Nat) (x : K) :
    Spec.fromZero (nrSet a (i + 1) (j + 1) x) = mset (Spec.fromZero a) i j x := by
  funext p q
  unfold Spec.fromZero nrSet mset
  by_cases hp : p = i
  · subst hp
    rw [aset_self]
    by_cases hq : q = j
    · subst hq; rw [aset_self, if_pos ⟨rfl, rfl⟩]
    · rw [aset_ne _ _ (by omega), if_neg (by tauto)]
  · rw [aset_ne _ _ (by omega), if_neg (by tauto)]

omit [Field K] [LinearOrder K] in
theorem shift_aset (v : Nat → K) (i : Nat) (x : K) : (fun k => aset v (i + 1) x (k + 1)) = aset (fun k => v (k + 1)) i x := by
  funext k
  by_cases hk : k = i
  · subst hk; rw [aset_self, aset_self]
  · rw [aset_ne _ _ hk, aset_ne _ _ (by omega)]

omit [LinearOrder K] in
theorem nrSum_eq (a : Nat → Nat → K) (i j m : Nat) :
    upLoop 1 (m + 1) (fun k sum => sum - a (i + 1) k * a k (j + 1)) (a (i + 1) (j + 1)) = luSum (Spec.fromZero a) i j m :=
  upLoop_shift (lo := 0) (fun s t => s = t) rfl fun k s t _ _ h => by rw [h]; rfl

theorem nrRowBig_eq (n : Nat) (a : Nat → Nat → K) (i : Nat) :
    nrRowBig n a (i + 1) = luBig n fun j => Spec.fromZero a i j :=
  upLoop_shift (lo := 0) (fun s t => s = t) rfl fun k s t _ _ h => by subst h; rfl

theorem nrColBig_eq (n : Nat) (a : Nat → Nat → K) (j : Nat) :
    nrColBig n a (j + 1) = luBig n fun i => Spec.fromZero a i j :=
  upLoop_shift (lo := 0) (fun s t => s = t) rfl fun k s t _ _ h => by subst h; rfl

omit [LinearOrder K] in
theorem nrUpper_eq (j : Nat) (a : Nat → Nat → K) :
    Spec.fromZero (nrUpper (j + 1) a) = luUpper (Spec.fromZero a) j :=
  upLoop_shift (lo := 0) (fun s t => Spec.fromZero s = t) rfl fun k s t _ _ h => by
    rw [nrSum_eq, fromZero_set, h]

theorem nrPivot_eq (n j : Nat) (vv : Nat → K) (a : Nat → Nat → K) (im : Nat) :
    Spec.fromZero (nrPivot n (j + 1) vv (a, 0, im)).1 =
        (luLower n (Spec.fromZero a) (fun i => vv (i + 1)) j).1 ∧
      ∀ m, (luLower n (Spec.fromZero a) (fun i => vv (i + 1)) j).2.2 = some m →
        (nrPivot n (j + 1) vv (a, 0, im)).2.2 = m + 1 := by
  have key := upLoop_shift (lo := j) (hi := n) (body := fun i (s : (Nat → Nat → K) × K × Nat) =>
      let sum := upLoop 1 (j + 1) (fun k sum => sum - s.1 i k * s.1 k (j + 1)) (s.1 i (j + 1))
      let a := nrSet s.1 i (j + 1) sum
      let dum := vv i * |sum|
      if dum ≥ s.2.1 then (a, dum, i) else (a, s.2))
    (body' := fun i (s : Mat K × K × Option Nat) =>
      let sum := luSum s.1 i j j;
      let A := mset s.1 i j sum;
      let tmp2 := vv (i + 1) * |sum|;
      if s.2.1 ≤ tmp2 then (A, tmp2, some i) else (A, s.2))
    (s := (a, 0, im)) (t := (Spec.fromZero a, 0, none))
    (fun s t => Spec.fromZero s.1 = t.1 ∧ s.2.1 = t.2.1 ∧ ∀ m, t.2.2 = some m → s.2.2 = m + 1)
    ⟨rfl, rfl, fun m h => by cases h⟩
    (by
      rintro k ⟨s1, s2, s3⟩ ⟨t1, t2, t3⟩ _ _ ⟨h1, h2, h3⟩
      dsimp only at h1 h2 h3 ⊢
      subst h1 h2
      rw [nrSum_eq]
      by_cases hc : s2 ≤ vv (k + 1) * |luSum (Spec.fromZero s1) k j j|
      · rw [if_pos hc, if_pos hc]
        exact ⟨fromZero_set _ _ _ _, rfl, fun m hm => by injection hm with hm; rw [hm]⟩
      · rw [if_neg hc, if_neg hc]
        exact ⟨fromZero_set _ _ _ _, rfl, h3⟩)
  exact ⟨key.1, key.2.2⟩

omit [Field K] [LinearOrder K] in
theorem nrSwap_eq (n m j : Nat) (a : Nat → Nat → K) :
    Spec.fromZero (nrSwap n (m + 1) (j + 1) a) = luSwap n (Spec.fromZero a) m j :=
  upLoop_shift (lo := 0) (fun s t => Spec.fromZero s = t) rfl fun k s t _ _ h => by
    subst h
    dsimp only
    rw [fromZero_set, fromZero_set]
    rfl

omit [LinearOrder K] in
theorem nrDivide_eq (n j : Nat) (a : Nat → Nat → K) :
    Spec.fromZero (upLoop (j + 1 + 1) (n + 1) (fun i b => nrSet b i (j + 1) (b i (j + 1) * (1 / a (j + 1) (j + 1)))) a) =
      luScale n (Spec.fromZero a) j :=
  upLoop_shift (lo := j + 1) (fun s t => Spec.fromZero s = t) rfl fun k s t _ _ h => by
    subst h
    rw [fromZero_set]
    rfl

/-- The two states belong together, before column j. -/
structure NrRel (j : Nat) (s : NrLuState K) (t : LUState K) : Prop where
  a : Spec.fromZero s.a = t.A
  vv : (fun i => s.vv (i + 1)) = t.vscal
  indx : ∀ i, i < j → s.indx (i + 1) = t.p i + 1
  d : s.d = (t.parity : K)

theorem nrColumn_rel (n j : Nat) (hj : j < n) (s : NrLuState K) (t t' : LUState K) (h : NrRel j s t)
    (ht : luStep n j t = .ok t') : NrRel (j + 1) (nrColumn n (j + 1) s) t' := by
  unfold luStep at ht
  obtain ⟨e1, e2⟩ := nrPivot_eq n j s.vv (nrUpper (j + 1) s.a) s.imax
  rw [nrUpper_eq, h.a, h.vv] at e1 e2
  unfold nrColumn
  dsimp only
  generalize luLower n (luUpper t.A j) t.vscal j = L at *
  generalize nrPivot n (j + 1) s.vv (nrUpper (j + 1) s.a, 0, s.imax) = N at *
  obtain ⟨L1, L2, L3⟩ := L
  obtain ⟨N1, N2, N3⟩ := N
  dsimp only at e1 e2 ht ⊢
  cases L3 with
  | none => cases ht
  | some m =>
    have hm := e2 m rfl
    subst hm
    dsimp only at ht
    injection ht with ht
    have hpv : (fun i => (aset s.vv (m + 1) (s.vv (j + 1))) (i + 1)) = aset t.vscal m (t.vscal j) := by
      rw [shift_aset, h.vv, ← h.vv]
    have hfin : ∀ b : Nat → Nat → K, Spec.fromZero (if j + 1 ≠ n then upLoop (j + 1 + 1) (n + 1)
        (fun i a => nrSet a i (j + 1) (a i (j + 1) * (1 / b (j + 1) (j + 1)))) b else b) = luScale n (Spec.fromZero b) j := by
      intro b
      rw [← nrDivide_eq]
      split_ifs with hjn
      · rfl
      · rw [upLoop_nil (by omega)]
    have htiny : ∀ b : Nat → Nat → K, Spec.fromZero (if b (j + 1) (j + 1) = 0 then nrSet b (j + 1) (j + 1) luTiny else b) =
        if Spec.fromZero b j j = 0 then mset (Spec.fromZero b) j j luTiny else Spec.fromZero b := by
      intro b
      show _ = if b (j + 1) (j + 1) = 0 then _ else _
      split_ifs
      · rw [fromZero_set]
      · rfl
    have hidx : ∀ i, i < j + 1 → aset s.indx (j + 1) (m + 1) (i + 1) = aset t.p j m i + 1 := by
      intro i hi
      by_cases e : i = j
      · subst e; rw [aset_self, aset_self]
      · rw [aset_ne _ _ e, aset_ne _ _ (by omega)]; exact h.indx i (by omega)
    by_cases hjm : j = m
    · have hjm' : ¬ (j + 1 ≠ m + 1) := by omega
      have hjm'' : ¬ (j ≠ m) := by omega
      simp only [if_neg hjm', if_neg hjm''] at ht ⊢
      subst ht
      refine ⟨?_, h.vv, hidx, h.d⟩
      dsimp only
      rw [hfin, htiny, e1]
    · have hjm' : j + 1 ≠ m + 1 := by omega
      simp only [if_pos hjm', if_pos (show j ≠ m from hjm)] at ht ⊢
      subst ht
      refine ⟨?_, hpv, hidx, ?_⟩
      · dsimp only
        rw [hfin, htiny, nrSwap_eq, e1]
      · dsimp only
        rw [h.d]; push_cast; rfl

theorem nrScale_spec [IsStrictOrderedRing K] (n : Nat) (a : Nat → Nat → K) (junk : Nat → K) :
    (∃ vv, nrScale n a junk = .ok vv ∧ (∀ i, 1 ≤ i → i ≤ n → ∃ j, 1 ≤ j ∧ j ≤ n ∧ a i j ≠ 0) ∧
      ∀ i, 1 ≤ i → i ≤ n → 0 < vv i) ∨
    ∃ i, 1 ≤ i ∧ i ≤ n ∧ nrScale n a junk = .error i ∧ (∀ j, 1 ≤ j → j ≤ n → a i j = 0) ∧
      ∀ i', 1 ≤ i' → i' < i → ∃ j, 1 ≤ j ∧ j ≤ n ∧ a i' j ≠ 0 := by
  have key := upLoop_shift (lo := 0) (hi := n) (body := fun i (s : Except Nat (Nat → K)) => match s with
    | .error e => (.error e : Except Nat (Nat → K))
    | .ok vv =>
      let big := nrRowBig n a i
      if big = 0 then .error i else .ok (aset vv i (1 / big)))
    (body' := fun i (s : Option Int × (Nat → K)) => match s.1 with
    | some _ => s
    | none =>
      let big := luBig n (fun j => Spec.fromZero a i j);
      if big = 0 then (some (-((i : Int) + 1)), s.2) else (none, aset s.2 i (1 / big)))
    (s := .ok junk) (t := (none, fun i => junk (i + 1)))
    (fun s t => (∃ vv, s = .ok vv ∧ t.1 = none ∧ (fun i => vv (i + 1)) = t.2) ∨
      ∃ i : Nat, s = .error i ∧ t.1 = some (-(i : Int)))
    (Or.inl ⟨junk, rfl, rfl, rfl⟩)
    (by
      rintro k s ⟨t1, t2⟩ _ _ (⟨vv, rfl, h2, h3⟩ | ⟨i, rfl, h2⟩)
      · dsimp only at h2 h3
        subst h2 h3
        dsimp only
        rw [nrRowBig_eq]
        split_ifs
        · exact Or.inr ⟨k + 1, rfl, by push_cast; rfl⟩
        · exact Or.inl ⟨_, rfl, rfl, shift_aset _ _ _⟩
      · dsimp only at h2
        subst h2
        exact Or.inr ⟨i, rfl, rfl⟩)
  change (∃ vv, nrScale n a junk = .ok vv ∧ (luRowCheck n (Spec.fromZero a) fun i => junk (i + 1)).1 = none ∧
      (fun i => vv (i + 1)) = (luRowCheck n (Spec.fromZero a) fun i => junk (i + 1)).2) ∨
      ∃ i : Nat, nrScale n a junk = .error i ∧
        (luRowCheck n (Spec.fromZero a) fun i => junk (i + 1)).1 = some (-(i : Int)) at key
  rcases luRowCheck_spec n (Spec.fromZero a) fun i => junk (i + 1) with ⟨r1, r2, r3⟩ | ⟨i, hi, r1, r2, r3⟩
  · rcases key with ⟨vv, k1, -, k3⟩ | ⟨i, -, k2⟩
    · refine Or.inl ⟨vv, k1, ?_, ?_⟩
      · intro i h1 h2
        obtain ⟨j, hj, hne⟩ := r2 (i - 1) (by omega)
        refine ⟨j + 1, by omega, by omega, ?_⟩
        unfold Spec.fromZero at hne
        rwa [Nat.sub_add_cancel h1] at hne
      · intro i h1 h2
        have := r3 (i - 1) (by omega)
        rw [← k3] at this
        dsimp only at this
        rwa [Nat.sub_add_cancel h1] at this
    · rw [r1] at k2; cases k2
  · rcases key with ⟨vv, -, k2, -⟩ | ⟨i', k1, k2⟩
    · rw [r1] at k2; cases k2
    · rw [r1] at k2
      injection k2 with k2
      have hi' : i' = i + 1 := by omega
      subst hi'
      refine Or.inr ⟨i + 1, by omega, by omega, k1, ?_, ?_⟩
      · intro j h1 h2
        have := r2 (j - 1) (by omega)
        unfold Spec.fromZero at this
        rwa [Nat.sub_add_cancel h1] at this
      · intro i' h1 h2
        obtain ⟨j, hj, hne⟩ := r3 (i' - 1) (by omega)
        refine ⟨j + 1, by omega, by omega, ?_⟩
        unfold Spec.fromZero at hne
        rwa [Nat.sub_add_cancel h1] at hne

/-- C166: ludcmp stops exactly for matrices with a row of zeros, at the first one; else it returns. -/
theorem C166_stops [IsStrictOrderedRing K] (n imax : Nat) (junk : Nat → K) (a : Nat → Nat → K) (indx : Nat → Nat) :
    ((∃ s, ludcmp n imax junk a indx = .ok s) ∧ ∀ i, 1 ≤ i → i ≤ n → ∃ j, 1 ≤ j ∧ j ≤ n ∧ a i j ≠ 0) ∨
    ∃ i, 1 ≤ i ∧ i ≤ n ∧ ludcmp n imax junk a indx = .error i ∧ (∀ j, 1 ≤ j → j ≤ n → a i j = 0) ∧
      ∀ i', 1 ≤ i' → i' < i → ∃ j, 1 ≤ j ∧ j ≤ n ∧ a i' j ≠ 0 := by
  unfold ludcmp
  rcases nrScale_spec n a junk with ⟨vv, h1, h2, -⟩ | ⟨i, h1, h2, h3, h4, h5⟩
  · rw [h1]; exact Or.inl ⟨⟨_, rfl⟩, h2⟩
  · rw [h3]; exact Or.inr ⟨i, h1, h2, rfl, h4, h5⟩

theorem ludcmp_inv [IsStrictOrderedRing K] {n imax : Nat} {junk : Nat → K} {a : Nat → Nat → K} {indx : Nat → Nat}
    {s : NrLuState K} (h : ludcmp n imax junk a indx = .ok s) :
    ∃ t Z, NrRel n s t ∧ LUInv n (Spec.fromZero a) n t Z := by
  unfold ludcmp at h
  rcases nrScale_spec n a junk with ⟨vv, h1, -, h2⟩ | ⟨i, -, -, h1, -, -⟩
  · rw [h1] at h
    injection h with h
    subst h
    obtain ⟨t, ht, Z, hZ⟩ := luCrout (n := n) (Spec.fromZero a) (v := fun i => vv (i + 1))
      (fun i hi => h2 (i + 1) (by omega) (by omega)) (fun _ => 0)
    refine ⟨t, Z, ?_, hZ⟩
    have key := forN_inv_ok (n := n) (body := luStep n) (t := t)
      (fun j u => NrRel j (upLoop 1 (j + 1) (nrColumn n) ⟨a, indx, 1, vv, imax⟩) u)
      (by
        rw [upLoop_nil (by omega)]
        exact ⟨rfl, rfl, fun i hi => by omega, by simp⟩)
      (by
        intro j hj u u' hu huu
        rw [upLoop_succ (by omega)]
        exact nrColumn_rel n j hj _ u u' hu huu) ht
    exact key
  · rw [h1] at h; cases h

theorem lubksb_eq (n : Nat) (a : Nat → Nat → K) (indx p : Nat → Nat) (hp : ∀ i, i < n → indx (i + 1) = p i + 1)
    (b : Nat → K) : (fun i => lubksb n a indx b (i + 1)) = luSolve n (Spec.fromZero a) p fun i => b (i + 1) := by
  unfold lubksb luSolve
  have fwd := upLoop_shift (lo := 0) (hi := n) (body := fun i (s : (Nat → K) × Nat) =>
      let ip := indx i
      let sum := s.1 ip
      let b := aset s.1 ip (s.1 i)
      if s.2 ≠ 0 then (aset b i (upLoop s.2 i (fun j sum => sum - a i j * b j) sum), s.2)
      else (aset b i sum, if sum ≠ 0 then i else s.2))
    (body' := fun i (s : (Nat → K) × Option Nat) =>
      let p_i := p i;
      let sum := s.1 p_i;
      let b := aset s.1 p_i (s.1 i);
      match s.2 with
      | some i_nz => (aset b i (upLoop i_nz i (fun j sum => sum - Spec.fromZero a i j * b j) sum), some i_nz)
      | none => (aset b i sum, if sum ≠ 0 then some i else none))
    (s := (b, 0)) (t := (fun i => b (i + 1), none))
    (fun s t => (fun i => s.1 (i + 1)) = t.1 ∧ ((s.2 = 0 ∧ t.2 = none) ∨ ∃ m, s.2 = m + 1 ∧ t.2 = some m))
    ⟨rfl, Or.inl ⟨rfl, rfl⟩⟩
    (by
      rintro k ⟨s1, s2⟩ ⟨t1, t2⟩ _ hk ⟨h1, h2⟩
      dsimp only at h1 h2 ⊢
      subst h1
      rw [hp k hk]
      have hset : (fun i => aset s1 (p k + 1) (s1 (k + 1)) (i + 1)) = aset (fun i => s1 (i + 1)) (p k) (s1 (k + 1)) :=
        shift_aset _ _ _
      rcases h2 with ⟨rfl, rfl⟩ | ⟨m, rfl, rfl⟩
      · rw [if_neg (by simp)]
        dsimp only
        refine ⟨?_, ?_⟩
        · rw [shift_aset, hset]
        · by_cases hz : s1 (p k + 1) ≠ 0
          · rw [if_pos hz, if_pos hz]; exact Or.inr ⟨k, rfl, rfl⟩
          · rw [if_neg hz, if_neg hz]; exact Or.inl ⟨rfl, rfl⟩
      · rw [if_pos (by omega)]
        dsimp only
        refine ⟨?_, Or.inr ⟨m, rfl, rfl⟩⟩
        rw [shift_aset, hset]
        congr 1
        refine upLoop_shift (fun s t => s = t) rfl fun l s t _ _ h => ?_
        rw [h, ← hset]
        rfl)
  have back := downLoop_shift (lo := 0) (hi := n)
    (body := fun i (b : Nat → K) => aset b i (upLoop (i + 1) (n + 1) (fun j sum => sum - a i j * b j) (b i) / a i i))
    (body' := fun i (b : Nat → K) =>
      let sum := upLoop (i + 1) n (fun j sum => sum - Spec.fromZero a i j * b j) (b i);
      aset b i (sum / Spec.fromZero a i i))
    (s := (nrForward n a indx b).1) (t := (luForward n (Spec.fromZero a) p fun i => b (i + 1)).1)
    (fun s t => (fun i => s (i + 1)) = t) fwd.1
    (by
      intro k s t _ _ h
      subst h
      dsimp only
      rw [shift_aset]
      congr 1
      have : upLoop (k + 1 + 1) (n + 1) (fun j sum => sum - a (k + 1) j * s j) (s (k + 1)) =
          upLoop (k + 1) n (fun j sum => sum - Spec.fromZero a k j * s (j + 1)) (s (k + 1)) :=
        upLoop_shift (fun s t => s = t) rfl fun l s t _ _ h => by rw [h]; rfl
      rw [this]
      rfl)
  exact back

omit [LinearOrder K] in
theorem sum_fromZero (n : Nat) (f : Nat → K) : ∑ c ∈ Ico 1 (n + 1), f c = ∑ c ∈ range n, f (c + 1) := by
  rw [Finset.sum_Ico_eq_sum_range]
  simp [Nat.add_comm]

omit [LinearOrder K] in
theorem prod_fromZero (n : Nat) (f : Nat → K) : ∏ c ∈ Ico 1 (n + 1), f c = ∏ c ∈ range n, f (c + 1) := by
  rw [Finset.prod_Ico_eq_prod_range]
  simp [Nat.add_comm]

/-- C166: every matrix for which ludcmp returns.  There is an invertible matrix A' for which lubksb gives the exact
solution for every right hand side, and d times the product of the diagonal is its determinant.  A' differs from A
only in that TINY is added to some entries, at most one in each row and column, and if there is such an entry, then A is
singular. -/
theorem C166_perturbed [IsStrictOrderedRing K] {n imax : Nat} {junk : Nat → K} {a : Nat → Nat → K} {indx : Nat → Nat}
    {s : NrLuState K} (h : ludcmp n imax junk a indx = .ok s) :
    ∃ A' : Nat → Nat → K, (Spec.matrix n (Spec.fromZero A')).det ≠ 0 ∧
      (∀ b i, 1 ≤ i → i ≤ n → ∑ c ∈ Ico 1 (n + 1), A' i c * lubksb n s.a s.indx b c = b i) ∧
      s.d * ∏ c ∈ Ico 1 (n + 1), s.a c c = (Spec.matrix n (Spec.fromZero A')).det ∧
      (∀ i c, 1 ≤ i → 1 ≤ c → A' i c = a i c ∨ A' i c = a i c + 1 / 10 ^ 300) ∧
      (∀ i c c', 1 ≤ i → 1 ≤ c → 1 ≤ c' → A' i c ≠ a i c → A' i c' ≠ a i c' → c = c') ∧
      (∀ i i' c, 1 ≤ i → 1 ≤ i' → 1 ≤ c → A' i c ≠ a i c → A' i' c ≠ a i' c → i = i') ∧
      ((∃ i c, 1 ≤ i ∧ i ≤ n ∧ 1 ≤ c ∧ c ≤ n ∧ A' i c ≠ a i c) → (Spec.matrix n (Spec.fromZero a)).det = 0) := by
  obtain ⟨t, Z, hR, hZ⟩ := ludcmp_inv h
  obtain ⟨A', h1, h2, h3, h4, h5, h6, h7⟩ := lu_perturbed hZ
  have cast : ∀ i, 1 ≤ i → i - 1 + 1 = i := fun i hi => Nat.sub_add_cancel hi
  refine ⟨fun i c => A' (i - 1) (c - 1), h1, ?_, ?_, ?_, ?_, ?_, ?_⟩
  · intro b i hi hin
    have := h2 (fun i => b (i + 1)) (i - 1) (by omega)
    rw [sum_fromZero]
    dsimp only at this ⊢
    rw [cast i hi, ← hR.a, ← lubksb_eq n s.a s.indx t.p hR.indx b] at this
    simpa using this
  · rw [prod_fromZero]
    have e : s.d * ∏ c ∈ range n, s.a (c + 1) (c + 1) = luDet n t.A t.parity := by
      rw [luDet_eq, hR.d, ← hR.a]; rfl
    rw [e, h3]; rfl
  · intro i c hi hc
    have := h4 (i - 1) (c - 1)
    unfold Spec.fromZero at this
    rwa [cast i hi, cast c hc] at this
  · intro i c c' hi hc hc' g1 g2
    have := h5 (i - 1) (c - 1) (c' - 1) (by unfold Spec.fromZero; rwa [cast i hi, cast c hc])
      (by unfold Spec.fromZero; rwa [cast i hi, cast c' hc'])
    omega
  · intro i i' c hi hi' hc g1 g2
    have := h6 (i - 1) (i' - 1) (c - 1) (by unfold Spec.fromZero; rwa [cast i hi, cast c hc])
      (by unfold Spec.fromZero; rwa [cast i' hi', cast c hc])
    omega
  · rintro ⟨i, c, hi, hin, hc, hcn, hne⟩
    exact h7 ⟨i - 1, c - 1, by omega, by omega, by unfold Spec.fromZero; rwa [cast i hi, cast c hc]⟩

/-- C166: for every invertible matrix ludcmp returns, lubksb then overwrites every b with the solution of A x = b,
and d times the product of the diagonal is the determinant. -/
theorem C166_invertible [IsStrictOrderedRing K] (n imax : Nat) (junk : Nat → K) (a : Nat → Nat → K) (indx : Nat → Nat)
    (ha : (Spec.matrix n (Spec.fromZero a)).det ≠ 0) :
    ∃ s, ludcmp n imax junk a indx = .ok s ∧
      (∀ b i, 1 ≤ i → i ≤ n → ∑ c ∈ Ico 1 (n + 1), a i c * lubksb n s.a s.indx b c = b i) ∧
      s.d * ∏ c ∈ Ico 1 (n + 1), s.a c c = (Spec.matrix n (Spec.fromZero a)).det := by
  rcases C166_stops n imax junk a indx with ⟨⟨s, hs⟩, -⟩ | ⟨i, hi, hin, -, h0, -⟩
  · obtain ⟨A', -, h2, h3, -, -, -, h7⟩ := C166_perturbed hs
    have heq : ∀ i c, 1 ≤ i → i ≤ n → 1 ≤ c → c ≤ n → A' i c = a i c := by
      intro i c h1 h2 h3 h4
      by_contra hne
      exact ha (h7 ⟨i, c, h1, h2, h3, h4, hne⟩)
    refine ⟨s, hs, fun b i hi hin => ?_, ?_⟩
    · rw [← h2 b i hi hin]
      refine Finset.sum_congr rfl fun c hc => ?_
      rw [Finset.mem_Ico] at hc
      rw [heq i c hi hin hc.1 (by omega)]
    · rw [h3]
      congr 1
      ext i c
      exact heq (i + 1) (c + 1) (by omega) (by omega) (by omega) (by omega)
  · exact absurd (Matrix.det_eq_zero_of_row_eq_zero (A := Spec.matrix n (Spec.fromZero a)) ⟨i - 1, by omega⟩ fun c => by
      show a (i - 1 + 1) (c + 1) = 0
      rw [Nat.sub_add_cancel hi]
      exact h0 _ (by omega) (by omega)) ha

/-- C166: ludcmpSing.  The status j is the first column of zeros, -i the first row of zeros if there is no such column;
then the matrix is as before.  Else the status is 0 and the result is that of ludcmp. -/
theorem C166_status [IsStrictOrderedRing K] (n imax : Nat) (junk : Nat → K) (a : Nat → Nat → K) (indx : Nat → Nat) :
    ((ludcmpSing n imax junk a indx).1 = 0 ∧ ludcmp n imax junk a indx = .ok (ludcmpSing n imax junk a indx).2 ∧
      (∀ j, 1 ≤ j → j ≤ n → ∃ i, 1 ≤ i ∧ i ≤ n ∧ a i j ≠ 0) ∧ (∀ i, 1 ≤ i → i ≤ n → ∃ j, 1 ≤ j ∧ j ≤ n ∧ a i j ≠ 0)) ∨
    (∃ j : Nat, 1 ≤ j ∧ j ≤ n ∧ (ludcmpSing n imax junk a indx).1 = j ∧ (ludcmpSing n imax junk a indx).2.a = a ∧
      (∀ i, 1 ≤ i → i ≤ n → a i j = 0) ∧ ∀ j', 1 ≤ j' → j' < j → ∃ i, 1 ≤ i ∧ i ≤ n ∧ a i j' ≠ 0) ∨
    (∃ i : Nat, 1 ≤ i ∧ i ≤ n ∧ (ludcmpSing n imax junk a indx).1 = -(i : Int) ∧ (ludcmpSing n imax junk a indx).2.a = a ∧
      (∀ j, 1 ≤ j → j ≤ n → a i j = 0) ∧ (∀ i', 1 ≤ i' → i' < i → ∃ j, 1 ≤ j ∧ j ≤ n ∧ a i' j ≠ 0) ∧
      ∀ j, 1 ≤ j → j ≤ n → ∃ i, 1 ≤ i ∧ i ≤ n ∧ a i j ≠ 0) := by
  have col := upLoop_shift (lo := 0) (hi := n) (body := fun j (s : Except Nat Unit) => match s with
    | .error e => (.error e : Except Nat Unit)
    | .ok () => if nrColBig n a j = 0 then .error j else .ok ())
    (body' := fun j (r : Option Int) => match r with
    | some r => some r
    | none => if luBig n (fun i => Spec.fromZero a i j) = 0 then some ((j : Int) + 1) else none)
    (s := .ok ()) (t := none)
    (fun s t => (s = .ok () ∧ t = none) ∨ ∃ j : Nat, s = .error j ∧ t = some (j : Int)) (Or.inl ⟨rfl, rfl⟩)
    (by
      rintro k s t _ _ (⟨rfl, rfl⟩ | ⟨j, rfl, rfl⟩)
      · dsimp only
        rw [nrColBig_eq]
        split_ifs
        · exact Or.inr ⟨k + 1, rfl, by push_cast; rfl⟩
        · exact Or.inl ⟨rfl, rfl⟩
      · exact Or.inr ⟨j, rfl, rfl⟩)
  change (nrColCheck n a = .ok () ∧ luColCheck n (Spec.fromZero a) = none) ∨
    ∃ j : Nat, nrColCheck n a = .error j ∧ luColCheck n (Spec.fromZero a) = some (j : Int) at col
  unfold ludcmpSing
  rcases luColCheck_spec n (Spec.fromZero a) with ⟨c1, c2⟩ | ⟨j, hj, c1, c2, c3⟩
  · have c2' : ∀ j, 1 ≤ j → j ≤ n → ∃ i, 1 ≤ i ∧ i ≤ n ∧ a i j ≠ 0 := by
      intro j h1 h2
      obtain ⟨i, hi, hne⟩ := c2 (j - 1) (by omega)
      refine ⟨i + 1, by omega, by omega, ?_⟩
      unfold Spec.fromZero at hne
      rwa [Nat.sub_add_cancel h1] at hne
    rcases col with ⟨k1, -⟩ | ⟨j, -, k2⟩
    · rw [k1]
      dsimp only
      rcases C166_stops n imax junk a indx with ⟨⟨s, hs⟩, hr⟩ | ⟨i, hi, hin, hs, h0, hr⟩
      · rw [hs]; exact Or.inl ⟨rfl, rfl, c2', hr⟩
      · rw [hs]; exact Or.inr (Or.inr ⟨i, hi, hin, rfl, rfl, h0, hr, c2'⟩)
    · have : luColCheck n (Spec.fromZero a) = some (j : Int) := k2
      rw [c1] at this; cases this
  · rcases col with ⟨-, k2⟩ | ⟨j', k1, k2⟩
    · have : luColCheck n (Spec.fromZero a) = none := k2
      rw [c1] at this; cases this
    · have k2' : luColCheck n (Spec.fromZero a) = some (j' : Int) := k2
      rw [c1] at k2'
      injection k2' with k2'
      have : j' = j + 1 := by omega
      subst this
      rw [k1]
      refine Or.inr (Or.inl ⟨j + 1, by omega, by omega, rfl, rfl, ?_, ?_⟩)
      · intro i h1 h2
        have := c2 (i - 1) (by omega)
        unfold Spec.fromZero at this
        rwa [Nat.sub_add_cancel h1] at this
      · intro j' h1 h2
        obtain ⟨i, hi, hne⟩ := c3 (j' - 1) (by omega)
        refine ⟨i + 1, by omega, by omega, ?_⟩
        unfold Spec.fromZero at hne
        rwa [Nat.sub_add_cancel h1] at hne

/-- A system that needs exchanges of rows: 2y + z = 1, x + y + 3z = 2, 4x + z = 3. -/
example : (match ludcmp 3 7 (fun _ => 7) (fun i j => luExample (i - 1) (j - 1)) (fun _ => 7) with
    | .ok s => (s.d, (List.range' 1 3).map s.indx, (List.range' 1 3).map (lubksb 3 s.a s.indx fun i => i))
    | .error _ => (7, [], [])) = (1, [3, 3, 3], [2 / 3, 1 / 3, 1 / 3]) := by decide +kernel

/-- A column of zeros. -/
example : (ludcmpSing 2 7 (fun _ => (7 : ℚ)) (fun _ j => if j = 2 then 0 else 1) fun _ => 7).1 = 2 := by decide +kernel

/-- A row of zeros. -/
example : (ludcmpSing 2 7 (fun _ => (7 : ℚ)) (fun i _ => if i = 2 then 0 else 1) fun _ => 7).1 = -2 := by decide +kernel

end Sgrid

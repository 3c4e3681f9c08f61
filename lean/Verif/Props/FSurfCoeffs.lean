import Verif.Model.FSurfCoeffs
import Verif.Model.Integrals
import Verif.Props.FSurf
import Verif.Lemmas.Lines
import Verif.Props.StdBox

/-!
# C141: the coefficients of the surfaces of cubed spheres
-/

namespace Sgrid
open Real Finset Polynomial

/-! ## Specification -/

/-- `L` integrates over the points `(j,k)` of a surface: `int2` replaces every value of an array by the integral over
the surface through the point. -/
def Spec.IntegratesBy (d : Dims) (int2 : (Nat → ℝ) → Res (Nat → ℝ)) (L : (Nat → Nat → ℝ) → ℝ) : Prop :=
  (∀ f g : Nat → Nat → ℝ, (∀ j < d.n2, ∀ k < d.n3, f j k = g j k) → L f = L g) ∧
  ∀ u, ∃ U, int2 u = .ok U ∧ ∀ i j k, Spec.inBox d i j k → U (d.idx i j k) = L fun j k => u (d.idx i j k)

/-- The element of solid angle `dΩ = dA dB / (1+A²+B²)^(3/2)` of a cubed sphere. -/
noncomputable def Spec.solidAngle (A B : ℝ) : ℝ := 1 / ((1 + A ^ 2 + B ^ 2) * √(1 + A ^ 2 + B ^ 2))

/-! ## Loops -/

theorem lmLoop1_inv {σ : Type} (lmax : Nat) (body : Nat → Nat → Nat → σ → σ) (s : σ) (P : Nat → σ → Prop) (h0 : P 0 s)
    (hs : ∀ l m t, l ≤ lmax → m ≤ l → P (indLm l m) t → P (indLm l m + 1) (body l m (indLm l m) t)) :
    P (indLm (lmax + 1) 0) (lmLoop1 lmax body s).2 := by
  unfold lmLoop1
  have inner : ∀ l ≤ lmax, ∀ q : Nat × σ, q.1 = indLm l 0 ∧ P (indLm l 0) q.2 →
      (fun q : Nat × σ => q.1 = indLm (l + 1) 0 ∧ P (indLm (l + 1) 0) q.2)
        (upLoop 0 (l + 1) (fun m (q : Nat × σ) => (q.1 + 1, body l m q.1 q.2)) q) := by
    intro l hl q hq
    have := upLoop_inv (lo := 0) (hi := l + 1) (by omega) (body := fun m (q : Nat × σ) => (q.1 + 1, body l m q.1 q.2))
      (s := q) (fun j q => q.1 = indLm l j ∧ P (indLm l j) q.2) hq (by
        rintro j ⟨n, t⟩ - hj ⟨h1, h2⟩
        simp only at h1 h2 ⊢
        subst h1
        have e : indLm l (j + 1) = indLm l j + 1 := by simp only [indLm]; ring
        rw [e]
        exact ⟨rfl, hs l j t hl (by omega) h2⟩)
    have e : indLm l (l + 1) = indLm (l + 1) 0 := by
      rw [indLm_add l, indLm_succ]; ring
    rw [e] at this
    exact this
  have := upLoop_inv (lo := 0) (hi := lmax + 1) (by omega) (body := fun l (q : Nat × σ) =>
    upLoop 0 (l + 1) (fun m (q : Nat × σ) => (q.1 + 1, body l m q.1 q.2)) q) (s := (0, s))
    (fun l q => q.1 = indLm l 0 ∧ P (indLm l 0) q.2) ⟨by simp [indLm], by simpa [indLm] using h0⟩
    (fun l q _ hl hq => inner l (by omega) q hq)
  exact this.2

theorem segIndex_inj {d : Dims} (h1 : 0 < d.n1) {i j k i' j' k' : Nat} (hj : j < d.n2) (hk : k < d.n3) (hj' : j' < d.n2)
    (hk' : k' < d.n3) (h : segIndex d i j k = segIndex d i' j' k') : i = i' ∧ j = j' ∧ k = k' := by
  unfold segIndex at h
  have b1 := Nat.mod_lt i h1
  have b2 := Nat.mod_lt i' h1
  have l1 : d.idx (i % d.n1) j k < d.n1 * d.n2 * d.n3 := idx_lt ⟨b1, hj, hk⟩
  have l2 : d.idx (i' % d.n1) j' k' < d.n1 * d.n2 * d.n3 := idx_lt ⟨b2, hj', hk'⟩
  generalize d.n1 * d.n2 * d.n3 = N at *
  have e1 := congrArg (· / N) h
  have e2 := congrArg (· % N) h
  simp only [Nat.add_mul_div_left _ _ (show 0 < N by omega), Nat.div_eq_of_lt l1, Nat.div_eq_of_lt l2,
    Nat.add_mul_mod_self_left, Nat.mod_eq_of_lt l1, Nat.mod_eq_of_lt l2] at e1 e2
  obtain ⟨e3, e4, e5⟩ := idx_inj b1 b2 hj hj' e2
  refine ⟨?_, e4, e5⟩
  rw [← Nat.div_add_mod i d.n1, ← Nat.div_add_mod i' d.n1, e3]
  rw [show i / d.n1 = i' / d.n1 by omega]

theorem point_fill {d : Dims} (h1 : 0 < d.n1) {j k : Nat} (hj : j < d.n2) (hk : k < d.n3) (lmax : Nat)
    (F G : Nat → Nat → Nat → ℝ) (s : (Nat → ℝ) × (Nat → ℝ)) :
    let r := (lmLoop1 lmax (fun l m i (s : (Nat → ℝ) × (Nat → ℝ)) =>
      (aset s.1 (segIndex d i j k) (F l m i), aset s.2 (segIndex d i j k) (G l m i))) s).2
    (∀ l ≤ lmax, ∀ m ≤ l, r.1 (segIndex d (indLm l m) j k) = F l m (indLm l m) ∧
      r.2 (segIndex d (indLm l m) j k) = G l m (indLm l m)) ∧
    ∀ p, (∀ i, p ≠ segIndex d i j k) → r.1 p = s.1 p ∧ r.2 p = s.2 p := by
  have := lmLoop1_inv lmax (fun l m i (s : (Nat → ℝ) × (Nat → ℝ)) =>
      (aset s.1 (segIndex d i j k) (F l m i), aset s.2 (segIndex d i j k) (G l m i))) s
    (fun p r => (∀ l m, m ≤ l → indLm l m < p → r.1 (segIndex d (indLm l m) j k) = F l m (indLm l m) ∧
      r.2 (segIndex d (indLm l m) j k) = G l m (indLm l m)) ∧
      ∀ p, (∀ i, p ≠ segIndex d i j k) → r.1 p = s.1 p ∧ r.2 p = s.2 p)
    ⟨fun _ _ _ h => by omega, fun _ _ => ⟨rfl, rfl⟩⟩ (by
      rintro l m t hl hm ⟨g1, g2⟩
      refine ⟨fun l' m' hm' hlt => ?_, fun p hp => ?_⟩
      · by_cases he : indLm l' m' = indLm l m
        · obtain ⟨rfl, rfl⟩ := indLm_inj hm' hm he
          simp only [aset_self, and_self]
        · have hne : segIndex d (indLm l' m') j k ≠ segIndex d (indLm l m) j k := fun h =>
            he (segIndex_inj h1 hj hk hj hk h).1
          simp only [aset_ne _ _ hne]
          exact g1 l' m' hm' (by omega)
      · simp only [aset_ne _ _ (hp _)]
        exact g2 p hp)
  simp only
  refine ⟨fun l hl m hm => this.1 l m hm ?_, this.2⟩
  exact indLm_lt (by omega) hm

theorem grid_up {σ : Type} (n2 n3 : Nat) (body : Nat → Nat → σ → σ) (s : σ) (P : Nat → Nat → σ → Prop)
    (hset : ∀ j k t, j < n2 → k < n3 → P j k (body k j t))
    (hkeep : ∀ j k j' k' t, j < n2 → k < n3 → j' < n2 → k' < n3 → ¬(j = j' ∧ k = k') → P j' k' t → P j' k' (body k j t)) :
    ∀ j < n2, ∀ k < n3, P j k (upLoop 0 n3 (fun k t => upLoop 0 n2 (fun j t => body k j t) t) s) := by
  have := upLoop_inv (lo := 0) (hi := n3) (by omega) (body := fun k t => upLoop 0 n2 (fun j t => body k j t) t) (s := s)
    (fun k t => ∀ j < n2, ∀ k' < k, P j k' t) (fun _ _ _ h => by omega) (by
      intro k t _ hk ht
      have inner := upLoop_inv (lo := 0) (hi := n2) (by omega) (body := fun j t => body k j t) (s := t)
        (fun j t => (∀ j' < n2, ∀ k' < k, P j' k' t) ∧ ∀ j' < j, P j' k t) ⟨ht, fun _ h => by omega⟩ (by
          rintro j u _ hj ⟨g1, g2⟩
          refine ⟨fun j' hj' k' hk' => hkeep j k j' k' u hj hk hj' (by omega) (by omega) (g1 j' hj' k' hk'), ?_⟩
          intro j' hj'
          by_cases h : j' = j
          · subst h
            exact hset _ _ _ hj hk
          · exact hkeep j k j' k u hj hk (by omega) hk (by omega) (g2 j' (by omega)))
      intro j hj k' hk'
      by_cases h : k' = k
      · subst h
        exact inner.2 j hj
      · exact inner.1 j hj k' (by omega))
  exact this

theorem grid_for {σ : Type} (n2 n3 : Nat) (body : Nat → Nat → σ → Res σ) (s : σ) (P : Nat → Nat → σ → Prop)
    (hset : ∀ j k t, j < n2 → k < n3 → ∃ t', body k j t = .ok t' ∧ P j k t' ∧
      ∀ j' k', j' < n2 → k' < n3 → ¬(j = j' ∧ k = k') → P j' k' t → P j' k' t') :
    ∃ r, forN n3 (fun k t => forN n2 (fun j t => body k j t) t) s = .ok r ∧ ∀ j < n2, ∀ k < n3, P j k r := by
  refine forN_inv (fun k t => ∀ j < n2, ∀ k' < k, P j k' t) (fun _ _ _ h => by omega) ?_
  intro k hk t ht
  obtain ⟨u, hu, g⟩ := forN_inv (n := n2) (body := fun j t => body k j t) (s := t)
    (fun j t => (∀ j' < n2, ∀ k' < k, P j' k' t) ∧ ∀ j' < j, P j' k t) ⟨ht, fun _ h => by omega⟩ (by
      rintro j hj u ⟨g1, g2⟩
      obtain ⟨u', hu', a, b⟩ := hset j k u hj hk
      refine ⟨u', hu', fun j' hj' k' hk' => b j' k' hj' (by omega) (by omega) (g1 j' hj' k' hk'), ?_⟩
      intro j' hj'
      by_cases h : j' = j
      · subst h
        exact a
      · exact b j' k (by omega) hk (by omega) (g2 j' (by omega)))
  refine ⟨u, hu, fun j hj k' hk' => ?_⟩
  by_cases h : k' = k
  · subst h
    exact g.2 j hj
  · exact g.1 j hj k' (by omega)

/-! ## The steps -/

theorem setYlm_eq {q : Nat → Nat → ℝ[X]} (hq : ∀ m, Spec.LegendreFns m (q m)) (b : CubBox) {d : Dims} (h1 : 0 < d.n1)
    {S1 lmax : Nat} (hS : lmax * (lmax + 1) / 2 + lmax + 1 ≤ d.n1 * S1) (Yp Zp Re Im : Nat → ℝ) :
    ∃ r, fsurfSetYlm b d S1 lmax Yp Zp Re Im = .ok r ∧ ∀ j < d.n2, ∀ k < d.n3, ∀ l ≤ lmax, ∀ m ≤ l,
      r.1 (segIndex d (indLm l m) j k) =
        (Spec.sphY q l m (thetaPhiOfAB b (Yp (d.idx 0 j k)) (Zp (d.idx 0 j k))).1
          (thetaPhiOfAB b (Yp (d.idx 0 j k)) (Zp (d.idx 0 j k))).2).re ∧
      r.2 (segIndex d (indLm l m) j k) =
        (Spec.sphY q l m (thetaPhiOfAB b (Yp (d.idx 0 j k)) (Zp (d.idx 0 j k))).1
          (thetaPhiOfAB b (Yp (d.idx 0 j k)) (Zp (d.idx 0 j k))).2).im := by
  unfold fsurfSetYlm
  simp only
  rw [if_neg (by omega)]
  obtain ⟨r, hr, hP⟩ := grid_for d.n2 d.n3 (fun k j (s : ((Nat → ℝ) × (Nat → ℝ)) × ((Nat → ℝ) × (Nat → ℝ))) =>
      (setYlmTabs lmax (thetaPhiOfAB b (Yp (d.idx 0 j k)) (Zp (d.idx 0 j k))).1
        (thetaPhiOfAB b (Yp (d.idx 0 j k)) (Zp (d.idx 0 j k))).2 s.2.1 s.2.2).bind fun t =>
        Res.ok ((lmLoop1 lmax (fun l m i (s : (Nat → ℝ) × (Nat → ℝ)) =>
          (aset s.1 (segIndex d i j k) (ylmFromTabs t.1 t.2 l m).1, aset s.2 (segIndex d i j k) (ylmFromTabs t.1 t.2 l m).2))
            s.1).2, t)) ((Re, Im), (fun _ => 0, fun _ => 0))
    (fun j k s => ∀ l ≤ lmax, ∀ m ≤ l, s.1.1 (segIndex d (indLm l m) j k) =
        (Spec.sphY q l m (thetaPhiOfAB b (Yp (d.idx 0 j k)) (Zp (d.idx 0 j k))).1
          (thetaPhiOfAB b (Yp (d.idx 0 j k)) (Zp (d.idx 0 j k))).2).re ∧
      s.1.2 (segIndex d (indLm l m) j k) =
        (Spec.sphY q l m (thetaPhiOfAB b (Yp (d.idx 0 j k)) (Zp (d.idx 0 j k))).1
          (thetaPhiOfAB b (Yp (d.idx 0 j k)) (Zp (d.idx 0 j k))).2).im) (by
      intro j k s hj hk
      obtain ⟨t, ht, h2, -⟩ := C139_table hq lmax (thetaPhiOfAB b (Yp (d.idx 0 j k)) (Zp (d.idx 0 j k))).2
        (theta_sin b (Yp (d.idx 0 j k)) (Zp (d.idx 0 j k))).1 s.2.1 s.2.2
      rw [ht, Res.bind_ok]
      refine ⟨_, rfl, ?_, ?_⟩
      · intro l hl m hm
        have := (point_fill h1 hj hk lmax (fun l m _ => (ylmFromTabs t.1 t.2 l m).1)
          (fun l m _ => (ylmFromTabs t.1 t.2 l m).2) s.1).1 l hl m hm
        simp only at this ⊢
        rw [this.1, this.2, h2 l hl m (by rw [Nat.abs_cast]; exact_mod_cast hm)]
        exact ⟨rfl, rfl⟩
      · intro j' k' hj' hk' hne hP l hl m hm
        have := (point_fill h1 hj hk lmax (fun l m _ => (ylmFromTabs t.1 t.2 l m).1)
          (fun l m _ => (ylmFromTabs t.1 t.2 l m).2) s.1).2 (segIndex d (indLm l m) j' k') (fun i e => by
            have := segIndex_inj h1 hj' hk' hj hk e
            omega)
        simp only at this ⊢
        rw [this.1, this.2]
        exact hP l hl m hm)
  exact ⟨r.1, by rw [hr, Res.bind_ok], hP⟩

theorem integrands_eq (b : CubBox) {d : Dims} (h1 : 0 < d.n1) (s lmax : Nat) (Yp Zp Rv : Nat → ℝ) (Iv : Option (Nat → ℝ))
    (Y t : (Nat → ℝ) × (Nat → ℝ)) : ∀ j < d.n2, ∀ k < d.n3, ∀ l ≤ lmax, ∀ m ≤ l,
      (fsurfIntegrands b d s lmax Yp Zp Rv Iv Y t).1 (segIndex d (indLm l m) j k) =
        Y.1 (segIndex d (indLm l m) j k) * (Rv (d.idx s j k) * fsurfFac b (Yp (d.idx s j k)) (Zp (d.idx s j k))) +
        Y.2 (segIndex d (indLm l m) j k) *
          ((Iv.elim 0 fun v => v (d.idx s j k)) * fsurfFac b (Yp (d.idx s j k)) (Zp (d.idx s j k))) ∧
      (fsurfIntegrands b d s lmax Yp Zp Rv Iv Y t).2 (segIndex d (indLm l m) j k) =
        Y.1 (segIndex d (indLm l m) j k) *
          ((Iv.elim 0 fun v => v (d.idx s j k)) * fsurfFac b (Yp (d.idx s j k)) (Zp (d.idx s j k))) -
        Y.2 (segIndex d (indLm l m) j k) * (Rv (d.idx s j k) * fsurfFac b (Yp (d.idx s j k)) (Zp (d.idx s j k))) := by
  let F : Nat → Nat → Nat → ℝ := fun j k i => Y.1 (segIndex d i j k) * (Rv (d.idx s j k) *
    fsurfFac b (Yp (d.idx s j k)) (Zp (d.idx s j k))) + Y.2 (segIndex d i j k) *
      ((Iv.elim 0 fun v => v (d.idx s j k)) * fsurfFac b (Yp (d.idx s j k)) (Zp (d.idx s j k)))
  let G : Nat → Nat → Nat → ℝ := fun j k i => Y.1 (segIndex d i j k) *
      ((Iv.elim 0 fun v => v (d.idx s j k)) * fsurfFac b (Yp (d.idx s j k)) (Zp (d.idx s j k))) -
    Y.2 (segIndex d i j k) * (Rv (d.idx s j k) * fsurfFac b (Yp (d.idx s j k)) (Zp (d.idx s j k)))
  exact grid_up d.n2 d.n3 (fun k j t => (lmLoop1 lmax (fun _ _ i (t : (Nat → ℝ) × (Nat → ℝ)) =>
      (aset t.1 (segIndex d i j k) (F j k i), aset t.2 (segIndex d i j k) (G j k i))) t).2) t
    (fun j k s' => ∀ l ≤ lmax, ∀ m ≤ l, s'.1 (segIndex d (indLm l m) j k) = F j k (indLm l m) ∧
      s'.2 (segIndex d (indLm l m) j k) = G j k (indLm l m))
    (fun j k t hj hk l hl m hm => (point_fill h1 hj hk lmax (fun _ _ i => F j k i) (fun _ _ i => G j k i) t).1 l hl m hm)
    (fun j k j' k' t hj hk hj' hk' hne hP l hl m hm => by
      have := (point_fill h1 hj hk lmax (fun _ _ i => F j k i) (fun _ _ i => G j k i) t).2
        (segIndex d (indLm l m) j' k') (fun i e => by
          have := segIndex_inj h1 hj' hk' hj hk e
          omega)
      obtain ⟨e1, e2⟩ := this
      exact ⟨e1.trans (hP l hl m hm).1, e2.trans (hP l hl m hm).2⟩)

theorem segInt_eq {d : Dims} {int2 : (Nat → ℝ) → Res (Nat → ℝ)} {L : (Nat → Nat → ℝ) → ℝ} (hL : Spec.IntegratesBy d int2 L)
    (h1 : 0 < d.n1) (h2 : 0 < d.n2) (h3 : 0 < d.n3) (seg : Nat) (u : Nat → ℝ) :
    ∃ U, segInt int2 (d.n1 * d.n2 * d.n3) (d.n1 * d.n2 * d.n3 * seg) u = .ok U ∧
      (∀ i, i / d.n1 = seg → U (segIndex d i 0 0) = L fun j k => u (segIndex d i j k)) ∧
      ∀ q, ¬(d.n1 * d.n2 * d.n3 * seg ≤ q ∧ q < d.n1 * d.n2 * d.n3 * seg + d.n1 * d.n2 * d.n3) → U q = u q := by
  obtain ⟨U, hU, hv⟩ := hL.2 fun p => u (d.n1 * d.n2 * d.n3 * seg + p)
  unfold segInt
  rw [hU, Res.bind_ok]
  refine ⟨_, rfl, ?_, fun q hq => if_neg hq⟩
  rintro i rfl
  have hb : Spec.inBox d (i % d.n1) 0 0 := ⟨Nat.mod_lt i h1, h2, h3⟩
  have hlt := idx_lt hb
  have e : segIndex d i 0 0 = d.n1 * d.n2 * d.n3 * (i / d.n1) + d.idx (i % d.n1) 0 0 := by
    unfold segIndex; ring
  rw [e, if_pos (by omega), Nat.add_sub_cancel_left, hv _ _ _ hb]
  congr 1
  funext j k
  unfold segIndex
  rw [add_comm]

theorem segs_eq {d : Dims} {int2 : (Nat → ℝ) → Res (Nat → ℝ)} {L : (Nat → Nat → ℝ) → ℝ} (hL : Spec.IntegratesBy d int2 L)
    (h1 : 0 < d.n1) (h2 : 0 < d.n2) (h3 : 0 < d.n3) (S1 : Nat) (t : (Nat → ℝ) × (Nat → ℝ)) :
    ∃ r, forN S1 (fun seg (t : (Nat → ℝ) × (Nat → ℝ)) =>
        (segInt int2 (d.n1 * d.n2 * d.n3) (d.n1 * d.n2 * d.n3 * seg) t.1).bind fun R =>
          (segInt int2 (d.n1 * d.n2 * d.n3) (d.n1 * d.n2 * d.n3 * seg) t.2).bind fun I => Res.ok (R, I)) t = .ok r ∧
      ∀ i, i < d.n1 * S1 → r.1 (segIndex d i 0 0) = (L fun j k => t.1 (segIndex d i j k)) ∧
        r.2 (segIndex d i 0 0) = L fun j k => t.2 (segIndex d i j k) := by
  set N := d.n1 * d.n2 * d.n3 with hN
  have hNpos : 0 < N := by positivity
  have hseg : ∀ i j k, j < d.n2 → k < d.n3 → N * (i / d.n1) ≤ segIndex d i j k ∧ segIndex d i j k < N * (i / d.n1) + N := by
    intro i j k hj hk
    have := idx_lt (d := d) (i := i % d.n1) (j := j) (k := k) ⟨Nat.mod_lt i h1, hj, hk⟩
    unfold segIndex
    rw [← hN] at this ⊢
    omega
  obtain ⟨r, hr, hP, -⟩ := forN_inv (n := S1) (body := fun seg (t : (Nat → ℝ) × (Nat → ℝ)) =>
        (segInt int2 N (N * seg) t.1).bind fun R => (segInt int2 N (N * seg) t.2).bind fun I => Res.ok (R, I)) (s := t)
    (fun S r => (∀ i, i / d.n1 < S → r.1 (segIndex d i 0 0) = (L fun j k => t.1 (segIndex d i j k)) ∧
        r.2 (segIndex d i 0 0) = L fun j k => t.2 (segIndex d i j k)) ∧ ∀ q, N * S ≤ q → r.1 q = t.1 q ∧ r.2 q = t.2 q)
    ⟨fun _ h => absurd h (Nat.not_lt_zero _), fun _ _ => ⟨rfl, rfl⟩⟩ (by
      rintro S hS u ⟨g1, g2⟩
      obtain ⟨R, e1, a1, b1⟩ := segInt_eq hL h1 h2 h3 S u.1
      obtain ⟨I, e2, a2, b2⟩ := segInt_eq hL h1 h2 h3 S u.2
      rw [← hN] at e1 e2 b1 b2
      rw [e1, Res.bind_ok, e2, Res.bind_ok]
      have hNS : N * (S + 1) = N * S + N := by ring
      refine ⟨_, rfl, fun i hi => ?_, fun q hq => ?_⟩
      · by_cases h : i / d.n1 = S
        · simp only
          rw [a1 i h, a2 i h]
          refine ⟨hL.1 _ _ fun j hj k hk => (g2 _ ?_).1, hL.1 _ _ fun j hj k hk => (g2 _ ?_).2⟩ <;>
          · have := hseg i j k hj hk
            rw [h] at this
            omega
        · have hlt : i / d.n1 + 1 ≤ S := by omega
          have h3' := hseg i 0 0 h2 h3
          have h4 := Nat.mul_le_mul_left N hlt
          have h5 : N * (i / d.n1 + 1) = N * (i / d.n1) + N := by ring
          simp only
          rw [b1 _ (by omega), b2 _ (by omega)]
          exact g1 i (by omega)
      · simp only
        rw [b1 _ (by omega), b2 _ (by omega)]
        exact g2 q (by omega))
  exact ⟨r, hr, fun i hi => hP i ((Nat.div_lt_iff_lt_mul h1).2 (by rw [mul_comm]; exact hi))⟩

/-- **C141.** `FSurf_CubSph_get_Ylm_integrals` writes the integrals of `conj(Y_l^m) var fac` over the surface with index
`s` into `Integ`, real part and imaginary part after each other, and leaves all other entries alone. -/
theorem C141_integrals {q : Nat → Nat → ℝ[X]} (hq : ∀ m, Spec.LegendreFns m (q m)) (b : CubBox) {d : Dims}
    (h1 : 2 ≤ d.n1) {int2 : (Nat → ℝ) → Res (Nat → ℝ)} {L : (Nat → Nat → ℝ) → ℝ} (hL : Spec.IntegratesBy d int2 L)
    {s lmax : Nat} (hs : s < d.n1) (hl : lmax * (lmax + 1) / 2 + lmax + 1 < d.n1 * d.n2 * d.n3 / 4) (A B : Nat → ℝ)
    {Yp Zp : Nat → ℝ} (hY : ∀ i j k, Spec.inBox d i j k → Yp (d.idx i j k) = A j)
    (hZ : ∀ i j k, Spec.inBox d i j k → Zp (d.idx i j k) = B k) (Rv : Nat → ℝ) (Iv : Option (Nat → ℝ)) (Integ : Nat → ℝ) :
    ∃ r, fsurfIntegrals b d int2 s lmax Yp Zp Rv Iv Integ = .ok r ∧
      (∀ l ≤ lmax, ∀ m ≤ l,
        r (d.n1 * d.n2 * d.n3 / 2 * s / (d.n1 - 1) + 2 * (l * (l + 1) / 2 + m)) = (L fun j k =>
          ((starRingEnd ℂ) (Spec.sphY q l m (thetaPhiOfAB b (A j) (B k)).1 (thetaPhiOfAB b (A j) (B k)).2) *
            ⟨Rv (d.idx s j k), Iv.elim 0 fun v => v (d.idx s j k)⟩).re * fsurfFac b (A j) (B k)) ∧
        r (d.n1 * d.n2 * d.n3 / 2 * s / (d.n1 - 1) + 2 * (l * (l + 1) / 2 + m) + 1) = L fun j k =>
          ((starRingEnd ℂ) (Spec.sphY q l m (thetaPhiOfAB b (A j) (B k)).1 (thetaPhiOfAB b (A j) (B k)).2) *
            ⟨Rv (d.idx s j k), Iv.elim 0 fun v => v (d.idx s j k)⟩).im * fsurfFac b (A j) (B k)) ∧
      ∀ p, p < d.n1 * d.n2 * d.n3 / 2 * s / (d.n1 - 1) ∨
        d.n1 * d.n2 * d.n3 / 2 * s / (d.n1 - 1) + (lmax + 1) * (lmax + 2) ≤ p → r p = Integ p := by
  have hpos : 0 < d.n1 * d.n2 * d.n3 := by omega
  have h2 : 0 < d.n2 := Nat.pos_of_ne_zero fun h => by simp [h] at hpos
  have h3 : 0 < d.n3 := Nat.pos_of_ne_zero fun h => by simp [h] at hpos
  have h0 : 0 < d.n1 := by omega
  set N := d.n1 * d.n2 * d.n3 with hN
  set nYs := lmax * (lmax + 1) / 2 + lmax + 1 with hnY
  set S1 := if nYs % d.n1 ≠ 0 then nYs / d.n1 + 1 else nYs / d.n1 with hS1
  have hS : nYs ≤ d.n1 * S1 := by
    have := Nat.div_add_mod nYs d.n1
    have := Nat.mod_lt nYs h0
    rw [hS1]
    split_ifs with h
    · rw [mul_add]; omega
    · omega
  have hn : indLm (lmax + 1) 0 = nYs := by rw [indLm_succ, hnY]; simp only [indLm]; omega
  obtain ⟨Y, eY, pY⟩ := setYlm_eq hq b h0 hS Yp Zp (fun _ => 0) (fun _ => 0)
  obtain ⟨t, et, pt⟩ := segs_eq hL h0 h2 h3 S1 (fsurfIntegrands b d s lmax Yp Zp Rv Iv Y (fun _ => 0, fun _ => 0))
  rw [← hN] at et
  have hcalc : ∀ l ≤ lmax, ∀ m ≤ l, t.1 (segIndex d (indLm l m) 0 0) = (L fun j k =>
          ((starRingEnd ℂ) (Spec.sphY q l m (thetaPhiOfAB b (A j) (B k)).1 (thetaPhiOfAB b (A j) (B k)).2) *
            ⟨Rv (d.idx s j k), Iv.elim 0 fun v => v (d.idx s j k)⟩).re * fsurfFac b (A j) (B k)) ∧
        t.2 (segIndex d (indLm l m) 0 0) = L fun j k =>
          ((starRingEnd ℂ) (Spec.sphY q l m (thetaPhiOfAB b (A j) (B k)).1 (thetaPhiOfAB b (A j) (B k)).2) *
            ⟨Rv (d.idx s j k), Iv.elim 0 fun v => v (d.idx s j k)⟩).im * fsurfFac b (A j) (B k) := by
    intro l hl' m hm
    have hi : indLm l m < d.n1 * S1 := by
      have := indLm_lt (m' := 0) (show l < lmax + 1 by omega) hm
      omega
    rw [(pt _ hi).1, (pt _ hi).2]
    constructor <;> refine hL.1 _ _ fun j hj k hk => ?_
    · rw [(integrands_eq b h0 s lmax Yp Zp Rv Iv Y _ j hj k hk l hl' m hm).1, (pY j hj k hk l hl' m hm).1,
        (pY j hj k hk l hl' m hm).2, hY s j k ⟨hs, hj, hk⟩, hZ s j k ⟨hs, hj, hk⟩, hY 0 j k ⟨h0, hj, hk⟩,
        hZ 0 j k ⟨h0, hj, hk⟩]
      simp only [Complex.mul_re, Complex.conj_re, Complex.conj_im]
      ring
    · rw [(integrands_eq b h0 s lmax Yp Zp Rv Iv Y _ j hj k hk l hl' m hm).2, (pY j hj k hk l hl' m hm).1,
        (pY j hj k hk l hl' m hm).2, hY s j k ⟨hs, hj, hk⟩, hZ s j k ⟨hs, hj, hk⟩, hY 0 j k ⟨h0, hj, hk⟩,
        hZ 0 j k ⟨h0, hj, hk⟩]
      simp only [Complex.mul_im, Complex.conj_re, Complex.conj_im]
      ring
  unfold fsurfIntegrals
  simp only
  rw [if_neg (by omega), ← hnY, ← hS1, eY, Res.bind_ok, ← hN, et, Res.bind_ok, if_neg (by omega), if_neg (by omega)]
  refine ⟨_, rfl, ?_⟩
  set off := N / 2 * s / (d.n1 - 1) with hoff
  have hw := lmLoop1_inv lmax (fun _ _ i (q : Nat × (Nat → ℝ)) => (q.1 + 2, aset (aset q.2 q.1 (t.1 (i % d.n1 + N * (i / d.n1))))
      (q.1 + 1) (t.2 (i % d.n1 + N * (i / d.n1))))) (off, Integ)
    (fun p q => q.1 = off + 2 * p ∧ (∀ l m, m ≤ l → indLm l m < p →
        q.2 (off + 2 * indLm l m) = t.1 (segIndex d (indLm l m) 0 0) ∧
        q.2 (off + 2 * indLm l m + 1) = t.2 (segIndex d (indLm l m) 0 0)) ∧
      ∀ x, x < off ∨ off + 2 * p ≤ x → q.2 x = Integ x)
    ⟨rfl, fun _ _ _ h => by omega, fun _ _ => rfl⟩ (by
      rintro l m ⟨n, w⟩ hl' hm ⟨g1, g2, g3⟩
      simp only at g1 g2 g3 ⊢
      subst g1
      refine ⟨by ring, fun l' m' hm' hlt => ?_, fun x hx => ?_⟩
      · by_cases he : indLm l' m' = indLm l m
        · rw [he, aset_ne _ _ (by omega), aset_self, aset_self]
          have : segIndex d (indLm l m) 0 0 = indLm l m % d.n1 + N * (indLm l m / d.n1) := by
            unfold segIndex Dims.idx; simp [hN]
          rw [this]
          exact ⟨rfl, rfl⟩
        · rw [aset_ne _ _ (by omega), aset_ne _ _ (by omega), aset_ne _ _ (by omega), aset_ne _ _ (by omega)]
          exact g2 l' m' hm' (by omega)
      · rw [aset_ne _ _ (by omega), aset_ne _ _ (by omega)]
        exact g3 x (by omega))
  obtain ⟨-, w2, w3⟩ := hw
  refine ⟨fun l hl' m hm => ?_, fun p hp => w3 p ?_⟩
  · have := w2 l m hm (indLm_lt (by omega) hm)
    obtain ⟨c1, c2⟩ := hcalc l hl' m hm
    exact ⟨this.1.trans c1, this.2.trans c2⟩
  · have e : 2 * indLm (lmax + 1) 0 = (lmax + 1) * (lmax + 2) := by
      have : 2 ∣ (lmax + 1) * (lmax + 1 + 1) := (Nat.even_mul_succ_self (lmax + 1)).two_dvd
      simp only [indLm, add_zero]
      exact Nat.mul_div_cancel' this
    rw [e]
    exact hp

/-- **C141.** The surface integral of a box with its spectral bases is such a rule. -/
theorem C141_rule (g : Nat → (Nat → ℝ) × (Nat → ℝ) × (Nat → ℝ)) (D : Axis → BDir) (hD : ∀ ax, (D ax).good)
    (fft : Axis → Bool) (W F : Axis → Nat → ℝ) (mem : Arrays ℝ) (u : Nat) :
    Spec.IntegratesBy (dirDims D) (fun v => (spec2dIntegral g (stdBox D fft W F) (fun ax => (D ax).method)
        (fun ax => (D ax).a) (fun ax => (D ax).b) .one u u (Function.update mem u v)).bind fun m => .ok (m u))
      fun f => lineInt D (stdBox D fft W F) .three fun k => lineInt D (stdBox D fft W F) .two fun j => f j k := by
  refine ⟨fun f h hfh => ?_, fun v => ?_⟩
  · refine lineInt_local D hD fft W F .three _ _ fun k hk => ?_
    exact lineInt_local D hD fft W F .two _ _ fun j hj => hfh j hj k hk
  · obtain ⟨m1, r1, a1⟩ := stdBox_integral1 g D hD fft W F .two u u (Function.update mem u v)
    obtain ⟨m2, r2, a2⟩ := stdBox_integral1 g D hD fft W F .three u u m1
    refine ⟨m2 u, ?_, ?_⟩
    · unfold spec2dIntegral
      simp only
      rw [r1, Res.bind_ok, r2, Res.bind_ok]
    · rintro i j k ⟨b1, b2, b3⟩
      have := a2.1 i j k ⟨b1, b2, b3⟩
      refine Eq.trans this ?_
      refine lineInt_local D hD fft W F .three _ _ fun k' hk' => ?_
      refine Eq.trans (a1.1 i j k' ⟨b1, b2, hk'⟩) ?_
      refine lineInt_local D hD fft W F .two _ _ fun j' hj' => ?_
      simp [Spec.view, Dims.idx]

/-- **C141.** The factor of the integrands is the element of solid angle, except at the poles. -/
theorem C141_fac (b : CubBox) (A B : ℝ) (h0 : b.dir ≠ 1 → b.dir ≠ 2 → ¬(A = 0 ∧ B = 0)) :
    fsurfFac b A B = Spec.solidAngle A B := by
  have hs := (theta_sin b A B).1
  have hpos : 0 < 1 + A ^ 2 + B ^ 2 := by positivity
  have h1 : 0 < 1 + A ^ 2 := by positivity
  have hl : 0 ≤ fsurfFac b A B := mul_nonneg (abs_nonneg _) hs
  have hr : 0 ≤ Spec.solidAngle A B := by unfold Spec.solidAngle; positivity
  have hpm := sq_pm b
  refine (sq_eq_sq₀ hl hr).1 ?_
  have e2 : Spec.solidAngle A B ^ 2 = 1 / (1 + A ^ 2 + B ^ 2) ^ 3 := by
    unfold Spec.solidAngle
    rw [div_pow, mul_pow, Real.sq_sqrt hpos.le]
    ring
  rw [e2]
  unfold fsurfFac
  simp only
  rw [mul_pow, sq_abs]
  have key : ∀ c, c ^ 2 = 1 / (1 + A ^ 2) → (dArgdx (B * c) 1 * c * (1 / (1 + A ^ 2))) ^ 2 * sin (ArgPlus (B * c) 1) ^ 2 =
      1 / (1 + A ^ 2 + B ^ 2) ^ 3 := by
    intro c hc
    have e : (B * c) ^ 2 + 1 ^ 2 = (1 + A ^ 2 + B ^ 2) / (1 + A ^ 2) := by
      rw [mul_pow, hc]; field_simp; ring
    have e' : B * c * (B * c) + 1 * 1 = (1 + A ^ 2 + B ^ 2) / (1 + A ^ 2) := by rw [← e]; ring
    rw [(cos_sin_argPlus (B * c) 1 (by simp)).2, div_pow, Real.sq_sqrt (by positivity), e, dArgdx, e', mul_pow, mul_pow, hc]
    field_simp
  by_cases d1 : b.dir = 1
  · have hc := ((phi_cos_sin b A B).1 d1).1
    obtain ⟨g2, g3⟩ := (dphi_closed b A B).1 d1
    rw [g2, g3]
    simp only [thetaPhiOfAB, dThetaPhiOfAB, d1, if_true, Matrix.cons_val] at hc ⊢
    have := key (cos (ArgPlus b.pm (b.pm * A))) (by rw [hc, div_pow, hpm, Real.sq_sqrt h1.le])
    rw [← this]
    ring
  · by_cases d2 : b.dir = 2
    · have hc := ((phi_cos_sin b A B).2.1 d2).2
      obtain ⟨g2, g3⟩ := (dphi_closed b A B).2.1 d2
      rw [g2, g3]
      simp only [thetaPhiOfAB, dThetaPhiOfAB, d2, if_true, Matrix.cons_val, show ¬(2 = 1) from by decide, if_false] at hc ⊢
      have := key (sin (ArgPlus (b.pm * A) b.pm)) (by rw [hc, div_pow, hpm, Real.sq_sqrt h1.le])
      rw [← this]
      ring
    · obtain ⟨hc, hsn⟩ := (phi_cos_sin b A B).2.2 d1 d2 (h0 d1 d2)
      obtain ⟨g2, g3⟩ := (dphi_closed b A B).2.2 d1 d2 (h0 d1 d2)
      have hp := sq_pos2 (h0 d1 d2)
      have hq0 : √(A ^ 2 + B ^ 2) ≠ 0 := (Real.sqrt_pos.2 hp).ne'
      have hq2 := Real.sq_sqrt hp.le
      rw [g2, g3]
      simp only [thetaPhiOfAB, dThetaPhiOfAB, d1, d2, if_false, Matrix.cons_val] at hc hsn ⊢
      have hA : A * A + B * B = A ^ 2 + B ^ 2 := by ring
      rw [hc, hsn, hA, (cos_sin_argPlus b.pm √(A ^ 2 + B ^ 2) (fun h => pm_ne b h.1)).2, dArgdy, div_pow,
        hpm, hq2, Real.sq_sqrt (show 0 ≤ 1 + (A ^ 2 + B ^ 2) by positivity)]
      generalize √(A ^ 2 + B ^ 2) = r at hq0 hq2 ⊢
      have hpp : b.pm * b.pm = 1 := by rw [← sq, hpm]
      rw [hpp, ← sq, hq2]
      have h4 : b.pm / (1 + (A ^ 2 + B ^ 2)) * (b.pm * A / r) * b.pm * (-A / (A ^ 2 + B ^ 2)) -
          b.pm / (1 + (A ^ 2 + B ^ 2)) * (b.pm * B / r) * b.pm * (B / (A ^ 2 + B ^ 2)) =
          -(b.pm * (b.pm * b.pm)) / (1 + (A ^ 2 + B ^ 2)) / r := by
        field_simp
        ring
      rw [h4, hpp, div_pow, div_pow, hq2, neg_sq, mul_one, hpm, add_assoc]
      have h5 : 0 < 1 + (A ^ 2 + B ^ 2) := by positivity
      field_simp

/-- **C141.** At the poles (`A = B = 0` in the domains ±z) the factor is 0 instead of 1: the point is left out of the
integrals. -/
theorem C141_fac_counterexample (b : CubBox) (h1 : b.dir ≠ 1) (h2 : b.dir ≠ 2) :
    fsurfFac b 0 0 = 0 ∧ Spec.solidAngle 0 0 = 1 := by
  constructor
  · unfold fsurfFac
    simp [dThetaPhiOfAB, h1, h2]
  · simp [Spec.solidAngle]

/-- **C141.** `FSurf_CubSph_set_Ylm_coeffs` stores the sums over the six boxes in all six. -/
theorem C141_sum (Ng : Nat) (co : Nat → Nat → ℝ) (i p : Nat) :
    fsurfSetCoeffs Ng co i p = if i < 6 ∧ p < Ng then ∑ ii ∈ range 6, co ii p else co i p := by
  unfold fsurfSetCoeffs
  have inner : ∀ (c : Nat → Nat → ℝ) (x : Nat) (v : ℝ) (i p : Nat),
      upLoop 0 6 (fun ii c => aset c ii (aset (c ii) x v)) c i p = if i < 6 ∧ p = x then v else c i p := by
    intro c x v i p
    have := upLoop_inv (lo := 0) (hi := 6) (by omega) (body := fun ii c => aset c ii (aset (c ii) x v)) (s := c)
      (fun n t => ∀ i p, t i p = if i < n ∧ p = x then v else c i p) (fun i p => by simp) (by
        intro n t _ hn ht i p
        by_cases h : i = n
        · subst h
          rw [aset_self]
          by_cases hp : p = x
          · subst hp
            rw [aset_self, if_pos ⟨by omega, rfl⟩]
          · rw [aset_ne _ _ hp, ht, if_neg (by tauto), if_neg (by tauto)]
        · rw [aset_ne _ _ h, ht]
          by_cases h' : i < n
          · simp [h', show i < n + 1 by omega]
          · simp [h', show ¬i < n + 1 by omega])
    exact this i p
  have := upLoop_inv (lo := 0) (hi := Ng) (by omega) (body := fun ijk co =>
      upLoop 0 6 (fun ii c => aset c ii (aset (c ii) ijk (upLoop 0 6 (fun ii sum => sum + co ii ijk) 0))) co) (s := co)
    (fun n t => ∀ i p, t i p = if i < 6 ∧ p < n then ∑ ii ∈ range 6, co ii p else co i p) (fun i p => by simp) (by
      intro n t _ hn ht i p
      rw [inner, upLoop_sum, zero_add, ht]
      by_cases h6 : i < 6
      · by_cases hp : p = n
        · subst hp
          rw [if_pos ⟨h6, rfl⟩, if_pos ⟨h6, by omega⟩, ← Finset.range_eq_Ico]
          refine sum_congr rfl fun ii _ => ?_
          rw [ht, if_neg (by omega)]
        · rw [if_neg (by tauto)]
          by_cases hp' : p < n
          · rw [if_pos ⟨h6, hp'⟩, if_pos ⟨h6, by omega⟩]
          · rw [if_neg (by omega), if_neg (by omega)]
      · simp [h6])
  exact this i p

/-- Box `i` has the value `i+1` at the point 0: afterwards all have 21, the point 1 is left alone. -/
example : fsurfSetCoeffs 1 (fun i _ => i + 1) 3 0 = 21 ∧ fsurfSetCoeffs 1 (fun i _ => i + 1) 3 1 = 4 := by
  rw [C141_sum, C141_sum]
  norm_num [sum_range_succ]

/-- With 4 points in direction 1, the harmonic 6 is in the second segment. -/
example : segIndex ⟨4, 5, 5⟩ 6 1 2 = 146 := by decide

theorem lin_sum {L : (Nat → Nat → ℝ) → ℝ} (hadd : ∀ f g, L (fun j k => f j k + g j k) = L f + L g)
    (hsmul : ∀ (c : ℝ) f, L (fun j k => c * f j k) = c * L f) {ι : Type} (s : Finset ι) (f : ι → Nat → Nat → ℝ) :
    L (fun j k => ∑ x ∈ s, f x j k) = ∑ x ∈ s, L (f x) := by
  classical
  induction s using Finset.induction_on with
  | empty =>
    have := hsmul 0 fun _ _ => 0
    simpa using this
  | insert a s ha ih =>
    simp only [sum_insert ha]
    rw [hadd, ih]

/-- **C141.** If the surface integrals of the six boxes are exact for products of spherical harmonics up to `lmax`, and
the variable is a sum of spherical harmonics up to `lmax` on the surface, then `FSurf_CubSph_get_Ylm_integrals` and
`FSurf_CubSph_set_Ylm_coeffs` find its coefficients, in all six boxes. -/
theorem C141_coeffs {q : Nat → Nat → ℝ[X]} (hq : ∀ m, Spec.LegendreFns m (q m)) (b : Nat → CubBox) {d : Dims}
    (h1 : 2 ≤ d.n1) {int2 : Nat → (Nat → ℝ) → Res (Nat → ℝ)} {L : Nat → (Nat → Nat → ℝ) → ℝ}
    (hL : ∀ i < 6, Spec.IntegratesBy d (int2 i) (L i))
    (hadd : ∀ i < 6, ∀ f g, L i (fun j k => f j k + g j k) = L i f + L i g)
    (hsmul : ∀ i < 6, ∀ (c : ℝ) f, L i (fun j k => c * f j k) = c * L i f)
    {s lmax : Nat} (hs : s < d.n1) (hl : lmax * (lmax + 1) / 2 + lmax + 1 < d.n1 * d.n2 * d.n3 / 4) (A B : Nat → Nat → ℝ)
    (hexact : ∀ l ≤ lmax, ∀ l' ≤ lmax, ∀ m m' : ℤ, |m| ≤ l → |m'| ≤ l' →
      (∑ i ∈ range 6, L i fun j k =>
        ((starRingEnd ℂ) (Spec.sphY q l m (thetaPhiOfAB (b i) (A i j) (B i k)).1 (thetaPhiOfAB (b i) (A i j) (B i k)).2) *
          Spec.sphY q l' m' (thetaPhiOfAB (b i) (A i j) (B i k)).1 (thetaPhiOfAB (b i) (A i j) (B i k)).2).re *
          fsurfFac (b i) (A i j) (B i k)) = (if l = l' ∧ m = m' then 1 else 0) ∧
      (∑ i ∈ range 6, L i fun j k =>
        ((starRingEnd ℂ) (Spec.sphY q l m (thetaPhiOfAB (b i) (A i j) (B i k)).1 (thetaPhiOfAB (b i) (A i j) (B i k)).2) *
          Spec.sphY q l' m' (thetaPhiOfAB (b i) (A i j) (B i k)).1 (thetaPhiOfAB (b i) (A i j) (B i k)).2).im *
          fsurfFac (b i) (A i j) (B i k)) = 0)
    {Yp Zp : Nat → Nat → ℝ} (hY : ∀ x < 6, ∀ i j k, Spec.inBox d i j k → Yp x (d.idx i j k) = A x j)
    (hZ : ∀ x < 6, ∀ i j k, Spec.inBox d i j k → Zp x (d.idx i j k) = B x k) (c : Nat → ℝ) {v : Nat → Nat → ℝ}
    (hv : ∀ x < 6, ∀ j < d.n2, ∀ k < d.n3, ((v x (d.idx s j k) : ℝ) : ℂ) = Spec.sphSeries q (Spec.realCoeff c 0) lmax
      (thetaPhiOfAB (b x) (A x j) (B x k)).1 (thetaPhiOfAB (b x) (A x j) (B x k)).2) (Integ : Nat → Nat → ℝ) :
    ∃ r : Nat → Nat → ℝ, (∀ x < 6, fsurfIntegrals (b x) d (int2 x) s lmax (Yp x) (Zp x) (v x) none (Integ x) = .ok (r x)) ∧
      ∀ x < 6, ∀ l ≤ lmax, ∀ m : ℤ, |m| ≤ l →
        Spec.realCoeff (fsurfSetCoeffs (d.n1 * d.n2 * d.n3) r x) (d.n1 * d.n2 * d.n3 / 2 * s / (d.n1 - 1)) l m =
          Spec.realCoeff c 0 l m := by
  have hr : ∀ x, ∃ r, x < 6 → fsurfIntegrals (b x) d (int2 x) s lmax (Yp x) (Zp x) (v x) none (Integ x) = .ok r ∧
      (∀ l ≤ lmax, ∀ m ≤ l,
        r (d.n1 * d.n2 * d.n3 / 2 * s / (d.n1 - 1) + 2 * (l * (l + 1) / 2 + m)) = (L x fun j k =>
          ((starRingEnd ℂ) (Spec.sphY q l m (thetaPhiOfAB (b x) (A x j) (B x k)).1 (thetaPhiOfAB (b x) (A x j) (B x k)).2) *
            ⟨v x (d.idx s j k), 0⟩).re * fsurfFac (b x) (A x j) (B x k)) ∧
        r (d.n1 * d.n2 * d.n3 / 2 * s / (d.n1 - 1) + 2 * (l * (l + 1) / 2 + m) + 1) = L x fun j k =>
          ((starRingEnd ℂ) (Spec.sphY q l m (thetaPhiOfAB (b x) (A x j) (B x k)).1 (thetaPhiOfAB (b x) (A x j) (B x k)).2) *
            ⟨v x (d.idx s j k), 0⟩).im * fsurfFac (b x) (A x j) (B x k)) := by
    intro x
    by_cases hx : x < 6
    · obtain ⟨r, e1, e2, -⟩ := C141_integrals hq (b x) h1 (hL x hx) hs hl (A x) (B x) (hY x hx) (hZ x hx) (v x) none (Integ x)
      exact ⟨r, fun _ => ⟨e1, e2⟩⟩
    · exact ⟨fun _ => 0, fun h => absurd h hx⟩
  choose r hr using hr
  refine ⟨r, fun x hx => (hr x hx).1, ?_⟩
  set N := d.n1 * d.n2 * d.n3 with hN
  set off := N / 2 * s / (d.n1 - 1) with hoff
  have hoffle : off ≤ N / 2 := by
    rw [hoff]
    refine Nat.div_le_of_le_mul ?_
    rw [mul_comm (d.n1 - 1)]
    exact Nat.mul_le_mul_left _ (by omega)
  -- the sums
  have hsum : ∀ l ≤ lmax, ∀ m ≤ l,
      ∑ x ∈ range 6, r x (off + 2 * (l * (l + 1) / 2 + m)) = (Spec.realCoeff c 0 l m).re ∧
      ∑ x ∈ range 6, r x (off + 2 * (l * (l + 1) / 2 + m) + 1) = (Spec.realCoeff c 0 l m).im := by
    intro l hl' m hm
    have hm' : |(m : ℤ)| ≤ l := by rw [Nat.abs_cast]; exact_mod_cast hm
    have hex : ∀ (x : Nat), x < 6 → ∀ j < d.n2, ∀ k < d.n3,
        (starRingEnd ℂ) (Spec.sphY q l m (thetaPhiOfAB (b x) (A x j) (B x k)).1 (thetaPhiOfAB (b x) (A x j) (B x k)).2) *
            ⟨v x (d.idx s j k), 0⟩ = ∑ l' ∈ range (lmax + 1), ∑ m' ∈ Finset.Icc (-(l' : ℤ)) l', Spec.realCoeff c 0 l' m' *
          ((starRingEnd ℂ) (Spec.sphY q l m (thetaPhiOfAB (b x) (A x j) (B x k)).1 (thetaPhiOfAB (b x) (A x j) (B x k)).2) *
          Spec.sphY q l' m' (thetaPhiOfAB (b x) (A x j) (B x k)).1 (thetaPhiOfAB (b x) (A x j) (B x k)).2) := by
      intro x hx j hj k hk
      have e : (⟨v x (d.idx s j k), 0⟩ : ℂ) = ((v x (d.idx s j k) : ℝ) : ℂ) := rfl
      rw [e, hv x hx j hj k hk]
      unfold Spec.sphSeries
      rw [mul_sum]
      refine sum_congr rfl fun l' _ => ?_
      rw [mul_sum]
      exact sum_congr rfl fun m' _ => by ring
    set Q : Nat → Nat → ℤ → Nat → Nat → ℂ := fun x l' m' j k =>
      (starRingEnd ℂ) (Spec.sphY q l m (thetaPhiOfAB (b x) (A x j) (B x k)).1 (thetaPhiOfAB (b x) (A x j) (B x k)).2) *
          Spec.sphY q l' m' (thetaPhiOfAB (b x) (A x j) (B x k)).1 (thetaPhiOfAB (b x) (A x j) (B x k)).2 with hQ
    have hdelta : ∀ F : Nat → ℤ → ℝ, ∑ l' ∈ range (lmax + 1), ∑ m' ∈ Finset.Icc (-(l' : ℤ)) l',
        F l' m' * (if l = l' ∧ (m : ℤ) = m' then 1 else 0) = F l m := by
      intro F
      rw [sum_eq_single l, sum_eq_single (m : ℤ)]
      · simp
      · intro m' _ hne
        rw [if_neg (fun h => hne h.2.symm), mul_zero]
      · intro h
        exact absurd (mem_Icc.2 ⟨by omega, by omega⟩) h
      · intro l' _ hne
        refine sum_eq_zero fun m' _ => ?_
        rw [if_neg (fun h => hne h.1.symm), mul_zero]
      · intro h
        exact absurd (mem_range.2 (by omega)) h
    constructor
    · have e : ∀ x ∈ range 6, r x (off + 2 * (l * (l + 1) / 2 + m)) = ∑ l' ∈ range (lmax + 1),
          ∑ m' ∈ Finset.Icc (-(l' : ℤ)) l', ((Spec.realCoeff c 0 l' m').re *
            (L x fun j k => (Q x l' m' j k).re * fsurfFac (b x) (A x j) (B x k)) -
          (Spec.realCoeff c 0 l' m').im * (L x fun j k => (Q x l' m' j k).im * fsurfFac (b x) (A x j) (B x k))) := by
        intro x hx
        have hx := mem_range.1 hx
        rw [((hr x hx).2 l hl' m hm).1]
        rw [(hL x hx).1 _ (fun j k => ∑ l' ∈ range (lmax + 1), ∑ m' ∈ Finset.Icc (-(l' : ℤ)) l',
          ((Spec.realCoeff c 0 l' m').re * ((Q x l' m' j k).re * fsurfFac (b x) (A x j) (B x k)) +
            -(Spec.realCoeff c 0 l' m').im * ((Q x l' m' j k).im * fsurfFac (b x) (A x j) (B x k)))) (fun j hj k hk => by
            rw [hex x hx j hj k hk, Complex.re_sum, sum_mul]
            refine sum_congr rfl fun l' _ => ?_
            rw [Complex.re_sum, sum_mul]
            refine sum_congr rfl fun m' _ => ?_
            rw [Complex.mul_re]
            ring)]
        rw [lin_sum (hadd x hx) (hsmul x hx)]
        refine sum_congr rfl fun l' _ => ?_
        rw [lin_sum (hadd x hx) (hsmul x hx)]
        refine sum_congr rfl fun m' _ => ?_
        rw [hadd x hx, hsmul x hx, hsmul x hx]
        ring
      rw [sum_congr rfl e, sum_comm, ← hdelta fun l' m' => (Spec.realCoeff c 0 l' m').re]
      refine sum_congr rfl fun l' hl'' => ?_
      rw [sum_comm]
      refine sum_congr rfl fun m' hm'' => ?_
      obtain ⟨x1, x2⟩ := hexact l hl' l' (by have := mem_range.1 hl''; omega) m m' hm' (by
        have := mem_Icc.1 hm''
        exact abs_le.2 ⟨by omega, by omega⟩)
      rw [sum_sub_distrib, ← mul_sum, ← mul_sum, x1, x2]
      ring
    · have e : ∀ x ∈ range 6, r x (off + 2 * (l * (l + 1) / 2 + m) + 1) = ∑ l' ∈ range (lmax + 1),
          ∑ m' ∈ Finset.Icc (-(l' : ℤ)) l', ((Spec.realCoeff c 0 l' m').re *
            (L x fun j k => (Q x l' m' j k).im * fsurfFac (b x) (A x j) (B x k)) +
          (Spec.realCoeff c 0 l' m').im * (L x fun j k => (Q x l' m' j k).re * fsurfFac (b x) (A x j) (B x k))) := by
        intro x hx
        have hx := mem_range.1 hx
        rw [((hr x hx).2 l hl' m hm).2]
        rw [(hL x hx).1 _ (fun j k => ∑ l' ∈ range (lmax + 1), ∑ m' ∈ Finset.Icc (-(l' : ℤ)) l',
          ((Spec.realCoeff c 0 l' m').re * ((Q x l' m' j k).im * fsurfFac (b x) (A x j) (B x k)) +
            (Spec.realCoeff c 0 l' m').im * ((Q x l' m' j k).re * fsurfFac (b x) (A x j) (B x k)))) (fun j hj k hk => by
            rw [hex x hx j hj k hk, Complex.im_sum, sum_mul]
            refine sum_congr rfl fun l' _ => ?_
            rw [Complex.im_sum, sum_mul]
            refine sum_congr rfl fun m' _ => ?_
            rw [Complex.mul_im]
            ring)]
        rw [lin_sum (hadd x hx) (hsmul x hx)]
        refine sum_congr rfl fun l' _ => ?_
        rw [lin_sum (hadd x hx) (hsmul x hx)]
        refine sum_congr rfl fun m' _ => ?_
        rw [hadd x hx, hsmul x hx, hsmul x hx]
      rw [sum_congr rfl e, sum_comm, ← hdelta fun l' m' => (Spec.realCoeff c 0 l' m').im]
      refine sum_congr rfl fun l' hl'' => ?_
      rw [sum_comm]
      refine sum_congr rfl fun m' hm'' => ?_
      obtain ⟨x1, x2⟩ := hexact l hl' l' (by have := mem_range.1 hl''; omega) m m' hm' (by
        have := mem_Icc.1 hm''
        exact abs_le.2 ⟨by omega, by omega⟩)
      rw [sum_add_distrib, ← mul_sum, ← mul_sum, x1, x2]
      ring
  intro x hx l hl' m hm
  have hm' : m.natAbs ≤ l := by rw [Int.abs_eq_natAbs] at hm; omega
  have hlt : off + 2 * (l * (l + 1) / 2 + m.natAbs) + 1 < N := by
    have h2 := indLm_lt (m' := 0) (show l < lmax + 1 by omega) hm'
    rw [indLm_succ] at h2
    simp only [indLm] at h2
    omega
  obtain ⟨s1, s2⟩ := hsum l hl' m.natAbs hm'
  have k1 : fsurfSetCoeffs N r x (off + 2 * (l * (l + 1) / 2 + m.natAbs)) = (Spec.realCoeff c 0 l m.natAbs).re := by
    rw [C141_sum, if_pos ⟨hx, by omega⟩, s1]
  have k2 : fsurfSetCoeffs N r x (off + 2 * (l * (l + 1) / 2 + m.natAbs) + 1) = (Spec.realCoeff c 0 l m.natAbs).im := by
    rw [C141_sum, if_pos ⟨hx, hlt⟩, s2]
  by_cases h0 : m = 0
  · subst h0
    unfold Spec.realCoeff at k1 ⊢
    simp only [if_true, Int.natAbs_zero, Nat.cast_zero, Complex.ofReal_re] at k1 ⊢
    rw [k1]
  · have hpos : 0 < (m.natAbs : ℤ) := by omega
    have e : Spec.realCoeff c 0 l m.natAbs = ⟨c (2 * (l * (l + 1) / 2 + m.natAbs)), c (2 * (l * (l + 1) / 2 + m.natAbs) + 1)⟩ := by
      unfold Spec.realCoeff
      simp only [Int.natAbs_natCast, Nat.zero_add]
      rw [if_neg hpos.ne', if_pos hpos]
    rw [e] at k1 k2
    unfold Spec.realCoeff
    simp only [if_neg h0, Nat.zero_add]
    rw [k1, k2]

/-- **C141.** Then the surface function of each box is the given function. -/
theorem C141_roundtrip {q : Nat → Nat → ℝ[X]} (hq : ∀ m, Spec.LegendreFns m (q m)) (b : CubBox) {d : Dims} (h1 : 2 ≤ d.n1)
    {si lmax : Nat} (hl : lmax * (lmax + 1) / 2 + lmax + 1 < d.n1 * d.n2 * d.n3 / 4) (c co : Nat → ℝ)
    (hco : ∀ l ≤ lmax, ∀ m : ℤ, |m| ≤ l → Spec.realCoeff co (d.n1 * d.n2 * d.n3 / 2 * (if si = 0 then 0 else d.n1 - 1) / (d.n1 - 1)) l m =
      Spec.realCoeff c 0 l m) (A B : ℝ) :
    ∃ w : ℝ, fsurfSigma b (d.n1 * d.n2 * d.n3) lmax co si A B = .ok w ∧
      (w : ℂ) = Spec.sphSeries q (Spec.realCoeff c 0) lmax (thetaPhiOfAB b A B).1 (thetaPhiOfAB b A B).2 := by
  obtain ⟨w, hw, e⟩ := C140_surface hq b hl co si A B
  refine ⟨w, hw, e.trans ?_⟩
  have ho : d.n1 * d.n2 * d.n3 / 2 * (if si = 0 then 0 else d.n1 - 1) / (d.n1 - 1) =
      if si = 0 then 0 else d.n1 * d.n2 * d.n3 / 2 := by
    split_ifs
    · simp
    · exact Nat.mul_div_cancel _ (by omega)
  rw [ho] at hco
  unfold Spec.sphSeries
  refine sum_congr rfl fun l hl' => sum_congr rfl fun m hm => ?_
  have := mem_range.1 hl'
  have := mem_Icc.1 hm
  rw [hco l (by omega) m (abs_le.2 ⟨by omega, by omega⟩)]

end Sgrid

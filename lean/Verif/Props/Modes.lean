import Verif.Model.Modes
import Verif.Props.ModesMath
import Verif.Props.DoubleCover
import Verif.Props.Ylm

/-!
# C111: modes of data on a sphere
-/

namespace Sgrid
open Real Finset

/-! ## The loops over the modes -/

/-- The `l` of mode number `i`. -/
def Spec.modeL (i : Nat) : Nat := Nat.sqrt i

/-- The `m` of mode number `i`. -/
def Spec.modeM (i : Nat) : ℤ := (i : ℤ) - Nat.sqrt i ^ 2 - Nat.sqrt i

theorem modeM_abs (i : Nat) : |Spec.modeM i| ≤ Spec.modeL i := by
  unfold Spec.modeM Spec.modeL
  have h1 := Nat.sqrt_le' i
  have h2 := Nat.lt_succ_sqrt' i
  rw [Nat.succ_eq_add_one] at h2
  have h3 : ((Nat.sqrt i : ℤ)) ^ 2 ≤ i := by exact_mod_cast h1
  have h4 : (i : ℤ) < (Nat.sqrt i + 1) ^ 2 := by exact_mod_cast h2
  rw [abs_le]
  constructor <;> nlinarith

theorem modeL_lt {lmax i : Nat} (h : i < (lmax + 1) ^ 2) : Spec.modeL i ≤ lmax := by
  have := Nat.sqrt_lt'.2 h
  unfold Spec.modeL
  omega

/-- The modes are numbered as in the loops: `i` is the number of pairs before `(l,m)`. -/
theorem C111_number (l : Nat) (m : ℤ) (hm : |m| ≤ l) :
    Spec.modeL (l ^ 2 + (m + l).toNat) = l ∧ Spec.modeM (l ^ 2 + (m + l).toNat) = m := by
  rw [abs_le] at hm
  have h : Nat.sqrt (l ^ 2 + (m + l).toNat) = l := Nat.sqrt_add_eq' l (by omega)
  unfold Spec.modeL Spec.modeM
  rw [h]
  refine ⟨rfl, ?_⟩
  push_cast
  omega

theorem modeLoop_eq {σ : Type} (lmax : Nat) (body : Nat → ℤ → ℤ → σ → σ) (s : σ) :
    modeLoop lmax body s =
      ((lmax + 1) ^ 2, upLoop 0 ((lmax + 1) ^ 2) (fun i s => body i (Spec.modeL i) (Spec.modeM i) s) s) := by
  unfold modeLoop
  refine upLoop_inv (Nat.zero_le _) (fun n st => st = (n ^ 2, upLoop 0 (n ^ 2) (fun i s => body i (Spec.modeL i) (Spec.modeM i) s) s))
    ?_ fun l st _ hl ih => ?_
  · rw [upLoop_nil (by omega)]; rfl
  · rw [show (l + 1) ^ 2 = l ^ 2 + (2 * l + 1) by ring]
    refine upLoop_inv (Nat.zero_le _)
      (fun q st => st = (l ^ 2 + q, upLoop 0 (l ^ 2 + q) (fun i s => body i (Spec.modeL i) (Spec.modeM i) s) s)) ih
      fun q st _ hq ih => ?_
    have h : Nat.sqrt (l ^ 2 + q) = l := Nat.sqrt_add_eq' l (by omega)
    rw [ih, ← Nat.add_assoc, upLoop_succ (Nat.zero_le _)]
    dsimp only
    unfold Spec.modeL Spec.modeM
    rw [h]
    congr 2
    push_cast
    ring

/-! ## Storing in the lower half of the angles -/

theorem upLoop_storeA {lo hi : Nat} {body : Nat → Arrays ℝ → Arrays ℝ} (I : Arrays ℝ → Prop) (F : Arrays ℝ)
    (W : Nat → Nat → Nat → Prop)
    (hb : ∀ i u, lo ≤ i → i < hi → I u → I (body i u) ∧
      ∀ a p, (W i a p → body i u a p = F a p) ∧ (¬ W i a p → body i u a p = u a p)) (u : Arrays ℝ) (hu : I u) :
    I (upLoop lo hi body u) ∧ ∀ a p, ((∃ i, lo ≤ i ∧ i < hi ∧ W i a p) → upLoop lo hi body u a p = F a p) ∧
      ((¬ ∃ i, lo ≤ i ∧ i < hi ∧ W i a p) → upLoop lo hi body u a p = u a p) := by
  rcases Nat.lt_or_ge hi lo with h | h
  · rw [upLoop_nil (by omega)]
    exact ⟨hu, fun a p => ⟨fun ⟨i, h1, h2, _⟩ => absurd h1 (by omega), fun _ => rfl⟩⟩
  · refine upLoop_inv h (fun n v => I v ∧ ∀ a p, ((∃ i, lo ≤ i ∧ i < n ∧ W i a p) → v a p = F a p) ∧
      ((¬ ∃ i, lo ≤ i ∧ i < n ∧ W i a p) → v a p = u a p))
      ⟨hu, fun a p => ⟨fun ⟨i, h1, h2, _⟩ => absurd h1 (by omega), fun _ => rfl⟩⟩ fun n v hn1 hn2 ⟨h1, h2⟩ => ?_
    obtain ⟨h3, h4⟩ := hb n v hn1 hn2 h1
    refine ⟨h3, fun a p => ⟨?_, fun hno => ?_⟩⟩
    · rintro ⟨i, hi1, hi2, hi3⟩
      by_cases hw : W n a p
      · exact (h4 a p).1 hw
      · rw [(h4 a p).2 hw]
        refine (h2 a p).1 ⟨i, hi1, ?_, hi3⟩
        rcases Nat.lt_or_ge i n with h5 | h5
        · exact h5
        · have : i = n := by omega
          exact absurd (this ▸ hi3) hw
    · rw [(h4 a p).2 fun hw => hno ⟨n, hn1, by omega, hw⟩]
      exact (h2 a p).2 fun ⟨i, h1, h2, h3⟩ => hno ⟨i, h1, by omega, h3⟩

/-- What loops over all modes and points with `j < n2/2` do that set two variables. -/
theorem half_store (d : Dims) (N : Nat) (hN : N ≤ d.n1) (v1 v2 : Nat) (hv : v1 ≠ v2) (mem0 : Arrays ℝ)
    (body : Nat → Nat → Nat → Arrays ℝ → Arrays ℝ) (f1 f2 : Nat → Nat → Nat → ℝ)
    (hb : ∀ i j k mem, (∀ a, a ≠ v1 → a ≠ v2 → mem a = mem0 a) → i < N → j < d.n2 / 2 → k < d.n3 →
      body i j k mem v1 (d.idx i j k) = f1 i j k ∧ body i j k mem v2 (d.idx i j k) = f2 i j k ∧
      ∀ a p, ¬ ((a = v1 ∨ a = v2) ∧ p = d.idx i j k) → body i j k mem a p = mem a p) :
    let mem' := upLoop 0 N (fun i mem => halfLoop d (fun j k mem => body i j k mem) mem) mem0
    (∀ i j k, i < N → j < d.n2 / 2 → k < d.n3 → Spec.view d mem' v1 i j k = f1 i j k ∧ Spec.view d mem' v2 i j k = f2 i j k) ∧
    (∀ a, a ≠ v1 → a ≠ v2 → mem' a = mem0 a) ∧
    (∀ a p, d.n1 * d.n2 * d.n3 ≤ p → mem' a p = mem0 a p) := by
  obtain ⟨F1, hF1⟩ := box_function d f1
  obtain ⟨F2, hF2⟩ := box_function d f2
  let F : Arrays ℝ := fun a p => if a = v1 then F1 p else F2 p
  have hin : ∀ i j k, i < N → j < d.n2 / 2 → k < d.n3 → Spec.inBox d i j k := fun i j k hi hj hk =>
    ⟨by omega, by omega, hk⟩
  have hbody : ∀ i j k mem, (∀ a, a ≠ v1 → a ≠ v2 → mem a = mem0 a) → i < N → j < d.n2 / 2 → k < d.n3 →
      (∀ a, a ≠ v1 → a ≠ v2 → body i j k mem a = mem0 a) ∧
      ∀ a p, (((a = v1 ∨ a = v2) ∧ p = d.idx i j k) → body i j k mem a p = F a p) ∧
        (¬ ((a = v1 ∨ a = v2) ∧ p = d.idx i j k) → body i j k mem a p = mem a p) := by
    intro i j k mem hI hi hj hk
    obtain ⟨b1, b2, b3⟩ := hb i j k mem hI hi hj hk
    refine ⟨fun a h1 h2 => ?_, fun a p => ⟨?_, b3 a p⟩⟩
    · rw [← hI a h1 h2]
      funext p
      exact b3 a p fun h => h.1.elim h1 h2
    · rintro ⟨rfl | rfl, rfl⟩
      · rw [b1]
        show _ = if a = a then _ else _
        rw [if_pos rfl, hF1 i j k (hin i j k hi hj hk)]
      · rw [b2]
        show _ = if a = v1 then _ else _
        rw [if_neg (Ne.symm hv), hF2 i j k (hin i j k hi hj hk)]
  have hall := upLoop_storeA (lo := 0) (hi := N) (body := fun i mem => halfLoop d (fun j k mem => body i j k mem) mem)
    (fun mem => ∀ a, a ≠ v1 → a ≠ v2 → mem a = mem0 a) F
    (fun i a p => ∃ k, 0 ≤ k ∧ k < d.n3 ∧ ∃ j, 0 ≤ j ∧ j < d.n2 / 2 ∧ ((a = v1 ∨ a = v2) ∧ p = d.idx i j k))
    (fun i u _ hi hu => upLoop_storeA (body := fun k s => upLoop 0 (d.n2 / 2) (fun j s => body i j k s) s) _ F _
      (fun k u _ hk hu => upLoop_storeA (body := fun j s => body i j k s) _ F _
        (fun j u _ hj hu => hbody i j k u hu hi hj hk) u hu) u hu)
    mem0 (fun _ _ _ => rfl)
  intro mem'
  refine ⟨fun i j k hi hj hk => ⟨?_, ?_⟩, hall.1, fun a p hp => (hall.2 a p).2 ?_⟩
  · refine ((hall.2 v1 (d.idx i j k)).1 ⟨i, Nat.zero_le _, hi, k, Nat.zero_le _, hk, j, Nat.zero_le _, hj, Or.inl rfl, rfl⟩).trans ?_
    show (if v1 = v1 then _ else _) = _
    rw [if_pos rfl, hF1 i j k (hin i j k hi hj hk)]
  · refine ((hall.2 v2 (d.idx i j k)).1 ⟨i, Nat.zero_le _, hi, k, Nat.zero_le _, hk, j, Nat.zero_le _, hj, Or.inr rfl, rfl⟩).trans ?_
    show (if v2 = v1 then _ else _) = _
    rw [if_neg (Ne.symm hv), hF2 i j k (hin i j k hi hj hk)]
  · rintro ⟨i, _, hi, k, _, hk, j, _, hj, _, rfl⟩
    have := idx_lt (hin i j k hi hj hk)
    omega

/-! ## Copies to the other angles -/

/-- A schedule that finishes both parallel loops. -/
def Spec.SchedOk (d : Dims) (c : CopySched) : Prop :=
  Complete (d.n3 / 2) (copyPass1 (K := ℝ) d) c.s1 ∧ Complete (d.n3 - d.n3 / 2) (copyPass2 (K := ℝ) d) c.s2

theorem copyVar_spec (d : Dims) (h2 : d.n2 % 2 = 0) (h3 : d.n3 % 2 = 0) (c : CopySched) (hc : Spec.SchedOk d c) (v : Nat)
    (mem : Arrays ℝ) :
    ∃ mem', copyVar d c v mem = .ok mem' ∧
      (∀ i j k, Spec.inBox d i j k → Spec.view d mem' v i j k =
        if d.n2 / 2 ≤ j then Spec.view d mem v i (d.n2 - 1 - j) ((k + d.n3 / 2) % d.n3) else Spec.view d mem v i j k) ∧
      (∀ a, a ≠ v → mem' a = mem a) ∧ ∀ a p, d.n1 * d.n2 * d.n3 ≤ p → mem' a p = mem a p := by
  obtain ⟨u, e, hu, hp⟩ := C53_copy d h2 h3 c.ρ1 c.ρ2 c.s1 c.s2 hc.1 hc.2 (mem v)
  refine ⟨aset mem v u, ?_, fun i j k hb => ?_, fun a ha => aset_ne _ _ ha, fun a p h => ?_⟩
  · unfold copyVar
    rw [e]; rfl
  · unfold Spec.view
    rw [aset_self]
    exact hu i j k hb
  · by_cases ha : a = v
    · subst ha; rw [aset_self]; exact hp p h
    · rw [aset_ne _ _ ha]

/-- The angles of the point `j`, `k`. -/
noncomputable def Spec.modeTheta (n2 j : Nat) : ℝ := (2 * j + 1) * π / n2

noncomputable def Spec.modePhi (n3 k : Nat) : ℝ := 2 * π * k / n3

/-- The box that ModeComputer_set_boxsize sets up (ModeComputer.c:51-71). -/
noncomputable def modeDirs (lmax n2 n3 : Nat) : Axis → BDir
  | .one => ⟨.fourier, 1, ((lmax + 1) * (lmax + 1) : Nat) + 1, (lmax + 1) * (lmax + 1)⟩
  | .two => ⟨.fourier, 0, 2 * π, n2⟩
  | .three => ⟨.fourier, 0, 2 * π, n3⟩

/-- The variables are different. -/
def Spec.ModeVars.ok (v : ModeVars) : Prop := [v.X, v.Y, v.Z, v.reVar, v.imVar, v.reMode, v.imMode, v.reY, v.imY].Nodup

/-- **C111.** `ModeComputer_set_sYlm_inbox` returns the number of modes, and puts the harmonics with the `l`, `m` of mode `i`
into the sphere number `i`, for all `j` below `n2/2`; the other points get the value of the same point with the other angles. -/
theorem C111_sYlm (d : Dims) (h2 : d.n2 % 2 = 0) (h3 : d.n3 % 2 = 0) (v : ModeVars) (hv : Spec.ModeVars.ok v) (s : ℤ) (lmax : Nat)
    (hN : (lmax + 1) ^ 2 ≤ d.n1) (c1 c2 : CopySched) (hc1 : Spec.SchedOk d c1) (hc2 : Spec.SchedOk d c2) (mem : Arrays ℝ)
    (hY : ∀ i j k, Spec.inBox d i j k → Spec.view d mem v.Y i j k = 2 * π * j / d.n2)
    (hZ : ∀ i j k, Spec.inBox d i j k → Spec.view d mem v.Z i j k = Spec.modePhi d.n3 k) :
    ∃ mem', setSYlm d v s lmax c1 c2 mem = .ok ((lmax + 1) ^ 2, mem') ∧
      (∀ i j k, i < (lmax + 1) ^ 2 → j < d.n2 / 2 → k < d.n3 →
        Spec.view d mem' v.reY i j k = reSYlm (Spec.modeL i) (Spec.modeM i) s (Spec.modeTheta d.n2 j) (Spec.modePhi d.n3 k) ∧
        Spec.view d mem' v.imY i j k = imSYlm (Spec.modeL i) (Spec.modeM i) s (Spec.modeTheta d.n2 j) (Spec.modePhi d.n3 k)) ∧
      (∀ i j k, i < (lmax + 1) ^ 2 → d.n2 / 2 ≤ j → j < d.n2 → k < d.n3 →
        Spec.view d mem' v.reY i j k = Spec.view d mem' v.reY i (d.n2 - 1 - j) ((k + d.n3 / 2) % d.n3) ∧
        Spec.view d mem' v.imY i j k = Spec.view d mem' v.imY i (d.n2 - 1 - j) ((k + d.n3 / 2) % d.n3)) ∧
      (∀ a, a ≠ v.reY → a ≠ v.imY → mem' a = mem a) ∧ ∀ a p, d.n1 * d.n2 * d.n3 ≤ p → mem' a p = mem a p := by
  have hne : v.reY ≠ v.imY ∧ v.Y ≠ v.reY ∧ v.Y ≠ v.imY ∧ v.Z ≠ v.reY ∧ v.Z ≠ v.imY := by
    unfold Spec.ModeVars.ok at hv
    simp only [List.nodup_cons, List.mem_cons, List.not_mem_nil, or_false, not_or] at hv
    tauto
  obtain ⟨n1, n2, n3, n4, n5⟩ := hne
  have hth : ∀ j : Nat, 0 < d.n2 → 2 * π * j / d.n2 + π / (((1 + d.n2 % 2) * d.n2 : Nat) : ℝ) = Spec.modeTheta d.n2 j := by
    intro j h
    have : (d.n2 : ℝ) ≠ 0 := by exact_mod_cast h.ne'
    unfold Spec.modeTheta
    rw [h2]
    push_cast
    field_simp
  obtain ⟨s1, s2, s3⟩ := half_store d ((lmax + 1) ^ 2) hN v.reY v.imY n1 mem
    (fun i j k mem => sYlmBody d v s i (Spec.modeL i) (Spec.modeM i) j k mem)
    (fun i j k => reSYlm (Spec.modeL i) (Spec.modeM i) s (Spec.modeTheta d.n2 j) (Spec.modePhi d.n3 k))
    (fun i j k => imSYlm (Spec.modeL i) (Spec.modeM i) s (Spec.modeTheta d.n2 j) (Spec.modePhi d.n3 k)) (by
      intro i j k m hm hi hj hk
      have hb : Spec.inBox d i j k := ⟨by omega, by omega, hk⟩
      have eY : m v.Y (d.idx i j k) = 2 * π * j / d.n2 := by rw [hm _ n2 n3]; exact hY i j k hb
      have eZ : m v.Z (d.idx i j k) = Spec.modePhi d.n3 k := by rw [hm _ n4 n5]; exact hZ i j k hb
      unfold sYlmBody putVar
      rw [eY, eZ, hth j (by omega)]
      refine ⟨?_, ?_, fun a p hap => ?_⟩
      · rw [aset_ne _ _ n1, aset_self, aset_self]
      · rw [aset_self, aset_self]
      · by_cases h1 : a = v.imY
        · subst h1
          rw [aset_self, aset_ne _ _ fun h => hap ⟨Or.inr rfl, h⟩, aset_ne _ _ n1.symm]
        · rw [aset_ne _ _ h1]
          by_cases h2 : a = v.reY
          · subst h2
            rw [aset_self, aset_ne _ _ fun h => hap ⟨Or.inl rfl, h⟩]
          · rw [aset_ne _ _ h2])
  unfold setSYlm
  rw [modeLoop_eq]
  dsimp only at s1 s2 s3 ⊢
  generalize upLoop 0 ((lmax + 1) ^ 2) _ mem = m1 at s1 s2 s3 ⊢
  obtain ⟨m2, e2, a2, b2, q2⟩ := copyVar_spec d h2 h3 c1 hc1 v.reY m1
  obtain ⟨m3, e3, a3, b3, q3⟩ := copyVar_spec d h2 h3 c2 hc2 v.imY m2
  rw [e2, Res.bind_ok, e3, Res.bind_ok]
  have vre : ∀ i j k, Spec.view d m3 v.reY i j k = Spec.view d m2 v.reY i j k := fun i j k => by
    unfold Spec.view; rw [b3 _ n1]
  have vim : ∀ i j k, Spec.view d m2 v.imY i j k = Spec.view d m1 v.imY i j k := fun i j k => by
    unfold Spec.view; rw [b2 _ n1.symm]
  have hlow : ∀ i j k, i < (lmax + 1) ^ 2 → j < d.n2 / 2 → k < d.n3 →
      Spec.view d m3 v.reY i j k = Spec.view d m1 v.reY i j k ∧ Spec.view d m3 v.imY i j k = Spec.view d m1 v.imY i j k := by
    intro i j k hi hj hk
    rw [vre, a2 i j k ⟨by omega, by omega, hk⟩, if_neg (by omega), a3 i j k ⟨by omega, by omega, hk⟩, if_neg (by omega), vim]
    exact ⟨rfl, rfl⟩
  refine ⟨m3, rfl, fun i j k hi hj hk => ?_, fun i j k hi hj hj' hk => ?_, fun a h1 h2 => ?_, fun a p hp => ?_⟩
  · rw [(hlow i j k hi hj hk).1, (hlow i j k hi hj hk).2]
    exact s1 i j k hi hj hk
  · have hk' := Nat.mod_lt (k + d.n3 / 2) (show d.n3 > 0 by omega)
    have := hlow i (d.n2 - 1 - j) ((k + d.n3 / 2) % d.n3) hi (by omega) hk'
    rw [this.1, this.2, vre, a2 i j k ⟨by omega, hj', hk⟩, if_pos hj, a3 i j k ⟨by omega, hj', hk⟩, if_pos hj, vim]
    exact ⟨rfl, rfl⟩
  · rw [b3 a h2, b2 a h1, s2 a h1 h2]
  · rw [q3 a p hp, q2 a p hp, s3 a p hp]

/-! ## The modes at one time -/

/-- The real part of `Σ (a + i b)_{lm} sYlm` with `l ≤ L`. -/
noncomputable def Spec.psiRe (L : Nat) (s : ℤ) (a b : Nat → ℤ → ℝ) (th phi : ℝ) : ℝ :=
  ∑ l ∈ range (L + 1), ∑ m ∈ Icc (-(l : ℤ)) l, (a l m * reSYlm l m s th phi - b l m * imSYlm l m s th phi)

/-- The imaginary part. -/
noncomputable def Spec.psiIm (L : Nat) (s : ℤ) (a b : Nat → ℤ → ℝ) (th phi : ℝ) : ℝ :=
  ∑ l ∈ range (L + 1), ∑ m ∈ Icc (-(l : ℤ)) l, (a l m * imSYlm l m s th phi + b l m * reSYlm l m s th phi)

theorem psi_re (L l : Nat) (m s : ℤ) (a b : Nat → ℤ → ℝ) (th phi : ℝ) :
    reSYlm l m s th phi * Spec.psiRe L s a b th phi + imSYlm l m s th phi * Spec.psiIm L s a b th phi =
      modeKernel L l m s a (fun l m => -b l m) th phi := by
  unfold Spec.psiRe Spec.psiIm modeKernel
  rw [mul_sum, mul_sum, ← sum_add_distrib]
  refine sum_congr rfl fun l' _ => ?_
  rw [mul_sum, mul_sum, ← sum_add_distrib]
  refine sum_congr rfl fun m' _ => ?_
  unfold reSYlm imSYlm
  push_cast
  rw [sub_mul (m' : ℝ), cos_sub, sin_sub (m' * phi)]
  ring

theorem psi_im (L l : Nat) (m s : ℤ) (a b : Nat → ℤ → ℝ) (th phi : ℝ) :
    reSYlm l m s th phi * Spec.psiIm L s a b th phi - imSYlm l m s th phi * Spec.psiRe L s a b th phi =
      modeKernel L l m s b a th phi := by
  unfold Spec.psiRe Spec.psiIm modeKernel
  rw [mul_sum, mul_sum, ← sum_sub_distrib]
  refine sum_congr rfl fun l' _ => ?_
  rw [mul_sum, mul_sum, ← sum_sub_distrib]
  refine sum_congr rfl fun m' _ => ?_
  unfold reSYlm imSYlm
  push_cast
  rw [sub_mul (m' : ℝ), cos_sub, sin_sub (m' * phi)]
  ring

theorem modeDirs_circle2 (lmax n2 n3 : Nat) (h : 1 ≤ n2) : Spec.Circle (modeDirs lmax n2 n3 .two) := ⟨rfl, rfl, rfl, h⟩

theorem modeDirs_circle3 (lmax n2 n3 : Nat) (h : 1 ≤ n3) : Spec.Circle (modeDirs lmax n2 n3 .three) := ⟨rfl, rfl, rfl, h⟩

theorem modeDirs_sph (lmax n2 n3 : Nat) (h2 : n2 % 2 = 0) (h2' : 3 ≤ n2) (h3 : 1 ≤ n3) : Spec.SphBox (modeDirs lmax n2 n3) where
  good := by
    intro ax
    have hp := pi_pos
    have h1 : 1 ≤ (lmax + 1) * (lmax + 1) := Nat.one_le_iff_ne_zero.2 (by positivity)
    cases ax
    · refine ⟨?_, h1, fun h => by cases h⟩
      show (1 : ℝ) < ((lmax + 1) * (lmax + 1) : Nat) + 1
      have : (1 : ℝ) ≤ ((lmax + 1) * (lmax + 1) : Nat) := by exact_mod_cast h1
      linarith
    · exact ⟨by show (0 : ℝ) < 2 * π; linarith, by show 1 ≤ n2; omega, fun h => by cases h⟩
    · exact ⟨by show (0 : ℝ) < 2 * π; linarith, h3, fun h => by cases h⟩
  four := rfl
  a0 := rfl
  b0 := rfl
  n3 := h2'
  n4 := by show n2 % 4 ≠ 1; omega

theorem modeDirs_point1 (lmax n2 n3 i : Nat) : (modeDirs lmax n2 n3 .one).point i = i + 1 := by
  show pointPeriodic 1 (((lmax + 1) * (lmax + 1) : Nat) + 1) ((lmax + 1) * (lmax + 1)) i = i + 1
  unfold pointPeriodic
  have : (((lmax + 1) * (lmax + 1) : Nat) : ℝ) ≠ 0 := by positivity
  field_simp
  ring

theorem modeDirs_point2 (lmax n2 n3 j : Nat) (h2 : n2 % 2 = 0) (h : 1 ≤ n2) :
    (modeDirs lmax n2 n3 .two).point j + Spec.thetaShift n2 = Spec.modeTheta n2 j := by
  show pointPeriodic 0 (2 * π) n2 j + _ = _
  unfold pointPeriodic Spec.thetaShift Spec.modeTheta
  rw [if_pos h2]
  have : (n2 : ℝ) ≠ 0 := by positivity
  field_simp
  ring

theorem modeDirs_point3 (lmax n2 n3 k : Nat) : (modeDirs lmax n2 n3 .three).point k = Spec.modePhi n3 k := by
  show pointPeriodic 0 (2 * π) n3 k = _
  unfold pointPeriodic Spec.modePhi
  ring

/-- The value of the product at the point with the other angles. -/
theorem kernel_grid (L l : Nat) (m s : ℤ) (hm : |m| ≤ l) (p q : Nat → ℤ → ℝ) (n2 n3 j k : Nat) (h3 : n3 % 2 = 0)
    (hj : j < n2) (hk : k < n3) :
    modeKernel L l m s p q (Spec.modeTheta n2 (n2 - 1 - j)) (Spec.modePhi n3 ((k + n3 / 2) % n3)) =
      modeKernel L l m s p q (Spec.modeTheta n2 j) (Spec.modePhi n3 k) := by
  have h2 : (n2 : ℝ) ≠ 0 := by exact_mod_cast (by omega : n2 ≠ 0)
  have h3' : (n3 : ℝ) ≠ 0 := by exact_mod_cast (by omega : n3 ≠ 0)
  have e2 : Spec.modeTheta n2 (n2 - 1 - j) = 2 * π - Spec.modeTheta n2 j := by
    unfold Spec.modeTheta
    rw [Nat.cast_sub (by omega), Nat.cast_sub (by omega)]
    field_simp
    push_cast
    ring
  have e3 : ((n3 / 2 : Nat) : ℝ) = n3 / 2 := by
    rw [Nat.cast_div (Nat.dvd_of_mod_eq_zero h3) (by norm_num)]
    norm_num
  rw [e2, shift_mod h3 hk]
  split
  · have : Spec.modePhi n3 (k + n3 / 2) = Spec.modePhi n3 k + π := by
      unfold Spec.modePhi
      push_cast [e3]
      field_simp
    rw [this, kernel_double L l m s hm]
  · rename_i h
    have : Spec.modePhi n3 k = Spec.modePhi n3 (k - n3 / 2) + π := by
      unfold Spec.modePhi
      rw [Nat.cast_sub (by omega), e3]
      field_simp
      ring
    rw [← kernel_double L l m s hm p q (Spec.modeTheta n2 j), this, show Spec.modePhi n3 (k - n3 / 2) + π + π =
      Spec.modePhi n3 (k - n3 / 2) + 2 * π by ring, kernel_period]

variable (g : Nat → (Nat → ℝ) × (Nat → ℝ) × (Nat → ℝ))

/-- Copy to the other angles and integral over the spheres of one variable that has a product at the points with `j < n2/2`. -/
theorem mode_integral (lmax n2 n3 L : Nat) (s : ℤ) (h2 : n2 % 2 = 0) (h3 : n3 % 2 = 0) (hn2 : 2 * (lmax + L) + 1 ≤ n2)
    (hn2' : 3 ≤ n2) (hn3 : 2 * (lmax + L) + 1 ≤ n3) (fft : Axis → Bool) (W F : Axis → Nat → ℝ) (X U : Nat) (hX : X ≠ U)
    (p q : Nat → ℤ → ℝ) (mem : Arrays ℝ)
    (hr : ∀ i j k, Spec.inBox (dirDims (modeDirs lmax n2 n3)) i j k →
      Spec.view (dirDims (modeDirs lmax n2 n3)) mem X i j k = i + 1)
    (hu : ∀ i j k, Spec.inBox (dirDims (modeDirs lmax n2 n3)) i j k →
      Spec.view (dirDims (modeDirs lmax n2 n3)) mem U i j k = modeKernel L (Spec.modeL i) (Spec.modeM i) s p q
        (Spec.modeTheta n2 j) (Spec.modePhi n3 k) / ((i + 1) * (i + 1))) :
    ∃ mem', sphIntegral2d g (stdBox (modeDirs lmax n2 n3) fft W F) (fun ax => (modeDirs lmax n2 n3 ax).method)
        (fun ax => (modeDirs lmax n2 n3 ax).a) (fun ax => (modeDirs lmax n2 n3 ax).b) X U U mem = .ok mem' ∧
      (∀ i, i < (lmax + 1) ^ 2 → mem' U i = if |s| ≤ Spec.modeL i ∧ Spec.modeL i ≤ L then p (Spec.modeL i) (Spec.modeM i) else 0) ∧
      ∀ a x, a ≠ U → mem' a x = mem a x := by
  have hD := modeDirs_sph lmax n2 n3 h2 hn2' (by omega)
  have hfl : ∀ i : Nat, Nat.floor ((i : ℝ) + 1) - 1 = i := fun i => by
    rw [show (i : ℝ) + 1 = ((i + 1 : Nat) : ℝ) by push_cast; ring, Nat.floor_natCast]
    omega
  -- spheres with a mode
  let P : ℝ → ℝ → ℝ → ℝ := fun x Y Z =>
    if Nat.floor x - 1 < (lmax + 1) ^ 2 then (1 / (x * x)) * modeKernel L (Spec.modeL (Nat.floor x - 1)) (Spec.modeM (Nat.floor x - 1)) s p q
      (Y + Spec.thetaShift n2) Z else 0
  have hP1 : ∀ x, Nat.floor x - 1 < (lmax + 1) ^ 2 → ∀ Y Z, P x Y Z = (1 / (x * x)) * modeKernel L (Spec.modeL (Nat.floor x - 1))
      (Spec.modeM (Nat.floor x - 1)) s p q (Y + Spec.thetaShift n2) Z := fun x h Y Z => if_pos h
  have hP0 : ∀ x, ¬ Nat.floor x - 1 < (lmax + 1) ^ 2 → ∀ Y Z, P x Y Z = 0 := fun x h Y Z => if_neg h
  have hsp : ∀ (D : BDir), Spec.Circle D → ∀ c : ℝ, ∀ f : ℝ → ℝ, f ∈ trigSpace (lmax + L) → 2 * (lmax + L) + 1 ≤ D.n →
      ∀ w : ℝ, D.space fun Y => w * f (Y + c) := by
    intro D hD c f hf hn w
    have := trig_space hD hn c (Submodule.smul_mem _ w hf)
    exact this
  have hz : ∀ (D : BDir), Spec.Circle D → 2 * (lmax + L) + 1 ≤ D.n → D.space fun _ => (0 : ℝ) := by
    intro D hD hn
    have := trig_space hD hn 0 (zero_mem (trigSpace (lmax + L)))
    exact this
  obtain ⟨mem', e, h, ho⟩ := C109_sphere g (modeDirs lmax n2 n3) hD fft W F X U U mem hX
    (fun i j k hb => by rw [hr i j k hb, modeDirs_point1]) P
    (fun x z => by
      by_cases h : Nat.floor x - 1 < (lmax + 1) ^ 2
      · simp only [hP1 x h]
        exact hsp _ (modeDirs_circle2 lmax n2 n3 (by omega)) _ _
          (trig_mono (Nat.add_le_add_right (modeL_lt h) L) (kernel_theta L _ _ s (modeM_abs _) p q z)) hn2 _
      · simp only [hP0 x h]
        exact hz _ (modeDirs_circle2 lmax n2 n3 (by omega)) hn2)
    (fun x y => by
      by_cases h : Nat.floor x - 1 < (lmax + 1) ^ 2
      · simp only [hP1 x h]
        have := hsp _ (modeDirs_circle3 lmax n2 n3 (by omega)) 0 _
          (trig_mono (Nat.add_le_add_right (modeL_lt h) L) (kernel_phi L _ _ s (modeM_abs _) p q (y + Spec.thetaShift n2))) hn3 (1 / (x * x))
        simpa only [add_zero] using this
      · simp only [hP0 x h]
        exact hz _ (modeDirs_circle3 lmax n2 n3 (by omega)) hn3)
    (fun i j k hb => by
      have hi : i < (lmax + 1) ^ 2 := by have := hb.1; rw [sq]; exact this
      rw [modeDirs_point1, hP1 _ (by rw [hfl]; exact hi), hfl, modeDirs_point2 lmax n2 n3 j h2 (by omega), modeDirs_point3, hu i j k hb]
      ring)
  refine ⟨mem', e, fun i hi => ?_, fun a x ha => ho a x (Or.inl ha)⟩
  have hv := h i 0 0 ⟨by rw [sq] at hi; exact hi, by show 0 < n2; omega, by show 0 < n3; omega⟩
  have e0 : Spec.view (dirDims (modeDirs lmax n2 n3)) mem' U i 0 0 = mem' U i := by
    unfold Spec.view; simp
  rw [e0, modeDirs_point1] at hv
  rw [hv]
  have e1 : Spec.sphereInt (modeDirs lmax n2 n3) P ((i : ℝ) + 1) = (1 / (((i : ℝ) + 1) * (i + 1))) *
      if |s| ≤ Spec.modeL i ∧ Spec.modeL i ≤ L then p (Spec.modeL i) (Spec.modeM i) else 0 := by
    rw [← kernel_int L (Spec.modeL i) (Spec.modeM i) s (modeM_abs i) p q, ← intervalIntegral.integral_const_mul]
    unfold Spec.sphereInt Spec.thetaInt
    refine intervalIntegral.integral_congr fun th _ => ?_
    dsimp only
    show sin th * (∫ Z in (0 : ℝ)..(2 * π), P (i + 1) (th - Spec.thetaShift ((modeDirs lmax n2 n3 .two).n)) Z) = _
    simp only [hP1 ((i : ℝ) + 1) (by rw [hfl]; exact hi), hfl]
    rw [intervalIntegral.integral_const_mul]
    have : th - Spec.thetaShift ((modeDirs lmax n2 n3 .two).n) + Spec.thetaShift n2 = th := by
      show th - Spec.thetaShift n2 + Spec.thetaShift n2 = th
      ring
    rw [this]
    ring
  rw [e1]
  have : ((i : ℝ) + 1) ≠ 0 := by positivity
  field_simp

theorem upLoop_append {α : Type} (n : Nat) (f : Nat → α) : upLoop 0 n (fun i out => out ++ [f i]) [] = (List.range n).map f := by
  induction n with
  | zero => rfl
  | succ n ih => rw [upLoop_succ (Nat.zero_le _), ih, List.range_succ, List.map_append]; rfl

/-- The lines of the output for the coefficients `a + i b` at one time. -/
noncomputable def Spec.modeLines (lmax L : Nat) (s : ℤ) (a b : Nat → ℤ → ℝ) (t : ℝ) : List ModeLine :=
  (List.range ((lmax + 1) ^ 2)).map fun i => ⟨Spec.modeL i, Spec.modeM i, t,
    if |s| ≤ Spec.modeL i ∧ Spec.modeL i ≤ L then a (Spec.modeL i) (Spec.modeM i) else 0,
    if |s| ≤ Spec.modeL i ∧ Spec.modeL i ≤ L then b (Spec.modeL i) (Spec.modeM i) else 0⟩

/-- **C111.** If the data are a sum of harmonics with `l ≤ L`, and the sphere has more than `2(lmax+L)` points in both
directions, then the modes that are written are exactly the coefficients of the sum. -/
theorem C111_modes (lmax n2 n3 L : Nat) (s : ℤ) (h2 : n2 % 2 = 0) (h3 : n3 % 2 = 0) (hn2 : 2 * (lmax + L) + 1 ≤ n2) (hn2' : 3 ≤ n2)
    (hn3 : 2 * (lmax + L) + 1 ≤ n3) (fft : Axis → Bool) (W F : Axis → Nat → ℝ) (v : ModeVars) (hv : Spec.ModeVars.ok v)
    (c1 c2 : CopySched) (hc1 : Spec.SchedOk (dirDims (modeDirs lmax n2 n3)) c1) (hc2 : Spec.SchedOk (dirDims (modeDirs lmax n2 n3)) c2)
    (t : ℝ) (a b : Nat → ℤ → ℝ) (mem : Arrays ℝ)
    (hX : ∀ i j k, Spec.inBox (dirDims (modeDirs lmax n2 n3)) i j k →
      Spec.view (dirDims (modeDirs lmax n2 n3)) mem v.X i j k = i + 1)
    (hY : ∀ i j k, i < (lmax + 1) ^ 2 → j < n2 / 2 → k < n3 →
      Spec.view (dirDims (modeDirs lmax n2 n3)) mem v.reY i j k =
        reSYlm (Spec.modeL i) (Spec.modeM i) s (Spec.modeTheta n2 j) (Spec.modePhi n3 k) ∧
      Spec.view (dirDims (modeDirs lmax n2 n3)) mem v.imY i j k =
        imSYlm (Spec.modeL i) (Spec.modeM i) s (Spec.modeTheta n2 j) (Spec.modePhi n3 k))
    (hpsi : ∀ i j k, i < (lmax + 1) ^ 2 → j < n2 / 2 → k < n3 →
      Spec.view (dirDims (modeDirs lmax n2 n3)) mem v.reVar i j k = Spec.psiRe L s a b (Spec.modeTheta n2 j) (Spec.modePhi n3 k) ∧
      Spec.view (dirDims (modeDirs lmax n2 n3)) mem v.imVar i j k = Spec.psiIm L s a b (Spec.modeTheta n2 j) (Spec.modePhi n3 k)) :
    ∃ mem', computeModes g (stdBox (modeDirs lmax n2 n3) fft W F) (fun ax => (modeDirs lmax n2 n3 ax).method)
        (fun ax => (modeDirs lmax n2 n3 ax).a) (fun ax => (modeDirs lmax n2 n3 ax).b) v lmax c1 c2 t mem =
          .ok (mem', Spec.modeLines lmax L s a b t) ∧
      ∀ x, x ≠ v.reMode → x ≠ v.imMode → mem' x = mem x := by
  have hne : v.reMode ≠ v.imMode ∧ v.X ≠ v.reMode ∧ v.X ≠ v.imMode ∧ (v.reY ≠ v.reMode ∧ v.reY ≠ v.imMode) ∧
      (v.imY ≠ v.reMode ∧ v.imY ≠ v.imMode) ∧ (v.reVar ≠ v.reMode ∧ v.reVar ≠ v.imMode) ∧ (v.imVar ≠ v.reMode ∧ v.imVar ≠ v.imMode) := by
    unfold Spec.ModeVars.ok at hv
    simp only [List.nodup_cons, List.mem_cons, List.not_mem_nil, or_false, not_or] at hv
    obtain ⟨h1, h2, h3, h4, h5, h6, h7, h8, h9⟩ := hv
    refine ⟨by tauto, by tauto, by tauto, ⟨Ne.symm ?_, Ne.symm ?_⟩, ⟨Ne.symm ?_, Ne.symm ?_⟩, ⟨?_, ?_⟩, ⟨?_, ?_⟩⟩ <;> tauto
  obtain ⟨n1, x1, x2, ⟨y1, y2⟩, ⟨z1, z2⟩, ⟨r1, r2⟩, ⟨i1, i2⟩⟩ := hne
  have hdim : dirDims (modeDirs lmax n2 n3) = ⟨(lmax + 1) * (lmax + 1), n2, n3⟩ := rfl
  generalize hd : dirDims (modeDirs lmax n2 n3) = d at *
  have d1 : d.n1 = (lmax + 1) ^ 2 := by rw [hdim, sq]
  have d2 : d.n2 = n2 := by rw [hdim]
  have d3 : d.n3 = n3 := by rw [hdim]
  obtain ⟨s1, s2, s3⟩ := half_store d ((lmax + 1) ^ 2) d1.ge v.reMode v.imMode n1 mem
    (fun i j k mem => integrandBody d v i j k mem)
    (fun i j k => modeKernel L (Spec.modeL i) (Spec.modeM i) s a (fun l m => -b l m) (Spec.modeTheta n2 j) (Spec.modePhi n3 k) /
      ((i + 1) * (i + 1)))
    (fun i j k => modeKernel L (Spec.modeL i) (Spec.modeM i) s b a (Spec.modeTheta n2 j) (Spec.modePhi n3 k) / ((i + 1) * (i + 1))) (by
      intro i j k m hm hi hj hk
      rw [d2] at hj
      rw [d3] at hk
      have hb : Spec.inBox d i j k := ⟨by omega, by omega, by omega⟩
      have eX : m v.X (d.idx i j k) = i + 1 := by rw [hm _ x1 x2]; exact hX i j k hb
      have e1 := (hY i j k hi hj hk).1
      have e2 := (hY i j k hi hj hk).2
      have e3 := (hpsi i j k hi hj hk).1
      have e4 := (hpsi i j k hi hj hk).2
      have e1' : m v.reY (d.idx i j k) = Spec.view d mem v.reY i j k := by rw [hm _ y1 y2]; rfl
      have e2' : m v.imY (d.idx i j k) = Spec.view d mem v.imY i j k := by rw [hm _ z1 z2]; rfl
      have e3' : m v.reVar (d.idx i j k) = Spec.view d mem v.reVar i j k := by rw [hm _ r1 r2]; rfl
      have e4' : m v.imVar (d.idx i j k) = Spec.view d mem v.imVar i j k := by rw [hm _ i1 i2]; rfl
      unfold integrandBody putVar
      rw [eX, e1', e2', e3', e4', e1, e2, e3, e4, psi_re, psi_im]
      refine ⟨?_, ?_, fun x p hap => ?_⟩
      · rw [aset_ne _ _ n1, aset_self, aset_self, aset_ne _ _ n1, aset_self, aset_self]
      · rw [aset_self, aset_self, aset_ne _ _ n1.symm, aset_self, aset_self]
      · by_cases h1 : x = v.imMode
        · subst h1
          have hp : p ≠ d.idx i j k := fun h => hap ⟨Or.inr rfl, h⟩
          rw [aset_self, aset_ne _ _ hp, aset_ne _ _ n1.symm, aset_self, aset_ne _ _ hp, aset_ne _ _ n1.symm]
        · rw [aset_ne _ _ h1]
          by_cases h2 : x = v.reMode
          · subst h2
            have hp : p ≠ d.idx i j k := fun h => hap ⟨Or.inl rfl, h⟩
            rw [aset_self, aset_ne _ _ hp, aset_ne _ _ n1, aset_self, aset_ne _ _ hp]
          · rw [aset_ne _ _ h2, aset_ne _ _ h1, aset_ne _ _ h2])
  have hbd : (stdBox (modeDirs lmax n2 n3) fft W F).d = d := by rw [← hd]; rfl
  unfold computeModes
  rw [modeLoop_eq, hbd]
  dsimp only at s1 s2 s3 ⊢
  generalize upLoop 0 ((lmax + 1) ^ 2) _ mem = m1 at s1 s2 s3 ⊢
  obtain ⟨m2, e2, a2, b2, q2⟩ := copyVar_spec d (by rw [d2]; exact h2) (by rw [d3]; exact h3) c1 hc1 v.reMode m1
  obtain ⟨m3, e3, a3, b3, q3⟩ := copyVar_spec d (by rw [d2]; exact h2) (by rw [d3]; exact h3) c2 hc2 v.imMode m2
  rw [e2, Res.bind_ok, e3, Res.bind_ok]
  have vX : ∀ i j k, Spec.inBox d i j k → Spec.view d m3 v.X i j k = i + 1 := fun i j k hb => by
    rw [← hX i j k hb]
    unfold Spec.view
    rw [b3 _ x2, b2 _ x1, s2 _ x1 x2]
  have vre : ∀ i j k, Spec.view d m3 v.reMode i j k = Spec.view d m2 v.reMode i j k := fun i j k => by
    unfold Spec.view; rw [b3 _ n1]
  have vim : ∀ i j k, Spec.view d m2 v.imMode i j k = Spec.view d m1 v.imMode i j k := fun i j k => by
    unfold Spec.view; rw [b2 _ n1.symm]
  have kre : ∀ i j k, Spec.inBox d i j k → Spec.view d m3 v.reMode i j k =
      modeKernel L (Spec.modeL i) (Spec.modeM i) s a (fun l m => -b l m) (Spec.modeTheta n2 j) (Spec.modePhi n3 k) /
        ((i + 1) * (i + 1)) := fun i j k hb => by
    have hi : i < (lmax + 1) ^ 2 := by rw [← d1]; exact hb.1
    have hj : j < n2 := by rw [← d2]; exact hb.2.1
    have hk : k < n3 := by rw [← d3]; exact hb.2.2
    rw [vre, a2 i j k hb, d2, d3]
    split
    · rw [(s1 i _ _ hi (by omega) (by rw [d3]; exact Nat.mod_lt _ (by omega))).1, kernel_grid L _ _ s (modeM_abs i) _ _ n2 n3 j k h3 hj hk]
    · rw [(s1 i j k hi (by omega) (by omega)).1]
  have kim : ∀ i j k, Spec.inBox d i j k → Spec.view d m3 v.imMode i j k =
      modeKernel L (Spec.modeL i) (Spec.modeM i) s b a (Spec.modeTheta n2 j) (Spec.modePhi n3 k) /
        ((i + 1) * (i + 1)) := fun i j k hb => by
    have hi : i < (lmax + 1) ^ 2 := by rw [← d1]; exact hb.1
    have hj : j < n2 := by rw [← d2]; exact hb.2.1
    have hk : k < n3 := by rw [← d3]; exact hb.2.2
    rw [a3 i j k hb, d2, d3]
    split
    · rw [vim, (s1 i _ _ hi (by omega) (by rw [d3]; exact Nat.mod_lt _ (by omega))).2, kernel_grid L _ _ s (modeM_abs i) _ _ n2 n3 j k h3 hj hk]
    · rw [vim, (s1 i j k hi (by omega) (by omega)).2]
  obtain ⟨m4, e4, a4, b4⟩ := mode_integral g lmax n2 n3 L s h2 h3 hn2 hn2' hn3 fft W F v.X v.reMode x1 a (fun l m => -b l m) m3
    (by rw [hd]; exact vX) (by rw [hd]; exact kre)
  obtain ⟨m5, e5, a5, b5⟩ := mode_integral g lmax n2 n3 L s h2 h3 hn2 hn2' hn3 fft W F v.X v.imMode x2 b a m4
    (by rw [hd]; intro i j k hb; rw [← vX i j k hb]; exact b4 _ _ x1)
    (by rw [hd]; intro i j k hb; rw [← kim i j k hb]; exact b4 _ _ n1.symm)
  rw [e4, Res.bind_ok, e5, Res.bind_ok]
  refine ⟨m5, ?_, fun x h1 h2 => ?_⟩
  · rw [modeLoop_eq, upLoop_append]
    congr 2
    unfold Spec.modeLines
    refine List.map_congr_left fun i hi => ?_
    rw [List.mem_range] at hi
    rw [b5 _ _ n1, a4 i hi, a5 i hi]
  · funext p
    rw [b5 x p h2, b4 x p h1, b3 x h2, b2 x h1, s2 x h1 h2]

/-! ## Reading data -/

theorem mirror_spec (d : Dims) (k0 k1 j0 j1 : Nat) (hk : k1 ≤ d.n3) (hj : j1 ≤ d.n2) (src : Nat → Nat → Nat → Nat) (sym : ℤ)
    (u : Nat → ℝ)
    (hs : ∀ i j k, i < d.n1 → j0 ≤ j → j < j1 → k0 ≤ k → k < k1 → ∀ i' j' k', i' < d.n1 → j0 ≤ j' → j' < j1 → k0 ≤ k' → k' < k1 →
      src i j k ≠ d.idx i' j' k') :
    (∀ i j k, i < d.n1 → j0 ≤ j → j < j1 → k0 ≤ k → k < k1 →
      mirrorLoop d.n1 k0 k1 j0 j1 d.idx src sym u (d.idx i j k) = sym * u (src i j k)) ∧
    ∀ p, (∀ i j k, i < d.n1 → j0 ≤ j → j < j1 → k0 ≤ k → k < k1 → p ≠ d.idx i j k) →
      mirrorLoop d.n1 k0 k1 j0 j1 d.idx src sym u p = u p := by
  obtain ⟨F, hF⟩ := box_function d fun i j k => sym * u (src i j k)
  let I : (Nat → ℝ) → Prop := fun u' => ∀ p, (∀ i j k, i < d.n1 → j0 ≤ j → j < j1 → k0 ≤ k → k < k1 → p ≠ d.idx i j k) → u' p = u p
  have hb : ∀ k, k0 ≤ k → k < k1 → ∀ j, j0 ≤ j → j < j1 → ∀ i u', 0 ≤ i → i < d.n1 → I u' →
      I (aset u' (d.idx i j k) (sym * u' (src i j k))) ∧ ∀ p, (p = d.idx i j k →
        aset u' (d.idx i j k) (sym * u' (src i j k)) p = F p) ∧
        (¬ p = d.idx i j k → aset u' (d.idx i j k) (sym * u' (src i j k)) p = u' p) := by
    intro k hk0 hk1 j hj0 hj1 i u' _ hi hI
    refine ⟨fun p hp => ?_, fun p => ⟨?_, fun h => aset_ne _ _ h⟩⟩
    · rw [aset_ne _ _ (hp i j k hi hj0 hj1 hk0 hk1)]
      exact hI p hp
    · rintro rfl
      rw [aset_self, hF i j k ⟨hi, by omega, by omega⟩, hI (src i j k) fun i' j' k' => hs i j k hi hj0 hj1 hk0 hk1 i' j' k']
  have hall := upLoop_store (lo := k0) (hi := k1)
    (body := fun k u => upLoop j0 j1 (fun j u => upLoop 0 d.n1 (fun i u => aset u (d.idx i j k) (sym * u (src i j k))) u) u) I F
    (fun k p => ∃ j, j0 ≤ j ∧ j < j1 ∧ ∃ i, 0 ≤ i ∧ i < d.n1 ∧ p = d.idx i j k)
    (fun k u' hk0 hk1 hI => upLoop_store
      (body := fun j u => upLoop 0 d.n1 (fun i u => aset u (d.idx i j k) (sym * u (src i j k))) u) I F _
      (fun j u' hj0 hj1 hI => upLoop_store (body := fun i u => aset u (d.idx i j k) (sym * u (src i j k))) I F _
        (fun i u' h0 hi hI => hb k hk0 hk1 j hj0 hj1 i u' h0 hi hI) u' hI) u' hI) u (fun _ _ => rfl)
  refine ⟨fun i j k hi hj0 hj1 hk0 hk1 => ?_, fun p hp => (hall.2 p).2 ?_⟩
  · refine ((hall.2 (d.idx i j k)).1 ⟨k, hk0, hk1, j, hj0, hj1, i, Nat.zero_le _, hi, rfl⟩).trans ?_
    exact hF i j k ⟨hi, by omega, by omega⟩
  · rintro ⟨k, hk0, hk1, j, hj0, hj1, i, _, hi, e⟩
    exact hp i j k hi hj0 hj1 hk0 hk1 e

/-- The loops that read the numbers. -/
theorem values_spec (d : Dims) (ntheta nphi : Nat) (ht : ntheta ≤ d.n2) (val : Nat → ℝ) (u : Nat → ℝ) :
    let st := upLoop 0 nphi (fun k st => upLoop 0 ntheta (fun j (st : Nat × (Nat → ℝ)) =>
      (st.1 + 1, upLoop 0 d.n1 (fun i u => aset u (d.idx i j k) (val st.1)) st.2)) st) (0, u)
    (∀ i j k, i < d.n1 → j < ntheta → k < nphi → st.2 (d.idx i j k) = val (k * ntheta + j)) ∧
    ∀ p, (∀ i j k, i < d.n1 → j < ntheta → k < nphi → p ≠ d.idx i j k) → st.2 p = u p := by
  intro st
  have hline : ∀ (c j k : Nat) (w : Nat → ℝ), let w' := upLoop 0 d.n1 (fun i u => aset u (d.idx i j k) (val c)) w
      (∀ i, i < d.n1 → w' (d.idx i j k) = val c) ∧ ∀ p, (∀ i, i < d.n1 → p ≠ d.idx i j k) → w' p = w p := by
    intro c j k w
    have h := upLoop_store (lo := 0) (hi := d.n1) (body := fun i u => aset u (d.idx i j k) (val c)) (fun _ => True) (fun _ => val c)
      (fun i p => p = d.idx i j k) (fun i u' _ _ _ => ⟨trivial, fun p => ⟨fun h => by rw [h, aset_self], fun h => aset_ne _ _ h⟩⟩) w trivial
    exact ⟨fun i hi => (h.2 _).1 ⟨i, Nat.zero_le _, hi, rfl⟩, fun p hp => (h.2 p).2 fun ⟨i, _, hi, e⟩ => hp i hi e⟩
  have hall := upLoop_inv (Nat.zero_le nphi) (body := fun k st => upLoop 0 ntheta (fun j (st : Nat × (Nat → ℝ)) =>
      (st.1 + 1, upLoop 0 d.n1 (fun i u => aset u (d.idx i j k) (val st.1)) st.2)) st) (s := (0, u))
    (fun K st => st.1 = K * ntheta ∧ (∀ i j k, i < d.n1 → j < ntheta → k < K → st.2 (d.idx i j k) = val (k * ntheta + j)) ∧
      ∀ p, (∀ i j k, i < d.n1 → j < ntheta → k < K → p ≠ d.idx i j k) → st.2 p = u p)
    ⟨by simp, fun _ _ _ _ _ h => absurd h (by omega), fun _ _ => rfl⟩
    (by
      intro K st _ hK ⟨h1, h2, h3⟩
      have := upLoop_inv (Nat.zero_le ntheta) (body := fun j (st : Nat × (Nat → ℝ)) =>
          (st.1 + 1, upLoop 0 d.n1 (fun i u => aset u (d.idx i j K) (val st.1)) st.2)) (s := st)
        (fun J st => st.1 = K * ntheta + J ∧
          (∀ i j k, i < d.n1 → j < ntheta → (k < K ∨ (k = K ∧ j < J)) → st.2 (d.idx i j k) = val (k * ntheta + j)) ∧
          ∀ p, (∀ i j k, i < d.n1 → j < ntheta → (k < K ∨ (k = K ∧ j < J)) → p ≠ d.idx i j k) → st.2 p = u p)
        ⟨h1, fun i j k hi hj hk => h2 i j k hi hj (by omega), fun p hp => h3 p fun i j k hi hj hk => hp i j k hi hj (Or.inl hk)⟩
        (by
          intro J st _ hJ ⟨g1, g2, g3⟩
          obtain ⟨l1, l2⟩ := hline st.1 J K st.2
          refine ⟨by show st.1 + 1 = _; omega, fun i j k hi hj hk => ?_, fun p hp => ?_⟩
          · by_cases h : k = K ∧ j = J
            · obtain ⟨rfl, rfl⟩ := h
              rw [← g1]
              exact l1 i hi
            · refine (l2 _ fun i' hi' e => ?_).trans (g2 i j k hi hj (by omega))
              have := idx_inj hi hi' (show j < d.n2 by omega) (show J < d.n2 by omega) e
              omega
          · refine (l2 p fun i hi => hp i J K hi hJ (Or.inr ⟨rfl, by omega⟩)).trans (g3 p fun i j k hi hj hk => ?_)
            exact hp i j k hi hj (by omega))
      refine ⟨by rw [this.1]; ring, fun i j k hi hj hk => this.2.1 i j k hi hj (by omega), fun p hp => this.2.2 p fun i j k hi hj hk => ?_⟩
      exact hp i j k hi hj (by omega))
  exact hall.2

/-- The files cover the part of the sphere that the symmetry needs. -/
def Spec.SphCovers (h : SphHeader) (n2 n3 : Nat) : Prop :=
  if h.gridtype = "bitant".toList then h.ntheta ≤ n2 / 2 ∧ n2 / 2 ≤ 2 * h.ntheta ∧ h.nphi = n3
  else if h.gridtype = "rotant".toList then h.ntheta = n2 / 2 ∧ h.nphi = n3 / 2
  else if h.gridtype = "quadrant".toList then h.ntheta ≤ n2 / 2 ∧ n2 / 2 ≤ 2 * h.ntheta ∧ h.nphi = n3 / 2
  else if h.gridtype = "octant".toList then
    h.ntheta ≤ n2 / 2 ∧ n2 / 2 ≤ 2 * h.ntheta ∧ h.nphi ≤ n3 / 2 ∧ n3 / 2 < 2 * h.nphi
  else h.ntheta = n2 / 2 ∧ h.nphi = n3

/-- The function on the sphere has the symmetries of the type of the grid. -/
def Spec.HasSym (h : SphHeader) (y : SphSym) (F : ℝ → ℝ → ℝ) : Prop :=
  ((h.gridtype = "bitant".toList ∨ h.gridtype = "quadrant".toList ∨ h.gridtype = "octant".toList) →
    ∀ th phi, F (π - th) phi = y.bitant * F th phi) ∧
  ((h.gridtype = "rotant".toList ∨ h.gridtype = "quadrant".toList ∨ h.gridtype = "octant".toList) →
    ∀ th phi, F th (phi + π) = y.rotant * F th phi) ∧
  (h.gridtype = "octant".toList → ∀ th phi, F th (π - phi) = y.octant * F th phi)

theorem modeTheta_mirror (n2 j : Nat) (h2 : n2 % 2 = 0) (hj : j < n2 / 2) :
    Spec.modeTheta n2 (n2 / 2 - j - 1) = π - Spec.modeTheta n2 j := by
  have : (n2 : ℝ) ≠ 0 := by exact_mod_cast (by omega : n2 ≠ 0)
  have e3 : ((n2 / 2 : Nat) : ℝ) = n2 / 2 := by
    rw [Nat.cast_div (Nat.dvd_of_mod_eq_zero h2) (by norm_num)]
    norm_num
  unfold Spec.modeTheta
  rw [Nat.sub_sub, Nat.cast_sub (by omega), e3]
  push_cast
  field_simp
  ring

theorem modePhi_half (n3 k : Nat) (h3 : n3 % 2 = 0) (hn : 0 < n3) : Spec.modePhi n3 (k + n3 / 2) = Spec.modePhi n3 k + π := by
  have : (n3 : ℝ) ≠ 0 := by exact_mod_cast (by omega : n3 ≠ 0)
  have e3 : ((n3 / 2 : Nat) : ℝ) = n3 / 2 := by
    rw [Nat.cast_div (Nat.dvd_of_mod_eq_zero h3) (by norm_num)]
    norm_num
  unfold Spec.modePhi
  push_cast [e3]
  field_simp

theorem modePhi_mirror (n3 k : Nat) (h3 : n3 % 2 = 0) (hk : k < n3 / 2) : Spec.modePhi n3 (n3 / 2 - k) = π - Spec.modePhi n3 k := by
  have h := modePhi_half n3 0 h3 (by omega)
  have : (n3 : ℝ) ≠ 0 := by exact_mod_cast (by omega : n3 ≠ 0)
  have e3 : ((n3 / 2 : Nat) : ℝ) = n3 / 2 := by
    rw [Nat.cast_div (Nat.dvd_of_mod_eq_zero h3) (by norm_num)]
    norm_num
  unfold Spec.modePhi
  rw [Nat.cast_sub (by omega), e3]
  field_simp

theorem readValues_spec (d : Dims) (h2 : d.n2 % 2 = 0) (h3 : d.n3 % 2 = 0) (h : SphHeader) (y : SphSym) (f : SphFrame)
    (hc : Spec.SphCovers h d.n2 d.n3) (F : ℝ → ℝ → ℝ) (hF : Spec.HasSym h y F)
    (hval : ∀ j k, j < h.ntheta → k < h.nphi → f.val (k * h.ntheta + j) = F (Spec.modeTheta d.n2 j) (Spec.modePhi d.n3 k))
    (u : Nat → ℝ) :
    (∀ i j k, i < d.n1 → j < d.n2 / 2 → k < d.n3 → readValues d h y f u (d.idx i j k) =
      F (Spec.modeTheta d.n2 j) (Spec.modePhi d.n3 k)) ∧
    ∀ p, d.n1 * d.n2 * d.n3 ≤ p → readValues d h y f u p = u p := by
  have hlt : h.ntheta ≤ d.n2 / 2 ∧ h.nphi ≤ d.n3 := by
    unfold Spec.SphCovers at hc
    split_ifs at hc <;> omega
  have hfar : ∀ p, d.n1 * d.n2 * d.n3 ≤ p → ∀ i j k, Spec.inBox d i j k → p ≠ d.idx i j k := by
    intro p hp i j k hb e
    have := idx_lt hb
    omega
  unfold readValues
  obtain ⟨v1, v2⟩ := values_spec d h.ntheta h.nphi (by omega) f.val u
  dsimp only at v1 v2 ⊢
  generalize (upLoop 0 h.nphi (fun k st => upLoop 0 h.ntheta (fun j (st : Nat × (Nat → ℝ)) =>
      (st.1 + 1, upLoop 0 d.n1 (fun i u => aset u (d.idx i j k) (f.val st.1)) st.2)) st) (0, u)).2 = w at v1 v2 ⊢
  have k1 : ∀ i j k, i < d.n1 → j < h.ntheta → k < h.nphi → w (d.idx i j k) = F (Spec.modeTheta d.n2 j) (Spec.modePhi d.n3 k) :=
    fun i j k hi hj hk => by rw [v1 i j k hi hj hk, hval j k hj hk]
  have k1' : ∀ p, d.n1 * d.n2 * d.n3 ≤ p → w p = u p := fun p hp => v2 p fun i j k hi hj hk =>
    hfar p hp i j k ⟨hi, by omega, by omega⟩
  clear v1 v2 hval
  -- bitant
  obtain ⟨w2, hw2, k2, k2'⟩ : ∃ w2, (if h.gridtype = "bitant".toList ∨ h.gridtype = "quadrant".toList ∨ h.gridtype = "octant".toList then
      mirrorLoop d.n1 0 h.nphi h.ntheta (d.n2 / 2) d.idx (fun i j k => d.idx i (d.n2 / 2 - j - 1) k) y.bitant w else w) = w2 ∧
      (∀ i j k, i < d.n1 → j < d.n2 / 2 → k < h.nphi → w2 (d.idx i j k) = F (Spec.modeTheta d.n2 j) (Spec.modePhi d.n3 k)) ∧
      ∀ p, d.n1 * d.n2 * d.n3 ≤ p → w2 p = u p := by
    refine ⟨_, rfl, ?_⟩
    split
    · rename_i hg
      have hcov : d.n2 / 2 ≤ 2 * h.ntheta := by
        unfold Spec.SphCovers at hc
        rcases hg with e | e | e
        · rw [e, if_pos rfl] at hc; omega
        · rw [e, if_neg (by decide), if_neg (by decide), if_pos rfl] at hc; omega
        · rw [e, if_neg (by decide), if_neg (by decide), if_neg (by decide), if_pos rfl] at hc; omega
      obtain ⟨m1, m2⟩ := mirror_spec d 0 h.nphi h.ntheta (d.n2 / 2) hlt.2 (by omega) (fun i j k => d.idx i (d.n2 / 2 - j - 1) k)
        y.bitant w (by
          intro i j k hi hj0 hj1 hk0 hk1 i' j' k' hi' hj0' hj1' hk0' hk1' e
          have := idx_inj hi hi' (show d.n2 / 2 - j - 1 < d.n2 by omega) (show j' < d.n2 by omega) e
          omega)
      refine ⟨fun i j k hi hj hk => ?_, fun p hp => ?_⟩
      · by_cases hj' : j < h.ntheta
        · rw [m2 _ fun i' j' k' hi' hj0' hj1' hk0' hk1' e => ?_, k1 i j k hi hj' hk]
          have := idx_inj hi hi' (show j < d.n2 by omega) (show j' < d.n2 by omega) e
          omega
        · rw [m1 i j k hi (by omega) hj (Nat.zero_le _) hk, k1 i _ k hi (by omega) hk, modeTheta_mirror d.n2 j h2 hj,
            ← hF.1 hg, sub_sub_cancel]
      · rw [m2 p fun i' j' k' hi' hj0' hj1' hk0' hk1' => hfar p hp i' j' k' ⟨hi', by omega, by omega⟩, k1' p hp]
    · rename_i hg
      rw [not_or, not_or] at hg
      refine ⟨fun i j k hi hj hk => k1 i j k hi ?_ hk, k1'⟩
      unfold Spec.SphCovers at hc
      rw [if_neg hg.1, if_neg hg.2.1, if_neg hg.2.2] at hc
      split_ifs at hc <;> omega
  rw [hw2]
  -- octant
  obtain ⟨w3, hw3, k3, k3'⟩ : ∃ w3, (if h.gridtype = "octant".toList then
      mirrorLoop d.n1 h.nphi (d.n3 / 2) 0 (d.n2 / 2) d.idx (fun i j k => d.idx i j (d.n3 / 2 - k)) y.octant w2 else w2) = w3 ∧
      (∀ i j k, i < d.n1 → j < d.n2 / 2 → (k < h.nphi ∨ k < d.n3 / 2) → w3 (d.idx i j k) = F (Spec.modeTheta d.n2 j) (Spec.modePhi d.n3 k)) ∧
      ∀ p, d.n1 * d.n2 * d.n3 ≤ p → w3 p = u p := by
    refine ⟨_, rfl, ?_⟩
    split
    · rename_i hg
      have hcov : h.nphi ≤ d.n3 / 2 ∧ d.n3 / 2 < 2 * h.nphi := by
        unfold Spec.SphCovers at hc
        rw [hg, if_neg (by decide), if_neg (by decide), if_neg (by decide), if_pos rfl] at hc
        omega
      obtain ⟨m1, m2⟩ := mirror_spec d h.nphi (d.n3 / 2) 0 (d.n2 / 2) (by omega) (by omega) (fun i j k => d.idx i j (d.n3 / 2 - k))
        y.octant w2 (by
          intro i j k hi hj0 hj1 hk0 hk1 i' j' k' hi' hj0' hj1' hk0' hk1' e
          have := idx_inj hi hi' (show j < d.n2 by omega) (show j' < d.n2 by omega) e
          omega)
      refine ⟨fun i j k hi hj hk => ?_, fun p hp => ?_⟩
      · by_cases hk' : k < h.nphi
        · rw [m2 _ fun i' j' k' hi' hj0' hj1' hk0' hk1' e => ?_, k2 i j k hi hj hk']
          have := idx_inj hi hi' (show j < d.n2 by omega) (show j' < d.n2 by omega) e
          omega
        · rw [m1 i j k hi (Nat.zero_le _) hj (by omega) (by omega), k2 i j _ hi hj (by omega),
            modePhi_mirror d.n3 k h3 (by omega), ← hF.2.2 hg, sub_sub_cancel]
      · rw [m2 p fun i' j' k' hi' hj0' hj1' hk0' hk1' => hfar p hp i' j' k' ⟨hi', by omega, by omega⟩, k2' p hp]
    · rename_i hg
      refine ⟨fun i j k hi hj hk => k2 i j k hi hj ?_, k2'⟩
      unfold Spec.SphCovers at hc
      split_ifs at hc <;> omega
  rw [hw3]
  split
  · rename_i hg
    obtain ⟨m1, m2⟩ := mirror_spec d (d.n3 / 2) d.n3 0 (d.n2 / 2) le_rfl (by omega) (fun i j k => d.idx i j (k - d.n3 / 2))
      y.rotant w3 (by
        intro i j k hi hj0 hj1 hk0 hk1 i' j' k' hi' hj0' hj1' hk0' hk1' e
        have := idx_inj hi hi' (show j < d.n2 by omega) (show j' < d.n2 by omega) e
        omega)
    refine ⟨fun i j k hi hj hk => ?_, fun p hp => ?_⟩
    · by_cases hk' : k < d.n3 / 2
      · rw [m2 _ fun i' j' k' hi' hj0' hj1' hk0' hk1' e => ?_, k3 i j k hi hj (Or.inr hk')]
        have := idx_inj hi hi' (show j < d.n2 by omega) (show j' < d.n2 by omega) e
        omega
      · rw [m1 i j k hi (Nat.zero_le _) hj (by omega) hk, k3 i j _ hi hj (Or.inr (by omega)), ← hF.2.1 hg,
          ← modePhi_half d.n3 _ h3 (by omega), Nat.sub_add_cancel (by omega)]
    · rw [m2 p fun i' j' k' hi' hj0' hj1' hk0' hk1' => hfar p hp i' j' k' ⟨hi', by omega, by omega⟩, k3' p hp]
  · rename_i hg
    rw [not_or, not_or] at hg
    refine ⟨fun i j k hi hj hk => k3 i j k hi hj (Or.inl ?_), k3'⟩
    unfold Spec.SphCovers at hc
    rw [if_neg hg.1, if_neg hg.2.1, if_neg hg.2.2] at hc
    split_ifs at hc <;> omega

/-- **C111.** `ModeComputer_read_spheredata`: if the numbers are the values of a function on the part of the sphere that the file
covers, and the function has the symmetries of the type of the grid, then the variable has the values of the function at all
points with `j < n2/2`, on every sphere, and the same values at the points with the other angles. -/
theorem C111_read (d : Dims) (h2 : d.n2 % 2 = 0) (h3 : d.n3 % 2 = 0) (h : SphHeader) (y : SphSym) (c : CopySched)
    (hc : Spec.SchedOk d c) (v : Nat) (f : SphFrame) (hcov : Spec.SphCovers h d.n2 d.n3) (F : ℝ → ℝ → ℝ) (hF : Spec.HasSym h y F)
    (hval : ∀ j k, j < h.ntheta → k < h.nphi → f.val (k * h.ntheta + j) = F (Spec.modeTheta d.n2 j) (Spec.modePhi d.n3 k))
    (mem : Arrays ℝ) :
    ∃ mem', readSphere d h y c v f mem = .ok mem' ∧
      (∀ i j k, i < d.n1 → j < d.n2 / 2 → k < d.n3 → Spec.view d mem' v i j k = F (Spec.modeTheta d.n2 j) (Spec.modePhi d.n3 k)) ∧
      (∀ i j k, Spec.inBox d i j k → d.n2 / 2 ≤ j →
        Spec.view d mem' v i j k = Spec.view d mem' v i (d.n2 - 1 - j) ((k + d.n3 / 2) % d.n3)) ∧
      (∀ a, a ≠ v → mem' a = mem a) ∧ ∀ a p, d.n1 * d.n2 * d.n3 ≤ p → mem' a p = mem a p := by
  obtain ⟨r1, r2⟩ := readValues_spec d h2 h3 h y f hcov F hF hval (mem v)
  obtain ⟨m', e, a1, a2, a3⟩ := copyVar_spec d h2 h3 c hc v (aset mem v (readValues d h y f (mem v)))
  have hview : ∀ i j k, Spec.view d (aset mem v (readValues d h y f (mem v))) v i j k = readValues d h y f (mem v) (d.idx i j k) := by
    intro i j k
    unfold Spec.view
    rw [aset_self]; rfl
  have hlow : ∀ i j k, i < d.n1 → j < d.n2 / 2 → k < d.n3 → Spec.view d m' v i j k = readValues d h y f (mem v) (d.idx i j k) := by
    intro i j k hi hj hk
    rw [a1 i j k ⟨hi, by omega, hk⟩, if_neg (by omega), hview]
  refine ⟨m', e, fun i j k hi hj hk => by rw [hlow i j k hi hj hk, r1 i j k hi hj hk], fun i j k hb hj => ?_,
    fun a ha => by rw [a2 a ha, aset_ne _ _ ha], fun a p hp => ?_⟩
  · have hk' := Nat.mod_lt (k + d.n3 / 2) (show d.n3 > 0 by have := hb.2.2; omega)
    rw [a1 i j k hb, if_pos hj, hview, hlow i _ _ hb.1 (by have := hb.2.1; omega) hk']
  · rw [a3 a p hp]
    by_cases ha : a = v
    · subst ha; rw [aset_self, r2 p hp]
    · rw [aset_ne _ _ ha]

/-! ## The times -/

/-- The frames that were read last from both files, whenever modes are computed. -/
def Spec.computed : List ModeStep → Option SphFrame → Option SphFrame → List (Option SphFrame × Option SphFrame × ℝ)
  | [], _, _ => []
  | .readRe f :: es, _, i => Spec.computed es (some f) i
  | .readIm f :: es, r, _ => Spec.computed es r (some f)
  | .compute t :: es, r, i => (r, i, t) :: Spec.computed es r i

open Classical in
/-- The pieces of the first file for which there is one with the same time in the second file, with this one. -/
noncomputable def Spec.common (f1 f2 : List SphFrame) : List (SphFrame × SphFrame) :=
  f1.filterMap fun a => (f2.find? fun b => b.time = a.time).map fun b => (a, b)

/-- The times of the file grow. -/
def Spec.Growing (f : List SphFrame) : Prop := f.Pairwise fun a b => a.time < b.time

/-- The last of a list, or the given one. -/
def lastOf (b : SphFrame) : List SphFrame → SphFrame
  | [] => b
  | f :: fs => lastOf f fs

theorem computed_im (L : List SphFrame) (rest : List ModeStep) (r : Option SphFrame) (b : SphFrame) :
    Spec.computed (L.map ModeStep.readIm ++ rest) r (some b) = Spec.computed rest r (some (lastOf b L)) := by
  induction L generalizing b with
  | nil => rfl
  | cons f fs ih => exact ih f

theorem computed_re (L : List SphFrame) (rest : List ModeStep) (i : Option SphFrame) (a : SphFrame) :
    Spec.computed (L.map ModeStep.readRe ++ rest) (some a) i = Spec.computed rest (some (lastOf a L)) i := by
  induction L generalizing a with
  | nil => rfl
  | cons f fs ih => exact ih f

theorem catchUp_none (t : ℝ) (b : SphFrame) (fs : List SphFrame) (L : List SphFrame) (h : catchUp t fs b.time = (L, none)) :
    ∀ x ∈ b :: fs, x.time < t := by
  induction fs generalizing b L with
  | nil =>
    unfold catchUp at h
    split at h
    · intro x hx
      rw [List.mem_singleton] at hx
      rw [hx]; assumption
    · simp at h
  | cons f fs ih =>
    unfold catchUp at h
    split at h
    · simp only [Prod.mk.injEq] at h
      have := ih f (catchUp t fs f.time).1 (Prod.ext rfl h.2)
      intro x hx
      rcases List.mem_cons.1 hx with rfl | hx
      · assumption
      · exact this x hx
    · simp at h

theorem catchUp_some (t : ℝ) (b : SphFrame) (fs : List SphFrame) (L fs' : List SphFrame) (t' : ℝ)
    (h : catchUp t fs b.time = (L, some (fs', t'))) :
    (lastOf b L).time = t' ∧ t ≤ t' ∧ ∃ pre, b :: fs = pre ++ lastOf b L :: fs' ∧ ∀ x ∈ pre, x.time < t := by
  induction fs generalizing b L with
  | nil =>
    unfold catchUp at h
    split at h
    · simp at h
    · rename_i hn
      simp only [Prod.mk.injEq, Option.some.injEq] at h
      obtain ⟨rfl, rfl, rfl⟩ := h
      exact ⟨rfl, not_lt.1 hn, [], rfl, by simp⟩
  | cons f fs ih =>
    unfold catchUp at h
    split at h
    · rename_i hp
      simp only [Prod.mk.injEq] at h
      obtain ⟨rfl, h2⟩ := h
      obtain ⟨h3, h4, pre, h5, h6⟩ := ih f (catchUp t fs f.time).1 (Prod.ext rfl h2)
      refine ⟨h3, h4, b :: pre, ?_, fun x hx => ?_⟩
      · show b :: f :: fs = b :: (pre ++ lastOf f _ :: fs')
        rw [h5]
      · rcases List.mem_cons.1 hx with rfl | hx
        · exact hp
        · exact h6 x hx
    · rename_i hn
      simp only [Prod.mk.injEq, Option.some.injEq] at h
      obtain ⟨rfl, rfl, rfl⟩ := h
      exact ⟨rfl, not_lt.1 hn, [], rfl, by simp⟩

theorem common_right (f1 pre f2 : List SphFrame) (h : ∀ a ∈ f1, ∀ b ∈ pre, b.time < a.time) :
    Spec.common f1 (pre ++ f2) = Spec.common f1 f2 := by
  unfold Spec.common
  refine List.filterMap_congr fun a ha => ?_
  rw [List.find?_append, List.find?_eq_none.2, Option.none_or]
  intro b hb
  simpa using (h a ha b hb).ne

theorem common_nil (f1 f2 : List SphFrame) (h : ∀ a ∈ f1, ∀ b ∈ f2, b.time ≠ a.time) : Spec.common f1 f2 = [] := by
  unfold Spec.common
  rw [List.filterMap_eq_nil_iff]
  intro a ha
  rw [List.find?_eq_none.2]
  · rfl
  · intro b hb
    simpa using h a ha b hb

theorem common_left (pre f1 f2 : List SphFrame) (h : ∀ a ∈ pre, ∀ b ∈ f2, a.time < b.time) :
    Spec.common (pre ++ f1) f2 = Spec.common f1 f2 := by
  have := common_nil pre f2 fun a ha b hb => (h a ha b hb).ne'
  unfold Spec.common at this ⊢
  rw [List.filterMap_append, this, List.nil_append]

theorem common_match (a b : SphFrame) (f1 f2 : List SphFrame) (h : a.time = b.time) (h1 : ∀ x ∈ f1, a.time < x.time) :
    Spec.common (a :: f1) (b :: f2) = (a, b) :: Spec.common f1 f2 := by
  have e := common_right f1 [b] f2 fun x hx y hy => by
    rw [List.mem_singleton] at hy
    rw [hy, ← h]
    exact h1 x hx
  unfold Spec.common at e ⊢
  rw [List.filterMap_cons, List.find?_cons_of_pos (by simpa using h.symm)]
  rw [← e]
  rfl

theorem growing_head {a : SphFrame} {f : List SphFrame} (h : Spec.Growing (a :: f)) : ∀ x ∈ a :: f, a.time ≤ x.time := by
  intro x hx
  rcases List.mem_cons.1 hx with rfl | hx
  · exact le_rfl
  · exact ((List.pairwise_cons.1 h).1 x hx).le

theorem sync_spec (a b : SphFrame) (f1 f2 : List SphFrame) (h1 : Spec.Growing (a :: f1)) (h2 : Spec.Growing (b :: f2)) :
    ((syncTimes f1 f2 a.time b.time).2 = none → Spec.common (a :: f1) (b :: f2) = [] ∧
      Spec.computed (syncTimes f1 f2 a.time b.time).1 (some a) (some b) = []) ∧
    ∀ f1' f2' t, (syncTimes f1 f2 a.time b.time).2 = some (f1', f2', t) → ∃ a' b' : SphFrame, a'.time = t ∧ b'.time = t ∧
      Spec.Growing (a' :: f1') ∧ Spec.Growing (b' :: f2') ∧
      Spec.common (a :: f1) (b :: f2) = Spec.common (a' :: f1') (b' :: f2') ∧
      ∀ rest, Spec.computed ((syncTimes f1 f2 a.time b.time).1 ++ rest) (some a) (some b) =
        Spec.computed rest (some a') (some b') := by
  induction hn : f1.length + f2.length using Nat.strong_induction_on generalizing f1 f2 a b with
  | _ n ih =>
    rw [syncTimes]
    split
    · rename_i ht
      refine ⟨fun h => by simp at h, fun f1' f2' t h => ?_⟩
      simp only [Option.some.injEq, Prod.mk.injEq] at h
      obtain ⟨rfl, rfl, rfl⟩ := h
      exact ⟨a, b, rfl, ht.symm, h1, h2, rfl, fun rest => rfl⟩
    · rename_i ht
      split
      · rename_i L2 e2
        refine ⟨fun _ => ⟨common_nil _ _ fun x hx y hy => ?_, ?_⟩, fun _ _ _ h => by simp at h⟩
        · exact ((catchUp_none _ _ _ _ e2 y hy).trans_le (growing_head h1 x hx)).ne
        · have := computed_im L2 [] (some a) b
          rw [List.append_nil] at this
          rw [this]; rfl
      · rename_i L2 f2' t2' e2
        obtain ⟨c1, c2, pre2, c3, c4⟩ := catchUp_some _ _ _ _ _ _ e2
        have len2 := catchUp_length _ _ _ _ _ _ e2
        have g2 : Spec.Growing (lastOf b L2 :: f2') := by
          unfold Spec.Growing at h2 ⊢
          rw [c3] at h2
          exact (List.pairwise_append.1 h2).2.1
        have com2 : Spec.common (a :: f1) (b :: f2) = Spec.common (a :: f1) (lastOf b L2 :: f2') := by
          rw [c3]
          exact common_right _ _ _ fun x hx y hy => (c4 y hy).trans_le (growing_head h1 x hx)
        split
        · rename_i L1 e1
          refine ⟨fun _ => ⟨?_, ?_⟩, fun _ _ _ h => by simp at h⟩
          · rw [com2]
            refine common_nil _ _ fun x hx y hy => ?_
            have q := catchUp_none _ _ _ _ e1 x hx
            have := growing_head g2 y hy
            rw [c1] at this
            exact (q.trans_le this).ne'
          · have := computed_re L1 [] (some (lastOf b L2)) a
            rw [List.append_nil] at this
            rw [computed_im, this]
            rfl
        · rename_i L1 f1' t1' e1
          obtain ⟨d1, d2, pre1, d3, d4⟩ := catchUp_some _ _ _ _ _ _ e1
          have len1 := catchUp_length _ _ _ _ _ _ e1
          have g1 : Spec.Growing (lastOf a L1 :: f1') := by
            unfold Spec.Growing at h1 ⊢
            rw [d3] at h1
            exact (List.pairwise_append.1 h1).2.1
          have com1 : Spec.common (a :: f1) (b :: f2) = Spec.common (lastOf a L1 :: f1') (lastOf b L2 :: f2') := by
            rw [com2, d3]
            refine common_left _ _ _ fun x hx y hy => ?_
            have := growing_head g2 y hy
            rw [c1] at this
            exact (d4 x hx).trans_le this
          have hlt : f1'.length + f2'.length < n := by
            rcases lt_or_gt_of_ne ht with h | h
            · have e := len2.2.2 (by exact not_lt.2 h.le)
              have := len1.2.1 (by rw [e]; exact h)
              omega
            · have := len2.2.1 h
              omega
          obtain ⟨i1, i2⟩ := ih _ hlt (lastOf a L1) (lastOf b L2) f1' f2' g1 g2 rfl
          rw [d1, c1] at i1 i2
          dsimp only
          refine ⟨fun h => ?_, fun f1'' f2'' t h => ?_⟩
          · obtain ⟨j1, j2⟩ := i1 h
            refine ⟨by rw [com1, j1], ?_⟩
            rw [List.append_assoc, computed_im, computed_re, j2]
          · obtain ⟨a', b', j1, j2, j3, j4, j5, j6⟩ := i2 f1'' f2'' t h
            refine ⟨a', b', j1, j2, j3, j4, by rw [com1, j5], fun rest => ?_⟩
            rw [List.append_assoc, List.append_assoc, computed_im, computed_re, j6]

/-- **C111.** If the times grow in both files, then the modes are computed exactly at the times that are in both files, in their
order, and always from the data with this time. -/
theorem C111_times (f1 f2 : List SphFrame) (h1 : Spec.Growing f1) (h2 : Spec.Growing f2) (r i : Option SphFrame) :
    Spec.computed (modeSteps f1 f2) r i = (Spec.common f1 f2).map fun x => (some x.1, some x.2, x.1.time) := by
  induction hn : f1.length using Nat.strong_induction_on generalizing f1 f2 r i with
  | _ n ih =>
    rw [modeSteps.eq_def]
    split
    · rfl
    · rename_i a f1
      split
      · rw [common_nil _ _ (by simp)]; rfl
      · rename_i b f2
        obtain ⟨s1, s2⟩ := sync_spec a b f1 f2 h1 h2
        split
        · rename_i L e
          rw [e] at s1
          obtain ⟨q1, q2⟩ := s1 rfl
          rw [q1]
          exact q2
        · rename_i L f1' f2' t e
          rw [e] at s2
          obtain ⟨a', b', j1, j2, j3, j4, j5, j6⟩ := s2 f1' f2' t rfl
          rw [j5, common_match a' b' f1' f2' (j1.trans j2.symm) (List.pairwise_cons.1 j3).1]
          have hlen := syncTimes_length _ _ _ _ _ _ _ _ e
          refine (j6 _).trans ?_
          show (some a', some b', t) :: _ = _
          rw [ih f1'.length (by simp only [List.length_cons] at hn; omega) f1' f2' (List.pairwise_cons.1 j3).2 (List.pairwise_cons.1 j4).2
            _ _ rfl, List.map_cons, j1]

/-! ## The whole run -/

/-- The frames that are read satisfy what the frames of the files satisfy. -/
def stepOk (P Q : SphFrame → Prop) : ModeStep → Prop
  | .readRe f => P f
  | .readIm f => Q f
  | .compute _ => True

theorem catchUp_all (Q : SphFrame → Prop) (t : ℝ) (fs : List SphFrame) (t2 : ℝ) (h : ∀ f ∈ fs, Q f) :
    (∀ f ∈ (catchUp t fs t2).1, Q f) ∧ ∀ fs' t', (catchUp t fs t2).2 = some (fs', t') → ∀ f ∈ fs', Q f := by
  induction fs generalizing t2 with
  | nil =>
    unfold catchUp
    split
    · exact ⟨by simp, by simp⟩
    · refine ⟨by simp, fun fs' t' e => ?_⟩
      simp only [Option.some.injEq, Prod.mk.injEq] at e
      rw [← e.1]; simp
  | cons f fs ih =>
    unfold catchUp
    split
    · have hi := ih f.time fun x hx => h x (List.mem_cons_of_mem _ hx)
      refine ⟨fun x hx => ?_, hi.2⟩
      rcases List.mem_cons.1 hx with rfl | hx
      · exact h _ List.mem_cons_self
      · exact hi.1 x hx
    · refine ⟨by simp, fun fs' t' e => ?_⟩
      simp only [Option.some.injEq, Prod.mk.injEq] at e
      rw [← e.1]; exact h

theorem sync_all (P Q : SphFrame → Prop) (f1 f2 : List SphFrame) (t1 t2 : ℝ) (h1 : ∀ f ∈ f1, P f) (h2 : ∀ f ∈ f2, Q f) :
    (∀ e ∈ (syncTimes f1 f2 t1 t2).1, stepOk P Q e) ∧ ∀ f1' f2' t, (syncTimes f1 f2 t1 t2).2 = some (f1', f2', t) →
      (∀ f ∈ f1', P f) ∧ ∀ f ∈ f2', Q f := by
  have him : ∀ L : List SphFrame, (∀ f ∈ L, Q f) → ∀ e ∈ L.map ModeStep.readIm, stepOk P Q e := by
    intro L hL e he
    obtain ⟨f, hf, rfl⟩ := List.mem_map.1 he
    exact hL f hf
  have hre : ∀ L : List SphFrame, (∀ f ∈ L, P f) → ∀ e ∈ L.map ModeStep.readRe, stepOk P Q e := by
    intro L hL e he
    obtain ⟨f, hf, rfl⟩ := List.mem_map.1 he
    exact hL f hf
  induction hn : f1.length + f2.length using Nat.strong_induction_on generalizing f1 f2 t1 t2 with
  | _ n ih =>
    rw [syncTimes]
    split
    · refine ⟨by simp, fun f1' f2' t e => ?_⟩
      simp only [Option.some.injEq, Prod.mk.injEq] at e
      rw [← e.1, ← e.2.1]
      exact ⟨h1, h2⟩
    · rename_i ht
      have c2 := catchUp_all Q t1 f2 t2 h2
      split
      · rename_i L2 e2
        rw [e2] at c2
        exact ⟨him _ c2.1, fun _ _ _ e => by simp at e⟩
      · rename_i L2 f2' t2' e2
        rw [e2] at c2
        have c1 := catchUp_all P t2' f1 t1 h1
        have len2 := catchUp_length _ _ _ _ _ _ e2
        split
        · rename_i L1 e1
          rw [e1] at c1
          refine ⟨fun e he => ?_, fun _ _ _ e => by simp at e⟩
          rcases List.mem_append.1 he with he | he
          · exact him _ c2.1 e he
          · exact hre _ c1.1 e he
        · rename_i L1 f1' t1' e1
          rw [e1] at c1
          have len1 := catchUp_length _ _ _ _ _ _ e1
          have hlt : f1'.length + f2'.length < n := by
            rcases lt_or_gt_of_ne ht with h | h
            · have e := len2.2.2 (by exact not_lt.2 h.le)
              have := len1.2.1 (by rw [e]; exact h)
              omega
            · have := len2.2.1 h
              omega
          obtain ⟨i1, i2⟩ := ih _ hlt f1' f2' t1' t2' (c1.2 _ _ rfl) (c2.2 _ _ rfl) rfl
          refine ⟨fun e he => ?_, i2⟩
          rcases List.mem_append.1 he with he | he
          · rcases List.mem_append.1 he with he | he
            · exact him _ c2.1 e he
            · exact hre _ c1.1 e he
          · exact i1 e he

theorem steps_all (P Q : SphFrame → Prop) (f1 f2 : List SphFrame) (h1 : ∀ f ∈ f1, P f) (h2 : ∀ f ∈ f2, Q f) :
    ∀ e ∈ modeSteps f1 f2, stepOk P Q e := by
  induction hn : f1.length using Nat.strong_induction_on generalizing f1 f2 with
  | _ n ih =>
    rw [modeSteps.eq_def]
    split
    · simp
    · rename_i a f1
      split
      · intro e he
        rw [List.mem_singleton] at he
        rw [he]; exact h1 a List.mem_cons_self
      · rename_i b f2
        have hs := sync_all P Q f1 f2 a.time b.time (fun f hf => h1 f (List.mem_cons_of_mem _ hf))
          fun f hf => h2 f (List.mem_cons_of_mem _ hf)
        split
        · rename_i L e0
          rw [e0] at hs
          intro e he
          rcases List.mem_cons.1 he with rfl | he
          · exact h1 a List.mem_cons_self
          · rcases List.mem_cons.1 he with rfl | he
            · exact h2 b List.mem_cons_self
            · exact hs.1 e he
        · rename_i L f1' f2' t e0
          rw [e0] at hs
          have hlen := syncTimes_length _ _ _ _ _ _ _ _ e0
          obtain ⟨p1, p2⟩ := hs.2 _ _ _ rfl
          intro e he
          rcases List.mem_append.1 he with he | he
          · rcases List.mem_cons.1 he with rfl | he
            · exact h1 a List.mem_cons_self
            · rcases List.mem_cons.1 he with rfl | he
              · exact h2 b List.mem_cons_self
              · exact hs.1 e he
          · rcases List.mem_cons.1 he with rfl | he
            · trivial
            · exact ih f1'.length (by simp only [List.length_cons] at hn; omega) f1' f2' p1 p2 rfl e he

/-- A piece of a file has the values of a function at its time. -/
def Spec.Samples (h : SphHeader) (n2 n3 : Nat) (F : ℝ → ℝ → ℝ → ℝ) (f : SphFrame) : Prop :=
  ∀ j k, j < h.ntheta → k < h.nphi → f.val (k * h.ntheta + j) = F f.time (Spec.modeTheta n2 j) (Spec.modePhi n3 k)

/-- **C111.** The whole run: if the pieces of the two files are the real and the imaginary part of `Σ (A + i B)_{lm}(t) sYlm` with
`l ≤ L` at growing times, given on the part of the sphere from which the symmetries give the rest, and there are more than
`2(lmax+L)` points in both directions, then the output has the lines with the coefficients `A`, `B` for exactly the times that are
in both files. -/
theorem C111_run (n2 n3 L : Nat) (p : ModeRun) (h2 : n2 % 2 = 0) (h3 : n3 % 2 = 0) (hn2 : 2 * (p.lmax + L) + 1 ≤ n2)
    (hn2' : 3 ≤ n2) (hn3 : 2 * (p.lmax + L) + 1 ≤ n3) (fft : Axis → Bool) (W F : Axis → Nat → ℝ) (v : ModeVars)
    (hv : Spec.ModeVars.ok v) (hsch : ∀ n, Spec.SchedOk (dirDims (modeDirs p.lmax n2 n3)) (p.sched n))
    (hcov : Spec.SphCovers p.h n2 n3) (A B : ℝ → Nat → ℤ → ℝ) (f1 f2 : List SphFrame)
    (g1 : Spec.Growing f1) (g2 : Spec.Growing f2)
    (hre : ∀ f ∈ f1, Spec.Samples p.h n2 n3 (fun t => Spec.psiRe L p.s (A t) (B t)) f)
    (him : ∀ f ∈ f2, Spec.Samples p.h n2 n3 (fun t => Spec.psiIm L p.s (A t) (B t)) f)
    (sre : ∀ f ∈ f1, Spec.HasSym p.h p.symRe (Spec.psiRe L p.s (A f.time) (B f.time)))
    (sim : ∀ f ∈ f2, Spec.HasSym p.h p.symIm (Spec.psiIm L p.s (A f.time) (B f.time)))
    (mem : Arrays ℝ)
    (hX : ∀ i j k, Spec.inBox (dirDims (modeDirs p.lmax n2 n3)) i j k →
      Spec.view (dirDims (modeDirs p.lmax n2 n3)) mem v.X i j k = (modeDirs p.lmax n2 n3 .one).point i)
    (hY : ∀ i j k, Spec.inBox (dirDims (modeDirs p.lmax n2 n3)) i j k →
      Spec.view (dirDims (modeDirs p.lmax n2 n3)) mem v.Y i j k = (modeDirs p.lmax n2 n3 .two).point j)
    (hZ : ∀ i j k, Spec.inBox (dirDims (modeDirs p.lmax n2 n3)) i j k →
      Spec.view (dirDims (modeDirs p.lmax n2 n3)) mem v.Z i j k = (modeDirs p.lmax n2 n3 .three).point k) :
    modeComputer g (stdBox (modeDirs p.lmax n2 n3) fft W F) (fun ax => (modeDirs p.lmax n2 n3 ax).method)
        (fun ax => (modeDirs p.lmax n2 n3 ax).a) (fun ax => (modeDirs p.lmax n2 n3 ax).b) v p f1 f2 mem =
      .ok ((Spec.common f1 f2).flatMap fun x => Spec.modeLines p.lmax L p.s (A x.1.time) (B x.1.time) x.1.time) := by
  have hne : v.reVar ≠ v.imVar ∧ (v.X ≠ v.reY ∧ v.X ≠ v.imY) ∧ (v.X ≠ v.reVar ∧ v.X ≠ v.imVar) ∧
      (v.reY ≠ v.reVar ∧ v.reY ≠ v.imVar) ∧ (v.imY ≠ v.reVar ∧ v.imY ≠ v.imVar) ∧
      (v.X ≠ v.reMode ∧ v.X ≠ v.imMode) ∧ (v.reY ≠ v.reMode ∧ v.reY ≠ v.imMode) ∧ (v.imY ≠ v.reMode ∧ v.imY ≠ v.imMode) ∧
      (v.reVar ≠ v.reMode ∧ v.reVar ≠ v.imMode) ∧ (v.imVar ≠ v.reMode ∧ v.imVar ≠ v.imMode) := by
    have hv' := hv
    unfold Spec.ModeVars.ok at hv'
    simp only [List.nodup_cons, List.mem_cons, List.not_mem_nil, or_false, not_or] at hv'
    obtain ⟨h1, h2, h3, h4, h5, h6, h7, h8, h9⟩ := hv'
    refine ⟨by tauto, ⟨by tauto, by tauto⟩, ⟨by tauto, by tauto⟩, ⟨Ne.symm ?_, Ne.symm ?_⟩, ⟨Ne.symm ?_, Ne.symm ?_⟩,
      ⟨by tauto, by tauto⟩, ⟨Ne.symm ?_, Ne.symm ?_⟩, ⟨Ne.symm ?_, Ne.symm ?_⟩, ⟨?_, ?_⟩, ⟨?_, ?_⟩⟩ <;> tauto
  obtain ⟨ri, ⟨xY1, xY2⟩, ⟨xV1, xV2⟩, ⟨y1, y2⟩, ⟨z1, z2⟩, ⟨xm1, xm2⟩, ⟨ym1, ym2⟩, ⟨zm1, zm2⟩, ⟨rm1, rm2⟩, ⟨im1, im2⟩⟩ := hne
  have hdim : dirDims (modeDirs p.lmax n2 n3) = ⟨(p.lmax + 1) * (p.lmax + 1), n2, n3⟩ := rfl
  have hmodes := fun c1 c2 hc1 hc2 t a b mem => C111_modes g p.lmax n2 n3 L p.s h2 h3 hn2 hn2' hn3 fft W F v hv c1 c2 hc1 hc2 t a b mem
  have hbd : (stdBox (modeDirs p.lmax n2 n3) fft W F).d = dirDims (modeDirs p.lmax n2 n3) := rfl
  generalize hd : dirDims (modeDirs p.lmax n2 n3) = d at *
  have d1 : d.n1 = (p.lmax + 1) ^ 2 := by rw [hdim, sq]
  have d2 : d.n2 = n2 := by rw [hdim]
  have d3 : d.n3 = n3 := by rw [hdim]
  have h2' : d.n2 % 2 = 0 := by rw [d2]; exact h2
  have h3' : d.n3 % 2 = 0 := by rw [d3]; exact h3
  obtain ⟨m0, e0, s1, -, s2, -⟩ := C111_sYlm d h2' h3' v hv p.s p.lmax d1.ge (p.sched 0) (p.sched 1) (hsch 0) (hsch 1) mem
    (fun i j k hb => by
      rw [hY i j k hb, d2]
      show pointPeriodic 0 (2 * π) n2 j = _
      unfold pointPeriodic
      ring)
    (fun i j k hb => by rw [hZ i j k hb, modeDirs_point3, d3])
  rw [d2, d3] at s1
  -- what holds between the steps
  let Inv : Arrays ℝ → Option SphFrame → Option SphFrame → Prop := fun m r i =>
    m v.X = mem v.X ∧ m v.reY = m0 v.reY ∧ m v.imY = m0 v.imY ∧
    (∀ f, r = some f → ∀ i j k, i < d.n1 → j < n2 / 2 → k < n3 → Spec.view d m v.reVar i j k =
      Spec.psiRe L p.s (A f.time) (B f.time) (Spec.modeTheta n2 j) (Spec.modePhi n3 k)) ∧
    ∀ f, i = some f → ∀ i j k, i < d.n1 → j < n2 / 2 → k < n3 → Spec.view d m v.imVar i j k =
      Spec.psiIm L p.s (A f.time) (B f.time) (Spec.modeTheta n2 j) (Spec.modePhi n3 k)
  have hrun : ∀ (es : List ModeStep) (n : Nat) (m : Arrays ℝ) (r i : Option SphFrame), Inv m r i →
      (∀ e ∈ es, stepOk (· ∈ f1) (· ∈ f2) e) →
      (∀ x ∈ Spec.computed es r i, ∃ a b : SphFrame, x = (some a, some b, a.time) ∧ b.time = a.time) →
      ∃ m', runSteps g (stdBox (modeDirs p.lmax n2 n3) fft W F) (fun ax => (modeDirs p.lmax n2 n3 ax).method)
        (fun ax => (modeDirs p.lmax n2 n3 ax).a) (fun ax => (modeDirs p.lmax n2 n3 ax).b) v p es n m =
          .ok (m', (Spec.computed es r i).flatMap fun x => Spec.modeLines p.lmax L p.s (A x.2.2) (B x.2.2) x.2.2) := by
    intro es
    induction es with
    | nil => intro n m r i _ _ _; exact ⟨m, rfl⟩
    | cons e es ih =>
      intro n m r i hI hes hcom
      obtain ⟨i1, i2, i3, i4, i5⟩ := hI
      have hes' : ∀ e ∈ es, stepOk (· ∈ f1) (· ∈ f2) e := fun x hx => hes x (List.mem_cons_of_mem _ hx)
      unfold runSteps
      cases e with
      | readRe f =>
        have hf : f ∈ f1 := hes _ List.mem_cons_self
        obtain ⟨m', e', r1, -, r2, -⟩ := C111_read d h2' h3' p.h p.symRe (p.sched n) (hsch n) v.reVar f (by rw [d2, d3]; exact hcov)
          (Spec.psiRe L p.s (A f.time) (B f.time)) (sre f hf) (by rw [d2, d3]; exact hre f hf) m
        rw [d2, d3] at r1
        obtain ⟨m'', hm''⟩ := ih (n + 2) m' (some f) i ⟨by rw [r2 _ xV1, i1], by rw [r2 _ y1, i2], by rw [r2 _ z1, i3],
          fun f' hf' => by cases hf'; exact r1,
          fun f' hf' i j k hi hj hk => by rw [← i5 f' hf' i j k hi hj hk]; unfold Spec.view; rw [r2 _ ri.symm]⟩ hes' hcom
        refine ⟨m'', ?_⟩
        unfold runStep
        dsimp only
        rw [hbd, e', Res.bind_ok, Res.bind_ok, hm'', Res.bind_ok]
        rfl
      | readIm f =>
        have hf : f ∈ f2 := hes _ List.mem_cons_self
        obtain ⟨m', e', r1, -, r2, -⟩ := C111_read d h2' h3' p.h p.symIm (p.sched n) (hsch n) v.imVar f (by rw [d2, d3]; exact hcov)
          (Spec.psiIm L p.s (A f.time) (B f.time)) (sim f hf) (by rw [d2, d3]; exact him f hf) m
        rw [d2, d3] at r1
        obtain ⟨m'', hm''⟩ := ih (n + 2) m' r (some f) ⟨by rw [r2 _ xV2, i1], by rw [r2 _ y2, i2], by rw [r2 _ z2, i3],
          fun f' hf' i j k hi hj hk => by rw [← i4 f' hf' i j k hi hj hk]; unfold Spec.view; rw [r2 _ ri],
          fun f' hf' => by cases hf'; exact r1⟩ hes' hcom
        refine ⟨m'', ?_⟩
        unfold runStep
        dsimp only
        rw [hbd, e', Res.bind_ok, Res.bind_ok, hm'', Res.bind_ok]
        rfl
      | compute t =>
        have hc0 := hcom (r, i, t) (by unfold Spec.computed; exact List.mem_cons_self)
        obtain ⟨a, b, hab, hba⟩ := hc0
        simp only [Prod.mk.injEq] at hab
        obtain ⟨rfl, rfl, rfl⟩ := hab
        obtain ⟨m', e', q⟩ := hmodes (p.sched n) (p.sched (n + 1)) (hsch n) (hsch (n + 1)) a.time (A a.time) (B a.time) m
          (fun i j k hb => by
            rw [← modeDirs_point1 p.lmax n2 n3 i, ← hX i j k hb]
            unfold Spec.view
            rw [i1])
          (fun i j k hi hj hk => by
            have := s1 i j k hi hj hk
            unfold Spec.view at this ⊢
            rw [i2, i3]
            exact this)
          (fun i j k hi hj hk => ⟨i4 a rfl i j k (by omega) hj hk, by rw [← hba]; exact i5 b rfl i j k (by omega) hj hk⟩)
        obtain ⟨m'', hm''⟩ := ih (n + 2) m' (some a) (some b) ⟨by rw [q _ xm1 xm2, i1], by rw [q _ ym1 ym2, i2], by rw [q _ zm1 zm2, i3],
          fun f' hf' i j k hi hj hk => by rw [← i4 f' hf' i j k hi hj hk]; unfold Spec.view; rw [q _ rm1 rm2],
          fun f' hf' i j k hi hj hk => by rw [← i5 f' hf' i j k hi hj hk]; unfold Spec.view; rw [q _ im1 im2]⟩ hes'
          fun x hx => hcom x (by unfold Spec.computed; exact List.mem_cons_of_mem _ hx)
        refine ⟨m'', ?_⟩
        unfold runStep
        dsimp only
        rw [e', Res.bind_ok, hm'', Res.bind_ok]
        rfl
  have hcomp := C111_times f1 f2 g1 g2 none none
  obtain ⟨m', e'⟩ := hrun (modeSteps f1 f2) 2 m0 none none ⟨s2 _ xY1 xY2, rfl, rfl, fun f hf => (by cases hf), fun f hf => (by cases hf)⟩
    (steps_all _ _ f1 f2 (fun _ h => h) fun _ h => h)
    (by
      rw [hcomp]
      intro x hx
      obtain ⟨⟨a, b⟩, hab, rfl⟩ := List.mem_map.1 hx
      refine ⟨a, b, rfl, ?_⟩
      unfold Spec.common at hab
      obtain ⟨a', ha', he⟩ := List.mem_filterMap.1 hab
      obtain ⟨b', hb', he'⟩ := Option.map_eq_some_iff.1 he
      cases he'
      simpa using List.find?_some hb')
  unfold modeComputer
  rw [hbd, e0, Res.bind_ok, e', Res.bind_ok, hcomp, List.flatMap_map]

/-- **C111.** With an odd number of points in one of the angles the run ends with an error. -/
theorem C111_abort (b : LBox ℝ) (meth : Axis → IMethod) (lo hi : Axis → ℝ) (v : ModeVars) (p : ModeRun) (f1 f2 : List SphFrame)
    (mem : Arrays ℝ) (h : b.d.n2 % 2 ≠ 0 ∨ b.d.n3 % 2 ≠ 0) : modeComputer g b meth lo hi v p f1 f2 mem = .abort := by
  have e : ∀ c w m, copyVar b.d c w m = .abort := by
    intro c w m
    unfold copyVar copyToDoubleCovered
    rw [if_pos h]
    rfl
  unfold modeComputer setSYlm
  dsimp only
  rw [e]
  rfl

/-- The header of a file with data for a quarter of the angles and the mode numbers of `l = 2`. -/
example : Spec.SphCovers ⟨"quadrant".toList, 6, 12⟩ 24 24 ∧ ¬ Spec.SphCovers ⟨"octant".toList, 6, 6⟩ 24 24 ∧
    (List.range 9).map Spec.modeL = [0, 1, 1, 1, 2, 2, 2, 2, 2] ∧ (List.range 9).map Spec.modeM = [0, -1, 0, 1, -2, -1, 0, 1, 2] := by
  refine ⟨?_, ?_, ?_, ?_⟩
  · unfold Spec.SphCovers; decide
  · unfold Spec.SphCovers; decide
  · decide +kernel
  · decide +kernel

/-- Two files with the times 0, 1, 2 and 1, 2, 3: the modes are computed for the times 1 and 2. -/
example : (Spec.computed (modeSteps [⟨0, fun _ => 5⟩, ⟨1, fun _ => 6⟩, ⟨2, fun _ => 7⟩] [⟨1, fun _ => 8⟩, ⟨2, fun _ => 9⟩, ⟨3, fun _ => 1⟩])
    none none).map (fun x => x.2.2) = [1, 2] := by
  rw [C111_times _ _ (by norm_num [Spec.Growing]) (by norm_num [Spec.Growing])]
  simp [Spec.common]

end Sgrid

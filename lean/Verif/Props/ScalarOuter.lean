import Verif.Props.ScalarBoundary
import Verif.Props.IsotropicBH
import Mathlib.Analysis.Calculus.Deriv.Inv
import Mathlib.Analysis.Calculus.Deriv.Comp
import Mathlib.Analysis.Calculus.Deriv.Pow

/-!
# C133: the outer boundary of the scalar field (first order version)
-/

set_option linter.unusedSimpArgs false

namespace Sgrid

variable {K : Type}

/-- A loop in which the step `t0`, which comes once, is the only one that changes what is looked at. -/
theorem foldl_once {σ τ ι : Type} (get : σ → τ) (step : σ → ι → σ) (l : List ι) (t0 : ι) (F : τ → τ) (hl : l.Nodup)
    (ht0 : t0 ∈ l) (h0 : ∀ s, get (step s t0) = F (get s)) (h : ∀ s, ∀ t ∈ l, t ≠ t0 → get (step s t) = get s) (s : σ) :
    get (l.foldl step s) = F (get s) := by
  induction l generalizing s with
  | nil => cases ht0
  | cons a l ih =>
    rw [List.foldl_cons]
    rw [List.nodup_cons] at hl
    by_cases ha : a = t0
    · subst ha
      rw [foldl_none get step l (fun s t ht => h s t (List.mem_cons_of_mem _ ht) (fun e => hl.1 (e ▸ ht))), h0]
    · rw [ih hl.2 ((List.mem_cons.1 ht0).resolve_left (Ne.symm ha)) (fun s t ht => h s t (List.mem_cons_of_mem _ ht)),
        h s a List.mem_cons_self ha]

theorem nodup_plane1 (d : Dims) : (plane1 d).Nodup := by
  unfold plane1
  rw [List.nodup_flatMap]
  refine ⟨fun k _ => (List.nodup_range.map fun a b e => (Prod.mk.injEq ..▸ e).1), ?_⟩
  refine List.nodup_range.imp ?_
  intro a b hab x h1 h2
  simp only [List.mem_map] at h1 h2
  obtain ⟨j, _, rfl⟩ := h1
  obtain ⟨j', _, e⟩ := h2
  simp only [Prod.mk.injEq] at e
  exact hab e.2.symm

namespace Outer
variable [Field K] [DecidableEq K]

/-- `npsi` after the first loop. -/
theorem psiLoop_at (f : OuterIn K → Nat → Nat → K) (e : OuterIn K) (hn : 1 ≤ e.d.n1) (u : Nat → K) {j k : Nat} (hj : j < e.d.n2)
    (hk : k < e.d.n3) :
    psiLoop f e u (e.d.idx (e.d.n1 - 1) j k) =
      if e.dt ≠ 0 then e.ppsi (e.d.idx (e.d.n1 - 1) j k) + e.dt * f e (e.d.n1 - 1) (e.d.idx (e.d.n1 - 1) j k)
      else f e (e.d.n1 - 1) (e.d.idx (e.d.n1 - 1) j k) := by
  refine foldl_idem (fun u : Nat → K => u (e.d.idx (e.d.n1 - 1) j k)) _ _ (j, k)
    (fun _ => if e.dt ≠ 0 then e.ppsi (e.d.idx (e.d.n1 - 1) j k) + e.dt * f e (e.d.n1 - 1) (e.d.idx (e.d.n1 - 1) j k)
      else f e (e.d.n1 - 1) (e.d.idx (e.d.n1 - 1) j k)) (fun _ => rfl) (mem_plane1.2 ⟨hj, hk⟩) (fun u => aset_self ..)
    (fun u t ht hne => aset_ne _ _ fun h => hne ?_) u
  obtain ⟨j', k'⟩ := t
  obtain ⟨-, rfl, rfl⟩ := idx_inj (by omega) (by omega) hj (mem_plane1.1 ht).1 h
  rfl

theorem psiLoop_other (f : OuterIn K → Nat → Nat → K) (e : OuterIn K) (u : Nat → K) {p : Nat}
    (h : ∀ j k, j < e.d.n2 → k < e.d.n3 → p ≠ e.d.idx (e.d.n1 - 1) j k) : psiLoop f e u p = u p :=
  foldl_none (fun u : Nat → K => u p) _ _
    (fun _ t ht => aset_ne _ _ (h t.1 t.2 (mem_plane1.1 ht).1 (mem_plane1.1 ht).2)) u

theorem restLoop_npsi (m : OuterIn K → Nat → K → K → K) (e : OuterIn K) (v : OuterVars K) : (restLoop m e v).npsi = v.npsi :=
  foldl_none (fun w : OuterVars K => w.npsi) (fun w (jk : Nat × Nat) => restPoint m e v.npsi (e.d.idx (e.d.n1 - 1) jk.1 jk.2) w)
    (plane1 e.d) (fun _ _ _ => rfl) v

/-- `nPi` and `nphi` after the second loop. -/
theorem restLoop_at (m : OuterIn K → Nat → K → K → K) (e : OuterIn K) (hn : 1 ≤ e.d.n1) (v : OuterVars K) {j k : Nat} (hj : j < e.d.n2)
    (hk : k < e.d.n3) (p : Nat) (hp : p = e.d.idx (e.d.n1 - 1) j k) :
    let g := e.geo p
    let a := g.along fun n => e.D v.npsi n p
    let nUp := v.nPi p + g.along fun n => v.nphi n p
    let nUm := m e p nUp a
    let rPi := 1 / 2 * (nUp + nUm)
    let rphi := fun n => 1 / 2 * (nUp - nUm) * g.c n + (e.D v.npsi n p - a * g.c n)
    (restLoop m e v).nPi p = (if e.dt ≠ 0 then e.pPi p + e.dt * rPi else rPi) ∧
    ∀ n, (restLoop m e v).nphi n p = if e.dt ≠ 0 then e.pphi n p + e.dt * rphi n else rphi n := by
  have key := foldl_once (fun w : OuterVars K => (w.nPi p, fun n => w.nphi n p))
    (fun w jk => restPoint m e v.npsi (e.d.idx (e.d.n1 - 1) jk.1 jk.2) w) (plane1 e.d) (j, k)
    (fun y =>
      let g := e.geo p
      let a := g.along fun n => e.D v.npsi n p
      let nUp := y.1 + g.along y.2
      let nUm := m e p nUp a
      let rPi := 1 / 2 * (nUp + nUm)
      let rphi := fun n => 1 / 2 * (nUp - nUm) * g.c n + (e.D v.npsi n p - a * g.c n)
      (if e.dt ≠ 0 then e.pPi p + e.dt * rPi else rPi, fun n => if e.dt ≠ 0 then e.pphi n p + e.dt * rphi n else rphi n))
    (nodup_plane1 _) (mem_plane1.2 ⟨hj, hk⟩) (fun w => by
      simp only [restPoint, ← hp, aset_self]) (fun w t ht hne => by
      obtain ⟨j', k'⟩ := t
      have hne' : p ≠ e.d.idx (e.d.n1 - 1) j' k' := by
        intro h
        rw [hp] at h
        obtain ⟨-, rfl, rfl⟩ := idx_inj (by omega) (by omega) hj (mem_plane1.1 ht).1 h
        exact hne rfl
      simp only [restPoint]
      rw [aset_ne _ _ hne']
      congr 1
      funext n
      rw [aset_ne _ _ hne']) v
  exact ⟨congrArg Prod.fst key, fun n => congrFun (congrArg Prod.snd key) n⟩

theorem restLoop_other (m : OuterIn K → Nat → K → K → K) (e : OuterIn K) (v : OuterVars K) {p : Nat}
    (h : ∀ j k, j < e.d.n2 → k < e.d.n3 → p ≠ e.d.idx (e.d.n1 - 1) j k) :
    (restLoop m e v).nPi p = v.nPi p ∧ ∀ n, (restLoop m e v).nphi n p = v.nphi n p := by
  have key := foldl_none (fun w : OuterVars K => (w.nPi p, fun n => w.nphi n p))
    (fun w jk => restPoint m e v.npsi (e.d.idx (e.d.n1 - 1) jk.1 jk.2) w) (plane1 e.d) (fun w t ht => by
      have hne' := h t.1 t.2 (mem_plane1.1 ht).1 (mem_plane1.1 ht).2
      simp only [restPoint]
      rw [aset_ne _ _ hne']
      congr 1
      funext n
      rw [aset_ne _ _ hne']) v
  exact ⟨congrArg Prod.fst key, fun n => congrFun (congrArg Prod.snd key) n⟩

end Outer

/-! ## The properties -/

section real
variable {e : OuterIn ℝ} {v : OuterVars ℝ}

theorem along_sub (γ : Fin 3 → Fin 3 → ℝ) (N : Fin 3 → ℝ) (c : Nat → ℝ) (hc : ∀ i : Fin 3, c i = N i) (hN : ∑ i, ∑ j, γ i j * N i * N j = 1)
    (a : ℝ) (u : Nat → ℝ) : Spec.alongN γ N (fun n => a * c n + (u n - Spec.alongN γ N u * c n)) = a := by
  have e1 : Spec.alongN γ N (fun n => a * c n + (u n - Spec.alongN γ N u * c n)) =
      Spec.alongN γ N u + (a - Spec.alongN γ N u) * ∑ i, ∑ j, γ i j * N i * N j := by
    simp only [Spec.alongN, hc, Fin.sum_univ_three]
    ring
  rw [e1, hN]
  ring

/-- **C133.** `set_psi_Pi_phi_boundary_CP` with `dt = 0`, at every point of the outer boundary: the rate of `psi` becomes
`-c^i phi_i - psi/r`, where `c` is the outward unit normal; the rate of `phi` becomes exactly the derivative of the rate of `psi` that has
just been set, so that `phi` stays the derivative of `psi`; and the rate of `Pi + c^i phi_i`, which moves outward, stays what it was. -/
theorem C133_CP (hdt : e.dt = 0) (hn : 1 ≤ e.d.n1) (j k : Nat) (hj : j < e.d.n2) (hk : k < e.d.n3) (p : Nat)
    (hp : p = e.d.idx (e.d.n1 - 1) j k) (hs : (e.geo p).sqrt = Real.sqrt) (N : Fin 3 → ℝ)
    (hN : Spec.UnitNormal (e.geo p).γ (e.geo p).pos N) :
    let o := Outer.boundaryCP e v
    let c := Spec.alongN (e.geo p).γ N
    o.npsi p = -c (fun n => e.cphi n p) - e.cpsi p / √(∑ i, (e.geo p).pos i ^ 2) ∧
    (∀ i : Fin 3, o.nphi i p = e.D o.npsi i p) ∧
    o.nPi p + c (fun n => o.nphi n p) = v.nPi p + c (fun n => v.nphi n p) := by
  intro o c
  have hal := radial_along hs hN
  have hc := fun i : Fin 3 => radial_c hs hN i
  have hr : (e.geo p).r = √(∑ i, (e.geo p).pos i ^ 2) := by
    unfold RadialPt.r
    rw [hs]
    congr 1
    simp only [Fin.sum_univ_three, RadialPt.pos, Fin.val_zero, Fin.val_one, Fin.val_two, List.getD_cons_zero, List.getD_cons_succ]
    ring
  have hnpsi : o.npsi = Outer.psiLoop Outer.rpsiCP e v.npsi := Outer.restLoop_npsi ..
  obtain ⟨r1, r2⟩ := Outer.restLoop_at Outer.nUmCP e hn { v with npsi := Outer.psiLoop Outer.rpsiCP e v.npsi } hj hk p hp
  change o.nPi p = _ at r1
  change ∀ n, o.nphi n p = _ at r2
  simp only [hdt, ne_eq, not_true_eq_false, if_false, ← hnpsi] at r1 r2
  have hphi : ∀ n, o.nphi n p = c (fun n => e.D o.npsi n p) * (e.geo p).c n +
      (e.D o.npsi n p - c (fun n => e.D o.npsi n p) * (e.geo p).c n) := by
    intro n
    rw [r2 n]
    simp only [Outer.nUmCP, hal, c]
    ring
  refine ⟨?_, fun i => ?_, ?_⟩
  · rw [hnpsi, hp, Outer.psiLoop_at _ e hn _ hj hk, ← hp, if_neg (by simp [hdt]), Outer.rpsiCP, hr, hal]
  · rw [hphi]; ring
  · rw [r1]
    have : c (fun n => o.nphi n p) = c (fun n => e.D o.npsi n p) := by
      rw [funext hphi]
      exact along_sub _ _ _ hc hN.unit _ _
    rw [this]
    simp only [Outer.nUmCP, hal, c]
    ring

/-- **C133.** `set_psi_Pi_phi_boundary` with `dt = 0`, at every point of the outer boundary: the rate of `Pi + c^i phi_i` stays what it
was, the rate of `Pi - c^i phi_i` becomes `-Pi/r`, and the rate of the part of `phi` along the sphere becomes this part of the derivative of
the rate of `psi` that has just been set. -/
theorem C133_rates (hdt : e.dt = 0) (hn : 1 ≤ e.d.n1) (j k : Nat) (hj : j < e.d.n2) (hk : k < e.d.n3) (p : Nat)
    (hp : p = e.d.idx (e.d.n1 - 1) j k) (hs : (e.geo p).sqrt = Real.sqrt) (N : Fin 3 → ℝ)
    (hN : Spec.UnitNormal (e.geo p).γ (e.geo p).pos N) :
    let o := Outer.boundary e v
    let c := Spec.alongN (e.geo p).γ N
    o.nPi p + c (fun n => o.nphi n p) = v.nPi p + c (fun n => v.nphi n p) ∧
    o.nPi p - c (fun n => o.nphi n p) = -e.cPi p / √(∑ i, (e.geo p).pos i ^ 2) ∧
    ∀ i : Fin 3, o.nphi i p - c (fun n => o.nphi n p) * N i = e.D o.npsi i p - c (fun n => e.D o.npsi n p) * N i := by
  intro o c
  have hal := radial_along hs hN
  have hc := fun i : Fin 3 => radial_c hs hN i
  have hr : (e.geo p).r = √(∑ i, (e.geo p).pos i ^ 2) := by
    unfold RadialPt.r
    rw [hs]
    congr 1
    simp only [Fin.sum_univ_three, RadialPt.pos, Fin.val_zero, Fin.val_one, Fin.val_two, List.getD_cons_zero, List.getD_cons_succ]
    ring
  have hnpsi : o.npsi = Outer.psiLoop Outer.rpsi e v.npsi := Outer.restLoop_npsi ..
  obtain ⟨r1, r2⟩ := Outer.restLoop_at Outer.nUm e hn { v with npsi := Outer.psiLoop Outer.rpsi e v.npsi } hj hk p hp
  change o.nPi p = _ at r1
  change ∀ n, o.nphi n p = _ at r2
  simp only [hdt, ne_eq, not_true_eq_false, if_false, ← hnpsi] at r1 r2
  have hcphi : c (fun n => o.nphi n p) = 1 / 2 * ((v.nPi p + c (fun n => v.nphi n p)) - -e.cPi p / √(∑ i, (e.geo p).pos i ^ 2)) := by
    rw [funext r2, hal]
    rw [hal]
    simp only [Outer.nUm, hr]
    exact along_sub _ _ _ hc hN.unit _ _
  refine ⟨?_, ?_, fun i => ?_⟩
  · rw [hcphi, r1, hal, Outer.nUm, hr]; ring
  · rw [hcphi, r1, hal, Outer.nUm, hr]; ring
  · rw [hcphi, r2, hal, hal, Outer.nUm, hr, hc]; ring

/-- **C133.** Both functions change nothing at all other points. -/
theorem C133_other {K : Type} [Field K] [DecidableEq K] (e : OuterIn K) (v : OuterVars K) (p : Nat)
    (h : ∀ j k, j < e.d.n2 → k < e.d.n3 → p ≠ e.d.idx (e.d.n1 - 1) j k) :
    ((Outer.boundary e v).npsi p = v.npsi p ∧ (Outer.boundary e v).nPi p = v.nPi p ∧ ∀ n, (Outer.boundary e v).nphi n p = v.nphi n p) ∧
    ((Outer.boundaryCP e v).npsi p = v.npsi p ∧ (Outer.boundaryCP e v).nPi p = v.nPi p ∧
      ∀ n, (Outer.boundaryCP e v).nphi n p = v.nphi n p) := by
  constructor
  · obtain ⟨a, b⟩ := Outer.restLoop_other Outer.nUm e { v with npsi := Outer.psiLoop Outer.rpsi e v.npsi } h
    refine ⟨?_, a, b⟩
    unfold Outer.boundary
    rw [Outer.restLoop_npsi]
    exact Outer.psiLoop_other _ _ _ h
  · obtain ⟨a, b⟩ := Outer.restLoop_other Outer.nUmCP e { v with npsi := Outer.psiLoop Outer.rpsiCP e v.npsi } h
    refine ⟨?_, a, b⟩
    unfold Outer.boundaryCP
    rw [Outer.restLoop_npsi]
    exact Outer.psiLoop_other _ _ _ h

/-- **C133.** What `set_psi_Pi_phi_boundary` with `dt = 0` does to the rate of `psi`: the term `-alpha Pi` is the one of the point, but
the term `beta^i phi_i` is the one of the point `(n1-1,0,0)` for all points of the sphere. -/
theorem C133_psi {K : Type} [Field K] [DecidableEq K] (e : OuterIn K) (v : OuterVars K) (hdt : e.dt = 0) (hn : 1 ≤ e.d.n1) (j k : Nat)
    (hj : j < e.d.n2) (hk : k < e.d.n3) (p q : Nat) (hp : p = e.d.idx (e.d.n1 - 1) j k) (hq : q = e.d.idx (e.d.n1 - 1) 0 0) :
    (Outer.boundary e v).npsi p = -(e.alpha p * e.cPi p) + ∑ i : Fin 3, e.beta i q * e.cphi i q := by
  unfold Outer.boundary
  rw [Outer.restLoop_npsi]
  simp only
  rw [hp, Outer.psiLoop_at _ e hn _ hj hk, ← hp, if_neg (by simp [hdt]), Outer.rpsi, Fin.sum_univ_three,
    show q = e.d.n1 - 1 by rw [hq]; simp [Dims.idx]]
  simp only [Fin.val_zero, Fin.val_one, Fin.val_two]
  ring

/-! ## Outgoing waves in flat space -/

/-- An outgoing spherical wave with the profile `F`. -/
noncomputable def Spec.outWave (F : ℝ → ℝ) (t : ℝ) (x : Fin 3 → ℝ) : ℝ := F (Spec.radius x - t) / Spec.radius x

/-- The derivative with respect to `x_i`. -/
noncomputable def Spec.partialAt (f : (Fin 3 → ℝ) → ℝ) (i : Fin 3) (x : Fin 3 → ℝ) : ℝ := deriv (fun y => f (Function.update x i y)) (x i)

section wave
variable {F F1 F2 : ℝ → ℝ} (hF : ∀ u, HasDerivAt F (F1 u) u) (hF1 : ∀ u, HasDerivAt F1 (F2 u) u) {x : Fin 3 → ℝ}
  (hx : 0 < Spec.radius x)

theorem radius_update (x : Fin 3 → ℝ) (i : Fin 3) : Function.update x i (x i) = x := by simp

include hx in
theorem hasDerivAt_radius (i : Fin 3) : HasDerivAt (fun y => Spec.radius (Function.update x i y)) (x i / Spec.radius x) (x i) := by
  have hpos : Spec.norm2 x ≠ 0 := by
    intro h
    rw [Spec.radius, h, Real.sqrt_zero] at hx
    exact lt_irrefl _ hx
  have h2 : HasDerivAt (fun y => Spec.norm2 (Function.update x i y)) (2 * x i) (x i) := by
    have e : (fun y => Spec.norm2 (Function.update x i y)) = fun y => y ^ 2 + (Spec.norm2 x - x i ^ 2) := by
      funext y
      simp only [Spec.norm2, Fin.sum_univ_three]
      fin_cases i <;> simp [Function.update] <;> ring
    rw [e]
    simpa using (hasDerivAt_pow 2 (x i)).add_const (Spec.norm2 x - x i ^ 2)
  have h3 := h2.sqrt (by rw [radius_update]; exact hpos)
  rw [radius_update] at h3
  refine h3.congr_deriv ?_
  have : √(Spec.norm2 x) = Spec.radius x := rfl
  rw [this]
  field_simp

include hF in
theorem outWave_dt (t : ℝ) : HasDerivAt (fun s => Spec.outWave F s x) (-F1 (Spec.radius x - t) / Spec.radius x) t := by
  have h := (hF (Spec.radius x - t)).comp t ((hasDerivAt_id t).const_sub (Spec.radius x))
  have h' := h.div_const (Spec.radius x)
  refine h'.congr_deriv ?_
  ring

include hF hx in
theorem outWave_pd (t : ℝ) (i : Fin 3) :
    HasDerivAt (fun y => Spec.outWave F t (Function.update x i y))
      (x i / Spec.radius x * (F1 (Spec.radius x - t) / Spec.radius x - F (Spec.radius x - t) / Spec.radius x ^ 2)) (x i) := by
  have hr := hasDerivAt_radius hx i
  have h1 : HasDerivAt (fun y => F (Spec.radius (Function.update x i y) - t)) (F1 (Spec.radius x - t) * (x i / Spec.radius x)) (x i) := by
    have := (hF (Spec.radius (Function.update x i (x i)) - t)).comp (x i) (hr.sub_const t)
    rw [radius_update] at this
    exact this
  have h2 := h1.div hr (by rw [radius_update]; exact hx.ne')
  rw [radius_update] at h2
  refine h2.congr_deriv ?_
  field_simp

include hF hF1 hx

theorem outWave_pd_dt (t : ℝ) (i : Fin 3) :
    deriv (fun s => Spec.partialAt (Spec.outWave F s) i x) t =
      x i / Spec.radius x * (-F2 (Spec.radius x - t) / Spec.radius x + F1 (Spec.radius x - t) / Spec.radius x ^ 2) := by
  have e : (fun s => Spec.partialAt (Spec.outWave F s) i x) =
      fun s => x i / Spec.radius x * (F1 (Spec.radius x - s) / Spec.radius x - F (Spec.radius x - s) / Spec.radius x ^ 2) := by
    funext s
    exact (outWave_pd hF hx s i).deriv
  have a := ((hF1 (Spec.radius x - t)).comp t ((hasDerivAt_id t).const_sub (Spec.radius x))).div_const (Spec.radius x)
  have b := ((hF (Spec.radius x - t)).comp t ((hasDerivAt_id t).const_sub (Spec.radius x))).div_const (Spec.radius x ^ 2)
  rw [e, show (fun s => x i / Spec.radius x * (F1 (Spec.radius x - s) / Spec.radius x - F (Spec.radius x - s) / Spec.radius x ^ 2)) =
    fun s => x i / Spec.radius x * (((F1 ∘ fun y => Spec.radius x - y) s) / Spec.radius x -
      ((F ∘ fun y => Spec.radius x - y) s) / Spec.radius x ^ 2) from rfl]
  refine ((a.sub b).const_mul (x i / Spec.radius x)).deriv.trans ?_
  ring

omit hx in
theorem outWave_dt_dt (t : ℝ) : deriv (fun s => -deriv (fun s => Spec.outWave F s x) s) t = -F2 (Spec.radius x - t) / Spec.radius x := by
  have e : (fun s => -deriv (fun s => Spec.outWave F s x) s) = fun s => F1 (Spec.radius x - s) / Spec.radius x := by
    funext s
    rw [(outWave_dt hF s).deriv]
    ring
  rw [e]
  exact (outWave_dt hF1 t).deriv

end wave

/-- **C133.** In flat space outgoing spherical waves `F(r-t)/r` leave through the boundary without reflection, with both functions
(`dt = 0`): if, at a point of the boundary, the fields are those of the wave, the rate of `Pi + c^i phi_i` is the one of the wave, and the
derivatives of the rate of `psi` are the ones of the wave, then the rates of `psi`, `Pi` and `phi` become the ones of the wave. For every
twice differentiable profile, time and point. -/
theorem C133_flat (cp : Bool) {F F1 F2 : ℝ → ℝ} (hF : ∀ u, HasDerivAt F (F1 u) u) (hF1 : ∀ u, HasDerivAt F1 (F2 u) u) (t : ℝ)
    (hdt : e.dt = 0) (hn : 1 ≤ e.d.n1) (j k : Nat) (hj : j < e.d.n2) (hk : k < e.d.n3) (p : Nat)
    (hp : p = e.d.idx (e.d.n1 - 1) j k) (hs : (e.geo p).sqrt = Real.sqrt) (x : Fin 3 → ℝ) (hx : (e.geo p).pos = x) (hx0 : x ≠ 0)
    (hγ : ∀ i j, (e.geo p).γ i j = if i = j then 1 else 0) (hα : e.alpha p = 1) (hβ : ∀ (i : Fin 3) q, e.beta i q = 0)
    (hpsi : e.cpsi p = Spec.outWave F t x) (hPi : e.cPi p = -deriv (fun s => Spec.outWave F s x) t)
    (hphi : ∀ i : Fin 3, e.cphi i p = Spec.partialAt (Spec.outWave F t) i x) :
    let o := if cp then Outer.boundaryCP e v else Outer.boundary e v
    let dPi := deriv (fun s => -deriv (fun s => Spec.outWave F s x) s) t
    let dphi := fun i : Fin 3 => deriv (fun s => Spec.partialAt (Spec.outWave F s) i x) t
    (∀ i : Fin 3, e.D o.npsi i p = dphi i) →
    v.nPi p + ∑ i : Fin 3, x i / Spec.radius x * v.nphi i p = dPi + ∑ i, x i / Spec.radius x * dphi i →
    o.npsi p = deriv (fun s => Spec.outWave F s x) t ∧ o.nPi p = dPi ∧ ∀ i : Fin 3, o.nphi i p = dphi i := by
  intro o dPi dphi hD hUp
  have hnn : 0 < Spec.norm2 x := by
    have h0 : 0 ≤ Spec.norm2 x := by
      simp only [Spec.norm2, Fin.sum_univ_three]
      nlinarith [sq_nonneg (x 0), sq_nonneg (x 1), sq_nonneg (x 2)]
    refine lt_of_le_of_ne h0 fun h => hx0 ?_
    simp only [Spec.norm2, Fin.sum_univ_three] at h
    have e0 : x 0 = 0 := by nlinarith [sq_nonneg (x 0), sq_nonneg (x 1), sq_nonneg (x 2)]
    have e1 : x 1 = 0 := by nlinarith [sq_nonneg (x 0), sq_nonneg (x 1), sq_nonneg (x 2)]
    have e2 : x 2 = 0 := by nlinarith [sq_nonneg (x 0), sq_nonneg (x 1), sq_nonneg (x 2)]
    funext i
    fin_cases i
    · exact e0
    · exact e1
    · exact e2
  have hr : 0 < Spec.radius x := Real.sqrt_pos.2 hnn
  have hr2 : x 0 ^ 2 + x 1 ^ 2 + x 2 ^ 2 = Spec.radius x ^ 2 := by
    rw [Spec.radius, Real.sq_sqrt hnn.le, Spec.norm2, Fin.sum_univ_three]
    ring
  have hN : Spec.UnitNormal (e.geo p).γ (e.geo p).pos fun i => x i / Spec.radius x := by
    refine ⟨⟨1 / Spec.radius x, by positivity, fun i => by rw [hx]; ring⟩, ?_⟩
    simp only [hγ, Fin.sum_univ_three, Fin.reduceEq, if_true, if_false, zero_mul, add_zero, zero_add, one_mul]
    field_simp
    linarith
  have hal : ∀ w, Spec.alongN (e.geo p).γ (fun i => x i / Spec.radius x) w = ∑ i : Fin 3, x i / Spec.radius x * w i := by
    intro w
    simp only [Spec.alongN, hγ, Fin.sum_univ_three, Fin.reduceEq, if_true, if_false, zero_mul, add_zero, zero_add, one_mul]
  have hrad : √(∑ i, (e.geo p).pos i ^ 2) = Spec.radius x := by
    rw [hx, Spec.radius, Spec.norm2]
    congr 1
    exact Finset.sum_congr rfl fun i _ => sq (x i)
  have hdphi : ∀ i, dphi i = x i / Spec.radius x * (-F2 (Spec.radius x - t) / Spec.radius x + F1 (Spec.radius x - t) / Spec.radius x ^ 2) :=
    outWave_pd_dt hF hF1 hr t
  have hsum : ∀ a : ℝ, ∑ i : Fin 3, x i / Spec.radius x * (x i / Spec.radius x * a) = a := by
    intro a
    rw [Fin.sum_univ_three]
    field_simp
    linear_combination a * hr2
  have hcd : ∑ i, x i / Spec.radius x * dphi i = -F2 (Spec.radius x - t) / Spec.radius x + F1 (Spec.radius x - t) / Spec.radius x ^ 2 := by
    simp only [hdphi, hsum]
  have hdPi : dPi = -F2 (Spec.radius x - t) / Spec.radius x := outWave_dt_dt hF hF1 t
  have hdt' := (outWave_dt hF (x := x) t).deriv
  have hcD : ∀ o : OuterVars ℝ, (∀ i : Fin 3, e.D o.npsi i p = dphi i) →
      ∑ i : Fin 3, x i / Spec.radius x * e.D o.npsi i p = ∑ i, x i / Spec.radius x * dphi i := by
    intro o h
    simp only [h]
  cases cp
  · obtain ⟨a1, a2, a3⟩ := C133_rates (v := v) hdt hn j k hj hk p hp hs _ hN
    have h1 := C133_psi e v hdt hn j k hj hk p _ hp rfl
    have ho : o = Outer.boundary e v := by simp [o]
    clear_value o
    subst ho
    simp only [hal, hrad] at a1 a2 a3
    rw [hUp, hdPi, hcd] at a1
    rw [hPi, hdt'] at a2
    set C := ∑ i : Fin 3, x i / Spec.radius x * (Outer.boundary e v).nphi i p with hC
    set A := F2 (Spec.radius x - t)
    set B := F1 (Spec.radius x - t)
    have a2' : (Outer.boundary e v).nPi p - C = -B / Spec.radius x ^ 2 := by
      rw [a2]; field_simp
    have hCv : C = -A / Spec.radius x + B / Spec.radius x ^ 2 := by
      have e1 : -B / Spec.radius x ^ 2 = -(B / Spec.radius x ^ 2) := by ring
      linarith
    have hPv : (Outer.boundary e v).nPi p = -A / Spec.radius x := by
      have e1 : -B / Spec.radius x ^ 2 = -(B / Spec.radius x ^ 2) := by ring
      linarith
    refine ⟨?_, by rw [hdPi, hPv], fun i => ?_⟩
    · rw [h1, hα, hPi, hdt']
      simp only [hβ, zero_mul, Finset.sum_const_zero, add_zero, one_mul]
      ring
    · have := a3 i
      rw [hcD _ hD, hcd, hD i, hCv] at this
      linarith
  · obtain ⟨a1, a2, a3⟩ := C133_CP (v := v) hdt hn j k hj hk p hp hs _ hN
    have ho : o = Outer.boundaryCP e v := by simp [o]
    clear_value o
    subst ho
    have a2' : ∀ i : Fin 3, (Outer.boundaryCP e v).nphi i p = dphi i := fun i => (a2 i).trans (hD i)
    simp only [hal, hrad] at a1 a3
    simp only [a2', hUp] at a3
    refine ⟨?_, by linarith, a2'⟩
    have hphi' : ∀ i : Fin 3, e.cphi i p =
        x i / Spec.radius x * (F1 (Spec.radius x - t) / Spec.radius x - F (Spec.radius x - t) / Spec.radius x ^ 2) :=
      fun i => (hphi i).trans (outWave_pd hF hr t i).deriv
    rw [a1, hdt', hpsi, Spec.outWave]
    simp only [hphi', hsum]
    field_simp
    ring

end real

/-! ## Where the code differs -/

/-- A box with 2x2x1 points at `x = (3, 0, 4)` with the flat metric, no derivatives, and a shift and `phi` that differ from point to
point. -/
def exOuter (dt : ℚ) : OuterIn ℚ where
  d := ⟨2, 2, 1⟩
  dt := dt
  geo := fun _ => ⟨fun q => if q = 25 then 5 else if q = 1 then 1 else 0, 3, 0, 4, fun n => [1, 0, 0, 1, 0, 1].getD n 0⟩
  D := fun _ _ _ => 0
  cpsi := fun _ => 0
  ppsi := fun _ => 0
  cPi := fun _ => 0
  pPi := fun _ => 1
  cphi := fun n p => [p, 0, 0].getD n 0
  pphi := fun _ _ => 0
  alpha := fun _ => 1
  beta := fun _ _ => 1

/-- **C133.** The rate of `psi` on the outer boundary is not `-alpha Pi + beta^i phi_i` (line 2570 has `[i]` where it should have
`[ijk]`): at the point (1,1,0) of a box with 2x2x1 points this is 3, but the rate becomes 1. -/
theorem C133_shift_counterexample :
    let e := exOuter 0
    let p := e.d.idx 1 1 0
    (-(e.alpha p * e.cPi p) + ∑ i : Fin 3, e.beta i p * e.cphi i p) = 3 ∧
    (Outer.boundary e ⟨fun _ => 0, fun _ => 0, fun _ _ => 0⟩).npsi p = 1 := by
  decide +kernel

/-- **C133.** With `dt ≠ 0` the functions take the new values of `Pi` and `phi` for their rates (lines 2615, 2792): with all rates zero
and the previous value 1 of `Pi` everywhere, the rate on the boundary is zero, but the new value of `Pi` on the boundary with `dt = 1` is
2 (or 3/2) instead of 1. -/
theorem C133_dt_counterexample :
    let zero : OuterVars ℚ := ⟨fun _ => 0, fun _ => 0, fun _ _ => 0⟩
    let step : OuterVars ℚ := ⟨fun _ => 0, fun _ => 1, fun _ _ => 0⟩
    let p := (exOuter 0).d.idx 1 0 0
    (Outer.boundaryCP (exOuter 0) zero).nPi p = 0 ∧ (Outer.boundaryCP (exOuter 1) step).nPi p = 2 ∧
    (Outer.boundary (exOuter 0) zero).nPi p = 0 ∧ (Outer.boundary (exOuter 1) step).nPi p = 3 / 2 := by
  decide +kernel

/-- The rates on the boundary for the box above, with the rates 1 of `Pi` and (0, 1, 5) of `phi` before: `c` is (3/5, 0, 4/5). -/
example :
    let o := Outer.boundaryCP (exOuter 0) ⟨fun _ => 0, fun _ => 1, fun n _ => [0, 1, 5].getD n 0⟩
    (o.npsi 3, o.nPi 3, o.nphi 0 3, o.nphi 1 3, o.nphi 2 3) = (-(9 / 5), 5, 0, 0, 0) ∧
    (o.npsi 2, o.nPi 2, o.nphi 0 2, o.nphi 1 2, o.nphi 2 2) = (0, 1, 0, 1, 5) := by
  decide +kernel

end Sgrid

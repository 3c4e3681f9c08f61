import Verif.Props.ScalarOuter
import Verif.Props.Kerr4

/-!
# C134: the boundaries of the scalar field (second order version)
-/

set_option linter.unusedSimpArgs false

namespace Sgrid

variable {K : Type}

/-- The inverse 4-metric at a point as a matrix. -/
def RayPt.g4 (g : RayPt K) (a b : Fin 4) : K := g.gup (Spec.sym4 a b)

/-- The position by number. -/
def RayPt.pos [Field K] (g : RayPt K) (i : Fin 3) : K := [g.x, g.y, g.z].getD i 0

/-- The covector `(ω, x_i / |x|)`. -/
noncomputable def Spec.radialWave (ω : ℝ) (x : Fin 3 → ℝ) : Fin 4 → ℝ := Fin.cons ω fun i => x i / Spec.radius x

/-- `g^ab k_a k_b`. -/
def Spec.norm4 (g : Fin 4 → Fin 4 → ℝ) (k : Fin 4 → ℝ) : ℝ := ∑ a, ∑ b, g a b * k a * k b

theorem norm2_pos {x : Fin 3 → ℝ} (hx : x ≠ 0) : 0 < Spec.norm2 x := by
  have a0 := mul_self_nonneg (x 0)
  have a1 := mul_self_nonneg (x 1)
  have a2 := mul_self_nonneg (x 2)
  refine lt_of_le_of_ne ?_ fun h => hx ?_
  · simp only [Spec.norm2, Fin.sum_univ_three]
    linarith
  · simp only [Spec.norm2, Fin.sum_univ_three] at h
    have e0 : x 0 = 0 := mul_self_eq_zero.1 (by linarith)
    have e1 : x 1 = 0 := mul_self_eq_zero.1 (by linarith)
    have e2 : x 2 = 0 := mul_self_eq_zero.1 (by linarith)
    funext i
    fin_cases i
    · exact e0
    · exact e1
    · exact e2

section real
variable {g : RayPt ℝ} (hs : g.sqrt = Real.sqrt)
include hs

theorem wave_r : g.r = Spec.radius g.pos := by
  unfold RayPt.r Spec.radius Spec.norm2
  rw [hs, Fin.sum_univ_three]
  rfl

theorem wave_gnn : Spec.norm4 g.g4 (Spec.radialWave 0 g.pos) = g.gnn := by
  simp only [Spec.norm4, RayPt.g4, Spec.radialWave, Fin.sum_univ_succ, Fin.cons_zero, Fin.cons_succ, ← wave_r hs,
    RayPt.gnn, RayPt.nx, RayPt.ny, RayPt.nz, RayPt.pos, Spec.sym4]
  simp
  ring

theorem wave_norm (v : ℝ) : Spec.norm4 g.g4 (Spec.radialWave (-v) g.pos) =
    g.gup 0 * v ^ 2 - 2 * v * (g.gup 1 * g.nx + g.gup 2 * g.ny + g.gup 3 * g.nz) + g.gnn := by
  simp only [Spec.norm4, RayPt.g4, Spec.radialWave, Fin.sum_univ_succ, Fin.cons_zero, Fin.cons_succ, ← wave_r hs,
    RayPt.gnn, RayPt.nx, RayPt.ny, RayPt.nz, RayPt.pos, Spec.sym4]
  simp
  ring

/-- **C134.** The coefficients `ap` and `am` of the characteristic variables belong to the two radial light rays: `1/ap > 0` and
`1/am < 0` are the coordinate speeds `v` for which the covector `(-v, x_i/r)` is null in the 4-metric. For every metric in which time is
timelike (`g^tt < 0`) and the radial direction is spacelike. -/
theorem C134_speeds (htt : g.gup 0 < 0) (hnn : 0 < Spec.norm4 g.g4 (Spec.radialWave 0 g.pos)) :
    (0 < 1 / g.ap ∧ Spec.norm4 g.g4 (Spec.radialWave (-(1 / g.ap)) g.pos) = 0) ∧
    (1 / g.am < 0 ∧ Spec.norm4 g.g4 (Spec.radialWave (-(1 / g.am)) g.pos) = 0) := by
  rw [wave_gnn hs] at hnn
  rw [wave_norm hs, wave_norm hs]
  have ha : 0 < g.alpha2 := by
    unfold RayPt.alpha2
    exact div_pos_of_neg_of_neg (by norm_num) htt
  have hga : g.gup 0 * g.alpha2 = -1 := by
    unfold RayPt.alpha2
    have := htt.ne
    field_simp
  set q := g.gup 1 * g.nx + g.gup 2 * g.ny + g.gup 3 * g.nz
  have hb : g.betan = g.alpha2 * q := rfl
  have hag : 0 < g.alpha2 * g.gnn := mul_pos ha hnn
  have hS := Real.sq_sqrt (show 0 ≤ g.betan * g.betan + g.alpha2 * g.gnn by nlinarith [mul_self_nonneg g.betan])
  have hlp : g.lambdap = g.betan + √(g.betan * g.betan + g.alpha2 * g.gnn) := by rw [RayPt.lambdap, hs]
  have hlm : g.lambdam = g.betan - √(g.betan * g.betan + g.alpha2 * g.gnn) := by rw [RayPt.lambdam, hs]
  have hgt : |g.betan| < √(g.betan * g.betan + g.alpha2 * g.gnn) := by
    rw [← Real.sqrt_sq_eq_abs]
    exact Real.sqrt_lt_sqrt (sq_nonneg _) (by nlinarith)
  rw [abs_lt] at hgt
  set S := √(g.betan * g.betan + g.alpha2 * g.gnn)
  have hp : 0 < g.lambdap := by rw [hlp]; linarith
  have hm : g.lambdam < 0 := by rw [hlm]; linarith
  have hap : 1 / g.ap = g.alpha2 * g.gnn / g.lambdap := by rw [RayPt.ap, one_div_div]
  have ham : 1 / g.am = g.alpha2 * g.gnn / g.lambdam := by rw [RayPt.am, one_div_div]
  have key : ∀ l : ℝ, l ≠ 0 → l ^ 2 - 2 * g.betan * l - g.alpha2 * g.gnn = 0 →
      g.gup 0 * (g.alpha2 * g.gnn / l) ^ 2 - 2 * (g.alpha2 * g.gnn / l) * q + g.gnn = 0 := by
    intro l hl h
    have : g.gnn * (l ^ 2 - 2 * (g.alpha2 * q) * l + (g.gup 0 * g.alpha2) * (g.alpha2 * g.gnn)) = 0 := by
      rw [hga, ← hb]
      linear_combination g.gnn * h
    field_simp
    linear_combination this
  rw [hap, ham]
  refine ⟨⟨div_pos hag hp, key _ hp.ne' ?_⟩, div_neg_of_pos_of_neg hag hm, key _ hm.ne ?_⟩
  · rw [hlp]; linear_combination hS
  · rw [hlm]; linear_combination hS

/-- **C134.** In flat space `set_psi_Pi_boundary` with `dt = 0` gives exactly the rate of an outgoing wave: if `Pi` is `F(r-t)/r` at the
time `t` and `dPi` are its derivatives at the point, the rate becomes its derivative with respect to time. -/
theorem C134_flat {F F1 : ℝ → ℝ} (hF : ∀ u, HasDerivAt F (F1 u) u) (t pPi : ℝ) (hx : g.pos ≠ 0)
    (hg : ∀ a b : Fin 4, g.g4 a b = if a = b then (if a = 0 then -1 else 1) else 0) (hG : ∀ n, g.G n = 0) (dPi : Nat → ℝ)
    (hd : ∀ i : Fin 3, dPi i = Spec.partialAt (Spec.outWave F t) i g.pos) :
    g.setPi 0 pPi (Spec.outWave F t g.pos) dPi = deriv (fun s => Spec.outWave F s g.pos) t := by
  have hnn : 0 < Spec.norm2 g.pos := norm2_pos hx
  have hr : 0 < Spec.radius g.pos := Real.sqrt_pos.2 hnn
  have hr2 : g.x ^ 2 + g.y ^ 2 + g.z ^ 2 = g.r ^ 2 := by
    rw [wave_r hs, Spec.radius, Real.sq_sqrt hnn.le, Spec.norm2, Fin.sum_univ_three]
    simp [RayPt.pos]
    ring
  have hr' : 0 < g.r := by rw [wave_r hs]; exact hr
  have g0 : g.gup 0 = -1 := hg 0 0
  have g1 : g.gup 1 = 0 := hg 0 1
  have g2 : g.gup 2 = 0 := hg 0 2
  have g3 : g.gup 3 = 0 := hg 0 3
  have g4 : g.gup 4 = 1 := hg 1 1
  have g5 : g.gup 5 = 0 := hg 1 2
  have g6 : g.gup 6 = 0 := hg 1 3
  have g7 : g.gup 7 = 1 := hg 2 2
  have g8 : g.gup 8 = 0 := hg 2 3
  have g9 : g.gup 9 = 1 := hg 3 3
  have hgnn : g.gnn = 1 := by
    simp only [RayPt.gnn, g4, g5, g6, g7, g8, g9, RayPt.nx, RayPt.ny, RayPt.nz]
    field_simp
    linear_combination hr2
  have hal : g.alpha2 = 1 := by rw [RayPt.alpha2, g0]; norm_num
  have hbe : g.betan = 0 := by rw [RayPt.betan, g1, g2, g3]; ring
  have hap : g.ap = 1 := by
    rw [RayPt.ap, RayPt.lambdap, hal, hbe, hgnn, hs]
    norm_num
  have hcp : g.cp = 1 / g.r := by
    rw [RayPt.cp, RayPt.gdn, RayPt.Gn, hgnn, hG, hG, hG, g4, g7, g9]
    ring
  have hd0 := (hd 0).trans (outWave_pd hF hr t 0).deriv
  have hd1 := (hd 1).trans (outWave_pd hF hr t 1).deriv
  have hd2 := (hd 2).trans (outWave_pd hF hr t 2).deriv
  simp only [Fin.val_zero, Fin.val_one, Fin.val_two, ← wave_r hs] at hd0 hd1 hd2
  rw [show g.pos 0 = g.x from rfl] at hd0
  rw [show g.pos 1 = g.y from rfl] at hd1
  rw [show g.pos 2 = g.z from rfl] at hd2
  rw [(outWave_dt hF t).deriv, RayPt.setPi, if_neg (by simp), RayPt.rPi, hap, hcp, hd0, hd1, hd2, Spec.outWave, ← wave_r hs,
    RayPt.nx, RayPt.ny, RayPt.nz]
  set A := F (g.r - t)
  set B := F1 (g.r - t)
  field_simp
  linear_combination (-B * g.r + A) * hr2

end real

/-! ## The characteristic variables on a line -/

section line
variable [Field K]

/-- The derivative at point `i` of a line as a sum. -/
theorem deriv_eq (D1 : Nat → K) (n1 : Nat) (u : Nat → K) (i : Nat) :
    WaveLine.deriv D1 n1 u i = ∑ l ∈ Finset.range n1, D1 (i * n1 + l) * u l := by
  unfold WaveLine.deriv
  have : ∀ m, ((List.range m).map fun l => D1 (i * n1 + l) * u l).sum = ∑ l ∈ Finset.range m, D1 (i * n1 + l) * u l := by
    intro m
    induction m with
    | zero => rfl
    | succ m ih => rw [List.range_succ, List.map_append, List.sum_append, ih, Finset.sum_range_succ]; simp
  exact this n1

theorem deriv_aset (D1 : Nat → K) {n1 l : Nat} (hl : l < n1) (u : Nat → K) (y : K) (i : Nat) :
    WaveLine.deriv D1 n1 (aset u l y) i = WaveLine.deriv D1 n1 u i + D1 (i * n1 + l) * (y - u l) := by
  have e : ∀ m, D1 (i * n1 + m) * aset u l y m = D1 (i * n1 + m) * u m + if m = l then D1 (i * n1 + l) * (y - u l) else 0 := by
    intro m
    split_ifs with h
    · subst h; rw [aset_self]; ring
    · rw [aset_ne _ _ h, add_zero]
  rw [deriv_eq, deriv_eq, Finset.sum_congr rfl fun m _ => e m, Finset.sum_add_distrib, Finset.sum_ite_eq' (Finset.range n1) l,
    if_pos (Finset.mem_range.2 hl)]

theorem d1_end {n1 i : Nat} (hn : 2 ≤ n1) (hi : i = 0 ∨ i = n1 - 1) : (i + 1) * (i + 1) - 1 = i * n1 + i := by
  rcases hi with rfl | rfl
  · simp
  · obtain ⟨m, rfl⟩ : ∃ m, n1 = m + 1 := ⟨n1 - 1, by omega⟩
    simp only [Nat.add_sub_cancel]
    ring_nf
    omega

variable {g : Nat → RayPt K} {D1 : Nat → K} {n1 : Nat}

/-- At an end, with the derivative of the current `psi`, the new `Pi` and `psi` have the wanted characteristic variables. -/
theorem recompute_char (hn : 2 ≤ n1) {i : Nat} (hi : i = 0 ∨ i = n1 - 1) (ha : (g i).ap ≠ (g i).am)
    (hc : (g i).cp + (g i).dXdr * D1 (i * n1 + i) ≠ 0) (w : WaveLine K) (psiX : Nat → K) :
    let w' := WaveLine.recompute g D1 psiX i w
    (g i).Up (w'.Pi i) (w'.psi i) (psiX i + D1 (i * n1 + i) * (w'.psi i - w.psi i)) = w.Up i ∧
    (g i).Um (w'.Pi i) (w'.psi i) (psiX i + D1 (i * n1 + i) * (w'.psi i - w.psi i)) = w.Um i := by
  intro w'
  have ha' : (g i).ap - (g i).am ≠ 0 := sub_ne_zero.2 ha
  have hPi : w'.Pi i = (w.Up i - w.Um i) / ((g i).ap - (g i).am) := aset_self ..
  have hpsi : w'.psi i = (g i).psiFrom (w.Um i) ((w.Up i - w.Um i) / ((g i).ap - (g i).am)) (w.psi i) (psiX i) (D1 (i * n1 + i)) := by
    rw [← d1_end hn hi]
    exact aset_self ..
  simp only [RayPt.psiFrom] at hpsi
  rw [← hPi] at hpsi
  have e1 : ((g i).cp + (g i).dXdr * D1 (i * n1 + i)) * w'.psi i =
      w.Um i - (g i).am * w'.Pi i - ((g i).dXdr * psiX i - (g i).dXdr * D1 (i * n1 + i) * w.psi i) := by
    rw [hpsi]; field_simp
  have e2 : ((g i).ap - (g i).am) * w'.Pi i = w.Up i - w.Um i := by
    rw [hPi]; field_simp
  constructor
  · unfold RayPt.Up; linear_combination e1 + e2
  · unfold RayPt.Um; linear_combination e1

/-- **C134.** `compute_unew_from_Up_Um_onBoundary` in the first and in the last box, where it changes only one end of every line: there
the new `Pi` and `psi` have exactly the characteristic variables `nUp` and `nUm`, with the derivative of the new `psi`. For every matrix,
metric and fields with `ap ≠ am` and `cp + D00 ≠ 0`. -/
theorem C134_char (hn : 2 ≤ n1) (nb b i : Nat) (hnb : 2 ≤ nb) (hb : (b = 0 ∧ i = n1 - 1) ∨ (b = nb - 1 ∧ i = 0))
    (ha : (g i).ap ≠ (g i).am) (hc : (g i).cp + (g i).dXdr * D1 (i * n1 + i) ≠ 0) (w : WaveLine K) :
    let w' := WaveLine.computeUnew nb b g D1 n1 w
    (g i).ap * w'.Pi i + (g i).dXdr * ∑ l ∈ Finset.range n1, D1 (i * n1 + l) * w'.psi l + (g i).cp * w'.psi i = w.Up i ∧
    (g i).am * w'.Pi i + (g i).dXdr * ∑ l ∈ Finset.range n1, D1 (i * n1 + l) * w'.psi l + (g i).cp * w'.psi i = w.Um i ∧
    ∀ l, l ≠ i → w'.Pi l = w.Pi l ∧ w'.psi l = w.psi l := by
  intro w'
  have hi : i = 0 ∨ i = n1 - 1 := by omega
  have hw' : w' = WaveLine.recompute g D1 (WaveLine.deriv D1 n1 w.psi) i w := by
    have h0 : n1 - 1 ≠ 0 := by omega
    have h1 : nb - 1 ≠ 0 := by omega
    rcases hb with ⟨rfl, rfl⟩ | ⟨rfl, rfl⟩
    · simp [w', WaveLine.computeUnew, h0, Ne.symm h1]
    · simp [w', WaveLine.computeUnew, Ne.symm h0, h1]
  have hd : ∑ l ∈ Finset.range n1, D1 (i * n1 + l) * w'.psi l =
      WaveLine.deriv D1 n1 w.psi i + D1 (i * n1 + i) * (w'.psi i - w.psi i) := by
    rw [← deriv_eq, hw']
    simp only [WaveLine.recompute]
    rw [deriv_aset _ (by omega), aset_self]
  obtain ⟨h1, h2⟩ := recompute_char (D1 := D1) hn hi ha hc w (WaveLine.deriv D1 n1 w.psi)
  simp only [RayPt.Up, RayPt.Um, one_mul] at h1 h2
  rw [← hw', ← hd] at h1 h2
  refine ⟨h1, h2, fun l hl => ?_⟩
  rw [hw']
  exact ⟨aset_ne _ _ hl, aset_ne _ _ hl⟩

/-- **C134.** In the boxes between, where both ends are changed but the derivative is computed only once before (line 1528), the
characteristic variables at each end miss what the change of `psi` at the other end does to the derivative. -/
theorem C134_both (hn : 2 ≤ n1) (nb b : Nat) (hb : 0 < b) (hb' : b < nb - 1) (i o : Nat)
    (hio : (i = 0 ∧ o = n1 - 1) ∨ (i = n1 - 1 ∧ o = 0))
    (ha : (g i).ap ≠ (g i).am) (hc : (g i).cp + (g i).dXdr * D1 (i * n1 + i) ≠ 0) (w : WaveLine K) :
    let w' := WaveLine.computeUnew nb b g D1 n1 w
    let missing := (g i).dXdr * (D1 (i * n1 + o) * (w'.psi o - w.psi o))
    (g i).ap * w'.Pi i + (g i).dXdr * ∑ l ∈ Finset.range n1, D1 (i * n1 + l) * w'.psi l + (g i).cp * w'.psi i = w.Up i + missing ∧
    (g i).am * w'.Pi i + (g i).dXdr * ∑ l ∈ Finset.range n1, D1 (i * n1 + l) * w'.psi l + (g i).cp * w'.psi i = w.Um i + missing := by
  intro w' missing
  have hi : i = 0 ∨ i = n1 - 1 := by omega
  have hne : i ≠ o := by omega
  have hw' : w' = WaveLine.recompute g D1 (WaveLine.deriv D1 n1 w.psi) (n1 - 1)
      (WaveLine.recompute g D1 (WaveLine.deriv D1 n1 w.psi) 0 w) := by
    simp only [w', WaveLine.computeUnew, List.foldl_cons, List.foldl_nil]
    rw [if_neg (by omega), if_neg (by omega)]
  have h0 : (0 : Nat) ≠ n1 - 1 := by omega
  -- the new values at `i` are those of a step at `i` alone
  have hPi : w'.Pi i = (WaveLine.recompute g D1 (WaveLine.deriv D1 n1 w.psi) i w).Pi i := by
    rw [hw']
    rcases hio with ⟨rfl, rfl⟩ | ⟨rfl, rfl⟩
    · simp only [WaveLine.recompute]
      rw [aset_ne _ _ h0]
    · simp only [WaveLine.recompute, aset_self]
  have hpsi : w'.psi i = (WaveLine.recompute g D1 (WaveLine.deriv D1 n1 w.psi) i w).psi i := by
    rw [hw']
    rcases hio with ⟨rfl, rfl⟩ | ⟨rfl, rfl⟩
    · simp only [WaveLine.recompute]
      rw [aset_ne _ _ h0]
    · simp only [WaveLine.recompute, aset_self]
      rw [aset_ne _ _ (Ne.symm h0)]
  have hps : w'.psi = aset (aset w.psi i (w'.psi i)) o (w'.psi o) := by
    funext l
    by_cases h1 : l = o
    · subst h1; rw [aset_self]
    · rw [aset_ne _ _ h1]
      by_cases h2 : l = i
      · subst h2; rw [aset_self]
      · rw [aset_ne _ _ h2, hw']
        simp only [WaveLine.recompute]
        rw [aset_ne _ _ (by omega), aset_ne _ _ (by omega)]
  have hd : ∑ l ∈ Finset.range n1, D1 (i * n1 + l) * w'.psi l =
      WaveLine.deriv D1 n1 w.psi i + D1 (i * n1 + i) * (w'.psi i - w.psi i) + D1 (i * n1 + o) * (w'.psi o - w.psi o) := by
    rw [← deriv_eq, hps, deriv_aset _ (by omega), deriv_aset _ (by omega), aset_self, aset_ne _ _ (Ne.symm hne), aset_ne _ _ hne, aset_self]
  obtain ⟨h1, h2⟩ := recompute_char (D1 := D1) hn hi ha hc w (WaveLine.deriv D1 n1 w.psi)
  simp only [RayPt.Up, RayPt.Um, one_mul] at h1 h2
  rw [← hPi, ← hpsi] at h1 h2
  rw [hd]
  constructor
  · linear_combination h1
  · linear_combination h2

/-- **C134.** Characteristic variables that were set from the fields and not changed afterwards give the fields back, in all boxes. -/
theorem C134_inverse (hn : 2 ≤ n1) (nb b : Nat) (w : WaveLine K)
    (ha : ∀ i, i = 0 ∨ i = n1 - 1 → (g i).ap ≠ (g i).am ∧ (g i).cp + (g i).dXdr * D1 (i * n1 + i) ≠ 0) :
    let w' := WaveLine.computeUnew nb b g D1 n1 (WaveLine.setUpUm g D1 n1 w)
    w'.Pi = w.Pi ∧ w'.psi = w.psi := by
  intro w'
  set u := WaveLine.setUpUm g D1 n1 w with hu
  have h0 : (0 : Nat) ≠ n1 - 1 := by omega
  have hup : u.psi = w.psi := rfl
  have huP : u.Pi = w.Pi := rfl
  have hU : ∀ i, i = 0 ∨ i = n1 - 1 → u.Up i = (g i).Up (w.Pi i) (w.psi i) (WaveLine.deriv D1 n1 w.psi i) ∧
      u.Um i = (g i).Um (w.Pi i) (w.psi i) (WaveLine.deriv D1 n1 w.psi i) := by
    intro i hi
    rw [hu]
    simp only [WaveLine.setUpUm, List.foldl_cons, List.foldl_nil]
    rcases hi with rfl | rfl
    · rw [aset_ne _ _ h0, aset_self, aset_ne _ _ h0, aset_self]; exact ⟨rfl, rfl⟩
    · rw [aset_self, aset_self]; exact ⟨rfl, rfl⟩
  have key : ∀ i, i = 0 ∨ i = n1 - 1 → ∀ v : WaveLine K, v.psi = w.psi → v.Pi = w.Pi → v.Up = u.Up → v.Um = u.Um →
      (WaveLine.recompute g D1 (WaveLine.deriv D1 n1 w.psi) i v).psi = w.psi ∧
      (WaveLine.recompute g D1 (WaveLine.deriv D1 n1 w.psi) i v).Pi = w.Pi := by
    intro i hi v e1 e2 e3 e4
    obtain ⟨a1, a2⟩ := hU i hi
    obtain ⟨b1, b2⟩ := ha i hi
    have b1' : (g i).ap - (g i).am ≠ 0 := sub_ne_zero.2 b1
    have hP : (g i).PiFrom (v.Up i) (v.Um i) = w.Pi i := by
      rw [e3, e4, a1, a2, RayPt.PiFrom, RayPt.Up, RayPt.Um]
      field_simp
      ring
    simp only [WaveLine.recompute]
    rw [hP, e1, e2]
    constructor
    · have : (g i).psiFrom (v.Um i) (w.Pi i) (w.psi i) (WaveLine.deriv D1 n1 w.psi i) (D1 ((i + 1) * (i + 1) - 1)) = w.psi i := by
        rw [d1_end hn hi, e4, a2]
        simp only [RayPt.psiFrom, RayPt.Um]
        field_simp
        ring
      rw [this]
      funext l
      by_cases h : l = i
      · subst h; rw [aset_self]
      · rw [aset_ne _ _ h]
    · funext l
      by_cases h : l = i
      · subst h; rw [aset_self]
      · rw [aset_ne _ _ h]
  have step : ∀ i, i = 0 ∨ i = n1 - 1 → ∀ v : WaveLine K, (v.psi = w.psi ∧ v.Pi = w.Pi ∧ v.Up = u.Up ∧ v.Um = u.Um) → ∀ c : Prop, [Decidable c] →
      let v' := if c then v else WaveLine.recompute g D1 (WaveLine.deriv D1 n1 w.psi) i v
      v'.psi = w.psi ∧ v'.Pi = w.Pi ∧ v'.Up = u.Up ∧ v'.Um = u.Um := by
    intro i hi v ⟨e1, e2, e3, e4⟩ c _
    simp only
    split_ifs
    · exact ⟨e1, e2, e3, e4⟩
    · exact ⟨(key i hi v e1 e2 e3 e4).1, (key i hi v e1 e2 e3 e4).2, e3, e4⟩
  have s1 := step 0 (Or.inl rfl) u ⟨hup, huP, rfl, rfl⟩ ((b = 0 ∧ 0 = 0) ∨ (b = nb - 1 ∧ 0 = n1 - 1))
  have s2 := step (n1 - 1) (Or.inr rfl) _ s1 ((b = 0 ∧ n1 - 1 = 0) ∨ (b = nb - 1 ∧ n1 - 1 = n1 - 1))
  exact ⟨s2.2.1, s2.1⟩

omit [Field K] in
/-- **C134.** The penalty terms vanish where the fields of the two sides agree, and the one on the outer boundary vanishes where nothing
comes in (`Up = 0`); the penalty terms on `psi` do not change the sum of the two sides. -/
theorem C134_penalty [Field K] (dt a b c cc : K) :
    WaveLine.penaltyUpUm dt a b c c cc cc = (a, b) ∧ WaveLine.penaltyPsi dt a b c c = (a, b) ∧ WaveLine.penaltyOuter dt a 0 = a ∧
    (WaveLine.penaltyPsi dt a b c cc).1 + (WaveLine.penaltyPsi dt a b c cc).2 = a + b := by
  refine ⟨?_, ?_, ?_, ?_⟩
  · simp [WaveLine.penaltyUpUm]
  · simp [WaveLine.penaltyPsi]
  · simp [WaveLine.penaltyOuter]
  · simp only [WaveLine.penaltyPsi]; ring

end line

/-! ## Examples and where the code differs -/

/-- A point at `(3, 0, 4)` in flat space with `dX/dx = 3/5`, `dX/dz = 4/5`, so that `dX/dr = 1`. -/
def exRay : RayPt ℚ :=
  ⟨fun q => if q = 25 then 5 else if q = 1 then 1 else 0, 3, 0, 4, fun n => [-1, 0, 0, 0, 1, 0, 0, 1, 0, 1].getD n 0, fun _ => 0,
    fun n => [3 / 5, 0, 4 / 5].getD n 0⟩

/-- A line with two points, where `psi` is 0 and 1. -/
def exLine : WaveLine ℚ := ⟨fun i => i, fun _ => 0, fun _ => 2, fun _ => 1⟩

/-- In flat space `ap = 1`, `am = -1`, `cp = 1/r`. -/
example : (exRay.ap, exRay.am, exRay.cp, exRay.dXdr) = (1, -1, 1 / 5, 1) := by decide +kernel

/-- The last of two boxes: the lower end gets `nUp = 2` and `nUm = 1`. -/
example :
    let D1 : Nat → ℚ := fun n => [-1, 1, -1, 1].getD n 0
    let w' := WaveLine.computeUnew 2 1 (fun _ => exRay) D1 2 exLine
    (w'.Pi 0, w'.psi 0, exRay.Up (w'.Pi 0) (w'.psi 0) (WaveLine.deriv D1 2 w'.psi 0),
      exRay.Um (w'.Pi 0) (w'.psi 0) (WaveLine.deriv D1 2 w'.psi 0)) = (1 / 2, -(5 / 8), 2, 1) := by
  decide +kernel

/-- **C134.** In a box between two others the new `Pi` and `psi` do not have the characteristic variables `nUp = 2` and `nUm = 1`: at the
lower end they are 9/4 and 5/4. -/
theorem C134_both_counterexample :
    let D1 : Nat → ℚ := fun n => [-1, 1, -1, 1].getD n 0
    let w' := WaveLine.computeUnew 3 1 (fun _ => exRay) D1 2 exLine
    exLine.Up 0 = 2 ∧ exLine.Um 0 = 1 ∧
    exRay.Up (w'.Pi 0) (w'.psi 0) (WaveLine.deriv D1 2 w'.psi 0) = 9 / 4 ∧
    exRay.Um (w'.Pi 0) (w'.psi 0) (WaveLine.deriv D1 2 w'.psi 0) = 5 / 4 := by
  decide +kernel

end Sgrid

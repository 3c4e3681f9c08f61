import Verif.Model.ScalarSource
import Verif.Props.ScalarOuter
import Verif.Props.FourierUnique
import Verif.Props.ComplexFun
import Verif.Props.Lines

/-!
# C135: the rotating source of the scalar field
-/

namespace Sgrid

open Real Finset

theorem mem_plane3 {d : Dims} {i j : Nat} : (i, j) ∈ plane3 d ↔ i < d.n1 ∧ j < d.n2 := by
  simp only [plane3, List.mem_flatMap, List.mem_range, List.mem_map, Prod.mk.injEq]
  constructor
  · rintro ⟨j', hj', i', hi', rfl, rfl⟩; exact ⟨hi', hj'⟩
  · rintro ⟨hi, hj⟩; exact ⟨j, hj, i, hi, rfl, rfl⟩

theorem rotModes_at (d : Dims) (w : ℝ) (c0 c : Nat → ℝ) {i j k : Nat} (hi : i < d.n1) (hj : j < d.n2) (hk : k < d.n3) :
    rotModes d w c0 c (d.idx i j k) = rotMode d w c0 i j k := by
  refine foldl_idem (fun c : Nat → ℝ => c (d.idx i j k)) _ _ k (fun _ => rotMode d w c0 i j k) (fun _ => rfl) (List.mem_range.2 hk)
    (fun c => ?_) (fun c k' _ hne => ?_) c
  · refine foldl_idem (fun c : Nat → ℝ => c (d.idx i j k)) _ _ (i, j) (fun _ => rotMode d w c0 i j k) (fun _ => rfl)
      (mem_plane3.2 ⟨hi, hj⟩) (fun c => aset_self ..) (fun c t ht hne => aset_ne _ _ fun h => hne ?_) c
    obtain ⟨i', j'⟩ := t
    obtain ⟨rfl, rfl, -⟩ := idx_inj hi (mem_plane3.1 ht).1 hj (mem_plane3.1 ht).2 h
    rfl
  · refine foldl_none (fun c : Nat → ℝ => c (d.idx i j k)) _ _ (fun c t ht => aset_ne _ _ fun h => hne ?_) c
    exact (idx_inj hi (mem_plane3.1 ht).1 hj (mem_plane3.1 ht).2 h).2.2.symm

/-- Coefficients rotated like this belong, at the grid points, to the series at the angle minus `w`. -/
theorem rotated_series (d : Dims) (w : ℝ) (c0 : Nat → ℝ) (i j k : Nat) (hk : k < d.n3) :
    Spec.fourSeries 0 (2 * π) (rotMode d w c0 i j) d.n3 (2 * π * k / d.n3) =
      Spec.fourSeries 0 (2 * π) (fun l => c0 (d.idx i j l)) d.n3 (2 * π * k / d.n3 - w) := by
  have hn : (d.n3 : ℝ) ≠ 0 := by
    have : d.n3 ≠ 0 := by omega
    exact_mod_cast this
  have e : ∀ y : ℝ, 2 * π * (y - 0) / (2 * π - 0) = y := by
    intro y
    have := Real.pi_ne_zero
    field_simp
    ring
  unfold Spec.fourSeries
  rw [e, e]
  set X := 2 * π * (k : ℝ) / d.n3 with hX
  have h0 : rotMode d w c0 i j 0 = c0 (d.idx i j 0) := by simp [rotMode]
  have hs : ∀ m ∈ Finset.Ico 1 ((d.n3 + 1) / 2),
      rotMode d w c0 i j (2 * m - 1) * cos (m * X) + rotMode d w c0 i j (2 * m) * sin (m * X) =
        c0 (d.idx i j (2 * m - 1)) * cos (m * (X - w)) + c0 (d.idx i j (2 * m)) * sin (m * (X - w)) := by
    intro m hm
    have hm := Finset.mem_Ico.1 hm
    have a1 : rotMode d w c0 i j (2 * m - 1) =
        c0 (d.idx i j (2 * m - 1)) * cos (m * w) - c0 (d.idx i j (2 * m)) * sin (m * w) := by
      simp only [rotMode]
      rw [if_neg (by omega), if_pos (by omega), if_pos (by omega), show 2 * m - 1 + 1 = 2 * m by omega, show 2 * m / 2 = m by omega]
    have a2 : rotMode d w c0 i j (2 * m) =
        c0 (d.idx i j (2 * m - 1)) * sin (m * w) + c0 (d.idx i j (2 * m)) * cos (m * w) := by
      simp only [rotMode]
      rw [if_neg (by omega), if_pos (by omega), if_neg (by omega), show (2 * m + 1) / 2 = m by omega]
    rw [a1, a2, mul_sub, cos_sub, sin_sub]
    ring
  rw [h0, Finset.sum_congr rfl hs]
  congr 2
  split_ifs with he
  · have a3 : rotMode d w c0 i j (d.n3 - 1) = c0 (d.idx i j (d.n3 - 1)) * cos ((d.n3 / 2 : Nat) * w) := by
      simp only [rotMode]
      rw [if_neg (by omega), if_neg (by omega), show d.n3 - 1 + 1 = d.n3 by omega]
    have hsin : sin ((d.n3 / 2 : Nat) * X) = 0 := by
      have h2 : ((d.n3 / 2 : Nat) : ℝ) * 2 = d.n3 := by
        have : d.n3 / 2 * 2 = d.n3 := by omega
        exact_mod_cast this
      have : ((d.n3 / 2 : Nat) : ℝ) * X = k * π := by
        rw [hX]
        calc _ = (((d.n3 / 2 : Nat) : ℝ) * 2) * π * k / d.n3 := by ring
          _ = k * π := by rw [h2]; field_simp
      rw [this, sin_nat_mul_pi]
    rw [a3, mul_sub, cos_sub, hsin]
    ring
  · rfl

/-- **C135.** `ScalarOnKerr_rho_from_rho0_four3modes` makes the source rotate rigidly: at the grid point `φ_k = 2πk/n3` the array `rho`
becomes the value at the angle `φ_k - Ω t` of the trigonometric series whose coefficients are in `ScalarOnKerr_rho0_four3modes`, with
`Ω = √(M/r0³)`, `r0 = 10 M`. For every number of points in the angular direction, even and odd, every mass, every time and all values; all
other arrays except the one for the coefficients stay as they were. -/
theorem C135 (g : Nat → (Nat → ℝ) × (Nat → ℝ) × (Nat → ℝ)) (b : LBox ℝ) (hb : BoxLinear b .three)
    (hev : ∀ c k, k < b.d.n3 → evalOp b .three c k = fourEval c (fun _ => 0) (b.d.n3 - 1) k)
    (M t : ℝ) (rho crho crho0 : Nat) (mem : Arrays ℝ) :
    let mem' := rhoFromModes g b M t rho crho crho0 mem
    let Ω := √(M / (10 * M) ^ 3)
    (∀ i j k, i < b.d.n1 → j < b.d.n2 → k < b.d.n3 →
      mem' rho (b.d.idx i j k) =
        Spec.fourSeries 0 (2 * π) (fun l => mem crho0 (b.d.idx i j l)) b.d.n3 (2 * π * k / b.d.n3 - Ω * t)) ∧
    ∀ a p, a ≠ rho → a ≠ crho → mem' a p = mem a p := by
  intro mem' Ω
  have hΩ : √(M / (10 * M * (10 * M) * (10 * M))) = Ω := by
    simp only [Ω]; congr 2; ring
  obtain ⟨h1, h2⟩ := C41_synthesis g b .three hb rho crho
    (aset mem crho (rotModes b.d (√(M / (10 * M * (10 * M) * (10 * M))) * t) (mem crho0) (mem crho)))
  constructor
  · intro i j k hi hj hk
    have := h1 i j k ⟨hi, hj, hk⟩
    simp only [Spec.onLines] at this
    rw [hev _ _ hk, C33_eval 0 (2 * π) (by positivity) _ _ _ _ (by omega)] at this
    have e3 : b.d.n3 - 1 + 1 = b.d.n3 := by omega
    rw [e3] at this
    refine Eq.trans this ?_
    rw [← hΩ, ← rotated_series b.d _ (mem crho0) i j k hk]
    have hx : 0 + (k : ℝ) * (2 * π - 0) / (b.d.n3 : Nat) = 2 * π * k / b.d.n3 := by ring
    rw [hx]
    exact fourSeries_congr _ _ _ _ _ (by omega) _ fun l hl => by
      simp only [Spec.view, aset_self]
      exact rotModes_at b.d _ _ _ hi hj hl
  · intro a p ha hc
    have := h2 a p (Or.inl ha)
    exact this.trans (congrFun (aset_ne _ _ hc) p)

/-- Initialisation and rotation together: a source whose values on every circle are those of a trigonometric series is that series, turned by
the angle `Ω t`. -/
theorem C135_series (g : Nat → (Nat → ℝ) × (Nat → ℝ) × (Nat → ℝ)) (b : LBox ℝ) (hb : BoxLinear b .three)
    (hev : ∀ c k, k < b.d.n3 → evalOp b .three c k = fourEval c (fun _ => 0) (b.d.n3 - 1) k)
    (hco : ∀ u k, k < b.d.n3 → coeffsOp b .three u k = fourCoeffs (fun _ => 0) u (b.d.n3 - 1) k)
    (M t : ℝ) (rho crho crho0 : Nat) (mem : Arrays ℝ) (src : Nat → ℝ) (a : Nat → Nat → Nat → ℝ)
    (hsrc : ∀ i j k, i < b.d.n1 → j < b.d.n2 → k < b.d.n3 →
      src (b.d.idx i j k) = Spec.fourSeries 0 (2 * π) (a i j) b.d.n3 (2 * π * k / b.d.n3))
    (i j k : Nat) (hi : i < b.d.n1) (hj : j < b.d.n2) (hk : k < b.d.n3) :
    rhoFromModes g b M t rho crho crho0 (initModes g b src crho crho0 mem) rho (b.d.idx i j k) =
      Spec.fourSeries 0 (2 * π) (a i j) b.d.n3 (2 * π * k / b.d.n3 - √(M / (10 * M) ^ 3) * t) := by
  rw [(C135 g b hb hev M t rho crho crho0 _).1 i j k hi hj hk]
  refine fourSeries_congr _ _ _ _ _ (by omega) _ fun l hl => ?_
  obtain ⟨h1, -⟩ := C41_analysis g b .three hb crho crho0
    (aset mem crho (upLoop 0 (b.d.n1 * b.d.n2 * b.d.n3) (fun i u => aset u i (src i)) (mem crho)))
  have := h1 i j l ⟨hi, hj, hl⟩
  simp only [Spec.onLines] at this
  rw [hco _ _ hl] at this
  refine Eq.trans this ?_
  refine fourCoeffs_of_series 0 (2 * π) (by positivity) _ _ _ _ _ (by omega) fun m hm => ?_
  have hm' : m < b.d.n3 := by omega
  have hlt := idx_lt (d := b.d) (i := i) (j := j) (k := m) ⟨hi, hj, hm'⟩
  simp only [Spec.view, aset_self]
  rw [upLoop_fill, if_pos ⟨Nat.zero_le _, hlt⟩, show i + b.d.n1 * (j + b.d.n2 * m) = b.d.idx i j m from rfl, hsrc i j m hi hj hm', show b.d.n3 - 1 + 1 = b.d.n3 by omega]
  congr 1
  ring

/-- At `t = 0` the source is back at all points, whatever it is. -/
theorem C135_start (g : Nat → (Nat → ℝ) × (Nat → ℝ) × (Nat → ℝ)) (b : LBox ℝ) (hb : BoxLinear b .three)
    (hev : ∀ c k, k < b.d.n3 → evalOp b .three c k = fourEval c (fun _ => 0) (b.d.n3 - 1) k)
    (hco : ∀ u k, k < b.d.n3 → coeffsOp b .three u k = fourCoeffs (fun _ => 0) u (b.d.n3 - 1) k)
    (M : ℝ) (rho crho crho0 : Nat) (mem : Arrays ℝ) (src : Nat → ℝ)
    (i j k : Nat) (hi : i < b.d.n1) (hj : j < b.d.n2) (hk : k < b.d.n3) :
    rhoFromModes g b M 0 rho crho crho0 (initModes g b src crho crho0 mem) rho (b.d.idx i j k) = src (b.d.idx i j k) := by
  have hs : ∀ i j k, i < b.d.n1 → j < b.d.n2 → k < b.d.n3 →
      src (b.d.idx i j k) = Spec.fourSeries 0 (2 * π)
        (fourCoeffs (fun _ => 0) (fun l => src (b.d.idx i j l)) (b.d.n3 - 1)) b.d.n3 (2 * π * k / b.d.n3) := by
    intro i j k _ _ hk
    have e := C33_eval 0 (2 * π) (by positivity) (fourCoeffs (fun _ => 0) (fun l => src (b.d.idx i j l)) (b.d.n3 - 1))
      (fun _ => 0) (b.d.n3 - 1) k (by omega)
    rw [C33_inverse _ _ _ _ _ (by omega), show b.d.n3 - 1 + 1 = b.d.n3 by omega] at e
    rw [e]
    congr 1
    ring
  rw [C135_series g b hb hev hco M 0 rho crho crho0 mem src _ hs i j k hi hj hk, mul_zero, sub_zero]
  exact (hs i j k hi hj hk).symm

/-- **C135.** The test source away from the origin: a Gaussian in `r` around `r0 = 10 M` times the quadrupole
`(x² - y²) cos 2Ωt + 2xy sin 2Ωt` over `r²`. -/
theorem C135_source (M t x y z : ℝ) (hr : x ^ 2 + y ^ 2 + z ^ 2 ≠ 0) :
    let r := √(x ^ 2 + y ^ 2 + z ^ 2)
    let r0 := 10 * M
    let Ω := √(M / r0 ^ 3)
    let N := √(5 / (96 * π)) * 3
    y22Source M t x y z =
      -(4 * π / (r0 * √(1 - 3 * M / r0)) * N / r0) * (exp (-((r - r0) / M) ^ 2) / (√π * M)) * N *
        (((x ^ 2 - y ^ 2) * cos (2 * Ω * t) + 2 * x * y * sin (2 * Ω * t)) / r ^ 2) := by
  intro r r0 Ω N
  have hpos : 0 < x ^ 2 + y ^ 2 + z ^ 2 := lt_of_le_of_ne (by positivity) (Ne.symm hr)
  have hr2 : r ^ 2 = x ^ 2 + y ^ 2 + z ^ 2 := sq_sqrt hpos.le
  have hrpos : 0 < r := sqrt_pos.2 hpos
  have er : √(x * x + y * y + z * z) = r := by simp only [r]; congr 1; ring
  have eΩ : √(M / (10 * M * (10 * M) * (10 * M))) = Ω := by simp only [Ω, r0]; congr 2; ring
  have hz1 : z / r ≤ 1 := by rw [div_le_one hrpos]; exact abs_le_of_sq_le_sq' (by nlinarith [sq_nonneg x, sq_nonneg y]) hrpos.le |>.2
  have hz2 : -1 ≤ z / r := by
    rw [le_div_iff₀ hrpos]
    have := (abs_le_of_sq_le_sq' (a := z) (b := r) (by nlinarith [sq_nonneg x, sq_nonneg y]) hrpos.le).1
    linarith
  have ecos : 1 - cos (2 * (1 / 2 * π - arcsin (z / r))) = 2 * ((x ^ 2 + y ^ 2) / r ^ 2) := by
    rw [show 2 * (1 / 2 * π - arcsin (z / r)) = π - 2 * arcsin (z / r) by ring, cos_pi_sub, cos_two_mul, cos_sq', sin_arcsin hz2 hz1]
    have : x ^ 2 + y ^ 2 = r ^ 2 - z ^ 2 := by rw [hr2]; ring
    rw [this]
    field_simp
    ring
  have hA : (x ^ 2 + y ^ 2) * cos (2 * (Ω * t - Arg x y)) = (x ^ 2 - y ^ 2) * cos (2 * Ω * t) + 2 * x * y * sin (2 * Ω * t) := by
    by_cases h0 : x = 0 ∧ y = 0
    · obtain ⟨rfl, rfl⟩ := h0; simp
    obtain ⟨-, -, hx, hy⟩ := C52_arg x y h0
    have hs : √(x ^ 2 + y ^ 2) ^ 2 = x ^ 2 + y ^ 2 := sq_sqrt (by positivity)
    rw [show 2 * (Ω * t - Arg x y) = 2 * Ω * t - 2 * Arg x y by ring, cos_sub, cos_two_mul (Arg x y), sin_two_mul (Arg x y)]
    have e1 : (x ^ 2 + y ^ 2) * cos (Arg x y) ^ 2 = x ^ 2 := by
      rw [← hs, ← mul_pow, ← hx]
    have e2 : (x ^ 2 + y ^ 2) * (sin (Arg x y) * cos (Arg x y)) = x * y := by
      rw [← hs]
      calc _ = (√(x ^ 2 + y ^ 2) * cos (Arg x y)) * (√(x ^ 2 + y ^ 2) * sin (Arg x y)) := by ring
        _ = x * y := by rw [← hx, ← hy]
    linear_combination (2 * cos (2 * Ω * t)) * e1 + (2 * sin (2 * Ω * t)) * e2
  have hexp : -(r - r0) * (r - r0) / (1 * M * (1 * M)) = -((r - r0) / M) ^ 2 := by
    rw [one_mul, div_pow, ← neg_div]; congr 1 <;> ring
  simp only [y22Source]
  rw [er, eΩ, ecos, ← hA]
  change -(4 * π * 1 / (r0 * √(1 - 3 * M / r0)) * √(5 / (96 * π)) * 3 / r0) * (exp (-(r - r0) * (r - r0) / (1 * M * (1 * M))) / (√π * (1 * M))) * _ * _ = _
  rw [hexp, one_mul, mul_one]
  simp only [N]
  ring

/-- **C135.** The test source moves rigidly around the z-axis with the angular velocity `Ω`. -/
theorem C135_rigid (M t x y z : ℝ) (hr : x ^ 2 + y ^ 2 + z ^ 2 ≠ 0) :
    let w := √(M / (10 * M) ^ 3) * t
    y22Source M t x y z = y22Source M 0 (x * cos w + y * sin w) (y * cos w - x * sin w) z := by
  intro w
  have e : (x * cos w + y * sin w) ^ 2 + (y * cos w - x * sin w) ^ 2 = x ^ 2 + y ^ 2 := by
    linear_combination (x ^ 2 + y ^ 2) * sin_sq_add_cos_sq w
  have h1 := C135_source M t x y z hr
  have h2 := C135_source M 0 (x * cos w + y * sin w) (y * cos w - x * sin w) z (by rw [e]; exact hr)
  simp only at h1 h2
  rw [h1, h2, e]
  congr 2
  rw [mul_zero, cos_zero, sin_zero, show 2 * √(M / (10 * M) ^ 3) * t = 2 * w by simp only [w]; ring, cos_two_mul, sin_two_mul]
  linear_combination (x ^ 2 - y ^ 2) * sin_sq_add_cos_sq w

/-- **C135.** On a grid whose third direction is the angle around the z-axis, with at least five points there, the method of the Fourier modes
gives the test source at time `t` exactly at all points other than the origin. -/
theorem C135_exact (g : Nat → (Nat → ℝ) × (Nat → ℝ) × (Nat → ℝ)) (b : LBox ℝ) (hb : BoxLinear b .three)
    (hev : ∀ c k, k < b.d.n3 → evalOp b .three c k = fourEval c (fun _ => 0) (b.d.n3 - 1) k)
    (hco : ∀ u k, k < b.d.n3 → coeffsOp b .three u k = fourCoeffs (fun _ => 0) u (b.d.n3 - 1) k)
    (M t : ℝ) (rho crho crho0 : Nat) (mem : Arrays ℝ) (x y z : Nat → ℝ) (R Z : Nat → Nat → ℝ) (h5 : 5 ≤ b.d.n3)
    (hR : ∀ i j, i < b.d.n1 → j < b.d.n2 → R i j ^ 2 + Z i j ^ 2 ≠ 0)
    (hx : ∀ i j k, i < b.d.n1 → j < b.d.n2 → k < b.d.n3 → x (b.d.idx i j k) = R i j * cos (2 * π * k / b.d.n3))
    (hy : ∀ i j k, i < b.d.n1 → j < b.d.n2 → k < b.d.n3 → y (b.d.idx i j k) = R i j * sin (2 * π * k / b.d.n3))
    (hz : ∀ i j k, i < b.d.n1 → j < b.d.n2 → k < b.d.n3 → z (b.d.idx i j k) = Z i j)
    (i j k : Nat) (hi : i < b.d.n1) (hj : j < b.d.n2) (hk : k < b.d.n3) :
    rhoFromModes g b M t rho crho crho0
      (initModes g b (fun p => y22Source M 0 (x p) (y p) (z p)) crho crho0 mem) rho (b.d.idx i j k) =
      y22Source M t (x (b.d.idx i j k)) (y (b.d.idx i j k)) (z (b.d.idx i j k)) := by
  have hn : (b.d.n3 : ℝ) ≠ 0 := by
    have : b.d.n3 ≠ 0 := by omega
    exact_mod_cast this
  -- the series with the single mode 2
  let a : Nat → Nat → Nat → ℝ := fun i j l => if l = 3 then y22Source M 0 (R i j) 0 (Z i j) * b.d.n3 / 2 else 0
  have hser : ∀ i j X, Spec.fourSeries 0 (2 * π) (a i j) b.d.n3 X = y22Source M 0 (R i j) 0 (Z i j) * cos (2 * X) := by
    intro i j X
    have e : 2 * π * (X - 0) / (2 * π - 0) = X := by
      have := Real.pi_ne_zero
      field_simp
      ring
    unfold Spec.fourSeries
    rw [e, Finset.sum_eq_single 2]
    · have : (if b.d.n3 % 2 = 0 then a i j (b.d.n3 - 1) * cos ((b.d.n3 / 2 : Nat) * X) else 0) = 0 := by
        split_ifs with h
        · simp only [a]; rw [if_neg (by omega), zero_mul]
        · rfl
      rw [this]
      simp only [a]
      norm_num
      field_simp
    · intro m _ hm
      simp only [a]
      rw [if_neg (by omega), if_neg (by omega)]
      ring
    · intro h
      exact absurd (Finset.mem_Ico.2 ⟨by omega, by omega⟩) h
  have hsrc : ∀ (i j : Nat) (X s : ℝ), i < b.d.n1 → j < b.d.n2 →
      y22Source M s (R i j * cos X) (R i j * sin X) (Z i j) =
        y22Source M 0 (R i j) 0 (Z i j) * cos (2 * (X - √(M / (10 * M) ^ 3) * s)) := by
    intro i j X s hi hj
    have e : (R i j * cos X) ^ 2 + (R i j * sin X) ^ 2 + Z i j ^ 2 = R i j ^ 2 + Z i j ^ 2 := by
      linear_combination (R i j ^ 2) * sin_sq_add_cos_sq X
    have e' : R i j ^ 2 + 0 ^ 2 + Z i j ^ 2 = R i j ^ 2 + Z i j ^ 2 := by ring
    have h1 := C135_source M s (R i j * cos X) (R i j * sin X) (Z i j) (by rw [e]; exact hR i j hi hj)
    have h2 := C135_source M 0 (R i j) 0 (Z i j) (by rw [e']; exact hR i j hi hj)
    simp only at h1 h2
    rw [h1, h2, e, e', mul_zero, cos_zero, sin_zero, mul_sub, cos_sub, cos_two_mul X, sin_two_mul X,
      show 2 * √(M / (10 * M) ^ 3) * s = 2 * (√(M / (10 * M) ^ 3) * s) by ring]
    generalize 2 * (√(M / (10 * M) ^ 3) * s) = w
    have hsin : sin X ^ 2 = 1 - cos X ^ 2 := by rw [← sin_sq_add_cos_sq X]; ring
    have : (R i j * cos X) ^ 2 - (R i j * sin X) ^ 2 = R i j ^ 2 * (2 * cos X ^ 2 - 1) := by rw [mul_pow, mul_pow, hsin]; ring
    rw [this]
    ring
  rw [C135_series g b hb hev hco M t rho crho crho0 mem _ a (fun i j k hi hj hk => ?_) i j k hi hj hk, hser,
    hx i j k hi hj hk, hy i j k hi hj hk, hz i j k hi hj hk, hsrc i j _ _ hi hj]
  rw [hx i j k hi hj hk, hy i j k hi hj hk, hz i j k hi hj hk, hsrc i j _ _ hi hj, hser, mul_zero, sub_zero]

/-- Non-vacuity: with four points on the circle the mode `cos φ`, turned by a right angle, is `sin φ`. -/
example (c0 : Nat → ℝ) (h1 : c0 1 = 1) (h2 : c0 2 = 0) :
    rotMode ⟨1, 1, 4⟩ (π / 2) c0 0 0 1 = 0 ∧ rotMode ⟨1, 1, 4⟩ (π / 2) c0 0 0 2 = 1 := by
  simp [rotMode, Dims.idx, h1, h2]

end Sgrid

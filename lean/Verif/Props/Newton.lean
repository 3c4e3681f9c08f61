import Mathlib.Algebra.Order.Field.Rat
import Mathlib.Tactic.Linarith
import Mathlib.Tactic.Positivity
import Mathlib.Tactic.Ring
import Verif.Model.Newton
import Verif.Props.Minimize

/-!
# C91: the Newton solver for equations on the grid
-/

namespace Sgrid

open Set

section report

variable {ι K : Type} [Field K] [LinearOrder K]

/-- `inewton` is set to `itmax` only if the parameter says so. -/
theorem newtonPass_stop {e : NewtonEnv ι K} {n j : Nat} {res : K} {s : NewtonState ι K}
    (h : s.stop = true → e.quit = true) :
    (∀ t, newtonPass e n res j s = .inl (.ok t) → t.stop = true → e.quit = true) ∧
    (∀ t, newtonPass e n res j s = .inr t → t.stop = true → e.quit = true) := by
  unfold newtonPass
  dsimp only
  generalize (if (e.lin n (j - 1) s.u s.f (max (res * e.tolFac) e.linTol)).1 ≥ 0 then
    newtonStep e res s.u s.f (e.lin n (j - 1) s.u s.f (max (res * e.tolFac) e.linTol)).2
    else Res.ok ⟨-1, s.u, s.f⟩) = r
  cases r with
  | abort => exact ⟨fun t ht => (nomatch ht), fun t ht => (nomatch ht)⟩
  | ub => exact ⟨fun t ht => (nomatch ht), fun t ht => (nomatch ht)⟩
  | ok t =>
    dsimp only
    split
    · split
      · refine ⟨fun t ht => (nomatch ht), fun t ht h1 => ?_⟩
        cases ht
        rcases Bool.or_eq_true _ _ |>.mp h1 with h1 | h1
        · exact h h1
        · exact h1
      · refine ⟨fun t ht h1 => ?_, fun t ht => (nomatch ht)⟩
        cases ht
        rcases Bool.or_eq_true _ _ |>.mp h1 with h1 | h1
        · exact h h1
        · exact h1
    · refine ⟨fun t ht h1 => ?_, fun t ht => (nomatch ht)⟩
      cases ht
      exact h h1

theorem newtonSolve_stop {e : NewtonEnv ι K} {n : Nat} {res : K} {u f : ι → K} {s : NewtonState ι K}
    (h : newtonSolve e n res u f = .ok s) : s.stop = true → e.quit = true := by
  unfold newtonSolve at h
  refine (forRet_inv (n := e.nalt + 1) (body := newtonPass e n res) (s := ⟨u, f, false⟩)
    (fun _ s => s.stop = true → e.quit = true)
    (fun _ r => ∀ t, r = .ok t → t.stop = true → e.quit = true) (fun h => by cases h) ?_ ?_).elim ?_ ?_
  · rintro j s r _ _ hs hr t rfl
    exact (newtonPass_stop hs).1 t hr
  · rintro j s s' _ _ hs hr
    exact (newtonPass_stop hs).2 s' hr
  · rintro ⟨r, j, _, _, hr, hQ⟩
    rw [hr] at h
    exact hQ s h
  · rintro ⟨s', hr, hs⟩
    rw [hr] at h
    cases h
    exact hs

/-- **C91** (what `Newton` reports). Whatever the function, the linear solvers, the minimisation and the hooks
do: if `Newton` returns, the number it reports is the norm of the residual at the `u` it leaves; a return value
below `itmax` means that this norm is at most `tol`; the return value is at most `itmax`, or `itmax+1` if the
parameter says that `Newton` should quit at local minima. -/
theorem C91_report (e : NewtonEnv ι K) (u u' : ι → K) (itmax n : Nat) (tol r : K)
    (h : newton e u itmax tol = .ok (n, u', r)) :
    r = e.norm (e.F u') ∧ (n < itmax → r ≤ tol) ∧ (n ≤ itmax ∨ n = itmax + 1 ∧ e.quit = true) := by
  unfold newton at h
  refine (forRet_inv (n := itmax) (body := newtonIter e itmax tol) (s := u)
    (fun _ _ => True)
    (fun j x => ∀ n u' r, x = .ok (n, u', r) → r = e.norm (e.F u') ∧ (n < itmax → r ≤ tol) ∧
      (n ≤ itmax ∨ n = itmax + 1 ∧ e.quit = true)) trivial ?_ (fun _ _ _ _ _ _ _ => trivial)).elim ?_ ?_
  · rintro j u x h1 h2 _ hx n u' r rfl
    unfold newtonIter at hx
    dsimp only at hx
    split at hx
    · rename_i hle
      cases hx
      exact ⟨rfl, fun _ => hle, Or.inl (by omega)⟩
    · generalize hs : newtonSolve e (j - 1) (e.norm (e.F u)) (e.before (j - 1) u) (e.F u) = s at hx
      cases s with
      | abort => cases hx
      | ub => cases hx
      | ok s =>
        dsimp only at hx
        split at hx
        · rename_i hst
          cases hx
          exact ⟨rfl, fun h => absurd h (by omega), Or.inr ⟨rfl, newtonSolve_stop hs hst⟩⟩
        · cases hx
  · rintro ⟨x, j, _, _, hx, hQ⟩
    rw [hx] at h
    exact hQ n u' r h
  · rintro ⟨u', hx, _⟩
    rw [hx] at h
    cases h
    exact ⟨rfl, fun h => absurd h (by omega), Or.inl le_rfl⟩

/-- **C91** (the right hand side of the linear equations, missing: retries with another linear solver). If no
other linear solver is tried at local minima, and no hook changes the variables, the linear solver is called
only with `vlFu = F(u)`: what it would do in other cases does not matter. -/
theorem C91_rhs_partial (e : NewtonEnv ι K) (lin : Nat → Nat → (ι → K) → (ι → K) → K → Int × (ι → K))
    (halt : e.alt = false) (hb : ∀ n u, e.before n u = u)
    (hlin : ∀ n k u t, lin n k u (e.F u) t = e.lin n k u (e.F u) t) (u : ι → K) (itmax : Nat) (tol : K) :
    newton { e with lin := lin } u itmax tol = newton e u itmax tol := by
  have hsolve : ∀ n res u, newtonSolve { e with lin := lin } n res u (e.F u) =
      newtonSolve e n res u (e.F u) := by
    intro n res u
    have h1 : ∀ (e : NewtonEnv ι K), e.alt = false → ∃ r, newtonPass e n res 1 ⟨u, e.F u, false⟩ = .inl r := by
      intro e halt
      unfold newtonPass
      dsimp only
      generalize (if (e.lin n (1 - 1) u (e.F u) (max (res * e.tolFac) e.linTol)).1 ≥ 0 then
        newtonStep e res u (e.F u) (e.lin n (1 - 1) u (e.F u) (max (res * e.tolFac) e.linTol)).2
        else Res.ok ⟨-1, u, e.F u⟩) = r
      cases r with
      | abort => exact ⟨_, rfl⟩
      | ub => exact ⟨_, rfl⟩
      | ok t =>
        dsimp only
        rw [halt, Bool.false_and]
        split
        · exact ⟨_, rfl⟩
        · exact ⟨_, rfl⟩
    have h2 : ∀ (e : NewtonEnv ι K) r, newtonPass e n res 1 ⟨u, e.F u, false⟩ = .inl r →
        newtonSolve e n res u (e.F u) = r := by
      intro e r h
      unfold newtonSolve
      have hx : ∀ m, forRet (m + 1) (newtonPass e n res) ⟨u, e.F u, false⟩ = .inl r := by
        intro m
        unfold forRet
        induction m with
        | zero =>
          rw [upLoop_succ (by omega), upLoop_nil (by omega)]
          exact h
        | succ m ih => rw [upLoop_succ (by omega), ih]
      rw [hx]
    obtain ⟨r, hr⟩ := h1 e halt
    rw [h2 e r hr]
    refine h2 { e with lin := lin } r ?_
    rw [← hr]
    unfold newtonPass
    dsimp only
    rw [hlin]
    rfl
  unfold newton
  have hit : newtonIter { e with lin := lin } itmax tol = newtonIter e itmax tol := by
    funext j u
    unfold newtonIter
    dsimp only
    rw [hb, hsolve]
  rw [hit]

end report

/-! ### Counterexamples -/

/-- One unknown; the residual has its absolute value as norm. -/
def newton1 (F : ℚ → ℚ) (lin : Nat → Nat → ℚ → ℚ → ℚ → Int × ℚ) : NewtonEnv Unit ℚ where
  F u _ := F (u ())
  norm f := |f ()|
  backtrack := true
  optimal := false
  escape := false
  quit := false
  alt := true
  nalt := 1
  minstep := 1 / 20
  tolFac := 1 / 10
  linTol := 0
  search := searchMin 10 (fun _ => 0)
  lin n k u f t := ((lin n k (u ()) (f ()) t).1, fun _ => (lin n k (u ()) (f ()) t).2)
  random _ _ u := u
  before _ u := u
  after _ u := u

/-- What is left of a run: the return value, `u` and `*normres`. -/
def newtonShow (r : Res (Nat × (Unit → ℚ) × ℚ)) : Option (Nat × ℚ × ℚ) :=
  match r with
  | .ok r => some (r.1, r.2.1 (), r.2.2)
  | _ => none

/-- **C91 fails** (the right hand side): after backtracking `vlFu` belongs to the last number tried by the
minimisation, and another linear solver is called with it. Here `F(u) = u^2+1`, except for a root at 7. The
minimisation ends at `u = 0`, its last trial is at `lambda = -1.0001000001`. Two linear solvers that do the
same whenever they are given `F(u)` lead to different results. -/
theorem C91_rhs_counterexample :
    ∃ (F : ℚ → ℚ) (lin lin' : Nat → Nat → ℚ → ℚ → ℚ → Int × ℚ),
      (∀ n k u t, lin n k u (F u) t = lin' n k u (F u) t) ∧
      newtonShow (newton { newton1 F lin with
        search := searchMin 10 (fun _ => -(10001000001 / 10000000000)) } (fun _ => 0) 1 (1 / 100)) =
          some (1, 7, 0) ∧
      newtonShow (newton { newton1 F lin' with
        search := searchMin 10 (fun _ => -(10001000001 / 10000000000)) } (fun _ => 0) 1 (1 / 100)) =
          some (1, 0, 1) := by
  refine ⟨fun u => if u = 7 then 0 else u ^ 2 + 1,
    fun _ k u f _ => (0, if k = 0 then 1 else if f = (if u = 7 then 0 else u ^ 2 + 1) then 0 else -7),
    fun _ k _ _ _ => (0, if k = 0 then 1 else 0), ?_, ?_, ?_⟩
  · intro n k u t
    simp
  · decide +kernel
  · decide +kernel

/-- **C91 fails** (backtracking): the residual can be larger after a step with backtracking than before. The
residual is 1/2 at the starting point and 1 everywhere else; the minimisation never looks at the starting
point. -/
theorem C91_backtrack_counterexample :
    ∃ (F : ℚ → ℚ) (e : NewtonEnv Unit ℚ), e = newton1 F (fun _ _ _ _ _ => (0, 1)) ∧
      e.norm (e.F (fun _ => 0)) = 1 / 2 ∧
      (newtonShow (newton e (fun _ => 0) 1 (1 / 100))).map (fun r => r.2.2) = some 1 := by
  refine ⟨fun u => if u = 0 then 1 / 2 else 1, _, rfl, ?_, ?_⟩
  · decide +kernel
  · decide +kernel

/-! ### Single steps -/

/-- **C91** (steps without backtracking): the whole step is taken. -/
theorem C91_full_step {ι K : Type} [Field K] [LinearOrder K] (e : NewtonEnv ι K) (h : e.backtrack = false)
    (oldres : K) (u f du : ι → K) :
    newtonStep e oldres u f du = .ok ⟨0, fun i => u i - du i, f⟩ := by
  unfold newtonStep partialStep
  rw [h]
  simp

/-- **C91** (steps with backtracking): the step taken is a multiple `1+lambda` of `du`. Unless the whole step
makes the residual smaller, the residual after the step is not larger than after half of the step and not
larger than after -0.1 times the step. -/
theorem C91_backtrack {ι : Type} (e : NewtonEnv ι ℝ) (h : e.backtrack = true) (limit : Nat)
    (last : (ℝ → ℝ) → ℝ) (hs : e.search = searchMin limit last) (oldres : ℝ) (u f du : ι → ℝ) :
    newtonStep e oldres u f du = .abort ∨
    ∃ t, newtonStep e oldres u f du = .ok t ∧ (t.u = fun i => u i - (1 + t.lambda) * du i) ∧
      (t.lambda = 0 ∧ e.norm (e.F t.u) < oldres ∧ t.f = e.F t.u ∨
        e.norm (e.F t.u) ≤ e.norm (e.F (fun i => u i - 1 / 2 * du i)) ∧
        e.norm (e.F t.u) ≤ e.norm (e.F (fun i => u i + 1 / 10 * du i))) := by
  have hcomp : ∀ l, partialStep (partialStep u 1 du) l du = fun i => u i - (1 + l) * du i := by
    intro l
    funext i
    unfold partialStep
    ring
  unfold newtonStep
  rw [if_pos h]
  dsimp only
  split
  · rw [hs]
    unfold searchMin
    dsimp only
    set g : ℝ → ℝ := fun l => e.norm (e.F (partialStep (partialStep u 1 du) l du)) with hg
    obtain ⟨j, s, h1, _, _, _, hfb, _, _, ha, hb, hbet, _⟩ := C87_min_brak g (-(11 / 10)) (-(1 / 2))
      (by norm_num) limit
    rw [h1]
    have hmem : s.b ∈ uIcc s.a s.c := by
      rw [mem_uIcc]
      rcases hbet with ⟨h2, h3⟩ | ⟨h2, h3⟩
      · exact Or.inl ⟨h2.le, h3.le⟩
      · exact Or.inr ⟨h2.le, h3.le⟩
    rcases C86_brent g s.a s.b s.c (1 / 10000) (by norm_num) hmem with h2 | ⟨k, x, h2, _, _, _, h3, _⟩
    · rw [h2]
      exact Or.inl rfl
    · rw [h2]
      refine Or.inr ⟨_, rfl, hcomp x, Or.inr ?_⟩
      rw [hfb] at ha hb
      have e1 : g (-(1 / 2)) = e.norm (e.F (fun i => u i - 1 / 2 * du i)) := by
        rw [hg]
        dsimp only
        rw [hcomp]
        norm_num
      have e2 : g (-(11 / 10)) = e.norm (e.F (fun i => u i + 1 / 10 * du i)) := by
        rw [hg]
        dsimp only
        rw [hcomp]
        norm_num
      rw [← e1, ← e2]
      exact ⟨h3.trans hb, h3.trans ha⟩
  · rename_i hn
    rw [not_or, not_le] at hn
    refine Or.inr ⟨_, rfl, ?_, Or.inl ⟨rfl, hn.1, rfl⟩⟩
    funext i
    unfold partialStep
    ring

/-! ### Convergence -/

section convergence

variable {ι : Type}

/-- The residual after one Newton step with an approximate solution of the linear equations. -/
theorem newton_residual {norm : (ι → ℝ) → ℝ} (hnorm : ∀ v w, norm (v + w) ≤ norm v + norm w)
    (hn0 : ∀ v, 0 ≤ norm v) {F : (ι → ℝ) → ι → ℝ} {u : ι → ℝ} {Jdu du : ι → ℝ} {L beta eta : ℝ}
    (hL : 0 ≤ L) (hb : 0 ≤ beta)
    (hF : norm (F (u - du) - (F u - Jdu)) ≤ L * norm du ^ 2) (hJ : norm du ≤ beta * norm Jdu)
    (hneg : ∀ v, norm (-v) = norm v) (hlin : norm (F u - Jdu) ≤ eta * norm (F u)) :
    norm (F (u - du)) ≤ eta * norm (F u) + L * (beta * (1 + eta) * norm (F u)) ^ 2 := by
  have h1 : norm (F (u - du)) ≤ norm (F (u - du) - (F u - Jdu)) + norm (F u - Jdu) := by
    have := hnorm (F (u - du) - (F u - Jdu)) (F u - Jdu)
    rwa [sub_add_cancel] at this
  have h2 : norm Jdu ≤ (1 + eta) * norm (F u) := by
    have := hnorm (F u) (-(F u - Jdu))
    rw [hneg] at this
    have e : F u + -(F u - Jdu) = Jdu := by abel
    rw [e] at this
    linarith
  have h3 : norm du ≤ beta * (1 + eta) * norm (F u) := by
    refine hJ.trans ?_
    rw [mul_assoc]
    exact mul_le_mul_of_nonneg_left h2 hb
  have h4 : norm du ^ 2 ≤ (beta * (1 + eta) * norm (F u)) ^ 2 := pow_le_pow_left₀ (hn0 _) h3 2
  have h5 := mul_le_mul_of_nonneg_left h4 hL
  linarith

/-- **C91** (convergence). `R` is the norm of the residual at the start. Suppose that for all `u` with a
residual not larger than `R` the derivative `J(u)` is bounded from below by `1/beta` and approximates `F` with
an error of at most `L` times the square of the step, and that the linear solver keeps the tolerance it is
given. If `q = eta + L beta^2 (1+eta)^2 R` is less than one, the residual shrinks by `q` in each step, and for
any `N` with `q^N R ≤ tol` and `N < itmax` `Newton` returns after at most `N` steps with a residual of at most
`tol`. -/
theorem C91_convergence (e : NewtonEnv ι ℝ) (hnorm : ∀ v w, e.norm (v + w) ≤ e.norm v + e.norm w)
    (hn0 : ∀ v, 0 ≤ e.norm v) (hneg : ∀ v, e.norm (-v) = e.norm v)
    (hback : e.backtrack = false) (hms : e.minstep ≤ 1) (hbefore : ∀ n u, e.before n u = u)
    (hafter : ∀ n u, e.after n u = u) (J : (ι → ℝ) → (ι → ℝ) → ι → ℝ) (u0 : ι → ℝ)
    (L beta tol q : ℝ) (hL : 0 ≤ L) (hb : 0 ≤ beta) (heta : 0 ≤ e.tolFac)
    (htol : e.linTol ≤ e.tolFac * tol)
    (hF : ∀ u du, e.norm (e.F u) ≤ e.norm (e.F u0) →
      e.norm (e.F (u - du) - (e.F u - J u du)) ≤ L * e.norm du ^ 2)
    (hJ : ∀ u du, e.norm (e.F u) ≤ e.norm (e.F u0) → e.norm du ≤ beta * e.norm (J u du))
    (hlin : ∀ n u t, 0 ≤ (e.lin n 0 u (e.F u) t).1 ∧ e.norm (e.F u - J u (e.lin n 0 u (e.F u) t).2) ≤ t)
    (hq : q = e.tolFac + L * (beta * (1 + e.tolFac)) ^ 2 * e.norm (e.F u0)) (hq1 : q ≤ 1)
    (N itmax : Nat) (hN : q ^ N * e.norm (e.F u0) ≤ tol) (hit : N < itmax) :
    ∃ n u r, newton e u0 itmax tol = .ok (n, u, r) ∧ n ≤ N ∧ r ≤ tol ∧ r = e.norm (e.F u) := by
  have hq0 : 0 ≤ q := by
    rw [hq]
    have := hn0 (e.F u0)
    positivity
  -- one iteration
  have hiter : ∀ (j : Nat) (u : ι → ℝ), ¬ e.norm (e.F u) ≤ tol → e.norm (e.F u) ≤ e.norm (e.F u0) →
      ∃ u', newtonIter e itmax tol j u = .inr u' ∧ e.norm (e.F u') ≤ q * e.norm (e.F u) := by
    intro j u hgt hle
    set du := (e.lin (j - 1) 0 u (e.F u) (max (e.norm (e.F u) * e.tolFac) e.linTol)).2 with hdu
    refine ⟨u - du, ?_, ?_⟩
    · have hpass : newtonPass e (j - 1) (e.norm (e.F u)) 1 ⟨u, e.F u, false⟩ =
          .inl (.ok ⟨u - du, e.F u, false⟩) := by
        unfold newtonPass
        dsimp only
        rw [if_pos (hlin _ _ _).1, C91_full_step e hback]
        dsimp only
        rw [if_neg]
        · rfl
        · rw [zero_add, abs_one, not_lt]
          exact hms
      have hsolve : newtonSolve e (j - 1) (e.norm (e.F u)) u (e.F u) = .ok ⟨u - du, e.F u, false⟩ := by
        unfold newtonSolve
        have hx : ∀ m, forRet (m + 1) (newtonPass e (j - 1) (e.norm (e.F u))) ⟨u, e.F u, false⟩ =
            .inl (.ok ⟨u - du, e.F u, false⟩) := by
          intro m
          unfold forRet
          induction m with
          | zero =>
            rw [upLoop_succ (by omega), upLoop_nil (by omega)]
            exact hpass
          | succ m ih => rw [upLoop_succ (by omega), ih]
        rw [hx]
      unfold newtonIter
      dsimp only
      rw [if_neg hgt, hbefore, hsolve]
      dsimp only
      rw [hafter]
      rfl
    · have hl : e.norm (e.F u - J u du) ≤ e.tolFac * e.norm (e.F u) := by
        refine (hlin (j - 1) u _).2.trans (max_le (le_of_eq (mul_comm _ _)) ?_)
        exact htol.trans (mul_le_mul_of_nonneg_left (not_le.mp hgt).le heta)
      refine (newton_residual hnorm hn0 hL hb (hF u du hle) (hJ u du hle) hneg hl).trans ?_
      have h1 : L * (beta * (1 + e.tolFac) * e.norm (e.F u)) ^ 2 ≤
          L * (beta * (1 + e.tolFac)) ^ 2 * e.norm (e.F u0) * e.norm (e.F u) := by
        have h2 : e.norm (e.F u) * e.norm (e.F u) ≤ e.norm (e.F u0) * e.norm (e.F u) :=
          mul_le_mul_of_nonneg_right hle (hn0 _)
        have h3 : 0 ≤ L * (beta * (1 + e.tolFac)) ^ 2 := by positivity
        have h4 := mul_le_mul_of_nonneg_left h2 h3
        linarith
      rw [hq, add_mul]
      linarith
  unfold newton
  refine (forRet_inv (n := itmax) (body := newtonIter e itmax tol) (s := u0)
    (fun j u => e.norm (e.F u) ≤ q ^ (j - 1) * e.norm (e.F u0) ∧ j ≤ N + 1)
    (fun j x => ∃ n u r, x = .ok (n, u, r) ∧ n ≤ N ∧ r ≤ tol ∧ r = e.norm (e.F u))
    ⟨by simp, by omega⟩ ?_ ?_).elim ?_ ?_
  · rintro j u x h1 h2 ⟨hu, hj⟩ hx
    by_cases hle : e.norm (e.F u) ≤ tol
    · unfold newtonIter at hx
      dsimp only at hx
      rw [if_pos hle] at hx
      cases hx
      exact ⟨_, _, _, rfl, by omega, hle, rfl⟩
    · obtain ⟨u', h3, _⟩ := hiter j u hle (hu.trans (mul_le_of_le_one_left (hn0 _) (pow_le_one₀ hq0 hq1)))
      rw [h3] at hx
      cases hx
  · rintro j u x h1 h2 ⟨hu, hj⟩ hx
    by_cases hle : e.norm (e.F u) ≤ tol
    · unfold newtonIter at hx
      dsimp only at hx
      rw [if_pos hle] at hx
      cases hx
    · obtain ⟨u', h3, h4⟩ := hiter j u hle (hu.trans (mul_le_of_le_one_left (hn0 _) (pow_le_one₀ hq0 hq1)))
      rw [h3] at hx
      cases hx
      have hjN : j ≠ N + 1 := by
        rintro rfl
        exact hle (hu.trans (by simpa using hN))
      refine ⟨?_, by omega⟩
      refine h4.trans ?_
      have := mul_le_mul_of_nonneg_left hu hq0
      rwa [← mul_assoc, ← pow_succ', show j - 1 + 1 = j + 1 - 1 by omega] at this
  · rintro ⟨x, j, _, _, hx, hQ⟩
    rw [hx]
    exact hQ
  · rintro ⟨u, _, _, h⟩
    omega

end convergence

/-- `u^2 = 2` from 3/2 with an exact linear solver: two steps. -/
example : newtonShow (newton { newton1 (fun u => u ^ 2 - 2) (fun _ _ u f _ => (1, f / (2 * u))) with
    backtrack := false } (fun _ => 3 / 2) 10 (1 / 1000)) = some (2, 577 / 408, 1 / 166464) := by
  decide +kernel

/-- The same with a linear solver that always fails, and the parameter that says to quit. -/
example : newtonShow (newton { newton1 (fun u => u ^ 2 - 2) (fun _ _ u f _ => (-1, f / (2 * u))) with
    quit := true } (fun _ => 3 / 2) 10 (1 / 1000)) = some (11, 3 / 2, 1 / 4) := by
  decide +kernel

/-- A hook after the first step that moves the variable. -/
example : newtonShow (newton { newton1 (fun u => u ^ 2 - 2) (fun _ _ u f _ => (1, f / (2 * u))) with
    backtrack := false, after := fun j u i => if j = 0 then u i + 1 else u i } (fun _ => 3 / 2) 10 (1 / 1000)) =
    some (4, 9972823058977 / 7051540751328, 8745830384458152759361 / 49724226967639454733763584) := by
  decide +kernel

/-- `minbrent_brak` reads a variable that is not set; if it finds zero there it gives the minimum. -/
example : searchMinShim (fun _ => none) 50 (fun f => f (-1)) (fun x : ℚ => |x|) = .ub ∧
    searchMinShim (fun _ => some 0) 50 (fun f => f (-1)) (fun x : ℚ => x ^ 2 + x) = .ok (-1 / 2, 0) := by
  decide +kernel

/-- The two starting points -1.1 and -0.5. -/
example : searchMinShim (fun _ => some 0) 50 (fun f => f (-1)) (fun x : ℚ => |x + 4 / 5|) =
    .ok (-118033976645638249154563 / 147542468555000000000000, 1 / 5) := by
  decide +kernel

end Sgrid

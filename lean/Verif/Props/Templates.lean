import Verif.Model.Templates
import Mathlib.Tactic.Ring
import Mathlib.Tactic.Linarith
import Mathlib.Tactic.NormNum
import Mathlib.Data.Fin.VecNotation

/-!
C169: the solvers of the Templates library get the right matrix, also if they call each other.
-/

namespace Sgrid

variable {N : Nat}

namespace Spec

/-- What a solver computes for the matrix A and the preconditioner M. -/
noncomputable def solve (A M : (Fin N → ℝ) → Fin N → ℝ) : TSolver N → TOut N
  | .done o => o
  | .matvec alpha x beta y next => solve A M (next fun i => alpha * A x i + beta * y i)
  | .psolve _ b next => solve A M (next (M b))

/-- The function f computes A: it sets dst to A applied to src, as long as the variable lists of P have the contents g0 and
DiagMinv_JacobiPrecon the contents diag, which it leaves, and as long as there is room for d more calls of solvers.  All other lists may change. -/
def Implements (env : TEnv N) (P : Nat → Prop) (g0 : Nat → TVec N) (diag : Fin N → ℝ) (d : Int) (f dst src c1 c2 : Nat)
    (A : (Fin N → ℝ) → Fin N → ℝ) : Prop :=
  ∀ w : TWorld N, (∀ n, P n → w.grid n = g0 n) → w.diag = diag → w.ig + d < 1024 →
    ∃ w', env f dst src c1 c2 w = .ok w' ∧ w'.grid dst = A (w.grid src) ∧ (∀ n, P n → w'.grid n = g0 n) ∧
      w'.ig = w.ig ∧ (∀ k, k ≤ w.ig → w'.glob k = w.glob k) ∧ w'.diag = w.diag

/-- The preconditioner computes M. -/
def Precon (env : TEnv N) (P : Nat → Prop) (g0 : Nat → TVec N) (diag : Fin N → ℝ) (d : Int) (f dst src c1 c2 : Nat)
    (M : (Fin N → ℝ) → Fin N → ℝ) : Prop :=
  if f = tJacobi then ∀ b i, M b i = b i * diag i
  else if f = tIdent then ∀ b, M b = b
  else Implements env P g0 diag d f dst src c1 c2 M

end Spec

/-- What stays the same while a solver runs. -/
structure TInv (P : Nat → Prop) (g0 : Nat → TVec N) (w0 w : TWorld N) : Prop where
  keep : ∀ n, P n → w.grid n = g0 n
  ig : w.ig = w0.ig
  glob : ∀ k, k ≤ w0.ig → w.glob k = w0.glob k
  diag : w.diag = w0.diag

theorem TInv.cur {P : Nat → Prop} {g0 : Nat → TVec N} {w0 w : TWorld N} (h : TInv P g0 w0 w) : w.cur = w0.cur := by
  unfold TWorld.cur
  rw [h.ig, h.glob _ le_rfl]

theorem TInv.put {P : Nat → Prop} {g0 : Nat → TVec N} {w0 w : TWorld N} (h : TInv P g0 w0 w) {n : Nat} (hn : ¬ P n)
    (v : TVec N) : TInv P g0 w0 (w.put n v) := by
  refine ⟨fun k hk => ?_, h.ig, h.glob, h.diag⟩
  unfold TWorld.put
  dsimp only
  rw [if_neg (by rintro rfl; exact hn hk), h.keep k hk]

theorem TInv.call {P : Nat → Prop} {g0 : Nat → TVec N} {w0 w : TWorld N} (h : TInv P g0 w0 w) {env : TEnv N} {d : Int}
    {f dst src c1 c2 : Nat} {A : TVec N → TVec N} (hA : Spec.Implements env P g0 w0.diag d f dst src c1 c2 A)
    (hd : w0.ig + d < 1024) :
    ∃ w', env f dst src c1 c2 w = .ok w' ∧ w'.grid dst = A (w.grid src) ∧ TInv P g0 w0 w' := by
  obtain ⟨w', e, h1, h2, h3, h4, h5⟩ := hA w h.keep h.diag (by rw [h.ig]; exact hd)
  refine ⟨w', e, h1, h2, by rw [h3, h.ig], fun k hk => ?_, by rw [h5, h.diag]⟩
  rw [h4 k (by rw [h.ig]; exact hk), h.glob k hk]

theorem put_self (w : TWorld N) (n : Nat) (v : TVec N) : (w.put n v).grid n = v := by simp [TWorld.put]

theorem put_ne (w : TWorld N) {n k : Nat} (v : TVec N) (h : k ≠ n) : (w.put n v).grid k = w.grid k := by
  simp [TWorld.put, h]

/-- matvec computes alpha A x + beta y. -/
theorem tMatvec_eq {env : TEnv N} {P : Nat → Prop} {g0 : Nat → TVec N} {d : Int} {w0 w : TWorld N} {A : TVec N → TVec N}
    (h : TInv P g0 w0 w) (hx : ¬ P w0.cur.x) (hr : ¬ P w0.cur.r) (hxr : w0.cur.r ≠ w0.cur.x)
    (hA : Spec.Implements env P g0 w0.diag d w0.cur.lop w0.cur.r w0.cur.x w0.cur.c1 w0.cur.c2 A) (hd : w0.ig + d < 1024)
    (alpha : ℝ) (x : TVec N) (beta : ℝ) (y : TVec N) :
    ∃ w', tMatvec env alpha x beta y w = .ok (fun i => alpha * A x i + beta * y i, w') ∧ TInv P g0 w0 w' := by
  have h1 : TInv P g0 w0 (w.put w0.cur.x x) := h.put hx x
  obtain ⟨w2, e2, hv2, h2⟩ := h1.call hA hd
  have h3 : TInv P g0 w0 (w2.put w0.cur.x y) := h2.put hx y
  have h4 := h3.put hr (fun i => alpha * (w2.put w0.cur.x y).grid w0.cur.r i + beta * (w2.put w0.cur.x y).grid w0.cur.x i)
  refine ⟨_, ?_, h4⟩
  unfold tMatvec
  dsimp only
  rw [h.cur, h1.cur, e2, Res.bind_ok, h2.cur, h3.cur, h4.cur, put_self, put_ne _ _ hxr, put_self, hv2, put_self]

/-- psolveLEFT computes M b. -/
theorem tPsolve_eq {env : TEnv N} {P : Nat → Prop} {g0 : Nat → TVec N} {d : Int} {w0 w : TWorld N} {M : TVec N → TVec N}
    (h : TInv P g0 w0 w) (hr : ¬ P w0.cur.r) (hdim : w0.cur.dim = N)
    (hM : Spec.Precon env P g0 w0.diag d w0.cur.precon w0.cur.x w0.cur.r w0.cur.c1 w0.cur.c2 M) (hd : w0.ig + d < 1024)
    (x b : TVec N) : ∃ w', tPsolve env x b w = .ok (M b, w') ∧ TInv P g0 w0 w' := by
  unfold Spec.Precon at hM
  unfold tPsolve
  rw [h.cur, h.diag, hdim]
  by_cases hJ : w0.cur.precon = tJacobi
  · rw [if_pos hJ] at hM ⊢
    refine ⟨w, ?_, h⟩
    congr 2
    funext i
    rw [if_pos i.isLt, hM]
  · rw [if_neg hJ] at hM ⊢
    by_cases hI : w0.cur.precon = tIdent
    · rw [if_pos hI] at hM ⊢
      refine ⟨w, ?_, h⟩
      congr 2
      funext i
      rw [if_pos i.isLt, hM]
    · rw [if_neg hI] at hM ⊢
      have h1 : TInv P g0 w0 (w.put w0.cur.r b) := h.put hr b
      obtain ⟨w2, e2, hv2, h2⟩ := h1.call hM hd
      refine ⟨w2, ?_, h2⟩
      dsimp only
      rw [h1.cur, e2, Res.bind_ok, h2.cur, hv2, put_self]

theorem tRun_eq {env : TEnv N} {P : Nat → Prop} {g0 : Nat → TVec N} {d : Int} {w0 : TWorld N} {A M : TVec N → TVec N}
    (hx : ¬ P w0.cur.x) (hr : ¬ P w0.cur.r) (hxr : w0.cur.r ≠ w0.cur.x) (hdim : w0.cur.dim = N)
    (hA : Spec.Implements env P g0 w0.diag d w0.cur.lop w0.cur.r w0.cur.x w0.cur.c1 w0.cur.c2 A)
    (hM : Spec.Precon env P g0 w0.diag d w0.cur.precon w0.cur.x w0.cur.r w0.cur.c1 w0.cur.c2 M) (hd : w0.ig + d < 1024)
    (s : TSolver N) : ∀ w, TInv P g0 w0 w → ∃ w', s.run env w = .ok (Spec.solve A M s, w') ∧ TInv P g0 w0 w' := by
  induction s with
  | done o => exact fun w h => ⟨w, rfl, h⟩
  | matvec alpha x beta y next ih =>
    intro w h
    obtain ⟨w1, e1, h1⟩ := tMatvec_eq h hx hr hxr hA hd alpha x beta y
    obtain ⟨w2, e2, h2⟩ := ih (fun i => alpha * A x i + beta * y i) w1 h1
    exact ⟨w2, by rw [TSolver.run, e1, Res.bind_ok, e2]; rfl, h2⟩
  | psolve x b next ih =>
    intro w h
    obtain ⟨w1, e1, h1⟩ := tPsolve_eq h hr hdim hM hd x b
    obtain ⟨w2, e2, h2⟩ := ih (M b) w1 h1
    exact ⟨w2, by rw [TSolver.run, e1, Res.bind_ok, e2]; rfl, h2⟩

/-- C169: for every solver of the library, every matrix and every preconditioner.  If lop sets r to A x, and the
preconditioner sets x to M r, the list x gets what the solver computes for A and M from the contents of b and x, and
normres and the value that is returned are its own.  The lists that lop and the preconditioner leave as they are, other than
x and r, stay as they are, and so do the global variables of the calls in which this call is nested. -/
theorem C169_wrapper {env : TEnv N} {P : Nat → Prop} {d : Int} {w : TWorld N} {A M : TVec N → TVec N}
    {x b r c1 c2 lop precon : Nat} (hx : ¬ P x) (hr : ¬ P r) (hxr : r ≠ x)
    (hA : Spec.Implements env P w.grid w.diag d lop r x c1 c2 A)
    (hM : Spec.Precon env P w.grid w.diag d precon x r c1 c2 M) (hd0 : 0 ≤ d) (hd : w.ig + 1 + d < 1024)
    (solver : TVec N → TVec N → Int → ℝ → TSolver N) (itmax : Int) (tol : ℝ) :
    let o := Spec.solve A M (solver (w.grid b) (w.grid x) itmax tol)
    ∃ w', tWrapper env solver x b r c1 c2 itmax tol lop precon w =
        .ok (if o.info < 0 then o.info else if o.info > 0 then -o.iter else o.iter, o.resid, w') ∧
      w'.grid x = o.X ∧ (∀ n, P n → w'.grid n = w.grid n) ∧ w'.ig = w.ig ∧
      (∀ k, k ≤ w.ig → w'.glob k = w.glob k) ∧ w'.diag = w.diag := by
  intro o
  let w0 : TWorld N := { w with
    ig := w.ig + 1, glob := fun k => if k = w.ig + 1 then ⟨lop, precon, r, x, c1, c2, N⟩ else w.glob k }
  have hcur : w0.cur = ⟨lop, precon, r, x, c1, c2, N⟩ := by simp [TWorld.cur, w0]
  obtain ⟨w1, e1, h1⟩ := tRun_eq (env := env) (P := P) (g0 := w.grid) (d := d) (w0 := w0) (A := A) (M := M)
    (by rw [hcur]; exact hx) (by rw [hcur]; exact hr) (by rw [hcur]; exact hxr) (by rw [hcur])
    (by rw [hcur]; exact hA) (by rw [hcur]; exact hM) hd
    (solver (w.grid b) (w.grid x) itmax tol) w0 ⟨fun _ _ => rfl, rfl, fun _ _ => rfl, rfl⟩
  refine ⟨TWorld.put { w1 with ig := w1.ig - 1 } x o.X, ?_, put_self _ _ _, ?_, ?_, ?_, h1.diag⟩
  · unfold tWrapper
    dsimp only
    rw [if_neg (by unfold tMax; omega)]
    change ((solver (w.grid b) (w.grid x) itmax tol).run env w0).bind _ = _
    rw [e1, Res.bind_ok]
  · intro n hn
    rw [put_ne _ _ (by rintro rfl; exact hx hn)]
    exact h1.keep n hn
  · change w1.ig - 1 = w.ig
    rw [h1.ig]
    change w.ig + 1 - 1 = w.ig
    omega
  · intro k hk
    change w1.glob k = w.glob k
    rw [h1.glob k (by change k ≤ w.ig + 1; omega)]
    simp only [w0]
    rw [if_neg (by omega)]

/-- C169: calls inside each other.  A function that sets dst to zero and calls a solver for the matrix A with the right hand side
src computes the map of src to the result of the solver, and may itself be the matrix or the preconditioner of
another solver. -/
theorem C169_nested {env : TEnv N} {P : Nat → Prop} {g0 : Nat → TVec N} {d : Int} {A M : TVec N → TVec N} {diag : TVec N}
    {dst src tmp c1 c2 f lop precon : Nat} (hx : ¬ P dst) (hr : ¬ P tmp) (hxr : tmp ≠ dst) (hs : src ≠ dst)
    (hA : ∀ g, (∀ n, P n → g n = g0 n) → Spec.Implements env P g diag d lop tmp dst c1 c2 A)
    (hM : ∀ g, (∀ n, P n → g n = g0 n) → Spec.Precon env P g diag d precon dst tmp c1 c2 M) (hd0 : 0 ≤ d)
    (solver : TVec N → TVec N → Int → ℝ → TSolver N) (itmax : Int) (tol : ℝ)
    (hf : ∀ w, env f dst src c1 c2 w =
      (tWrapper env solver dst src tmp c1 c2 itmax tol lop precon (w.put dst 0)).bind fun p => .ok p.2.2) :
    Spec.Implements env P g0 diag (d + 1) f dst src c1 c2 fun v => (Spec.solve A M (solver v 0 itmax tol)).X := by
  intro w hw hdg hig
  have hk : ∀ n, P n → (w.put dst 0).grid n = g0 n := fun n hn => by
    rw [put_ne _ _ (by rintro rfl; exact hx hn), hw n hn]
  obtain ⟨w', e, h1, h2, h3, h4, h5⟩ := C169_wrapper (w := w.put dst 0) (b := src) hx hr hxr
    (by change Spec.Implements _ _ _ w.diag _ _ _ _ _ _ _; rw [hdg]; exact hA _ hk)
    (by change Spec.Precon _ _ _ w.diag _ _ _ _ _ _ _; rw [hdg]; exact hM _ hk) hd0
    (by change w.ig + 1 + d < 1024; omega) solver itmax tol
  refine ⟨w', ?_, ?_, ?_, h3, h4, h5⟩
  · rw [hf, e, Res.bind_ok]
  · rw [h1, put_self, put_ne _ _ hs]
  · intro n hn
    rw [h2 n hn, hk n hn]

/-- C169: a solver as preconditioner of another solver.  It computes what the inner solver makes of the right hand side and of
the old contents of vlx. -/
theorem C169_inner {env : TEnv N} {P : Nat → Prop} {d : Int} {w : TWorld N} {A : TVec N → TVec N} {vlx vlr c1 c2 : Nat}
    (hx : ¬ P vlx) (hr : ¬ P vlr) (hxr : vlr ≠ vlx) (h0 : 0 ≤ w.ig)
    (hA : Spec.Implements env P w.grid w.diag d w.cur.lop vlr vlx c1 c2 A) (hd0 : 0 ≤ d) (hd : w.ig + 1 + d < 1024)
    (solver : TVec N → TVec N → Int → ℝ → TSolver N) (itmax : Int) (tolOf : TVec N → ℝ) :
    ∃ w', tPreconditioner env solver itmax tolOf vlx vlr c1 c2 w = .ok w' ∧
      w'.grid vlx = (Spec.solve A (fun b => b) (solver (w.grid vlr) (w.grid vlx) itmax (tolOf (w.grid vlr)))).X ∧
      (∀ n, P n → w'.grid n = w.grid n) ∧ w'.ig = w.ig ∧ (∀ k, k ≤ w.ig → w'.glob k = w.glob k) ∧ w'.diag = w.diag := by
  obtain ⟨w', e, h⟩ := C169_wrapper (b := vlr) (M := fun b => b) (precon := tIdent) hx hr hxr hA
    (by unfold Spec.Precon; rw [if_neg (by decide), if_pos rfl]; exact fun _ => rfl) hd0 hd solver itmax (tolOf (w.grid vlr))
  refine ⟨w', ?_, h⟩
  unfold tPreconditioner
  rw [if_neg (by omega), e, Res.bind_ok]

/-- C169: the value that is returned tells whether the solver succeeded, if it says INFO = 0 exactly for success and
made at least one step before it failed. -/
theorem C169_value {o : TOut N} (hi : 0 < o.info → 0 < o.iter) (h0 : 0 ≤ o.iter) :
    (if o.info < 0 then o.info else if o.info > 0 then -o.iter else o.iter) < 0 ↔ o.info ≠ 0 := by
  split_ifs with h1 h2
  · constructor <;> intro <;> omega
  · have := hi h2
    constructor <;> intro <;> omega
  · constructor <;> intro <;> omega

/-- C169: too many calls inside each other stop the program. -/
theorem C169_depth (env : TEnv N) (solver : TVec N → TVec N → Int → ℝ → TSolver N) (x b r c1 c2 : Nat) (itmax : Int) (tol : ℝ)
    (lop precon : Nat) {w : TWorld N} (h : 1023 ≤ w.ig) :
    tWrapper env solver x b r c1 c2 itmax tol lop precon w = .abort := by
  unfold tWrapper
  dsimp only
  rw [if_pos (by unfold tMax; omega)]

/-- The function 2 of the example doubles a list. -/
def tExampleEnv : TEnv 1 := fun f dst src _ _ w =>
  if f = 2 then .ok (w.put dst fun i => 2 * w.grid src i) else .ub

/-- A solver that makes one step of Jacobi's method: x + M (b - A x). -/
noncomputable def tExampleSolver : TVec 1 → TVec 1 → Int → ℝ → TSolver 1 := fun B X _ _ =>
  .matvec (-1) X 1 B fun res => .psolve (fun _ => 0) res fun z => .done ⟨fun i => X i + z i, 1, 0, 0⟩

/-- It solves 2 x = 6 with DiagMinv = 1/2. -/
example : ∃ w', tWrapper tExampleEnv tExampleSolver 0 1 2 3 4 10 0 2 tJacobi
      ⟨-1, fun _ => ⟨0, 0, 0, 0, 0, 0, 0⟩, fun _ => 1 / 2, fun n _ => if n = 1 then 6 else 5⟩ = .ok (1, 0, w') ∧
    w'.grid 0 0 = 3 ∧ w'.ig = -1 := by
  obtain ⟨w', e, h1, -, h3, -⟩ := C169_wrapper (env := tExampleEnv) (P := fun n => n = 1) (d := 0)
    (w := ⟨-1, fun _ => ⟨0, 0, 0, 0, 0, 0, 0⟩, fun _ => 1 / 2, fun n _ => if n = 1 then 6 else 5⟩)
    (A := fun v i => 2 * v i) (M := fun v i => v i * (1 / 2)) (x := 0) (b := 1) (r := 2) (c1 := 3) (c2 := 4) (lop := 2)
    (precon := tJacobi) (by decide) (by decide) (by decide)
    (fun w hw _ _ => ⟨w.put 2 fun i => 2 * w.grid 0 i, rfl, put_self _ _ _,
      fun n hn => by rw [put_ne _ _ (by omega), hw n hn], rfl, fun _ _ => rfl, rfl⟩)
    (by intro b i; rfl) le_rfl (by norm_num) tExampleSolver 10 0
  refine ⟨w', ?_, ?_, h3⟩
  · rw [e]; simp [Spec.solve, tExampleSolver]
  · rw [h1]; simp [Spec.solve, tExampleSolver]; norm_num

/-- A solver that makes one step of Richardson's method: x + (b - A x). -/
noncomputable def tRichardson : TVec 1 → TVec 1 → Int → ℝ → TSolver 1 := fun B X _ _ =>
  .matvec (-1) X 1 B fun res => .done ⟨fun i => X i + res i, 1, 0, 0⟩

/-- C169, where the code is not as it should be: templates_Preconditioner_for_templates_solver does not set vlx before it starts
the inner solver, and vlx still has what matvec or the last call left there.  So the same vector may be
preconditioned to different results, and the preconditioner is no matrix. -/
theorem C169_history (u : ℝ) :
    ∃ w', tPreconditioner tExampleEnv tRichardson 10 (fun _ => 0) 0 1 3 4
        ⟨0, fun _ => ⟨2, 5, 1, 0, 3, 4, 1⟩, fun _ => 0, fun n _ => if n = 1 then 6 else u⟩ = .ok w' ∧
      w'.grid 0 0 = 6 - u := by
  obtain ⟨w', e, h1, -⟩ := C169_inner (env := tExampleEnv) (P := fun _ => False) (d := 0)
    (w := ⟨0, fun _ => ⟨2, 5, 1, 0, 3, 4, 1⟩, fun _ => 0, fun n _ => if n = 1 then 6 else u⟩)
    (A := fun v i => 2 * v i) (vlx := 0) (vlr := 1) (c1 := 3) (c2 := 4) (by decide) (by decide) (by decide) le_rfl
    (fun w _ _ _ => ⟨w.put 1 fun i => 2 * w.grid 0 i, rfl, put_self _ _ _, fun _ hn => hn.elim, rfl, fun _ _ => rfl, rfl⟩)
    le_rfl (by norm_num) tRichardson 10 (fun _ => 0)
  refine ⟨w', e, ?_⟩
  rw [h1]
  simp [Spec.solve, tRichardson]
  ring

end Sgrid

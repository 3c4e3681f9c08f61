import Verif.Model.Evolve
import Mathlib.Algebra.Order.Field.Rat
import Mathlib.Data.Rat.Floor
import Mathlib.Tactic.Common
import Mathlib.Tactic.Linarith
import Mathlib.Tactic.FieldSimp
import Mathlib.Tactic.Positivity

/-!
# C26 and C60: the evolution loop and the times of checkpoints
-/

namespace Sgrid

variable {K : Type} [Field K] [LinearOrder K] [FloorRing K]

namespace Spec

omit [LinearOrder K] [FloorRing K] in
/-- What the step to iteration `j` does, if the time before it is `t`. -/
def oneStep (dt : K) (j : Int) (t : K) : List (Event K) :=
  [.ran .PRE_EVOLVE (j - 1) t, .ran .EVOLVE (j - 1) t, .ran .PRE_POST_EVOLVE (j - 1) t,
   .ran .POST_EVOLVE (j - 1) t,
   .ran .ANALYZE j (j * dt), .ran .OUTPUT j (j * dt), .ran .POST_OUTPUT j (j * dt)]

omit [LinearOrder K] [FloorRing K] in
/-- `n` steps starting after iteration `i` at time `t`; a checkpoint is written after the steps to
the iterations chosen by `write`. -/
def steps (dt : K) (write : Int → Bool) (i : Int) (t : K) (n : Nat) : List (Event K) :=
  (List.range n).flatMap fun k : Nat =>
    oneStep dt (i + k + 1) (if k = 0 then t else ((i + k : Int) : K) * dt) ++
    if write (i + k + 1) then [.wrote (i + k + 1) (((i + k + 1 : Int) : K) * dt)] else []

/-- A checkpoint is due at an iteration: it is a multiple of `di`, and not the initial data if
restarts happen at a later iteration. -/
def due (di restartIt : Int) (j : Int) : Bool := di ∣ j ∧ ¬(j = 0 ∧ restartIt > 0)

end Spec

open Spec

/-- Something happens. -/
def Sim.add (s : Sim K) (l : List (Event K)) : Sim K := { s with log := s.log ++ l }

/-- A checkpoint is written or not. -/
def wroteIf (b : Bool) (i : Int) (t : K) : List (Event K) := if b then [.wrote i t] else []

/-- When `checkpoint` writes. -/
def Sim.writes (s : Sim K) (j : Int) : Bool :=
  match s.mode with
  | .yes => due s.ckStep s.restartIt j
  | _ => false

/-- `checkpoint` outside the restart phase. -/
theorem checkpoint_normal (s : Sim K) (hm : s.mode ≠ .restart) (hd : s.mode = .yes → s.ckStep ≠ 0) :
    s.checkpoint = .ok (s.add (wroteIf (s.writes s.iteration) s.iteration s.time)) := by
  obtain ⟨it, t, dt, n, T, mode, r, cdt, cdi, cT, file, log⟩ := s
  cases mode with
  | no => simp [Sim.checkpoint, Sim.writes, Sim.add, wroteIf]
  | restart => exact absurd rfl hm
  | yes =>
    have hd' := hd rfl
    simp only [Sim.checkpoint, Sim.writes, due]
    rw [if_neg hd']
    generalize Sim.ckStep (K := K) _ = d
    by_cases h1 : d ∣ it
    · rw [if_neg (by simpa using Int.tmod_eq_zero_of_dvd h1)]
      by_cases h2 : it = 0 ∧ r > 0
      · rw [if_pos h2]
        simp [h2.1, h2.2, Sim.add, wroteIf]
      · rw [if_neg h2]
        simp [h1, h2, Sim.add, wroteIf]
    · rw [if_pos (by simpa using fun h => h1 (Int.dvd_of_tmod_eq_zero h))]
      simp [h1, Sim.add, wroteIf]

/-- `checkpoint` in the restart phase, before the restart. -/
theorem checkpoint_waiting (s : Sim K) (hm : s.mode = .restart) (h1 : s.iteration ≠ s.restartIt)
    (h2 : 0 ≤ s.restartIt) : s.checkpoint = .ok s := by
  unfold Sim.checkpoint
  rw [hm]
  dsimp only
  rw [if_neg (by omega)]

/-- The state after a step without the checkpoint. -/
def Sim.stepped (s : Sim K) : Sim K :=
  { s with
    iteration := s.iteration + 1
    time := ((s.iteration + 1 : Int) : K) * s.dt
    log := s.log ++ oneStep s.dt (s.iteration + 1) s.time }

theorem evolveStep_eq (s : Sim K) : s.evolveStep = s.stepped.checkpoint := by
  unfold Sim.evolveStep Sim.stepped oneStep
  simp [Sim.runFun]

omit [LinearOrder K] [FloorRing K] in
theorem steps_zero (dt : K) (w : Int → Bool) (i : Int) (t : K) : steps dt w i t 0 = [] := rfl

omit [LinearOrder K] [FloorRing K] in
theorem steps_succ (dt : K) (w : Int → Bool) (i : Int) (t : K) (n : Nat) :
    steps dt w i t (n + 1) = oneStep dt (i + 1) t ++
      (if w (i + 1) then [.wrote (i + 1) (((i + 1 : Int) : K) * dt)] else []) ++
      steps dt w (i + 1) (((i + 1 : Int) : K) * dt) n := by
  unfold steps
  rw [List.range_succ_eq_map, List.flatMap_cons, List.flatMap_map]
  congr 1
  · simp
  · apply List.flatMap_congr
    intro k _
    have e : i + ((k.succ : Nat) : Int) = i + 1 + (k : Int) := by push_cast; ring
    rw [e, if_neg (Nat.succ_ne_zero k)]
    congr 2
    split
    · next h => subst h; simp
    · rfl

/-- The state after `n` steps. -/
def Sim.after (s : Sim K) (n : Nat) : Sim K :=
  { s with
    iteration := s.iteration + n
    time := if n = 0 then s.time else ((s.iteration + n : Int) : K) * s.dt
    log := s.log ++ steps s.dt s.writes s.iteration s.time n }

theorem after_zero (s : Sim K) : s.after 0 = s := by
  simp [Sim.after, steps_zero]

/-- The loop as long as there is no restart: `m` steps that stay below the limit. -/
theorem loop_steps (n : Nat) : ∀ (s : Sim K) (fuel : Nat),
    (∀ (k : Nat), k ≤ n → ∀ x : Sim K, x.iteration = s.iteration + k → x.mode = s.mode →
      x.dt = s.dt → x.ckDt = s.ckDt → x.ckDi = s.ckDi → x.restartIt = s.restartIt → k ≠ 0 →
      x.checkpoint = .ok (x.add (wroteIf (s.writes x.iteration) x.iteration x.time))) →
    s.iteration + n ≤ s.iterationmax →
    Sim.evolveLoop (n + fuel) s.iterationmax s = Sim.evolveLoop fuel s.iterationmax (s.after n) := by
  induction n with
  | zero => intro s fuel _ _; rw [after_zero, Nat.zero_add]
  | succ n ih =>
    intro s fuel hc hle
    rw [show n + 1 + fuel = (n + fuel) + 1 by omega, Sim.evolveLoop, if_pos (by push_cast at hle; omega),
      evolveStep_eq, hc 1 (by omega) s.stepped (by simp [Sim.stepped]) rfl rfl rfl rfl rfl
        (by omega), Res.bind_ok]
    set u : Sim K := s.stepped.add (wroteIf (s.writes s.stepped.iteration) s.stepped.iteration
      s.stepped.time) with hu
    have hw : u.writes = s.writes := rfl
    have him : u.iterationmax = s.iterationmax := rfl
    rw [ih u fuel (fun k hk x h1 h2 h3 h4 h5 h6 h7 => hc (k + 1) (by omega) x
        (by rw [h1]; simp only [hu, Sim.stepped, Sim.add]; push_cast; ring) h2 h3 h4 h5 h6 (by omega))
      (by rw [him]; simp only [hu, Sim.stepped, Sim.add]; push_cast at hle; omega)]
    congr 1
    unfold Sim.after
    rw [steps_succ]
    simp only [hu, Sim.stepped, Sim.add, wroteIf]
    congr 1
    · push_cast; ring
    · split
      · next h => subst h; simp
      · next h =>
        rw [if_neg (by omega)]
        congr 2
        push_cast
        ring
    · simp only [List.append_assoc]
      rfl

theorem loop_end (s : Sim K) (fuel : Nat) (imax : Int) (h : imax ≤ s.iteration) :
    Sim.evolveLoop fuel imax s = .ok (some s) := by
  cases fuel <;> rw [Sim.evolveLoop, if_neg (by omega)]

/-- The loop outside the restart phase. -/
theorem loop_normal (s : Sim K) (fuel : Nat) (hm : s.mode ≠ .restart)
    (hd : s.mode = .yes → s.ckStep ≠ 0) (hf : (s.iterationmax - s.iteration).toNat ≤ fuel) :
    Sim.evolveLoop fuel s.iterationmax s =
      .ok (some (s.after (s.iterationmax - s.iteration).toNat)) := by
  rcases lt_or_ge s.iteration s.iterationmax with h | h
  · obtain ⟨f, rfl⟩ := Nat.exists_eq_add_of_le hf
    have hcp : ∀ (x : Sim K), x.mode = s.mode →
        x.dt = s.dt → x.ckDt = s.ckDt → x.ckDi = s.ckDi → x.restartIt = s.restartIt →
        x.checkpoint = .ok (x.add (wroteIf (s.writes x.iteration) x.iteration x.time)) := by
      intro x h1 h2 h3 h4 h5
      have hst : x.ckStep = s.ckStep := by simp [Sim.ckStep, h2, h3, h4]
      have hw : x.writes = s.writes := by
        funext j
        simp only [Sim.writes, h1, h5, hst]
      rw [checkpoint_normal x (by rw [h1]; exact hm) (by rw [h1, hst]; exact hd), hw]
    rw [loop_steps _ s f (fun k _ x _ h2 h3 h4 h5 h6 _ => hcp x h2 h3 h4 h5 h6) (by omega), loop_end]
    simp only [Sim.after]
    omega
  · rw [loop_end _ _ _ h]
    have : (s.iterationmax - s.iteration).toNat = 0 := by omega
    rw [this, after_zero]

/-- **C26.** Without a restart, the run makes exactly the iterations up to the limit, one after the
other; every one runs the time bins in the order of the specification, and the time at the end of
iteration `j` is `j*dt`. -/
theorem C26_evolve (s : Sim K) (fuel : Nat) (hm : s.mode ≠ .restart)
    (hd : s.mode = .yes → s.ckStep ≠ 0)
    (hf : (s.iterationmax - s.iteration).toNat ≤ fuel) (h0 : 0 ≤ s.iteration) :
    ∃ s', s.evolve fuel = .ok (some s') ∧
      s'.iteration = max s.iteration s.iterationmax ∧
      s'.time = (if s.iteration < s.iterationmax then (s'.iteration : K) * s.dt else s.time) ∧
      s'.log = s.log ++ steps s.dt s.writes s.iteration s.time
        (s.iterationmax - s.iteration).toNat := by
  simp only [Sim.evolve]
  by_cases h : s.iterationmax ≤ 0
  · rw [if_pos h]
    have : (s.iterationmax - s.iteration).toNat = 0 := by omega
    refine ⟨s, rfl, by omega, by rw [if_neg (by omega)], ?_⟩
    rw [this, steps_zero, List.append_nil]
  · rw [if_neg h, loop_normal s fuel hm hd hf]
    refine ⟨_, rfl, ?_, ?_, rfl⟩
    · simp only [Sim.after]; omega
    · simp only [Sim.after]
      by_cases hlt : s.iteration < s.iterationmax
      · rw [if_pos hlt, if_neg (by omega)]
      · rw [if_neg hlt, if_pos (by omega)]

/-- **C26.** The bins of the initialization, in order. -/
theorem C26_initialize (s : Sim K) (hm : s.mode ≠ .restart) (hd : s.mode = .yes → s.ckStep ≠ 0) :
    s.initialize = .ok (s.add (
      [.ran .PRE_COORDINATES s.iteration s.time, .ran .COORDINATES s.iteration s.time,
        .ran .PRE_INITIALDATA s.iteration s.time, .ran .INITIALDATA s.iteration s.time,
        .ran .POST_INITIALDATA s.iteration s.time, .ran .PRE_POST_EVOLVE s.iteration s.time,
        .ran .POST_EVOLVE s.iteration s.time, .ran .ANALYZE s.iteration s.time,
        .ran .OUTPUT s.iteration s.time, .ran .POST_OUTPUT s.iteration s.time] ++
      wroteIf (s.writes s.iteration) s.iteration s.time)) := by
  unfold Sim.initialize
  have hfold : initBins.foldl Sim.runFun s = s.add
      [.ran .PRE_COORDINATES s.iteration s.time, .ran .COORDINATES s.iteration s.time,
        .ran .PRE_INITIALDATA s.iteration s.time, .ran .INITIALDATA s.iteration s.time,
        .ran .POST_INITIALDATA s.iteration s.time, .ran .PRE_POST_EVOLVE s.iteration s.time,
        .ran .POST_EVOLVE s.iteration s.time, .ran .ANALYZE s.iteration s.time,
        .ran .OUTPUT s.iteration s.time, .ran .POST_OUTPUT s.iteration s.time] := by
    simp [initBins, Sim.runFun, Sim.add]
  rw [hfold, checkpoint_normal (s.add _) hm hd]
  simp only [Sim.add, List.append_assoc]
  rfl

/-- **C26.** The number of iterations if a final time is given: the one whose time is nearest to it. -/
theorem C26_finaltime [IsStrictOrderedRing K] (s : Sim K) (hT : 0 < s.finaltime) (hdt : 0 < s.dt) :
    |(s.iterationmax : K) * s.dt - s.finaltime| ≤ s.dt / 2 ∧ 0 ≤ s.iterationmax := by
  have hq : 0 ≤ s.finaltime / s.dt + 1 / 2 := by positivity
  have e : s.iterationmax = ⌊s.finaltime / s.dt + 1 / 2⌋ := by
    rw [Sim.iterationmax, if_pos hT, truncC, if_pos hq]
  rw [e]
  refine ⟨?_, Int.floor_nonneg.2 hq⟩
  set n := ⌊s.finaltime / s.dt + 1 / 2⌋ with hn
  have h1 : (n : K) ≤ s.finaltime / s.dt + 1 / 2 := Int.floor_le _
  have h2 : s.finaltime / s.dt + 1 / 2 < n + 1 := Int.lt_floor_add_one _
  have h3 : s.finaltime / s.dt * s.dt = s.finaltime := div_mul_cancel₀ _ hdt.ne'
  have h4 := mul_le_mul_of_nonneg_right h1 hdt.le
  have h5 := mul_lt_mul_of_pos_right h2 hdt
  rw [add_mul, h3] at h4 h5
  rw [abs_le]
  constructor <;> linarith

/-! ## Checkpoints -/

/-- The checkpoints written according to a log. -/
def written (l : List (Event K)) : List (Int × K) := l.filterMap fun e =>
  match e with
  | .wrote i t => some (i, t)
  | _ => none

omit [Field K] [LinearOrder K] [FloorRing K] in
theorem written_append (a b : List (Event K)) : written (a ++ b) = written a ++ written b := by
  simp [written]

omit [LinearOrder K] [FloorRing K] in
theorem written_steps (dt : K) (w : Int → Bool) (i : Int) (t : K) (n : Nat) :
    written (steps dt w i t n) =
      ((List.range n).map fun k : Nat => i + (k : Int) + 1).filterMap fun j =>
        if w j then some (j, (j : K) * dt) else none := by
  induction n with
  | zero => rfl
  | succ n ih =>
    have e : steps dt w i t (n + 1) = steps dt w i t n ++
        (oneStep dt (i + n + 1) (if n = 0 then t else ((i + n : Int) : K) * dt) ++
        if w (i + n + 1) then [.wrote (i + n + 1) (((i + n + 1 : Int) : K) * dt)] else []) := by
      unfold steps
      rw [List.range_succ, List.flatMap_append, List.flatMap_singleton]
    rw [e, written_append, ih, List.range_succ, List.map_append, List.filterMap_append]
    congr 1
    by_cases h : w (i + n + 1) <;> simp [written, oneStep, h]

/-- **C60.** With checkpointing on and no restart, a run of `n` iterations from the initial data
writes checkpoints exactly at the multiples of `di` among the iterations `0, …, n` (not at 0 if
`checkpoint_restart_it > 0`), in order, each at time `iteration*dt`. -/
theorem C60_times (s : Sim K) (fuel : Nat) (hm : s.mode = .yes) (hd : s.ckStep ≠ 0)
    (h0 : s.iteration = 0) (ht : s.time = 0) (hl : s.log = []) (hf : s.iterationmax.toNat ≤ fuel) :
    ∃ s', s.main fuel = .ok (some s') ∧
      written s'.log =
        ((List.range (s.iterationmax.toNat + 1)).map fun k : Nat => (k : Int)).filterMap fun j =>
          if s.ckStep ∣ j ∧ ¬(j = 0 ∧ s.restartIt > 0) then some (j, (j : K) * s.dt) else none := by
  have hne : s.mode ≠ .restart := by rw [hm]; decide
  unfold Sim.main
  rw [C26_initialize s hne fun _ => hd, Res.bind_ok]
  set u : Sim K := s.add _ with hu
  have hul : written u.log = if s.writes 0 then [(0, 0)] else [] := by
    rw [hu, Sim.add]
    dsimp only
    rw [hl, h0, ht, List.nil_append, written_append]
    by_cases h : s.writes 0 <;> simp [written, wroteIf, h]
  obtain ⟨s', h1, -, -, h4⟩ := C26_evolve u fuel hne (fun _ => hd)
    (by show (s.iterationmax - s.iteration).toNat ≤ fuel; rw [h0]; simpa using hf)
    (by show 0 ≤ s.iteration; omega)
  refine ⟨s', h1, ?_⟩
  rw [h4, written_append, hul, written_steps]
  have e1 : u.iterationmax = s.iterationmax := rfl
  have e2 : u.iteration = 0 := h0
  have e3 : u.writes = s.writes := rfl
  have e4 : u.dt = s.dt := rfl
  have hw : ∀ j, s.writes j = decide (s.ckStep ∣ j ∧ ¬(j = 0 ∧ s.restartIt > 0)) := by
    intro j; simp [Sim.writes, hm, due]
  have e6 : (fun j : Int => if s.ckStep ∣ j ∧ ¬(j = 0 ∧ s.restartIt > 0) then
      some (j, (j : K) * s.dt) else none) = fun j => if s.writes j then some (j, (j : K) * s.dt)
      else none := by
    funext j
    rw [hw]
    simp only [decide_eq_true_eq]
  rw [e6, e1, e2, e3, e4, sub_zero, List.range_succ_eq_map, List.map_cons, List.filterMap_cons]
  have e5 : ((List.range s.iterationmax.toNat).map fun k : Nat => (0 : Int) + (k : Int) + 1) =
      List.map (fun k => ((k : Nat) : Int)) (List.map Nat.succ (List.range s.iterationmax.toNat)) := by
    rw [List.map_map]
    apply List.map_congr_left
    intro k _
    simp
  rw [e5]
  rw [Nat.cast_zero]
  by_cases h : s.writes 0 <;> simp [h]

/-- **C60.** If `checkpoint_dt` is at least the time step, the number `di` of iterations between
checkpoints is at least 1, and the time between checkpoints is at most `checkpoint_dt` (up to
`1e-10` time steps) and less than one time step shorter. -/
theorem C60_interval [IsStrictOrderedRing K] (s : Sim K) (hdt : 0 < s.dt) (h : s.dt ≤ s.ckDt) :
    1 ≤ s.ckStep ∧ (s.ckStep : K) * s.dt ≤ s.ckDt + s.dt / 10 ^ 10 ∧
      s.ckDt - s.dt < (s.ckStep : K) * s.dt := by
  have hpos : 0 < s.ckDt := lt_of_lt_of_le hdt h
  have hq : 1 ≤ s.ckDt / s.dt := by rwa [le_div_iff₀ hdt, one_mul]
  have heps : (0 : K) < 1 / 10 ^ 10 := by positivity
  have e : s.ckStep = ⌊s.ckDt / s.dt + 1 / 10 ^ 10⌋ := by
    rw [Sim.ckStep, if_pos hpos, truncC, if_pos (by linarith)]
  rw [e]
  set n := ⌊s.ckDt / s.dt + 1 / 10 ^ 10⌋ with hn
  have h1 : (n : K) ≤ s.ckDt / s.dt + 1 / 10 ^ 10 := Int.floor_le _
  have h2 : s.ckDt / s.dt + 1 / 10 ^ 10 < n + 1 := Int.lt_floor_add_one _
  have h3 : s.ckDt / s.dt * s.dt = s.ckDt := div_mul_cancel₀ _ hdt.ne'
  have h4 := mul_le_mul_of_nonneg_right h1 hdt.le
  have h5 := mul_lt_mul_of_pos_right h2 hdt
  rw [add_mul, h3] at h4 h5
  refine ⟨?_, ?_, ?_⟩
  · exact Int.le_floor.2 (by push_cast; linarith)
  · have : (1 : K) / 10 ^ 10 * s.dt = s.dt / 10 ^ 10 := by ring
    linarith
  · have : 0 < (1 : K) / 10 ^ 10 * s.dt := by positivity
    linarith

/-- **C60, counterexample.** If `checkpoint_dt` is positive but clearly less than the time step, the
number of iterations between checkpoints is 0 and `checkpoint` divides by 0. -/
theorem C60_short_interval_counterexample [IsStrictOrderedRing K] (s : Sim K) (hm : s.mode = .yes)
    (hdt : 0 < s.dt) (h0 : 0 < s.ckDt) (h : s.ckDt < s.dt * (1 - 1 / 10 ^ 10)) :
    s.checkpoint = .ub := by
  have hq : s.ckDt / s.dt < 1 - 1 / 10 ^ 10 := by rw [div_lt_iff₀ hdt, mul_comm]; exact h
  have hq0 : 0 < s.ckDt / s.dt := div_pos h0 hdt
  have heps : (0 : K) < 1 / 10 ^ 10 := by positivity
  have e : s.ckStep = 0 := by
    rw [Sim.ckStep, if_pos h0, truncC, if_pos (by linarith), Int.floor_eq_zero_iff]
    exact ⟨by linarith, by linarith⟩
  unfold Sim.checkpoint
  rw [hm]
  dsimp only
  rw [if_pos e]

/-- The same for `checkpoint_di = 0`. -/
theorem C60_di_zero_counterexample (s : Sim K) (hm : s.mode = .yes) (h0 : ¬ 0 < s.ckDt)
    (h : s.ckDi = 0) : s.checkpoint = .ub := by
  unfold Sim.checkpoint
  rw [hm]
  dsimp only
  rw [if_pos (by rw [Sim.ckStep, if_neg h0, h])]

/-- The state after the checkpoint file has been read at the end of an iteration. -/
def Sim.restarted (s : Sim K) (i : Int) (t : K) : Sim K :=
  { s with
    iteration := i, time := t, mode := .yes
    finaltime := if s.ckDeltaT > 0 then t + s.ckDeltaT else s.finaltime
    iterations := if s.ckDeltaT > 0 then truncC ((t + s.ckDeltaT) / s.dt + 1 / 2) else s.iterations
    log := s.log ++ [.restored i t] }

theorem checkpoint_restarts (s : Sim K) (hm : s.mode = .restart)
    (h : s.iteration = s.restartIt ∨ s.restartIt < 0) (i : Int) (t : K) (hfile : s.file = some (i, t)) :
    s.checkpoint = .ok (s.restarted i t) := by
  unfold Sim.checkpoint
  rw [hm]
  dsimp only
  rw [if_pos h]
  simp only [Sim.ckRead, hfile, Sim.restarted]
  split <;> rfl

/-- **C60, restart.** In the restart phase nothing is written before iteration
`checkpoint_restart_it`; right after that iteration the file is read, once, and the run continues
from the iteration in the file up to the limit, with the times `j*dt`, writing checkpoints as in a
run without restart. With `checkpoint_DeltaT > 0` the limit is the iteration nearest to the time of
the checkpoint plus `checkpoint_DeltaT`. -/
theorem C60_restart (s : Sim K) (fuel : Nat) (i : Int) (t : K) (r : Nat) (hm : s.mode = .restart)
    (h0 : s.iteration = 0) (hr : s.restartIt = r) (hr0 : 0 < r) (hle : (r : Int) ≤ s.iterationmax)
    (hfile : s.file = some (i, t)) (hd : s.ckStep ≠ 0)
    (u : Sim K) (hu : u = ({ s with
      iteration := (r : Int), time := ((r : Int) : K) * s.dt
      log := s.log ++ steps s.dt (fun _ => false) 0 s.time r } : Sim K).restarted i t)
    (hf : r + (u.iterationmax - i).toNat ≤ fuel) :
    ∃ s', s.evolve fuel = .ok (some s') ∧
      s'.iteration = max i u.iterationmax ∧
      s'.log = s.log ++ steps s.dt (fun _ => false) 0 s.time r ++ [.restored i t] ++
        steps s.dt (due s.ckStep r) i t (u.iterationmax - i).toNat := by
  have hw : s.writes = fun _ => false := by funext j; simp [Sim.writes, hm]
  simp only [Sim.evolve]
  rw [if_neg (by omega)]
  obtain ⟨r', rfl⟩ : ∃ r', r = r' + 1 := ⟨r - 1, by omega⟩
  obtain ⟨f, hfe⟩ := Nat.exists_eq_add_of_le hf
  have hfuel : fuel = r' + ((f + (u.iterationmax - i).toNat) + 1) := by omega
  have hcp : ∀ (k : Nat), k ≤ r' → ∀ x : Sim K, x.iteration = s.iteration + k → x.mode = s.mode →
      x.restartIt = s.restartIt → x.checkpoint = .ok (x.add (wroteIf (s.writes x.iteration) x.iteration x.time)) := by
    intro k hk x h1 h2 h3
    rw [checkpoint_waiting x (by rw [h2, hm]) (by rw [h1, h3, hr, h0]; push_cast; omega)
      (by rw [h3, hr]; omega), hw]
    simp [Sim.add, wroteIf]
  rw [hfuel, loop_steps r' s _ (fun k hk x h1 h2 _ _ _ h6 _ => hcp k hk x h1 h2 h6)
    (by rw [h0]; push_cast at hle; omega)]
  rw [Sim.evolveLoop, if_pos (by simp only [Sim.after, h0]; push_cast at hle; omega), evolveStep_eq,
    checkpoint_restarts (s.after r').stepped hm
      (.inl (by simp only [Sim.stepped, Sim.after, h0, hr]; push_cast; ring)) i t hfile, Res.bind_ok]
  have hsteps : steps s.dt (fun _ => false) 0 s.time (r' + 1) =
      steps s.dt (fun _ => false) 0 s.time r' ++
        oneStep s.dt (r' + 1) (if r' = 0 then s.time else ((r' : Int) : K) * s.dt) := by
    unfold steps
    rw [List.range_succ, List.flatMap_append, List.flatMap_singleton]
    simp
  have hue : (s.after r').stepped.restarted i t = u := by
    rw [hu]
    simp only [Sim.stepped, Sim.after, Sim.restarted, h0, hw, hsteps]
    simp
  rw [hue]
  have hum : u.mode = .yes := by rw [hu]; rfl
  have hui : u.iteration = i := by rw [hu]; rfl
  have hut : u.time = t := by rw [hu]; rfl
  have hud : u.dt = s.dt := by rw [hu]; rfl
  have hus : u.ckStep = s.ckStep := by rw [hu]; rfl
  have hur : u.restartIt = s.restartIt := by rw [hu]; rfl
  rw [loop_normal u _ (by rw [hum]; decide) (fun _ => by rw [hus]; exact hd) (by rw [hui]; omega)]
  have huw : u.writes = due s.ckStep ((r' + 1 : Nat) : Int) := by
    funext j
    simp only [Sim.writes, hum, hus, hur, hr]
  refine ⟨_, rfl, ?_, ?_⟩
  · simp only [Sim.after, hui]; omega
  · simp only [Sim.after, huw, hui, hut, hud]
    rw [hu]
    simp only [Sim.restarted]

/-- **C60, restart at any iteration.** If `checkpoint_restart_it` is negative, the checkpoint is read
at the end of the initialization, and nothing is written there. -/
theorem C60_restart_any (s : Sim K) (i : Int) (t : K) (hm : s.mode = .restart)
    (hr : s.restartIt < 0) (hfile : s.file = some (i, t)) :
    ∃ s', s.initialize = .ok s' ∧ s'.iteration = i ∧ s'.time = t ∧ s'.mode = .yes ∧
      written s'.log = written s.log := by
  unfold Sim.initialize
  rw [checkpoint_restarts _ (by simpa [initBins, Sim.runFun] using hm)
    (.inr (by simpa [initBins, Sim.runFun] using hr)) i t (by simpa [initBins, Sim.runFun] using hfile)]
  refine ⟨_, rfl, rfl, rfl, rfl, ?_⟩
  simp [Sim.restarted, initBins, Sim.runFun, written]

/-- A run to time 1 with time step 0.3 and a checkpoint every second iteration makes three
iterations and writes one checkpoint. -/
def exSim : Sim ℚ :=
  { iteration := 0, time := 0, dt := 3/10, iterations := 0, finaltime := 1, mode := .yes,
    restartIt := 1, ckDt := 0, ckDi := 2, ckDeltaT := 0, file := none, log := [] }

example : (exSim.main 3).map (fun o => o.map fun s => (s.iteration, s.time, written s.log)) =
    .ok (some (3, 9/10, [(2, 6/10)])) := by decide +kernel

/-- A restart from a checkpoint of iteration 4 whose time was rounded; one time unit is added. -/
example : ((({ exSim with mode := .restart, file := some (4, 1199/1000), ckDeltaT := 1 } :
      Sim ℚ).main 9).map fun o => o.map fun s => (s.iteration, s.time, written s.log)) =
    .ok (some (7, 21/10, [(6, 18/10)])) := by decide +kernel

end Sgrid

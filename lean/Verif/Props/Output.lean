import Verif.Model.Output
import Verif.Lemmas.Wolfio
import Verif.Lemmas.Entries
import Mathlib.Data.Rat.Floor
import Mathlib.Tactic.Linarith
import Mathlib.Tactic.Positivity

/-!
# C48, C49 and C58: output
-/

namespace Sgrid

section
variable {K : Type} [Field K] [LinearOrder K] [IsStrictOrderedRing K] [FloorRing K]

omit [IsStrictOrderedRing K] in
/-- **C48, iterations.** With an iteration interval and no time interval, there is output exactly at
the multiples, numbered 1, 2, 3, … -/
theorem C48_iterations (n di : Int) (t dT dt : K) (hn : 0 ≤ n) (hdi : 0 < di) (hdt : dt ≤ 0) :
    (di ∣ n → timeForOutput n t dT di dt = n / di + 1) ∧
    (¬ di ∣ n → timeForOutput n t dT di dt = 0) := by
  constructor
  · intro h
    rw [timeForOutput, if_pos ⟨hdi, Int.tmod_eq_zero_of_dvd h⟩, Int.tdiv_eq_ediv_of_nonneg hn]
  · intro h
    rw [timeForOutput, if_neg (fun hh => h (Int.dvd_of_tmod_eq_zero hh.2)), if_neg (by simpa using hdt)]

/-- The output condition in terms of the number of the output. -/
theorem timeForOutput_eq (n m di : Int) (dT dt : K) (hn : 0 ≤ n) (hm : 0 ≤ m) (hdi : di ≤ 0)
    (hdT : dT ≠ 0) (hdt : |dT| ≤ dt) :
    timeForOutput n (n * dT) dT di dt = m + 1 ↔
      m * dt - |dT| / 2 < n * |dT| ∧ n * |dT| ≤ m * dt + |dT| / 2 := by
  have hT : 0 < |dT| := abs_pos.2 hdT
  have hd : 0 < dt := lt_of_lt_of_le hT hdt
  have ht : |(n : K) * dT| = n * |dT| := by
    rw [abs_mul, abs_of_nonneg (by exact_mod_cast hn)]
  have hnT : 0 ≤ (n : K) * |dT| := by rw [← ht]; exact abs_nonneg _
  rw [timeForOutput, if_neg (by rintro ⟨h, -⟩; omega), if_pos hd]
  simp only [ht]
  have htr : truncC (1 / 2 + n * |dT| / dt : K) = ⌊(1 / 2 + n * |dT| / dt : K)⌋ := by
    rw [truncC, if_pos (by positivity)]
  rw [htr]
  set i := ⌊(1 / 2 + n * |dT| / dt : K)⌋ with hi
  have key : ∀ j : Int, i = j ↔ j * dt - dt / 2 ≤ n * |dT| ∧ n * |dT| < j * dt + dt / 2 := by
    intro j
    have e : n * |dT| / dt * dt = n * |dT| := div_mul_cancel₀ _ hd.ne'
    rw [hi, Int.floor_eq_iff]
    constructor
    · rintro ⟨h1, h2⟩
      have h3 := mul_le_mul_of_nonneg_right h1 hd.le
      have h4 := mul_lt_mul_of_pos_right h2 hd
      rw [add_mul, e] at h3 h4
      exact ⟨by linarith, by linarith⟩
    · rintro ⟨h1, h2⟩
      constructor
      · have : (j : K) - 1 / 2 ≤ n * |dT| / dt := by rw [le_div_iff₀ hd]; linarith
        linarith
      · have : n * |dT| / dt < (j : K) + 1 / 2 := by rw [div_lt_iff₀ hd]; linarith
        linarith
  constructor
  · intro h
    split at h
    · next hc =>
      have him : i = m := by omega
      rw [him] at hc
      exact ⟨by linarith [hc.1], by linarith [hc.2]⟩
    · omega
  · rintro ⟨h1, h2⟩
    have him : i = m := by
      rw [key]
      refine ⟨by linarith, ?_⟩
      rcases lt_or_eq_of_le (show (n : K) * |dT| ≤ m * dt + dt / 2 by linarith) with h | h
      · exact h
      · exfalso
        have hd' : dt = |dT| := by linarith
        rw [hd'] at h
        have h3 : (2 * n : K) * |dT| = (2 * m + 1 : K) * |dT| := by linarith
        have h4 := mul_right_cancel₀ hT.ne' h3
        have h5 : (2 * n : Int) = 2 * m + 1 := by exact_mod_cast h4
        omega
    rw [him, if_pos ⟨by linarith, by linarith⟩]

/-- **C48, time interval.** If the output interval is not smaller than the (absolute value of the)
time step, output number `m + 1` happens at exactly one iteration, the one whose time is nearest to
`m*dt`. -/
theorem C48_once (m di : Int) (dT dt : K) (hm : 0 ≤ m) (hdi : di ≤ 0) (hdT : dT ≠ 0)
    (hdt : |dT| ≤ dt) :
    ∃ n : Int, 0 ≤ n ∧ timeForOutput n (n * dT) dT di dt = m + 1 ∧
      |n * |dT| - m * dt| ≤ |dT| / 2 ∧
      ∀ n' : Int, 0 ≤ n' → timeForOutput n' (n' * dT) dT di dt = m + 1 → n' = n := by
  have hT : 0 < |dT| := abs_pos.2 hdT
  have hd : 0 < dt := lt_of_lt_of_le hT hdt
  have hmK : (0 : K) ≤ m := by exact_mod_cast hm
  have hq : (0 : K) ≤ m * dt / |dT| + 1 / 2 := by positivity
  set n := ⌊(m * dt / |dT| + 1 / 2 : K)⌋ with hn
  have h1 : (n : K) ≤ m * dt / |dT| + 1 / 2 := Int.floor_le _
  have h2 : m * dt / |dT| + 1 / 2 < (n : K) + 1 := Int.lt_floor_add_one _
  have e : m * dt / |dT| * |dT| = m * dt := div_mul_cancel₀ _ hT.ne'
  have h3 := mul_le_mul_of_nonneg_right h1 hT.le
  have h4 := mul_lt_mul_of_pos_right h2 hT
  rw [add_mul, e] at h3 h4
  have hn0 : 0 ≤ n := Int.floor_nonneg.2 hq
  refine ⟨n, hn0, ?_, ?_, ?_⟩
  · rw [timeForOutput_eq n m di dT dt hn0 hm hdi hdT hdt]
    exact ⟨by linarith, by linarith⟩
  · rw [abs_le]
    exact ⟨by linarith, by linarith⟩
  · intro n' hn' h'
    rw [timeForOutput_eq n' m di dT dt hn' hm hdi hdT hdt] at h'
    have a1 : ((n' - n : Int) : K) < 1 := by
      push_cast
      have : (n' - n : K) * |dT| < 1 * |dT| := by linarith
      exact lt_of_mul_lt_mul_right this hT.le
    have a2 : ((n - n' : Int) : K) < 1 := by
      push_cast
      have : (n - n' : K) * |dT| < 1 * |dT| := by linarith
      exact lt_of_mul_lt_mul_right this hT.le
    have b1 : n' - n < 1 := by exact_mod_cast a1
    have b2 : n - n' < 1 := by exact_mod_cast a2
    omega

/-- **C48.** Outputs are numbered in the order of the iterations: a later iteration has the larger
number. -/
theorem C48_order (m m' di n n' : Int) (dT dt : K) (hm : 0 ≤ m) (hm' : 0 ≤ m') (hdi : di ≤ 0)
    (hdT : dT ≠ 0) (hdt : |dT| ≤ dt) (hn : 0 ≤ n) (hnn : n < n')
    (h : timeForOutput n (n * dT) dT di dt = m + 1)
    (h' : timeForOutput n' (n' * dT) dT di dt = m' + 1) : m < m' := by
  rw [timeForOutput_eq n m di dT dt hn hm hdi hdT hdt] at h
  rw [timeForOutput_eq n' m' di dT dt (by omega) hm' hdi hdT hdt] at h'
  have hT : 0 < |dT| := abs_pos.2 hdT
  have hd : 0 < dt := lt_of_lt_of_le hT hdt
  have h1 : (n : K) + 1 ≤ n' := by exact_mod_cast hnn
  have h2 := mul_le_mul_of_nonneg_right h1 hT.le
  by_contra hc
  have h3 : (m' : K) ≤ m := by exact_mod_cast not_lt.1 hc
  have h4 := mul_le_mul_of_nonneg_right h3 hd.le
  have h5 : n' * |dT| ≤ m' * dt + |dT| / 2 := h'.2
  linarith [h.1, h'.1]

/-- Whether there is output at all is decided by the same condition: any number that is returned is
0 or some `m + 1` with `m ≥ 0`. -/
theorem C48_number (n di : Int) (dT dt : K) (hdi : di ≤ 0) :
    timeForOutput n (n * dT) dT di dt = 0 ∨ ∃ m, 0 ≤ m ∧ timeForOutput n (n * dT) dT di dt = m + 1 := by
  rw [timeForOutput, if_neg (by rintro ⟨h, -⟩; omega)]
  split
  · next hd =>
    dsimp only
    split
    · right
      refine ⟨_, ?_, rfl⟩
      rw [truncC, if_pos (by positivity)]
      exact Int.floor_nonneg.2 (by positivity)
    · exact .inl rfl
  · exact .inl rfl

end

/-- Time step 0.3, output every time unit: at iterations 0, 3 (t = 0.9), 7 (t = 2.1), 10 (t = 3). -/
example : (List.range 11).map (fun n => timeForOutput (n : Int) ((n : ℚ) * (3 / 10)) (3 / 10) (-1) 1) =
    [1, 0, 0, 2, 0, 0, 0, 3, 0, 0, 4] := by decide +kernel

/-! ## The point closest to a coordinate -/

section
variable {K : Type} [Field K] [LinearOrder K] [IsStrictOrderedRing K]

theorem closestLoop_spec (X : Nat → K) (X0 : K) (i k : Nat) (hik : i < k) (h1 : X i < X0)
    (h2 : X0 ≤ X k) :
    let r := closestLoop X X0 i k
    i ≤ r.1 ∧ r.2 = r.1 + 1 ∧ r.2 ≤ k ∧ X r.1 < X0 ∧ X0 ≤ X r.2 := by
  induction hd : k - i using Nat.strong_induction_on generalizing i k with
  | _ d ih =>
    rw [closestLoop]
    by_cases h : k - i > 1
    · rw [dif_pos h]
      dsimp only
      split
      · next hc =>
        have hj : X0 ≤ X ((i + k) / 2) := by
          by_contra hlt
          have : 0 < (X i - X0) * (X ((i + k) / 2) - X0) :=
            mul_pos_of_neg_of_neg (by linarith) (by linarith [not_le.1 hlt])
          linarith
        obtain ⟨a, b, c, e, f⟩ := ih ((i + k) / 2 - i) (by omega) i ((i + k) / 2) (by omega) h1 hj rfl
        exact ⟨a, b, by omega, e, f⟩
      · next hc =>
        have hj : X ((i + k) / 2) < X0 := by
          by_contra hge
          apply hc
          exact mul_nonpos_of_nonpos_of_nonneg (by linarith) (by linarith [not_lt.1 hge])
        obtain ⟨a, b, c, e, f⟩ := ih (k - (i + k) / 2) (by omega) ((i + k) / 2) k (by omega) hj h2 rfl
        exact ⟨by omega, b, c, e, f⟩
    · rw [dif_neg h]
      exact ⟨le_refl _, by dsimp only; omega, le_refl _, h1, h2⟩

/-- **C49.** On a line of points with increasing coordinate, the point that is found is one of the
closest ones. -/
theorem C49_closest (n : Nat) (X : Nat → K) (X0 : K) (hn : 0 < n)
    (hX : ∀ i j, i < j → j < n → X i ≤ X j) :
    ∃ r, findClosest n X X0 = .ok r ∧ r < n ∧ ∀ m, m < n → |X r - X0| ≤ |X m - X0| := by
  have hmono : ∀ i j, i ≤ j → j < n → X i ≤ X j := by
    intro i j hij hj
    rcases Nat.eq_or_lt_of_le hij with rfl | h
    · exact le_refl _
    · exact hX i j h hj
  unfold findClosest
  rw [if_neg (by omega)]
  dsimp only
  by_cases h1 : X0 ≥ X (n - 1)
  · rw [if_pos h1]
    refine ⟨n - 1, rfl, by omega, fun m hm => ?_⟩
    have h2 := hmono m (n - 1) (by omega) (by omega)
    rw [abs_of_nonpos (by linarith), abs_of_nonpos (by linarith)]
    linarith
  · rw [if_neg h1]
    by_cases h2 : X0 ≤ X 0
    · rw [if_pos h2]
      refine ⟨0, rfl, hn, fun m hm => ?_⟩
      have h3 := hmono 0 m (by omega) hm
      rw [abs_of_nonneg (by linarith), abs_of_nonneg (by linarith)]
      linarith
    · rw [if_neg h2]
      have hn1 : 0 < n - 1 := by
        rcases Nat.eq_zero_or_pos (n - 1) with h | h
        · rw [h] at h1; exact absurd (le_of_lt (not_le.1 h1)) h2
        · exact h
      obtain ⟨a, b, c, e, f⟩ := closestLoop_spec X X0 0 (n - 1) hn1 (not_le.1 h2)
        (le_of_lt (not_le.1 h1))
      set r := closestLoop X X0 0 (n - 1) with hr
      have hbest : ∀ m, m < n → min |X r.1 - X0| |X r.2 - X0| ≤ |X m - X0| := by
        intro m hm
        rcases Nat.lt_or_ge r.1 m with h | h
        · have h3 := hmono r.2 m (by omega) hm
          apply le_trans (min_le_right _ _)
          rw [abs_of_nonneg (by linarith), abs_of_nonneg (by linarith)]
          linarith
        · have h3 := hmono m r.1 h (by omega)
          apply le_trans (min_le_left _ _)
          rw [abs_of_nonpos (by linarith), abs_of_nonpos (by linarith)]
          linarith
      split
      · next h =>
        refine ⟨r.1, rfl, by omega, fun m hm => ?_⟩
        have := hbest m hm
        rwa [min_eq_left h.le] at this
      · next h =>
        refine ⟨r.2, rfl, by omega, fun m hm => ?_⟩
        have := hbest m hm
        rwa [min_eq_right (not_lt.1 h)] at this

/-- **C49** for the three directions of a box whose coordinates are `fx i`, `fy j`, `fz k` at the
point `(i, j, k)`. -/
theorem C49_box (n1 n2 n3 : Nat) (h1 : 0 < n1) (h2 : 0 < n2) (h3 : 0 < n3) (fx fy fz : Nat → K)
    (x y z : Int → K)
    (hx : ∀ i j k : Nat, i < n1 → j < n2 → k < n3 → x (Index.index n1 n2 i j k) = fx i)
    (hy : ∀ i j k : Nat, i < n1 → j < n2 → k < n3 → y (Index.index n1 n2 i j k) = fy j)
    (hz : ∀ i j k : Nat, i < n1 → j < n2 → k < n3 → z (Index.index n1 n2 i j k) = fz k)
    (mx : ∀ i j, i < j → j < n1 → fx i ≤ fx j) (my : ∀ i j, i < j → j < n2 → fy i ≤ fy j)
    (mz : ∀ i j, i < j → j < n3 → fz i ≤ fz j) (c : K) :
    (∃ r, findX n1 n2 x c = .ok r ∧ r < n1 ∧ ∀ m, m < n1 → |fx r - c| ≤ |fx m - c|) ∧
    (∃ r, findY n1 n2 y c = .ok r ∧ r < n2 ∧ ∀ m, m < n2 → |fy r - c| ≤ |fy m - c|) ∧
    (∃ r, findZ n1 n2 n3 z c = .ok r ∧ r < n3 ∧ ∀ m, m < n3 → |fz r - c| ≤ |fz m - c|) := by
  have ex : ∀ i, i < n1 → x (Index.index n1 n2 i 0 0) = fx i := fun i hi => by
    simpa using hx i 0 0 hi h2 h3
  have ey : ∀ i, i < n2 → y (Index.index n1 n2 0 i 0) = fy i := fun i hi => by
    simpa using hy 0 i 0 h1 hi h3
  have ez : ∀ i, i < n3 → z (Index.index n1 n2 0 0 i) = fz i := fun i hi => by
    simpa using hz 0 0 i h1 h2 hi
  refine ⟨?_, ?_, ?_⟩
  · obtain ⟨r, a, b, e⟩ := C49_closest n1 (fun i : Nat => x (Index.index n1 n2 i 0 0)) c h1
      (fun i j hij hj => by rw [ex i (by omega), ex j hj]; exact mx i j hij hj)
    refine ⟨r, a, b, fun m hm => ?_⟩
    have := e m hm
    rwa [ex r b, ex m hm] at this
  · obtain ⟨r, a, b, e⟩ := C49_closest n2 (fun i : Nat => y (Index.index n1 n2 0 i 0)) c h2
      (fun i j hij hj => by rw [ey i (by omega), ey j hj]; exact my i j hij hj)
    refine ⟨r, a, b, fun m hm => ?_⟩
    have := e m hm
    rwa [ey r b, ey m hm] at this
  · obtain ⟨r, a, b, e⟩ := C49_closest n3 (fun i : Nat => z (Index.index n1 n2 0 0 i)) c h3
      (fun i j hij hj => by rw [ez i (by omega), ez j hj]; exact mz i j hij hj)
    refine ⟨r, a, b, fun m hm => ?_⟩
    have := e m hm
    rwa [ez r b, ez m hm] at this

end

example : ((List.range 7).map fun c => (findClosest 5 (fun i => [(1 : ℚ), 2, 4, 7, 11].getD i 0)
    (2 * c))).map (fun r => r.map id) =
    [.ok 0, .ok 1, .ok 2, .ok 3, .ok 3, .ok 4, .ok 4] := by decide +kernel

/-! ## Lists of variables to output -/

/-- Words separated by single blanks. -/
def joinWords : List CStr → CStr
  | [] => []
  | [w] => w
  | w :: ws => w ++ ' ' :: joinWords ws

theorem word_append {w rest : CStr} (hw : Wolfio.IsWord w) (hr : rest = [] ∨ ∃ t, rest = ' ' :: t) :
    Wolfio.word (w ++ rest) = some (w, rest) := by
  obtain ⟨hne, hs⟩ := hw
  cases w with
  | nil => exact absurd rfl hne
  | cons c t =>
    have hc := hs c List.mem_cons_self
    unfold Wolfio.word
    have e1 : (c :: t ++ rest).dropWhile isSpace = c :: (t ++ rest) := by simp [hc]
    rw [e1]
    have e2 : ∀ u : CStr, (∀ x ∈ u, isSpace x = false) →
        (u ++ rest).takeWhile (fun x => !isSpace x) = u ∧
        (u ++ rest).dropWhile (fun x => !isSpace x) = rest := by
      intro u hu
      induction u with
      | nil =>
        rcases hr with rfl | ⟨t', rfl⟩
        · simp
        · have : isSpace ' ' = true := by decide
          simp [this]
      | cons a u ih =>
        have ha := hu a List.mem_cons_self
        obtain ⟨h1, h2⟩ := ih fun x hx => hu x (List.mem_cons_of_mem _ hx)
        simp [ha, h1, h2]
    obtain ⟨h1, h2⟩ := e2 (c :: t) hs
    simp only [List.cons_append] at h1 h2
    dsimp only
    rw [h1, h2]

/-- **C58.** A list of words separated by single blanks is read word by word. -/
theorem C58_words (ws : List CStr) (hw : ∀ w ∈ ws, Wolfio.IsWord w ∧ w.length < 1000) :
    scanList (joinWords ws) = .ok ws := by
  induction ws with
  | nil => rw [scanList]; rfl
  | cons w ws ih =>
    obtain ⟨hw1, hw2⟩ := hw w List.mem_cons_self
    have ih := ih fun x hx => hw x (List.mem_cons_of_mem _ hx)
    cases ws with
    | nil =>
      have hword := word_append hw1 (rest := []) (.inl rfl)
      rw [List.append_nil] at hword
      show scanList w = _
      rw [scanList]
      split
      · next h => rw [hword] at h; cases h
      · next v _ h =>
        rw [hword] at h
        obtain ⟨rfl, -⟩ := Prod.mk.inj (Option.some.inj h)
        rw [if_neg (by omega)]
        have : scanList [] = .ok [] := by rw [scanList]; rfl
        simp [this, Res.map]
    | cons w' ws =>
      have hj : joinWords (w :: w' :: ws) = w ++ ' ' :: joinWords (w' :: ws) := rfl
      have hword := word_append hw1 (rest := ' ' :: joinWords (w' :: ws)) (.inr ⟨_, rfl⟩)
      rw [hj, scanList]
      split
      · next h => rw [hword] at h; cases h
      · next v _ h =>
        rw [hword] at h
        obtain ⟨rfl, -⟩ := Prod.mk.inj (Option.some.inj h)
        rw [if_neg (by omega)]
        simp only [List.drop_left, List.head?_cons, List.tail_cons, if_true]
        rw [ih]
        rfl

/-- **C58.** If a list of different words separated by single blanks is output and not all components
are asked for, then in every box every listed variable that exists, and is not constant after the
first iteration, is output exactly once, and nothing else. -/
theorem C58_once (V : OutVars) (it : Int) (nboxes : Nat) (ws : List CStr)
    (hw : ∀ w ∈ ws, Wolfio.IsWord w ∧ w.length < 1000) (hnd : ws.Nodup) :
    ∃ l, outputsOf V false it nboxes (joinWords ws) = .ok l ∧ l.Nodup ∧
      ∀ b n, (b, n) ∈ l ↔ b < nboxes ∧ n ∈ ws ∧
        ∃ vi, V.ind n = some vi ∧ (V.constant vi = true → it = 0) := by
  rw [outputsOf, C58_words ws hw]
  refine ⟨_, rfl, ?_, ?_⟩
  · have hfor : ∀ w, outputsFor V false it w = [] ∨ outputsFor V false it w = [w] := by
      intro w
      unfold outputsFor
      split
      · exact .inl rfl
      · split
        · exact .inl rfl
        · exact .inr (by simp)
    rw [List.nodup_flatMap]
    refine ⟨fun b _ => ?_, ?_⟩
    · rw [List.nodup_flatMap]
      refine ⟨fun w _ => ?_, ?_⟩
      · rcases hfor w with h | h <;> rw [h] <;> simp
      · refine hnd.imp ?_
        intro w w' hne x h1 h2
        dsimp only at h1 h2
        rcases hfor w with h | h <;> rcases hfor w' with h' | h' <;>
          rw [h] at h1 <;> rw [h'] at h2 <;> simp at h1 h2
        rw [h1] at h2
        exact hne (Prod.mk.inj h2).2
    · refine List.nodup_range.imp ?_
      intro b b' hne x h1 h2
      simp only [List.mem_flatMap, List.mem_map] at h1 h2
      obtain ⟨_, _, _, _, e1⟩ := h1
      obtain ⟨_, _, _, _, e2⟩ := h2
      exact hne (Prod.mk.inj (e1.trans e2.symm)).1
  · intro b n
    simp only [List.mem_flatMap, List.mem_range, List.mem_map, Prod.mk.injEq]
    constructor
    · rintro ⟨b', hb', w, hw', n', hn', rfl, rfl⟩
      unfold outputsFor at hn'
      split at hn'
      · simp at hn'
      · next vi hvi =>
        split at hn'
        · simp at hn'
        · next hc =>
          simp only [Bool.false_eq_true, if_false, List.mem_singleton] at hn'
          subst hn'
          refine ⟨hb', hw', vi, hvi, fun hcon => ?_⟩
          by_contra hne
          exact hc ⟨hcon, hne⟩
    · rintro ⟨hb, hn, vi, hvi, hc⟩
      refine ⟨b, hb, n, hn, n, ?_, rfl, rfl⟩
      unfold outputsFor
      rw [hvi]
      dsimp only
      rw [if_neg (fun h => h.2 (hc h.1))]
      simp

/-- **C58, counterexample.** With two blanks between entries the loop also reads the end of the
second entry as an entry, because it moves by the length of the word only. -/
theorem C58_two_blanks_counterexample :
    scanList "psi  alpha".toList = .ok ["psi".toList, "alpha".toList, "a".toList] := by
  decide +kernel

/-- **C58, counterexample.** If all components are asked for and two components of a variable are
listed, both are output twice. -/
theorem C58_all_counterexample :
    outputsOf ⟨fun n => if n = "gx".toList then some 4 else if n = "gy".toList then some 5 else none,
      fun _ => false, fun _ => 4, fun _ => 2, fun i => if i = 4 then "gx".toList else "gy".toList⟩
      true 3 1 "gx gy".toList =
    .ok [(0, "gx".toList), (0, "gy".toList), (0, "gx".toList), (0, "gy".toList)] := by
  decide +kernel

end Sgrid

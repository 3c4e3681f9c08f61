import Mathlib.Algebra.Order.Ring.Rat
import Mathlib.Algebra.Field.Rat
import Mathlib.Tactic.Ring
import Verif.Model.Dissipation

/-!
C161: the dissipation terms.
-/

namespace Sgrid

variable {K : Type} [Field K]

namespace Spec

/-- The nine variables for derivatives. -/
def temps (T : DissTemps) : List Nat := [T.dux, T.duy, T.duz, T.duxx, T.duxy, T.duxz, T.duyy, T.duyz, T.duzz]

/-- The Laplace operator: the sum of the second derivatives. -/
def laplace (D : Nat → (Nat → K) → Nat → K) (u : Nat → K) (p : Nat) : K :=
  D 0 (D 0 u) p + D 1 (D 1 u) p + D 2 (D 2 u) p

end Spec

omit [Field K] in
theorem dissPartials_apply (D : Nat → (Nat → K) → Nat → K) (mem : Nat → Nat → K) (u d1 d2 d3 v : Nat) :
    dissPartials D mem u d1 d2 d3 v = if v = d3 then D 2 (mem u) else if v = d2 then D 1 (mem u)
      else if v = d1 then D 0 (mem u) else mem v := by
  unfold dissPartials
  by_cases h3 : v = d3
  · subst h3; simp
  · rw [aset_ne _ _ h3, if_neg h3]
    by_cases h2 : v = d2
    · subst h2; simp
    · rw [aset_ne _ _ h2, if_neg h2]
      by_cases h1 : v = d1
      · subst h1; simp
      · rw [aset_ne _ _ h1, if_neg h1]

theorem dissVar_spec [DecidableEq K] (D : Nat → (Nat → K) → Nat → K) (T : DissTemps) (hT : (Spec.temps T).Nodup)
    (npoints : Nat) (DissFac dtToOrder dt : K) (uc un : Nat) (hc : uc ∉ Spec.temps T) (hn : un ∉ Spec.temps T)
    (mem : Nat → Nat → K) :
    (∀ p, dissVar D T npoints DissFac dtToOrder dt uc un mem un p = if p < npoints then
      mem un p + (if dt = 0 then 1 else dt) * (DissFac * dtToOrder * Spec.laplace D (mem uc) p) else mem un p) ∧
    (∀ v, v ≠ un → v ∉ Spec.temps T → dissVar D T npoints DissFac dtToOrder dt uc un mem v = mem v) := by
  obtain ⟨dux, duy, duz, duxx, duxy, duxz, duyy, duyz, duzz⟩ := T
  simp only [Spec.temps, List.nodup_cons, List.mem_cons, List.not_mem_nil, or_false, not_or] at hT hc hn
  unfold dissVar
  dsimp only
  generalize hm : dissPartials D (dissPartials D (dissPartials D (dissPartials D mem uc dux duy duz)
    dux duxx duxy duxz) duy duxy duyy duyz) duz duxz duyz duzz = m
  have exx : m duxx = D 0 (D 0 (mem uc)) := by
    subst hm; simp only [dissPartials_apply]; grind
  have eyy : m duyy = D 1 (D 1 (mem uc)) := by
    subst hm; simp only [dissPartials_apply]; grind
  have ezz : m duzz = D 2 (D 2 (mem uc)) := by
    subst hm; simp only [dissPartials_apply]; grind
  have eo : ∀ v, v ∉ Spec.temps ⟨dux, duy, duz, duxx, duxy, duxz, duyy, duyz, duzz⟩ → m v = mem v := by
    intro v hv
    simp only [Spec.temps, List.mem_cons, List.not_mem_nil, or_false, not_or] at hv
    subst hm; simp only [dissPartials_apply]; grind
  have enu : m un = mem un := eo un (by simpa [Spec.temps] using hn)
  have key := upLoop_inv (lo := 0) (hi := npoints) (Nat.zero_le _)
    (body := fun ijk (mem : Nat → Nat → K) =>
      if dt ≠ 0 then aset mem un (aset (mem un) ijk (mem un ijk + dt * DissFac * dtToOrder *
        (mem duxx ijk + mem duyy ijk + mem duzz ijk)))
      else aset mem un (aset (mem un) ijk (mem un ijk + DissFac * dtToOrder *
        (mem duxx ijk + mem duyy ijk + mem duzz ijk)))) (s := m)
    (fun k t => (∀ p, t un p = if p < k then
        mem un p + (if dt = 0 then 1 else dt) * (DissFac * dtToOrder * Spec.laplace D (mem uc) p) else mem un p) ∧
      ∀ v, v ≠ un → t v = m v)
    ⟨fun p => by simp [enu], fun _ _ => rfl⟩
    (by
      rintro k t - hk ⟨h1, h2⟩
      have hxx := h2 duxx (by grind)
      have hyy := h2 duyy (by grind)
      have hzz := h2 duzz (by grind)
      have hb : (if dt ≠ 0 then aset t un (aset (t un) k (t un k + dt * DissFac * dtToOrder *
            (t duxx k + t duyy k + t duzz k)))
          else aset t un (aset (t un) k (t un k + DissFac * dtToOrder * (t duxx k + t duyy k + t duzz k)))) =
          aset t un (aset (t un) k (t un k + (if dt = 0 then 1 else dt) *
            (DissFac * dtToOrder * Spec.laplace D (mem uc) k))) := by
        rw [hxx, hyy, hzz, exx, eyy, ezz, Spec.laplace]
        by_cases hdt : dt = 0
        · simp only [hdt, ne_eq, not_true, if_true, if_false, one_mul]
        · simp only [hdt, ne_eq, not_false_eq_true, if_true, if_false, mul_assoc]
      rw [hb]
      refine ⟨fun p => ?_, fun v hv => by rw [aset_ne _ _ hv]; exact h2 v hv⟩
      rw [aset_self]
      by_cases hp : p = k
      · subst hp
        rw [aset_self, h1, if_neg (lt_irrefl _), if_pos (Nat.lt_succ_self _)]
      · rw [aset_ne _ _ hp, h1]
        exact if_congr (by omega) rfl rfl)
  exact ⟨key.1, fun v hv hv' => (key.2 v hv).trans (eo v hv')⟩

/-- C161: with a positive factor each variable in the list is changed at each point of the box by the factor times the
power of the time step times the Laplace operator of the other list's variable as it was before the call, and times dt
if dt is not 0.  Of the other variables only the nine that hold derivatives change, and no variable changes beyond the
points of the box. -/
theorem C161_terms [LinearOrder K] (D : Nat → (Nat → K) → Nat → K) (T : DissTemps) (hT : (Spec.temps T).Nodup)
    (npoints n : Nat) (uc un : Nat → Nat) (hc : ∀ j < n, uc j ∉ Spec.temps T) (hn : ∀ j < n, un j ∉ Spec.temps T)
    (hinj : ∀ i < n, ∀ j < n, un i = un j → i = j) (hsep : ∀ i j, i < j → j < n → un i ≠ uc j)
    (DissFac dtToOrder dt : K) (hD : 0 < DissFac) (mem : Nat → Nat → K) :
    (∀ j < n, ∀ p < npoints, addDissipation D T npoints n uc un DissFac dtToOrder dt mem (un j) p =
      mem (un j) p + (if dt = 0 then 1 else dt) * (DissFac * dtToOrder * Spec.laplace D (mem (uc j)) p)) ∧
    (∀ j < n, ∀ p, npoints ≤ p → addDissipation D T npoints n uc un DissFac dtToOrder dt mem (un j) p = mem (un j) p) ∧
    (∀ v, (∀ j < n, v ≠ un j) → v ∉ Spec.temps T →
      addDissipation D T npoints n uc un DissFac dtToOrder dt mem v = mem v) := by
  have key := upLoop_inv (lo := 0) (hi := n) (Nat.zero_le _)
    (body := fun j mem => dissVar D T npoints DissFac dtToOrder dt (uc j) (un j) mem) (s := mem)
    (fun k t => (∀ j < k, ∀ p, t (un j) p = if p < npoints then
        mem (un j) p + (if dt = 0 then 1 else dt) * (DissFac * dtToOrder * Spec.laplace D (mem (uc j)) p)
        else mem (un j) p) ∧
      (∀ v, (∀ j < k, v ≠ un j) → v ∉ Spec.temps T → t v = mem v))
    ⟨by intro j hj; omega, fun _ _ _ => rfl⟩
    (by
      rintro k t - hk ⟨h1, h2⟩
      obtain ⟨a, b⟩ := dissVar_spec D T hT npoints DissFac dtToOrder dt (uc k) (un k) (hc k hk) (hn k hk) t
      refine ⟨fun j hj p => ?_, fun v hv hv' => ?_⟩
      · by_cases hjk : j = k
        · subst hjk
          rw [a, h2 (uc j) (fun i hi => (hsep i j hi hk).symm) (hc j hk),
            h2 (un j) (fun i hi he => by have := hinj j hk i (by omega) he; omega) (hn j hk)]
        · rw [b (un j) (fun he => hjk (hinj j (by omega) k hk he)) (hn j (by omega))]
          exact h1 j (by omega) p
      · rw [b v (hv k (by omega)) hv']
        exact h2 v (fun j hj => hv j (by omega)) hv')
  unfold addDissipation
  rw [if_neg (not_le.2 hD)]
  obtain ⟨k1, k2⟩ := key
  refine ⟨fun j hj p hp => ?_, fun j hj p hp => ?_, k2⟩
  · rw [k1 j hj p, if_pos hp]
  · rw [k1 j hj p, if_neg (not_lt.2 hp)]

/-- C161: with a factor that is not positive nothing changes at all. -/
theorem C161_off [LinearOrder K] (D : Nat → (Nat → K) → Nat → K) (T : DissTemps) (npoints n : Nat) (uc un : Nat → Nat)
    (DissFac dtToOrder dt : K) (hD : DissFac ≤ 0) (mem : Nat → Nat → K) :
    addDissipation D T npoints n uc un DissFac dtToOrder dt mem = mem := by
  unfold addDissipation
  rw [if_pos hD]

/-- A variable may be in both lists at the same place; at other places the result of an earlier variable would be used.
Here the derivative in the first direction is the difference to the next point, and the values are the squares. -/
example : addDissipation (K := ℚ) (fun d u p => if d = 0 then u (p + 1) - u p else 0) ⟨1, 2, 3, 4, 5, 6, 7, 8, 9⟩ 4 1
    (fun _ => 0) (fun _ => 0) 3 (1 / 2) 0 (fun v p => if v = 0 then (p : ℚ) ^ 2 else 0) 0 2 = 7 := by decide +kernel

end Sgrid

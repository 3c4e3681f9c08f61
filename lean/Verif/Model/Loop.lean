import Verif.Model.Basic

/-!
The C loop `for(i = 0; i < n; i++) body`.
-/

namespace Sgrid

/-- `for(i = 0; i < n; i++) s = body(i, s)`: the loop with one more pass is the shorter loop
followed by the last pass. -/
def forN {σ : Type u} : Nat → (Nat → σ → Res σ) → σ → Res σ
  | 0, _, s => .ok s
  | n + 1, body, s => (forN n body s).bind (body n)

/-- Loop rule: an invariant kept by every pass holds at the end. -/
theorem forN_inv {σ : Type u} {n : Nat} {body : Nat → σ → Res σ} {s : σ} (P : Nat → σ → Prop)
    (h0 : P 0 s) (hs : ∀ i, i < n → ∀ t, P i t → ∃ t', body i t = .ok t' ∧ P (i + 1) t') :
    ∃ t, forN n body s = .ok t ∧ P n t := by
  induction n with
  | zero => exact ⟨s, rfl, h0⟩
  | succ n ih =>
    obtain ⟨t, ht, hP⟩ := ih fun i hi => hs i (by omega)
    obtain ⟨t', ht', hP'⟩ := hs n (by omega) t hP
    exact ⟨t', by rw [forN, ht]; exact ht', hP'⟩

/-- Partial-correctness loop rule: if the loop ends well, an invariant kept by every pass that
ends well holds at the end. -/
theorem forN_inv_ok {σ : Type u} {n : Nat} {body : Nat → σ → Res σ} {s t : σ}
    (P : Nat → σ → Prop) (h0 : P 0 s)
    (hs : ∀ i, i < n → ∀ u u', P i u → body i u = .ok u' → P (i + 1) u')
    (h : forN n body s = .ok t) : P n t := by
  induction n generalizing t with
  | zero => cases h; exact h0
  | succ n ih =>
    rw [forN, Res.bind_eq_ok] at h
    obtain ⟨u, hu, hb⟩ := h
    exact hs n (by omega) u t (ih (fun i hi => hs i (by omega)) hu) hb

/-- Two loops whose passes agree on all reachable states give the same result. -/
theorem forN_congr {σ : Type u} {n : Nat} {b₁ b₂ : Nat → σ → Res σ} {s : σ}
    (h : ∀ i, i < n → ∀ t, b₁ i t = b₂ i t) : forN n b₁ s = forN n b₂ s := by
  induction n with
  | zero => rfl
  | succ n ih =>
    rw [forN, forN, ih fun i hi => h i (by omega)]
    cases forN n b₂ s with
    | ok t => exact h n (by omega) t
    | abort => rfl
    | ub => rfl

end Sgrid

import Verif.Lemmas.Fields

/-!
What the registered routines of the time integrators are expected to do, and the textbook methods.
-/

namespace Sgrid
variable {K : Type} [Field K] [DecidableEq K]

/-- Among the lists of the family only `r` changes: it gets the field `φ` (in the active boxes)
and keeps its time. Variables outside the family may change. -/
structure Spec.Sets (S : List Nat) (D : Dom) (st st' : DState K) (r : Nat) (φ : Fld K) : Prop where
  fam : st'.Family S D
  set : st'.fld D r = D.mask φ
  others : ∀ l ∈ S, l ≠ r → st'.fld D l = st.fld D l
  times : ∀ l ∈ S, (st'.vl l).time = (st.vl l).time

/-- `R` computes the right hand side `f` (of a field and a time) and the algebraic conditions `g`
(of the new field and the old field): `rhs unew upre c ucur` gives `unew` the value `f(ucur)` if
`c` is zero and `upre + c f(ucur)` otherwise. -/
structure Spec.Computes (S : List Nat) (D : Dom) (R : EvoFuns K) (f : Fld K → K → Fld K)
    (g : Fld K → Fld K → Fld K) : Prop where
  rhs : ∀ (st : DState K) (unew upre ucur : Nat) (c : K), st.Family S D → unew ∈ S → upre ∈ S →
    ucur ∈ S → unew ≠ ucur → (c ≠ 0 → unew ≠ upre) →
    ∃ st', R.rhs st unew upre c ucur = .ok st' ∧
      Spec.Sets S D st st' unew (if c = 0 then f (st.fld D ucur) (st.vl ucur).time
        else st.fld D upre + c • f (st.fld D ucur) (st.vl ucur).time)
  noAlg : R.alg = none → ∀ u v, g u v = u
  alg : ∀ a, R.alg = some a → ∀ (st : DState K) (unew upre : Nat), st.Family S D → unew ∈ S →
    upre ∈ S → unew ≠ upre →
    ∃ st', a st unew upre = .ok st' ∧
      Spec.Sets S D st st' unew (g (st.fld D unew) (st.fld D upre))

end Sgrid

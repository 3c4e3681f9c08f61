import Mathlib.Algebra.Field.Rat
import Verif.Model.Integral3D

/-!
C160: the integral over a region in three dimensions is the iterated integral.
-/

namespace Sgrid

namespace Spec

/-- The number an integrator returns for a function without side effects. -/
def answer {K : Type} (f : K → K) : Quest K → K
  | .done v => v
  | .ask x next => answer f (next (f x))

end Spec

theorem Quest.run_pure {K σ : Type} {f : K → σ → K × σ} {g : K → K} {I : σ → Prop}
    (h : ∀ x s, I s → (f x s).1 = g x ∧ I (f x s).2) :
    ∀ (q : Quest K) (s : σ), I s → (q.run f s).1 = Spec.answer g q ∧ I (q.run f s).2
  | .done v, s, hs => ⟨rfl, hs⟩
  | .ask x next, s, hs => by
    have hx := h x s hs
    have ih := Quest.run_pure h (next (f x s).1) (f x s).2 hx.2
    rw [Quest.run, Spec.answer, ← hx.1]
    exact ih

/-- C160: for every integrator, however it chooses its points, and whatever the static variables were before, the result
is the iterated integral: the integrator for x applied to the function that is the integrator for y, applied to the
function that is the integrator for z of func(x, y, z), with the limits at these points, and the accuracy and the number
of passes that belong to each direction.  The integrand may have side effects, as long as the static variables of this
file are not among them. -/
theorem C160_iterated {K : Type} (meth : Integrator K) (func : K → K → K → K) (x1 x2 : K)
    (y1 y2 : K → K) (z1 z2 : K → K → K) (sx sy sz : K) (maxx maxy maxz : Int) (s : Static3D K) :
    (integral3D id meth func x1 x2 y1 y2 z1 z2 sx sy sz maxx maxy maxz s).1 =
      Spec.answer (fun x => Spec.answer (fun y => Spec.answer (fun z => func x y z)
        (meth (z1 x y) (z2 x y) sz maxz)) (meth (y1 x) (y2 x) sy maxy)) (meth x1 x2 sx maxx) := by
  have base : ∀ t : Static3D K, (t.sySav = sy ∧ t.szSav = sz ∧ t.maxySav = maxy ∧ t.maxzSav = maxz ∧
      t.integrator = meth ∧ t.nrfunc = func ∧ t.yLim1 = y1 ∧ t.yLim2 = y2 ∧ t.zLim1 = z1 ∧ t.zLim2 = z2) →
      ∀ x, (int3F1 id x t).1 = Spec.answer (fun y => Spec.answer (fun z => func x y z)
        (meth (z1 x y) (z2 x y) sz maxz)) (meth (y1 x) (y2 x) sy maxy) ∧
      ((int3F1 id x t).2.sySav = sy ∧ (int3F1 id x t).2.szSav = sz ∧ (int3F1 id x t).2.maxySav = maxy ∧
        (int3F1 id x t).2.maxzSav = maxz ∧ (int3F1 id x t).2.integrator = meth ∧ (int3F1 id x t).2.nrfunc = func ∧
        (int3F1 id x t).2.yLim1 = y1 ∧ (int3F1 id x t).2.yLim2 = y2 ∧ (int3F1 id x t).2.zLim1 = z1 ∧
        (int3F1 id x t).2.zLim2 = z2) := by
    rintro t ⟨rfl, rfl, rfl, rfl, rfl, rfl, rfl, rfl, rfl, rfl⟩ x
    have h2 := Quest.run_pure (f := int3F2 id)
      (g := fun y => Spec.answer (fun z => t.nrfunc x y z) (t.integrator (t.zLim1 x y) (t.zLim2 x y) t.szSav t.maxzSav))
      (I := fun u => ∃ y, u = { t with xSav := x, ySav := y })
      (by
        rintro y u ⟨y0, rfl⟩
        have h3 := Quest.run_pure (f := int3F3 id) (g := fun z => t.nrfunc x y z)
          (I := fun u => u = { t with xSav := x, ySav := y })
          (by rintro z u rfl; exact ⟨rfl, rfl⟩)
          (t.integrator (t.zLim1 x y) (t.zLim2 x y) t.szSav t.maxzSav) { t with xSav := x, ySav := y } rfl
        exact ⟨h3.1, y, h3.2⟩)
      (t.integrator (t.yLim1 x) (t.yLim2 x) t.sySav t.maxySav) { t with xSav := x } ⟨t.ySav, rfl⟩
    obtain ⟨e, y, h⟩ := h2
    refine ⟨e, ?_⟩
    unfold int3F1
    dsimp only
    rw [h]
    exact ⟨rfl, rfl, rfl, rfl, rfl, rfl, rfl, rfl, rfl, rfl⟩
  exact (Quest.run_pure (f := int3F1 id) (fun x t ht => base t ht x) (meth x1 x2 sx maxx) _
    ⟨rfl, rfl, rfl, rfl, rfl, rfl, rfl, rfl, rfl, rfl⟩).1

/-- C160: if the integrator gives the right value for each of the functions in the three directions, the result is the
right value of the iterated integral.  `J a b f` is the integral of f from a to b. -/
theorem C160_exact {K : Type} (J : K → K → (K → K) → K) (meth : Integrator K) (func : K → K → K → K) (x1 x2 : K)
    (y1 y2 : K → K) (z1 z2 : K → K → K) (sx sy sz : K) (maxx maxy maxz : Int) (s : Static3D K)
    (hz : ∀ x y, Spec.answer (fun z => func x y z) (meth (z1 x y) (z2 x y) sz maxz) =
      J (z1 x y) (z2 x y) (fun z => func x y z))
    (hy : ∀ x, Spec.answer (fun y => J (z1 x y) (z2 x y) (fun z => func x y z)) (meth (y1 x) (y2 x) sy maxy) =
      J (y1 x) (y2 x) (fun y => J (z1 x y) (z2 x y) (fun z => func x y z)))
    (hx : Spec.answer (fun x => J (y1 x) (y2 x) (fun y => J (z1 x y) (z2 x y) (fun z => func x y z)))
      (meth x1 x2 sx maxx) =
      J x1 x2 (fun x => J (y1 x) (y2 x) (fun y => J (z1 x y) (z2 x y) (fun z => func x y z)))) :
    (integral3D id meth func x1 x2 y1 y2 z1 z2 sx sy sz maxx maxy maxz s).1 =
      J x1 x2 (fun x => J (y1 x) (y2 x) (fun y => J (z1 x y) (z2 x y) (fun z => func x y z))) := by
  rw [C160_iterated]
  simp only [hz, hy, hx]

/-- Static variables that are all zero. -/
def static3DZero : Static3D ℚ where
  xSav := 0
  ySav := 0
  sySav := 0
  szSav := 0
  maxySav := 0
  maxzSav := 0
  integrator := trapezoidQuest
  nrfunc := fun _ _ _ => 0
  yLim1 := fun _ => 0
  yLim2 := fun _ => 0
  zLim1 := fun _ _ => 0
  zLim2 := fun _ _ => 0

/-- The integral of x y z from 0 to 2 in each direction; the trapezoidal rule is exact for it. -/
example : (integral3D id trapezoidQuest (fun x y z => x * y * z) 0 2 (fun _ => 0) (fun _ => 2) (fun _ _ => 0)
    (fun _ _ => 2) 0 0 0 1 1 1 static3DZero).1 = 8 := by decide +kernel

/-- C160: the integrand must not use integral3D itself.  Here the integrand is 1, and each of its calls computes another
integral in the same way, of the function 0; the result is then 1/8 and not 1. -/
theorem C160_nested :
    (integral3D (fun s => (integral3D id trapezoidQuest (fun _ _ _ => 0) 0 1 (fun _ => 0) (fun _ => 1) (fun _ _ => 0)
      (fun _ _ => 1) 0 0 0 1 1 1 s).2) trapezoidQuest (fun _ _ _ => 1) 0 1 (fun _ => 0) (fun _ => 1) (fun _ _ => 0)
      (fun _ _ => 1) 0 0 0 1 1 1 static3DZero).1 = (1 / 8 : ℚ) := by decide +kernel

end Sgrid

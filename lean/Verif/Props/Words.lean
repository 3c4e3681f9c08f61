import Mathlib.Analysis.Real.Pi.Bounds
import Mathlib.Tactic.FinCases
import Verif.Lemmas.Getv
import Verif.Model.Skeleton
import Verif.Model.Wolfio
import Verif.Props.Tensors
import Verif.Props.Variables

/-!
Special words and characters: `pi` in parameter values (C01), the words that mean `true` (C02),
comment lines (C08), the number of bins (C09), lower case (C11), names, parities and duplicates of
variables (C12), lines of a file (C25).
-/

namespace Sgrid

namespace Spec

/-- Digits of a decimal number with one decimal point: the number without the point and the number
of places behind it. -/
def digits : CStr → Nat × Nat × Bool → Nat × Nat × Bool
  | [], r => r
  | c :: t, (n, p, seen) =>
    if c = '.' then digits t (n, p, true)
    else digits t (10 * n + (c.toNat - 48), if seen then p + 1 else p, seen)

/-- Value of a number printed by `%.18e` whose exponent is 0. -/
def decimal (s : CStr) : ℚ :=
  let neg := s.head? = some '-'
  let m := s.dropWhile (· = '-')
  let r := digits (m.takeWhile (· ≠ 'e')) (0, 0, false)
  (if neg then -1 else 1) * (r.1 : ℚ) / 10 ^ r.2.1

end Spec

/-- **C01**, special values. The six words for multiples of `pi` are replaced by decimal numbers
that agree with the multiples to better than `1.3e-16` times the factor; nothing else is changed. -/
theorem C01_pi_words :
    (∀ p ∈ [("pi", (1 : ℚ)), ("-pi", -1), ("pi/2", 1 / 2), ("-pi/2", -1 / 2), ("2*pi", 2),
        ("-2*pi", -2)],
      |(Spec.decimal (translate p.1.toList) : ℝ) - p.2 * Real.pi| ≤ 1.3e-16 * |p.2|) ∧
    ∀ v : CStr, v ∉ ["pi".toList, "-pi".toList, "pi/2".toList, "-pi/2".toList, "2*pi".toList,
      "-2*pi".toList] → translate v = v := by
  have h1 := Real.pi_gt_d20
  have h2 := Real.pi_lt_d20
  constructor
  · have e : ∀ p ∈ [("pi", (1 : ℚ)), ("-pi", -1), ("pi/2", 1 / 2), ("-pi/2", -1 / 2), ("2*pi", 2),
        ("-2*pi", -2)], Spec.decimal (translate p.1.toList) = p.2 * 3.141592653589793116 := by
      decide +kernel
    intro p hp
    rw [e p hp]
    push_cast
    have : ((p.2 : ℝ) * 3.141592653589793116 - p.2 * Real.pi) =
      p.2 * (3.141592653589793116 - Real.pi) := by ring
    rw [this, abs_mul, mul_comm]
    have h3 : |(3.141592653589793116 : ℝ) - Real.pi| ≤ 1.3e-16 := by
      rw [abs_le]; constructor <;> norm_num at h1 h2 ⊢ <;> linarith
    exact mul_le_mul_of_nonneg_right h3 (abs_nonneg _)
  · intro v hv
    simp only [List.mem_cons, List.not_mem_nil, or_false, not_or] at hv
    obtain ⟨a, b, c, d, e, f⟩ := hv
    simp only [translate, a, b, c, d, e, f, if_false]

example : Spec.decimal "-1.25e+00".toList = -5 / 4 := by decide +kernel

/-- `strstr` finds something exactly if the needle is a part of the string. -/
theorem strstr_isSome {hay needle : CStr} : (strstr hay needle).isSome ↔ needle <:+: hay := by
  constructor
  · intro h
    obtain ⟨o, ho⟩ := Option.isSome_iff_exists.1 h
    induction hay generalizing o with
    | nil =>
      unfold strstr at ho
      split at ho
      · next hp => exact (List.isPrefixOf_iff_prefix.1 hp).isInfix
      · cases ho
    | cons c t ih =>
      unfold strstr at ho
      split at ho
      · next hp => exact (List.isPrefixOf_iff_prefix.1 hp).isInfix
      · dsimp only at ho
        obtain ⟨o', ho', -⟩ := Option.map_eq_some_iff.1 ho
        exact (ih (by rw [ho']; rfl) o' ho').trans (List.suffix_cons _ _).isInfix
  · rintro ⟨a, b, rfl⟩
    induction a with
    | nil =>
      unfold strstr
      rw [if_pos]
      · rfl
      · rw [List.isPrefixOf_iff_prefix]
        simp
    | cons c a ih =>
      unfold strstr
      split
      · rfl
      · simp only [List.cons_append, Option.isSome_map]
        exact ih

/-- **C02**, the boolean cache. A value counts as 1 if it contains one of nine words, and as
the number it starts with otherwise. -/
theorem C02_bool_words {ν : Type} (C : Conv ν) (name value descr : CStr) :
    (("yes".toList <:+: translate value ∨ "Yes".toList <:+: translate value ∨
      "YES".toList <:+: translate value ∨ "on".toList <:+: translate value ∨
      "On".toList <:+: translate value ∨ "ON".toList <:+: translate value ∨
      "true".toList <:+: translate value ∨ "True".toList <:+: translate value ∨
      "TRUE".toList <:+: translate value) → (mkPar C name value descr).bool = 1) ∧
    (¬("yes".toList <:+: translate value ∨ "Yes".toList <:+: translate value ∨
      "YES".toList <:+: translate value ∨ "on".toList <:+: translate value ∨
      "On".toList <:+: translate value ∨ "ON".toList <:+: translate value ∨
      "true".toList <:+: translate value ∨ "True".toList <:+: translate value ∨
      "TRUE".toList <:+: translate value) →
      (mkPar C name value descr).bool = C.atoi (translate value)) := by
  have e : (mkPar C name value descr).bool = boolOf C.atoi (translate value) := rfl
  rw [e]
  generalize translate value = v
  have h : (["yes", "Yes", "YES", "on", "On", "ON", "true", "True", "TRUE"].any
      fun w => (strstr v w.toList).isSome) = true ↔
      ("yes".toList <:+: v ∨ "Yes".toList <:+: v ∨ "YES".toList <:+: v ∨ "on".toList <:+: v ∨
      "On".toList <:+: v ∨ "ON".toList <:+: v ∨ "true".toList <:+: v ∨ "True".toList <:+: v ∨
      "TRUE".toList <:+: v) := by
    simp only [List.any_cons, List.any_nil, Bool.or_false, Bool.or_eq_true, strstr_isSome]
  unfold boolOf
  constructor
  · intro hw
    rw [if_pos (h.2 hw)]
  · intro hw
    rw [if_neg (fun hh => hw (h.1 hh))]

example : (mkPar (ν := Int) ⟨fun _ => 0, fun _ => 7⟩ [] "it is TRUE".toList []).bool = 1 := by
  decide +kernel
/-- Any value with the letters "on" in it counts as true. -/
example : (mkPar (ν := Int) ⟨fun _ => 0, fun _ => 0⟩ [] "none".toList []).bool = 1 := by
  decide +kernel

/-- **C08**, lines that count: exactly the lines that are neither empty nor start with `#`, in
order. -/
theorem C08_arg_lines (raw : List CStr) (l : CStr) :
    (l ∈ argLines raw ↔ l ∈ raw ∧ l ≠ [] ∧ l.head? ≠ some '#') ∧
    (argLines raw).Sublist raw := by
  refine ⟨?_, List.filter_sublist⟩
  unfold argLines
  rw [List.mem_filter]
  cases l with
  | nil => simp
  | cons c t => simp

/-- The number of times a line counts is not changed. -/
theorem C08_arg_lines_count (raw : List CStr) (l : CStr) (h : l ≠ []) (h' : l.head? ≠ some '#') :
    (argLines raw).count l = raw.count l := by
  unfold argLines
  rw [List.count_filter]
  cases l with
  | nil => exact absurd rfl h
  | cons c t => simpa using h'

example : argLines ["a b".toList, [], "# c".toList, " #".toList] = ["a b".toList, " #".toList] := by
  decide +kernel

/-- The time bins in the order of the enumeration in sgrid_main.h:142-163. -/
inductive BinName
  | POST_PARAMETERS | PRE_GRID | POST_GRID | PRE_COORDINATES | COORDINATES | PRE_INITIALDATA
  | INITIALDATA | POST_INITIALDATA | PRE_EVOLVE | EVOLVE | PRE_POST_EVOLVE | POST_EVOLVE | ANALYZE
  | OUTPUT | POST_OUTPUT | PRE_FINALIZE_GRID | POST_FINALIZE_GRID | LAST
  deriving DecidableEq

/-- **C09**, the array of bins has exactly one entry for each bin: adding to and running a bin of
the enumeration never leaves the array, and the number behind `LAST` is already outside. -/
theorem C09_all_bins {G : Type} (b : Bins (G → G)) (f : G → G) (g : G) :
    (∀ n : BinName, b.runFun n.ctorIdx g ≠ .ub ∧ b.addFun n.ctorIdx f ≠ .ub) ∧
    b.runFun (BinName.LAST.ctorIdx + 1) g = .ub := by
  constructor
  · intro n
    have hn : n.ctorIdx < nFunctions := by cases n <;> decide
    constructor
    · unfold Bins.runFun
      rw [if_neg (by omega)]
      split <;> simp
    · unfold Bins.addFun
      split
      · simp
      · rw [if_neg (by omega)]; simp
  · unfold Bins.runFun
    rw [if_pos (by decide)]

/-- **C11**, `tolower`: the 26 capitals become small letters, everything else stays. -/
theorem C11_lower : ("ABCDEFGHIJKLMNOPQRSTUVWXYZ".toList.map toLowerC =
      "abcdefghijklmnopqrstuvwxyz".toList) ∧
    ∀ c : Char, c ∉ "ABCDEFGHIJKLMNOPQRSTUVWXYZ".toList → toLowerC c = c := by
  refine ⟨by decide +kernel, fun c hc => ?_⟩
  unfold toLowerC
  rw [if_neg]
  rintro ⟨h1, h2⟩
  apply hc
  have h3 : 65 ≤ c.val.toNat := by simpa [UInt32.le_iff_toNat_le] using h1
  have h4 : c.val.toNat ≤ 90 := by simpa [UInt32.le_iff_toNat_le] using h2
  have h5 : ∀ n, n < 91 → 65 ≤ n → Char.ofNat n ∈ "ABCDEFGHIJKLMNOPQRSTUVWXYZ".toList := by
    decide +kernel
  have := h5 c.toNat (by simp only [Char.toNat]; omega) (by simp only [Char.toNat]; omega)
  rwa [Char.ofNat_toNat] at this

/-! #### C12: components and duplicates -/

section
variable {ν : Type} [Zero ν]

theorem addComps_records {db db' : VDB ν} {name ti descr : CStr} {nc j : Nat} {cs : List CStr}
    {sym : List Int} (hr : db.restarts = 0)
    (h : VDB.addComps name ti descr nc sym db j cs = .ok db') (k : Nat) (hk : k < cs.length) :
    db'.vars[db.vars.length + k]? = some
      { name := (name ++ cs[k]).take 99, ti := ti, descr := descr, index := db.vars.length + k,
        ncomp := nc, comp := j + k, sym := (sym.drop (3 * (j + k))).take 3, bnd := (0, 0, 0),
        const := false } := by
  induction cs generalizing db j k with
  | nil => simp at hk
  | cons c cs ih =>
    simp only [VDB.addComps, Res.bind_eq_ok] at h
    obtain ⟨db1, h1, h2⟩ := h
    unfold VDB.addComp at h1
    simp only at h1
    split at h1
    · cases h1
    · cases h1
      cases k with
      | zero =>
        obtain ⟨blk, e, -⟩ := addComps_cases h2
        rw [e]
        simp
      | succ k =>
        have := ih (by simpa using hr) h2 k (by simpa using hk)
        rw [List.length_append, List.length_singleton] at this
        rw [show db.vars.length + (k + 1) = db.vars.length + 1 + k by omega,
          show j + (k + 1) = j + 1 + k by omega, this]
        simp

/-- **C12**, AddVar in a first run: component `j` gets the next free index, the name of the
variable followed by that of the component (cut off after 99 characters), and three parities, which
are those of the component (for every index string but the one of `C10_counterexample`). -/
theorem C12_added (db db' : VDB ν) (name ti descr : CStr) (hr : db.restarts = 0)
    (h : db.addVar name ti descr = .ok db') :
    ∃ comps : List CStr, (tensorIndexList ti).map (·.1) = .ok comps ∧
      db'.vars.length = db.vars.length + comps.length ∧
      (∀ i, i < db.vars.length → db'.vars[i]? = db.vars[i]?) ∧
      ∀ j (hj : j < comps.length), ∃ v, db'.vars[db.vars.length + j]? = some v ∧
        v.name = (name ++ comps[j]).take 99 ∧ v.ti = ti ∧ v.descr = descr ∧ v.comp = j ∧
        v.ncomp = comps.length ∧ v.const = false ∧ v.bnd = (0, 0, 0) ∧
        (ti.map toLowerC ≠ "(ab)(ij)".toList → ti.map toLowerC ≠ "abij+abji+baij+baji)".toList →
          v.sym = [Spec.parity 0 comps[j], Spec.parity 1 comps[j], Spec.parity 2 comps[j]]) := by
  unfold VDB.addVar at h
  rw [Res.bind_eq_ok] at h
  obtain ⟨r, h1, h2⟩ := h
  obtain ⟨blk, e1, -, e3, -⟩ := addComps_cases h2
  refine ⟨r.1, by rw [h1]; rfl, by rw [e1]; simp [e3 hr], fun i hi => ?_, fun j hj => ?_⟩
  · rw [e1]; exact List.getElem?_append_left hi
  · have := addComps_records hr h2 j hj
    rw [Nat.zero_add] at this
    refine ⟨_, this, rfl, rfl, rfl, rfl, rfl, rfl, rfl, fun t1 t2 => ?_⟩
    have hp := fun d hd => C10_parity_partial ti r h1 t1 t2 j hj d hd
    apply List.ext_getElem?
    intro d
    rw [List.getElem?_take]
    by_cases hd : d < 3
    · rw [if_pos hd, List.getElem?_drop, hp d hd]
      have : d = 0 ∨ d = 1 ∨ d = 2 := by omega
      rcases this with rfl | rfl | rfl <;> rfl
    · rw [if_neg hd]
      symm
      apply List.getElem?_eq_none
      simpa using Nat.le_of_not_lt hd

theorem dupOne_name {db : VDB ν} (hi : db.Inv) {p : CStr} {vi : Nat} {r : VDB ν × Nat}
    (h : db.dupOne p vi = .ok r) :
    ∃ n, db.names[vi]? = some n ∧ r.1.names[r.2]? = some ((n ++ p).take 999) := by
  unfold VDB.dupOne at h
  rw [Res.bind_eq_ok] at h
  obtain ⟨var, hv, h⟩ := h
  rw [raw_nat] at hv
  have hvar : db.names[vi]? = some var.name := by
    split at hv
    · next x hx => cases hv; simp [VDB.names, hx]
    · cases hv
  refine ⟨var.name, hvar, ?_⟩
  simp only at h
  split at h
  · next j hj => cases h; exact (indLax_some hi).1 hj
  · simp only [Res.bind_eq_ok] at h
    obtain ⟨db1, h1, k, h2, w, h3, h4⟩ := h
    cases h4
    have a := (addVar_spec hi h1).1
    have hm := inv_modify a k (fun v =>
        { v with ti := w.ti, comp := w.comp, ncomp := w.ncomp, bnd := w.bnd,
                 const := w.const, sym := w.sym }) (fun _ => rfl) (fun _ => rfl)
    dsimp only
    rw [hm.2]
    apply (indLax_some a).1
    unfold VDB.ind at h2
    split at h2
    · next x hx => cases h2; exact hx
    · cases h2

/-- **C12**, AddDuplicate: the new list has as many entries as the old one, and entry `k` of the
new list is the index of the variable whose name is that of entry `k` of the old list with the
suffix (cut off after 999 characters). -/
theorem C12_duplicate_list (ops : List (VarOp ν)) (db : VDB ν) (h : (VDB.init ν).run ops = .ok db)
    (post : CStr) (vl : List Nat) (r : VDB ν × List Nat)
    (hd : VDB.addDuplicate post db vl = .ok r) :
    List.Forall₂ (fun i j : Nat => ∃ n, r.1.varName i = .ok n ∧
      r.1.varName j = .ok ((n ++ post).take 999)) vl r.2 := by
  have hi := (run_spec VDB.init_inv h).1
  clear h
  have hvn : ∀ (d : VDB ν) (i : Nat) n, d.names[i]? = some n → d.varName i = .ok n := by
    intro d i n hn
    simp only [VDB.names, List.getElem?_map, Option.map_eq_some_iff] at hn
    obtain ⟨v, hv, rfl⟩ := hn
    have hl := (List.getElem?_eq_some_iff.1 hv).1
    unfold VDB.varName
    rw [if_neg (by omega)]
    simp only [Int.toNat_natCast, hv]
  induction vl generalizing db r with
  | nil => simp [VDB.addDuplicate] at hd; subst hd; exact .nil
  | cons vi t ih =>
    simp only [VDB.addDuplicate, Res.bind_eq_ok] at hd
    obtain ⟨r1, h1, s, h2, h3⟩ := hd
    cases h3
    obtain ⟨a, b, -⟩ := dupOne_spec hi h1
    obtain ⟨-, b', -⟩ := addDuplicate_spec a h2
    obtain ⟨n, e1, e2⟩ := dupOne_name hi h1
    have up : ∀ {l l' : List CStr} {k : Nat} {x : CStr}, l <+: l' → l[k]? = some x →
        l'[k]? = some x := by
      rintro l l' k x ⟨u, rfl⟩ hx
      rw [List.getElem?_append_left (List.getElem?_eq_some_iff.1 hx).1]; exact hx
    exact .cons ⟨n, hvn _ _ _ (up (b.trans b') e1), hvn _ _ _ (up b' e2)⟩ (ih _ _ h2 a)

example : ((VDB.init Int).run exVars).bind (fun db =>
    (VDB.addDuplicate "_q".toList db [0, 7]).map fun r =>
      (r.2, r.1.names.drop 14 |>.map String.ofList)) =
    .ok ([14, 15], ["gxx_q", "bx_q"]) := by decide +kernel

end

/-! #### C25: lines of a file -/

/-- **C25**, `fscanline`: a line that fits into the buffer with its end marker is delivered without
its newline, also if it is the last one and has none; only at the end of the file nothing is
delivered; a longer line overruns the buffer. -/
theorem C25_fscanline (size : Nat) (l r : CStr) (hn : '\n' ∉ l) (h0 : Char.ofNat 0 ∉ l) :
    (l.length < size → Wolfio.fscanline size (l ++ '\n' :: r) = .ok (some l.length, l, r)) ∧
    (l.length < size → l ≠ [] → Wolfio.fscanline size l = .ok (some l.length, l, [])) ∧
    (0 < size → Wolfio.fscanline size [] = .ok (none, [], [])) ∧
    (size ≤ l.length → Wolfio.fscanline size (l ++ '\n' :: r) = .ub) := by
  have t1 : (l ++ '\n' :: r).takeWhile (· ≠ '\n') = l := by
    rw [List.takeWhile_append_of_pos (by intro a ha; simpa using fun h : a = '\n' => hn (h ▸ ha))]
    simp
  have t2 : (l ++ '\n' :: r).dropWhile (· ≠ '\n') = '\n' :: r := by
    rw [List.dropWhile_append_of_pos (by intro a ha; simpa using fun h : a = '\n' => hn (h ▸ ha))]
    simp
  have t3 : l.takeWhile (· ≠ '\n') = l := by
    have := List.takeWhile_append_of_pos (p := (· ≠ '\n')) (l₁ := l) (l₂ := [])
      (by intro a ha; simpa using fun h : a = '\n' => hn (h ▸ ha))
    simpa using this
  have t4 : l.dropWhile (· ≠ '\n') = [] := by
    have := List.dropWhile_append_of_pos (p := (· ≠ '\n')) (l₁ := l) (l₂ := [])
      (by intro a ha; simpa using fun h : a = '\n' => hn (h ▸ ha))
    simpa using this
  have f : l.filter (· ≠ Char.ofNat 0) = l := by
    rw [List.filter_eq_self]
    intro a ha
    simpa using fun h : a = Char.ofNat 0 => h0 (h ▸ ha)
  unfold Wolfio.fscanline
  refine ⟨fun h => ?_, fun h hne => ?_, fun h => ?_, fun h => ?_⟩
  · simp only [t1, t2, f]
    rw [if_neg (by omega), if_neg (by simp)]
    rfl
  · simp only [t3, t4, f]
    rw [if_neg (by omega), if_neg (by simp [hne])]
    rfl
  · simp only [List.takeWhile_nil, List.filter_nil, List.length_nil, List.dropWhile_nil]
    rw [if_neg (by omega)]
    simp
  · simp only [t1, f]
    rw [if_pos (by omega)]

end Sgrid

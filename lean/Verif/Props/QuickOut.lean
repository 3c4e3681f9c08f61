import Verif.Model.QuickOut
import Verif.Props.Params

/-!
C173: output of some variables right now.
-/

namespace Sgrid
open Spec

theorem getAll_ok {ν : Type} {db : PDB ν} : ∀ {l : List CStr} {f : CStr → CStr}, (∀ n ∈ l, db.gets n = .ok (f n)) →
    getAll db l = .ok (l.map fun n => (n, f n)) := by
  intro l f h
  induction l with
  | nil => rfl
  | cons n l ih =>
    rw [getAll, h n List.mem_cons_self, Res.bind_ok, ih fun m hm => h m (List.mem_cons_of_mem _ hm), Res.bind_ok]
    rfl

theorem setAll_ok {ν : Type} (C : Conv ν) : ∀ (l : List (CStr × CStr)) (db : PDB ν), db.Inv C → (l.map (·.1)).Nodup →
    (∀ n ∈ l.map (·.1), (db.find n).isSome) →
    ∃ db', setAll C l db = .ok db' ∧ db'.Inv C ∧ (∀ n v, (n, v) ∈ l → db'.gets n = .ok (translate v)) ∧
      ∀ n, n ∉ l.map (·.1) → db'.find n = db.find n := by
  intro l
  induction l with
  | nil => intro db hi _ _; exact ⟨db, rfl, hi, by simp, fun _ _ => rfl⟩
  | cons a l ih =>
    obtain ⟨n, v⟩ := a
    intro db hi hnd hf
    simp only [List.map_cons, List.nodup_cons] at hnd
    obtain ⟨p, hp⟩ := Option.isSome_iff_exists.1 (hf n (by simp))
    obtain ⟨db1, e1, i1, -, f1⟩ := PDB.set_spec (v := v) hi hp
    obtain ⟨db', e2, i2, g2, k2⟩ := ih db1 i1 hnd.2 (fun m hm => by
      rw [f1 m]
      split
      · rfl
      · exact hf m (by simp only [List.map_cons]; exact List.mem_cons_of_mem _ hm))
    refine ⟨db', by rw [setAll, e1, Res.bind_ok]; exact e2, i2, ?_, ?_⟩
    · intro m u hm
      rcases List.mem_cons.1 hm with h | h
      · cases h
        unfold PDB.gets
        rw [k2 n hnd.1, f1 n, if_pos rfl]
        rfl
      · exact g2 m u h
    · intro m hm
      simp only [List.map_cons, List.mem_cons, not_or] at hm
      rw [k2 m hm.2, f1 m, if_neg hm.1]

theorem find_isSome {ν : Type} {db : PDB ν} {n v : CStr} (h : db.gets n = .ok v) : (db.find n).isSome := by
  unfold PDB.gets at h
  split at h
  · cases h
  · rename_i p hp; rw [hp]; rfl

/-- C173: write_grid is called with the names in the four lists, with output in every iteration, and with the time and
iteration given.  After it the nine parameters, the time and the iteration are as before.  Other parameters are as
write_grid left them. -/
theorem C173_output {ν : Type} (C : Conv ν) (write : QuickState ν → Res (QuickState ν)) (names : CStr) (fakeT : ν)
    (fakeI : Int) (s : QuickState ν) (hi : s.db.Inv C) (f : CStr → CStr) (hf : ∀ n ∈ quickPars, s.db.gets n = .ok (f n))
    (hw : ∀ s0 : QuickState ν, s0.db.Inv C → (∀ n ∈ quickPars, (s0.db.find n).isSome) →
      ∃ s1, write s0 = .ok s1 ∧ s1.db.Inv C ∧ ∀ n ∈ quickPars, (s1.db.find n).isSome) :
    ∃ s0 s1 s', quickVarsOutput C write names fakeT fakeI s = .ok s' ∧
      write s0 = .ok s1 ∧ s0.time = fakeT ∧ s0.iteration = fakeI ∧
      (∀ n ∈ ["0doutput", "1doutput", "2doutput", "3doutput"], s0.db.gets n.toList = .ok (translate names)) ∧
      (∀ n ∈ ["0doutiter", "1doutiter", "2doutiter", "3doutiter"], s0.db.gets n.toList = .ok "1".toList) ∧
      s0.db.gets "3dformat".toList = .ok "vtk text double arrange_as_1d".toList ∧
      (∀ n, n ∉ quickPars → s0.db.gets n = s.db.gets n) ∧
      s'.time = s.time ∧ s'.iteration = s.iteration ∧
      (∀ n ∈ quickPars, s'.db.gets n = .ok (translate (f n))) ∧
      ∀ n, n ∉ quickPars → s'.db.gets n = s1.db.gets n := by
  have hq : (quickValues names).map (·.1) = quickPars := rfl
  have hnd : quickPars.Nodup := by decide
  obtain ⟨db0, e0, i0, g0, k0⟩ := setAll_ok C (quickValues names) s.db hi (by rw [hq]; exact hnd)
    (by rw [hq]; exact fun n hn => find_isSome (hf n hn))
  rw [hq] at k0
  have hv : ∀ n ∈ quickPars, ∃ v, (n, v) ∈ quickValues names := by
    intro n hn
    rw [← hq, List.mem_map] at hn
    obtain ⟨a, ha, rfl⟩ := hn
    exact ⟨a.2, ha⟩
  obtain ⟨s1, e1, i1, f1⟩ := hw ⟨db0, fakeT, fakeI⟩ i0 (fun n hn => by
    obtain ⟨v, hv⟩ := hv n hn
    exact find_isSome (g0 n v hv))
  have hq2 : (quickPars.map fun n => (n, f n)).map (·.1) = quickPars := rfl
  obtain ⟨db2, e2, i2, g2, k2⟩ := setAll_ok C (quickPars.map fun n => (n, f n)) s1.db i1 (by rw [hq2]; exact hnd)
    (by rw [hq2]; exact f1)
  rw [hq2] at k2
  refine ⟨⟨db0, fakeT, fakeI⟩, s1, ⟨db2, s.time, s.iteration⟩, ?_, e1, rfl, rfl, ?_, ?_, ?_, ?_, rfl, rfl, ?_, ?_⟩
  · unfold quickVarsOutput
    dsimp only
    rw [getAll_ok hf, Res.bind_ok, e0, Res.bind_ok, e1, Res.bind_ok, e2, Res.bind_ok]
  · intro n hn
    refine g0 _ _ ?_
    simp only [List.mem_cons, List.not_mem_nil, or_false] at hn
    rcases hn with rfl | rfl | rfl | rfl <;> simp [quickValues]
  · intro n hn
    have e : translate "1".toList = "1".toList := by decide
    rw [← e]
    refine g0 _ _ ?_
    simp only [List.mem_cons, List.not_mem_nil, or_false] at hn
    rcases hn with rfl | rfl | rfl | rfl <;> simp [quickValues]
  · have e : translate "vtk text double arrange_as_1d".toList = "vtk text double arrange_as_1d".toList := by decide
    rw [← e]
    exact g0 _ _ (by simp [quickValues])
  · intro n hn
    show db0.gets n = _
    unfold PDB.gets
    rw [k0 n hn]
  · intro n hn
    exact g2 n (f n) (List.mem_map.2 ⟨n, hn, rfl⟩)
  · intro n hn
    show db2.gets n = _
    unfold PDB.gets
    rw [k2 n hn]

/-- C173: the names of a list of variables fit into the buffer and are the entries of the string. -/
theorem C173_names (vars : List CStr) (hne : vars ≠ []) (hv : ∀ v ∈ vars, ' ' ∉ v) :
    ∃ nl names, quickNames vars = .ok (nl, names) ∧ names.length + 1 ≤ nl ∧ entries names = vars := by
  have := forN_inv (n := vars.length) (s := (3, ([] : CStr))) (body := fun vind (s : Nat × CStr) =>
    let varname := vars.getD vind []
    let nl := s.1 + (varname.length + 2)
    let add := fun (a : CStr) (names : CStr) => if names.length + a.length + 1 ≤ nl then Res.ok (names ++ a) else .ub
    (if vind > 0 then add [' '] s.2 else .ok s.2).bind fun names =>
    (add varname names).bind fun names => .ok (nl, names))
    (fun i s => s.2.length + 3 ≤ s.1 ∧ (i = 0 → s.2 = []) ∧ (0 < i → entries s.2 = vars.take i))
    ⟨by simp, fun _ => rfl, by omega⟩ (by
      rintro i hi ⟨nl, names⟩ ⟨h1, h2, h3⟩
      dsimp only at h1 h2 h3 ⊢
      have hg : vars.getD i [] = vars[i] := by simp [hi]
      have hb : ' ' ∉ vars[i] := hv _ (List.getElem_mem hi)
      rw [hg]
      by_cases h0 : i = 0
      · subst h0
        rw [if_neg (by omega), Res.bind_ok, if_pos (by omega), Res.bind_ok]
        refine ⟨_, rfl, by simp only [List.length_append]; omega, by omega, fun _ => ?_⟩
        dsimp only
        rw [h2 rfl, List.nil_append, entries_of_not_mem hb]
        cases vars with
        | nil => exact absurd rfl hne
        | cons a t => simp
      · rw [if_pos (by omega), if_pos (by simp only [List.length_singleton]; omega), Res.bind_ok,
          if_pos (by simp only [List.length_append, List.length_singleton]; omega), Res.bind_ok]
        refine ⟨_, rfl, by simp only [List.length_append, List.length_singleton]; omega, by omega, fun _ => ?_⟩
        dsimp only
        rw [List.append_assoc, List.singleton_append, entries_append_blank, h3 (by omega), entries_of_not_mem hb,
          List.take_succ_eq_append_getElem hi])
  obtain ⟨⟨nl, names⟩, e, h1, -, h3⟩ := this
  refine ⟨nl, names, e, by dsimp only at h1; omega, ?_⟩
  have hl : 0 < vars.length := List.length_pos_iff.2 hne
  have := h3 hl
  dsimp only at this
  rw [this, List.take_length]

example : quickNames ["psi".toList, "Bx".toList] = .ok (3 + 5 + 4, "psi Bx".toList) := by decide +kernel

end Sgrid

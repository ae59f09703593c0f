/-
Hydrodynamic data base: matrices, RAO tables, diffraction, radiation damping.
-/
import Mathlib.Algebra.BigOperators.Fin
import Mathlib.Tactic.FieldSimp
import Mathlib.Tactic.Positivity
import Verif.Lemmas.Hdb
import Verif.Lemmas.Waves

namespace Xdyn.Hdb

/-! ### C55: change of frame of the matrices -/

/-- Specification: the rotation of pi about the x axis (z upwards to z downwards), acting on
forces and moments (or on the generalised velocities). -/
def rot {K : Type} [Field K] : Fin 6 → K := ![1, -1, -1, 1, -1, -1]

section
variable {K : Type} [Field K] [LinearOrder K]

/-- The conversion is the conjugation by the rotation. -/
theorem hdb_frame_conjugation (m : Mat6 K) (i j : Fin 6) :
    toXdynFrame m i j = rot i * m i j * rot j := by
  fin_cases i <;> fin_cases j <;>
    simp [toXdynFrame, negatedEntries, negateEntry, rot, Function.update]

theorem hdb_frame_involution (m : Mat6 K) : toXdynFrame (toXdynFrame m) = m := by
  funext i j
  rw [hdb_frame_conjugation, hdb_frame_conjugation]
  fin_cases i <;> fin_cases j <;> simp [rot]

theorem hdb_frame_symmetric (m : Mat6 K) :
    (∀ i j, toXdynFrame m i j = toXdynFrame m j i) ↔ ∀ i j, m i j = m j i := by
  constructor
  · intro h i j
    have := h i j
    rw [hdb_frame_conjugation, hdb_frame_conjugation] at this
    revert this
    fin_cases i <;> fin_cases j <;> simp [rot]
  · intro h i j
    rw [hdb_frame_conjugation, hdb_frame_conjugation, h i j]
    ring

/-- The kinetic energy (or the dissipated power) of a velocity is the one the matrix of the file
gives for the velocity seen in the axes of the file. -/
theorem hdb_frame_quadratic_form (m : Mat6 K) (v : Fin 6 → K) :
    ∑ i, ∑ j, v i * toXdynFrame m i j * v j =
      ∑ i, ∑ j, (rot i * v i) * m i j * (rot j * v j) := by
  refine Finset.sum_congr rfl (fun i _ => Finset.sum_congr rfl (fun j _ => ?_))
  rw [hdb_frame_conjugation]
  ring

/-- The force for a velocity is the one the matrix of the file gives in the axes of the file. -/
theorem hdb_frame_equivariance (m : Mat6 K) (v : Fin 6 → K) (i : Fin 6) :
    ∑ j, toXdynFrame m i j * (rot j * v j) = rot i * ∑ j, m i j * v j := by
  rw [Finset.mul_sum]
  refine Finset.sum_congr rfl (fun j _ => ?_)
  rw [hdb_frame_conjugation]
  have : (rot j : K) * rot j = 1 := by fin_cases j <;> simp [rot]
  linear_combination (rot i * m i j * v j) * this

example : toXdynFrame (fun i j => (i.val * 6 + j.val : ℚ)) 0 5 = -5 ∧
    toXdynFrame (fun i j => (i.val * 6 + j.val : ℚ)) 4 5 = 29 := by
  decide +kernel

/-! ### C85: every line of the matrices comes from the file -/

/-- When the added mass (or damping) matrices are read, each line `i` of the matrix for the k-th
period comes from one section of the file bearing the name of that line: the 7 columns of the
k-th row of this section are the period and the six coefficients.  (The hypothesis is guaranteed
by the grammar: a section has at least one row.) -/
theorem hdb_matrix_from_file (tree : List (ListOfMatrixSections K)) (header matrix : String)
    (hwf : ∀ M ∈ tree, ∀ s ∈ M.sections, s.values ≠ [])
    (r : List (K × Mat6 K)) (h : getMatrix tree header matrix = .ok r) (i : Fin 6) :
    ∃ M ∈ tree, M.header = header ∧ ∃ s ∈ M.sections,
      s.header = matrix ++ "_" ++ toString (i.val + 1) ∧
      s.values.length = r.length ∧
      ∀ (k : Nat) (row : List K), s.values[k]? = some row →
        ∃ T m, r[k]? = some (T, m) ∧
          ∀ j : Fin 6, row[j.val + 1]? = some (rot i * m i j * rot j) := by
  unfold getMatrix at h
  simp only [bind, Except.bind, pure, Except.pure] at h
  split at h
  · simp at h
  · rename_i acc hacc
    split at h
    · rename_i hfound
      simp only [Except.ok.injEq] at h
      subst h
      obtain ⟨s, ⟨M, hM, hMh, hs⟩, hh, hl, hv⟩ := readLines_ok hwf hacc i (hfound i)
      refine ⟨M, hM, hMh, s, hs, hh, by simp [hl], ?_⟩
      intro k row hk
      obtain ⟨p, hp, hj⟩ := hv k row hk
      refine ⟨p.1, toXdynFrame p.2, by simp [hp], ?_⟩
      intro j
      rw [hj j, hdb_frame_conjugation]
      fin_cases i <;> fin_cases j <;> simp [rot]
    · simp at h

/-- A file in which one of the six lines is missing is refused. -/
theorem hdb_missing_line_refused (tree : List (ListOfMatrixSections K)) (header matrix : String)
    (i : Fin 6)
    (hmiss : ∀ M ∈ tree, M.header = header → ∀ s ∈ M.sections,
      s.header ≠ matrix ++ "_" ++ toString (i.val + 1)) :
    ∃ e, getMatrix tree header matrix = .error e := by
  cases h : getMatrix tree header matrix with
  | error e => exact ⟨e, rfl⟩
  | ok r =>
    exfalso
    unfold getMatrix at h
    simp only [bind, Except.bind, pure, Except.pure] at h
    split at h
    · simp at h
    · rename_i acc hacc
      split at h
      · rename_i hfound
        have hno : acc.2 i = false := by
          unfold readLines at hacc
          refine foldlM_inv (fun a => a.2 i = false) hacc rfl ?_
          intro b M b' hM hb hstep
          split at hstep
          · rename_i hMh
            refine foldlM_inv (fun a => a.2 i = false) hstep hb ?_
            intro c s c' hs hc hss
            unfold sectionStep at hss
            refine foldlM_inv (fun a => a.2 i = false) hss hc ?_
            intro d i' d' _ hd hdd
            split at hdd
            · rename_i hname
              have hne : i ≠ i' := by
                rintro rfl
                exact hmiss M hM hMh s hs hname
              simp only [bind, Except.bind, pure, Except.pure] at hdd
              split at hdd
              · simp at hdd
              · simp only [Except.ok.injEq] at hdd
                subst hdd
                simpa [Function.update_of_ne hne] using hd
            · simp only [pure, Except.pure, Except.ok.injEq] at hdd
              exact hdd ▸ hd
          · simp only [pure, Except.pure, Except.ok.injEq] at hstep
            exact hstep ▸ hb
        rw [hfound i] at hno
        simp at hno
      · simp at h

/-- A file with two periods. -/
def exampleMatrices : List (ListOfMatrixSections ℚ) :=
  [⟨"Other", [⟨"ADDED_MASS_LINE_1", [[9, 9, 9, 9, 9, 9, 9]]⟩]⟩,
   ⟨"Added_mass_Radiation_Damping",
    (List.range 6).map (fun i => ⟨"ADDED_MASS_LINE_" ++ toString (i + 1),
      [[1, 11, 12, 13, 14, 15, 16], [2, 21, 22, 23, 24, 25, 26]]⟩)⟩]

example : (∀ M ∈ exampleMatrices, ∀ s ∈ M.sections, s.values ≠ []) ∧
    (getMatrix exampleMatrices "Added_mass_Radiation_Damping" "ADDED_MASS_LINE").map
      (fun r => r.map (fun p => (p.1, (List.finRange 6).map (p.2 0)))) =
    .ok [(1, [11, -12, -13, 14, -15, -16]), (2, [21, -22, -23, 24, -25, -26])] := by
  decide +kernel

/-- The periods of the six lines are not compared: if they differ, those of the line read last
are used for all of them. -/
theorem hdb_periods_not_checked :
    ∃ (tree : List (ListOfMatrixSections ℚ)) (r : List (ℚ × Mat6 ℚ)),
      getMatrix tree "A" "L" = .ok r ∧
      (∃ M ∈ tree, ∃ s ∈ M.sections, s.header = "L_1" ∧ s.values.map List.head? = [some 1]) ∧
      r.map Prod.fst = [7] := by
  let tree : List (ListOfMatrixSections ℚ) :=
    [⟨"A", (List.range 6).map (fun i => ⟨"L_" ++ toString (i + 1),
      [[if i = 5 then 7 else 1, 1, 1, 1, 1, 1, 1]]⟩)⟩]
  cases h : getMatrix tree "A" "L" with
  | error e =>
    exfalso
    have h2 : (getMatrix tree "A" "L").map (fun r => r.map Prod.fst) = .ok [7] := by decide +kernel
    rw [h] at h2
    simp [Except.map] at h2
  | ok r =>
    refine ⟨tree, r, h, ?_, ?_⟩
    · decide +kernel
    · have h2 : (getMatrix tree "A" "L").map (fun r => r.map Prod.fst) = .ok [7] := by decide +kernel
      rw [h] at h2
      simpa [Except.map] using h2

/-! ### C86: RAO tables -/

/-- If the directions of the file are increasing, and each direction gives the same, increasing,
periods, then the RAO read for a direction and a period are those of the file: they are found at
the index of the period and of the direction in the lists given to the interpolator. -/
theorem hdb_rao_from_file_partial [IsStrictOrderedRing K] (pi : K) (hpi : 0 < pi)
    (tree : List (ListOfMatrixSectionsWithId K))
    (sec sub : String) (ms : ListOfMatrixSectionsWithId K)
    (hone : tree.filter (fun m => m.header = sec) = [ms])
    (T : List K) (hT : T.Pairwise (· < ·))
    (hper : ∀ s ∈ ms.sections, s.header = sub → s.values.map List.head? = T.map some)
    (hid : ((ms.sections.filter (fun s => s.header = sub)).map (fun s => s.id)).Pairwise (· < ·))
    (d : RAOData K) (h : getRao pi tree sec sub = .ok d) :
    d.periods = T ∧
    ∀ s ∈ ms.sections, s.header = sub → ∀ v ∈ s.values, ∀ axis : Fin 6,
      ∃ (p q : Nat) (row : List K) (x : K),
        d.periods[p]? = v.head? ∧ d.psi[q]? = some (s.id * pi / 180) ∧
        (d.values axis)[p]? = some row ∧ row[q]? = some x ∧ v[axis.val + 1]? = some x := by
  unfold getRao at h
  simp only [bind, Except.bind, pure, Except.pure] at h
  split at h
  · simp at h
  rename_i st hst
  have hst' := hst
  rw [show (fun (st : RaoState K) (ms : ListOfMatrixSectionsWithId K) =>
      if ms.header = sec then raoSections pi sub 0 ms.sections { st with foundSection := true }
      else Except.ok st) = (fun (b : RaoState K) (a : ListOfMatrixSectionsWithId K) =>
      if a.header = sec then (fun (st : RaoState K) (ms : ListOfMatrixSectionsWithId K) =>
        raoSections pi sub 0 ms.sections { st with foundSection := true }) b a
      else (pure b : Except Err _)) from rfl,
    foldlM_filter (fun a : ListOfMatrixSectionsWithId K => a.header = sec), hone] at hst'
  simp only [List.foldlM_cons, List.foldlM_nil, bind, Except.bind, pure, Except.pure] at hst'
  split at hst'
  · simp at hst'
  rename_i st2 hst2
  simp only [Except.ok.injEq] at hst'
  subst hst'
  obtain ⟨f1, f2, f3, f4, f5⟩ := raoSections_ok pi sub hst2
  simp only [List.nil_append] at f1 f2 f3 f4 f5
  rw [f1] at h
  simp only [Bool.true_eq_false, if_false] at h
  split at h
  · simp at h
  rename_i hfs
  simp only [Bool.not_eq_false] at hfs
  simp only [Except.ok.injEq] at h
  have hsubs : ms.sections.filter (fun s => s.header = sub) ≠ [] := by
    simpa using f2.mp hfs
  have hpsi : d.psi = (ms.sections.filter (fun s => s.header = sub)).map (fun s => s.id * pi / 180) := by
    rw [← h]
    simp only
    rw [f3]
    have hp : ((ms.sections.filter (fun s => s.header = sub)).map (fun s => s.id * pi / 180)).Pairwise (· < ·) := by
      rw [List.pairwise_map] at hid ⊢
      refine hid.imp ?_
      intro a b hab
      have : a.id * pi < b.id * pi := mul_lt_mul_of_pos_right hab hpi
      exact div_lt_div_of_pos_right this (by norm_num)
    exact ((List.toFinset_sort (r := (· ≤ ·)) (hp.imp (fun {a b} hab => ne_of_lt hab))).mpr (hp.imp (fun hab => le_of_lt hab)))
  have hperiods : d.periods = T := by
    rw [← h]
    simp only
    rw [f4]
    have hfs : ((ms.sections.filter (fun s => s.header = sub)).flatMap
        (fun s => s.values.filterMap List.head?)).toFinset = T.toFinset := by
      have hrow : ∀ s ∈ ms.sections, s.header = sub → s.values.filterMap List.head? = T := by
        intro s hs hh
        have h1 := hper s hs hh
        have h2 : (s.values.map List.head?).filterMap id = (T.map some).filterMap id := by rw [h1]
        rw [List.filterMap_map, List.filterMap_map] at h2
        simpa using h2
      ext x
      simp only [List.mem_toFinset, List.mem_flatMap, List.mem_filter, decide_eq_true_eq]
      constructor
      · rintro ⟨s, ⟨hs, hh⟩, hx⟩
        rwa [hrow s hs hh] at hx
      · intro hx
        obtain ⟨s, hs⟩ := List.exists_mem_of_ne_nil _ hsubs
        simp only [List.mem_filter, decide_eq_true_eq] at hs
        exact ⟨s, hs, by rw [hrow s hs.1 hs.2]; exact hx⟩
    rw [hfs]
    exact ((List.toFinset_sort (r := (· ≤ ·)) (hT.imp (fun {a b} hab => ne_of_lt hab))).mpr (hT.imp (fun hab => le_of_lt hab)))
  refine ⟨hperiods, ?_⟩
  intro s hs hh v hv axis
  have hsm : s ∈ ms.sections.filter (fun s => s.header = sub) := by simp [hs, hh]
  obtain ⟨q, hq⟩ := List.mem_iff_getElem?.mp hsm
  obtain ⟨p, hp⟩ := List.mem_iff_getElem?.mp hv
  obtain ⟨x, hx, hc⟩ := (f5 axis).2 q s hq p v hp
  rw [Nat.zero_add] at hc
  simp only [cell, Option.bind_eq_some_iff] at hc
  obtain ⟨row, hrow, hrq⟩ := hc
  refine ⟨p, q, row, x, ?_, ?_, ?_, hrq, hx⟩
  · rw [hperiods]
    have h1 := hper s hs hh
    have h2 : (s.values.map List.head?)[p]? = (T.map some)[p]? := by rw [h1]
    rw [List.getElem?_map, List.getElem?_map, hp] at h2
    cases hTp : T[p]? with
    | none => rw [hTp] at h2; simp at h2
    | some t => rw [hTp] at h2; simpa using h2.symm
  · rw [hpsi, List.getElem?_map, hq]
    rfl
  · rw [← h]
    exact hrow

/-- The table read after `q` columns and `p` values of the next one, when the columns have `m` values. -/
def ReadUpTo (m p q : Nat) (t : List (List K)) : Prop :=
  t.length = (if q = 0 then p else m) ∧ ∀ (k : Nat) (row : List K), t[k]? = some row → row.length = if k < p then q + 1 else q

theorem setCell_shape {m p q : Nat} {t : List (List K)} (h : ReadUpTo m p q t) (hp : p < m) (x : K) : ReadUpTo m (p + 1) q (setCell t p q x) := by
  obtain ⟨hl, hr⟩ := h
  have hg : (growRows t p).length = if q = 0 then p + 1 else m := by
    unfold growRows
    split <;> rename_i h
    · rw [List.length_append, hl]
      split
      · rfl
      · rename_i hq; rw [hl, if_neg hq] at h; omega
    · split
      · rename_i hq; rw [hl, if_pos hq] at h; omega
      · rename_i hq; rw [hl, if_neg hq]
  have hgr : ∀ (k : Nat) (row : List K), (growRows t p)[k]? = some row → row.length = if k < p then q + 1 else q := by
    intro k row hk
    unfold growRows at hk
    split at hk
    · rename_i h
      by_cases hkl : k < t.length
      · rw [List.getElem?_append_left hkl] at hk
        exact hr k row hk
      · rw [List.getElem?_append_right (by omega)] at hk
        obtain ⟨_, hk0⟩ := List.getElem?_eq_some_iff.mp hk
        have hq : q = 0 := by
          by_contra hq
          rw [hl, if_neg hq] at h
          omega
        rw [hl, if_pos hq] at hkl
        rw [if_neg (by omega), hq, ← hk0]
        simp
    · exact hr k row hk
  unfold setCell
  refine ⟨by rw [List.length_set, hg], ?_⟩
  intro k row hk
  by_cases hkp : k = p
  · subst hkp
    have hlt : k < (growRows t k).length := by
      rw [hg]; split <;> omega
    rw [List.getElem?_set_self hlt, Option.some.injEq] at hk
    rw [← hk, List.length_set, List.getD_eq_getElem?_getD, List.getElem?_eq_getElem hlt, Option.getD_some, if_pos (by omega)]
    have := hgr k _ (List.getElem?_eq_getElem hlt)
    rw [if_neg (by omega)] at this
    unfold growRow
    rw [if_pos (by omega), List.length_append, List.length_replicate]
    omega
  · rw [List.getElem?_set_ne (Ne.symm hkp)] at hk
    rw [hgr k row hk]
    by_cases h1 : k < p
    · rw [if_pos h1, if_pos (by omega)]
    · rw [if_neg h1, if_neg (by omega)]

theorem raoRows_shape {m : Nat} (q : Nat) (j : Fin 6) : ∀ {rows : List (List K)} {p : Nat} {st st' : RaoState K}, raoRows q p rows st = .ok st' →
    p + rows.length = m → ReadUpTo m p q (st.values j) → ReadUpTo m m q (st'.values j)
  | [], p, st, st', h, hm, hs => by
    simp only [raoRows, pure, Except.pure, Except.ok.injEq] at h
    subst h
    simp only [List.length_nil, Nat.add_zero] at hm
    exact hm ▸ hs
  | v :: rows, p, st, st', h, hm, hs => by
    unfold raoRows at h
    rw [List.length_cons] at hm
    split at h
    · exact raoRows_shape q j h (by omega) (setCell_shape hs (by omega) _)
    · simp at h
    · simp at h

theorem raoSections_shape {m : Nat} (pi : K) (sub : String) (j : Fin 6) : ∀ {l : List (SectionWithId K)} {q : Nat} {st st' : RaoState K},
    raoSections pi sub q l st = .ok st' → (∀ s ∈ l, s.header = sub → s.values.length = m) → ReadUpTo m 0 q (st.values j) →
    ReadUpTo m 0 (q + (l.filter (fun s => s.header = sub)).length) (st'.values j)
  | [], q, st, st', h, _, hs => by
    simp only [raoSections, pure, Except.pure, Except.ok.injEq] at h
    subst h
    simpa using hs
  | s :: l, q, st, st', h, hm, hs => by
    unfold raoSections at h
    split at h
    · rename_i hh
      simp only [bind, Except.bind] at h
      split at h
      · simp at h
      rename_i st2 h2
      have h3 := raoRows_shape (m := m) q j h2 (by rw [Nat.zero_add]; exact hm s (by simp) hh) hs
      have h4 : ReadUpTo m 0 (q + 1) (st2.values j) := by
        refine ⟨?_, ?_⟩
        · rw [h3.1]; simp
        · intro k row hk
          rw [h3.2 k row hk]
          have : k < m := by
            have := (List.getElem?_eq_some_iff.mp hk).1
            rw [h3.1] at this
            split at this <;> exact this
          simp [this]
      have := raoSections_shape pi sub j h (fun s hs => hm s (by simp [hs])) h4
      rw [List.filter_cons_of_pos (by simpa using hh), List.length_cons]
      rwa [Nat.add_assoc, Nat.add_comm 1] at this
    · rename_i hh
      rw [List.filter_cons_of_neg (by simpa using hh)]
      exact raoSections_shape pi sub j h (fun s hs => hm s (by simp [hs])) hs

/-- **C86** If each direction of the section `sub` gives the same number `m` of periods, the table of each axis has exactly `m` rows, each with exactly one value
per direction of the file. -/
theorem hdb_rao_shape (pi : K) (tree : List (ListOfMatrixSectionsWithId K)) (sec sub : String) (ms : ListOfMatrixSectionsWithId K)
    (hone : tree.filter (fun m => m.header = sec) = [ms]) (m : Nat) (hm : ∀ s ∈ ms.sections, s.header = sub → s.values.length = m)
    (d : RAOData K) (h : getRao pi tree sec sub = .ok d) (axis : Fin 6) :
    (d.values axis).length = m ∧ ∀ row ∈ d.values axis, row.length = (ms.sections.filter (fun s => s.header = sub)).length := by
  unfold getRao at h
  simp only [bind, Except.bind, pure, Except.pure] at h
  split at h
  · simp at h
  rename_i st hst
  rw [show (fun (st : RaoState K) (ms : ListOfMatrixSectionsWithId K) =>
      if ms.header = sec then raoSections pi sub 0 ms.sections { st with foundSection := true }
      else Except.ok st) = (fun (b : RaoState K) (a : ListOfMatrixSectionsWithId K) =>
      if a.header = sec then (fun (st : RaoState K) (ms : ListOfMatrixSectionsWithId K) =>
        raoSections pi sub 0 ms.sections { st with foundSection := true }) b a
      else (pure b : Except Err _)) from rfl,
    foldlM_filter (fun a : ListOfMatrixSectionsWithId K => a.header = sec), hone] at hst
  simp only [List.foldlM_cons, List.foldlM_nil, bind, Except.bind, pure, Except.pure] at hst
  split at hst
  · simp at hst
  rename_i st2 hst2
  simp only [Except.ok.injEq] at hst
  subst hst
  obtain ⟨f1, f2, _⟩ := raoSections_ok pi sub hst2
  have hs := raoSections_shape (m := m) pi sub axis hst2 hm ⟨by simp, by simp⟩
  rw [f1] at h
  simp only [Bool.true_eq_false, if_false] at h
  split at h
  · simp at h
  rename_i hfs
  simp only [Except.ok.injEq] at h
  simp only [Bool.not_eq_false] at hfs
  have hne : ms.sections.filter (fun s => s.header = sub) ≠ [] := by simpa using f2.mp hfs
  have hpos := List.length_pos_iff.mpr hne
  subst h
  rw [Nat.zero_add] at hs
  refine ⟨by rw [hs.1, if_neg (by omega)], ?_⟩
  intro row hrow
  obtain ⟨k, hk⟩ := List.mem_iff_getElem?.mp hrow
  simpa using hs.2 k row hk

/-- The increasing order is needed: the values are stored in the order of the file while the
periods given to the interpolator are sorted. -/
def decreasingFile : List (ListOfMatrixSectionsWithId ℚ) :=
  [⟨"D", [⟨"M", 0, [[2, 20, 0, 0, 0, 0, 0], [1, 10, 0, 0, 0, 0, 0]]⟩]⟩]

def increasingFile : List (ListOfMatrixSectionsWithId ℚ) :=
  [⟨"D", [⟨"M", 0, [[1, 10, 0, 0, 0, 0, 0], [2, 20, 0, 0, 0, 0, 0]]⟩,
          ⟨"P", 0, [[1, 0, 0, 0, 0, 0, 0], [2, 0, 0, 0, 0, 0, 0]]⟩,
          ⟨"M", 90, [[1, 11, 0, 0, 0, 0, 0], [2, 21, 0, 0, 0, 0, 0]]⟩]⟩]

theorem hdb_rao_file_order_refuted :
    ∃ d, getRao (3 : ℚ) decreasingFile "D" "M" = .ok d ∧
      d.periods = [1, 2] ∧ d.values 0 = [[20], [10]] := by
  refine ⟨⟨[1, 2], [0], fun j => if j = 0 then [[20], [10]] else [[0], [0]]⟩, ?_, rfl, rfl⟩
  have h1 : ({2, 1} : Finset ℚ).sort (· ≤ ·) = [1, 2] := by
    have := (List.toFinset_sort (r := (· ≤ ·)) (l := [(1 : ℚ), 2]) (by norm_num)).mpr (by norm_num)
    rw [← this]
    congr 1
    ext x
    simp [or_comm]
  simp only [getRao, decreasingFile, List.foldlM_cons, List.foldlM_nil, bind, Except.bind, pure,
    Except.pure, if_true, raoSections, raoRows, setCell, growRows, growRow]
  simp [h1]
  funext j
  fin_cases j <;> simp

example : ∃ d, getRao (3 : ℚ) increasingFile "D" "M" = .ok d := by
  simp only [getRao, increasingFile, List.foldlM_cons, List.foldlM_nil, bind, Except.bind, pure,
    Except.pure, if_true, raoSections, raoRows, setCell, growRows, growRow]
  simp

example : ∃ ms, increasingFile.filter (fun m => m.header = "D") = [ms] ∧
    (∀ s ∈ ms.sections, s.header = "M" → s.values.map List.head? = [1, 2].map some) ∧
    ((ms.sections.filter (fun s => s.header = "M")).map (fun s => s.id)).Pairwise (· < ·) ∧
    ∀ s ∈ ms.sections, s.header = "M" → s.values.length = 2 := by
  refine ⟨_, rfl, ?_, ?_, ?_⟩
  · decide +kernel
  · decide +kernel
  · decide +kernel

end
end Xdyn.Hdb

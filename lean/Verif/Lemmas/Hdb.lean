/-
Lemmas about the HDB reader.
-/
import Mathlib.Tactic.FinCases
import Mathlib.Tactic.Ring
import Mathlib.Tactic.Linarith
import Verif.Model.Hdb

namespace Xdyn.Hdb

theorem mapM_inv {α β : Type} {f : α → Except Err β} :
    ∀ {l : List α} {r : List β}, l.mapM f = .ok r →
      r.length = l.length ∧ ∀ (k : Nat) (a : α), l[k]? = some a → ∃ b, r[k]? = some b ∧ f a = .ok b
  | [], r, h => by
    simp only [List.mapM_nil, pure, Except.pure, Except.ok.injEq] at h
    subst h
    simp
  | a :: l, r, h => by
    simp only [List.mapM_cons, bind, Except.bind, pure, Except.pure] at h
    cases hf : f a with
    | error e => rw [hf] at h; simp at h
    | ok b =>
      rw [hf] at h
      cases hl : l.mapM f with
      | error e => rw [hl] at h; simp at h
      | ok bs =>
        rw [hl] at h
        simp only [Except.ok.injEq] at h
        subst h
        have ih := mapM_inv hl
        refine ⟨by simp [ih.1], ?_⟩
        intro k x hk
        cases k with
        | zero =>
          simp only [List.getElem?_cons_zero, Option.some.injEq] at hk
          subst hk
          exact ⟨b, by simp, hf⟩
        | succ k =>
          simp only [List.getElem?_cons_succ] at hk ⊢
          exact ih.2 k x hk

/-- Induction principle for loops which may throw. -/
theorem foldlM_inv {α β : Type} {f : β → α → Except Err β} (P : β → Prop) :
    ∀ {l : List α} {b r : β}, l.foldlM f b = .ok r → P b →
      (∀ b a b', a ∈ l → P b → f b a = .ok b' → P b') → P r
  | [], b, r, h, hb, _ => by
    simp only [List.foldlM_nil, pure, Except.pure, Except.ok.injEq] at h
    exact h ▸ hb
  | a :: l, b, r, h, hb, hs => by
    simp only [List.foldlM_cons, bind, Except.bind] at h
    cases hf : f b a with
    | error e => rw [hf] at h; simp at h
    | ok b' =>
      rw [hf] at h
      exact foldlM_inv P h (hs b a b' (by simp) hb hf)
        (fun b a b' ha => hs b a b' (by simp [ha]))

variable {K : Type} [Field K] [LinearOrder K]

theorem fillRow_ok {i : Fin 6} {old p : K × Mat6 K} {row : List K} (h : fillRow i old row = .ok p) :
    row.head? = some p.1 ∧ (∀ j : Fin 6, row[j.val + 1]? = some (p.2 i j)) ∧
      ∀ i', i' ≠ i → p.2 i' = old.2 i' := by
  unfold fillRow at h
  split at h
  · simp at h
  · split at h
    · simp only [Except.ok.injEq] at h
      subst h
      refine ⟨by simp, ?_, ?_⟩
      · intro j
        fin_cases j <;> simp
      · intro i' hi'
        simp [Function.update_of_ne hi']
    · simp at h

theorem fill_ok {ret r : List (K × Mat6 K)} {i : Fin 6} {M : List (List K)}
    (h : fill ret i M = .ok r) :
    r.length = M.length ∧ (ret ≠ [] → ret.length = M.length) ∧
      ∀ (k : Nat) (row : List K), M[k]? = some row → ∃ p : K × Mat6 K, r[k]? = some p ∧
        row.head? = some p.1 ∧ (∀ j : Fin 6, row[j.val + 1]? = some (p.2 i j)) ∧
        ∀ old : K × Mat6 K, ret[k]? = some old → ∀ i', i' ≠ i → p.2 i' = old.2 i' := by
  unfold fill at h
  generalize hret' : (if ret = [] then List.replicate M.length ((0 : K), fun _ _ => (0 : K)) else ret) = ret' at h
  simp only at h
  by_cases hlen : M.length = ret'.length
  · rw [if_pos hlen] at h
    have hm := mapM_inv h
    simp only [List.length_zip, ← hlen, Nat.min_self] at hm
    have hkeep : ret ≠ [] → ret' = ret := by
      intro hne
      rw [← hret', if_neg hne]
    refine ⟨hm.1, ?_, ?_⟩
    · intro hne
      rw [hkeep hne] at hlen
      exact hlen.symm
    · intro k row hk
      have hkl : k < M.length := (List.getElem?_eq_some_iff.mp hk).1
      obtain ⟨old', hold'⟩ : ∃ o, ret'[k]? = some o :=
        ⟨_, List.getElem?_eq_getElem (hlen ▸ hkl)⟩
      obtain ⟨p, hp, hfp⟩ := hm.2 k (old', row) (by
        rw [List.getElem?_zip_eq_some]
        exact ⟨hold', hk⟩)
      have hr := fillRow_ok hfp
      refine ⟨p, hp, hr.1, hr.2.1, ?_⟩
      intro old hold i' hi'
      rw [hr.2.2 i' hi']
      have hne : ret ≠ [] := by
        rintro rfl
        simp at hold
      rw [hkeep hne, hold] at hold'
      simp only [Option.some.injEq] at hold'
      rw [hold']
  · rw [if_neg hlen] at h
    simp at h

/-- What is known of the lines already read. -/
def LinesRead (S : MatrixSection K → Prop) (matrix : String)
    (acc : List (K × Mat6 K) × (Fin 6 → Bool)) : Prop :=
  ∀ i, acc.2 i = true → ∃ s, S s ∧ s.header = lineName matrix i ∧
    acc.1.length = s.values.length ∧
    ∀ (k : Nat) (row : List K), s.values[k]? = some row → ∃ p : K × Mat6 K, acc.1[k]? = some p ∧
      ∀ j : Fin 6, row[j.val + 1]? = some (p.2 i j)

theorem LinesRead.fill {S : MatrixSection K → Prop} {matrix : String}
    (hS : ∀ s, S s → s.values ≠ [])
    {acc : List (K × Mat6 K) × (Fin 6 → Bool)} (hacc : LinesRead S matrix acc)
    {s : MatrixSection K} (hs : S s) {i : Fin 6} (hh : s.header = lineName matrix i)
    {r : List (K × Mat6 K)} (hr : Hdb.fill acc.1 i s.values = .ok r) :
    LinesRead S matrix (r, Function.update acc.2 i true) := by
  have hf := fill_ok hr
  intro i' hi'
  by_cases heq : i' = i
  · subst heq
    refine ⟨s, hs, hh, hf.1, ?_⟩
    intro k row hk
    obtain ⟨p, hp, -, hj, -⟩ := hf.2.2 k row hk
    exact ⟨p, hp, hj⟩
  · simp only [Function.update_of_ne heq] at hi'
    obtain ⟨s', hs', hh', hl', hv'⟩ := hacc i' hi'
    have hne : acc.1 ≠ [] := by
      intro h0
      rw [h0] at hl'
      exact hS s' hs' (List.length_eq_zero_iff.mp hl'.symm)
    have hl := hf.2.1 hne
    refine ⟨s', hs', hh', by simp only; rw [hf.1, ← hl, hl'], ?_⟩
    intro k row hk
    obtain ⟨old, hold, hoj⟩ := hv' k row hk
    have hkl : k < s.values.length := by
      rw [← hl]
      exact (List.getElem?_eq_some_iff.mp hold).1
    obtain ⟨p, hp, -, -, hkeep⟩ := hf.2.2 k s.values[k] (List.getElem?_eq_getElem hkl)
    refine ⟨p, hp, ?_⟩
    intro j
    rw [hoj j, hkeep old hold i' heq]

theorem readLines_ok {tree : List (ListOfMatrixSections K)} {header matrix : String}
    (hwf : ∀ M ∈ tree, ∀ s ∈ M.sections, s.values ≠ [])
    {r : List (K × Mat6 K) × (Fin 6 → Bool)} (h : readLines tree header matrix = .ok r) :
    LinesRead (fun s => ∃ M ∈ tree, M.header = header ∧ s ∈ M.sections) matrix r := by
  unfold readLines at h
  refine foldlM_inv (LinesRead (fun s => ∃ M ∈ tree, M.header = header ∧ s ∈ M.sections) matrix) h ?_ ?_
  · intro i hi
    simp at hi
  · intro b M b' hM hb hstep
    split at hstep
    · rename_i hhead
      refine foldlM_inv (LinesRead (fun s => ∃ M ∈ tree, M.header = header ∧ s ∈ M.sections) matrix) hstep hb ?_
      intro c s c' hs hc hss
      unfold sectionStep at hss
      refine foldlM_inv (LinesRead (fun s => ∃ M ∈ tree, M.header = header ∧ s ∈ M.sections) matrix) hss hc ?_
      intro d i d' _ hd hdd
      split at hdd
      · rename_i hname
        simp only [bind, Except.bind, pure, Except.pure] at hdd
        split at hdd
        · simp at hdd
        · rename_i v hv
          simp only [Except.ok.injEq] at hdd
          subst hdd
          exact LinesRead.fill (fun s ⟨M, hM, _, hs⟩ => hwf M hM s hs) hd ⟨M, hM, hhead, hs⟩ hname hv
      · simp only [pure, Except.pure, Except.ok.injEq] at hdd
        exact hdd ▸ hd
    · simp only [pure, Except.pure, Except.ok.injEq] at hstep
      exact hstep ▸ hb

/-! ### RAO tables -/

/-- Value of a table of rows. -/
def cell (t : List (List K)) (p q : Nat) : Option K := (t[p]?).bind (fun r => r[q]?)

theorem growRows_len (t : List (List K)) (p : Nat) :
    t.length ≤ (growRows t p).length ∧ (p ≤ t.length → p < (growRows t p).length) := by
  unfold growRows
  split <;> simp <;> omega

theorem growRows_get {t : List (List K)} {p p' : Nat} {r : List K} (h : t[p']? = some r) :
    (growRows t p)[p']? = some r := by
  unfold growRows
  split
  · rw [List.getElem?_append_left (List.getElem?_eq_some_iff.mp h).1, h]
  · exact h

theorem growRow_len (r : List K) (n : Nat) : n ≤ (growRow r n).length := by
  unfold growRow
  split
  · simp
    omega
  · omega

theorem growRow_get {r : List K} {n q : Nat} {y : K} (h : r[q]? = some y) :
    (growRow r n)[q]? = some y := by
  unfold growRow
  split
  · rw [List.getElem?_append_left (List.getElem?_eq_some_iff.mp h).1, h]
  · exact h

theorem setCell_len (t : List (List K)) (p q : Nat) (x : K) :
    t.length ≤ (setCell t p q x).length ∧ (p ≤ t.length → p < (setCell t p q x).length) := by
  unfold setCell
  rw [List.length_set]
  exact growRows_len t p

theorem setCell_same {t : List (List K)} {p q : Nat} {x : K} (hp : p ≤ t.length) :
    cell (setCell t p q x) p q = some x := by
  unfold setCell cell
  rw [List.getElem?_set_self ((growRows_len t p).2 hp)]
  simp only [Option.bind_some]
  rw [List.getElem?_set_self]
  have := growRow_len ((growRows t p).getD p []) (q + 1)
  omega

theorem setCell_other {t : List (List K)} {p q : Nat} {x : K} {p' q' : Nat} {y : K}
    (hne : p' ≠ p ∨ q' ≠ q) (h : cell t p' q' = some y) :
    cell (setCell t p q x) p' q' = some y := by
  simp only [cell, Option.bind_eq_some_iff] at h
  obtain ⟨r, hr, hq⟩ := h
  have hr' := growRows_get (p := p) hr
  unfold setCell cell
  by_cases hpp : p' = p
  · subst hpp
    have hqq : q' ≠ q := by
      rcases hne with h | h
      · exact absurd rfl h
      · exact h
    rw [List.getElem?_set_self (List.getElem?_eq_some_iff.mp hr').1]
    simp only [Option.bind_some, List.getD_eq_getElem?_getD, hr', Option.getD_some]
    rw [List.getElem?_set_ne (Ne.symm hqq)]
    exact growRow_get hq
  · rw [List.getElem?_set_ne (Ne.symm hpp), hr']
    exact hq

theorem foldlM_filter {α β : Type} (P : α → Prop) [DecidablePred P] (f : β → α → Except Err β) :
    ∀ (l : List α) (b : β), l.foldlM (fun b a => if P a then f b a else pure b) b =
      (l.filter (fun a => decide (P a))).foldlM f b
  | [], b => rfl
  | a :: l, b => by
    by_cases h : P a
    · rw [List.filter_cons_of_pos (by simpa using h), List.foldlM_cons, List.foldlM_cons, if_pos h]
      simp only [bind, Except.bind]
      cases f b a with
      | error e => rfl
      | ok b' => exact foldlM_filter P f l b'
    · rw [List.filter_cons_of_neg (by simpa using h), List.foldlM_cons, if_neg h]
      simp only [bind, Except.bind, pure, Except.pure]
      exact foldlM_filter P f l b

theorem raoRows_ok (q : Nat) : ∀ {rows : List (List K)} {p : Nat} {st st' : RaoState K},
    raoRows q p rows st = .ok st' →
    st'.psi = st.psi ∧ st'.foundSection = st.foundSection ∧ st'.foundSubsection = st.foundSubsection ∧
    st'.periods = st.periods ++ rows.filterMap List.head? ∧
    (∀ v ∈ rows, 7 ≤ v.length) ∧
    ∀ j : Fin 6,
      (∀ (p' q' : Nat) (y : K), q' ≠ q ∨ p' < p → cell (st.values j) p' q' = some y →
        cell (st'.values j) p' q' = some y) ∧
      (p ≤ (st.values j).length → ∀ (k : Nat) (v : List K), rows[k]? = some v →
        ∃ x, v[j.val + 1]? = some x ∧ cell (st'.values j) (p + k) q = some x)
  | [], p, st, st', h => by
    simp only [raoRows, pure, Except.pure, Except.ok.injEq] at h
    subst h
    simp
  | v :: rows, p, st, st', h => by
    unfold raoRows at h
    split at h
    · rename_i T a b c d e f tl
      obtain ⟨h1, h2, h3, h4, h5, h6⟩ := raoRows_ok q h
      refine ⟨h1, h2, h3, ?_, ?_, ?_⟩
      · rw [h4]
        simp
      · intro v hv
        rcases List.mem_cons.mp hv with rfl | hv
        · simp
        · exact h5 v hv
      · intro j
        obtain ⟨h7, h8⟩ := h6 j
        simp only at h7 h8
        refine ⟨?_, ?_⟩
        · intro p' q' y hne hc
          refine h7 p' q' y (by omega) (setCell_other (by omega) hc)
        · intro hp k v hk
          cases k with
          | zero =>
            simp only [List.getElem?_cons_zero, Option.some.injEq] at hk
            subst hk
            refine ⟨![a, b, c, d, e, f] j, ?_, ?_⟩
            · fin_cases j <;> simp
            · exact h7 p q _ (by omega) (setCell_same hp)
          | succ k =>
            simp only [List.getElem?_cons_succ] at hk
            have := h8 (by
              have := (setCell_len (st.values j) p q (![a, b, c, d, e, f] j)).2 hp
              omega) k v hk
            rw [show p + (k + 1) = p + 1 + k by omega]
            exact this
    · simp at h
    · simp at h

theorem raoSections_ok (pi : K) (sub : String) : ∀ {l : List (SectionWithId K)} {q : Nat} {st st' : RaoState K},
    raoSections pi sub q l st = .ok st' →
    st'.foundSection = st.foundSection ∧
    (st'.foundSubsection = true ↔ st.foundSubsection = true ∨ l.filter (fun s => s.header = sub) ≠ []) ∧
    st'.psi = st.psi ++ (l.filter (fun s => s.header = sub)).map (fun s => s.id * pi / 180) ∧
    st'.periods = st.periods ++ (l.filter (fun s => s.header = sub)).flatMap (fun s => s.values.filterMap List.head?) ∧
    ∀ j : Fin 6,
      (∀ (p' q' : Nat) (y : K), q' < q → cell (st.values j) p' q' = some y →
        cell (st'.values j) p' q' = some y) ∧
      (∀ (k : Nat) (s : SectionWithId K), (l.filter (fun s => s.header = sub))[k]? = some s →
        ∀ (r : Nat) (v : List K), s.values[r]? = some v →
        ∃ x, v[j.val + 1]? = some x ∧ cell (st'.values j) r (q + k) = some x)
  | [], q, st, st', h => by
    simp only [raoSections, pure, Except.pure, Except.ok.injEq] at h
    subst h
    simp
  | s :: l, q, st, st', h => by
    unfold raoSections at h
    by_cases hs : s.header = sub
    · rw [if_pos hs] at h
      simp only [bind, Except.bind] at h
      split at h
      · simp at h
      · rename_i st1 hst1
        obtain ⟨a1, a2, a3, a4, -, a6⟩ := raoRows_ok q hst1
        obtain ⟨b1, b2, b3, b4, b5⟩ := raoSections_ok pi sub h
        simp only at a1 a2 a3 a4 a6
        rw [List.filter_cons_of_pos (by simpa using hs)]
        refine ⟨b1.trans a2, ?_, ?_, ?_, ?_⟩
        · rw [b2, a3]
          simp
        · rw [b3, a1]
          simp
        · rw [b4, a4]
          simp
        · intro j
          refine ⟨?_, ?_⟩
          · intro p' q' y hq hc
            exact (b5 j).1 p' q' y (by omega) ((a6 j).1 p' q' y (by omega) hc)
          · intro k s' hk r v hv
            cases k with
            | zero =>
              simp only [List.getElem?_cons_zero, Option.some.injEq] at hk
              subst hk
              obtain ⟨x, hx, hc⟩ := (a6 j).2 (Nat.zero_le _) r v hv
              refine ⟨x, hx, (b5 j).1 r (q + 0) x (by omega) ?_⟩
              simpa using hc
            | succ k =>
              simp only [List.getElem?_cons_succ] at hk
              rw [show q + (k + 1) = q + 1 + k by omega]
              exact (b5 j).2 k s' hk r v hv
    · rw [if_neg hs] at h
      rw [List.filter_cons_of_neg (by simpa using hs)]
      exact raoSections_ok pi sub h

end Xdyn.Hdb

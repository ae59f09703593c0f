/-
C169, C170: from the text of an HDB file to what the simulation uses.
-/
import Verif.Model.HdbFile
import Verif.Model.Inertia
import Verif.Props.Hdb
import Verif.Props.HdbText
import Verif.Props.Radiation

namespace Xdyn.Hdb
open Format

section
variable {K : Type} [Field K] [LinearOrder K]

/-! ### What the file says -/

/-- Line `i` of the matrices of a file, as it is written: for each period, the period and the six coefficients. -/
def tableLine (t : List (K × Mat6 K)) (i : Fin 6) : List (List K) :=
  t.map (fun p => [p.1, p.2 i 0, p.2 i 1, p.2 i 2, p.2 i 3, p.2 i 4, p.2 i 5])

/-- The file contains, under `header`, the six lines `matrix_1`, ..., `matrix_6` of the matrices `t` (a matrix for each period). -/
structure HasTable (lists : List (ListOfMatrixSections K)) (header matrix : String) (t : List (K × Mat6 K)) : Prop where
  some_period : t ≠ []
  present : ∀ i : Fin 6, ∃ M ∈ lists, M.header = header ∧ ∃ s ∈ M.sections, s.header = matrix ++ "_" ++ toString (i.val + 1)
  same : ∀ M ∈ lists, M.header = header → ∀ s ∈ M.sections, ∀ i : Fin 6, s.header = matrix ++ "_" ++ toString (i.val + 1) →
    s.values = tableLine t i

/-- The rows of the RAO are complete (a period and six coefficients). -/
def RaoRows (lists : List (ListOfMatrixSectionsWithId K)) (sec sub : String) : Prop :=
  ∀ M ∈ lists, M.header = sec → ∀ s ∈ M.sections, s.header = sub → ∀ row ∈ s.values, 7 ≤ row.length

/-! ### Tools -/

theorem foldlM_total {α β : Type} {f : β → α → Except Err β} (P : β → Prop) :
    ∀ {l : List α} {b : β}, P b → (∀ b a, a ∈ l → P b → ∃ b', f b a = .ok b' ∧ P b') → ∃ b', l.foldlM f b = .ok b' ∧ P b'
  | [], b, hb, _ => ⟨b, rfl, hb⟩
  | a :: l, b, hb, hs => by
    obtain ⟨b', h1, h2⟩ := hs b a (by simp) hb
    obtain ⟨c, h3, h4⟩ := foldlM_total (l := l) P h2 (fun b a ha => hs b a (by simp [ha]))
    refine ⟨c, ?_, h4⟩
    simp only [List.foldlM_cons, bind, Except.bind, h1]
    exact h3

theorem foldlM_reach {α β : Type} {f : β → α → Except Err β} (Q : β → Prop) :
    ∀ {l : List α} {b c : β} {a : α}, l.foldlM f b = .ok c → a ∈ l → (∀ b b', f b a = .ok b' → Q b') →
      (∀ b x b', x ∈ l → f b x = .ok b' → Q b → Q b') → Q c
  | x :: l, b, c, a, h, ha, h1, h2 => by
    simp only [List.foldlM_cons, bind, Except.bind] at h
    split at h
    · simp at h
    rename_i b' hb'
    rcases List.mem_cons.mp ha with rfl | ha
    · exact foldlM_inv Q h (h1 _ _ hb') (fun b a b' ha hb hf => h2 b a b' (by simp [ha]) hf hb)
    · exact foldlM_reach Q h ha h1 (fun b x b' hx => h2 b x b' (by simp [hx]))

/-- What has been read after some sections. -/
def Reading (t : List (K × Mat6 K)) (acc : List (K × Mat6 K) × (Fin 6 → Bool)) : Prop :=
  (acc.1 = [] ∧ ∀ i, acc.2 i = false) ∨
  (acc.1.map Prod.fst = t.map Prod.fst ∧ ∀ i, acc.2 i = true → acc.1.map (fun p => p.2 i) = t.map (fun p => p.2 i))

theorem fill_rows (i : Fin 6) : ∀ (ret t : List (K × Mat6 K)), ret.length = t.length →
    ((List.zip ret (tableLine t i)).mapM (fun p => fillRow i p.1 p.2) : Except Err (List (K × Mat6 K))) =
      .ok (List.zipWith (fun o p => (p.1, Function.update o.2 i (p.2 i))) ret t)
  | [], [], _ => rfl
  | o :: ret, p :: t, h => by
    have ih := fill_rows i ret t (by simpa using h)
    simp only [tableLine, List.map_cons, List.zip_cons_cons, List.mapM_cons, List.zipWith_cons_cons, bind, Except.bind, fillRow] at ih ⊢
    rw [ih]
    simp only [pure, Except.pure, Except.ok.injEq, List.cons.injEq, and_true, Prod.mk.injEq, true_and]
    congr 1
    ext j
    fin_cases j <;> rfl

theorem reading_fill {t : List (K × Mat6 K)} (ht : t ≠ []) {acc : List (K × Mat6 K) × (Fin 6 → Bool)} (h : Reading t acc) (i : Fin 6) :
    ∃ r, fill acc.1 i (tableLine t i) = .ok r ∧ Reading t (r, Function.update acc.2 i true) := by
  have hlen : (tableLine t i).length = t.length := by simp [tableLine]
  obtain ⟨ret, hret, hl, hkeep⟩ : ∃ ret, (if acc.1 = [] then List.replicate (tableLine t i).length ((0 : K), fun _ _ => (0 : K)) else acc.1) = ret ∧
      ret.length = t.length ∧ ∀ i', acc.2 i' = true → ret.map (fun p => p.2 i') = t.map (fun p => p.2 i') := by
    rcases h with ⟨h0, hf⟩ | ⟨h1, h2⟩
    · refine ⟨_, rfl, ?_, ?_⟩
      · rw [if_pos h0, List.length_replicate, hlen]
      · intro i' hi'; rw [hf i'] at hi'; simp at hi'
    · have hl : acc.1.length = t.length := by simpa using congrArg List.length h1
      have hne : acc.1 ≠ [] := by
        intro h0; rw [h0] at hl; exact ht (List.length_eq_zero_iff.mp hl.symm)
      exact ⟨acc.1, if_neg hne, hl, h2⟩
  refine ⟨List.zipWith (fun o p => (p.1, Function.update o.2 i (p.2 i))) ret t, ?_, .inr ⟨?_, ?_⟩⟩
  · unfold fill
    simp only [hret]
    rw [if_pos (hlen.trans hl.symm)]
    exact fill_rows i ret t hl
  · apply List.ext_getElem?
    intro k
    simp only [List.getElem?_map, List.getElem?_zipWith]
    by_cases hk : k < t.length
    · rw [List.getElem?_eq_getElem hk, List.getElem?_eq_getElem (hl ▸ hk)]; simp
    · rw [List.getElem?_eq_none (by omega : t.length ≤ k), List.getElem?_eq_none (by omega : ret.length ≤ k)]
  · intro i' hi'
    apply List.ext_getElem?
    intro k
    simp only [List.getElem?_map, List.getElem?_zipWith]
    by_cases hk : k < t.length
    · rw [List.getElem?_eq_getElem hk, List.getElem?_eq_getElem (hl ▸ hk)]
      by_cases hii : i' = i
      · subst hii; simp
      · simp only [Function.update_of_ne hii] at hi'
        have h3 := congrArg (fun l => l[k]?) (hkeep i' hi')
        simp only [List.getElem?_map, List.getElem?_eq_getElem hk, List.getElem?_eq_getElem (hl ▸ hk), Option.map_some, Option.some.injEq] at h3
        simp [Function.update_of_ne hii, h3]
    · rw [List.getElem?_eq_none (by omega : t.length ≤ k), List.getElem?_eq_none (by omega : ret.length ≤ k)]

/-- **C169** The matrices used are those of the file, in the frame of the body (`z` downwards), one for each period, in the order of the file. -/
theorem matrices_of_file {lists : List (ListOfMatrixSections K)} {header matrix : String} {t : List (K × Mat6 K)}
    (h : HasTable lists header matrix t) :
    getMatrix lists header matrix = .ok (t.map (fun p => (p.1, fun i j => rot i * p.2 i j * rot j))) := by
  have step : ∀ (b : List (K × Mat6 K) × (Fin 6 → Bool)) (M : ListOfMatrixSections K), M ∈ lists → Reading t b →
      ∃ b', (if M.header = header then M.sections.foldlM (sectionStep matrix) b else pure b) = .ok b' ∧ Reading t b' := by
    intro b M hM hb
    by_cases hh : M.header = header
    · rw [if_pos hh]
      refine foldlM_total (Reading t) hb (fun c s hs hc => ?_)
      unfold sectionStep
      refine foldlM_total (Reading t) hc (fun d i _ hd => ?_)
      by_cases hn : s.header = lineName matrix i
      · rw [if_pos hn, h.same M hM hh s hs i hn]
        obtain ⟨r, hr, hrr⟩ := reading_fill h.some_period hd i
        exact ⟨(r, Function.update d.2 i true), by simp only [hr, bind, Except.bind, pure, Except.pure], hrr⟩
      · rw [if_neg hn]; exact ⟨d, rfl, hd⟩
    · rw [if_neg hh]; exact ⟨b, rfl, hb⟩
  obtain ⟨acc, hacc, hread⟩ := foldlM_total (Reading t) (l := lists) (b := (([] : List (K × Mat6 K)), fun _ : Fin 6 => false))
    (.inl ⟨rfl, fun _ => rfl⟩) step
  -- once found, a line remains found
  have mono : ∀ (i : Fin 6) (s : MatrixSection K) (b b' : List (K × Mat6 K) × (Fin 6 → Bool)),
      sectionStep matrix b s = .ok b' → b.2 i = true → b'.2 i = true := by
    intro i s b b' hs hb
    refine foldlM_inv (fun a => a.2 i = true) hs hb ?_
    intro d i' d' _ hd hdd
    split at hdd
    · simp only [bind, Except.bind, pure, Except.pure] at hdd
      split at hdd
      · simp at hdd
      · simp only [Except.ok.injEq] at hdd
        subst hdd
        by_cases hi : i = i'
        · subst hi; simp
        · simpa [Function.update_of_ne hi] using hd
    · simp only [pure, Except.pure, Except.ok.injEq] at hdd
      exact hdd ▸ hd
  have hfound : ∀ i, acc.2 i = true := by
    intro i
    obtain ⟨M, hM, hh, s, hs, hn⟩ := h.present i
    refine foldlM_reach (fun a => a.2 i = true) hacc hM ?_ ?_
    · intro b b' hb
      rw [if_pos hh] at hb
      refine foldlM_reach (fun a => a.2 i = true) hb hs ?_ (fun c x c' _ hx hc => mono i x c c' hx hc)
      intro c c' hc
      refine foldlM_reach (fun a => a.2 i = true) hc (List.mem_finRange i) ?_ ?_
      · intro d d' hd
        rw [if_pos (show s.header = lineName matrix i from hn)] at hd
        simp only [bind, Except.bind, pure, Except.pure] at hd
        split at hd
        · simp at hd
        · simp only [Except.ok.injEq] at hd
          subst hd; simp
      · intro d i' d' _ hdd hd
        split at hdd
        · simp only [bind, Except.bind, pure, Except.pure] at hdd
          split at hdd
          · simp at hdd
          · simp only [Except.ok.injEq] at hdd
            subst hdd
            by_cases hi : i = i'
            · subst hi; simp
            · simpa [Function.update_of_ne hi] using hd
        · simp only [pure, Except.pure, Except.ok.injEq] at hdd
          exact hdd ▸ hd
    · intro b x b' hx hb hq
      split at hb
      · exact foldlM_inv (fun a => a.2 i = true) hb hq (fun c y c' _ hc hy => mono i y c c' hy hc)
      · simp only [pure, Except.pure, Except.ok.injEq] at hb
        exact hb ▸ hq
  have heq : acc.1 = t := by
    rcases hread with ⟨_, hf⟩ | ⟨h1, h2⟩
    · have h0 := hfound 0
      rw [hf 0] at h0
      simp at h0
    · have hl : acc.1.length = t.length := by simpa using congrArg List.length h1
      apply List.ext_getElem? 
      intro k
      by_cases hk : k < t.length
      · have hk' : k < acc.1.length := hl ▸ hk
        rw [List.getElem?_eq_getElem hk, List.getElem?_eq_getElem hk', Option.some.injEq]
        have e1 := congrArg (fun l => l[k]?) h1
        simp only [List.getElem?_map, List.getElem?_eq_getElem hk, List.getElem?_eq_getElem hk', Option.map_some, Option.some.injEq] at e1
        refine Prod.ext e1 ?_
        funext i
        have e2 := congrArg (fun l => l[k]?) (h2 i (hfound i))
        simpa only [List.getElem?_map, List.getElem?_eq_getElem hk, List.getElem?_eq_getElem hk', Option.map_some, Option.some.injEq] using e2
      · rw [List.getElem?_eq_none (by omega), List.getElem?_eq_none (by omega)]
  unfold getMatrix readLines
  simp only [bind, Except.bind, pure, Except.pure] at hacc ⊢
  rw [hacc]
  simp only
  rw [if_pos hfound, heq]
  congr 1
  apply List.map_congr_left
  intro p _
  refine Prod.ext rfl ?_
  funext i j
  exact hdb_frame_conjugation _ _ _

/-- The tables of the RAO are read, or the message says what is missing. -/
theorem rao_total (pi : K) {lists : List (ListOfMatrixSectionsWithId K)} {sec sub : String} (h : RaoRows lists sec sub) :
    ∃ r, tryRao pi lists sec sub = .ok r := by
  have rows : ∀ (l : List (List K)), (∀ row ∈ l, 7 ≤ row.length) → ∀ (q p : Nat) (st : RaoState K), ∃ st', raoRows q p l st = .ok st' := by
    intro l
    induction l with
    | nil => intro _ q p st; exact ⟨st, rfl⟩
    | cons v l ih =>
      intro hl q p st
      have h7 := hl v (by simp)
      match v, h7 with
      | T :: a :: b :: c :: d :: e :: f :: tl, _ =>
        simp only [raoRows]
        exact ih (fun row hr => hl row (by simp [hr])) _ _ _
  have secs : ∀ (l : List (SectionWithId K)), (∀ s ∈ l, s.header = sub → ∀ row ∈ s.values, 7 ≤ row.length) →
      ∀ (q : Nat) (st : RaoState K), ∃ st', raoSections pi sub q l st = .ok st' := by
    intro l
    induction l with
    | nil => intro _ q st; exact ⟨st, rfl⟩
    | cons s l ih =>
      intro hl q st
      unfold raoSections
      by_cases hs : s.header = sub
      · rw [if_pos hs]
        obtain ⟨st1, h1⟩ := rows s.values (hl s (by simp) hs) q 0 { st with foundSubsection := true, psi := st.psi ++ [s.id * pi / 180] }
        simp only [h1, bind, Except.bind]
        exact ih (fun s' hs' => hl s' (by simp [hs'])) _ _
      · rw [if_neg hs]
        exact ih (fun s' hs' => hl s' (by simp [hs'])) _ _
  obtain ⟨st, hst, -⟩ := foldlM_total (fun _ : RaoState K => True) (l := lists)
    (f := fun (st : RaoState K) ms => if ms.header = sec then raoSections pi sub 0 ms.sections { st with foundSection := true } else pure st)
    (b := { periods := [], psi := [], values := fun _ => [], foundSection := false, foundSubsection := false }) trivial (by
      intro b M hM _
      by_cases hh : M.header = sec
      · rw [if_pos hh]
        obtain ⟨st', h'⟩ := secs M.sections (h M hM hh) 0 { b with foundSection := true }
        exact ⟨st', h', trivial⟩
      · rw [if_neg hh]; exact ⟨b, rfl, trivial⟩)
  unfold tryRao getRao
  simp only [bind, Except.bind] at hst ⊢
  rw [hst]
  simp only
  split
  · exact ⟨_, rfl⟩
  · rename_i e he
    split_ifs at he with h1 h2
    · simp only [Except.error.injEq] at he
      subst he
      exact ⟨_, if_pos (.inl rfl)⟩
    · simp only [Except.error.injEq] at he
      subst he
      exact ⟨_, if_pos (.inr rfl)⟩
    · exact absurd he (by simp [pure, Except.pure])

/-! ### The database -/

/-- What is asked from the library of interpolation for the abscissae `T`: it accepts them, and the function goes through the points. -/
def Interpolation (spline : List K → List K → Except Err (K → K)) (T : List K) : Prop :=
  ∀ y, y.length = T.length → ∃ f, spline T y = .ok f ∧ ∀ (k : Nat) (a b : K), T[k]? = some a → y[k]? = some b → f a = b

theorem splines_ok {spline : List K → List K → Except Err (K → K)} {T : List K} (h : Interpolation spline T) (m : List (K × Mat6 K))
    (hm : m.length = T.length) :
    ∃ M, splines spline T m = .ok M ∧ ∀ (k : Nat) (a : K) (p : K × Mat6 K), T[k]? = some a → m[k]? = some p → ∀ i j, M i j a = p.2 i j := by
  have hf : ∀ i j : Fin 6, ∃ f, spline T (coefficients m i j) = .ok f ∧
      ∀ (k : Nat) (a b : K), T[k]? = some a → (coefficients m i j)[k]? = some b → f a = b :=
    fun i j => h _ (by simp [coefficients, hm])
  choose F hF1 hF2 using hf
  have h1 : ∀ i : Fin 6, ((List.finRange 6).mapM (fun j => spline T (coefficients m i j)) : Except Err (List (K → K))) = .ok ((List.finRange 6).map (F i)) :=
    fun i => Waves.mapM_ok _ (fun j _ => hF1 i j)
  have h2 : ((List.finRange 6).mapM (fun i => (List.finRange 6).mapM (fun j => spline T (coefficients m i j))) : Except Err (List (List (K → K)))) =
      .ok ((List.finRange 6).map (fun i => (List.finRange 6).map (F i))) := Waves.mapM_ok _ (fun i _ => h1 i)
  refine ⟨_, by unfold splines; rw [h2], ?_⟩
  intro k a p hT hp i j
  have h3 : ((((List.finRange 6).map (fun i => (List.finRange 6).map (F i))).getD i.val []).getD j.val (fun _ => 0)) = F i j := by
    fin_cases i <;> fin_cases j <;> rfl
  rw [h3]
  exact hF2 i j k a _ hT (by simp [coefficients, hp])

variable (N : Numbers K)

/-- **C169** From the text to the simulation: for every text that has the format and contains the tables of added mass `A` and of damping `B`, with no
zero period in `B` (and RAO whose rows are complete, if there are any): the file is accepted; the added mass is the one of the first period of the file;
at each period of the file it is the one of the file; the angular frequencies are `2 pi / T`, from the last period to the first, each with
its own damping coefficients. The matrices are those of the file in the frame of the body. -/
theorem database_of_text {l : List (Item K)} {s : List Char} (hs : IsFile N l s) (pi : K) {A B : List (K × Mat6 K)}
    (hA : HasTable (l.filterMap asList) "Added_mass_Radiation_Damping" "ADDED_MASS_LINE" A)
    (hB : HasTable (l.filterMap asList) "Added_mass_Radiation_Damping" "DAMPING_TERM" B)
    (hB0 : ∀ p ∈ B, p.1 ≠ 0)
    (hrao : ∀ sec ∈ ["DIFFRACTION_FORCES_AND_MOMENTS", "FROUDE-KRYLOV_FORCES_AND_MOMENTS"], ∀ sub ∈ ["INCIDENCE_EFM_MOD_001", "INCIDENCE_EFM_PH_001"],
      RaoRows (l.filterMap asListWithId) sec sub)
    {spline : List K → List K → Except Err (K → K)} (hspline : Interpolation spline (A.map Prod.fst)) :
    ∃ d, database N.num pi spline s = .ok d ∧
      (∃ first, A.head? = some first ∧ ∀ i j, d.addedMass i j = rot i * first.2 i j * rot j) ∧
      (∀ p ∈ A, ∀ i j, d.addedMassAt p.1 i j = rot i * p.2 i j * rot j) ∧
      d.pulsations.length = B.length ∧ (∀ i j, (d.dampingCoeff i j).length = B.length) ∧
      ∀ (k : Nat) (p : K × Mat6 K), B.reverse[k]? = some p →
        d.pulsations[k]? = some (2 * pi / p.1) ∧ ∀ i j, (d.dampingCoeff i j)[k]? = some (rot i * p.2 i j * rot j) := by
  obtain ⟨dm, hdm⟩ := rao_total pi (hrao "DIFFRACTION_FORCES_AND_MOMENTS" (by simp) "INCIDENCE_EFM_MOD_001" (by simp))
  obtain ⟨dp, hdp⟩ := rao_total pi (hrao "DIFFRACTION_FORCES_AND_MOMENTS" (by simp) "INCIDENCE_EFM_PH_001" (by simp))
  obtain ⟨fm, hfm⟩ := rao_total pi (hrao "FROUDE-KRYLOV_FORCES_AND_MOMENTS" (by simp) "INCIDENCE_EFM_MOD_001" (by simp))
  obtain ⟨fp, hfp⟩ := rao_total pi (hrao "FROUDE-KRYLOV_FORCES_AND_MOMENTS" (by simp) "INCIDENCE_EFM_PH_001" (by simp))
  have hmA := matrices_of_file hA
  have hmB := matrices_of_file hB
  generalize hA' : A.map (fun p => ((p.1, fun i j => rot i * p.2 i j * rot j) : K × Mat6 K)) = A' at hmA
  generalize hB' : B.map (fun p => ((p.1, fun i j => rot i * p.2 i j * rot j) : K × Mat6 K)) = B' at hmB
  have hTA : A'.map Prod.fst = A.map Prod.fst := by rw [← hA']; simp [List.map_map, Function.comp_def]
  have hTB : B'.map Prod.fst = B.map Prod.fst := by rw [← hB']; simp [List.map_map, Function.comp_def]
  obtain ⟨M, hM, hMv⟩ := splines_ok hspline A' (by rw [← hTA]; simp)
  have homega : radiationOmegas pi (B.map Prod.fst) = .ok ((B.map Prod.fst).reverse.map (fun T => 2 * pi / T)) := by
    refine Waves.mapM_ok _ (fun T hT => ?_)
    obtain ⟨p, hp, rfl⟩ := List.mem_map.mp (List.mem_reverse.mp hT)
    rw [if_neg (hB0 p hp)]
  have hAat : ∀ (k : Nat) (p : K × Mat6 K), A[k]? = some p → ∀ i j, M i j p.1 = rot i * p.2 i j * rot j := by
    intro k p hk i j
    exact hMv k p.1 (p.1, fun i j => rot i * p.2 i j * rot j) (by simp [hk]) (by rw [← hA']; simp [hk]) i j
  obtain ⟨p0, A0, hA0⟩ := List.exists_cons_of_ne_nil hA.some_period
  have hA0' : A' = (p0.1, fun i j => rot i * p0.2 i j * rot j) :: A0.map (fun p => ((p.1, fun i j => rot i * p.2 i j * rot j) : K × Mat6 K)) := by
    rw [← hA', hA0, List.map_cons]
  refine ⟨{
      tree := ⟨l.filterMap asString, l.filterMap asValue, l.filterMap asVector, l.filterMap asMatrix, l.filterMap asList, l.filterMap asListWithId⟩,
      pulsations := (B.map Prod.fst).reverse.map (fun T => 2 * pi / T), M := M, Br := fun i j => coefficients B' i j, Tmin := p0.1,
      diffractionModule := dm, diffractionPhase := dp, froudeKrylovModule := fm, froudeKrylovPhase := fp }, ?_, ?_, ?_, ?_, ?_, ?_⟩
  · unfold database
    rw [hdb_text N hs]
    simp only [bind, Except.bind, pure, Except.pure, hdm, hdp, hfm, hfp, hmA, hmB, hTA, hTB, hM, homega]
    rw [hA0']
  · refine ⟨p0, by rw [hA0]; rfl, fun i j => ?_⟩
    exact hAat 0 p0 (by rw [hA0]; rfl) i j
  · intro p hp i j
    obtain ⟨k, hk⟩ := List.mem_iff_getElem?.mp hp
    exact hAat k p hk i j
  · simp
  · intro i j
    simp [Database.dampingCoeff, coefficients, ← hB']
  · intro k p hk
    refine ⟨?_, fun i j => ?_⟩
    · simp only [← List.map_reverse, List.map_map, List.getElem?_map, hk]
      rfl
    · simp only [Database.dampingCoeff, coefficients, ← hB', List.map_map, ← List.map_reverse, List.getElem?_map, hk]
      rfl

/-! ### RAO -/

/-- The four kinds of RAO of a file. -/
inductive RaoKind where
  | diffractionModule | diffractionPhase | froudeKrylovModule | froudeKrylovPhase

/-- Section of the file -/
def RaoKind.sec : RaoKind → String
  | .diffractionModule | .diffractionPhase => "DIFFRACTION_FORCES_AND_MOMENTS"
  | .froudeKrylovModule | .froudeKrylovPhase => "FROUDE-KRYLOV_FORCES_AND_MOMENTS"

/-- Subsection of the file -/
def RaoKind.sub : RaoKind → String
  | .diffractionModule | .froudeKrylovModule => "INCIDENCE_EFM_MOD_001"
  | .diffractionPhase | .froudeKrylovPhase => "INCIDENCE_EFM_PH_001"

/-- What the database keeps -/
def Database.raoTable (d : Database K) : RaoKind → Except Err (RAOData K)
  | .diffractionModule => d.diffractionModule
  | .diffractionPhase => d.diffractionPhase
  | .froudeKrylovModule => d.froudeKrylovModule
  | .froudeKrylovPhase => d.froudeKrylovPhase

theorem database_rao {l : List (Item K)} {s : List Char} (hs : IsFile N l s) (pi : K) {spline : List K → List K → Except Err (K → K)} {d : Database K}
    (hd : database N.num pi spline s = .ok d) (k : RaoKind) : tryRao pi (l.filterMap asListWithId) k.sec k.sub = .ok (d.raoTable k) := by
  unfold database at hd
  rw [hdb_text N hs] at hd
  simp only [bind, Except.bind, pure, Except.pure] at hd
  split at hd
  · simp at hd
  rename_i dm hdm
  split at hd
  · simp at hd
  rename_i dp hdp
  split at hd
  · simp at hd
  rename_i fm hfm
  split at hd
  · simp at hd
  rename_i fp hfp
  iterate 5
    split at hd
    · simp at hd
  simp only [Except.ok.injEq] at hd
  subst hd
  cases k
  · exact hdm
  · exact hdp
  · exact hfm
  · exact hfp

/-- **C170** A file without the RAO is refused when, and only when, they are asked for. -/
theorem rao_missing {l : List (Item K)} {s : List Char} (hs : IsFile N l s) (pi : K) {spline : List K → List K → Except Err (K → K)} {d : Database K}
    (hd : database N.num pi spline s = .ok d) (k : RaoKind) {B : Type} (f : RAOData K → B) :
    (∃ M, Item.listWithId M ∈ l ∧ M.header = k.sec ∧ ∃ x ∈ M.sections, x.header = k.sub) ↔ ∃ y, rao (d.raoTable k) f = .ok y := by
  have h := database_rao N hs pi hd k
  have hmem : ∀ M, M ∈ l.filterMap asListWithId ↔ Item.listWithId M ∈ l := by
    intro M
    simp only [List.mem_filterMap]
    constructor
    · rintro ⟨i, hi, h⟩
      cases i <;> simp [asListWithId] at h
      subst h; exact hi
    · intro h; exact ⟨_, h, rfl⟩
  generalize l.filterMap asListWithId = lists at h hmem
  simp only [← hmem]
  clear hmem
  -- what the loops find
  have key : ∀ (lists : List (ListOfMatrixSectionsWithId K)) (st st' : RaoState K),
      lists.foldlM (fun (st : RaoState K) ms =>
        if ms.header = k.sec then raoSections pi k.sub 0 ms.sections { st with foundSection := true } else Except.ok st) st = .ok st' →
      (st'.foundSection = true ↔ st.foundSection = true ∨ ∃ M ∈ lists, M.header = k.sec) ∧
      (st'.foundSubsection = true ↔ st.foundSubsection = true ∨ ∃ M ∈ lists, M.header = k.sec ∧ ∃ x ∈ M.sections, x.header = k.sub) := by
    intro lists
    induction lists with
    | nil =>
      intro st st' h
      simp only [List.foldlM_nil, pure, Except.pure, Except.ok.injEq] at h
      subst h; simp
    | cons M lists ih =>
      intro st st' h
      simp only [List.foldlM_cons, bind, Except.bind] at h
      split at h
      · simp at h
      rename_i st1 h1
      obtain ⟨i1, i2⟩ := ih st1 st' h
      split at h1
      · rename_i hM
        obtain ⟨f1, f2, -⟩ := raoSections_ok pi k.sub h1
        simp only at f1 f2
        rw [i1, i2, f1, f2]
        refine ⟨by simp [hM], ?_⟩
        have hne : (List.filter (fun x : SectionWithId K => decide (x.header = k.sub)) M.sections ≠ []) ↔ ∃ x ∈ M.sections, x.header = k.sub := by
          rw [ne_eq, List.filter_eq_nil_iff]; simp
        rw [hne]
        simp [hM, or_assoc]
      · rename_i hM
        simp only [Except.ok.injEq] at h1
        subst h1
        rw [i1, i2]
        simp [hM]
  unfold tryRao getRao at h
  simp only [bind, Except.bind, pure, Except.pure] at h
  split at h
  · rename_i r hr
    split at hr
    · simp at hr
    rename_i st hst
    obtain ⟨k1, k2⟩ := key _ _ _ hst
    simp only [Bool.false_eq_true, false_or] at k1 k2
    split_ifs at hr with h1 h2
    simp only [Bool.not_eq_false] at h1 h2
    simp only [Except.ok.injEq] at h
    rw [← h]
    exact ⟨fun _ => ⟨_, rfl⟩, fun _ => k2.mp h2⟩
  · rename_i e he
    have hno : rao (d.raoTable k) f = .error (.throw "InvalidInput") := by
      split_ifs at h
      simp only [Except.ok.injEq] at h
      rw [← h]; rfl
    rw [hno]
    refine ⟨fun hex => ?_, fun ⟨y, hy⟩ => by simp at hy⟩
    exfalso
    split at he
    · -- an exception of the rows goes through
      rename_i e' hst
      simp only [Except.error.injEq] at he
      subst he
      have hrow : ∀ (q : Nat) (l : List (List K)) (p : Nat) (st : RaoState K), raoRows q p l st ≠ .error (.throw "Unable to find section") ∧
          raoRows q p l st ≠ .error (.throw "could not find subsection") := by
        intro q l
        induction l with
        | nil => intro p st; simp [raoRows, pure, Except.pure]
        | cons v l ih =>
          intro p st
          unfold raoRows
          split
          · exact ih _ _
          · simp
          · constructor <;> · intro h; simp only [Except.error.injEq, Err.throw.injEq] at h; exact absurd h (by decide)
      have hsec : ∀ (l : List (SectionWithId K)) (q : Nat) (st : RaoState K), raoSections pi k.sub q l st ≠ .error (.throw "Unable to find section") ∧
          raoSections pi k.sub q l st ≠ .error (.throw "could not find subsection") := by
        intro l
        induction l with
        | nil => intro q st; simp [raoSections, pure, Except.pure]
        | cons x l ih =>
          intro q st
          unfold raoSections
          split_ifs
          · simp only [bind, Except.bind]
            split
            · rename_i e1 h1
              have := hrow q x.values 0 { st with foundSubsection := true, psi := st.psi ++ [x.id * pi / 180] }
              rw [h1] at this
              exact this
            · exact ih _ _
          · exact ih _ _
      have hall : ∀ (lists : List (ListOfMatrixSectionsWithId K)) (st : RaoState K) (e : Err),
          lists.foldlM (fun (st : RaoState K) ms =>
            if ms.header = k.sec then raoSections pi k.sub 0 ms.sections { st with foundSection := true } else Except.ok st) st = .error e →
          e ≠ .throw "Unable to find section" ∧ e ≠ .throw "could not find subsection" := by
        intro lists
        induction lists with
        | nil => intro st e h; simp [pure, Except.pure] at h
        | cons M lists ih =>
          intro st e h
          simp only [List.foldlM_cons, bind, Except.bind] at h
          split at h
          · rename_i e1 h1
            simp only [Except.error.injEq] at h
            subst h
            split at h1
            · have := hsec M.sections 0 { st with foundSection := true }
              rw [h1] at this
              simpa using this
            · simp at h1
          · exact ih _ _ h
      have := hall _ _ _ hst
      rw [if_neg (by simp [this.1, this.2])] at h
      simp at h
    · rename_i st hst
      obtain ⟨k1, k2⟩ := key _ _ _ hst
      simp only [Bool.false_eq_true, false_or] at k1 k2
      obtain ⟨M, hM, hh, hx⟩ := hex
      have h1 : st.foundSection = true := k1.mpr ⟨M, hM, hh⟩
      have h2 : st.foundSubsection = true := k2.mpr ⟨M, hM, hh, hx⟩
      simp [h1, h2] at he

/-- **C86** (partial) From the text to the tables given to the interpolation: with increasing directions, and for each direction the same increasing periods,
the value found at the index of a period and of a direction is the one written in the file for this period and this direction. -/
theorem rao_of_text_partial [IsStrictOrderedRing K] {l : List (Item K)} {s : List Char} (hs : IsFile N l s) (pi : K) (hpi : 0 < pi)
    {spline : List K → List K → Except Err (K → K)} {d : Database K} (hd : database N.num pi spline s = .ok d) (k : RaoKind)
    (ms : ListOfMatrixSectionsWithId K) (hone : (l.filterMap asListWithId).filter (fun m => m.header = k.sec) = [ms])
    (T : List K) (hT : T.Pairwise (· < ·)) (hper : ∀ x ∈ ms.sections, x.header = k.sub → x.values.map List.head? = T.map some)
    (hid : ((ms.sections.filter (fun x => x.header = k.sub)).map (fun x => x.id)).Pairwise (· < ·))
    (periods psi : List K) (values : Fin 6 → List (List K)) (hp : rao (d.raoTable k) RAOData.periods = .ok periods)
    (hq : rao (d.raoTable k) RAOData.psi = .ok psi) (hv : rao (d.raoTable k) RAOData.values = .ok values) :
    periods = T ∧
    ∀ x ∈ ms.sections, x.header = k.sub → ∀ v ∈ x.values, ∀ axis : Fin 6,
      ∃ (p q : Nat) (row : List K) (y : K),
        periods[p]? = v.head? ∧ psi[q]? = some (x.id * pi / 180) ∧
        (values axis)[p]? = some row ∧ row[q]? = some y ∧ v[axis.val + 1]? = some y := by
  have h := database_rao N hs pi hd k
  cases hr : d.raoTable k with
  | error e => rw [hr] at hp; simp [rao] at hp
  | ok r =>
    rw [hr] at h hp hq hv
    simp only [rao, Except.ok.injEq] at hp hq hv
    subst hp; subst hq; subst hv
    unfold tryRao at h
    split at h
    · rename_i r' hr'
      simp only [Except.ok.injEq] at h
      subst h
      exact hdb_rao_from_file_partial pi hpi _ _ _ ms hone T hT hper hid _ hr'
    · split_ifs at h
      simp at h

end

/-- **C169** The body: the total inertia is the inertia of the solid plus the added mass of the first period of the file, in the frame of the body. -/
theorem body_inertia_of_text (N : Numbers ℝ) {l : List (Item ℝ)} {s : List Char} (hs : IsFile N l s) (pi : ℝ) {A B : List (ℝ × Mat6 ℝ)}
    (hA : HasTable (l.filterMap asList) "Added_mass_Radiation_Damping" "ADDED_MASS_LINE" A)
    {spline : List ℝ → List ℝ → Except Err (ℝ → ℝ)} (hspline : Interpolation spline (A.map Prod.fst))
    (hB : HasTable (l.filterMap asList) "Added_mass_Radiation_Damping" "DAMPING_TERM" B) (hB0 : ∀ p ∈ B, p.1 ≠ 0)
    (hrao : ∀ sec ∈ ["DIFFRACTION_FORCES_AND_MOMENTS", "FROUDE-KRYLOV_FORCES_AND_MOMENTS"], ∀ sub ∈ ["INCIDENCE_EFM_MOD_001", "INCIDENCE_EFM_PH_001"],
      RaoRows (l.filterMap asListWithId) sec sub)
    (Mrb : Mat6 ℝ) {m : Inertia.Inertias}
    (hm : Inertia.addInertia (.ok Mrb) ((database N.num pi spline s).map Database.addedMass) = .ok m) :
    ∃ first, A.head? = some first ∧ ∀ i j, m.total i j = Mrb i j + rot i * first.2 i j * rot j := by
  obtain ⟨d, hd, ⟨first, hf, hadd⟩, -⟩ := database_of_text N hs pi hA hB hB0 hrao hspline
  refine ⟨first, hf, fun i j => ?_⟩
  rw [hd] at hm
  simp only [Inertia.addInertia, Except.map, bind, Except.bind, pure, Except.pure, throw, throwThe, MonadExceptOf.throw] at hm
  split_ifs at hm
  simp only [Except.ok.injEq] at hm
  subst hm
  rw [← hadd]
  rfl

/-! ### Every table can be written in a file -/

section
variable {K : Type} [Field K] [LinearOrder K] (N : Numbers K)

theorem row_text {row : List K} (h2 : 2 ≤ row.length) (hw : ∀ x ∈ row, ∃ t, N.Writes x t) : ∃ s, RowLine N row s := by
  match row, h2 with
  | x :: y :: r, _ =>
    obtain ⟨t, ht⟩ := hw x (by simp)
    have hrest : ∀ l : List K, (∀ z ∈ l, ∃ t, N.Writes z t) → ∃ ss, List.Forall₂ (NextNum N) l ss := by
      intro l
      induction l with
      | nil => intro _; exact ⟨[], .nil⟩
      | cons z l ih =>
        intro hl
        obtain ⟨tz, hz⟩ := hl z (by simp)
        obtain ⟨ss, hss⟩ := ih (fun z hz => hl z (by simp [hz]))
        exact ⟨_, .cons ⟨[' '], tz, by simp [Blanks], by simp, hz, rfl⟩ hss⟩
    obtain ⟨ss, hss⟩ := hrest (y :: r) (fun z hz => hw z (by simp only [List.mem_cons] at hz ⊢; tauto))
    exact ⟨_, x, y, r, t, ss, ['\n'], rfl, ⟨[], t, by simp [Blanks], ht, rfl⟩, hss, endLF, rfl⟩

theorem several_text {α : Type} {P : α → List Char → Prop} {l : List α} (hne : l ≠ []) (h : ∀ x ∈ l, ∃ s, P x s) : ∃ s, Several P l s := by
  have : ∀ l : List α, (∀ x ∈ l, ∃ s, P x s) → ∃ ss, List.Forall₂ P l ss := by
    intro l
    induction l with
    | nil => intro _; exact ⟨[], .nil⟩
    | cons z l ih =>
      intro hl
      obtain ⟨tz, hz⟩ := hl z (by simp)
      obtain ⟨ss, hss⟩ := ih (fun z hz => hl z (by simp [hz]))
      exact ⟨_, .cons hz hss⟩
  obtain ⟨ss, hss⟩ := this l h
  exact ⟨_, hne, ss, hss, rfl⟩

theorem header_text {h : String} (hn : Name h.toList) : ∃ s, Header h s :=
  ⟨_, [], [], [], by simp [Blanks], by simp [Blanks], by simp [Blanks], hn, rfl⟩

/-- Every list of matrices can be written in a file (rows of at least two numbers, numbers that can be written). -/
theorem list_text (M : ListOfMatrixSections K) (hn : Name M.header.toList) (hne : M.sections ≠ [])
    (hs : ∀ x ∈ M.sections, Name x.header.toList ∧ x.values ≠ [] ∧ ∀ row ∈ x.values, 2 ≤ row.length ∧ ∀ z ∈ row, ∃ t, N.Writes z t) :
    ∃ s, IsFile N [.list M] s := by
  obtain ⟨s1, h1⟩ := header_text hn
  obtain ⟨s2, h2⟩ := several_text (P := IsMatrix N) hne (by
    intro x hx
    obtain ⟨ha, hb, hc⟩ := hs x hx
    obtain ⟨t1, ht1⟩ := header_text ha
    obtain ⟨t2, ht2⟩ := several_text (P := RowLine N) hb (fun row hr => row_text N (hc row hr).1 (hc row hr).2)
    exact ⟨_, t1, ['\n'], t2, [], ht1, endLF, ht2, .inl rfl, rfl⟩)
  exact ⟨_, .cons (.list h1 endLF h2) .nil (by simp)⟩

end

/-- Natural numbers written in decimal, as rational numbers. -/
def decimals : Numbers ℚ where
  num s := (digits s).map (fun p => ((p.1 : ℚ), p.2))
  Writes x t := ∃ n : Nat, naturals.Writes n t ∧ x = n
  first x t h := by
    obtain ⟨n, hn, -⟩ := h
    exact naturals.first n t hn
  reads x t r h hr := by
    obtain ⟨n, hn, rfl⟩ := h
    have := naturals.reads n t r hn hr
    change digits (t ++ r) = _ at this
    rw [this]; rfl
  empty := by decide
  fails c r h := by
    have := naturals.fails c r h
    change digits (c :: r) = _ at this
    rw [this]; rfl

/-- Two periods; the values are single digits. -/
def demoTable (a : ℚ) : List (ℚ × Mat6 ℚ) := [(2, fun _ _ => a), (5, fun i j => if i = j then 7 else 1)]

def demoLists : ListOfMatrixSections ℚ := ⟨"Added_mass_Radiation_Damping",
  (List.finRange 6).map (fun i => ⟨"ADDED_MASS_LINE" ++ "_" ++ toString (i.val + 1), tableLine (demoTable 3) i⟩) ++
  (List.finRange 6).map (fun i => ⟨"DAMPING_TERM" ++ "_" ++ toString (i.val + 1), tableLine (demoTable 4) i⟩)⟩

/-- An interpolation that goes through the points. -/
def demoSpline (x y : List ℚ) : Except Err (ℚ → ℚ) := .ok (fun a => ((x.zip y).lookup a).getD 0)

theorem demo_tables : HasTable [demoLists] "Added_mass_Radiation_Damping" "ADDED_MASS_LINE" (demoTable 3) ∧
    HasTable [demoLists] "Added_mass_Radiation_Damping" "DAMPING_TERM" (demoTable 4) := by
  refine ⟨⟨by simp [demoTable], ?_, ?_⟩, ⟨by simp [demoTable], ?_, ?_⟩⟩
  · intro i
    exact ⟨demoLists, by simp, rfl, ⟨_, tableLine (demoTable 3) i⟩, List.mem_append_left _ (List.mem_map.mpr ⟨i, List.mem_finRange i, rfl⟩), rfl⟩
  · intro M hM _ s hs i hn
    simp only [List.mem_singleton] at hM
    subst hM
    simp only [demoLists, List.mem_append, List.mem_map, List.mem_finRange, true_and] at hs
    rcases hs with ⟨j, rfl⟩ | ⟨j, rfl⟩
    · have : j = i := by revert hn; revert i j; decide
      rw [this]
    · exfalso; revert hn; revert i j; decide
  · intro i
    exact ⟨demoLists, by simp, rfl, ⟨_, tableLine (demoTable 4) i⟩, List.mem_append_right _ (List.mem_map.mpr ⟨i, List.mem_finRange i, rfl⟩), rfl⟩
  · intro M hM _ s hs i hn
    simp only [List.mem_singleton] at hM
    subst hM
    simp only [demoLists, List.mem_append, List.mem_map, List.mem_finRange, true_and] at hs
    rcases hs with ⟨j, rfl⟩ | ⟨j, rfl⟩
    · exfalso; revert hn; revert i j; decide
    · have : j = i := by revert hn; revert i j; decide
      rw [this]

theorem demo_spline : Interpolation demoSpline ((demoTable 3).map Prod.fst) := by
  intro y hy
  refine ⟨_, rfl, ?_⟩
  simp only [demoTable, List.map_cons, List.map_nil, List.length_cons, List.length_nil] at hy ⊢
  match y, hy with
  | [u, v], _ =>
    intro k a b ha hb
    match k with
    | 0 =>
      simp only [List.getElem?_cons_zero, Option.some.injEq] at ha hb
      subst ha; subst hb
      simp [List.lookup]
    | 1 =>
      simp only [List.getElem?_cons_zero, List.getElem?_cons_succ, Option.some.injEq] at ha hb
      subst ha; subst hb
      have h52 : ((5 : ℚ) == 2) = false := by decide
      simp [List.lookup, h52]
    | k + 2 => simp at ha

/-- A text that meets the hypotheses of `database_of_text`: the added mass in surge and pitch of the first period (3 in the file) is -3. -/
example : ∃ s d, IsFile decimals [.list demoLists] s ∧ database decimals.num 3 demoSpline s = .ok d ∧ d.addedMass 0 4 = -3 ∧
    d.pulsations = [2 * 3 / 5, 2 * 3 / 2] ∧ d.dampingCoeff 1 1 = [7, 4] := by
  have hdigit : ∀ z ∈ ([1, 2, 3, 4, 5, 7] : List ℚ), ∃ t, decimals.Writes z t := by
    intro z hz
    simp only [List.mem_cons, List.not_mem_nil, or_false] at hz
    rcases hz with rfl | rfl | rfl | rfl | rfl | rfl
    · exact ⟨['1'], 1, ⟨by simp, by decide, by decide⟩, by norm_num⟩
    · exact ⟨['2'], 2, ⟨by simp, by decide, by decide⟩, by norm_num⟩
    · exact ⟨['3'], 3, ⟨by simp, by decide, by decide⟩, by norm_num⟩
    · exact ⟨['4'], 4, ⟨by simp, by decide, by decide⟩, by norm_num⟩
    · exact ⟨['5'], 5, ⟨by simp, by decide, by decide⟩, by norm_num⟩
    · exact ⟨['7'], 7, ⟨by simp, by decide, by decide⟩, by norm_num⟩
  have hname : ∀ (h : String) (c : Char) (w : List Char), h.toList = c :: w → isFirst c = true → w ≠ [] → (∀ d ∈ w, isWord d = true) → Name h.toList := by
    intro h c w hh hc hw hws
    obtain ⟨_, _, _, _, _, _, hn, _⟩ := plainHeader [] c w h (by simp) hh hc hw hws
    exact hn
  obtain ⟨s, hs⟩ := list_text decimals demoLists
    (hname _ 'A' ("dded_mass_Radiation_Damping".toList) (by decide) (by decide) (by decide) (by decide)) (by simp [demoLists]) (by
      intro x hx
      simp only [demoLists, List.mem_append, List.mem_map, List.mem_finRange, true_and] at hx
      have hrows : ∀ (a : ℚ), a ∈ ([1, 2, 3, 4, 5, 7] : List ℚ) → ∀ i : Fin 6, ∀ row ∈ tableLine (demoTable a) i, 2 ≤ row.length ∧ ∀ z ∈ row, ∃ t, decimals.Writes z t := by
        intro a ha i row hrow
        simp only [tableLine, demoTable, List.map_cons, List.map_nil, List.mem_cons, List.not_mem_nil, or_false] at hrow
        rcases hrow with rfl | rfl
        · refine ⟨by simp, fun z hz => hdigit z ?_⟩
          simp only [List.mem_cons, List.not_mem_nil, or_false, or_self] at hz
          rcases hz with rfl | rfl
          · simp
          · exact ha
        · refine ⟨by simp, fun z hz => hdigit z ?_⟩
          simp only [List.mem_cons, List.not_mem_nil, or_false] at hz
          rcases hz with rfl | rfl | rfl | rfl | rfl | rfl | rfl
          · simp
          all_goals split_ifs <;> simp
      rcases hx with ⟨i, rfl⟩ | ⟨i, rfl⟩
      · refine ⟨?_, by simp [tableLine, demoTable], hrows 3 (by simp) i⟩
        exact hname _ 'A' (("DDED_MASS_LINE" ++ "_" ++ toString (i.val + 1)).toList) (by revert i; decide) (by decide) (by revert i; decide) (by revert i; decide)
      · refine ⟨?_, by simp [tableLine, demoTable], hrows 4 (by simp) i⟩
        exact hname _ 'D' (("AMPING_TERM" ++ "_" ++ toString (i.val + 1)).toList) (by revert i; decide) (by decide) (by revert i; decide) (by revert i; decide))
  obtain ⟨d, hd, ⟨first, hf, ha⟩, -, hl, hl2, hv⟩ := database_of_text decimals hs 3 (A := demoTable 3) (B := demoTable 4) demo_tables.1 demo_tables.2
    (by simp [demoTable]) (by intro sec _ sub _ M hM; simp [asListWithId] at hM) (spline := demoSpline) demo_spline
  refine ⟨s, d, hs, hd, ?_, ?_, ?_⟩
  · simp only [demoTable, List.head?_cons, Option.some.injEq] at hf
    subst hf
    rw [ha, show (rot (0 : Fin 6) : ℚ) = 1 from rfl, show (rot (4 : Fin 6) : ℚ) = -1 from rfl]; norm_num
  · apply List.ext_getElem?
    intro k
    match k with
    | 0 => exact (hv 0 _ rfl).1
    | 1 => exact (hv 1 _ rfl).1
    | k + 2 => rw [List.getElem?_eq_none (by rw [hl]; simp [demoTable]), List.getElem?_eq_none (by simp)]
  · apply List.ext_getElem?
    intro k
    match k with
    | 0 => rw [(hv 0 _ rfl).2]; norm_num [rot]
    | 1 => rw [(hv 1 _ rfl).2]; norm_num [rot]
    | k + 2 => rw [List.getElem?_eq_none (by rw [hl2]; simp [demoTable]), List.getElem?_eq_none (by simp)]

end Xdyn.Hdb

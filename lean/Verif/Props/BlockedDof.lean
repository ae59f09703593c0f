import Verif.Lemmas.BlockedDof
import Verif.Model.Body
import Mathlib.Tactic.Abel

/-! Properties C21, C22, C23: forced degrees of freedom. -/

namespace Xdyn.Blocked

open Spec

variable {K : Type} [Field K] [LinearOrder K] [IsStrictOrderedRing K]

theorem build_tables {readCsv : String → Except Err (String → Option (List K))}
    {mkInterp : Table K → Except Err (Interp K)} {input : Input K} {idx : Nat} {b : BlockedDof K}
    (hb : build readCsv mkInterp input idx = .ok b) :
    (input.fromYaml.map Table.state ++ input.fromCsv.map CsvDof.state).Nodup ∧ b.bodyIdx = idx ∧
    ∃ tables, buildTables readCsv input = .ok tables ∧
      getForcedStates mkInterp tables = .ok b.dof ∧ getTmin tables = .ok b.tmin ∧
      getTmax tables = .ok b.tmax := by
  unfold build at hb
  simp only [bind, Except.bind, pure, Except.pure] at hb
  cases h1 : buildTables readCsv input with
  | error e => simp [h1] at hb
  | ok tables =>
    cases h2 : checkNotDefinedTwice input with
    | error e => simp [h1, h2] at hb
    | ok u =>
      cases h3 : getForcedStates mkInterp tables with
      | error e => simp [h1, h2, h3] at hb
      | ok dof =>
        cases h4 : getTmin tables with
        | error e => simp [h1, h2, h3, h4] at hb
        | ok tmin =>
          cases h5 : getTmax tables with
          | error e => simp [h1, h2, h3, h4, h5] at hb
          | ok tmax =>
            simp only [h1, h2, h3, h4, h5, Except.ok.injEq] at hb
            subst hb
            exact ⟨(check_ok input).1 h2, rfl, tables, rfl, h3, h4, h5⟩

/-- What the maps of a built `BlockedDOF` contain, when the tables define distinct states. -/
theorem active_iff {mkInterp : Table K → Except Err (Interp K)} {tables : List (Table K)} {b : BlockedDof K}
    (hn : (tables.map Table.state).Nodup)
    (h3 : getForcedStates mkInterp tables = .ok b.dof) (h4 : getTmin tables = .ok b.tmin)
    (h5 : getTmax tables = .ok b.tmax) (t : K) :
    (∀ T ∈ tables, ∃ i, mkInterp T = .ok i ∧ (Active b t T.state i ↔ Covers T t)) ∧
    (∀ s i, Active b t s i → ∃ T ∈ tables, T.state = s ∧ mkInterp T = .ok i ∧ Covers T t) := by
  rw [getForcedStates_eq] at h3
  rw [getTmin_eq] at h4
  rw [getTmax_eq] at h5
  obtain ⟨a1, a2⟩ := foldlM_mapSet _ tables _ _ hn h3
  obtain ⟨b1, b2⟩ := foldlM_mapSet _ tables _ _ hn h4
  obtain ⟨c1, c2⟩ := foldlM_mapSet _ tables _ _ hn h5
  have key : ∀ T ∈ tables, (isBlockedAt b T.state t = true ↔ Covers T t) := by
    intro T hT
    obtain ⟨mn, hmn, hmn'⟩ := b1 T hT
    obtain ⟨mx, hmx, hmx'⟩ := c1 T hT
    simp only [isBlockedAt, hmn', hmx', Bool.and_eq_true, decide_eq_true_eq, Covers]
    rw [minElement_le hmn, le_maxElement hmx]
  constructor
  · intro T hT
    obtain ⟨i, hi, hi'⟩ := a1 T hT
    refine ⟨i, wrapInterp_ok hi, ?_⟩
    simp only [Active, hi', true_and]
    exact key T hT
  · intro s i hs
    by_cases h : ∃ T ∈ tables, T.state = s
    · obtain ⟨T, hT, rfl⟩ := h
      obtain ⟨j, hj, hj'⟩ := a1 T hT
      have : i = j := by have := hs.1; rw [hj'] at this; simpa using this.symm
      subst this
      exact ⟨T, hT, rfl, wrapInterp_ok hj, (key T hT).1 hs.2⟩
    · have := a2 s (by simpa using h)
      simp [hs.1] at this

theorem buildTables_no_csv {readCsv : String → Except Err (String → Option (List K))} {input : Input K}
    (h : input.fromCsv = []) : buildTables readCsv input = .ok input.fromYaml := by
  simp [buildTables, h, pure, Except.pure, bind, Except.bind]

/-- General form of C21, for `force_states` (`g = Interp.f`) and `force_state_derivatives`
(`g = Interp.df`). -/
theorem force_spec (g : Interp K → K → Except Err K)
    (readCsv : String → Except Err (String → Option (List K)))
    (mkInterp : Table K → Except Err (Interp K)) (input : Input K) (idx : Nat) (b : BlockedDof K)
    (hcsv : input.fromCsv = []) (hb : build readCsv mkInterp input idx = .ok b) (x : List K) (t : K) :
    (∀ x', allStates.foldlM (forceOne g b t) x = .ok x' →
      x'.length = x.length ∧
      (∀ T ∈ input.fromYaml, Covers T t →
        ∃ i v, mkInterp T = .ok i ∧ g i t = .ok v ∧ x'[slot idx (blockable T.state)]? = some v) ∧
      (∀ k, (∀ T ∈ input.fromYaml, Covers T t → k ≠ slot idx (blockable T.state)) → x'[k]? = x[k]?)) ∧
    (13 * (idx + 1) ≤ x.length →
      (∀ T ∈ input.fromYaml, Covers T t → ∀ i, mkInterp T = .ok i → ∃ v, g i t = .ok v) →
      ∃ x', allStates.foldlM (forceOne g b t) x = .ok x') := by
  obtain ⟨hn, hidx, tables, h2, h3, h4, h5⟩ := build_tables hb
  rw [buildTables_no_csv hcsv] at h2
  simp only [Except.ok.injEq] at h2
  subst h2
  rw [List.nodup_append] at hn
  obtain ⟨k1, k2⟩ := active_iff hn.1 h3 h4 h5 t
  constructor
  · intro x' hx'
    obtain ⟨a1, a2, a3⟩ := foldlM_force_ok allStates x x' (by decide) hx'
    have hall : ∀ s, s ∈ allStates := by intro s; cases s <;> decide
    refine ⟨a1, ?_, ?_⟩
    · intro T hT hc
      obtain ⟨i, hi, hact⟩ := k1 T hT
      obtain ⟨v, hv, hx⟩ := a2 T.state (hall _) i (hact.2 hc)
      rw [stateIndex_eq, hidx] at hx
      exact ⟨i, v, hi, hv, hx⟩
    · intro k hk
      refine a3 k ?_
      rintro s - ⟨i, hi⟩
      obtain ⟨T, hT, rfl, -, hc⟩ := k2 s i hi
      rw [stateIndex_eq, hidx]
      exact hk T hT hc
  · intro hlen htot
    refine foldlM_force_total ?_ allStates x (hidx ▸ hlen)
    intro s i hi
    obtain ⟨T, hT, -, hm, hc⟩ := k2 s i hi
    exact htot T hT hc i hm

/-- **C21** (partial: prescriptions given in the YAML file; for prescriptions read from a CSV
file see `blocked_states_from_csv_force_u`.)
Forcing the states at `t` sets every state prescribed by a table whose dates surround `t` to
the interpolated value, and changes no other entry of the state vector (in particular no
state of another body); it succeeds whenever the interpolations do. -/
theorem blocked_states_follow_prescription_partial
    (readCsv : String → Except Err (String → Option (List K)))
    (mkInterp : Table K → Except Err (Interp K)) (input : Input K) (idx : Nat) (b : BlockedDof K)
    (hcsv : input.fromCsv = []) (hb : build readCsv mkInterp input idx = .ok b) (x : List K) (t : K) :
    (∀ x', forceStates b x t = .ok x' →
      x'.length = x.length ∧
      (∀ T ∈ input.fromYaml, Covers T t →
        ∃ i v, mkInterp T = .ok i ∧ i.f t = .ok v ∧ x'[slot idx (blockable T.state)]? = some v) ∧
      (∀ k, (∀ T ∈ input.fromYaml, Covers T t → k ≠ slot idx (blockable T.state)) → x'[k]? = x[k]?)) ∧
    (13 * (idx + 1) ≤ x.length →
      (∀ T ∈ input.fromYaml, Covers T t → ∀ i, mkInterp T = .ok i → ∃ v, i.f t = .ok v) →
      ∃ x', forceStates b x t = .ok x') :=
  force_spec Interp.f readCsv mkInterp input idx b hcsv hb x t

/-- **C21** (derivatives, partial as above) The derivative of each state that is prescribed at
`t` is the derivative of the prescription, the other derivatives are unchanged. -/
theorem blocked_derivatives_follow_prescription_partial
    (readCsv : String → Except Err (String → Option (List K)))
    (mkInterp : Table K → Except Err (Interp K)) (input : Input K) (idx : Nat) (b : BlockedDof K)
    (hcsv : input.fromCsv = []) (hb : build readCsv mkInterp input idx = .ok b) (dx : List K) (t : K) :
    (∀ dx', forceStateDerivatives b dx t = .ok dx' →
      dx'.length = dx.length ∧
      (∀ T ∈ input.fromYaml, Covers T t →
        ∃ i v, mkInterp T = .ok i ∧ i.df t = .ok v ∧ dx'[slot idx (blockable T.state)]? = some v) ∧
      (∀ k, (∀ T ∈ input.fromYaml, Covers T t → k ≠ slot idx (blockable T.state)) → dx'[k]? = dx[k]?)) ∧
    (13 * (idx + 1) ≤ dx.length →
      (∀ T ∈ input.fromYaml, Covers T t → ∀ i, mkInterp T = .ok i → ∃ v, i.df t = .ok v) →
      ∃ dx', forceStateDerivatives b dx t = .ok dx') :=
  force_spec Interp.df readCsv mkInterp input idx b hcsv hb dx t

/-- **C21** is false in the code for prescriptions read from a CSV file: whatever the state
that the user prescribes (`y.state`), it is the surge speed `u` that is forced, and the
prescribed state is left unchanged. -/
theorem blocked_states_from_csv_force_u
    (readCsv : String → Except Err (String → Option (List K)))
    (mkInterp : Table K → Except Err (Interp K)) (y : CsvDof) (idx : Nat) (b : BlockedDof K)
    (hb : build readCsv mkInterp { fromYaml := [], fromCsv := [y] } idx = .ok b)
    (m : String → Option (List K)) (ts vs : List K) (hm : readCsv y.filename = .ok m)
    (ht : m y.t = some ts) (hv : m y.value = some vs) (x x' : List K) (t : K)
    (hc : (∃ a ∈ ts, a ≤ t) ∧ ∃ a ∈ ts, t ≤ a)
    (hx : forceStates b x t = .ok x') :
    (∃ i v, i.f t = .ok v ∧ mkInterp ⟨.U, ts, vs, y.interpolation⟩ = .ok i ∧
      x'[slot idx .u]? = some v) ∧
    (y.state ≠ .U → x'[slot idx (blockable y.state)]? = x[slot idx (blockable y.state)]?) := by
  obtain ⟨-, hidx, tables, h2, h3, h4, h5⟩ := build_tables hb
  have htab : tables = [⟨.U, ts, vs, y.interpolation⟩] := by
    simp [buildTables, readTableFromCsv, hm, ht, hv, bind, Except.bind, pure, Except.pure, Table.default] at h2
    exact h2.symm
  subst htab
  obtain ⟨k1, k2⟩ := active_iff (b := b) (by simp) h3 h4 h5 t
  obtain ⟨a1, a2, a3⟩ := foldlM_force_ok allStates x x' (by decide) hx
  obtain ⟨i, hi, hact⟩ := k1 _ (List.mem_singleton.2 rfl)
  obtain ⟨v, hfv, hxv⟩ := a2 .U (by decide) i (hact.2 hc)
  rw [stateIndex_eq, hidx] at hxv
  refine ⟨⟨i, v, hfv, hi, hxv⟩, fun hne => ?_⟩
  refine a3 _ ?_
  rintro s - ⟨j, hj⟩
  obtain ⟨T, hT, hTs, -, -⟩ := k2 s j hj
  rw [List.mem_singleton] at hT
  subst hT
  have hTs' : BlockableState.U = s := hTs
  subst hTs'
  rw [hidx, ← stateIndex_eq]
  intro he
  exact hne (stateIndex_inj _ _ _ he)

/-- **C22** Whenever the CSV files can be read and the interpolators can be built, building
the blocked degrees of freedom fails with an `InvalidInputException` if a state is prescribed
more than once (in the YAML file, in CSV files or in both). -/
theorem blocked_twice_refused
    (readCsv : String → Except Err (String → Option (List K)))
    (mkInterp : Table K → Except Err (Interp K)) (input : Input K) (idx : Nat)
    (htwice : ¬ (input.fromYaml.map Table.state ++ input.fromCsv.map CsvDof.state).Nodup) :
    ∃ e, build readCsv mkInterp input idx = .error (.throw e) := by
  unfold build
  simp only [bind, Except.bind, pure, Except.pure]
  have hthrow : ∀ (l : List CsvDof) e, l.mapM (readTableFromCsv readCsv) = .error e → ∃ w, e = .throw w := by
    intro l
    induction l with
    | nil => intro e h; simp [pure, Except.pure] at h
    | cons y l ih =>
      intro e h
      simp only [List.mapM_cons, bind, Except.bind] at h
      cases hy : readTableFromCsv readCsv y with
      | error e' =>
        simp only [hy, Except.error.injEq] at h
        subst h
        unfold readTableFromCsv at hy
        split at hy
        · simp at hy; exact ⟨_, hy.symm⟩
        · split at hy
          · simp at hy; exact ⟨_, hy.symm⟩
          · split at hy
            · simp at hy; exact ⟨_, hy.symm⟩
            · simp at hy
      | ok T =>
        simp only [hy] at h
        cases hl : l.mapM (readTableFromCsv readCsv) with
        | error e' =>
          simp only [hl, Except.error.injEq] at h
          subst h
          exact ih _ hl
        | ok Ts => simp [hl, pure, Except.pure] at h
  cases h1 : buildTables readCsv input with
  | error e =>
    simp only [buildTables, bind, Except.bind] at h1
    cases hl : input.fromCsv.mapM (readTableFromCsv readCsv) with
    | error e' =>
      simp only [hl, Except.error.injEq] at h1
      subst h1
      obtain ⟨w, rfl⟩ := hthrow _ _ hl
      exact ⟨w, rfl⟩
    | ok Ts => simp [hl, pure, Except.pure] at h1
  | ok tables =>
    cases h2 : checkNotDefinedTwice input with
    | ok u => exact absurd ((check_ok input).1 h2) htwice
    | error e =>
      have : ∃ w, e = .throw w := by
        unfold checkNotDefinedTwice at h2
        simp only [bind, Except.bind, pure, Except.pure] at h2
        have hA : ∀ s d e, throwIfAlreadyDefined s d = .error e → ∃ w, e = .throw w := by
          intro s d e h
          unfold throwIfAlreadyDefined at h
          split at h <;> simp at h
          exact ⟨_, h.symm⟩
        have hB : ∀ (l : List (Table K)) d e,
            l.foldlM (fun d y => throwIfAlreadyDefined y.state d) d = .error e → ∃ w, e = .throw w := by
          intro l
          induction l with
          | nil => intro d e h; simp [pure, Except.pure] at h
          | cons y l ih =>
            intro d e h
            simp only [List.foldlM_cons, bind, Except.bind] at h
            cases hy : throwIfAlreadyDefined y.state d with
            | error e' => simp only [hy, Except.error.injEq] at h; subst h; exact hA _ _ _ hy
            | ok d' => simp only [hy] at h; exact ih _ _ h
        have hC : ∀ (l : List CsvDof) (d : (BlockableState → Bool) × (BlockableState → Bool)) e,
            l.foldlM (fun (d : (BlockableState → Bool) × (BlockableState → Bool)) y => do
              let d1 ← throwIfAlreadyDefined y.state d.1
              let d2 ← throwIfAlreadyDefined y.state d.2
              return (d1, d2)) d = (Except.error e : Except Err _) → ∃ w, e = .throw w := by
          intro l
          induction l with
          | nil => intro d e h; simp [pure, Except.pure] at h
          | cons y l ih =>
            intro d e h
            simp only [List.foldlM_cons, bind, Except.bind, pure, Except.pure] at h ih
            cases hy : throwIfAlreadyDefined y.state d.1 with
            | error e' => simp only [hy, Except.error.injEq] at h; subst h; exact hA _ _ _ hy
            | ok d1 =>
              simp only [hy] at h
              cases hy2 : throwIfAlreadyDefined y.state d.2 with
              | error e' => simp only [hy2, Except.error.injEq] at h; subst h; exact hA _ _ _ hy2
              | ok d2 => simp only [hy2] at h; exact ih _ _ h
        simp only [bind, Except.bind, pure, Except.pure] at hC
        split at h2
        · rename_i e' heq
          simp only [Except.error.injEq] at h2
          subst h2
          exact hB _ _ _ heq
        · split at h2
          · rename_i e' heq
            simp only [Except.error.injEq] at h2
            subst h2
            exact hC _ _ _ heq
          · simp at h2
      obtain ⟨w, rfl⟩ := this
      exact ⟨w, rfl⟩

/-- **C22** (success) When no state is prescribed twice, the files can be read, the tables are
not empty and the interpolators can be built, the blocked degrees of freedom are built. -/
theorem blocked_once_accepted
    (readCsv : String → Except Err (String → Option (List K)))
    (mkInterp : Table K → Except Err (Interp K)) (input : Input K) (idx : Nat)
    (honce : (input.fromYaml.map Table.state ++ input.fromCsv.map CsvDof.state).Nodup)
    (tables : List (Table K)) (hread : buildTables readCsv input = .ok tables)
    (hmk : ∀ T ∈ tables, T.t ≠ [] ∧ ∃ i, mkInterp T = .ok i) :
    ∃ b, build readCsv mkInterp input idx = .ok b := by
  have hgen : ∀ {α : Type} (g : Table K → Except Err α) (l : List (Table K)) (m0 : BlockableState → Option α),
      (∀ T ∈ l, ∃ v, g T = .ok v) →
      ∃ m, l.foldlM (setStep g) m0 = .ok m := by
    intro α g l
    induction l with
    | nil => intro m0 _; exact ⟨m0, rfl⟩
    | cons T l ih =>
      intro m0 h
      obtain ⟨v, hv⟩ := h T (by simp)
      obtain ⟨m, hm⟩ := ih (mapSet m0 T.state v) (fun T' hT' => h T' (List.mem_cons_of_mem _ hT'))
      exact ⟨m, by simp only [List.foldlM_cons, bind, Except.bind, setStep, hv]; exact hm⟩
  obtain ⟨dof, h3⟩ := hgen (wrapInterp mkInterp) tables (fun _ => none) (fun T hT => by
    obtain ⟨-, i, hi⟩ := hmk T hT
    exact ⟨i, by simp [wrapInterp, hi]⟩)
  rw [← getForcedStates_eq] at h3
  obtain ⟨tmin, h4⟩ := hgen (fun T => minElement T.t) tables (fun _ => none) (fun T hT => by
    obtain ⟨hne, -⟩ := hmk T hT
    cases hl : T.t with
    | nil => exact absurd hl hne
    | cons a l => exact ⟨_, rfl⟩)
  rw [← getTmin_eq] at h4
  obtain ⟨tmax, h5⟩ := hgen (fun T => maxElement T.t) tables (fun _ => none) (fun T hT => by
    obtain ⟨hne, -⟩ := hmk T hT
    cases hl : T.t with
    | nil => exact absurd hl hne
    | cons a l => exact ⟨_, rfl⟩)
  rw [← getTmax_eq] at h5
  exact ⟨⟨dof, idx, tmin, tmax⟩, by
    simp only [build, bind, Except.bind, pure, Except.pure, hread, (check_ok input).2 honce, h3, h4, h5]⟩

/-- A constant interpolator, for the examples. -/
def constInterp (v : ℚ) : Interp ℚ := ⟨fun _ => .ok v, fun _ => .ok 0⟩

/-- Hypotheses of C21/C22 are met: `v` of body 1 is prescribed to 5 between 0 and 2, and is
then forced at `t = 1`, not at `t = 3`; with two tables for `v` the input is refused. -/
example :
    let T : Table ℚ := ⟨.V, [0, 2], [5, 5], .linear⟩
    let bd := build (fun _ => .error .ub) (fun T => .ok (constInterp (T.value.headD 0))) ⟨[T], []⟩ 1
    (bd.bind (fun b => forceStates b (List.replicate 26 1) 1)) = .ok ((List.replicate 26 1).set 17 5) ∧
    (bd.bind (fun b => forceStates b (List.replicate 26 1) 3)) = .ok (List.replicate 26 1) ∧
    ((build (fun _ => .error .ub) (fun T => .ok (constInterp (T.value.headD 0))) ⟨[T, T], []⟩ 1).toOption.isNone
      = true) := by
  decide +kernel

/-- The defect on CSV files on a concrete case: the column "val" prescribes `w`, `u` is forced. -/
example :
    let y : CsvDof := ⟨.W, "t", "val", .linear, "f.csv"⟩
    let csv : String → Except Err (String → Option (List ℚ)) :=
      fun _ => .ok (fun c => if c = "t" then some [0, 2] else if c = "val" then some [7, 7] else none)
    let bd := build csv (fun T => .ok (constInterp (T.value.headD 0))) ⟨[], [y]⟩ 0
    (bd.bind (fun b => forceStates b (List.replicate 13 1) 1)) = .ok ((List.replicate 13 1).set 3 7) := by
  decide +kernel

end Xdyn.Blocked

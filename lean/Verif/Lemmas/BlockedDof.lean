import Verif.Spec.State
import Mathlib.Tactic.Linarith

/-! Lemmas about the model of BlockedDOF.cpp. -/

namespace Xdyn.Blocked

open Spec

variable {K : Type} [Field K] [LinearOrder K] [IsStrictOrderedRing K]

theorem stateIndex_eq (i : Nat) (s : BlockableState) : stateIndex i s = slot i (blockable s) := by
  cases s <;> simp [stateIndex, blockable, slot, StateName.rank, UIDX, VIDX, WIDX, PIDX, QIDX, RIDX,
    nbOfStatesPerBody, Nat.mul_comm]

theorem stateIndex_inj (i : Nat) (s s' : BlockableState) (h : stateIndex i s = stateIndex i s') : s = s' := by
  cases s <;> cases s' <;> simp_all [stateIndex, UIDX, VIDX, WIDX, PIDX, QIDX, RIDX]

theorem stateIndex_lt (i : Nat) (s : BlockableState) : stateIndex i s < 13 * (i + 1) := by
  cases s <;> simp [stateIndex, UIDX, VIDX, WIDX, PIDX, QIDX, RIDX, nbOfStatesPerBody] <;> omega

theorem foldl_min_le (l : List K) : ∀ (a t : K),
    l.foldl (fun m b => if b < m then b else m) a ≤ t ↔ (a ≤ t ∨ ∃ b ∈ l, b ≤ t) := by
  induction l with
  | nil => intro a t; simp
  | cons b l ih =>
    intro a t
    simp only [List.foldl_cons, ih, List.mem_cons, exists_eq_or_imp]
    by_cases h : b < a
    · simp only [h, if_true]
      constructor
      · rintro (h1 | h1)
        · exact Or.inr (Or.inl h1)
        · exact Or.inr (Or.inr h1)
      · rintro (h1 | h1 | h1)
        · exact Or.inl (h.le.trans h1)
        · exact Or.inl h1
        · exact Or.inr h1
    · simp only [h, if_false]
      constructor
      · rintro (h1 | h1)
        · exact Or.inl h1
        · exact Or.inr (Or.inr h1)
      · rintro (h1 | h1 | h1)
        · exact Or.inl h1
        · exact Or.inl ((not_lt.1 h).trans h1)
        · exact Or.inr h1

theorem foldl_le_max (l : List K) : ∀ (a t : K),
    t ≤ l.foldl (fun m b => if m < b then b else m) a ↔ (t ≤ a ∨ ∃ b ∈ l, t ≤ b) := by
  induction l with
  | nil => intro a t; simp
  | cons b l ih =>
    intro a t
    simp only [List.foldl_cons, ih, List.mem_cons, exists_eq_or_imp]
    by_cases h : a < b
    · simp only [h, if_true]
      constructor
      · rintro (h1 | h1)
        · exact Or.inr (Or.inl h1)
        · exact Or.inr (Or.inr h1)
      · rintro (h1 | h1 | h1)
        · exact Or.inl (h1.trans h.le)
        · exact Or.inl h1
        · exact Or.inr h1
    · simp only [h, if_false]
      constructor
      · rintro (h1 | h1)
        · exact Or.inl h1
        · exact Or.inr (Or.inr h1)
      · rintro (h1 | h1 | h1)
        · exact Or.inl h1
        · exact Or.inl (h1.trans (not_lt.1 h))
        · exact Or.inr h1

theorem minElement_le {l : List K} {m : K} (h : minElement l = .ok m) (t : K) :
    m ≤ t ↔ ∃ a ∈ l, a ≤ t := by
  cases l with
  | nil => simp [minElement] at h
  | cons a l =>
    simp only [minElement, Except.ok.injEq] at h
    subst h
    simp [foldl_min_le]

theorem le_maxElement {l : List K} {m : K} (h : maxElement l = .ok m) (t : K) :
    t ≤ m ↔ ∃ a ∈ l, t ≤ a := by
  cases l with
  | nil => simp [maxElement] at h
  | cons a l =>
    simp only [maxElement, Except.ok.injEq] at h
    subst h
    simp [foldl_le_max]

/-- `m[table.state] = g(table)`. -/
def setStep {α : Type} (g : Table K → Except Err α) (m : BlockableState → Option α) (T : Table K) :
    Except Err (BlockableState → Option α) :=
  match g T with
  | .ok v => .ok (mapSet m T.state v)
  | .error e => .error e

/-- A loop that sets `m[table.state]` for each table. -/
theorem foldlM_mapSet {α : Type} (g : Table K → Except Err α) (tables : List (Table K)) :
    ∀ (m0 m : BlockableState → Option α), (tables.map Table.state).Nodup →
    tables.foldlM (setStep g) m0 = .ok m →
    (∀ T ∈ tables, ∃ v, g T = .ok v ∧ m T.state = some v) ∧
    ∀ s, (∀ T ∈ tables, T.state ≠ s) → m s = m0 s := by
  induction tables with
  | nil => intro m0 m _ h; simp [pure, Except.pure] at h; simp [h]
  | cons T tables ih =>
    intro m0 m hn h
    simp only [List.map_cons, List.nodup_cons] at hn
    simp only [List.foldlM_cons, bind, Except.bind, setStep] at h
    cases hg : g T with
    | error e => simp [hg] at h
    | ok v =>
      simp only [hg] at h
      obtain ⟨h1, h2⟩ := ih _ _ hn.2 h
      constructor
      · intro T' hT'
        rcases List.mem_cons.1 hT' with rfl | hT'
        · refine ⟨v, hg, ?_⟩
          rw [h2 T'.state (fun T'' hT'' he => hn.1 (he ▸ List.mem_map_of_mem hT''))]
          simp [mapSet]
        · exact h1 _ hT'
      · intro s hs
        rw [h2 s (fun T' hT' => hs T' (List.mem_cons_of_mem _ hT'))]
        have := hs T (by simp)
        simp only [mapSet]
        rw [if_neg (Ne.symm this)]

theorem getTmin_eq (tables : List (Table K)) : getTmin tables =
    tables.foldlM (setStep (fun T => minElement T.t)) (fun _ => none) := by
  unfold getTmin
  congr
  funext m T
  simp only [setStep]
  cases minElement T.t <;> rfl

theorem getTmax_eq (tables : List (Table K)) : getTmax tables =
    tables.foldlM (setStep (fun T => maxElement T.t)) (fun _ => none) := by
  unfold getTmax
  congr
  funext m T
  simp only [setStep]
  cases maxElement T.t <;> rfl

/-- `build_interpolator`, BlockedDOF.cpp:128-157. -/
def wrapInterp (mkInterp : Table K → Except Err (Interp K)) (T : Table K) : Except Err (Interp K) :=
  match mkInterp T with
  | .ok i => .ok i
  | .error _ => .error (.throw "InvalidInputException")

theorem getForcedStates_eq (mkInterp : Table K → Except Err (Interp K)) (tables : List (Table K)) :
    getForcedStates mkInterp tables =
    tables.foldlM (setStep (wrapInterp mkInterp)) (fun _ => none) := by
  unfold getForcedStates
  congr
  funext m T
  simp only [setStep]
  unfold wrapInterp
  cases mkInterp T <;> rfl

theorem wrapInterp_ok {mkInterp : Table K → Except Err (Interp K)} {T : Table K} {i : Interp K}
    (h : wrapInterp mkInterp T = .ok i) : mkInterp T = .ok i := by
  unfold wrapInterp at h
  cases hm : mkInterp T with
  | ok j => simpa [hm] using h
  | error e => simp [hm] at h

/-- The state `s` is forced at `t` by the interpolator `i`. -/
def Active (b : BlockedDof K) (t : K) (s : BlockableState) (i : Interp K) : Prop :=
  b.dof s = some i ∧ isBlockedAt b s t = true

theorem forceOne_ok {g : Interp K → K → Except Err K} {b : BlockedDof K} {t : K} {x x' : List K}
    {s : BlockableState} (h : forceOne g b t x s = .ok x') :
    x'.length = x.length ∧
    (∀ i, Active b t s i → ∃ v, g i t = .ok v ∧ x'[stateIndex b.bodyIdx s]? = some v) ∧
    (∀ k, ((∃ i, Active b t s i) → k ≠ stateIndex b.bodyIdx s) → x'[k]? = x[k]?) := by
  unfold forceOne at h
  cases hd : b.dof s with
  | none =>
    simp only [hd, Except.ok.injEq] at h
    subst h
    exact ⟨rfl, fun i hi => by simp [Active, hd] at hi, fun k _ => rfl⟩
  | some i =>
    simp only [hd] at h
    by_cases hb : isBlockedAt b s t = true
    · simp only [hb, if_true] at h
      cases hg : g i t with
      | error e => cases e <;> simp [hg] at h
      | ok v =>
        simp only [hg, setUB] at h
        split at h
        · rename_i hlt
          simp only [Except.ok.injEq] at h
          subst h
          refine ⟨by simp, ?_, ?_⟩
          · intro j hj
            simp only [Active, hd, Option.some.injEq] at hj
            obtain ⟨rfl, -⟩ := hj
            exact ⟨v, hg, by simp [hlt]⟩
          · intro k hk
            have := hk ⟨i, hd, hb⟩
            rw [List.getElem?_set]
            simp [Ne.symm this]
        · simp at h
    · simp only [hb] at h
      simp only [Bool.false_eq_true, if_false, Except.ok.injEq] at h
      subst h
      exact ⟨rfl, fun j hj => absurd hj.2 hb, fun k _ => rfl⟩

theorem foldlM_force_ok {g : Interp K → K → Except Err K} {b : BlockedDof K} {t : K}
    (ls : List BlockableState) : ∀ (x x' : List K), ls.Nodup →
    ls.foldlM (forceOne g b t) x = .ok x' →
    x'.length = x.length ∧
    (∀ s ∈ ls, ∀ i, Active b t s i → ∃ v, g i t = .ok v ∧ x'[stateIndex b.bodyIdx s]? = some v) ∧
    (∀ k, (∀ s ∈ ls, (∃ i, Active b t s i) → k ≠ stateIndex b.bodyIdx s) → x'[k]? = x[k]?) := by
  induction ls with
  | nil => intro x x' _ h; simp [pure, Except.pure] at h; simp [h]
  | cons s ls ih =>
    intro x x' hn h
    simp only [List.nodup_cons] at hn
    simp only [List.foldlM_cons, bind, Except.bind] at h
    cases h1 : forceOne g b t x s with
    | error e => simp [h1] at h
    | ok x1 =>
      simp only [h1] at h
      obtain ⟨a1, a2, a3⟩ := forceOne_ok h1
      obtain ⟨b1, b2, b3⟩ := ih _ _ hn.2 h
      refine ⟨b1.trans a1, ?_, ?_⟩
      · intro s' hs' i hi
        rcases List.mem_cons.1 hs' with rfl | hs'
        · obtain ⟨v, hv, hx⟩ := a2 i hi
          refine ⟨v, hv, ?_⟩
          rw [b3 _ ?_, hx]
          intro s'' hs'' _ he
          exact hn.1 (stateIndex_inj _ _ _ he ▸ hs'')
        · exact b2 s' hs' i hi
      · intro k hk
        rw [b3 k (fun s' hs' => hk s' (List.mem_cons_of_mem _ hs')), a3 k (hk s (by simp))]

theorem foldlM_force_total {g : Interp K → K → Except Err K} {b : BlockedDof K} {t : K}
    (hg : ∀ s i, Active b t s i → ∃ v, g i t = .ok v)
    (ls : List BlockableState) : ∀ (x : List K), 13 * (b.bodyIdx + 1) ≤ x.length →
    ∃ x', ls.foldlM (forceOne g b t) x = .ok x' := by
  induction ls with
  | nil => intro x _; exact ⟨x, rfl⟩
  | cons s ls ih =>
    intro x hx
    have : ∃ x1, forceOne g b t x s = .ok x1 := by
      unfold forceOne
      cases hd : b.dof s with
      | none => exact ⟨x, rfl⟩
      | some i =>
        by_cases hb : isBlockedAt b s t = true
        · obtain ⟨v, hv⟩ := hg s i ⟨hd, hb⟩
          have := stateIndex_lt b.bodyIdx s
          exact ⟨_, by simp only [hb, if_true, hv, setUB]; rw [if_pos (by omega)]⟩
        · exact ⟨x, by simp [hb]⟩
    obtain ⟨x1, h1⟩ := this
    obtain ⟨x', h'⟩ := ih x1 (by rw [(forceOne_ok h1).1]; exact hx)
    exact ⟨x', by simp only [List.foldlM_cons, bind, Except.bind, h1, h']⟩

theorem checkYaml_ok (l : List (Table K)) : ∀ (d : BlockableState → Bool),
    (∃ d', l.foldlM (fun d y => throwIfAlreadyDefined y.state d) d = .ok d') ↔
    ((l.map Table.state).Nodup ∧ ∀ s ∈ l.map Table.state, d s = false) := by
  induction l with
  | nil => intro d; simp [pure, Except.pure]
  | cons y l ih =>
    intro d
    simp only [List.foldlM_cons, bind, Except.bind, List.map_cons, List.nodup_cons]
    unfold throwIfAlreadyDefined
    cases hd : d y.state with
    | true => simp [hd]
    | false =>
      simp only [Bool.false_eq_true, if_false]
      have := ih (fun s' => if s' = y.state then true else d s')
      unfold throwIfAlreadyDefined at this
      rw [this]
      constructor
      · rintro ⟨h1, h2⟩
        refine ⟨⟨fun hm => ?_, h1⟩, ?_⟩
        · have := h2 _ hm; simp at this
        · intro s hs
          rcases List.mem_cons.1 hs with rfl | hs
          · exact hd
          · have := h2 s hs
            by_cases he : s = y.state
            · simp [he] at this
            · simpa [he] using this
      · rintro ⟨⟨h1, h2⟩, h3⟩
        refine ⟨h2, fun s hs => ?_⟩
        have hne : s ≠ y.state := fun he => h1 (he ▸ hs)
        simp only [hne, if_false]
        exact h3 s (List.mem_cons_of_mem _ hs)

theorem checkYaml_result (l : List (Table K)) : ∀ (d d' : BlockableState → Bool),
    l.foldlM (fun d y => throwIfAlreadyDefined y.state d) d = .ok d' →
    ∀ s, d' s = true ↔ (d s = true ∨ s ∈ l.map Table.state) := by
  induction l with
  | nil => intro d d' h; simp [pure, Except.pure] at h; simp [h]
  | cons y l ih =>
    intro d d' h s
    simp only [List.foldlM_cons, bind, Except.bind] at h
    unfold throwIfAlreadyDefined at h
    cases hd : d y.state with
    | true => simp [hd] at h
    | false =>
      simp only [hd, Bool.false_eq_true, if_false] at h
      have h2 := ih _ d' (by unfold throwIfAlreadyDefined; exact h) s
      rw [h2]
      by_cases he : s = y.state <;> simp [he]

theorem checkCsv_ok (l : List CsvDof) : ∀ (d : (BlockableState → Bool) × (BlockableState → Bool)),
    (∀ s, d.2 s = true → d.1 s = true) →
    ((∃ d', l.foldlM (fun (d : (BlockableState → Bool) × (BlockableState → Bool)) y => do
      let d1 ← throwIfAlreadyDefined y.state d.1
      let d2 ← throwIfAlreadyDefined y.state d.2
      return (d1, d2)) d = (Except.ok d' : Except Err _)) ↔
    ((l.map CsvDof.state).Nodup ∧ ∀ s ∈ l.map CsvDof.state, d.1 s = false)) := by
  induction l with
  | nil => intro d _; simp [pure, Except.pure]
  | cons y l ih =>
    intro d hsub
    simp only [List.foldlM_cons, bind, Except.bind, List.map_cons, List.nodup_cons, pure, Except.pure]
    unfold throwIfAlreadyDefined
    cases hd : d.1 y.state with
    | true => simp [hd]
    | false =>
      have hd2 : d.2 y.state = false := by
        cases h : d.2 y.state with
        | false => rfl
        | true => rw [hsub _ h] at hd; exact absurd hd (by simp)
      simp only [hd2, Bool.false_eq_true, if_false]
      have := ih (fun s' => if s' = y.state then true else d.1 s', fun s' => if s' = y.state then true else d.2 s')
        (by
          intro s
          by_cases he : s = y.state
          · simp [he]
          · simp only [he, if_false]; exact hsub s)
      simp only [bind, Except.bind, pure, Except.pure] at this
      unfold throwIfAlreadyDefined at this
      rw [this]
      constructor
      · rintro ⟨h1, h2⟩
        refine ⟨⟨fun hm => ?_, h1⟩, ?_⟩
        · have := h2 _ hm; simp at this
        · intro s hs
          rcases List.mem_cons.1 hs with rfl | hs
          · exact hd
          · have := h2 s hs
            by_cases he : s = y.state
            · simp [he] at this
            · simpa [he] using this
      · rintro ⟨⟨h1, h2⟩, h3⟩
        refine ⟨h2, fun s hs => ?_⟩
        have hne : s ≠ y.state := fun he => h1 (he ▸ hs)
        simp only [hne, if_false]
        exact h3 s (List.mem_cons_of_mem _ hs)

theorem check_ok (input : Input K) : checkNotDefinedTwice input = .ok () ↔
    (input.fromYaml.map Table.state ++ input.fromCsv.map CsvDof.state).Nodup := by
  unfold checkNotDefinedTwice
  simp only [bind, Except.bind, pure, Except.pure]
  have h1 := checkYaml_ok input.fromYaml (fun _ => false)
  cases hy : input.fromYaml.foldlM (fun d y => throwIfAlreadyDefined y.state d) (fun _ => false) with
  | error e =>
    rw [hy] at h1
    simp only [List.nodup_append]
    constructor
    · intro h; simp at h
    · intro h
      have := h1.2 ⟨h.1, by simp⟩
      simp at this
  | ok d =>
    rw [hy] at h1
    have hn := (h1.1 ⟨d, rfl⟩).1
    have hd := checkYaml_result _ _ _ hy
    have h2 := checkCsv_ok input.fromCsv (d, fun _ => false) (by simp)
    simp only [bind, Except.bind, pure, Except.pure] at h2
    have hequiv : (input.fromYaml.map Table.state ++ input.fromCsv.map CsvDof.state).Nodup ↔
        ((input.fromCsv.map CsvDof.state).Nodup ∧ ∀ s ∈ input.fromCsv.map CsvDof.state, d s = false) := by
      rw [List.nodup_append]
      constructor
      · rintro ⟨-, a, b⟩
        refine ⟨a, fun s hs => ?_⟩
        cases hds : d s with
        | false => rfl
        | true =>
          rcases (hd s).1 hds with h | h
          · simp at h
          · exact absurd rfl (b s h s hs)
      · rintro ⟨a, b⟩
        refine ⟨hn, a, fun s hs s' hs' he => ?_⟩
        subst he
        have := b s hs'
        rw [(hd s).2 (Or.inr hs)] at this
        simp at this
    rw [hequiv, ← h2]
    dsimp only
    split
    · rename_i e heq; simp [heq]
    · rename_i v heq; simp [heq]

end Xdyn.Blocked

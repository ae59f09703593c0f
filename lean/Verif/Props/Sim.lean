import Verif.Model.Sim
import Verif.Props.BlockedDof
import Mathlib.Tactic.Linarith
import Mathlib.Tactic.Ring
import Mathlib.Tactic.FieldSimp
import Mathlib.Tactic.Positivity
import Mathlib.Tactic.IntervalCases

/-! C24 (observed states are the forced states of every body) and C25 (normalisation of the
quaternions). -/

namespace Xdyn.Sim

open Xdyn.Blocked Xdyn.Spec Xdyn.Body

section Forced

variable {K : Type} [Field K] [LinearOrder K] [IsStrictOrderedRing K]

/-- Body number `i` was built from the prescriptions `inputs[i]`, all written in the YAML file. -/
def Built (readCsv : String → Except Err (String → Option (List K)))
    (mkInterp : Table K → Except Err (Interp K)) (inputs : List (Input K)) (bodies : List (BlockedDof K)) : Prop :=
  bodies.length = inputs.length ∧
  ∀ i input b, inputs[i]? = some input → bodies[i]? = some b →
    input.fromCsv = [] ∧ build readCsv mkInterp input i = .ok b

/-- `x'` is `x` in which the states prescribed at `t`, of every body, have been replaced by the
prescribed value. -/
def Prescribed (mkInterp : Table K → Except Err (Interp K)) (inputs : List (Input K)) (t : K) (x x' : List K) : Prop :=
  x'.length = x.length ∧
  (∀ i input, inputs[i]? = some input → ∀ T ∈ input.fromYaml, Covers T t →
    ∃ itp v, mkInterp T = .ok itp ∧ itp.f t = .ok v ∧ x'[slot i (blockable T.state)]? = some v) ∧
  (∀ k, (∀ i input, inputs[i]? = some input → ∀ T ∈ input.fromYaml, Covers T t →
      k ≠ slot i (blockable T.state)) → x'[k]? = x[k]?)

theorem slot_blockable_inj {i j : Nat} {s s' : BlockableState}
    (h : slot i (blockable s) = slot j (blockable s')) : i = j := by
  cases s <;> cases s' <;> simp [slot, blockable, StateName.rank] at h <;> omega

/-- The states of *every* body are forced by the solver (`Sim::force_states`). -/
theorem all_bodies_forced
    (readCsv : String → Except Err (String → Option (List K)))
    (mkInterp : Table K → Except Err (Interp K)) (inputs : List (Input K)) (bodies : List (BlockedDof K))
    (hb : Built readCsv mkInterp inputs bodies) (x x' : List K) (t : K)
    (hx : forceAllStates bodies x t = .ok x') : Prescribed mkInterp inputs t x x' := by
  induction bodies using List.reverseRecOn generalizing inputs x' with
  | nil =>
    obtain ⟨hl, -⟩ := hb
    have : inputs = [] := by simpa using hl.symm
    subst this
    simp [forceAllStates, pure, Except.pure] at hx
    subst hx
    exact ⟨rfl, by simp, by simp⟩
  | append_singleton bs b ih =>
    obtain ⟨hl, hbuilt⟩ := hb
    obtain rfl | ⟨is, input, rfl⟩ := inputs.eq_nil_or_concat'
    · simp at hl
    have hlen : bs.length = is.length := by simpa using hl
    unfold forceAllStates at hx
    simp only [List.foldlM_append, List.foldlM_cons, List.foldlM_nil, bind, Except.bind, pure, Except.pure] at hx
    cases h1 : bs.foldlM (fun x b => forceStates b x t) x with
    | error e => simp [h1] at hx
    | ok y =>
      simp only [h1] at hx
      cases h2 : forceStates b y t with
      | error e => simp [h2] at hx
      | ok z =>
        simp only [h2, Except.ok.injEq] at hx
        subst hx
        have hb1 : Built readCsv mkInterp is bs := by
          refine ⟨hlen, fun i inp b' hi hb' => hbuilt i inp b' ?_ ?_⟩
          · rw [List.getElem?_append_left (by have := List.getElem?_eq_some_iff.mp hi; exact this.1)]; exact hi
          · rw [List.getElem?_append_left (by have := List.getElem?_eq_some_iff.mp hb'; exact this.1)]; exact hb'
        obtain ⟨hy1, hy2, hy3⟩ := ih is hb1 y h1
        obtain ⟨hcsv, hbld⟩ := hbuilt bs.length input b (by simp [hlen]) (by simp)
        obtain ⟨hz1, hz2, hz3⟩ :=
          (blocked_states_follow_prescription_partial readCsv mkInterp input bs.length b hcsv hbld y t).1 z h2
        refine ⟨by omega, ?_, ?_⟩
        · intro i inp hi T hT hc
          by_cases hlt : i < is.length
          · rw [List.getElem?_append_left hlt] at hi
            obtain ⟨itp, v, h3, h4, h5⟩ := hy2 i inp hi T hT hc
            refine ⟨itp, v, h3, h4, ?_⟩
            rw [hz3, h5]
            intro T' _ _ heq
            have := slot_blockable_inj heq
            omega
          · have hi' := List.getElem?_eq_some_iff.mp hi
            have hie : i = is.length := by
              have := hi'.1; simp at this; omega
            subst hie
            simp at hi
            subst hi
            rw [← hlen]
            exact hz2 T hT hc
        · intro k hk
          rw [hz3, hy3]
          · intro i inp hi T hT hc
            refine hk i inp ?_ T hT hc
            rw [List.getElem?_append_left (List.getElem?_eq_some_iff.mp hi).1]; exact hi
          · intro T hT hc
            rw [hlen]
            exact hk is.length input (by simp) T hT hc

theorem outputStates_last (bs : List (BlockedDof K)) (b : BlockedDof K) (x x' : List K) (t : K)
    (h : outputStates (bs ++ [b]) x t = .ok x') : forceStates b x t = .ok x' := by
  unfold outputStates at h
  simp only [List.foldlM_append, List.foldlM_cons, List.foldlM_nil, bind, Except.bind, pure, Except.pure] at h
  cases h1 : bs.foldlM (fun _ b => forceStates b x t) [] with
  | error e => simp [h1] at h
  | ok y =>
    simp only [h1] at h
    cases h2 : forceStates b x t with
    | error e => simp [h2] at h
    | ok z => simpa [h2] using h

/-- C24, partial: the observed states are the ones in which the prescriptions of every body have
been applied *provided no body but the last one has a state blocked at the date of the
observation* (in particular if there is only one body).  Missing: several bodies with blocked
states, for which the property is false (see `observed_states_forced_refuted`). -/
theorem observed_states_forced_partial
    (readCsv : String → Except Err (String → Option (List K)))
    (mkInterp : Table K → Except Err (Interp K)) (inputs : List (Input K)) (bodies : List (BlockedDof K))
    (hb : Built readCsv mkInterp inputs bodies) (x x' : List K) (t : K) (hne : inputs ≠ [])
    (hlast : ∀ i input, i + 1 < inputs.length → inputs[i]? = some input → ∀ T ∈ input.fromYaml, ¬ Covers T t)
    (hx : outputStates bodies x t = .ok x') : Prescribed mkInterp inputs t x x' := by
  obtain ⟨hl, hbuilt⟩ := hb
  obtain rfl | ⟨is, input, rfl⟩ := inputs.eq_nil_or_concat'
  · simp at hne
  obtain rfl | ⟨bs, b, rfl⟩ := bodies.eq_nil_or_concat'
  · simp at hl
  have hlen : bs.length = is.length := by simpa using hl
  obtain ⟨hcsv, hbld⟩ := hbuilt bs.length input b (by simp [hlen]) (by simp)
  obtain ⟨hz1, hz2, hz3⟩ :=
    (blocked_states_follow_prescription_partial readCsv mkInterp input bs.length b hcsv hbld x t).1 x'
      (outputStates_last bs b x x' t hx)
  refine ⟨hz1, ?_, ?_⟩
  · intro i inp hi T hT hc
    by_cases hlt : i < is.length
    · exact absurd hc (hlast i inp (by simp; omega) hi T hT)
    · have hi' := List.getElem?_eq_some_iff.mp hi
      have hie : i = is.length := by
        have := hi'.1; simp at this; omega
      subst hie
      simp at hi
      subst hi
      rw [← hlen]
      exact hz2 T hT hc
  · intro k hk
    apply hz3
    intro T hT hc
    rw [hlen]
    exact hk is.length input (by simp) T hT hc

/-- What the code does with several bodies: the observed states are the simulation states except
for the prescriptions of the *last* body; the prescriptions of the other ones are not applied. -/
theorem observed_states_only_last_body
    (readCsv : String → Except Err (String → Option (List K)))
    (mkInterp : Table K → Except Err (Interp K)) (inputs : List (Input K)) (bodies : List (BlockedDof K))
    (hb : Built readCsv mkInterp inputs bodies) (x x' : List K) (t : K)
    (hx : outputStates bodies x t = .ok x') (i : Nat) (hi : i + 1 < inputs.length) (s : StateName) :
    x'[slot i s]? = x[slot i s]? := by
  obtain ⟨hl, hbuilt⟩ := hb
  obtain rfl | ⟨is, input, rfl⟩ := inputs.eq_nil_or_concat'
  · simp at hi
  obtain rfl | ⟨bs, b, rfl⟩ := bodies.eq_nil_or_concat'
  · simp at hl
  have hlen : bs.length = is.length := by simpa using hl
  obtain ⟨hcsv, hbld⟩ := hbuilt bs.length input b (by simp [hlen]) (by simp)
  obtain ⟨hz1, hz2, hz3⟩ :=
    (blocked_states_follow_prescription_partial readCsv mkInterp input bs.length b hcsv hbld x t).1 x'
      (outputStates_last bs b x x' t hx)
  apply hz3
  intro T _ _ heq
  simp at hi
  cases s <;> cases T.state <;> simp [slot, blockable, StateName.rank] at heq <;> omega

end Forced

section ForcedExample

/-- A constant interpolator. -/
def constInterp (T : Table ℚ) : Except Err (Interp ℚ) :=
  .ok { f := fun _ => .ok (T.value.headD 0), df := fun _ => .ok 0 }

/-- No CSV file. -/
def noCsv : String → Except Err (String → Option (List ℚ)) := fun _ => .error (.throw "no file")

/-- `state` is equal to `v` from t = 0 to 10. -/
def forcedTo (state : BlockableState) (v : ℚ) : Input ℚ :=
  { fromYaml := [{ state := state, t := [0, 10], value := [v, v], interpolation := .linear }], fromCsv := [] }

/-- Bodies 0 and 1, with `u` blocked at 5 and `v` blocked at 7. -/
def twoBodies : Except Err (List (BlockedDof ℚ)) := do
  let a ← build noCsv constInterp (forcedTo .U 5) 0
  let b ← build noCsv constInterp (forcedTo .V 7) 1
  return [a, b]

/-- The solver forces both bodies... -/
example : (do forceAllStates (← twoBodies) (List.replicate 26 (1 : ℚ)) 2) =
    .ok (((List.replicate 26 (1 : ℚ)).set 3 5).set 17 7) := by decide +kernel

/-- ... the outputs only show the second one. -/
theorem output_two_bodies : (do outputStates (← twoBodies) (List.replicate 26 (1 : ℚ)) 2) =
    .ok ((List.replicate 26 (1 : ℚ)).set 17 7) := by decide +kernel

/-- C24 is false of the code: with two bodies having blocked states, the outputs are not the
simulation states with the blocked states replaced by their prescriptions. -/
theorem observed_states_forced_refuted :
    ∃ (inputs : List (Input ℚ)) (bodies : List (BlockedDof ℚ)) (x x' : List ℚ) (t : ℚ),
      Built noCsv constInterp inputs bodies ∧ outputStates bodies x t = .ok x' ∧
      ¬ Prescribed constInterp inputs t x x' := by
  obtain ⟨a, ha⟩ : ∃ a, build noCsv constInterp (forcedTo .U 5) 0 = .ok a := ⟨_, rfl⟩
  obtain ⟨b, hb⟩ : ∃ b, build noCsv constInterp (forcedTo .V 7) 1 = .ok b := ⟨_, rfl⟩
  have h := output_two_bodies
  simp only [twoBodies, ha, hb, bind, Except.bind, pure, Except.pure] at h
  refine ⟨[forcedTo .U 5, forcedTo .V 7], [a, b], _, _, 2, ⟨rfl, ?_⟩, h, ?_⟩
  · intro i inp b' hi hb'
    match i with
    | 0 => simp at hi hb'; subst hi hb'; exact ⟨rfl, ha⟩
    | 1 => simp at hi hb'; subst hi hb'; exact ⟨rfl, hb⟩
    | n + 2 => simp at hi
  · rintro ⟨-, h2, -⟩
    obtain ⟨itp, v, h3, h4, h5⟩ := h2 0 (forcedTo .U 5) rfl _ (List.mem_singleton.mpr rfl)
      ⟨⟨0, by simp, by norm_num⟩, ⟨10, by simp, by norm_num⟩⟩
    simp only [constInterp, Except.ok.injEq] at h3
    subst h3
    simp at h4
    subst h4
    revert h5
    decide +kernel

end ForcedExample

section Normalisation

/-- Euclidean norm of the quaternion of body `i` in the state vector `x`. -/
noncomputable def quatNorm (x : List ℝ) (i : Nat) : ℝ :=
  Real.sqrt ((x.getD (slot i .qr) 0) ^ 2 + (x.getD (slot i .qi) 0) ^ 2 + (x.getD (slot i .qj) 0) ^ 2
    + (x.getD (slot i .qk) 0) ^ 2)

/-- The four components of the attitude. -/
def IsQuat : StateName → Prop
  | .qr | .qi | .qj | .qk => True
  | _ => False

theorem hypot4 (a b c d : ℝ) : hypot (hypot (hypot a b) c) d = Real.sqrt (a ^ 2 + b ^ 2 + c ^ 2 + d ^ 2) := by
  unfold hypot
  rw [Real.sq_sqrt (by positivity), Real.sq_sqrt (by positivity)]

theorem setUB_ok {α : Type} {l : List α} {i : Nat} (h : i < l.length) (v : α) : setUB l i v = .ok (l.set i v) := by
  simp [setUB, h]

theorem getUB_ok {l : List ℝ} {i : Nat} (h : i < l.length) : getUB l i = .ok (l.getD i 0) := by
  simp [getUB, h, List.getD]

/-- One body. -/
theorem normalizeOne_spec (ae1 : ℝ → Bool) (x : List ℝ) (i : Nat) (hl : 13 * i + 13 ≤ x.length) :
    ∃ x' c, normalizeOne ae1 x i = .ok x' ∧ x'.length = x.length ∧
      c = (if ae1 (quatNorm x i) then 1 else 1 / quatNorm x i) ∧
      (∀ s, IsQuat s → x'.getD (slot i s) 0 = c * x.getD (slot i s) 0) ∧
      (∀ k, (∀ s, IsQuat s → k ≠ slot i s) → x'[k]? = x[k]?) := by
  have e9 : QRIDX i = slot i .qr := by simp [QRIDX, slot, StateName.rank, nbOfStatesPerBody, Nat.mul_comm]
  have e10 : QIIDX i = slot i .qi := by simp [QIIDX, slot, StateName.rank, nbOfStatesPerBody, Nat.mul_comm]
  have e11 : QJIDX i = slot i .qj := by simp [QJIDX, slot, StateName.rank, nbOfStatesPerBody, Nat.mul_comm]
  have e12 : QKIDX i = slot i .qk := by simp [QKIDX, slot, StateName.rank, nbOfStatesPerBody, Nat.mul_comm]
  have l9 : slot i .qr < x.length := by simp [slot, StateName.rank]; omega
  have l10 : slot i .qi < x.length := by simp [slot, StateName.rank]; omega
  have l11 : slot i .qj < x.length := by simp [slot, StateName.rank]; omega
  have l12 : slot i .qk < x.length := by simp [slot, StateName.rank]; omega
  have hq : quatOf x i = .ok ⟨x.getD (slot i .qr) 0, x.getD (slot i .qi) 0, x.getD (slot i .qj) 0, x.getD (slot i .qk) 0⟩ := by
    unfold quatOf
    simp only [e9, e10, e11, e12, getUB_ok l9, getUB_ok l10, getUB_ok l11, getUB_ok l12, bind, Except.bind, pure, Except.pure]
  unfold normalizeOne
  simp only [hq, bind, Except.bind, pure, Except.pure, hypot4]
  change ∃ x' c, (if ae1 (quatNorm x i) = true then _ else _) = _ ∧ _
  by_cases h : ae1 (quatNorm x i) = true
  · simp only [h, if_true]
    exact ⟨x, 1, rfl, rfl, rfl, by simp, by simp⟩
  · simp only [h]
    have hn : Real.sqrt (x.getD (slot i .qr) 0 ^ 2 + x.getD (slot i .qi) 0 ^ 2 + x.getD (slot i .qj) 0 ^ 2 + x.getD (slot i .qk) 0 ^ 2)
      = quatNorm x i := rfl
    rw [hn, e9, e10, e11, e12]
    rw [setUB_ok l9]
    dsimp only
    rw [setUB_ok (by simpa using l10)]
    dsimp only
    rw [setUB_ok (by simpa using l11)]
    dsimp only
    rw [setUB_ok (by simpa using l12)]
    refine ⟨_, _, rfl, by simp, rfl, ?_, ?_⟩
    · intro s hs
      cases s <;> simp only [IsQuat] at hs <;>
        simp [List.getD, List.getElem?_set, slot, StateName.rank] <;>
        simp [slot, StateName.rank] at l9 l10 l11 l12 <;>
        simp [l9, l10, l11, l12] <;> ring
    · intro k hk
      have k9 := hk .qr trivial
      have k10 := hk .qi trivial
      have k11 := hk .qj trivial
      have k12 := hk .qk trivial
      rw [List.getElem?_set_ne (Ne.symm k12), List.getElem?_set_ne (Ne.symm k11), List.getElem?_set_ne (Ne.symm k10),
        List.getElem?_set_ne (Ne.symm k9)]

/-- C25: for every number of bodies, if no quaternion is zero, then after the normalisation the
quaternion of each body is a positive multiple of the one before (so it represents the same
rotation), it has unit norm unless the norm before was considered equal to one (to a few ULPs:
`ae1`) in which case it is unchanged, and all the other states are unchanged. -/
theorem quaternions_normalised (ae1 : ℝ → Bool) (n : Nat) (x : List ℝ) (hl : 13 * n ≤ x.length)
    (hq : ∀ i < n, quatNorm x i ≠ 0) :
    ∃ x', normalizeQuaternions ae1 n x = .ok x' ∧ x'.length = x.length ∧
      (∀ i < n, ∃ c > 0,
        (∀ s, IsQuat s → x'.getD (slot i s) 0 = c * x.getD (slot i s) 0) ∧
        (quatNorm x' i = 1 ∨ (ae1 (quatNorm x i) = true ∧ c = 1))) ∧
      (∀ k, (∀ i < n, ∀ s, IsQuat s → k ≠ slot i s) → x'[k]? = x[k]?) := by
  induction n with
  | zero => exact ⟨x, rfl, rfl, by simp, by simp⟩
  | succ n ih =>
    obtain ⟨y, hy, hyl, hy2, hy3⟩ := ih (by omega) (fun i hi => hq i (by omega))
    obtain ⟨z, c, hz, hzl, hc, hz2, hz3⟩ := normalizeOne_spec ae1 y n (by omega)
    have hslot : ∀ i s s', IsQuat s → IsQuat s' → i < n → slot i s ≠ slot n s' := by
      intro i s s' hs hs' hi
      cases s <;> simp only [IsQuat] at hs <;> cases s' <;> simp only [IsQuat] at hs' <;>
        simp [slot, StateName.rank] <;> omega
    have hyn : ∀ s, IsQuat s → y.getD (slot n s) 0 = x.getD (slot n s) 0 := by
      intro s hs
      simp only [List.getD]
      rw [hy3 (slot n s) (fun i hi s' hs' => (hslot i s' s hs' hs hi).symm)]
    have hzi : ∀ i < n, ∀ s, IsQuat s → z.getD (slot i s) 0 = y.getD (slot i s) 0 := by
      intro i hi s hs
      simp only [List.getD]
      rw [hz3 (slot i s) (fun s' hs' => hslot i s s' hs hs' hi)]
    have hyq : quatNorm y n = quatNorm x n := by
      unfold quatNorm
      rw [hyn .qr trivial, hyn .qi trivial, hyn .qj trivial, hyn .qk trivial]
    have hpos : 0 < quatNorm x n := lt_of_le_of_ne (Real.sqrt_nonneg _) (Ne.symm (hq n (by omega)))
    refine ⟨z, ?_, by omega, ?_, ?_⟩
    · unfold normalizeQuaternions at hy ⊢
      rw [List.range_succ, List.foldlM_append]
      simp only [hy, bind, Except.bind, List.foldlM_cons, List.foldlM_nil, hz]
      rfl
    · intro i hi
      by_cases hin : i < n
      · obtain ⟨c', hc', h1, h2⟩ := hy2 i hin
        refine ⟨c', hc', fun s hs => by rw [hzi i hin s hs, h1 s hs], ?_⟩
        have : quatNorm z i = quatNorm y i := by
          unfold quatNorm
          rw [hzi i hin .qr trivial, hzi i hin .qi trivial, hzi i hin .qj trivial, hzi i hin .qk trivial]
        rwa [this]
      · have : i = n := by omega
        subst this
        rw [hyq] at hc
        refine ⟨c, ?_, fun s hs => by rw [hz2 s hs, hyn s hs], ?_⟩
        · rw [hc]; split
          · exact one_pos
          · exact one_div_pos.mpr hpos
        · by_cases h : ae1 (quatNorm x i) = true
          · right; exact ⟨h, by rw [hc, if_pos h]⟩
          · left
            rw [if_neg h] at hc
            unfold quatNorm
            rw [hz2 .qr trivial, hz2 .qi trivial, hz2 .qj trivial, hz2 .qk trivial, hyn .qr trivial, hyn .qi trivial, hyn .qj trivial, hyn .qk trivial]
            have : ∀ a b d e : ℝ, (c * a) ^ 2 + (c * b) ^ 2 + (c * d) ^ 2 + (c * e) ^ 2
              = c ^ 2 * (a ^ 2 + b ^ 2 + d ^ 2 + e ^ 2) := by intros; ring
            rw [this, Real.sqrt_mul (sq_nonneg c), Real.sqrt_sq (by rw [hc]; exact (one_div_pos.mpr hpos).le)]
            change c * quatNorm x i = 1
            rw [hc]
            field_simp
    · intro k hk
      rw [hz3 k (fun s hs => hk n (by omega) s hs), hy3 k (fun i hi s hs => hk i (by omega) s hs)]

/-- A state vector of one body with a quaternion of norm 2, and a comparison that never holds. -/
example : (13 * 1 ≤ ([1, 2, 3, 4, 5, 6, 7, 8, 9, 2, 0, 0, 0] : List ℝ).length) ∧
    ∀ i < 1, quatNorm [1, 2, 3, 4, 5, 6, 7, 8, 9, 2, 0, 0, 0] i ≠ 0 := by
  refine ⟨by simp, fun i hi => ?_⟩
  have : i = 0 := by omega
  subst this
  simp [quatNorm, slot, StateName.rank]

end Normalisation

end Xdyn.Sim

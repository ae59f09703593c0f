import Verif.Lemmas.Server
import Verif.Props.Solver
import Verif.Props.Sim

/-! Properties C17 to C20 (inputs and outputs of the servers). -/

namespace Xdyn.Server

open Spec History Xdyn.Sim

section
variable {K : Type} [Field K] [LinearOrder K] [IsStrictOrderedRing K]

/-- **C17** For every non-empty request `pre ++ [last]` whose dates strictly increase (by more than
the few units in the last place under which `almost_equal` identifies two dates), and every history
length `Tmax ≥ 0`: the current date and the thirteen current states are the ones of `last`, the
commands and `Dt` are the ones of the request, the full history of each state ends with `last`, and
the history given to model exchange ends with the last state of `pre` (it is empty if there is only
one state). -/
theorem json_inputs (ae : Nat → K → K → Bool) (hae : ∀ n a, ae n a a = true) (y : YamlInputs K) (Tmax : K)
    (hT : 0 ≤ Tmax) (pre : List (YamlState K)) (last : YamlState K) (hs : y.states = pre ++ [last])
    (hdates : y.states.Pairwise (fun a b => a.t < b.t ∧ ae 4 b.t a.t = false)) :
    ∃ r, Inputs.ofYaml ae y Tmax = .ok r ∧ r.t = last.t ∧ r.Dt = y.Dt ∧ r.commands = y.commands ∧
      r.stateAtT.length = 13 ∧ (∀ s, r.stateAtT[slot 0 s]? = some (field last.toStates s)) ∧
      (∀ s, (field r.fullHistory s).L.getLast? = some (last.t, field last.toStates s)) ∧
      (∀ s, (field r.historyExceptLast s).L.getLast? = pre.getLast?.map (fun a => (a.t, field a.toStates s))) ∧
      -- if the states span less than `Tmax`, nothing is lost
      (0 < Tmax → (∀ a ∈ y.states, ∀ b ∈ y.states, b.t - a.t < Tmax) →
        (∀ s, (field r.fullHistory s).L = y.states.map (fun a => (a.t, field a.toStates s))) ∧
        (∀ s, (field r.historyExceptLast s).L = pre.map (fun a => (a.t, field a.toStates s)))) := by
  have hpre : DatesIncrease ae pre := by
    have := hdates; rw [hs] at this; exact (List.pairwise_append.1 this).1
  obtain ⟨h1, e1, s1⟩ := recordAll ae hae Tmax hT pre hpre
  obtain ⟨h2, e2, s2⟩ := recordAll ae hae Tmax hT y.states hdates
  have hrec : States.record ae h1 last = .ok h2 := by
    rw [hs, List.foldlM_append, e1] at e2
    simp only [bind, Except.bind, List.foldlM_cons, List.foldlM_nil, pure, Except.pure] at e2
    cases hc : States.record ae h1 last with
    | error e => simp [hc] at e2
    | ok h => simp only [hc] at e2; exact e2
  have hlast : y.states.getLast? = some last := by simp [hs]
  have hdrop : y.states.dropLast = pre := by simp [hs]
  refine ⟨{ t := last.t, Dt := y.Dt, stateAtT := stateAt last, historyExceptLast := h1, fullHistory := h2,
            commands := y.commands }, ?_, rfl, rfl, rfl, rfl, ?_, ?_, ?_, ?_⟩
  · unfold Inputs.ofYaml
    simp only [hlast, hdrop]
    rw [foldlM_pair ae pre _ _ h1 h1 e1 e1]
    simp only [bind, Except.bind, pure, Except.pure, hrec]
  · intro s; cases s <;> rfl
  · intro s; have := (s2 s).2.2.1; rw [hlast] at this; exact this
  · intro s; exact (s1 s).2.2.1
  · intro hpos hspan
    refine ⟨fun s => ((s2 s).2.2.2 hpos hspan).1, fun s => ((s1 s).2.2.2 hpos ?_).1⟩
    intro a ha b hb
    exact hspan a (by simp [hs, ha]) b (by simp [hs, hb])

/-! ### gRPC -/

/-- All the arrays of the request have as many elements as `t`. -/
def SameSizes (s : GrpcQuat K) : Prop := ∀ n, (field s.toStates n).length = s.t.length

/-- All the arrays of the request have as many elements as `t`. -/
def SameSizesEuler (s : GrpcEuler K) : Prop :=
  ∀ l ∈ [s.x, s.y, s.z, s.u, s.v, s.w, s.p, s.q, s.r, s.phi, s.theta, s.psi], l.length = s.t.length

/-- **C19** A request (quaternions) is accepted if and only if all its arrays have the size of `t`;
otherwise the status is INVALID_ARGUMENT. -/
theorem grpc_validation (s : GrpcQuat K) :
    (checkQuat s = .ok ↔ SameSizes s) ∧ (¬ SameSizes s → ∃ names, checkQuat s = .invalidArgument names) := by
  have h : checkQuat s = .ok ↔ SameSizes s := by
    unfold checkQuat statusOf SameSizes
    constructor
    · intro h n
      split at h
      · rename_i hc
        simp only [List.append_eq_nil_iff, checkSize] at hc
        cases n <;> simp only [field] <;> by_contra hne <;> simp_all
      · cases h
    · intro h
      rw [if_pos]
      have e_x := h .x
      have e_y := h .y
      have e_z := h .z
      have e_u := h .u
      have e_v := h .v
      have e_w := h .w
      have e_p := h .p
      have e_q := h .q
      have e_r := h .r
      have e_qr := h .qr
      have e_qi := h .qi
      have e_qj := h .qj
      have e_qk := h .qk
      simp only [field] at e_x e_y e_z e_u e_v e_w e_p e_q e_r e_qr e_qi e_qj e_qk
      simp [checkSize, *]
  refine ⟨h, fun hn => ?_⟩
  unfold checkQuat statusOf
  split
  · rename_i hc
    exact absurd (h.1 (by unfold checkQuat statusOf; rw [if_pos hc])) hn
  · exact ⟨_, rfl⟩

/-- **C19** Same for the requests with Euler angles. -/
theorem grpc_validation_euler (s : GrpcEuler K) :
    (checkEuler s = .ok ↔ SameSizesEuler s) ∧ (¬ SameSizesEuler s → ∃ names, checkEuler s = .invalidArgument names) := by
  have h : checkEuler s = .ok ↔ SameSizesEuler s := by
    unfold checkEuler statusOf SameSizesEuler
    constructor
    · intro h
      split at h
      · rename_i hc
        simp only [List.append_eq_nil_iff, checkSize] at hc
        simp only [List.mem_cons, List.not_mem_nil, or_false]
        rintro l (rfl | rfl | rfl | rfl | rfl | rfl | rfl | rfl | rfl | rfl | rfl | rfl) <;>
          by_contra hne <;> simp_all
      · cases h
    · intro h
      rw [if_pos]
      simp only [List.mem_cons, List.not_mem_nil, or_false, forall_eq_or_imp, forall_eq] at h
      obtain ⟨h1, h2, h3, h4, h5, h6, h7, h8, h9, h10, h11, h12⟩ := h
      simp [checkSize, *]
  refine ⟨h, fun hn => ?_⟩
  unfold checkEuler statusOf
  split
  · rename_i hc
    exact absurd (h.1 (by unfold checkEuler statusOf; rw [if_pos hc])) hn
  · exact ⟨_, rfl⟩

theorem fromGrpcQuat_eq (r : GrpcRequest K (GrpcQuat K)) (h : SameSizes r.states) :
    fromGrpcQuat r = .ok { Dt := r.dt, commands := r.commands, states := (List.range r.states.t.length).map (fun i =>
      { toStates := ofFun (fun n => (field r.states.toStates n).getD i 0), t := 0, phi := 0, theta := 0, psi := 0 }) } := by
  unfold fromGrpcQuat
  rw [mapM_range _ _ (fun i => { toStates := ofFun (fun n => (field r.states.toStates n).getD i 0), t := 0, phi := 0, theta := 0, psi := 0 })]
  · rfl
  · intro i hi
    have e_x := getUB_getD (h .x) hi
    have e_y := getUB_getD (h .y) hi
    have e_z := getUB_getD (h .z) hi
    have e_u := getUB_getD (h .u) hi
    have e_v := getUB_getD (h .v) hi
    have e_w := getUB_getD (h .w) hi
    have e_p := getUB_getD (h .p) hi
    have e_q := getUB_getD (h .q) hi
    have e_r := getUB_getD (h .r) hi
    have e_qr := getUB_getD (h .qr) hi
    have e_qi := getUB_getD (h .qi) hi
    have e_qj := getUB_getD (h .qj) hi
    have e_qk := getUB_getD (h .qk) hi
    simp only [field] at e_x e_y e_z e_u e_v e_w e_p e_q e_r e_qr e_qi e_qj e_qk
    simp only [quatState, e_x, e_y, e_z, e_u, e_v, e_w, e_p, e_q, e_r, e_qr, e_qi, e_qj, e_qk, bind, Except.bind, pure,
      Except.pure]
    rfl

theorem fromGrpcEuler_eq (toQuat : K → K → K → K × K × K × K) (r : GrpcRequest K (GrpcEuler K)) (h : SameSizesEuler r.states) :
    fromGrpcEuler toQuat r = .ok { Dt := r.dt, commands := r.commands, states := (List.range r.states.t.length).map (fun i =>
      let g := fun (l : List K) => l.getD i 0
      let q := toQuat (g r.states.phi) (g r.states.theta) (g r.states.psi)
      { x := g r.states.x, y := g r.states.y, z := g r.states.z, u := g r.states.u, v := g r.states.v, w := g r.states.w,
        p := g r.states.p, q := g r.states.q, r := g r.states.r, qr := q.1, qi := q.2.1, qj := q.2.2.1, qk := q.2.2.2,
        t := 0, phi := 0, theta := 0, psi := 0 }) } := by
  unfold fromGrpcEuler
  rw [mapM_range _ _ (fun i =>
      let g := fun (l : List K) => l.getD i 0
      let q := toQuat (g r.states.phi) (g r.states.theta) (g r.states.psi)
      { x := g r.states.x, y := g r.states.y, z := g r.states.z, u := g r.states.u, v := g r.states.v, w := g r.states.w,
        p := g r.states.p, q := g r.states.q, r := g r.states.r, qr := q.1, qi := q.2.1, qj := q.2.2.1, qk := q.2.2.2,
        t := 0, phi := 0, theta := 0, psi := 0 })]
  · rfl
  · intro i hi
    have hg : ∀ l ∈ [r.states.x, r.states.y, r.states.z, r.states.u, r.states.v, r.states.w, r.states.p, r.states.q,
      r.states.r, r.states.phi, r.states.theta, r.states.psi], getUB l i = .ok (l.getD i 0) :=
      fun l hl => getUB_getD (h l hl) hi
    simp only [List.mem_cons, List.not_mem_nil, or_false, forall_eq_or_imp, forall_eq] at hg
    obtain ⟨h1, h2, h3, h4, h5, h6, h7, h8, h9, h10, h11, h12⟩ := hg
    simp only [eulerState, h1, h2, h3, h4, h5, h6, h7, h8, h9, h10, h11, h12, bind, Except.bind, pure, Except.pure]

/-- **C19** An accepted request never makes the conversion read out of the bounds of an array. -/
theorem grpc_accepted_no_out_of_bounds (r : GrpcRequest K (GrpcQuat K)) (h : checkQuat r.states = .ok) :
    ∃ y, fromGrpcQuat r = .ok y :=
  ⟨_, fromGrpcQuat_eq r ((grpc_validation r.states).1.1 h)⟩

/-- **C19** Same for the requests with Euler angles. -/
theorem grpc_accepted_no_out_of_bounds_euler (toQuat : K → K → K → K × K × K × K) (r : GrpcRequest K (GrpcEuler K))
    (h : checkEuler r.states = .ok) : ∃ y, fromGrpcEuler toQuat r = .ok y :=
  ⟨_, fromGrpcEuler_eq toQuat r ((grpc_validation_euler r.states).1.1 h)⟩

/-- The list of states `ys` has the same content as the arrays of a gRPC request, dates excepted. -/
def SameStates (s : GrpcQuat K) (ys : List (YamlState K)) : Prop :=
  ys.length = s.t.length ∧ ∀ (n : StateName) (i : Nat), (ys[i]?).map (fun a : YamlState K => field a.toStates n) = (field s.toStates n)[i]?

/-- ... and the same dates. -/
def SameDates (s : GrpcQuat K) (ys : List (YamlState K)) : Prop := ys.map (·.t) = s.t

/-- **C18, partial** An accepted gRPC request is converted to the JSON request with the same `Dt`, the
same commands, the same number of states and the same thirteen states in the same order.  Missing:
the dates (see `grpc_dates_lost`). -/
theorem grpc_same_content_partial (r : GrpcRequest K (GrpcQuat K)) (h : checkQuat r.states = .ok) :
    ∃ y, fromGrpcQuat r = .ok y ∧ y.Dt = r.dt ∧ y.commands = r.commands ∧ SameStates r.states y.states := by
  have hs := (grpc_validation r.states).1.1 h
  refine ⟨_, fromGrpcQuat_eq r hs, rfl, rfl, by simp, ?_⟩
  intro n i
  by_cases hi : i < r.states.t.length
  · have hn : i < (field r.states.toStates n).length := by rw [hs n]; exact hi
    simp [hi, hn]
  · have hn : ¬ i < (field r.states.toStates n).length := by rw [hs n]; exact hi
    rw [List.getElem?_eq_none (by simp; omega), List.getElem?_eq_none (by omega)]
    rfl

/-- **C18, refuted in general** Whatever the dates of an accepted request, the converted request has
the date 0 for all its states; the dates are preserved only if all of them are 0. -/
theorem grpc_dates_lost (r : GrpcRequest K (GrpcQuat K)) (h : checkQuat r.states = .ok) :
    ∃ y, fromGrpcQuat r = .ok y ∧ (∀ a ∈ y.states, a.t = 0) ∧ (SameDates r.states y.states ↔ ∀ t ∈ r.states.t, t = 0) := by
  have hs := (grpc_validation r.states).1.1 h
  refine ⟨_, fromGrpcQuat_eq r hs, ?_, ?_⟩
  · intro a ha
    simp only [List.mem_map] at ha
    obtain ⟨i, -, rfl⟩ := ha
    rfl
  · unfold SameDates
    simp only [List.map_map]
    have e : (List.range r.states.t.length).map ((fun a : YamlState K => a.t) ∘ fun i =>
      { toStates := ofFun (fun n => (field r.states.toStates n).getD i 0), t := 0, phi := 0, theta := 0, psi := 0 }) =
      List.replicate r.states.t.length 0 := by
      rw [List.eq_replicate_iff]
      simp
    rw [e]
    constructor
    · intro h t ht
      rw [← h] at ht
      exact List.eq_of_mem_replicate ht
    · intro h
      exact (List.eq_replicate_iff.2 ⟨rfl, h⟩).symm

theorem grpc_dates_lost_euler (toQuat : K → K → K → K × K × K × K) (r : GrpcRequest K (GrpcEuler K)) (h : checkEuler r.states = .ok) :
    ∃ y, fromGrpcEuler toQuat r = .ok y ∧ (∀ a ∈ y.states, a.t = 0) := by
  have hs := (grpc_validation_euler r.states).1.1 h
  refine ⟨_, fromGrpcEuler_eq toQuat r hs, ?_⟩
  intro a ha
  simp only [List.mem_map] at ha
  obtain ⟨i, -, rfl⟩ := ha
  rfl

/-- Recording at date 0 again replaces the only sample. -/
theorem record_at_zero (ae : Nat → K → K → Bool) (hae : Refl ae) (Tmax : K) (hT : 0 ≤ Tmax) (L : List (K × K))
    (hL : L = [] ∨ ∃ w, L = [(0, w)]) (v : K) :
    record ae { Tmax := Tmax, L := L, oldest := 0 } 0 v = .ok { Tmax := Tmax, L := [(0, v)], oldest := 0 } := by
  have hshift : shift ae { Tmax := Tmax, L := [(0, v)], oldest := 0 } = .ok { Tmax := Tmax, L := [(0, v)], oldest := 0 } := by
    unfold shift
    simp only [currentTime, List.getLast?_singleton, sub_self, ge_iff_le]
    by_cases hz : Tmax ≤ 0
    · have : Tmax = 0 := le_antisymm hz hT
      subst this
      simp [interpolate, getUB, bracket, bind, Except.bind, pure, Except.pure]
      exact hae _ _
    · simp [hz, pure, Except.pure]
  rcases hL with rfl | ⟨w, rfl⟩
  · unfold record
    simp [updateOldest, addValue, bracket, bind, Except.bind, pure, Except.pure, hshift]
  · unfold record
    have hz : ae 4 0 0 = true := hae 4 0
    simp [updateOldest, addValue, bracket, bind, Except.bind, pure, Except.pure, hshift, getUB, hz]

theorem recordAll_zero (ae : Nat → K → K → Bool) (hae : Refl ae) (Tmax : K) (hT : 0 ≤ Tmax) (l : List (YamlState K))
    (h0 : ∀ a ∈ l, a.t = 0) :
    ∃ h', l.foldlM (fun h s => States.record ae h s) (States.newHistories Tmax) = .ok h' ∧
      ∀ s, (field h' s) = { Tmax := Tmax, L := (l.getLast?.map (fun a => ((0 : K), field a.toStates s))).toList, oldest := 0 } := by
  induction l using List.reverseRecOn with
  | nil =>
    refine ⟨States.newHistories Tmax, rfl, fun s => ?_⟩
    cases s <;> rfl
  | append_singleton l a ih =>
    obtain ⟨h, hh, hs⟩ := ih (fun a ha => h0 a (by simp [ha]))
    have ha : a.t = 0 := h0 a (by simp)
    refine ⟨ofFun (fun s => { Tmax := Tmax, L := [(0, field a.toStates s)], oldest := 0 }), ?_, ?_⟩
    · rw [List.foldlM_append, hh]
      simp only [bind, Except.bind, List.foldlM_cons, List.foldlM_nil]
      rw [record_states ae h a _ (fun s => ?_)]
      · rfl
      · rw [hs s, ha]
        apply record_at_zero ae hae Tmax hT
        cases l.getLast? with
        | none => left; rfl
        | some b => right; exact ⟨_, rfl⟩
    · intro s
      rw [field_ofFun]
      simp

/-- **C18, refuted in general** (consequence) For every accepted, non-empty gRPC request, whatever its
dates: the simulation starts at date 0 and the history of each state is reduced to the last state,
dated 0: all the other states of the request are lost. -/
theorem grpc_history_collapses (ae : Nat → K → K → Bool) (hae : ∀ n a, ae n a a = true) (Tmax : K) (hT : 0 ≤ Tmax)
    (r : GrpcRequest K (GrpcQuat K)) (h : checkQuat r.states = .ok) (hne : r.states.t ≠ []) :
    ∃ y last inp, fromGrpcQuat r = .ok y ∧ y.states.getLast? = some last ∧ Inputs.ofYaml ae y Tmax = .ok inp ∧
      inp.t = 0 ∧ ∀ s, (field inp.fullHistory s).L = [(0, field last.toStates s)] := by
  obtain ⟨y, hy, h0, -⟩ := grpc_dates_lost r h
  obtain ⟨y', hy', -, -, hlen, -⟩ := grpc_same_content_partial r h
  rw [hy] at hy'; cases hy'
  have hyn : y.states ≠ [] := by
    intro hc
    rw [hc] at hlen
    exact hne (List.length_eq_zero_iff.1 hlen.symm)
  obtain ⟨pre, last, hpl⟩ : ∃ pre last, y.states = pre ++ [last] :=
    ⟨_, _, (List.dropLast_append_getLast hyn).symm⟩
  obtain ⟨h1, e1, s1⟩ := recordAll_zero ae hae Tmax hT pre (fun a ha => h0 a (by simp [hpl, ha]))
  obtain ⟨h2, e2, s2⟩ := recordAll_zero ae hae Tmax hT y.states h0
  have hrec : States.record ae h1 last = .ok h2 := by
    rw [hpl, List.foldlM_append, e1] at e2
    simp only [bind, Except.bind, List.foldlM_cons, List.foldlM_nil, pure, Except.pure] at e2
    cases hc : States.record ae h1 last with
    | error e => simp [hc] at e2
    | ok h => simp only [hc] at e2; exact e2
  have hlast : y.states.getLast? = some last := by simp [hpl]
  have hdrop : y.states.dropLast = pre := by simp [hpl]
  refine ⟨y, last, { t := last.t, Dt := y.Dt, stateAtT := stateAt last, historyExceptLast := h1, fullHistory := h2,
                     commands := y.commands }, hy, hlast, ?_, h0 last (by simp [hpl]), ?_⟩
  · unfold Inputs.ofYaml
    simp only [hlast, hdrop]
    rw [foldlM_pair ae pre _ _ h1 h1 e1 e1]
    simp only [bind, Except.bind, pure, Except.pure, hrec]
  · intro s
    simp [s2 s, hlast]

/-! ### Model exchange -/

variable {Γ E : Type}

theorem getEulerDerivative_eq (rates : K → K → K → K → K → K → K → K × K × K) (s : YamlState K) :
    getEulerDerivative rates (stateAt s) = .ok (rates s.qr s.qi s.qj s.qk s.p s.q s.r) := rfl

/-- **C20, refuted** For every accepted request with at least one state, if the thirteen derivatives
were computed then the answer of `dx_dt_quaternion` is undefined behaviour: the Euler angle rates are
computed from an empty state vector. -/
theorem dx_dt_quaternion_undefined (rates : K → K → K → K → K → K → K → K × K × K) (S : Setup K Γ E) (Tmax : K)
    (s : Sim K Γ) (r : GrpcRequest K (GrpcQuat K)) (h : checkQuat r.states = .ok) (hne : r.states.t ≠ [])
    (y : YamlInputs K) (hy : fromGrpcQuat { r with dt := 0 } = .ok y) (inp : Inputs K)
    (hinp : Inputs.ofYaml S.ae y Tmax = .ok inp) (s' : Sim K Γ) (dx : List K)
    (hdx : calculateDxDt S s inp = .ok (s', dx)) (h13 : dx.length = 13) :
    dxDtQuaternion rates S Tmax s r = .error .ub := by
  obtain ⟨y', hy', -, -, hlen, -⟩ := grpc_same_content_partial { r with dt := 0 } h
  rw [hy] at hy'; cases hy'
  have hyn : y.states ≠ [] := by
    intro hc
    rw [hc] at hlen
    exact hne (List.length_eq_zero_iff.1 hlen.symm)
  obtain ⟨last, hl⟩ : ∃ last, y.states.getLast? = some last := by
    cases hc : y.states.getLast? with
    | none => rw [List.getLast?_eq_none_iff] at hc; exact absurd hc hyn
    | some a => exact ⟨a, rfl⟩
  match dx, h13 with
  | [x0, x1, x2, x3, x4, x5, x6, x7, x8, x9, x10, x11, x12], _ =>
    unfold dxDtQuaternion
    simp only [h, hy, hl, hinp, hdx, bind, Except.bind]
    rfl

/-- **C20, partial** (the cases in which `dx_dt_quaternion` does answer) A request whose arrays do not
have the same size gets INVALID_ARGUMENT and an empty request gets INTERNAL; the server does not
change. Missing: all the other requests, see `dx_dt_quaternion_undefined`. -/
theorem dx_dt_quaternion_refusals_partial (rates : K → K → K → K → K → K → K → K × K × K) (S : Setup K Γ E) (Tmax : K)
    (s : Sim K Γ) (r : GrpcRequest K (GrpcQuat K)) :
    (¬ SameSizes r.states → ∃ names, dxDtQuaternion rates S Tmax s r = .ok (s, .invalidArgument names, none)) ∧
    (SameSizes r.states → r.states.t = [] → dxDtQuaternion rates S Tmax s r = .ok (s, .internal, none)) := by
  constructor
  · intro h
    obtain ⟨names, hn⟩ := (grpc_validation r.states).2 h
    exact ⟨names, by unfold dxDtQuaternion; rw [hn]⟩
  · intro h he
    have hc := (grpc_validation r.states).1.2 h
    unfold dxDtQuaternion
    rw [hc]
    have := fromGrpcQuat_eq { r with dt := 0 } h
    simp only [this, bind, Except.bind]
    simp [he, pure, Except.pure]

/-- **C73** For every accepted non-empty request with Euler angles, when the computation of the
derivatives succeeds, `dx_dt_euler_321` answers OK with the thirteen derivatives in the documented
order, and with the Euler rates computed from the quaternion and the rotation speed of the *last*
state of the request.  (The date is always 0: see C18.) -/
theorem dx_dt_euler_answers (toQuat : K → K → K → K × K × K × K) (rates : K → K → K → K → K → K → K → K × K × K)
    (S : Setup K Γ E) (Tmax : K) (s : Sim K Γ) (r : GrpcRequest K (GrpcEuler K)) (h : checkEuler r.states = .ok)
    (y : YamlInputs K) (hy : fromGrpcEuler toQuat { r with dt := 0 } = .ok y) (last : YamlState K)
    (hl : y.states.getLast? = some last) (inp : Inputs K)
    (hinp : Inputs.ofYaml S.ae y Tmax = .ok inp) (s' : Sim K Γ) (dx : List K)
    (hdx : calculateDxDt S s inp = .ok (s', dx)) (h13 : dx.length = 13) :
    ∃ resp, dxDtEuler toQuat rates S Tmax s r = .ok (s', .ok, some resp) ∧
      (∀ n, dx[slot 0 n]? = some (field resp.toStates n)) ∧
      (resp.phi, resp.theta, resp.psi) = rates last.qr last.qi last.qj last.qk last.p last.q last.r ∧
      resp.t = last.t := by
  have hin : inp.stateAtT = stateAt last ∧ inp.t = last.t := by
    unfold Inputs.ofYaml at hinp
    simp only [hl, bind, Except.bind, pure, Except.pure] at hinp
    split at hinp
    · cases hinp
    · split at hinp
      · cases hinp
      · cases hinp; exact ⟨rfl, rfl⟩
  match dx, h13 with
  | [x0, x1, x2, x3, x4, x5, x6, x7, x8, x9, x10, x11, x12], _ =>
    refine ⟨{ x := x0, y := x1, z := x2, u := x3, v := x4, w := x5, p := x6, q := x7, r := x8, qr := x9, qi := x10, qj := x11, qk := x12,
              phi := (rates last.qr last.qi last.qj last.qk last.p last.q last.r).1,
              theta := (rates last.qr last.qi last.qj last.qk last.p last.q last.r).2.1,
              psi := (rates last.qr last.qi last.qj last.qk last.p last.q last.r).2.2,
              t := last.t }, ?_, ?_, rfl, rfl⟩
    · unfold dxDtEuler
      simp only [h, hy, hinp, hdx, bind, Except.bind, meToGrpc, hin.1, hin.2, getEulerDerivative_eq, pure, Except.pure]
    · intro n; cases n <;> rfl

end
end Xdyn.Server

import Verif.Props.Chain

/-! Property C205: the answer of the gRPC co-simulation server. -/

namespace Xdyn.Server

open Xdyn.Sim Blocked Body Spec Solver

/-! ### Specification -/

/-- The answer `a` describes the states `res`: row `i` of each of its columns (the thirteen states, the three Euler angles, the date) is taken
from `res[i]`, there are as many rows as states, and its last state is the last of `res`. -/
structure Describes {K : Type} (res : List (YamlState K)) (a : CosimResponse K) : Prop where
  states : ∀ (n : StateName) (i : Nat), (field a.all n)[i]? = (res[i]?).map (fun y => field y.toStates n)
  phi : ∀ i : Nat, a.phi[i]? = (res[i]?).map (·.phi)
  theta : ∀ i : Nat, a.theta[i]? = (res[i]?).map (·.theta)
  psi : ∀ i : Nat, a.psi[i]? = (res[i]?).map (·.psi)
  t : ∀ i : Nat, a.t[i]? = (res[i]?).map (·.t)
  last : res.getLast? = some a.last

/-- The request `y` has the content of the accepted request `r`, all its dates being 0 (C18). -/
def WithoutDates {K : Type} [Zero K] (r : GrpcRequest K (GrpcQuat K)) (y : YamlInputs K) : Prop :=
  y.Dt = r.dt ∧ y.commands = r.commands ∧ SameStates r.states y.states ∧ ∀ s ∈ y.states, s.t = 0

/-- The same for a request with Euler angles: the quaternions are those of the angles. -/
def WithoutDatesEuler {K : Type} [Zero K] (toQuat : K → K → K → K × K × K × K) (r : GrpcRequest K (GrpcEuler K)) (y : YamlInputs K) : Prop :=
  y.Dt = r.dt ∧ y.commands = r.commands ∧ y.states.length = r.states.t.length ∧
  ∀ (i : Nat) (s : YamlState K), y.states[i]? = some s →
    r.states.x[i]? = some s.x ∧ r.states.y[i]? = some s.y ∧ r.states.z[i]? = some s.z ∧
    r.states.u[i]? = some s.u ∧ r.states.v[i]? = some s.v ∧ r.states.w[i]? = some s.w ∧
    r.states.p[i]? = some s.p ∧ r.states.q[i]? = some s.q ∧ r.states.r[i]? = some s.r ∧ s.t = 0 ∧
    ∃ phi theta psi, r.states.phi[i]? = some phi ∧ r.states.theta[i]? = some theta ∧ r.states.psi[i]? = some psi ∧
      (s.qr, s.qi, s.qj, s.qk) = toQuat phi theta psi

/-! ### Theorems -/

section
variable {K : Type} [Field K] [LinearOrder K] [IsStrictOrderedRing K] {Γ E : Type}

/-- **C205** The answer describes the states that were computed; without any state, the status is INTERNAL. -/
theorem answer_describes (res : List (YamlState K)) :
    (res = [] → cosimToGrpc res = (.internal, none)) ∧
    (res ≠ [] → ∃ a, cosimToGrpc res = (.ok, some a) ∧ Describes res a) := by
  constructor
  · rintro rfl; rfl
  · intro h
    obtain ⟨last, hl⟩ : ∃ last, res.getLast? = some last := ⟨_, List.getLast?_eq_some_getLast h⟩
    refine ⟨_, by simp only [cosimToGrpc, hl]; rfl, ⟨?_, ?_, ?_, ?_, ?_, ?_⟩⟩
    · intro n i; cases n <;> exact List.getElem?_map
    · intro i; exact List.getElem?_map
    · intro i; exact List.getElem?_map
    · intro i; exact List.getElem?_map
    · intro i; exact List.getElem?_map
    · exact hl

/-- **C205** An accepted request with quaternions is simulated as the request with the same content and dates equal to 0: if its simulation
fails the call fails with the same error, and if it gives states the status is OK and the answer describes them. -/
theorem grpc_step (S : Setup K Γ E) (C : StepConf K) (fuel : Nat) (Tmax : K) (s : Sim K Γ) (r : GrpcRequest K (GrpcQuat K))
    (h : checkQuat r.states = .ok) :
    ∃ y, WithoutDates r y ∧
      (∀ e, Inputs.ofYaml S.ae y Tmax = .error e → stepQuaternion S C fuel Tmax s r = some (.error e)) ∧
      ∀ inp, Inputs.ofYaml S.ae y Tmax = .ok inp →
        (playOneStep S C fuel s inp = none → stepQuaternion S C fuel Tmax s r = none) ∧
        (∀ e, playOneStep S C fuel s inp = some (.error e) → stepQuaternion S C fuel Tmax s r = some (.error e)) ∧
        ∀ s' l, playOneStep S C fuel s inp = some (.ok (s', l)) → l ≠ [] →
          ∃ a, stepQuaternion S C fuel Tmax s r = some (.ok (s', .ok, some a)) ∧ Describes (l.map Prod.fst) a := by
  obtain ⟨y, hy, h1, h2, h3⟩ := grpc_same_content_partial r h
  obtain ⟨y', hy', h4, -⟩ := grpc_dates_lost r h
  rw [hy] at hy'; cases hy'
  refine ⟨y, ⟨h1, h2, h3, h4⟩, ?_, ?_⟩
  · intro e he
    simp only [stepQuaternion, h, hy, bind, Except.bind, he]
  · intro inp hi
    refine ⟨?_, ?_, ?_⟩
    · intro hp
      simp only [stepQuaternion, h, hy, bind, Except.bind, hi, hp, Option.bind]
    · intro e hp
      simp only [stepQuaternion, h, hy, bind, Except.bind, hi, hp, Option.bind, pure]
    · intro s' l hp hl
      obtain ⟨a, ha, hd⟩ := (answer_describes (l.map Prod.fst)).2 (by simpa using hl)
      refine ⟨a, ?_, hd⟩
      simp only [stepQuaternion, h, hy, bind, Except.bind, hi, hp, Option.bind, pure, Except.pure, ha]

theorem fromGrpcEuler_withoutDates (toQuat : K → K → K → K × K × K × K) (r : GrpcRequest K (GrpcEuler K)) (h : checkEuler r.states = .ok) :
    ∃ y, fromGrpcEuler toQuat r = .ok y ∧ WithoutDatesEuler toQuat r y := by
  have hs := (grpc_validation_euler r.states).1.1 h
  refine ⟨_, fromGrpcEuler_eq toQuat r hs, rfl, rfl, by simp only [List.length_map, List.length_range], ?_⟩
  intro i s hi
  rw [List.getElem?_map, Option.map_eq_some_iff] at hi
  obtain ⟨j, hj, rfl⟩ := hi
  have hlt : i < r.states.t.length := by
    by_contra hc
    rw [List.getElem?_eq_none (by simpa using hc)] at hj
    cases hj
  rw [List.getElem?_range hlt] at hj
  cases hj
  have g : ∀ l ∈ [r.states.x, r.states.y, r.states.z, r.states.u, r.states.v, r.states.w, r.states.p, r.states.q, r.states.r,
      r.states.phi, r.states.theta, r.states.psi], l[i]? = some (l.getD i 0) := by
    intro l hl
    have : i < l.length := by rw [hs l hl]; exact hlt
    simp [List.getD, List.getElem?_eq_getElem this]
  refine ⟨g _ (by simp), g _ (by simp), g _ (by simp), g _ (by simp), g _ (by simp), g _ (by simp), g _ (by simp), g _ (by simp),
    g _ (by simp), rfl, _, _, _, g _ (by simp), g _ (by simp), g _ (by simp), rfl⟩

/-- **C205** The same for a request with Euler angles. -/
theorem grpc_step_euler (toQuat : K → K → K → K × K × K × K) (S : Setup K Γ E) (C : StepConf K) (fuel : Nat) (Tmax : K) (s : Sim K Γ)
    (r : GrpcRequest K (GrpcEuler K)) (h : checkEuler r.states = .ok) :
    ∃ y, WithoutDatesEuler toQuat r y ∧
      (∀ e, Inputs.ofYaml S.ae y Tmax = .error e → stepEuler toQuat S C fuel Tmax s r = some (.error e)) ∧
      ∀ inp, Inputs.ofYaml S.ae y Tmax = .ok inp →
        (playOneStep S C fuel s inp = none → stepEuler toQuat S C fuel Tmax s r = none) ∧
        (∀ e, playOneStep S C fuel s inp = some (.error e) → stepEuler toQuat S C fuel Tmax s r = some (.error e)) ∧
        ∀ s' l, playOneStep S C fuel s inp = some (.ok (s', l)) → l ≠ [] →
          ∃ a, stepEuler toQuat S C fuel Tmax s r = some (.ok (s', .ok, some a)) ∧ Describes (l.map Prod.fst) a := by
  obtain ⟨y, hy, hw⟩ := fromGrpcEuler_withoutDates toQuat r h
  refine ⟨y, hw, ?_, ?_⟩
  · intro e he
    simp only [stepEuler, h, hy, bind, Except.bind, he]
  · intro inp hi
    refine ⟨?_, ?_, ?_⟩
    · intro hp
      simp only [stepEuler, h, hy, bind, Except.bind, hi, hp, Option.bind]
    · intro e hp
      simp only [stepEuler, h, hy, bind, Except.bind, hi, hp, Option.bind, pure]
    · intro s' l hp hl
      obtain ⟨a, ha, hd⟩ := (answer_describes (l.map Prod.fst)).2 (by simpa using hl)
      refine ⟨a, ?_, hd⟩
      simp only [stepEuler, h, hy, bind, Except.bind, hi, hp, Option.bind, pure, Except.pure, ha]

/-- **C205** The columns of an answer make a request that is accepted, with the states and the dates of the answer. -/
theorem answer_as_request (res : List (YamlState K)) (a : CosimResponse K) (h : Describes res a) :
    checkQuat ⟨a.all, a.t⟩ = .ok ∧ SameStates ⟨a.all, a.t⟩ res ∧ SameDates ⟨a.all, a.t⟩ res := by
  have ht : res.map (·.t) = a.t := by
    refine List.ext_getElem? fun i => ?_
    rw [h.t i, List.getElem?_map]
  have hn : ∀ n, field a.all n = res.map (fun y => field y.toStates n) := fun n => by
    refine List.ext_getElem? fun i => ?_
    rw [h.states n i, List.getElem?_map]
  refine ⟨(grpc_validation _).1.2 fun n => ?_, ⟨?_, fun n i => ?_⟩, ht⟩
  · show (field a.all n).length = a.t.length
    rw [hn, ← ht, List.length_map, List.length_map]
  · show res.length = a.t.length
    rw [← ht, List.length_map]
  · exact (h.states n i).symm

/-- **C205** When no force model uses the past, an accepted request with at least one state is answered with the status OK; row `i` of the answer
has the date `i·dt`, whatever the dates of the request, and the state that the method of the solver gives at that date from the
last state of the request. -/
theorem grpc_simulation {S : Setup K Γ E} {f F out : List K → K → List K} {Good D : List K → Prop} (r : GrpcRequest K (GrpcQuat K))
    (hM : Memoryless S r.commands f F Good D) (hout : ∀ x t, Good x → S.normalize (F x t) = .ok (out x t) ∧ (out x t).length = 13)
    (hae : ∀ n a, S.ae n a a = true) (T : Tableau K) (hT : Forward T) (C : StepConf K) (hC : C.stepper = T.stepper) (hdt : 0 < C.dt)
    (hang : ∀ a b c d, ∃ e, C.angles a b c d = .ok e) (s : Sim K Γ) (hc : ∀ n, r.commands n = none → s.commands n = none)
    (h : SameSizes r.states) (last : YamlState K) (hlast : ∀ n, (field r.states.toStates n).getLast? = some (field last.toStates n))
    (hs : Good (stateAt last)) (hDt : 0 < r.dt) (N : Nat) (hN : r.dt ≤ N * C.dt) (hfirst : ∀ i : Nat, i < N → i * C.dt < r.dt)
    (fuel : Nat) (hf : N ≤ fuel) :
    ∃ s' a res, stepQuaternion S C fuel 0 s r = some (.ok (s', .ok, some a)) ∧ Describes res a ∧
      res.map (fun y => (y.t, stateAt y)) = (List.range (N + 1)).map
        (fun i : Nat => ((i : K) * C.dt, out (RK.rkRun f F T (stateAt last) 0 C.dt i) (i * C.dt))) := by
  obtain ⟨y, ⟨h1, h2, h3, h4⟩, -, hstep⟩ := grpc_step S C fuel 0 s r ((grpc_validation _).1.2 h)
  have hne : y.states ≠ [] := by
    intro h0
    have h5 := h3.1
    rw [h0, ← h .x] at h5
    have h6 := hlast .x
    rw [List.length_eq_zero_iff.1 h5.symm] at h6
    cases h6
  obtain ⟨past, z, hz⟩ : ∃ past z, y.states = past ++ [z] := ⟨_, _, (List.dropLast_append_getLast hne).symm⟩
  have hzn : ∀ n, field z.toStates n = field last.toStates n := by
    intro n
    have h5 := hlast n
    rw [List.getLast?_eq_getElem?, h n, ← h3.1, ← h3.2 n, hz] at h5
    simpa using h5
  have hzl : stateAt z = stateAt last := by
    have := fun n => hzn n
    simp only [stateAt, show z.x = last.x from this .x, show z.y = last.y from this .y, show z.z = last.z from this .z,
      show z.u = last.u from this .u, show z.v = last.v from this .v, show z.w = last.w from this .w,
      show z.p = last.p from this .p, show z.q = last.q from this .q, show z.r = last.r from this .r,
      show z.qr = last.qr from this .qr, show z.qi = last.qi from this .qi, show z.qj = last.qj from this .qj,
      show z.qk = last.qk from this .qk]
  have hz0 : z.t = 0 := h4 z (by simp [hz])
  obtain ⟨inp, s', answer, e1, e2, -, e4⟩ := one_request hM hout hae T hT C hC hdt hang s hc past z
    (by
      rw [← hz, List.pairwise_iff_getElem]
      intro i j hi hj _
      rw [h4 _ (List.getElem_mem hi), h4 _ (List.getElem_mem hj)])
    (hzl ▸ hs) r.dt hDt N hN hfirst fuel hf
  have hy : y = { Dt := r.dt, states := past ++ [z], commands := r.commands } := by
    cases y; cases h1; cases h2; cases hz; rfl
  obtain ⟨a, ha, hd⟩ := (hstep inp (hy ▸ e1)).2.2 s' answer e2 (by
    rintro rfl
    have := congrArg List.length e4
    simp at this)
  refine ⟨s', a, _, ha, hd, ?_⟩
  rw [List.map_map]
  refine Eq.trans ?_ (e4.trans ?_)
  · rfl
  · rw [hzl, hz0]
    simp only [zero_add]

end

/-! ### Concrete cases -/

/-- A request with two states: the ball of `turning`, sent with the dates 41 and 42. -/
noncomputable def turningRequest : GrpcRequest ℝ (GrpcQuat ℝ) where
  dt := 2
  commands := fun _ => none
  states :=
    { x := [-1, 0], y := [0, 0], z := [0, 0], u := [1, 1], v := [0, 0], w := [0, 0], p := [0, 0], q := [0, 0], r := [3 / 2, 3 / 2],
      qr := [1, 1], qi := [0, 0], qj := [0, 0], qk := [0, 0], t := [41, 42] }

/-- Two steps of 1 s with `euler`: the column x of the answer is 0, 1, 3.125 and its dates are 0, 1 and 2 (instead of 42, 43 and 44). -/
theorem turning_answer (ae1 : ℝ → Bool) (C : StepConf ℝ) (hC : C.stepper = eulerMethod.stepper) (hdt : C.dt = 1)
    (hang : ∀ a b c d, ∃ e, C.angles a b c d = .ok e) (s : Sim ℝ (Vec3 ℝ × Vec3 ℝ)) (hc : ∀ n, s.commands n = none) :
    ∃ s' a, stepQuaternion (oneBody freeTop (fun _ a b => decide (a = b)) ae1) C 10 0 s turningRequest = some (.ok (s', .ok, some a)) ∧
      a.t = [0, 1, 2] ∧ a.all.x = [0, 1, 25 / 8] ∧ a.last.x = 25 / 8 := by
  have hM := controlled_memoryless freeTop ⟨rfl, show "top" ≠ "NED" by decide, fun _ => rfl⟩ (fun _ a b => decide (a = b)) ae1 []
    rfl (by simp) [] rfl turningRequest.commands (by simp)
  obtain ⟨s', a, res, e1, hd, e2⟩ := grpc_simulation turningRequest hM (out := fun x _ => unitQuaternion ae1 x)
    (fun x t hx => normalize_unitQuaternion ae1 x hx) (fun n a => decide_eq_true rfl) eulerMethod euler_forward C hC (by rw [hdt]; norm_num) hang s (fun n _ => hc n)
    (fun n => by cases n <;> rfl) turning (fun n => by cases n <;> rfl) rfl (by norm_num [turningRequest]) 2 (by rw [hdt]; norm_num [turningRequest])
    (fun i hi => by
      rw [hdt]
      have : (i : ℝ) ≤ 1 := by exact_mod_cast (by omega : i ≤ 1)
      simp only [turningRequest]; linarith) 10 (by norm_num)
  have e3 : res.map (fun y => (y.t, y.x)) = [(0, 0), (1, 1), (2, 25 / 8)] := by
    have : res.map (fun y => (y.t, y.x)) = (res.map (fun y => (y.t, stateAt y))).map (fun p => (p.1, p.2.headD 0)) := by
      rw [List.map_map]; rfl
    rw [this, e2]
    simp only [hdt, List.range_succ, List.range_zero, List.nil_append, List.cons_append, List.map_cons, List.map_nil, RK.rkRun, euler_textbook,
      unitQuaternion_head, stateAt, turning, top_newton, along, List.zipWith_cons_cons, List.zipWith_nil_left, List.headD_cons]
    norm_num
  have et : a.t = res.map (·.t) := List.ext_getElem? fun i => by rw [hd.t i, List.getElem?_map]
  have ex : a.all.x = res.map (·.x) := List.ext_getElem? fun i => by rw [show a.all.x = field a.all .x from rfl, hd.states .x i, List.getElem?_map]; rfl
  have et2 : res.map (·.t) = (res.map (fun y => (y.t, y.x))).map Prod.fst := by rw [List.map_map]; rfl
  have ex2 : res.map (·.x) = (res.map (fun y => (y.t, y.x))).map Prod.snd := by rw [List.map_map]; rfl
  refine ⟨s', a, e1, by rw [et, et2, e3]; rfl, by rw [ex, ex2, e3]; rfl, ?_⟩
  have hl := congrArg (Option.map (·.x)) hd.last
  rw [← List.getLast?_map, ex2, e3] at hl
  simpa using hl.symm

end Xdyn.Server

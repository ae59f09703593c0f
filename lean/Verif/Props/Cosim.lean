import Verif.Props.Server

/-! Property C27: a co-simulation step depends on the request only; concrete instances for the
properties of the servers. -/

namespace Xdyn.Server

open Spec History Xdyn.Sim

section
variable {K : Type} [Field K] [LinearOrder K] [IsStrictOrderedRing K] {Γ E : Type}

/-- Two simulators that differ only by what was computed during the last evaluation. -/
def Same (s1 s2 : Sim K Γ) : Prop := s1.state = s2.state ∧ s1.hist = s2.hist ∧ s1.commands = s2.commands

theorem call_same (S : Setup K Γ E) (s1 s2 : Sim K Γ) (h : Same s1 s2) (x : List K) (t : K) :
    s1.call S x t = s2.call S x t := by
  obtain ⟨h1, h2, h3⟩ := h
  unfold Sim.call
  rw [h2, h3]

theorem observe_same (S : Setup K Γ E) (s1 s2 : Sim K Γ) (h : Same s1 s2) (t : K) :
    (s1.observe S t).map (fun r => (r.t, r.x)) = (s2.observe S t).map (fun r => (r.t, r.x)) := by
  obtain ⟨h1, h2, h3⟩ := h
  unfold Sim.observe
  rw [h1]
  simp only [bind, Except.bind, pure, Except.pure]
  split
  · rfl
  · split <;> rfl

/-- A stepper that evaluates the system at least once (Euler, RK4 and RKCK do). -/
def Evaluates (stepper : List K → K → K → Stepper K) : Prop :=
  ∀ x t dt, ∃ y t' k, stepper x t dt = .call y t' k

theorem run_same (S : Setup K Γ E) (s1 s2 : Sim K Γ) (h : Same s1 s2) (y : List K) (t : K) (k : List K → List K → Stepper K) :
    (Stepper.call y t k).run S s1 = (Stepper.call y t k).run S s2 := by
  unfold Stepper.run
  rw [call_same S s1 s2 h]

theorem loop_acc {S' O : Type} (sys : Solver.System K S' O) (tstart tend dt : K) : ∀ (fuel i : Nat) (s : S') (now : K) (acc : List O),
    Solver.loop sys tstart tend dt fuel i s now acc =
      (Solver.loop sys tstart tend dt fuel i s now []).map (fun r => r.map (fun p => (p.1, acc ++ p.2))) := by
  intro fuel
  induction fuel with
  | zero => intro i s now acc; unfold Solver.loop; split <;> simp [Except.map]
  | succ fuel ih =>
    intro i s now acc
    unfold Solver.loop
    split
    · split
      · rfl
      · split
        · rfl
        · dsimp only
          split
          · rfl
          · rw [ih, ih _ _ _ ([] ++ _)]
            simp only [Option.map_map]
            congr 1
            funext r
            cases r <;> simp [Except.map, Function.comp]
    · simp [Except.map]

/-- What a client sees in an answer: the dates, states and angles of all the states, and the other
observations of all the states but the first one. -/
def visible (r : Option (Except Err (Sim K Γ × List (YamlState K × E)))) :
    Option (Except Err (List (YamlState K) × List E)) :=
  r.map (fun r => r.map (fun p => (p.2.map Prod.fst, p.2.tail.map Prod.snd)))

theorem convert_same (angles : K → K → K → K → Except Err (K × K × K)) (r1 r2 : Res K E)
    (h : (r1.t, r1.x) = (r2.t, r2.x)) :
    (convertWithAngles angles r1).map Prod.fst = (convertWithAngles angles r2).map Prod.fst := by
  obtain ⟨t1, x1, e1⟩ := r1
  obtain ⟨t2, x2, e2⟩ := r2
  simp only [Prod.mk.injEq] at h
  obtain ⟨rfl, rfl⟩ := h
  unfold convertWithAngles convertWithoutAngles
  simp only [bind, Except.bind, pure, Except.pure]
  rcases getUB x1 0 with e | v0
  · rfl
  rcases getUB x1 1 with e | v1
  · rfl
  rcases getUB x1 2 with e | v2
  · rfl
  rcases getUB x1 3 with e | v3
  · rfl
  rcases getUB x1 4 with e | v4
  · rfl
  rcases getUB x1 5 with e | v5
  · rfl
  rcases getUB x1 6 with e | v6
  · rfl
  rcases getUB x1 7 with e | v7
  · rfl
  rcases getUB x1 8 with e | v8
  · rfl
  rcases getUB x1 9 with e | v9
  · rfl
  rcases getUB x1 10 with e | v10
  · rfl
  rcases getUB x1 11 with e | v11
  · rfl
  rcases getUB x1 12 with e | v12
  · rfl
  dsimp only
  rcases angles v9 v10 v11 v12 with e | a <;> rfl

theorem step_same (S : Setup K Γ E) (C : StepConf K) (hC : Evaluates C.stepper) (fuel : Nat) (s1 s2 : Sim K Γ)
    (inp : Inputs K) (Dt : K) (hDt : 0 < Dt) (hne : inp.fullHistory.x.L ≠ [])
    (hcmd : ∀ n, inp.commands n = none → s1.commands n = s2.commands n) :
    visible (step S C fuel s1 inp Dt) = visible (step S C fuel s2 inp Dt) := by
  have hemp : inp.fullHistory.x.L.isEmpty = false := by
    cases h : inp.fullHistory.x.L with
    | nil => exact absurd h hne
    | cons a l => rfl
  have hcmds : (fun n => match inp.commands n with | some v => some v | none => s1.commands n) =
      (fun n => match inp.commands n with | some v => some v | none => s2.commands n) := by
    funext n
    cases hn : inp.commands n with
    | some v => rfl
    | none => exact hcmd n hn
  have hprep : (∃ e, prepare s1 inp = .error e ∧ prepare s2 inp = .error e) ∨
      ∃ p1 p2, prepare s1 inp = .ok p1 ∧ prepare s2 inp = .ok p2 ∧ Same p1 p2 := by
    unfold prepare Sim.setBodyStates
    simp only [hemp, bind, Except.bind, pure, Except.pure]
    rcases inp.fullHistory.getStateType (inp.fullHistory.x.L.length - 1) with e | x
    · left; exact ⟨e, rfl, rfl⟩
    · right
      refine ⟨_, _, rfl, rfl, rfl, rfl, ?_⟩
      simp only [Sim.setCommandListener, Sim.resetHistory]
      exact hcmds
  unfold step
  rcases hprep with ⟨e, h1, h2⟩ | ⟨p1, p2, h1, h2, hs⟩
  · rw [h1, h2]
  · rw [h1, h2]
    dsimp only
    unfold simulate Solver.quicksolve
    have hobs := observe_same S p1 p2 hs inp.t
    simp only [simSystem]
    rcases ho1 : p1.observe S inp.t with e1 | o1 <;> rcases ho2 : p2.observe S inp.t with e2 | o2 <;>
      rw [ho1, ho2] at hobs <;> simp only [Except.map, Except.error.injEq, Except.ok.injEq, reduceCtorEq] at hobs
    · subst hobs; rfl
    · dsimp only
      -- both loops start with a step that makes the simulators equal
      have hlt : inp.t < inp.t + Dt := by linarith
      set sys : Solver.System K (Sim K Γ) (Res K E) :=
        { doStep := fun s t dt => (C.stepper s.state t dt).run S s,
          force := fun s t => do
            let x ← forceAllStates [S.blocked] s.state t
            return { s with state := x },
          observe := fun s t => s.observe S t } with hsys
      have hloop : Solver.loop sys inp.t (inp.t + Dt) C.dt fuel 0 p1 inp.t [] =
          Solver.loop sys inp.t (inp.t + Dt) C.dt fuel 0 p2 inp.t [] := by
        cases fuel with
        | zero => simp [Solver.loop, hlt]
        | succ fuel =>
          obtain ⟨y, t', k, hk⟩ := hC p1.state inp.t C.dt
          have e1 : sys.doStep p1 inp.t C.dt = sys.doStep p2 inp.t C.dt := by
            simp only [hsys]
            rw [← hs.1, hk]
            exact run_same S p1 p2 hs y t' k
          unfold Solver.loop
          rw [if_pos hlt, if_pos hlt, e1]
      rw [loop_acc sys _ _ _ _ _ p1, loop_acc sys _ _ _ _ _ p2, hloop]
      rcases Solver.loop sys inp.t (inp.t + Dt) C.dt fuel 0 p2 inp.t [] with _ | (e | ⟨s, rest⟩)
      · rfl
      · rfl
      · simp only [Option.map_some, Except.map, Option.bind_eq_bind, Option.bind_some, bind, Except.bind, pure, Except.pure]
        rcases s.observe S (inp.t + Dt) with e | o
        · rfl
        · dsimp only
          have hc := convert_same C.angles o1 o2 hobs
          simp only [List.cons_append, List.nil_append, List.mapM_cons, bind, Except.bind, pure, Except.pure]
          rcases hc1 : convertWithAngles C.angles o1 with e1 | c1 <;> rcases hc2 : convertWithAngles C.angles o2 with e2 | c2 <;>
            rw [hc1, hc2] at hc <;> simp only [Except.map, Except.error.injEq, Except.ok.injEq, reduceCtorEq] at hc
          · subst hc; rfl
          · dsimp only
            rcases rest.mapM (convertWithAngles C.angles) with e | l
            · rfl
            · simp [visible, Except.map, hc]

/-- **C27, partial** For every state `s1`, `s2` of the server (whatever was done before) and every
request with at least one state that gives a value to each command whose value differs in `s1` and
`s2`: both answers have the same dates, states and angles and the same other observations from the
second state on.  Missing: requests without states, commands omitted by the request and the other
observations (forces, ...) of the first state, for which the property is false: see
`cosim_command_leaks`, `cosim_first_forces_leak`, `cosim_empty_request_leaks`. -/
theorem cosim_depends_on_request_partial (S : Setup K Γ E) (C : StepConf K) (hC : Evaluates C.stepper) (fuel : Nat)
    (s1 s2 : Sim K Γ) (inp : Inputs K) (hne : inp.fullHistory.x.L ≠ [])
    (hcmd : ∀ n, inp.commands n = none → s1.commands n = s2.commands n) :
    visible (playOneStep S C fuel s1 inp) = visible (playOneStep S C fuel s2 inp) := by
  unfold playOneStep
  split
  · rfl
  · rename_i h
    exact step_same S C hC fuel s1 s2 inp _ (not_le.1 h) hne hcmd

/-! #### Sequences of requests -/

theorem run_commands (S : Setup K Γ E) : ∀ (p : Stepper K) (s s' : Sim K Γ), p.run S s = .ok s' → s'.commands = s.commands := by
  intro p
  induction p with
  | done x => intro s s' h; simp only [Stepper.run, Except.ok.injEq] at h; rw [← h]
  | call x t k ih =>
    intro s s' h
    simp only [Stepper.run, bind, Except.bind] at h
    cases hc : s.call S x t with
    | error e => simp [hc] at h
    | ok r =>
      obtain ⟨dx, s1⟩ := r
      simp only [hc] at h
      rw [ih dx s1.state s1 s' h]
      unfold Sim.call at hc
      simp only [bind, Except.bind, pure, Except.pure] at hc
      split at hc
      · cases hc
      · split at hc
        · cases hc
        · split at hc
          · cases hc
          · cases hc; rfl

theorem loop_commands (S : Setup K Γ E) (stepper : List K → K → K → Stepper K) (tstart tend dt : K) :
    ∀ (fuel i : Nat) (s : Sim K Γ) (now : K) (acc : List (Res K E)) (r : Sim K Γ × List (Res K E)),
    Solver.loop (simSystem S stepper) tstart tend dt fuel i s now acc = some (.ok r) → r.1.commands = s.commands := by
  intro fuel
  induction fuel with
  | zero =>
    intro i s now acc r h
    unfold Solver.loop at h
    split at h
    · cases h
    · cases h; rfl
  | succ fuel ih =>
    intro i s now acc r h
    unfold Solver.loop at h
    split at h
    · split at h
      · cases h
      · rename_i s1 h1
        split at h
        · cases h
        · rename_i s2 h2
          dsimp only at h
          split at h
          · cases h
          · rw [ih _ _ _ _ _ h]
            simp only [simSystem, bind, Except.bind, pure, Except.pure] at h1 h2
            split at h2
            · cases h2
            · simp only [Except.ok.injEq] at h2
              rw [← h2]
              exact run_commands S _ _ s1 h1
    · cases h; rfl

/-- The server after the requests `reqs`, all of which were answered. -/
inductive Served (S : Setup K Γ E) (C : StepConf K) (s0 : Sim K Γ) : List (Inputs K) → Sim K Γ → Prop
  | start : Served S C s0 [] s0
  | request {reqs s} (fuel : Nat) (inp : Inputs K) (s' : Sim K Γ) (ans : List (YamlState K × E)) :
      Served S C s0 reqs s → playOneStep S C fuel s inp = some (.ok (s', ans)) → Served S C s0 (reqs ++ [inp]) s'

theorem playOneStep_commands (S : Setup K Γ E) (C : StepConf K) (fuel : Nat) (s s' : Sim K Γ) (inp : Inputs K)
    (ans : List (YamlState K × E)) (h : playOneStep S C fuel s inp = some (.ok (s', ans))) (n : String) :
    s'.commands n = (match inp.commands n with | some v => some v | none => s.commands n) := by
  unfold playOneStep at h
  split at h
  · cases h
  · unfold step at h
    split at h
    · cases h
    · rename_i p hp
      have hpc : p.commands n = (match inp.commands n with | some v => some v | none => s.commands n) := by
        unfold prepare at hp
        simp only [bind, Except.bind, pure, Except.pure] at hp
        split at hp
        · cases hp
        · rename_i s1 h1
          cases hp
          unfold Sim.setBodyStates at h1
          split at h1
          · cases h1; rfl
          · simp only [bind, Except.bind, pure, Except.pure] at h1
            split at h1
            · cases h1
            · cases h1; rfl
      rw [← hpc]
      unfold simulate Solver.quicksolve at h
      dsimp only at h
      split at h
      · simp only [Option.bind_eq_bind, Option.bind_some, bind, Except.bind, pure] at h
        cases h
      · rename_i o _
        rcases hl : Solver.loop (simSystem S C.stepper) inp.t (inp.t + inp.Dt) C.dt fuel 0 p inp.t [o] with _ | (e | r)
        · rw [hl] at h; cases h
        · rw [hl] at h; simp [bind, Except.bind, pure, Except.pure] at h
        · rw [hl] at h
          have := loop_commands S C.stepper _ _ _ _ _ _ _ _ _ hl
          simp only [Option.bind_eq_bind, Option.bind_some, bind, Except.bind, pure, Except.pure] at h
          split at h
          · cases h
          · split at h
            · cases h
            · rename_i v heq _ _ _
              have hr : v.1 = r.1 := by
                split at heq
                · cases heq
                · cases heq; rfl
              cases h
              rw [hr, this]

/-- **C27, partial** For every sequence of previous requests (all answered) and every request with at
least one state: if the request gives a value to all the commands given by the previous ones, the
answer is the one a server that has processed no request would give (see
`cosim_depends_on_request_partial` for what is missing). -/
theorem cosim_history_of_requests_partial (S : Setup K Γ E) (C : StepConf K) (hC : Evaluates C.stepper) (fuel : Nat)
    (s0 s : Sim K Γ) (reqs : List (Inputs K)) (hreqs : Served S C s0 reqs s) (inp : Inputs K)
    (hne : inp.fullHistory.x.L ≠ []) (hcmd : ∀ n, inp.commands n = none → ∀ r ∈ reqs, r.commands n = none) :
    visible (playOneStep S C fuel s inp) = visible (playOneStep S C fuel s0 inp) := by
  apply cosim_depends_on_request_partial S C hC fuel s s0 inp hne
  intro n hn
  have hn' := hcmd n hn
  clear hne hcmd
  induction hreqs with
  | start => rfl
  | request fuel' inp' s' ans _ hplay ih =>
    rw [playOneStep_commands S C fuel' _ _ inp' ans hplay n, hn' inp' (by simp)]
    exact ih (fun r hr => hn' r (by simp [hr]))

end

/-! ### Concrete instances -/

/-- Exact comparison. -/
def aeExact : Nat → ℚ → ℚ → Bool := fun _ a b => decide (a = b)

/-- Nothing is blocked. -/
def freeBody : Blocked.BlockedDof ℚ := { dof := fun _ => none, bodyIdx := 0, tmin := fun _ => none, tmax := fun _ => none }

/-- A body of unit mass pushed along `x` by a force equal to the command `rpm` (0 by default): the
derivative of `x` is `u` and the one of `u` is the command; the force is observed. -/
def pushed : Setup ℚ ℚ ℚ where
  physics := { eval := fun c _ x _ => .ok ([x.getD 3 0, 0, 0, (c "rpm").getD 0, 0, 0, 0, 0, 0, 0, 0, 0, 0], (c "rpm").getD 0)
               extra := fun force _ _ _ => force }
  blocked := freeBody
  ae := aeExact
  normalize := .ok

/-- Explicit Euler. -/
def eulerStepper : List ℚ → ℚ → ℚ → Stepper ℚ := fun x t dt =>
  .call x t (fun dx _ => .done (List.zipWith (fun a b => a + dt * b) x dx))

theorem euler_evaluates : Evaluates eulerStepper := fun x t dt => ⟨x, t, _, rfl⟩

/-- Euler with a time step of 1. -/
def conf : StepConf ℚ := { stepper := eulerStepper, dt := 1, angles := fun _ _ _ _ => .ok (0, 0, 0) }

/-- A server that has processed no request. -/
def fresh : Sim ℚ ℚ := { state := List.replicate 13 0, hist := States.newHistories 10, commands := fun _ => none,
                         dxdt := List.replicate 13 0, cache := 0 }

/-- The body at rest at the origin at date `t`. -/
def atRest (t : ℚ) : YamlState ℚ :=
  { x := 0, y := 0, z := 0, u := 0, v := 0, w := 0, p := 0, q := 0, r := 0, qr := 1, qi := 0, qj := 0, qk := 0,
    t := t, phi := 0, theta := 0, psi := 0 }

/-- A request with two states and possibly a command. -/
def request (rpm : Option ℚ) (states : List (YamlState ℚ)) : YamlInputs ℚ :=
  { Dt := 2, states := states, commands := fun n => if n = "rpm" then rpm else none }

/-- Answer to the last of the requests, as (t, x, force) triples. -/
def answers (s : Sim ℚ ℚ) : List (YamlInputs ℚ) → Option (Except Err (List (ℚ × ℚ × ℚ)))
  | [] => none
  | [r] =>
    match Inputs.ofYaml aeExact r 10 with
    | .error e => some (.error e)
    | .ok inp => (playOneStep pushed conf 5 s inp).map (fun r => r.map (fun p => p.2.map (fun a => (a.1.t, a.1.x, a.2))))
  | r :: rs =>
    match Inputs.ofYaml aeExact r 10 with
    | .error e => some (.error e)
    | .ok inp => match playOneStep pushed conf 5 s inp with
      | some (.ok (s', _)) => answers s' rs
      | _ => none

/-- **C27, refuted (1)** A command given by a previous request remains active when the request does
not mention it: the same request gives another trajectory. -/
theorem cosim_command_leaks :
    answers fresh [request none [atRest 0, atRest 1]] = some (.ok [(1, 0, 0), (2, 0, 0), (3, 0, 0)]) ∧
    answers fresh [request (some 4) [atRest 0, atRest 1], request none [atRest 0, atRest 1]] =
      some (.ok [(1, 0, 4), (2, 0, 4), (3, 4, 4)]) := by
  constructor <;> decide +kernel

/-- **C27, refuted (2)** The forces observed in the first state of the answer are the ones of the
previous request, even if the request gives all the commands. -/
theorem cosim_first_forces_leak :
    answers fresh [request (some 1) [atRest 0, atRest 1]] = some (.ok [(1, 0, 0), (2, 0, 1), (3, 1, 1)]) ∧
    answers fresh [request (some 4) [atRest 0, atRest 1], request (some 1) [atRest 0, atRest 1]] =
      some (.ok [(1, 0, 4), (2, 0, 1), (3, 1, 1)]) := by
  constructor <;> decide +kernel

/-- **C27, refuted (3)** A request without states starts from the states left by the previous
request. -/
theorem cosim_empty_request_leaks :
    answers fresh [request (some 0) []] = some (.ok [(0, 0, 0), (1, 0, 0), (2, 0, 0)]) ∧
    answers fresh [request (some 4) [atRest 0], request (some 0) []] =
      some (.ok [(0, 4, 4), (1, 12, 0), (2, 20, 0)]) := by
  constructor <;> decide +kernel

/-- The hypotheses of `json_inputs` are met by a request with three states... -/
example : (request none [atRest 0, atRest 1, atRest 3]).states.Pairwise
    (fun a b => a.t < b.t ∧ aeExact 4 b.t a.t = false) := by
  decide +kernel

/-- ... and the ones of `cosim_history_of_requests_partial` by the requests of
`cosim_first_forces_leak`. -/
example : ∃ s inp, Served pushed conf fresh [inp] s ∧ inp.fullHistory.x.L ≠ [] ∧
    ∀ n, inp.commands n = none → ∀ r ∈ [inp], r.commands n = none := by
  obtain ⟨inp, hinp⟩ : ∃ inp, Inputs.ofYaml aeExact (request (some 4) [atRest 0, atRest 1]) 10 = .ok inp := by
    obtain ⟨r, hr, -⟩ := json_inputs aeExact (by simp [aeExact]) (request (some 4) [atRest 0, atRest 1]) 10 (by norm_num)
      [atRest 0] (atRest 1) rfl (by decide +kernel)
    exact ⟨r, hr⟩
  obtain ⟨r, hr⟩ : ∃ r, playOneStep pushed conf 5 fresh inp = some (.ok r) := by
    have h : (match Inputs.ofYaml aeExact (request (some 4) [atRest 0, atRest 1]) 10 with
      | .ok inp => (match playOneStep pushed conf 5 fresh inp with | some (.ok _) => true | _ => false)
      | .error _ => false) = true := by decide +kernel
    rw [hinp] at h
    dsimp only at h
    split at h
    · exact ⟨_, by assumption⟩
    · cases h
  have hne : inp.fullHistory.x.L ≠ [] := by
    have h : (match Inputs.ofYaml aeExact (request (some 4) [atRest 0, atRest 1]) 10 with
      | .ok inp => decide (inp.fullHistory.x.L ≠ [])
      | .error _ => false) = true := by decide +kernel
    rw [hinp] at h
    simpa using h
  refine ⟨r.1, inp, ?_, hne, ?_⟩
  · exact Served.request (reqs := []) 5 inp r.1 r.2 .start hr
  · intro n hn r hr
    simp at hr; subst hr; exact hn

/-- A gRPC request with two states at dates 5 and 6. -/
def grpcExample : GrpcRequest ℚ (GrpcQuat ℚ) :=
  { dt := 1, commands := fun _ => none,
    states := { t := [5, 6], x := [0, 1], y := [0, 0], z := [0, 0], u := [1, 1], v := [0, 0], w := [0, 0], p := [0, 0], q := [0, 0],
                r := [0, 0], qr := [1, 1], qi := [0, 0], qj := [0, 0], qk := [0, 0] } }

/-- Whether an outcome is undefined behaviour. -/
def isUB {α : Type} : Except Err α → Bool
  | .error .ub => true
  | _ => false

/-- It is accepted, it satisfies the hypotheses of `grpc_history_collapses`, and it makes
`dx_dt_quaternion` read out of bounds. -/
example : checkQuat grpcExample.states = .ok ∧ grpcExample.states.t ≠ [] ∧
    isUB (dxDtQuaternion (fun _ _ _ _ _ _ _ => (0, 0, 0)) pushed 10 fresh grpcExample) = true := by
  decide +kernel

/-- **C18, refuted** with a concrete request. -/
theorem grpc_dates_refuted : ∃ y, fromGrpcQuat grpcExample = .ok y ∧ ¬ SameDates grpcExample.states y.states := by
  obtain ⟨y, hy, -, h⟩ := grpc_dates_lost grpcExample (by decide +kernel)
  refine ⟨y, hy, fun hc => ?_⟩
  have := h.1 hc 5 (by simp [grpcExample])
  norm_num at this

/-- A request with Euler angles that satisfies the hypotheses of `dx_dt_euler_answers`. -/
example : (dxDtEuler (fun _ _ _ => (1, 0, 0, 0)) (fun _ _ _ _ p q r => (p, q, r)) pushed 10 fresh
    { dt := 0, commands := fun n => if n = "rpm" then some 7 else none,
      states := { t := [5, 6], x := [0, 1], y := [0, 0], z := [0, 0], u := [1, 2], v := [0, 0], w := [0, 0], p := [0, 3], q := [0, 0],
                  r := [0, 0], phi := [0, 0], theta := [0, 0], psi := [0, 0] } }).map
      (fun p => (p.2.1, p.2.2.map (fun r => (r.x, r.u, r.phi)))) = .ok (.ok, some (2, 7, 3)) := by
  decide +kernel

end Xdyn.Server

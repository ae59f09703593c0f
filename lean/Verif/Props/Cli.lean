import Verif.Model.Cli
import Mathlib.Tactic.Linarith
import Mathlib.Data.Rat.Defs
import Mathlib.Algebra.Order.Ring.Rat

/-! Properties C141 (exit status), C142 (checks of the command line), C143 (solver), C144 (outputs of the
YAML file), C145 (wave outputs), C146 (environment constants). -/

namespace Xdyn.Cli

open Xdyn.Config

variable {K : Type} [Field K] [LinearOrder K]

/-! ### C141: exit status -/

/-- The arguments a user must give to xdyn. -/
def Valid (a : Args K) : Prop := a.yaml ≠ [] ∧ a.solver ≠ [] ∧ 0 < a.dt

theorem isEmpty_iff {α : Type} (l : List α) : l.isEmpty = true ↔ l = [] := List.isEmpty_iff

theorem empty_of_valid {a : Args K} (h : a.yaml ≠ []) : a.empty = false := by
  have : a.yaml.isEmpty = false := by
    cases hy : a.yaml with
    | nil => exact absurd hy h
    | cons => rfl
  simp [Args.empty, this]

theorem invalid_iff (a : Args K) : invalid a = false ↔ Valid a := by
  unfold invalid Valid
  by_cases h1 : a.yaml = []
  · simp only [h1, List.isEmpty_nil, if_true, ne_eq, not_true_eq_false, false_and, iff_false]
    split_ifs <;> simp
  · have e1 : a.yaml.isEmpty = false := by cases hy : a.yaml <;> simp_all
    by_cases h2 : a.solver = []
    · simp [empty_of_valid h1, e1, h2]
    · have e2 : a.solver.isEmpty = false := by cases hy : a.solver <;> simp_all
      simp [empty_of_valid h1, e1, e2, h1, h2]

/-- **C142** Without `--help`, a simulation is started exactly when there is a YAML file, a solver and a
positive time step, and with these arguments; otherwise xdyn stops with status 1 and a message. -/
theorem xdyn_checks_partial (sim : Args K → Except Err Unit) (a : Args K) (debug : Bool) :
    (Valid a → (xdynMain sim (.options a false debug)).started = some { a with catchExceptions := !debug }) ∧
    (¬ Valid a → xdynMain sim (.options a false debug) = { exit := .code 1, started := none, message := true }) := by
  constructor
  · intro h
    have hi := (invalid_iff a).mpr h
    simp only [xdynMain, hi]
    have he : ({ a with catchExceptions := !debug } : Args K).empty = false := empty_of_valid h.1
    simp only [run, he, Bool.false_eq_true, if_false, guarded]
    split
    · rfl
    · rfl
    · split_ifs <;> rfl
  · intro h
    have hi : invalid a = true := by
      by_contra hc
      exact h ((invalid_iff a).mp (by simpa using hc))
    simp [xdynMain, hi]

/-- **C142** With `--help`, the checks are not made and the simulation is started after the help is
displayed, for instance with a null or negative time step. -/
theorem xdyn_help_starts_simulation (sim : Args K → Except Err Unit) (a : Args K) (debug : Bool) (h : a.yaml ≠ []) :
    (xdynMain sim (.options a true debug)).started = some { a with catchExceptions := !debug } := by
  have he : ({ a with catchExceptions := !debug } : Args K).empty = false := empty_of_valid h
  simp only [xdynMain, run, he, guarded]
  simp only [if_true, Bool.false_eq_true, if_false]
  split
  · rfl
  · rfl
  · split_ifs <;> rfl

example : ∃ a : Args ℚ, a.yaml ≠ [] ∧ ¬ Valid a :=
  ⟨⟨["f.yml".toList], "rk4".toList, [], [], 0, 0, 10, true⟩, by decide, fun h => absurd h.2.2 (lt_irrefl _)⟩

/-- **C141** What the exit status of xdyn tells: the command line was refused (status not 0, nothing was
started, a message is displayed), or a simulation was completed, or not started (status 0). -/
theorem xdyn_exit_partial (sim : Args K → Except Err Unit) (c : CommandLine (Args K)) :
    (∀ n, (xdynMain sim c).exit = .code n → n ≠ 0 → (xdynMain sim c).started = none ∧ (xdynMain sim c).message = true) ∧
    (∀ a, (xdynMain sim c).started = some a → sim a = .ok () → (xdynMain sim c).exit = .code 0) ∧
    (∀ a e, (xdynMain sim c).started = some a → a.catchExceptions = false → sim a = .error (.throw e) →
      (xdynMain sim c).exit = .terminate) := by
  have hg : ∀ a : Args K, ∀ b, (guarded b a (sim a)).started = some a := by
    intro a b
    unfold guarded
    split
    · rfl
    · rfl
    · split_ifs <;> rfl
  have hrun : ∀ a : Args K, (∀ n, (run sim a).exit = .code n → n = 0) ∧
      (∀ a', (run sim a).started = some a' → a' = a ∧ run sim a = guarded a.catchExceptions a (sim a)) := by
    intro a
    unfold run
    by_cases he : a.empty = true
    · simp [he]
    · simp only [he, Bool.false_eq_true, if_false]
      constructor
      · intro n h
        unfold guarded at h
        split at h
        · simp only [Exit.code.injEq] at h; exact h.symm
        · simp at h
        · split_ifs at h
          · simp only [Exit.code.injEq] at h; exact h.symm
      · intro a' h
        rw [hg] at h
        exact ⟨(Option.some.inj h).symm, trivial⟩
  have hmain : ∀ a : Args K, (∀ n, (run sim a).exit = .code n → n ≠ 0 → (run sim a).started = none ∧ (run sim a).message = true) ∧
      (∀ a', (run sim a).started = some a' → sim a' = .ok () → (run sim a).exit = .code 0) ∧
      (∀ a' e, (run sim a).started = some a' → a'.catchExceptions = false → sim a' = .error (.throw e) →
        (run sim a).exit = .terminate) := by
    intro a
    refine ⟨fun n h hn => absurd ((hrun a).1 n h) hn, ?_, ?_⟩
    · intro a' h hs
      obtain ⟨rfl, e⟩ := (hrun a).2 a' h
      rw [e, hs]; rfl
    · intro a' x h hc hs
      obtain ⟨rfl, e⟩ := (hrun a).2 a' h
      rw [e, hs, hc]; rfl
  cases c with
  | nothing => simp [xdynMain]
  | refused => simp [xdynMain]
  | options a help debug =>
    cases help with
    | true => exact hmain _
    | false =>
      by_cases hi : invalid a = true
      · simp [xdynMain, hi]
      · have e : xdynMain sim (.options a false debug) = run sim { a with catchExceptions := !debug } := by
          simp [xdynMain, hi]
        rw [e]
        exact hmain _

/-- **C141** Refuted: every failure of the simulation that raises an exception ends with status 0, as a success. -/
theorem failed_simulation_exits_with_success (sim : Args K → Except Err Unit) (a : Args K) (h : Valid a) (e : String)
    (he : sim { a with catchExceptions := true } = .error (.throw e)) :
    (xdynMain sim (.options a false false)).exit = .code 0 := by
  have hi := (invalid_iff a).mpr h
  have hem : ({ a with catchExceptions := true } : Args K).empty = false := empty_of_valid h.1
  simp [xdynMain, hi, run, hem, he, guarded]

/-- **C141** Refuted: a failure of the websocket connection is not even displayed. -/
theorem websocket_failure_is_silent (sim : Args K → Except Err Unit) (a : Args K) (h : Valid a)
    (he : sim { a with catchExceptions := true } = .error (.throw "WebSocketException")) :
    (xdynMain sim (.options a false false)).message = false := by
  have hi := (invalid_iff a).mpr h
  have hem : ({ a with catchExceptions := true } : Args K).empty = false := empty_of_valid h.1
  simp [xdynMain, hi, run, hem, he, guarded, reported]

example : ∃ a : Args ℚ, Valid a := ⟨⟨["f.yml".toList], "rk4".toList, [], [], 1, 0, 10, true⟩, by decide, by decide, by decide⟩

/-! ### C142: servers -/

/-- The port is available to the servers. -/
def GoodPort (p : Nat) : Prop := 1024 ≤ p

theorem guarded_started {A : Type} (b : Bool) (a : A) (r : Except Err Unit) : (guarded b a r).started = some a := by
  unfold guarded
  split
  · rfl
  · rfl
  · split_ifs <;> rfl

theorem invalidCS_iff (a : CSArgs K) :
    invalidCS a = false ↔ a.yaml ≠ [] ∧ a.solver ≠ [] ∧ 0 < a.dt ∧ GoodPort a.port := by
  unfold invalidCS GoodPort CSArgs.empty
  by_cases h1 : a.yaml = []
  · simp only [h1, List.isEmpty_nil, if_true, ne_eq, not_true_eq_false, false_and, iff_false]
    split_ifs <;> simp
  · have e1 : a.yaml.isEmpty = false := by cases hy : a.yaml <;> simp_all
    by_cases h2 : a.solver = []
    · simp [e1, h2]
    · have e2 : a.solver.isEmpty = false := by cases hy : a.solver <;> simp_all
      simp only [e1, e2, Bool.false_and, Bool.false_eq_true, if_false, ne_eq, h1, h2, not_false_eq_true, true_and]
      by_cases h3 : a.dt ≤ 0
      · simp [h3]
      · rw [if_neg h3]
        by_cases h4 : a.port = 0
        · simp [h4]
        · rw [if_neg h4]
          by_cases h5 : a.port < 1024
          · simp [h5]
          · rw [if_neg h5]
            exact ⟨fun _ => ⟨not_le.mp h3, not_lt.mp h5⟩, fun _ => rfl⟩

theorem invalidME_iff (a : MEArgs) : invalidME a = false ↔ a.yaml ≠ [] ∧ GoodPort a.port := by
  unfold invalidME GoodPort MEArgs.empty
  by_cases h1 : a.yaml = []
  · simp only [h1, List.isEmpty_nil, if_true, ne_eq, not_true_eq_false, false_and, iff_false]
    split_ifs <;> simp
  · have e1 : a.yaml.isEmpty = false := by cases hy : a.yaml <;> simp_all
    simp only [e1, Bool.false_and, Bool.false_eq_true, if_false, ne_eq, h1, not_false_eq_true, true_and]
    by_cases h4 : a.port = 0
    · simp [h4]
    · rw [if_neg h4]
      by_cases h5 : a.port < 1024
      · simp [h5]
      · rw [if_neg h5]
        exact ⟨fun _ => not_lt.mp h5, fun _ => rfl⟩

/-- **C142** The co-simulation server is started only by a command line without `--help`, with a YAML file,
a solver, a positive time step and a port from 1024 on; and every such command line starts it. -/
theorem cs_checks (server : CSArgs K → Except Err Unit) (c : CommandLine (CSArgs K)) (a : CSArgs K) :
    (csMain server c).started = some a ↔
      ∃ debug, c = .options a false debug ∧ a.yaml ≠ [] ∧ a.solver ≠ [] ∧ 0 < a.dt ∧ GoodPort a.port := by
  cases c with
  | nothing => simp [csMain]
  | refused => simp [csMain, CSArgs.empty, CSArgs.default]
  | options b help debug =>
    cases help with
    | true => simp [csMain]
    | false =>
      rw [← invalidCS_iff]
      by_cases hi : invalidCS b = true
      · simp only [csMain, Bool.false_eq_true, if_false, hi, if_true]
        constructor
        · intro h; simp at h
        · rintro ⟨d, h, hv⟩
          injection h with h1 h2 h3
          subst h1
          rw [hi] at hv
          simp at hv
      · simp only [csMain, Bool.false_eq_true, if_false, hi, guarded_started]
        constructor
        · intro h
          simp only [Option.some.injEq] at h
          subst h
          exact ⟨debug, rfl, by simpa using hi⟩
        · rintro ⟨d, h, hv⟩
          injection h with h1 h2 h3
          rw [h1]

/-- **C142** The model exchange server, when boost accepts the command line. -/
theorem me_checks_partial (server : MEArgs → Except Err Unit) (b : MEArgs) (help debug : Bool) (a : MEArgs) :
    (meMain server (.options b help debug)).started = some a ↔ a = b ∧ help = false ∧ a.yaml ≠ [] ∧ GoodPort a.port := by
  cases help with
  | true => simp [meMain]
  | false =>
    rw [← invalidME_iff]
    by_cases hi : invalidME b = true
    · simp only [meMain, Bool.false_eq_true, if_false, hi, if_true]
      constructor
      · intro h; simp at h
      · rintro ⟨rfl, -, hv⟩
        rw [hi] at hv
        simp at hv
    · simp only [meMain, Bool.false_eq_true, if_false, hi, guarded_started]
      constructor
      · intro h
        simp only [Option.some.injEq] at h
        subst h
        exact ⟨rfl, trivial, by simpa using hi⟩
      · rintro ⟨rfl, -⟩
        rfl

/-- **C142** Refuted for the model exchange server: when boost refuses the command line, the server is
started all the same, without YAML file and on port 0. -/
theorem me_refused_starts_server (server : MEArgs → Except Err Unit) :
    (meMain server .refused).started = some { yaml := [], port := 0 } := by
  simp only [meMain, guarded_started]
  rfl

/-- **C141** The co-simulation server ends with status 0 when boost refuses its command line. -/
theorem cs_refused_exits_with_success (server : CSArgs K → Except Err Unit) :
    (csMain server (.refused : CommandLine (CSArgs K))).exit = .code 0 := by
  simp [csMain, CSArgs.empty, CSArgs.default]

/-- **C141, C142** A program called without argument, a server called with `--help`: status 0, nothing is started, no error is displayed. -/
theorem nothing_asked (sim : Args K → Except Err Unit) (server : CSArgs K → Except Err Unit) (server' : MEArgs → Except Err Unit) (a : CSArgs K) (a' : MEArgs) (debug : Bool) :
    xdynMain sim .nothing = { exit := .code 0, started := none, message := false } ∧
    csMain server .nothing = { exit := .code 0, started := none, message := false } ∧
    meMain server' .nothing = { exit := .code 0, started := none, message := false } ∧
    csMain server (.options a true debug) = { exit := .code 0, started := none, message := false } ∧
    meMain server' (.options a' true debug) = { exit := .code 0, started := none, message := false } :=
  ⟨rfl, rfl, rfl, rfl, rfl⟩

/-- **C142** `xdyn --help` starts nothing exactly when no YAML file, no output, no dates and no time step are given with it; it ends then with status 0, without an error. -/
theorem help_alone (sim : Args K → Except Err Unit) (a : Args K) (debug : Bool) :
    ((xdynMain sim (.options a true debug)).started = none ↔ a.yaml = [] ∧ a.output = [] ∧ a.waves = [] ∧ a.dt = 0 ∧ a.tstart = 0 ∧ a.tend = 0) ∧
    ((xdynMain sim (.options a true debug)).started = none → xdynMain sim (.options a true debug) = { exit := .code 0, started := none, message := false }) := by
  simp only [xdynMain, if_true, run]
  have he : ({ a with catchExceptions := !debug } : Args K).empty = true ↔ a.yaml = [] ∧ a.output = [] ∧ a.waves = [] ∧ a.dt = 0 ∧ a.tstart = 0 ∧ a.tend = 0 := by
    simp only [Args.empty, Bool.and_eq_true, decide_eq_true_eq, List.isEmpty_iff]
    constructor
    · rintro ⟨⟨⟨⟨⟨h1, h2⟩, h3⟩, h4⟩, h5⟩, h6⟩; exact ⟨h3, h2, h1, h4, h5, h6⟩
    · rintro ⟨h3, h2, h1, h4, h5, h6⟩; exact ⟨⟨⟨⟨⟨h1, h2⟩, h3⟩, h4⟩, h5⟩, h6⟩
  rw [← he]
  by_cases h : ({ a with catchExceptions := !debug } : Args K).empty = true
  · simp [h]
  · simp [h, guarded_started]

/-! ### C143: solver -/

/-- The names of the solvers. -/
def solverNames : List (String × Solver) := [("euler", .euler), ("rk4", .rk4), ("rkck", .rkck)]

/-- **C143** xdyn and the co-simulation server use the solver that is named. -/
theorem named_solver (n : String) (s : Solver) (h : (n, s) ∈ solverNames) :
    xdynSolver n.toList = s ∧ serverSolver n.toList = .ok s := by
  simp only [solverNames, List.mem_cons, Prod.mk.injEq, List.not_mem_nil, or_false] at h
  rcases h with ⟨rfl, rfl⟩ | ⟨rfl, rfl⟩ | ⟨rfl, rfl⟩ <;> exact ⟨by decide, by decide⟩

/-- **C143** The server refuses any other name. -/
theorem server_unknown_solver (n : String) (h : n ∉ solverNames.map Prod.fst) :
    serverSolver n.toList = .error (.throw "InvalidInputException") := by
  simp only [solverNames, List.map_cons, List.map_nil, List.mem_cons, List.not_mem_nil, or_false, not_or] at h
  unfold serverSolver
  rw [if_neg (fun e => h.1 (String.toList_inj.mp e)), if_neg (fun e => h.2.1 (String.toList_inj.mp e)),
    if_neg (fun e => h.2.2 (String.toList_inj.mp e))]

/-- **C143** Refuted for xdyn: any other name is taken as Euler's method, without a message. -/
theorem xdyn_unknown_solver_is_euler (n : String) (h : n ∉ solverNames.map Prod.fst) : xdynSolver n.toList = .euler := by
  simp only [solverNames, List.map_cons, List.map_nil, List.mem_cons, List.not_mem_nil, or_false, not_or] at h
  unfold xdynSolver
  rw [if_neg (fun e => h.1 (String.toList_inj.mp e)), if_neg (fun e => h.2.1 (String.toList_inj.mp e)),
    if_neg (fun e => h.2.2 (String.toList_inj.mp e))]

example : "RK4" ∉ solverNames.map Prod.fst := by decide

/-! ### C144: outputs of the YAML file -/

/-- The known formats and the observer each one asks for. -/
def formatNames : List (String × Kind) :=
  [("csv", .csv), ("h5", .hdf5), ("hdf5", .hdf5), ("tsv", .tsv), ("map", .map), ("json", .json), ("ws", .ws)]

/-- An element of the list `output` that is well written, and the observer it asks for: the format is known,
optional fields are missing or of the right type. -/
structure Asks (n : OutNode) (o : Obs) : Prop where
  format : ∃ f, n.format = .value f ∧ (f, o.kind) ∈ formatNames
  data : n.data = .value o.data
  filename : ∃ f, (n.filename = .missing ∧ f = [] ∨ n.filename = .value f) ∧
    o.filename = if o.kind = .map ∨ o.kind = .ws then [] else f
  address : ∃ a, (n.address = .missing ∧ a = [] ∨ n.address = .value a) ∧ o.address = if o.kind = .ws then a else []
  port : ∃ p, (n.port = .missing ∧ p = 0 ∨ n.port = .value p) ∧ o.port = if o.kind = .ws then p else 0

theorem asks_read {n : OutNode} {o : Obs} (h : Asks n o) :
    (readOutput n).2 = true ∧ observersOf (readOutput n).1 = [o] := by
  obtain ⟨f, hf, hk⟩ := h.format
  obtain ⟨fn, hfn, hof⟩ := h.filename
  obtain ⟨ad, had, hoa⟩ := h.address
  obtain ⟨po, hpo, hop⟩ := h.port
  have e1 : optField n.filename [] = (fn, true) := by
    rcases hfn with ⟨h1, h2⟩ | h1 <;> rw [h1]
    · rw [h2]; rfl
    · rfl
  have e2 : optField n.address [] = (ad, true) := by
    rcases had with ⟨h1, h2⟩ | h1 <;> rw [h1]
    · rw [h2]; rfl
    · rfl
  have e3 : optField n.port 0 = (po, true) := by
    rcases hpo with ⟨h1, h2⟩ | h1 <;> rw [h1]
    · rw [h2]; rfl
    · rfl
  have e : readOutput n = ({ format := f, filename := fn, address := ad, port := po, data := o.data }, true) := by
    unfold readOutput
    simp only [e1, e2, e3, hf, h.data, mandatory]
    simp
  rw [e]
  refine ⟨rfl, ?_⟩
  obtain ⟨k, ofn, oad, opo, od⟩ := o
  simp only at hof hoa hop hk ⊢
  simp only [formatNames, List.mem_cons, Prod.mk.injEq, List.not_mem_nil, or_false] at hk
  rcases hk with ⟨rfl, rfl⟩ | ⟨rfl, rfl⟩ | ⟨rfl, rfl⟩ | ⟨rfl, rfl⟩ | ⟨rfl, rfl⟩ | ⟨rfl, rfl⟩ | ⟨rfl, rfl⟩ <;> simp at hof hoa hop <;> simp [observersOf, hof, hoa, hop]

/-- **C144** When all the elements are well written, there is one observer per element, in the same order,
with the destination and the data of the element. -/
theorem yaml_outputs_partial (nodes : List OutNode) (obs : List Obs) (h : List.Forall₂ Asks nodes obs) :
    listOfObservers (parseOutput (some nodes)) = obs := by
  unfold parseOutput listOfObservers
  induction h with
  | nil => rfl
  | cons h hs ih =>
    obtain ⟨h1, h2⟩ := asks_read h
    simp only [readOutputs, h1, if_true, List.flatMap_cons, h2, ih, List.singleton_append]

theorem default_no_observer (l : List OutNode) : (l.map (fun _ => Output.default)).flatMap observersOf = [] := by
  induction l with
  | nil => rfl
  | cons a l ih =>
    rw [List.map_cons, List.flatMap_cons, ih, List.append_nil]
    decide

/-- **C144** Refuted: an element without format (or with a format, a file name, an address or a port of a wrong
type) and all the elements after it are dropped, without an error. -/
theorem bad_output_drops_the_rest (nodes : List OutNode) (obs : List Obs) (h : List.Forall₂ Asks nodes obs)
    (bad : OutNode) (hbad : bad.format = .missing ∨ bad.format = .wrong ∨ bad.filename = .wrong ∨ bad.address = .wrong ∨
      bad.port = .wrong) (rest : List OutNode) :
    listOfObservers (parseOutput (some (nodes ++ bad :: rest))) = obs := by
  unfold parseOutput listOfObservers
  induction h with
  | nil =>
    have e : (readOutput bad).2 = false ∧ (readOutput bad).1.format = "" := by
      unfold readOutput
      rcases hbad with h | h | h | h | h
      · have hm : mandatory bad.format "" = ("", false) := by rw [h]; rfl
        simp only [hm, Bool.not_false, if_true]
        split_ifs <;> exact ⟨rfl, rfl⟩
      · have hm : mandatory bad.format "" = ("", false) := by rw [h]; rfl
        simp only [hm, Bool.not_false, if_true]
        split_ifs <;> exact ⟨rfl, rfl⟩
      · have hm : optField bad.filename [] = ([], false) := by rw [h]; rfl
        simp only [hm, Bool.not_false, if_true]
        exact ⟨trivial, rfl⟩
      · have hm : optField bad.address [] = ([], false) := by rw [h]; rfl
        simp only [hm, Bool.not_false, if_true]
        split_ifs <;> exact ⟨rfl, rfl⟩
      · have hm : optField bad.port 0 = (0, false) := by rw [h]; rfl
        simp only [hm, Bool.not_false, if_true]
        split_ifs <;> exact ⟨rfl, rfl⟩
    simp only [List.nil_append, readOutputs, e.1, Bool.false_eq_true, if_false, List.flatMap_cons, default_no_observer,
      List.append_nil]
    simp [observersOf, e.2]
  | cons h hs ih =>
    obtain ⟨h1, h2⟩ := asks_read h
    simp only [List.cons_append, readOutputs, h1, if_true, List.flatMap_cons, h2, ih, List.nil_append]

/-- **C144** Refuted: an element without data gives an observer that observes nothing, and the elements after it
are dropped. -/
theorem missing_data_observes_nothing (n : OutNode) (o : Obs) (h : Asks n o) (bad : OutNode)
    (hf : bad.filename = n.filename) (ha : bad.address = n.address) (hp : bad.port = n.port) (hfmt : bad.format = n.format)
    (hd : bad.data = .missing ∨ bad.data = .wrong) (rest : List OutNode) :
    listOfObservers (parseOutput (some (bad :: rest))) = [{ o with data := [] }] := by
  have hn : Asks { n with data := .value [] } { o with data := [] } :=
    { format := h.format, data := rfl, filename := h.filename, address := h.address, port := h.port }
  obtain ⟨h1, h2⟩ := asks_read hn
  have hm : mandatory bad.data [] = ([], false) := by rcases hd with h | h <;> rw [h] <;> rfl
  have e : readOutput bad = ((readOutput { n with data := .value [] }).1, false) := by
    unfold readOutput at h1 ⊢
    simp only [hf, ha, hp, hfmt, hm] at h1 ⊢
    split_ifs at h1 ⊢
    rfl
  unfold parseOutput listOfObservers
  simp only [readOutputs, e, Bool.false_eq_true, if_false, List.flatMap_cons, default_no_observer, h2, List.append_nil]

/-- **C144** Refuted: an element with an unknown format is dropped, without an error. -/
theorem unknown_format_dropped (o : Output) (h : o.format ∉ formatNames.map Prod.fst) : observersOf o = [] := by
  simp only [formatNames, List.map_cons, List.map_nil, List.mem_cons, List.not_mem_nil, or_false, not_or] at h
  simp [observersOf, h]

/-- Two outputs. -/
def csvNode : OutNode :=
  { filename := .value "a.csv".toList, address := .missing, port := .missing, format := .value "csv", data := .value ["t".toList] }

theorem csvNode_asks : Asks csvNode ⟨.csv, "a.csv".toList, [], 0, ["t".toList]⟩ where
  format := ⟨"csv", rfl, by decide⟩
  data := rfl
  filename := ⟨_, .inr rfl, by simp⟩
  address := ⟨[], .inl ⟨rfl, rfl⟩, by simp⟩
  port := ⟨0, .inl ⟨rfl, rfl⟩, by simp⟩

example : List.Forall₂ Asks [csvNode, csvNode]
    [⟨.csv, "a.csv".toList, [], 0, ["t".toList]⟩, ⟨.csv, "a.csv".toList, [], 0, ["t".toList]⟩] :=
  .cons csvNode_asks (.cons csvNode_asks .nil)

/-! ### C145: wave outputs -/

/-- **C145** Options `-o` and `-w` only add outputs: those of the YAML file come first. -/
theorem cli_keeps_yaml_outputs (sec : Option (List OutNode)) (bodies : List Text) (output waves : Text) (l : List Output)
    (h : observersDescription sec bodies output waves = .ok l) : ∃ l', l = parseOutput sec ++ l' := by
  unfold observersDescription at h
  by_cases h1 : (!output.isEmpty) = true
  · rw [if_pos h1] at h
    unfold addWithFilename at h
    rcases hd : defaultOutputter bodies output with e | o
    · rw [hd] at h; simp [bind, Except.bind] at h
    · rw [hd] at h
      simp only [bind, Except.bind] at h
      by_cases h2 : waves.isEmpty = true
      · rw [if_pos h2] at h; exact ⟨_, (Except.ok.inj h).symm⟩
      · rw [if_neg h2] at h
        by_cases h3 : appendsWaves o.format = true
        · rw [if_pos h3] at h; exact ⟨_, (Except.ok.inj h).symm⟩
        · rw [if_neg h3] at h
          rcases hw : waveObserver waves with e | w
          · rw [hw] at h; simp at h
          · rw [hw] at h
            refine ⟨[w] ++ [o], ?_⟩
            rw [← List.append_assoc]
            exact (Except.ok.inj h).symm
  · rw [if_neg h1] at h
    by_cases h2 : (!waves.isEmpty) = true
    · rw [if_pos h2] at h
      rcases hw : waveObserver waves with e | w
      · rw [hw] at h; simp [Except.bind] at h
      · rw [hw] at h
        exact ⟨_, (Except.ok.inj h).symm⟩
    · rw [if_neg h2] at h
      exact ⟨[], by rw [List.append_nil]; exact (Except.ok.inj h).symm⟩

/-- **C145** With `-w f` alone, or with `-w f` and a CSV or TSV output, `f` is an output made of the waves. -/
theorem wave_file_partial (sec : Option (List OutNode)) (bodies : List Text) (output waves : Text) (l : List Output)
    (hw : waves ≠ []) (ho : output = [] ∨ ∃ o, defaultOutputter bodies output = .ok o ∧ (o.format = "csv" ∨ o.format = "tsv"))
    (h : observersDescription sec bodies output waves = .ok l) :
    ({ format := "hdf5", filename := waves, data := ["waves".toList] } : Output) ∈ l := by
  have hwe : waves.isEmpty = false := by cases waves <;> simp_all
  have hf : ∀ w, waveObserver waves = .ok w → w = { format := "hdf5", filename := waves, data := ["waves".toList] } := by
    intro w hw
    unfold waveObserver at hw
    rcases hg : getFormatForWaveObserver waves with e | f
    · rw [hg] at hw; simp [bind, Except.bind] at hw
    · rw [hg] at hw
      simp only [bind, Except.bind, Except.ok.injEq] at hw
      have : f = "hdf5" := by
        unfold getFormatForWaveObserver testExt at hg
        split_ifs at hg
        repeat' (first | (split at hg) | (split_ifs at hg))
        all_goals first | (simp at hg; done) | exact (Except.ok.inj hg).symm
      rw [← hw, this]
  unfold observersDescription addWithFilename at h
  rcases ho with rfl | ⟨o, hd, hfmt⟩
  · simp only [List.isEmpty_nil, Bool.not_true, Bool.false_eq_true, if_false, hwe, Bool.not_false, if_true] at h
    rcases hv : waveObserver waves with e | w
    · rw [hv] at h; simp [Except.bind] at h
    · rw [hv] at h
      rw [← Except.ok.inj h, ← hf w hv]
      simp
  · have happ : appendsWaves o.format = false := by rcases hfmt with h | h <;> rw [h] <;> decide
    rw [hd] at h
    simp only [bind, Except.bind, hwe, happ, Bool.false_eq_true, if_false, Bool.not_false] at h
    rcases hv : waveObserver waves with e | w
    · rw [hv] at h; split_ifs at h <;> simp at h
    · rw [hv] at h
      split_ifs at h
      · rw [← Except.ok.inj h, ← hf w hv]
        simp
      · rw [← Except.ok.inj h, ← hf w hv]
        simp

/-- **C145** With `-w f` and an HDF5, websocket or JSON output, the waves are written in the main output and
the name `f` is not used. -/
theorem wave_name_not_used (sec : Option (List OutNode)) (bodies : List Text) (output waves : Text) (o : Output)
    (hw : waves ≠ []) (hne : output ≠ []) (hd : defaultOutputter bodies output = .ok o)
    (hf : o.format = "hdf5" ∨ o.format = "ws" ∨ o.format = "json") :
    observersDescription sec bodies output waves = .ok (parseOutput sec ++ [{ o with data := o.data ++ ["waves".toList] }]) := by
  have hwe : waves.isEmpty = false := by cases waves <;> simp_all
  have hoe : output.isEmpty = false := by cases output <;> simp_all
  have happ : appendsWaves o.format = true := by rcases hf with h | h | h <;> rw [h] <;> decide
  unfold observersDescription addWithFilename
  simp only [hoe, hd, hwe, happ, bind, Except.bind, Bool.not_false, if_true, Bool.false_eq_true, if_false]

/-- **C145** Refuted: with `-o a.json -w w.h5` (HDF5 and websocket outputs are documented to contain the waves,
JSON outputs are not), `w.h5` is not written. -/
theorem wave_file_refuted : ∃ l, observersDescription none ["b".toList] "a.json".toList "w.h5".toList = .ok l ∧
    ∀ o ∈ l, o.filename ≠ "w.h5".toList := by
  refine ⟨_, wave_name_not_used none _ _ _ { format := "json", filename := "a.json".toList, data := _ } (by decide) (by decide) rfl
    (.inr (.inr rfl)), ?_⟩
  intro o ho
  simp only [parseOutput, List.nil_append, List.mem_singleton] at ho
  subst ho
  simp only
  decide

/-! ### C146: environment constants -/

/-- **C146** The environment has the constants of the YAML file. -/
theorem constants_kept_partial (rho nu g : K) : getEnvironment rho nu g = .ok { rho := rho, nu := nu, g := g } := by
  unfold getEnvironment Env.new
  simp only [lt_irrefl, if_false, bind, Except.bind]

/-- **C146** Refuted: negative constants are accepted (the constructor that should refuse them only tests the
default values). -/
theorem negative_constants_accepted (rho nu g : K) (_ : rho < 0 ∨ nu < 0 ∨ g < 0) : ∃ e, getEnvironment rho nu g = .ok e :=
  ⟨_, constants_kept_partial rho nu g⟩

end Xdyn.Cli

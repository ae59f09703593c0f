import Verif.Model.History

/-
Model of the state vector: core/inc/StateMacros.hpp, core/inc/AbstractStates.hpp,
core/inc/State.hpp, core/src/State.cpp, external_data_structures/src/YamlState.cpp.
-/

namespace Xdyn

/-- `x[i] = v` for a `std::vector`: undefined behaviour out of bounds. -/
def setUB {α : Type} (l : List α) (i : Nat) (v : α) : Except Err (List α) :=
  if i < l.length then .ok (l.set i v) else .error .ub

/-- `NB_OF_STATES_PER_BODY`, StateMacros.hpp:15. -/
def nbOfStatesPerBody : Nat := 13

/-- `XIDX`, StateMacros.hpp:17. -/
def XIDX (i : Nat) : Nat := i * nbOfStatesPerBody
/-- `YIDX`, StateMacros.hpp:18. -/
def YIDX (i : Nat) : Nat := i * nbOfStatesPerBody + 1
/-- `ZIDX`, StateMacros.hpp:19. -/
def ZIDX (i : Nat) : Nat := i * nbOfStatesPerBody + 2
/-- `UIDX`, StateMacros.hpp:20. -/
def UIDX (i : Nat) : Nat := i * nbOfStatesPerBody + 3
/-- `VIDX`, StateMacros.hpp:21. -/
def VIDX (i : Nat) : Nat := i * nbOfStatesPerBody + 4
/-- `WIDX`, StateMacros.hpp:22. -/
def WIDX (i : Nat) : Nat := i * nbOfStatesPerBody + 5
/-- `PIDX`, StateMacros.hpp:23. -/
def PIDX (i : Nat) : Nat := i * nbOfStatesPerBody + 6
/-- `QIDX`, StateMacros.hpp:24. -/
def QIDX (i : Nat) : Nat := i * nbOfStatesPerBody + 7
/-- `RIDX`, StateMacros.hpp:25. -/
def RIDX (i : Nat) : Nat := i * nbOfStatesPerBody + 8
/-- `QRIDX`, StateMacros.hpp:26. -/
def QRIDX (i : Nat) : Nat := i * nbOfStatesPerBody + 9
/-- `QIIDX`, StateMacros.hpp:27. -/
def QIIDX (i : Nat) : Nat := i * nbOfStatesPerBody + 10
/-- `QJIDX`, StateMacros.hpp:28. -/
def QJIDX (i : Nat) : Nat := i * nbOfStatesPerBody + 11
/-- `QKIDX`, StateMacros.hpp:29. -/
def QKIDX (i : Nat) : Nat := i * nbOfStatesPerBody + 12

/-- `AbstractStates<T>`, AbstractStates.hpp:55-67. -/
structure States (α : Type) where
  x : α
  y : α
  z : α
  u : α
  v : α
  w : α
  p : α
  q : α
  r : α
  qr : α
  qi : α
  qj : α
  qk : α
deriving DecidableEq

/-- `YamlState` (external_data_structures/src/YamlState.cpp:3-26): thirteen states, a date,
three angles.  `extra_observations` is left to the observers. -/
structure YamlState (K : Type) extends States K where
  t : K
  phi : K
  theta : K
  psi : K
deriving DecidableEq

variable {K : Type} [Field K] [LinearOrder K] [IsStrictOrderedRing K]

/-- `State::State(Tmax)` = `AbstractStates<History>(Tmax)`, State.cpp:22-25,
AbstractStates.hpp:37. -/
def States.newHistories (Tmax : K) : States (History K) where
  x := History.new Tmax
  y := History.new Tmax
  z := History.new Tmax
  u := History.new Tmax
  v := History.new Tmax
  w := History.new Tmax
  p := History.new Tmax
  q := History.new Tmax
  r := History.new Tmax
  qr := History.new Tmax
  qi := History.new Tmax
  qj := History.new Tmax
  qk := History.new Tmax

/-- `record(State&, const YamlState&)`, SimServerInputs.cpp:14-29. -/
def States.record (ae : Nat → K → K → Bool) (s : States (History K)) (ys : YamlState K) :
    Except Err (States (History K)) := do
  let x ← s.x.record ae ys.t ys.x
  let y ← s.y.record ae ys.t ys.y
  let z ← s.z.record ae ys.t ys.z
  let u ← s.u.record ae ys.t ys.u
  let v ← s.v.record ae ys.t ys.v
  let w ← s.w.record ae ys.t ys.w
  let p ← s.p.record ae ys.t ys.p
  let q ← s.q.record ae ys.t ys.q
  let r ← s.r.record ae ys.t ys.r
  let qr ← s.qr.record ae ys.t ys.qr
  let qi ← s.qi.record ae ys.t ys.qi
  let qj ← s.qj.record ae ys.t ys.qj
  let qk ← s.qk.record ae ys.t ys.qk
  return { x, y, z, u, v, w, p, q, r, qr, qi, qj, qk }

/-- `Body::reset_history`, Body.cpp:224-239. -/
def States.resetHistories (s : States (History K)) : States (History K) where
  x := s.x.reset
  y := s.y.reset
  z := s.z.reset
  u := s.u.reset
  v := s.v.reset
  w := s.w.reset
  p := s.p.reset
  q := s.q.reset
  r := s.r.reset
  qr := s.qr.reset
  qi := s.qi.reset
  qj := s.qj.reset
  qk := s.qk.reset

/-- `State::get_StateType(index)`, State.cpp:48-63. -/
def States.getStateType (s : States (History K)) (index : Nat) : Except Err (List K) := do
  let x ← s.x.index index
  let y ← s.y.index index
  let z ← s.z.index index
  let u ← s.u.index index
  let v ← s.v.index index
  let w ← s.w.index index
  let p ← s.p.index index
  let q ← s.q.index index
  let r ← s.r.index index
  let qr ← s.qr.index index
  let qi ← s.qi.index index
  let qj ← s.qj.index index
  let qk ← s.qk.index index
  return [x.2, y.2, z.2, u.2, v.2, w.2, p.2, q.2, r.2, qr.2, qi.2, qj.2, qk.2]

/-- `BodyStates::get_current_state_values(idx)`, BodyStates.cpp:110-127: a vector of thirteen
values, whatever `idx`, in which the current values are written at the places of body `idx`.
The histories are read in the order of the lines. -/
def States.currentStateValues (h : States (History K)) (idx : Nat) : Except Err (List K) := do
  let s := List.replicate 13 (0 : K)
  let s ← setUB s (XIDX idx) (← h.x.value 0)
  let s ← setUB s (YIDX idx) (← h.y.value 0)
  let s ← setUB s (ZIDX idx) (← h.z.value 0)
  let s ← setUB s (UIDX idx) (← h.u.value 0)
  let s ← setUB s (VIDX idx) (← h.v.value 0)
  let s ← setUB s (WIDX idx) (← h.w.value 0)
  let s ← setUB s (PIDX idx) (← h.p.value 0)
  let s ← setUB s (QIDX idx) (← h.q.value 0)
  let s ← setUB s (RIDX idx) (← h.r.value 0)
  let s ← setUB s (QRIDX idx) (← h.qr.value 0)
  let s ← setUB s (QIIDX idx) (← h.qi.value 0)
  let s ← setUB s (QJIDX idx) (← h.qj.value 0)
  let s ← setUB s (QKIDX idx) (← h.qk.value 0)
  return s

end Xdyn

import Verif.Model.Sim
import Verif.Model.StdMap
import Mathlib.Data.String.Basic

/-
Model of the evaluation of a simulation of several bodies: core/src/Sim.cpp (construction 23-41,
`dx_dt` 127-135, `sum_of_forces` 145-180) with core/src/Body.cpp (`update_kinematics`,
`update_body_states`, `update`, `calculate_state_derivatives`) and core/src/ForceModel.cpp.

External (SSC): `Kinematics::add` replaces the transform between NED and a frame, `Kinematics::get`
composes transforms and throws for unknown frames; `Wrench::change_frame_but_keep_ref_point` gives
the coordinates of the same wrench and of the same point in the other frame; `UnsafeWrench::+=`
adds the forces and the torques and looks neither at the frames nor at the points;
`coriolis_and_centripetal` is the parameter `coriolis` of a body.

Simplifications: the force models have no memory (their parameters are the states of the body with
their histories, the shared frames, the commands and the date) and do not change the frames; the
tests of Body.cpp:110-122 (NaN) are left out, as real numbers are never NaN; the intersection of
the mesh with the free surface (Body.cpp:124) is a function of the frames and of the date and is
left to the force models.
-/

namespace Xdyn.Multi

open Blocked Body Sim

variable {K : Type} [Field K] [LinearOrder K] [IsStrictOrderedRing K]

/-- `ssc::kinematics::Transform` from NED to a frame: origin of the frame in NED, and matrix that
gives the NED coordinates of a vector from its coordinates in the frame. -/
structure Frame (K : Type) where
  o : Vec3 K
  R : Mat3 K

/-- `ssc::kinematics::Kinematics`: the transforms from NED, by name of frame. -/
abbrev Kin (K : Type) := StdMap String (Frame K)

/-- The transform from NED to a frame; NED itself is always known. -/
def frameOf (k : Kin K) (n : String) : Option (Frame K) :=
  if n = "NED" then some ⟨0, 1⟩ else k.find n

/-- `Kinematics::get(a, b)`: origin of `b` in `a` and matrix from the coordinates in `b` to the
coordinates in `a`. -/
def Kin.get (k : Kin K) (a b : String) : Except Err (Frame K) :=
  match frameOf k a, frameOf k b with
  | some A, some B => .ok ⟨A.R.transpose.mulVec (B.o - A.o), A.R.transpose * B.R⟩
  | _, _ => .error (.throw "KinematicsException")

/-- `ssc::kinematics::Wrench`: reference point with its frame, force and torque in that frame. -/
structure Wrench (K : Type) where
  frame : String
  P : Vec3 K
  force : Vec3 K
  torque : Vec3 K

/-- A `ForceModel`: its `operator()`, evaluated by `ForceModel::update`, ForceModel.cpp:30-35. -/
abbrev Force (K : Type) := States (History K) → Kin K → K → Except Err (Wrench K)

/-- A `ControllableForceModel`: its `operator()`, ControllableForceModel.cpp:53-76, which gives
force and torque at G in the body frame. -/
abbrev Controlled (K : Type) := Commands K → States (History K) → Kin K → K → Except Err (Vec3 K × Vec3 K)

/-- The data members of a `Body` that do not change. -/
structure MBody (K : Type) where
  name : String
  idx : Nat
  blocked : BlockedDof K
  G : Vec3 K
  Minv : Mat6 K
  coriolis : Vec3 K → Vec3 K → Vec3 K × Vec3 K

/-- What is given to the constructor of `Sim` for one body. -/
structure Entry (K : Type) where
  body : MBody K
  forces : List (Force K)
  controlled : List (Controlled K)

/-- Maps `forces` and `controlled_forces` of the constructor `Sim::Impl::Impl`, Sim.cpp:34-40: they
are indexed by the name of the body. -/
def forceMap {α : Type} (f : Entry K → α) (l : List (Entry K)) : StdMap String α :=
  l.foldl (fun m e => m.set e.body.name (f e)) []

/-- `Body::update_kinematics`, Body.cpp:64-68. -/
def updateKinematics (b : MBody K) (x : List K) (k : Kin K) : Except Err (Kin K) := do
  let o ← getOrigin x b.idx
  let R ← rotFromNedTo x b.idx
  let k := k.set b.name ⟨o, R⟩
  return k.set ("NED(" ++ b.name ++ ")") ⟨o, 1⟩

/-- `Body::update_body_states`, Body.cpp:76-92. -/
def updateBodyStates (ae : Nat → K → K → Bool) (b : MBody K) (h : States (History K)) (x : List K) (t : K) :
    Except Err (States (History K)) := do
  let x ← forceStates b.blocked x t
  h.record ae
    { t := t, x := ← getUB x (XIDX b.idx), y := ← getUB x (YIDX b.idx), z := ← getUB x (ZIDX b.idx),
      u := ← getUB x (UIDX b.idx), v := ← getUB x (VIDX b.idx), w := ← getUB x (WIDX b.idx),
      p := ← getUB x (PIDX b.idx), q := ← getUB x (QIDX b.idx), r := ← getUB x (RIDX b.idx),
      qr := ← getUB x (QRIDX b.idx), qi := ← getUB x (QIIDX b.idx), qj := ← getUB x (QJIDX b.idx),
      qk := ← getUB x (QKIDX b.idx),
      phi := 0, theta := 0, psi := 0 }

/-- Body of the first loop of `Sim::sum_of_forces`, Sim.cpp:152-167. -/
def addForce (b : MBody K) (h : States (History K)) (k : Kin K) (t : K) (s : Vec3 K × Vec3 K)
    (f : Force K) : Except Err (Vec3 K × Vec3 K) := do
  let tau ← f h k t
  if tau.frame ≠ b.name then do
    let T ← k.get tau.frame b.name
    let force := T.R.transpose.mulVec tau.force
    let torque := T.R.transpose.mulVec tau.torque
    let P := T.R.transpose.mulVec (tau.P - T.o)
    return (s.1 + force, s.2 + (torque + cross (P - b.G) force))
  else return (s.1 + tau.force, s.2 + tau.torque)

/-- Body of the second loop, Sim.cpp:169-173. -/
def addControlled (c : Commands K) (h : States (History K)) (k : Kin K) (t : K) (s : Vec3 K × Vec3 K)
    (f : Controlled K) : Except Err (Vec3 K × Vec3 K) := do
  let tau ← f c h k t
  return (s.1 + tau.1, s.2 + tau.2)

/-- `Body::get_uvw` and `Body::get_pqr`, Body.cpp:163-171. -/
def uvwpqr (x : List K) (idx : Nat) : Except Err (Vec3 K × Vec3 K) := do
  return (![← getUB x (UIDX idx), ← getUB x (VIDX idx), ← getUB x (WIDX idx)],
          ![← getUB x (PIDX idx), ← getUB x (QIDX idx), ← getUB x (RIDX idx)])

/-- `Sim::sum_of_forces`, Sim.cpp:145-176, without the two maps that keep the result. -/
def sumOfForces (c : Commands K) (b : MBody K) (forces : List (Force K)) (controlled : List (Controlled K))
    (h : States (History K)) (k : Kin K) (x : List K) (t : K) : Except Err (Vec3 K × Vec3 K) := do
  let v ← uvwpqr x b.idx
  let s ← forces.foldlM (addForce b h k t) (b.coriolis v.1 v.2)
  controlled.foldlM (addControlled c h k t) s

/-- `Wrench::to_vector`. -/
def toVector (w : Vec3 K × Vec3 K) : Vec6 K := ![w.1 0, w.1 1, w.1 2, w.2 0, w.2 1, w.2 2]

/-- What changes during the loop of `Sim::dx_dt`: shared frames, wrenches kept for the outputs
(`sum_of_forces_in_body_frame`), derivatives. -/
structure World (K : Type) where
  kin : Kin K
  sums : StdMap String (Vec3 K × Vec3 K)
  dx : List K

/-- The maps of force models built by the constructor. -/
structure Maps (K : Type) where
  forces : StdMap String (List (Force K))
  controlled : StdMap String (List (Controlled K))

/-- `operator[]` of the maps of lists of forces. -/
def lookup {α : Type} (m : StdMap String (List α)) (n : String) : List α := (m.find n).getD []

/-- Body of the loop of `Sim::dx_dt`, Sim.cpp:129-134, for one body with its histories. -/
def stepBody (ae : Nat → K → K → Bool) (M : Maps K) (c : Commands K) (x : List K) (t : K)
    (w : World K) (b : MBody K) (h : States (History K)) : Except Err (World K × States (History K)) := do
  let kin ← updateKinematics b x w.kin
  let h ← updateBodyStates ae b h x t
  let F ← sumOfForces c b (lookup M.forces b.name) (lookup M.controlled b.name) h kin x t
  let T ← kin.get "NED" b.name
  let dx ← stateDerivatives b.blocked b.Minv (toVector F) T.R x w.dx t b.idx
  return ({ kin := kin, sums := w.sums.set b.name F, dx := dx }, h)

/-- `Sim::dx_dt`, Sim.cpp:127-135: the bodies one after the other, each with its histories. -/
def dxdt (ae : Nat → K → K → Bool) (M : Maps K) (c : Commands K) (x : List K) (t : K) :
    List (MBody K × States (History K)) → World K → Except Err (World K × List (States (History K)))
  | [], w => .ok (w, [])
  | (b, h) :: l, w => do
    let (w, h) ← stepBody ae M c x t w b h
    let (w, hs) ← dxdt ae M c x t l w
    return (w, h :: hs)

/-- The maps of a `Sim` built with these entries. -/
def mapsOf (l : List (Entry K)) : Maps K :=
  ⟨forceMap Entry.forces l, forceMap Entry.controlled l⟩

end Xdyn.Multi

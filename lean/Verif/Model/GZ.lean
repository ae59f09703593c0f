/-
Model of the GZ curves: code/gz_curves/src/GZCurve.cpp, gz_newton_raphson.cpp,
ResultantForceComputer.cpp.

The resultant of gravity and hydrostatics is a function of the state (z, phi, theta): the code
computes it by updating the body (ResultantForceComputer.cpp:30-68), which is modelled elsewhere.
Numbers are the ones of an ordered field: rounding is not modelled.
-/
import Mathlib.Algebra.Order.Field.Basic
import Mathlib.Algebra.Order.Floor.Defs
import Mathlib.Algebra.Order.Floor.Ring
import Verif.Model.Common

namespace Xdyn.GZ

section
variable {K : Type} [Field K] [LinearOrder K]

/-- std::round: to the nearest integer, halfway cases away from zero -/
def stdRound [FloorRing K] (x : K) : Int := if 0 ≤ x then ⌊x + 1/2⌋ else -⌊-x + 1/2⌋

def invalidInput : Err := .throw "InvalidInputException"
def internalError : Err := .throw "InternalErrorException"

/-- check_input, GZCurve.cpp:46-58 -/
def checkInput (dphi phiMax : K) : Except Err Unit :=
  if dphi ≤ 0 ∨ phiMax ≤ 0 ∨ phiMax < dphi then .error invalidInput else .ok ()

/-- compute_phi, GZCurve.cpp:61-71: the loop index is an int, its increment overflows if 2*N is
larger than INT_MAX -/
def computePhi [FloorRing K] (dphi phiMax : K) : Except Err (List K) :=
  let N := stdRound (phiMax / dphi)
  if 2147483647 < 2 * N then .error .ub
  else .ok (-phiMax ::
    (List.range ((2 * N).toNat - 1)).map (fun (j : Nat) => (((j : K) + 1) - (N : K)) * dphi) ++ [phiMax])

/-- GZ::Curve::get_phi, GZCurve.cpp:85-89 -/
def getPhi [FloorRing K] (dphi phiMax : K) : Except Err (List K) :=
  match checkInput dphi phiMax with
  | .error e => .error e
  | .ok () => computePhi dphi phiMax

/-- GZ::MinMax -/
structure MinMax (K : Type) where
  min : K
  max : K
deriving DecidableEq

/-- average, GZCurve.cpp:98-101 -/
def average (z : MinMax K) : K := 1/2 * (z.min + z.max)

/-- the body of the loop, GZCurve.cpp:117-119 -/
def bisect (F : K → K) (z : MinMax K) : MinMax K :=
  let z0 := average z
  if F z0 < 0 then ⟨z.min, z0⟩ else ⟨z0, z.max⟩

/-- the loop of GZCurve.cpp:115-121 with at most `fuel` iterations: `none` if it is still running -/
def bisectLoop (F : K → K) : Nat → MinMax K → Option K
  | fuel, z =>
    if 1/10^10 < z.max - z.min then
      match fuel with
      | 0 => none
      | n + 1 => bisectLoop F n (bisect F z)
    else some (average z)

/-- GZ::Curve::zeq, GZCurve.cpp:103-122, from the bounds (zmin,zmax) of get_zmin_zmax -/
def zeq (F : K → K) (fuel : Nat) (z : MinMax K) : Except Err (Option K) :=
  if F z.max > 0 then .ok (some z.min)
  else if F z.min < 0 then .error internalError
  else .ok (bisectLoop F fuel z)

/-- GZ::ResultantForceComputer::get_zmin_zmax, ResultantForceComputer.cpp:98-121: lowest and highest
z of the vertices of the mesh, in the NED frame, when the origin of the body is at z=0. `zs` are
these vertices (at least one). -/
def getZminZmax (z₁ : K) (zs : List K) : MinMax K :=
  ⟨zs.foldl (fun a b => if b < a then b else a) z₁, zs.foldl (fun a b => if a < b then b else a) z₁⟩

/-- (z, phi, theta), GZTypes.hpp:15 -/
structure State (K : Type) where
  z : K
  phi : K
  theta : K
deriving DecidableEq

/-- 2 x 2 matrix (rows Z and M, columns z and theta) -/
structure Mat2 (K : Type) where
  m00 : K
  m01 : K
  m10 : K
  m11 : K
deriving DecidableEq

/-- delta, gz_newton_raphson.cpp:13-16 -/
def dist (a b : State K) : K :=
  Max.max (Max.max |a.z - b.z| |a.phi - b.phi|) |a.theta - b.theta|

/-- the end of an iteration, gz_newton_raphson.cpp:40-41 -/
def newtonStep (x y : State K) (k : Mat2 K) : State K :=
  let det := k.m00 * k.m11 - k.m01 * k.m10
  ⟨x.z - (k.m11 * y.z - k.m01 * y.theta) / det, x.phi,
    x.theta - (k.m00 * y.theta - k.m10 * y.z) / det⟩

/-- the loop of gz_newton_raphson.cpp:28-43: `n` iterations remain, `x` is Xn and `xp` is Xn_1 -/
def newtonLoop (f : State K → State K) (kc : State K → Mat2 K) (eps : K) :
    Nat → State K → State K → Except Err (State K)
  | 0, x, _ => .ok x
  | n + 1, x, xp =>
    if dist x xp < eps then .ok x
    else
      let k := kc x
      let det := k.m00 * k.m11 - k.m01 * k.m10
      if |det| < 1/10^15 then .error internalError
      else
        let y := f x
        if dist y ⟨0, 0, 0⟩ < eps then .ok x
        else newtonLoop f kc eps n (newtonStep x y k) x

/-- GZ::newton_raphson, gz_newton_raphson.cpp:18-44 -/
def newtonRaphson (x0 : State K) (f : State K → State K) (kc : State K → Mat2 K) (maxIt : Nat)
    (eps : K) : Except Err (State K) :=
  newtonLoop f kc eps maxIt x0 ⟨x0.z + 2 * eps, x0.phi + 2 * eps, x0.theta + 2 * eps⟩

/-- GZ::ResultantForceComputer::dF and K, ResultantForceComputer.cpp:70-96: centred finite
differences -/
def stiffness (f : State K → State K) (dz dtheta : K) (x : State K) : Mat2 K :=
  let fzp := f ⟨x.z + dz/2, x.phi, x.theta⟩
  let fzm := f ⟨x.z - dz/2, x.phi, x.theta⟩
  let ftp := f ⟨x.z, x.phi, x.theta + dtheta/2⟩
  let ftm := f ⟨x.z, x.phi, x.theta - dtheta/2⟩
  ⟨(fzp.z - fzm.z) / dz, (ftp.z - ftm.z) / dtheta,
   (fzp.theta - fzm.theta) / dz, (ftp.theta - ftm.theta) / dtheta⟩

/-- GZ::Curve::get_Xeq, GZCurve.cpp:73-79: the value returned by newton_raphson is not used. `none`
if the search of the draft is still running after `fuel` iterations. -/
def getXeq (f : State K → State K) (kc : State K → Mat2 K) (bounds : K → MinMax K) (fuel : Nat) :
    Except Err (Option (State K)) :=
  match zeq (fun z => (f ⟨z, 0, 0⟩).z) fuel (bounds 0) with
  | .error e => .error e
  | .ok none => .ok none
  | .ok (some z0) =>
    let x0 : State K := ⟨z0, 0, 0⟩
    match newtonRaphson x0 f kc 100 (1/10^6) with
    | .error e => .error e
    | .ok _ => .ok (some x0)

end

end Xdyn.GZ

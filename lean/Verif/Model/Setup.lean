import Verif.Model.Body
import Mathlib.Analysis.SpecialFunctions.Trigonometric.Basic
import Mathlib.Analysis.SpecialFunctions.Sqrt

/-
Model of the reading of the rotation convention and of the initial states:
yaml_parser/src/external_data_structures_parsers.cpp:45-101 (`search_and_replace`,
`operator>>(YamlRotation)`), yaml_parser/src/check_input_yaml.cpp (`is_an_axis`, `check_rotations`),
core/src/yaml2eigen.cpp:19-41 (`angle2matrix`, `match`), core/src/update_kinematics.cpp:19-44
(`get_initial_states`) and core/src/BodyStates.cpp:40-83 (`BodyStates::convert`).

External: the YAML library gives the list of strings; SSC's
`rotation_matrix<INTRINSIC, CHANGING_ANGLE_ORDER, 3, 2, 1>` is the product Rz(psi) Ry(theta) Rx(phi);
Eigen's construction of a quaternion from a rotation matrix (Shoemake's algorithm) is `ofMatrix`.
Texts of the error messages are not modelled.
-/

namespace Xdyn.Setup

open Xdyn.Body

/-- A string. -/
abbrev Str := List Char

/-- `search_and_replace`, external_data_structures_parsers.cpp:45-53: occurrences of `find` are
looked for from left to right, each one after the previous replacement (`pos+=rLen`).  `skip` is the
number of characters of the current occurrence still to be dropped. -/
def replaceFrom (find rep : Str) : Nat → Str → Str
  | _, [] => []
  | n + 1, _ :: s => replaceFrom find rep n s
  | 0, c :: s =>
    if find.isPrefixOf (c :: s) then rep ++ replaceFrom find rep (find.length - 1) s
    else c :: replaceFrom find rep 0 s

def searchAndReplace (find rep : String) (s : Str) : Str := replaceFrom find.toList rep.toList 0 s

/-- `si.substr(0, si.find_first_of('\''))`, line 77. -/
def noApostrophs (s : Str) : Str := s.takeWhile (· != '\'')

/-- Line 78. -/
def isAxisName (s : Str) : Bool := s == "x".toList || s == "y".toList || s == "z".toList

/-- Line 82. -/
def isAngleName (s : Str) : Bool := s == "phi".toList || s == "theta".toList || s == "psi".toList

/-- Lines 84-87. -/
def angleToAxis (s : Str) : Str :=
  searchAndReplace "psi" "z" (searchAndReplace "theta" "y" (searchAndReplace "phi" "x" s))

/-- `YamlRotation`, external_data_structures/inc/YamlRotation.hpp. -/
structure Rotation where
  order_by : Str
  convention : List Str
deriving DecidableEq

/-- State of the loop of `operator>>(YamlRotation)`, lines 65-68: `detected_axis`, `detected_angle`
and `g.convention`. -/
structure Scan where
  axis : Bool
  angle : Bool
  convention : List Str

/-- Line 82-88: the element, once angle names are replaced by axis names. -/
def elementOf (si : Str) : Str := if isAngleName (noApostrophs si) then angleToAxis si else si

/-- One iteration of the loop, lines 68-96. -/
def scanOne (st : Scan) (si : Str) : Except Err Scan :=
  if si.length > 7 then .error (.throw "InvalidInputException")
  else if !((st.axis || isAxisName (noApostrophs si)) || (st.angle || isAngleName (noApostrophs si))) then
    .error (.throw "InvalidInputException")
  else .ok { axis := st.axis || isAxisName (noApostrophs si),
             angle := st.angle || isAngleName (noApostrophs si),
             convention := st.convention ++ [elementOf si] }

/-- Lines 98-99. -/
def orderBy (st : Scan) : Str :=
  if st.angle then "angle".toList else if st.axis then "axis".toList else []

/-- `operator>>(const YAML::Node&, YamlRotation&)`, lines 55-100, on a new `YamlRotation`. -/
def readRotation (s : List Str) : Except Err Rotation :=
  if s.length ≠ 3 then .error (.throw "InvalidInputException")
  else (s.foldlM scanOne { axis := false, angle := false, convention := [] }).bind
    (fun st => .ok { order_by := orderBy st, convention := st.convention })

/-- `is_an_axis`, check_input_yaml.cpp:26-41. -/
def isAnAxis (s : Str) : Bool :=
  s == "x".toList || s == "x'".toList || s == "x''".toList ||
  s == "y".toList || s == "y'".toList || s == "y''".toList ||
  s == "z".toList || s == "z'".toList || s == "z''".toList

/-- `check_rotations`, check_input_yaml.cpp:43-67.  All errors are collected, then thrown together;
`convention.at(i)` throws `std::out_of_range`. -/
def checkRotations (r : Rotation) : Except Err Rotation := do
  let a0 ← getAt r.convention 0
  let a1 ← getAt r.convention 1
  let a2 ← getAt r.convention 2
  if r.convention.length = 3 ∧ isAnAxis a0 = true ∧ isAnAxis a1 = true ∧ isAnAxis a2 = true ∧
      (r.order_by = "angle".toList ∨ r.order_by = "axis".toList) then .ok r
  else .error (.throw "InvalidInputException")

/-- `match(convention, "z", "y'", "x''")`, yaml2eigen.cpp:38-41. -/
def matchZYX (c : List Str) : Except Err Bool := do
  let a0 ← getAt c 0
  let a1 ← getAt c 1
  let a2 ← getAt c 2
  .ok (a0 == "z".toList && a1 == "y'".toList && a2 == "x''".toList)

/-- The convention test made by `angle2matrix` (yaml2eigen.cpp:23-34) and by both
`BodyStates::convert` (BodyStates.cpp:43-54, 61-81). -/
def supported (r : Rotation) : Except Err Unit :=
  if r.order_by = "angle".toList then
    (matchZYX r.convention).bind (fun b => if b then .ok () else .error (.throw "InvalidInputException"))
  else .error (.throw "InvalidInputException")

open Real in
/-- `rotation_matrix<INTRINSIC, CHANGING_ANGLE_ORDER, 3, 2, 1>` of SSC. -/
noncomputable def sscRotation (phi theta psi : ℝ) : Mat3 ℝ :=
  !![cos psi * cos theta, cos psi * sin theta * sin phi - sin psi * cos phi, cos psi * sin theta * cos phi + sin psi * sin phi;
     sin psi * cos theta, sin psi * sin theta * sin phi + cos psi * cos phi, sin psi * sin theta * cos phi - cos psi * sin phi;
     -sin theta, cos theta * sin phi, cos theta * cos phi]

/-- `angle2matrix`, yaml2eigen.cpp:19-36. -/
noncomputable def angle2matrix (phi theta psi : ℝ) (r : Rotation) : Except Err (Mat3 ℝ) :=
  (supported r).bind (fun _ => .ok (sscRotation phi theta psi))

/-- Eigen: the branch of `Quaternion(const Matrix3&)` for a positive trace. -/
noncomputable def ofMatrixTrace (R : Mat3 ℝ) : Quat ℝ :=
  let t := √(R 0 0 + R 1 1 + R 2 2 + 1)
  { w := 0.5 * t, x := (R 2 1 - R 1 2) * (0.5 / t), y := (R 0 2 - R 2 0) * (0.5 / t), z := (R 1 0 - R 0 1) * (0.5 / t) }

/-- Eigen: the branch when the first diagonal element is the largest (i = 0, j = 1, k = 2). -/
noncomputable def ofMatrixX (R : Mat3 ℝ) : Quat ℝ :=
  let t := √(R 0 0 - R 1 1 - R 2 2 + 1)
  { x := 0.5 * t, w := (R 2 1 - R 1 2) * (0.5 / t), y := (R 1 0 + R 0 1) * (0.5 / t), z := (R 2 0 + R 0 2) * (0.5 / t) }

/-- Eigen: the branch i = 1, j = 2, k = 0. -/
noncomputable def ofMatrixY (R : Mat3 ℝ) : Quat ℝ :=
  let t := √(R 1 1 - R 2 2 - R 0 0 + 1)
  { y := 0.5 * t, w := (R 0 2 - R 2 0) * (0.5 / t), z := (R 2 1 + R 1 2) * (0.5 / t), x := (R 0 1 + R 1 0) * (0.5 / t) }

/-- Eigen: the branch i = 2, j = 0, k = 1. -/
noncomputable def ofMatrixZ (R : Mat3 ℝ) : Quat ℝ :=
  let t := √(R 2 2 - R 0 0 - R 1 1 + 1)
  { z := 0.5 * t, w := (R 1 0 - R 0 1) * (0.5 / t), x := (R 0 2 + R 2 0) * (0.5 / t), y := (R 1 2 + R 2 1) * (0.5 / t) }

/-- `Eigen::Quaternion<double> q(R)` (external), used by update_kinematics.cpp:27 and BodyStates.cpp:65. -/
noncomputable def ofMatrix (R : Mat3 ℝ) : Quat ℝ :=
  if 0 < R 0 0 + R 1 1 + R 2 2 then ofMatrixTrace R
  else if R 0 0 < R 1 1 then (if R 1 1 < R 2 2 then ofMatrixZ R else ofMatrixY R)
  else (if R 0 0 < R 2 2 then ofMatrixZ R else ofMatrixX R)

/-- What `get_initial_states` reads in a `YamlBody` (external_data_structures/inc/YamlBody.hpp): the
initial position (coordinates and angles, YamlPosition.hpp) and the initial velocity (YamlSpeed.hpp).
Both have a `frame` field, which is not read. -/
structure YamlInit where
  x : ℝ
  y : ℝ
  z : ℝ
  phi : ℝ
  theta : ℝ
  psi : ℝ
  u : ℝ
  v : ℝ
  w : ℝ
  p : ℝ
  q : ℝ
  r : ℝ

/-- update_kinematics.cpp:37. -/
noncomputable def quatNorm (q : Quat ℝ) : ℝ := √(q.w * q.w + q.x * q.x + q.y * q.y + q.z * q.z)

/-- Lines 28-41 of update_kinematics.cpp: the states of body `i` are written in `ret`. -/
noncomputable def writeBody (ret : List ℝ) (i : Nat) (b : YamlInit) (q : Quat ℝ) : Except Err (List ℝ) := do
  let ret ← setUB ret (XIDX i) b.x
  let ret ← setUB ret (YIDX i) b.y
  let ret ← setUB ret (ZIDX i) b.z
  let ret ← setUB ret (UIDX i) b.u
  let ret ← setUB ret (VIDX i) b.v
  let ret ← setUB ret (WIDX i) b.w
  let ret ← setUB ret (PIDX i) b.p
  let ret ← setUB ret (QIDX i) b.q
  let ret ← setUB ret (RIDX i) b.r
  let ret ← setUB ret (QRIDX i) (q.w / quatNorm q)
  let ret ← setUB ret (QIIDX i) (q.x / quatNorm q)
  let ret ← setUB ret (QJIDX i) (q.y / quatNorm q)
  setUB ret (QKIDX i) (q.z / quatNorm q)

/-- One iteration of the loop of `get_initial_states`, update_kinematics.cpp:23-42. -/
noncomputable def initBody (conv : Rotation) (ret : List ℝ) (ib : Nat × YamlInit) : Except Err (List ℝ) := do
  let R ← angle2matrix ib.2.phi ib.2.theta ib.2.psi conv
  writeBody ret ib.1 ib.2 (ofMatrix R)

/-- `get_initial_states`, update_kinematics.cpp:19-44. -/
noncomputable def getInitialStates (conv : Rotation) (bodies : List YamlInit) : Except Err (List ℝ) :=
  ((List.range bodies.length).zip bodies).foldlM (initBody conv) (List.replicate (13 * bodies.length) 0)

/-- `BodyStates::convert(EulerAngles, YamlRotation)`, BodyStates.cpp:58-83: w, x, y, z.  (The exception is
an `ssc::exception_handling::Exception`; the model does not distinguish it.) -/
noncomputable def convertEuler (phi theta psi : ℝ) (r : Rotation) : Except Err (Quat ℝ) :=
  (supported r).bind (fun _ => .ok (ofMatrix (sscRotation phi theta psi)))

/-- What `get_system` does with the convention given in the YAML file: it is read
(SimulatorYamlParser.cpp:36), checked (simulator_api.cpp:140), then used to compute the initial
states (SimulatorBuilder.cpp:53). -/
noncomputable def initialStatesFromYaml (convention : List Str) (bodies : List YamlInit) : Except Err (List ℝ) := do
  let r ← readRotation convention
  let r ← checkRotations r
  getInitialStates r bodies

end Xdyn.Setup

import Verif.Model.GZ
import Verif.Model.Cli
import Mathlib.Data.Real.Basic
import Mathlib.Algebra.Order.Floor.Ring
import Mathlib.Data.Real.Archimedean
import Mathlib.Analysis.Real.Pi.Bounds

/-
The program `gz` (executables/src/gz.cpp) and the object it uses, `GZ::Curve` (gz_curves/src/GZCurve.cpp), on top of the searches of
Model/GZ.

External: boost::program_options, the files, and the resultant of the weight and of the force model `non-linear hydrostatic (fast)` on the hull of
the files in still water at z = 0 (make_sim_for_GZ.cpp:13-32), which is given by `Body`. Numbers are real numbers; the texts that numbers make on the output
are not modelled. `fuel` bounds the iterations of the searches of equilibrium; `none` means that one of them is still running.
-/

namespace Xdyn.GzTool

open Xdyn.GZ Xdyn.Config

/-- `GZOptions`, gz.cpp:25-38: angles in degrees. -/
structure Options where
  dphi : ℝ
  phiMax : ℝ
  stl : Text
  yaml : List Text
  csv : Text

/-- `GZOptions::empty`, gz.cpp:34-37. -/
noncomputable def Options.empty (o : Options) : Bool :=
  decide (o.dphi = 0) && decide (o.phiMax = 0) && o.stl.isEmpty && o.yaml.isEmpty && o.csv.isEmpty

/-- `invalid`, gz.cpp:41-65. -/
noncomputable def invalid (o : Options) : Bool :=
  if o.empty then true
  else if o.stl.isEmpty then true
  else if o.yaml.isEmpty then true
  else if o.dphi ≤ 0 then true
  else if o.phiMax < o.dphi then true
  else false

/-- What the object `GZ::Curve` reads in the simulation (GZCurve.cpp:17-31, ResultantForceComputer.cpp): the resultant (force along z, torques in roll and pitch)
and the lever at a state (z, phi, theta), the stiffness, the interval of depths searched at a heel, the density of water, the volumes of the hull above and
under the surface at the origin, and the term (2,2) of the inertia. -/
structure Body where
  resultant : State ℝ → State ℝ
  lever : State ℝ → ℝ
  stiffness : State ℝ → Mat2 ℝ
  bounds : ℝ → MinMax ℝ
  rho : ℝ
  emerged : ℝ
  immersed : ℝ
  mass : ℝ

/-- `GZ::Curve::Impl::Impl` and `GZ::Curve::Curve`, GZCurve.cpp:19-31 and 81-83: `theta_eq`. -/
noncomputable def curve (b : Body) (fuel : Nat) : Except Err (Option ℝ) :=
  if b.rho * (b.emerged + b.immersed) < b.mass then .error GZ.invalidInput
  else match getXeq b.resultant b.stiffness b.bounds fuel with
    | .error e => .error e
    | .ok none => .ok none
    | .ok (some x) => .ok (some x.theta)

/-- `GZ::Curve::gz`, GZCurve.cpp:124-129. -/
noncomputable def gz (b : Body) (fuel : Nat) (thetaEq phi : ℝ) : Except Err (Option ℝ) :=
  match zeq (fun z => (b.resultant ⟨z, phi, thetaEq⟩).z) fuel (b.bounds phi) with
  | .error e => .error e
  | .ok none => .ok none
  | .ok (some z) => .ok (some (b.lever ⟨z, phi, thetaEq⟩))

/-- What is written: the separator, whether the title is written, and the lines. -/
structure Table where
  sep : Char
  title : Bool
  rows : List (ℝ × ℝ)

/-- The loop on the angles, gz.cpp:120-123: the lines that are written, and the exception if there is one. `none` if a search does not end. -/
noncomputable def writeRows (gz : ℝ → Except Err (Option ℝ)) : List ℝ → Option (List (ℝ × ℝ) × Except Err Unit)
  | [] => some ([], .ok ())
  | phi :: phis =>
    match gz phi with
    | .error e => some ([], .error e)
    | .ok none => none
    | .ok (some g) =>
      match writeRows gz phis with
      | none => none
      | some (rows, r) => some ((phi * 180 / Real.pi, g) :: rows, r)

/-- How the program ends, what it wrote and whether a message was displayed. -/
structure Outcome where
  exit : Cli.Exit
  written : Option Table
  message : Bool

/-- `report_xdyn_exceptions_to_user`, then `return 0`, gz.cpp:125-128. -/
def ended (written : Option Table) : Except Err Unit → Outcome
  | .ok _ => ⟨.code 0, written, false⟩
  | .error .ub => ⟨.undefined, written, false⟩
  | .error (.throw e) => ⟨.code 0, written, Cli.reported e⟩

/-- The lambda of gz.cpp:103-124 for the options `o`; `sim` is `GZ::make_sim` on the files. -/
noncomputable def compute (sim : Options → Except Err Body) (fuel : Nat) (o : Options) : Option Outcome :=
  match sim o with
  | .error e => some (ended none (.error e))
  | .ok b =>
    match curve b fuel with
    | .error e => some (ended none (.error e))
    | .ok none => none
    | .ok (some thetaEq) =>
      match getPhi (o.dphi * Real.pi / 180) (o.phiMax * Real.pi / 180) with
      | .error e => some (ended none (.error e))
      | .ok phis =>
        match writeRows (gz b fuel thetaEq) phis with
        | none => none
        | some (rows, r) => some (ended (some ⟨if o.csv.isEmpty then '\t' else ';', true, rows⟩) r)

/-- `main`, gz.cpp:97-129, with `get_gz_data`, gz.cpp:83-93 (`parse_input` lets the exceptions of boost go through). -/
noncomputable def gzMain (sim : Options → Except Err Body) (fuel : Nat) : Cli.CommandLine Options → Option Outcome
  | .nothing => some ⟨.code 0, none, false⟩
  | .refused => some ⟨.terminate, none, true⟩
  | .options o help _ =>
    if invalid o || help then some ⟨.code 0, none, invalid o && !o.empty⟩
    else compute sim fuel o

end Xdyn.GzTool

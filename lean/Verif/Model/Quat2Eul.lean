import Verif.Model.Body
import Mathlib.Data.Real.Basic

/-
Model of the program `quat2eul` (code/executables/src/convert_quaternion_to_euler.cpp).

External: `std::atof` and the Euler angles of a matrix (SSC), `anglesOf`.
-/

namespace Xdyn.Tools

open Body

/-- What the program does: the message on the error output, the lines written on the standard output, the exit status. -/
structure Run where
  message : Bool
  lines : List (String × ℝ)
  status : Nat

/-- argv[i+1], convert_quaternion_to_euler.cpp:34-37.  argv[argc] is the null pointer, the next ones are out of bounds: reading a number there is undefined. -/
def argument (atof : List Char → ℝ) (args : List (List Char)) (i : Nat) : Except Err ℝ :=
  match args[i]? with
  | some a => .ok (atof a)
  | none => .error .ub

/-- convert, convert_quaternion_to_euler.cpp:21-27 -/
noncomputable def convert (anglesOf : Mat3 ℝ → ℝ × ℝ × ℝ) (qr qi qj qk : ℝ) : ℝ × ℝ × ℝ := anglesOf (Quat.matrix ⟨qr, qi, qj, qk⟩)

/-- main, convert_quaternion_to_euler.cpp:29-45: a wrong number of arguments gives a message, but the program goes on.  The number `pi` is M_PI. -/
noncomputable def quat2eul (pi : ℝ) (atof : List Char → ℝ) (anglesOf : Mat3 ℝ → ℝ × ℝ × ℝ) (args : List (List Char)) : Except Err Run := do
  let qr ← argument atof args 0
  let qi ← argument atof args 1
  let qj ← argument atof args 2
  let qk ← argument atof args 3
  let a := convert anglesOf qr qi qj qk
  pure { message := decide (args.length ≠ 4), lines := [("phi: ", a.1 * (180 / pi)), ("theta: ", a.2.1 * (180 / pi)), ("psi: ", a.2.2 * (180 / pi))], status := 0 }

end Xdyn.Tools

import Verif.Model.Body
import Mathlib.LinearAlgebra.Matrix.NonsingularInverse
import Mathlib.Data.Real.Basic

/-
Model of the checks of the inertia matrices: code/core/src/BodyBuilder.cpp:20-45 and 97-158.
-/

namespace Xdyn.Inertia

open Body

/-- `tol`, BodyBuilder.cpp:22. -/
noncomputable def tol : ℝ := 1 / 10 ^ 10

/-- `isSymmetric`, BodyBuilder.cpp:20-29 (square matrices). -/
noncomputable def isSymmetric {n : Nat} (m : Matrix (Fin n) (Fin n) ℝ) : Bool :=
  (List.finRange n).all fun i => (List.finRange n).all fun j => !(decide (i < j) && decide (tol < |m i j - m j i|))

/-- `m.block(0, 0, i+1, i+1)`, BodyBuilder.cpp:39. -/
def leading {n : Nat} (m : Matrix (Fin n) (Fin n) ℝ) (i : Fin n) : Matrix (Fin (i.val + 1)) (Fin (i.val + 1)) ℝ :=
  m.submatrix (Fin.castLE i.isLt) (Fin.castLE i.isLt)

/-- `isSymmetricDefinitePositive`, BodyBuilder.cpp:33-45. -/
noncomputable def isSymmetricDefinitePositive {n : Nat} (m : Matrix (Fin n) (Fin n) ℝ) : Bool :=
  isSymmetric m && (List.finRange n).all fun i => !decide ((leading m i).det ≤ 0)

/-- `YamlDynamics6x6Matrix`: `row_1` to `row_6`. -/
structure Rows where
  row1 : List ℝ
  row2 : List ℝ
  row3 : List ℝ
  row4 : List ℝ
  row5 : List ℝ
  row6 : List ℝ

/-- Line `i` of the matrix. -/
def Rows.row (M : Rows) : Fin 6 → List ℝ
  | 0 => M.row1 | 1 => M.row2 | 2 => M.row3 | 3 => M.row4 | 4 => M.row5 | 5 => M.row6

/-- One turn of the loop of `BodyBuilder::convert`, BodyBuilder.cpp:148-156: column `j`;
`vector::at` throws `std::out_of_range`. -/
def readColumn (M : Rows) (j : Nat) : Except Err (Vec6 ℝ) := do
  let a ← getAt M.row1 j
  let b ← getAt M.row2 j
  let c ← getAt M.row3 j
  let d ← getAt M.row4 j
  let e ← getAt M.row5 j
  let f ← getAt M.row6 j
  return ![a, b, c, d, e, f]

/-- `BodyBuilder::convert`, BodyBuilder.cpp:145-158. -/
def convert (M : Rows) : Except Err (Mat6 ℝ) := do
  let c ← (List.range 6).mapM (readColumn M)
  return fun i j => c.getD j.val (fun _ => 0) i

/-- The three matrices kept by `BodyStates`. -/
structure Inertias where
  solid : Mat6 ℝ
  total : Mat6 ℝ
  inverse : Mat6 ℝ

/-- `BodyBuilder::add_inertia`, BodyBuilder.cpp:97-143; `Ma` is the added mass, converted from the
YAML (line 117) or read from an HDB file (line 112-113). -/
noncomputable def addInertia (Mrb Ma : Except Err (Mat6 ℝ)) : Except Err Inertias := do
  let Mrb ← Mrb
  if !isSymmetricDefinitePositive Mrb then throw (.throw "InvalidInputException: rigid body inertia")
  let Ma ← Ma
  if !isSymmetric Ma then throw (.throw "InvalidInputException: added mass")
  let Mt := Mrb + Ma
  if !isSymmetricDefinitePositive Mt then throw (.throw "InvalidInputException: total inertia")
  return { solid := Mrb, total := Mt, inverse := Mt⁻¹ }

end Xdyn.Inertia

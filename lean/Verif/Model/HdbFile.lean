/-
Model of `HDBParser` (hdb_interpolators/src/HDBParser.cpp): what the simulation gets from the text of an HDB file, from the constructor to
the accessors. The functions that read the tables are in Model/Hdb.lean and Model/HdbText.lean.

Simplifications. `ssc::interpolation::SplineVariableStep` (library) is the parameter `spline`: abscissae and ordinates give a function, or an
exception. The `boost::variant<RAOData,std::string>` is an `Except Err (RAOData K)`.
-/
import Verif.Model.HdbText

namespace Xdyn.Hdb

variable {K : Type} [Field K] [LinearOrder K]

/-- What `get_rao` (HDBParser.cpp:178-230) returns: the tables, or the message that says which section or subsection is missing; any other problem
(a row that is too short) is an exception, which goes through. -/
def tryRao (pi : K) (tree : List (ListOfMatrixSectionsWithId K)) (sec sub : String) : Except Err (Except Err (RAOData K)) :=
  match getRao pi tree sec sub with
  | .ok d => .ok (.ok d)
  | .error e =>
    if e = .throw "Unable to find section" ∨ e = .throw "could not find subsection" then .ok (.error e) else .error e

/-- `HDBParser::Impl`, HDBParser.cpp:406, 423-430 (the tree is only used by the constructor and by `get_diffraction_module/phase`,
`get_added_mass_array`, `get_radiation_damping_array`). -/
structure Database (K : Type) where
  tree : Ast K
  pulsations : List K
  M : Fin 6 → Fin 6 → K → K
  Br : Fin 6 → Fin 6 → List K
  Tmin : K
  diffractionModule : Except Err (RAOData K)
  diffractionPhase : Except Err (RAOData K)
  froudeKrylovModule : Except Err (RAOData K)
  froudeKrylovPhase : Except Err (RAOData K)

/-- `get_Mij_for_each_Tp`, HDBParser.cpp:416-421 -/
def coefficients (m : List (K × Mat6 K)) (i j : Fin 6) : List K := m.map (fun p => p.2 i j)

/-- The thirty-six interpolations, HDBParser.cpp:52-59, in the order of the loops. -/
def splines (spline : List K → List K → Except Err (K → K)) (x : List K) (m : List (K × Mat6 K)) : Except Err (Fin 6 → Fin 6 → K → K) :=
  match (List.finRange 6).mapM (fun i => (List.finRange 6).mapM (fun j => spline x (coefficients m i j))) with
  | .error e => .error e
  | .ok l => .ok (fun i j => ((l.getD i.val []).getD j.val (fun _ => 0)))

/-- `HDBParser::Impl::Impl(data)`, HDBParser.cpp:36-70; `x.front()` on an empty vector is undefined behaviour. -/
def database (num : List Char → Option (K × List Char)) (pi : K) (spline : List K → List K → Except Err (K → K)) (data : List Char) :
    Except Err (Database K) := do
  let tree ← parseHdb num data
  let dm ← tryRao pi tree.listsWithId "DIFFRACTION_FORCES_AND_MOMENTS" "INCIDENCE_EFM_MOD_001"
  let dp ← tryRao pi tree.listsWithId "DIFFRACTION_FORCES_AND_MOMENTS" "INCIDENCE_EFM_PH_001"
  let fm ← tryRao pi tree.listsWithId "FROUDE-KRYLOV_FORCES_AND_MOMENTS" "INCIDENCE_EFM_MOD_001"
  let fp ← tryRao pi tree.listsWithId "FROUDE-KRYLOV_FORCES_AND_MOMENTS" "INCIDENCE_EFM_PH_001"
  let Ma ← getMatrix tree.lists "Added_mass_Radiation_Damping" "ADDED_MASS_LINE"
  let Br ← getMatrix tree.lists "Added_mass_Radiation_Damping" "DAMPING_TERM"
  let Tmin ← (match Ma with | [] => .error .ub | p :: _ => .ok p.1)
  let M ← splines spline (Ma.map Prod.fst) Ma
  let omega ← radiationOmegas pi (Br.map Prod.fst)
  pure { tree := tree, pulsations := omega, M := M, Br := fun i j => coefficients Br i j, Tmin := Tmin, diffractionModule := dm, diffractionPhase := dp,
         froudeKrylovModule := fm, froudeKrylovPhase := fp }

/-- `get_added_mass(Tp)`, HDBParser.cpp:302-313 -/
def Database.addedMassAt (d : Database K) (Tp : K) : Mat6 K := fun i j => d.M i j Tp

/-- `get_added_mass()`, HDBParser.cpp:315-318 -/
def Database.addedMass (d : Database K) : Mat6 K := d.addedMassAt d.Tmin

/-- `get_radiation_damping_coeff`, HDBParser.cpp:320-324 -/
def Database.dampingCoeff (d : Database K) (i j : Fin 6) : List K := (d.Br i j).reverse

/-- The accessors of the RAO, HDBParser.cpp:252-290, 326-404: the message kept by the constructor is thrown when the tables, the periods or the
directions (`f`) are asked for. -/
def rao {B : Type} (v : Except Err (RAOData K)) (f : RAOData K → B) : Except Err B :=
  match v with
  | .error _ => .error (.throw "InvalidInput")
  | .ok d => .ok (f d)

end Xdyn.Hdb

/-
Model of the HDB reader, the diffraction interpolator and the radiation damping model.

  code/hdb_interpolators/src/HDBParser.cpp
  code/hdb_interpolators/src/DiffractionInterpolator.cpp
  code/hdb_interpolators/src/RadiationDampingBuilder.cpp
  code/force_models/src/DiffractionForceModel.cpp
  code/force_models/src/RadiationDampingForceModel.cpp

The syntax tree produced by the Boost.Spirit grammar is the input of the model; the
splines, the bilinear interpolators, the quadratures and the root finder of the ssc and
boost libraries are arbitrary functions.
-/
import Mathlib.Analysis.SpecialFunctions.Trigonometric.Basic
import Mathlib.Data.Finset.Sort
import Verif.Model.Common
import Verif.Model.History

namespace Xdyn.Hdb

/-- `std::array<std::array<double,6>,6>` -/
abbrev Mat6 (K : Type) := Fin 6 → Fin 6 → K

/-- hdb::MatrixSection, external_file_formats/inc/hdb_parser_internal_data_structures.hpp:37-43 -/
structure MatrixSection (K : Type) where
  header : String
  values : List (List K)
deriving Repr, DecidableEq

/-- hdb::ListOfMatrixSections, hdb_parser_internal_data_structures.hpp:54-60 -/
structure ListOfMatrixSections (K : Type) where
  header : String
  sections : List (MatrixSection K)
deriving Repr, DecidableEq

/-- hdb::SectionWithId, hdb_parser_internal_data_structures.hpp:45-52 -/
structure SectionWithId (K : Type) where
  header : String
  id : K
  values : List (List K)
deriving Repr, DecidableEq

/-- hdb::ListOfMatrixSectionsWithId, hdb_parser_internal_data_structures.hpp:62-68 -/
structure ListOfMatrixSectionsWithId (K : Type) where
  header : String
  sections : List (SectionWithId K)
deriving Repr, DecidableEq

section
variable {K : Type} [Field K] [LinearOrder K]

/-- The inner loop `ret[k].second[i][j] = M.at(k).at(j+1)` of `fill` (HDBParser.cpp:85-89) for
one period: `M.at(k).front()` is undefined behaviour on an empty row, `at(j+1)` throws if the
row has less than 7 values. -/
def fillRow (i : Fin 6) (old : K × Mat6 K) (row : List K) : Except Err (K × Mat6 K) :=
  match row with
  | [] => .error .ub
  | T :: vs =>
    match vs with
    | a :: b :: c :: d :: e :: f :: _ => .ok (T, Function.update old.2 i ![a, b, c, d, e, f])
    | _ => .error (.throw "out_of_range")

/-- HDBParser::Impl::fill, HDBParser.cpp:72-91 -/
def fill (ret : List (K × Mat6 K)) (i : Fin 6) (M : List (List K)) :
    Except Err (List (K × Mat6 K)) :=
  let ret' := if ret = [] then List.replicate M.length (0, fun _ _ => 0) else ret
  if M.length = ret'.length then (List.zip ret' M).mapM (fun p => fillRow i p.1 p.2)
  else .error (.throw "InvalidInput")

/-- The sixteen entries negated by `convert_matrices_from_aquaplus_to_xdyn_frame`,
HDBParser.cpp:97-112, in the order of the source. -/
def negatedEntries : List (Fin 6 × Fin 6) :=
  [(0, 1), (0, 2), (0, 4), (0, 5),
   (1, 0), (1, 3), (2, 0), (2, 3),
   (3, 1), (3, 2), (3, 4), (3, 5),
   (4, 0), (4, 3), (5, 0), (5, 3)]

/-- `m[i][j] = -m[i][j]`, HDBParser.cpp:97-112 -/
def negateEntry (m : Mat6 K) (e : Fin 6 × Fin 6) : Mat6 K :=
  Function.update m e.1 (Function.update (m e.1) e.2 (-(m e.1 e.2)))

/-- Body of the loop of `convert_matrices_from_aquaplus_to_xdyn_frame`, HDBParser.cpp:97-112 -/
def toXdynFrame (m : Mat6 K) : Mat6 K := negatedEntries.foldl negateEntry m

/-- The six line names, HDBParser.cpp:159 -/
def lineName (matrix : String) (i : Fin 6) : String := matrix ++ "_" ++ toString (i.val + 1)

/-- The loop on `i`, HDBParser.cpp:157-164: at most one `i` matches, since the six names differ;
`found` records the lines which were found. -/
def sectionStep (matrix : String) (acc : List (K × Mat6 K) × (Fin 6 → Bool)) (s : MatrixSection K) :
    Except Err (List (K × Mat6 K) × (Fin 6 → Bool)) :=
  (List.finRange 6).foldlM (fun acc i =>
    if s.header = lineName matrix i then do
      let r ← fill acc.1 i s.values
      pure (r, Function.update acc.2 i true)
    else pure acc) acc

/-- The loops on the sections, HDBParser.cpp:149-167 -/
def readLines (tree : List (ListOfMatrixSections K)) (header matrix : String) :
    Except Err (List (K × Mat6 K) × (Fin 6 → Bool)) :=
  tree.foldlM (fun acc M =>
    if M.header = header then M.sections.foldlM (sectionStep matrix) acc else pure acc)
    ([], fun _ => false)

/-- HDBParser::Impl::get_matrix, HDBParser.cpp:147-176 -/
def getMatrix (tree : List (ListOfMatrixSections K)) (header matrix : String) :
    Except Err (List (K × Mat6 K)) := do
  let r ← readLines tree header matrix
  if ∀ i, r.2 i = true then pure (r.1.map (fun p => (p.1, toXdynFrame p.2)))
  else .error (.throw "InvalidInput")

/-- HDBParser.hpp RAOData: values[axis][period][psi] -/
structure RAOData (K : Type) where
  periods : List K
  psi : List K
  values : Fin 6 → List (List K)

/-- HDBParser.cpp:203: `if (t.size()<p+1) t.push_back({})` -/
def growRows (t : List (List K)) (p : Nat) : List (List K) :=
  if t.length < p + 1 then t ++ [[]] else t

/-- HDBParser.cpp:204: `if (row.size()<n) row.resize(n)` -/
def growRow (row : List K) (n : Nat) : List K :=
  if row.length < n then row ++ List.replicate (n - row.length) 0 else row

/-- HDBParser.cpp:203-205: grow the table if needed, then write one value (`at(period_idx)`
never throws because `period_idx` grows one by one). -/
def setCell (t : List (List K)) (p q : Nat) (x : K) : List (List K) :=
  (growRows t p).set p ((growRow ((growRows t p).getD p []) (q + 1)).set q x)

/-- State of the loops of `get_rao`, HDBParser.cpp:180-183 -/
structure RaoState (K : Type) where
  periods : List K
  psi : List K
  values : Fin 6 → List (List K)
  foundSection : Bool
  foundSubsection : Bool

/-- The loop on the rows, HDBParser.cpp:197-208.  The six axes are written together (in the
source the axes written before a throw are lost with the exception). -/
def raoRows (q : Nat) : Nat → List (List K) → RaoState K → Except Err (RaoState K)
  | _, [], st => pure st
  | p, v :: vs, st =>
    match v with
    | T :: a :: b :: c :: d :: e :: f :: _ =>
      raoRows q (p + 1) vs { st with
        periods := st.periods ++ [T],
        values := fun j => setCell (st.values j) p q (![a, b, c, d, e, f] j) }
    | [] => .error .ub
    | _ => .error (.throw "out_of_range")

/-- The loop on the subsections, HDBParser.cpp:189-211 -/
def raoSections (pi : K) (sub : String) :
    Nat → List (SectionWithId K) → RaoState K → Except Err (RaoState K)
  | _, [], st => pure st
  | q, s :: l, st =>
    if s.header = sub then do
      let st' ← raoRows q 0 s.values
        { st with foundSubsection := true, psi := st.psi ++ [s.id * pi / 180] }
      raoSections pi sub (q + 1) l st'
    else raoSections pi sub q l st

/-- HDBParser::Impl::get_rao, HDBParser.cpp:178-230.  The `std::set`s are read back in increasing
order without duplicates, then sorted. -/
def getRao (pi : K) (tree : List (ListOfMatrixSectionsWithId K)) (sec sub : String) :
    Except Err (RAOData K) := do
  let st ← tree.foldlM (fun (st : RaoState K) ms =>
    if ms.header = sec then raoSections pi sub 0 ms.sections { st with foundSection := true }
    else pure st)
    { periods := [], psi := [], values := fun _ => [], foundSection := false, foundSubsection := false }
  if st.foundSection = false then .error (.throw "Unable to find section")
  else if st.foundSubsection = false then .error (.throw "could not find subsection")
  else pure { periods := st.periods.toFinset.sort (· ≤ ·), psi := st.psi.toFinset.sort (· ≤ ·),
              values := st.values }

/-- The pulsations of the radiation damping, HDBParser.cpp:61-69: periods in reverse order,
refused if zero. -/
def radiationOmegas (pi : K) (periods : List K) : Except Err (List K) :=
  periods.reverse.mapM (fun T => if T = 0 then .error (.throw "InvalidInput") else .ok (2 * pi / T))

/-- RadiationDampingBuilder::build_regular_intervals, RadiationDampingBuilder.cpp:128-139 -/
def regularIntervals (first last : K) (n : Nat) : List K :=
  (List.range n).map (fun (i : Nat) => first + (last - first) * (i : K) / ((n : K) - 1))

/-- RadiationDampingBuilder::find_integration_bound, RadiationDampingBuilder.cpp:166-178;
`root` stands for boost's `toms748_solve(g, omega_min, omega_max).first`. -/
def integrationBound (root : (K → K) → K → K → K) (f : K → K) (omegaMin omegaMax eps : K) : K :=
  if eps < |f omegaMax| then omegaMax
  else if |f omegaMin| < eps then omegaMin
  else root (fun w => |f w| - eps) omegaMin omegaMax

/-- check_all_omegas_are_within_bounds, DiffractionForceModel.cpp:34-57 -/
def checkPeriods (minBound : K) (T : List (List K)) (maxBound : K) : Except Err Unit :=
  T.forM (fun t => t.forM (fun Tp =>
    if Tp < minBound - 1 / 100 then .error (.throw "InvalidInput")
    else if maxBound + 1 / 100 < Tp then .error (.throw "InvalidInput")
    else .ok ()))

/-- GP.cross(force), Eigen -/
def cross (a b : Fin 3 → K) : Fin 3 → K :=
  ![a 1 * b 2 - a 2 * b 1, a 2 * b 0 - a 0 * b 2, a 0 * b 1 - a 1 * b 0]

/-- express_aquaplus_wrench_in_xdyn_coordinates, DiffractionForceModel.cpp:193-198 -/
def aquaplusWrench (v : Fin 6 → K) : Fin 6 → K :=
  ![v 0 * (-1), v 1, v 2, v 3 * (-1), v 4, v 5]

/-- DiffractionForceModel.cpp:174-190: force and torque at G from the six responses `w` at the
calculation point `H0` (both points in the body frame). -/
def diffractionWrench (w : Fin 6 → K) (H0 G : Fin 3 → K) : (Fin 3 → K) × (Fin 3 → K) :=
  let ww := aquaplusWrench w
  let force := ![ww 0, ww 1, ww 2]
  let torque := ![ww 3, ww 4, ww 5]
  let GP := fun i => -(G i) + H0 i
  (force, fun i => torque i + cross GP force i)

/-- TypeOfQuadrature, code/yaml_data_structures (YamlRadiationDamping.hpp) -/
inductive Quadrature where
  | gaussKronrod | rectangle | simpson | trapezoidal | burcher | clenshawCurtis | filon
deriving Repr, DecidableEq

/-- parse_type_of_quadrature_, RadiationDampingForceModel.cpp:213-227 -/
def parseQuadrature (s : String) : Except Err Quadrature :=
  if s = "gauss-kronrod" then .ok .gaussKronrod
  else if s = "rectangle" then .ok .rectangle
  else if s = "simpson" then .ok .simpson
  else if s = "trapezoidal" then .ok .trapezoidal
  else if s = "burcher" then .ok .burcher
  else if s = "clenshaw-curtis" then .ok .clenshawCurtis
  else if s = "filon" then .ok .filon
  else .error (.throw "InvalidInput")

/-- A quadrature of the ssc library: evaluates the integrand, which may throw, and returns the
approximate integral between the two bounds. -/
abbrev Integrate (K : Type) := Quadrature → (K → Except Err K) → K → K → Except Err K

/-- RadiationDampingBuilder::convolution, RadiationDampingBuilder.cpp:85-126 -/
def convolution (integ : Integrate K) (type : Quadrature) (h : History K) (f : K → K)
    (Tmin Tmax : K) : Except Err K :=
  let g := fun tau => do let v ← h.value tau; pure (v * f tau)
  match type with
  | .clenshawCurtis => .error (.throw "InternalError")
  | .filon => .error (.throw "InternalError")
  | t => integ t g Tmin Tmax

/-- YamlRadiationDamping, the fields used by the force model
(RadiationDampingForceModel.cpp:94-96) -/
structure RadiationYaml (K : Type) where
  type : Quadrature
  tauMin : K
  tauMax : K
  omegaMin : K
  omegaMax : K
  calculationPoint : Fin 3 → K

/-- RadiationDampingForceModel::Impl::get_convolution_for_axis,
RadiationDampingForceModel.cpp:134-148.  `vel k` is the history of the k-th velocity
(get_velocity_history_from_index, 150-162) and `Ker` the retardation functions. -/
def convolutionForAxis (integ : Integrate K) (y : RadiationYaml K) (Ker : Fin 6 → Fin 6 → K → K)
    (vel : Fin 6 → History K) (i : Fin 6) : Except Err K :=
  (List.finRange 6).foldlM (fun acc k =>
    if y.tauMin ≤ (vel k).duration then do
      let co ← convolution integ y.type (vel k) (Ker i k) y.tauMin (min y.tauMax (vel k).duration)
      pure (acc + co)
    else pure acc) 0

/-- RadiationDampingForceModel::Impl::get_wrench, RadiationDampingForceModel.cpp:164-176 -/
def radiationWrench (integ : Integrate K) (y : RadiationYaml K) (Ker : Fin 6 → Fin 6 → K → K)
    (vel : Fin 6 → History K) : Except Err (List K) :=
  (List.finRange 6).mapM (fun i => do
    let c ← convolutionForAxis integ y Ker vel i
    pure (-c))

/-- The retardation functions of the force model, RadiationDampingForceModel.cpp:102-114,124-132
and RadiationDampingBuilder.cpp:74-83: `omega`, `coeff i j` come from the HDB file; the bounds of
the cosine transform are `omega.front()` and `omega.back()`, not those of the YAML file.
`interp` is the spline builder and `cosTransform f a b tau` the quadrature. -/
def retardation (interp : List K → List K → K → K) (cosTransform : (K → K) → K → K → K → K)
    (root : (K → K) → K → K → K) (n : Nat) (y : RadiationYaml K) (omega : List K)
    (coeff : Fin 6 → Fin 6 → List K) (i j : Fin 6) : K → K :=
  let taus := regularIntervals y.tauMin y.tauMax n
  let Br := interp omega (coeff i j)
  let omegaMin := omega.headD 0
  let omegaMax := integrationBound root Br omegaMin (omega.getLastD 0) (1 / 1000)
  interp taus (taus.map (cosTransform Br omegaMin omegaMax))

end

/-- DiffractionInterpolator.cpp:75, 107: incidence reduced to [0, 2*pi) -/
noncomputable def wrapAngle (beta : ℝ) : ℝ :=
  beta - 2 * Real.pi * (⌊beta / (2 * Real.pi)⌋ : ℝ)

/-- DiffractionInterpolator::interpolate_module, DiffractionInterpolator.cpp:72-102; `f` is the
interpolator of the axis (period, incidence). -/
noncomputable def interpolateModule (f : ℝ → ℝ → ℝ) (mirror : Bool) (axis : Fin 6) (Tp beta : ℝ) : ℝ :=
  let beta := wrapAngle beta
  if mirror = true ∧ Real.pi < beta then
    let ret := f Tp (2 * Real.pi - beta)
    if axis = 1 ∨ axis = 3 ∨ axis = 5 then ret * (-1) else ret
  else f Tp beta

/-- DiffractionInterpolator::interpolate_phase, DiffractionInterpolator.cpp:104-121 -/
noncomputable def interpolatePhase (f : ℝ → ℝ → ℝ) (mirror : Bool) (_axis : Fin 6) (Tp beta : ℝ) : ℝ :=
  let beta := wrapAngle beta
  if mirror = true ∧ Real.pi < beta then f Tp (2 * Real.pi - beta) else f Tp beta

end Xdyn.Hdb

/-
Model of the HDF5 output: observers_and_api/src/Hdf5Observer.cpp, Hdf5WaveObserver.cpp, Hdf5WaveObserverBuilder.cpp, Hdf5Addressing.cpp and the functions of
interface_hdf5/src/h5_tools.cpp that they use.

External: the HDF5 library. A file is a tree of groups and of datasets; a dataset has dimensions and an element (a number) at each index, 0 where nothing has been
written. Creating a link that exists, opening a dataset as a group and using a dataset that was not created raise an exception. The description, the scripts (Hdf5Observer.cpp:34-36) and
the spectra are not modelled (they are in other groups). Exceptions end the run: the file is what it was before.
-/
import Verif.Model.Observer
import Mathlib.Data.List.SplitOn
import Mathlib.Algebra.BigOperators.Group.List.Basic

namespace Xdyn.Hdf5

open Xdyn.Obs

/-- A dataset: its dimensions and its elements. -/
structure Dataset (N : Type) where
  dims : List Nat
  elem : List Nat → N

/-- What a path of a file leads to. -/
inductive Link (N : Type) where
  | group
  | data (d : Dataset N)

/-- A path: the names from the root. -/
abbrev Path := List (List Char)

/-- Position, in the memory of the block, of the element `idx` of the file when the block of size `count` is written at `offset` (`selectHyperslab`): the last index varies fastest. -/
def slab : List Nat → List Nat → List Nat → Option Nat
  | [], [], [] => some 0
  | o :: os, c :: cs, i :: is => if o ≤ i ∧ i < o + c then (slab os cs is).map (fun r => (i - o) * cs.prod + r) else none
  | _, _, _ => none

/-- `dataset.extend(size)`, `selectHyperslab(H5S_SELECT_SET, count, offset)` then `dataset.write(buffer)`. -/
def Dataset.write {N : Type} (zero : N) (d : Dataset N) (size offset count : List Nat) (buffer : List N) : Dataset N where
  dims := size
  elem idx := match slab offset count idx with
    | some k => buffer.getD k zero
    | none => d.elem idx

/-- An Eigen matrix: its coefficients column after column (the default storage of Eigen). -/
structure EigenMatrix (N : Type) where
  rows : Nat
  cols : Nat
  data : List N

/-- `z(i,j)`. -/
def EigenMatrix.get {N : Type} (zero : N) (m : EigenMatrix N) (i j : Nat) : N := m.data.getD (j * m.rows + i) zero

/-- The memory of `Matrix<double, Dynamic, Dynamic, RowMajor>(z)`, Hdf5WaveObserver.cpp:109-113. -/
def EigenMatrix.rowMajor {N : Type} (zero : N) (m : EigenMatrix N) : List N :=
  (List.range (m.rows * m.cols)).map fun k => m.get zero (k / m.cols) (k % m.cols)

/-- `SurfaceElevationGrid`, SurfaceElevationGrid.hpp. -/
structure Grid (N : Type) where
  t : N
  x : List N
  y : List N
  z : EigenMatrix N

/-- `Hdf5WaveObserver::Impl`: number of grids already written and size of the first one. -/
structure Waves where
  n : Nat
  nx : Nat
  ny : Nat

/-- Data members of `Hdf5Observer`; `failed` is the exception that ended the run. -/
structure File (N : Type) where
  links : Path → Option (Link N)
  datasets : StdMap String Path
  waves : Option Waves
  failed : Option String

/-- An empty file, Hdf5Observer.cpp:22-37. -/
def File.empty {N : Type} : File N := ⟨fun _ => none, [], none, none⟩

/-- Names of the path `s`: `H5_Tools::split(s,"/")`, h5_tools.cpp:34-60, without the empty names. -/
def tokens (s : List Char) : Path := (s.splitOn '/').filter (· ≠ [])

/-- `H5_Tools::join(address,"/")`, h5_tools.cpp:191-203. -/
def join (address : List String) : List Char := ['/'].intercalate (address.map String.toList)

/-- `Hdf5Addressing`, Hdf5Observer.cpp:13-19, with basename "outputs": "/outputs" followed by the address, with "/" in front of it if need be. -/
def path (address : List String) : Path := "outputs".toList :: tokens (join address)

/-- Sets a link. -/
def File.link {N : Type} (f : File N) (p : Path) (l : Link N) : File N := { f with links := fun q => if q = p then some l else f.links q }

/-- `H5_Tools::createMissingGroups`, h5_tools.cpp:100-139, on the prefixes `done ++ ...` of a path: `none` if one of them is a dataset. -/
def createGroups {N : Type} (f : File N) : Path → Path → Option (File N)
  | _, [] => some f
  | done, a :: rest =>
    match f.links (done ++ [a]) with
    | none => createGroups (f.link (done ++ [a]) .group) (done ++ [a]) rest
    | some .group => createGroups f (done ++ [a]) rest
    | some (.data _) => none

/-- An exception. -/
def File.fail {N : Type} (f : File N) (e : String) : File N := { f with failed := some e }

/-- `H5_Tools::createDataSet`, h5_tools.cpp:141-163: the groups, then the dataset if there is none. -/
def createDataset {N : Type} (f : File N) (p : Path) (d : Dataset N) : File N :=
  match createGroups f [] p.dropLast with
  | none => f.fail "H5::Exception"
  | some g =>
    match g.links p with
    | some _ => g.fail "InternalErrorException"
    | none => g.link p (.data d)

/-- Initializer of a number, Hdf5Observer.cpp:62-75: an empty dataset without limit. -/
def initNumber {N : Type} (zero : N) (address : List String) (name : String) (f : File N) : File N :=
  if tokens (join address) = [] then f.fail "H5::Exception"
  else
    let g := createDataset f (path address) ⟨[0], fun _ => zero⟩
    { g with datasets := g.datasets.set name (path address) }

/-- Serializer of a number, Hdf5Observer.cpp:39-60. -/
def writeNumber {N : Type} (zero : N) (x : N) (name : String) (f : File N) : File N :=
  match f.datasets.find name with
  | none => f.fail "H5::Exception"
  | some p =>
    match f.links p with
    | some (.data d) =>
      match d.dims with
      | [n] => f.link p (.data (d.write zero [n + 1] [n] [1] [x]))
      | _ => f.fail "InternalErrorException"
    | _ => f.fail "H5::Exception"

/-- Path of a dataset of the waves: "/outputs/waves/" and its name, Hdf5Observer.cpp:88 and Hdf5WaveObserverBuilder.cpp:57, 73, 89, 108. -/
def wavePath (c : Char) : Path := ["outputs".toList, "waves".toList, [c]]

/-- Initializer of a grid, Hdf5Observer.cpp:82-90, with Hdf5WaveObserverBuilder.cpp (`nx*ny > 0`: EnvironmentAndFrames.cpp:51 only writes grids that are not empty). -/
def initGrid {N : Type} (zero : N) (g : Grid N) (f : File N) : File N :=
  let nx := g.x.length
  let ny := g.y.length
  let f := createDataset f (wavePath 't') ⟨[1], fun _ => zero⟩
  let f := if f.failed = none then createDataset f (wavePath 'x') ⟨[1, nx], fun _ => zero⟩ else f
  let f := if f.failed = none then createDataset f (wavePath 'y') ⟨[1, ny], fun _ => zero⟩ else f
  let f := if f.failed = none then createDataset f (wavePath 'z') ⟨[nx, ny, 1], fun _ => zero⟩ else f
  { f with waves := some ⟨0, nx, ny⟩ }

/-- Writes in the dataset `p`. -/
def writeIn {N : Type} (zero : N) (p : Path) (size offset count : List Nat) (buffer : List N) (f : File N) : File N :=
  match f.links p with
  | some (.data d) => f.link p (.data (d.write zero size offset count buffer))
  | _ => f.fail "H5::Exception"

/-- Serializer of a grid: `Hdf5WaveObserver::Impl::write`, Hdf5WaveObserver.cpp:33-124. Simplification: the size of the grids does not change (any other size raises an exception here). -/
def writeGrid {N : Type} (zero : N) (g : Grid N) (f : File N) : File N :=
  match f.waves with
  | none => f.fail "H5::Exception"
  | some w =>
    if g.x.length = w.nx ∧ g.y.length = w.ny ∧ g.z.rows = w.nx ∧ g.z.cols = w.ny then
      let f := writeIn zero (wavePath 't') [w.n + 1] [w.n] [1] [g.t] f
      let f := writeIn zero (wavePath 'x') [w.n + 1, w.nx] [w.n, 0] [1, w.nx] g.x f
      let f := writeIn zero (wavePath 'y') [w.n + 1, w.ny] [w.n, 0] [1, w.ny] g.y f
      let f := writeIn zero (wavePath 'z') [g.z.rows, g.z.cols, w.n + 1] [0, 0, w.n] [g.z.rows, g.z.cols, 1] (g.z.rowMajor zero) f
      { f with waves := some { w with n := w.n + 1 } }
    else f.fail "H5::Exception"

/-- Nothing is done after an exception. -/
def guard {N : Type} (a : File N → File N) (f : File N) : File N := if f.failed = none then a f else f

/-- `Hdf5Observer`: what is written is an address with a number or a grid. -/
def hdf5 {N : Type} (zero : N) : Impl (File N) (List String × Val N (Grid N)) where
  serializer v name := guard fun f => match v.2 with
    | .num x => writeNumber zero x name f
    | .grid g => writeGrid zero g f
  initializer v name := guard fun f => match v.2 with
    | .num _ => initNumber zero v.1 name f
    | .grid g => initGrid zero g f
  flushAfterInitialization f := f
  beforeWrite f := f
  flushAfterWrite f := f
  flushValueDuringWrite f := f
  flushValueDuringInitialization f := f

/-- A whole simulation observed by a Hdf5Observer: the file, or the exception. -/
def hdf5Run {N : Type} (zero : N) (req : List String) (obs : List ((List String × Val N (Grid N)) × List (String × (List String × Val N (Grid N))))) :
    Except Err (Path → Option (Link N)) :=
  match (Observer.init req File.empty).observeAll (hdf5 zero) obs with
  | .error e => .error e
  | .ok o => match o.sub.failed with
    | some e => .error (.throw e)
    | none => .ok o.sub.links

/-- `GMForceModel::extra_observations`, GMForceModel.cpp:122-126: names, addresses and values. -/
def gmObservations {N : Type} (body model : String) (gm gz : N) : List (String × (List String × Val N (Grid N))) :=
  [("GM(" ++ body ++ ")", (["efforts", body, model, "GM"], .num gm)),
   ("GZ(" ++ body ++ ")", (["efforts", body, model, "GM"], .num gz))]

end Xdyn.Hdf5

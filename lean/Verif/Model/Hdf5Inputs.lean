/-
Model of what is written in an HDF5 output besides the variables: the wave spectra (observers_and_api/src/Hdf5WaveSpectrumObserver.cpp) and the hulls
(external_file_formats/src/stl_io_hdf5.cpp, called by executables/src/xdyn.cpp:86-98), and the reading of a hull.

The HDF5 library is modelled as in Model/Hdf5; an element is a number, an index or a text. The reading of a matrix (`EigenHDF5::load`) is external: it gives the
dimensions and the elements of the dataset.
-/
import Verif.Model.Hdf5
import Verif.Model.Waves
import Verif.Model.Mesh

namespace Xdyn.Hdf5

/-- An element of a dataset. -/
inductive Cell (K : Type) where
  | real (x : K)
  | index (n : Nat)
  | text (s : List Char)

/-- A dataset written at once: `dataset.write(buffer)` on all of it, the last index varying fastest. -/
def whole {K : Type} (dims : List Nat) (buffer : List (Cell K)) : Dataset (Cell K) where
  dims := dims
  elem idx := match slab (dims.map fun _ => 0) dims idx with
    | some k => buffer.getD k (.index 0)
    | none => .index 0

/-- Creation and writing of a dataset, nothing being done after an exception: h5_tools.cpp:305-322 for a vector of numbers. -/
def writeData {K : Type} (p : Path) (dims : List Nat) (buffer : List (Cell K)) : File (Cell K) → File (Cell K) :=
  guard fun f => createDataset f p (whole dims buffer)

/-- A column of numbers: `H5_Tools::write(file, name, std::vector<double>)`, h5_tools.cpp:305-322: `n` lines and one column. -/
def writeColumn {K : Type} (p : Path) (xs : List K) : File (Cell K) → File (Cell K) := writeData p [xs.length, 1] (xs.map .real)

/-- `H5_Tools::write(file, name, std::string)`, h5_tools.cpp:246-260. -/
def writeText {K : Type} (p : Path) (s : List Char) (f : File (Cell K)) : File (Cell K) :=
  if s.length = 0 then f else writeData p [1] [.text s] f

/-! ### Wave spectra -/

/-- `std::setfill('0') << std::setw(2) << index`, Hdf5WaveSpectrumObserver.cpp:29-30. -/
def twoDigits (i : Nat) : List Char := List.replicate (2 - (Nat.toDigits 10 i).length) '0' ++ Nat.toDigits 10 i

/-- `hdf5WaveSpectrumObserver`, Hdf5WaveSpectrumObserver.cpp:36-47. -/
def writeSpectrum (base : Path) (s : Waves.Flat) (f : File (Cell ℝ)) : File (Cell ℝ) :=
  let f := writeColumn (base ++ ["omega".toList]) (s.comps.map Waves.Comp.omega) f
  let f := writeColumn (base ++ ["a".toList]) (s.comps.map Waves.Comp.a) f
  let f := writeColumn (base ++ ["gamma".toList]) (s.comps.map Waves.Comp.psi) f
  let f := writeColumn (base ++ ["k".toList]) (s.comps.map Waves.Comp.k) f
  writeColumn (base ++ ["phase".toList]) s.phase f

/-- Where the spectra are, Hdf5Observer.cpp:108. -/
def spectraPath : Path := ["outputs".toList, "spectra".toList]

/-- `hdf5WaveSpectrumObserver` on all the spectra, Hdf5WaveSpectrumObserver.cpp:18-34; `formula` is the text of line 25. -/
def writeSpectra (formula : List Char) (models : List Waves.Flat) (f : File (Cell ℝ)) : File (Cell ℝ) :=
  models.zipIdx.foldl (fun f s => writeSpectrum (spectraPath ++ [twoDigits s.2]) s.1 f) (writeText (spectraPath ++ ["elevation".toList]) formula f)

/-! ### Hulls -/

open Hull

/-- Coordinates of points one after the other, stl_io_hdf5.cpp:49-65 and 121-128. -/
def coordinates {K : Type} (ps : List (Pt K)) : List (Cell K) := ps.flatMap fun p => [.real p.x, .real p.y, .real p.z]

/-- Indices of the triangles of the facets, stl_io_hdf5.cpp:141-150. `vertex_index.size()-2` wraps when there are less than two vertices: then `at` throws. -/
def facetIndices (facets : List (List Nat)) : Except Err (List Nat) :=
  if facets.any (fun v => v.length < 2) then .error (.throw "std::out_of_range")
  else .ok (facets.flatMap fun v => (List.range (v.length - 2)).flatMap fun k => [1 + v.getD 0 0, 1 + v.getD (k + 1) 0, 1 + v.getD (k + 2) 0])

/-- `writeMeshToHdf5File` on nodes and facets, stl_io_hdf5.cpp:113-152, with `getNumberOfTriangles`, 34-43. When a facet has less than two vertices, the dataset of the faces may exist
when the exception is thrown (140): this is not modelled. -/
def writeMesh {K : Type} (base : Path) (nodes : List (Pt K)) (facets : List (List Nat)) (f : File (Cell K)) : File (Cell K) :=
  let f := writeData (base ++ ["points".toList]) [nodes.length, 3] (coordinates nodes) f
  match facetIndices facets with
  | .error _ => guard (fun f => f.fail "std::out_of_range") f
  | .ok res => writeData (base ++ ["faces".toList]) [(facets.map fun v => v.length - 2).sum, 3] (res.map .index) f

/-- `concatenateTriangles`, stl_io_hdf5.cpp:67-82: `c` is the index of the first point of the polygon. -/
def polygonIndices : Nat → List Nat → List Nat
  | _, [] => []
  | c, n :: ns => ((List.range (n - 2)).flatMap fun k => [c, c + k + 1, c + k + 2]) ++ polygonIndices (c + n) ns

/-- `writeMeshToHdf5File` on polygons, stl_io_hdf5.cpp:84-102, with 12-47. A polygon of less than two points makes the loop of line 74 run 2^64-1 or 2^64-2 times:
the memory is exhausted. -/
def writePolygons {K : Type} (base : Path) (v : List (List (Pt K))) (f : File (Cell K)) : File (Cell K) :=
  let f := writeData (base ++ ["points".toList]) [v.flatten.length, 3] (coordinates v.flatten) f
  if v.any (fun p => p.length < 2) then guard (fun f => f.fail "std::bad_alloc") f
  else writeData (base ++ ["faces".toList]) [(v.map fun p => p.length - 2).sum, 3] ((polygonIndices 1 (v.map List.length)).map .index) f

/-- Where the hull of a body is, xdyn.cpp:92-93. -/
def hullPath (body : String) : Path := "inputs".toList :: "meshes".toList :: tokens body.toList

/-- What is written in an HDF5 output before the simulation, xdyn.cpp:77-98: the command line, the input file and, for each body (its name, its nodes and its facets), its hull.
The file is opened, or created if it does not exist, each time. -/
def writeContext {K : Type} (command yaml : List Char) (hulls : List (String × List (Pt K) × List (List Nat))) (f : File (Cell K)) : File (Cell K) :=
  hulls.foldl (fun f h => if 0 < h.2.1.length then writeMesh (hullPath h.1) h.2.1 h.2.2 f else f)
    (writeText ["inputs".toList, "yaml".toList, "input".toList] yaml (writeText ["inputs".toList, "command".toList] command f))

/-- A matrix of a file, `EigenHDF5::load`: its number of rows, of columns and its elements. -/
def load {K : Type} (links : Path → Option (Link (Cell K))) (p : Path) : Except Err (Nat × Nat × (Nat → Nat → Cell K)) :=
  match links p with
  | some (.data d) =>
    match d.dims with
    | [n, m] => .ok (n, m, fun i j => d.elem [i, j])
    | _ => .error (.throw "H5::Exception")
  | _ => .error (.throw "H5::Exception")

/-- A coordinate of the point `v` (counted from 1): out of the matrix, the behaviour is undefined. -/
def coordinate {K : Type} (n m : Nat) (points : Nat → Nat → Cell K) (v c : Nat) : Except Err K :=
  if v = 0 ∨ n < v ∨ m ≤ c then .error .ub
  else match points (v - 1) c with
    | .real x => .ok x
    | _ => .error (.throw "H5::Exception")

/-- The point that an element of the faces designates, stl_io_hdf5.cpp:176-181. -/
def readPoint {K : Type} (n m : Nat) (points : Nat → Nat → Cell K) : Cell K → Except Err (Pt K)
  | .index v => do
    let x ← coordinate n m points v 0
    let y ← coordinate n m points v 1
    let z ← coordinate n m points v 2
    return ⟨x, y, z⟩
  | _ => .error (.throw "H5::Exception")

/-- `readMeshFromHdf5File`, stl_io_hdf5.cpp:161-185. -/
def readMesh {K : Type} (links : Path → Option (Link (Cell K))) (base : Path) : Except Err (List (List (Pt K))) := do
  let (n, m, points) ← load links (base ++ ["points".toList])
  let (rows, cols, faces) ← load links (base ++ ["faces".toList])
  (List.range rows).mapM fun i => (List.range cols).mapM fun j => readPoint n m points (faces i j)

end Xdyn.Hdf5

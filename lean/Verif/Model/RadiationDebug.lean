import Verif.Model.Hdb

/-
The tables written on the error stream by the force model `radiation damping` when `output Br and K` is true: force_models/src/RadiationDampingForceModel.cpp:33-87 (class `CSVWriter`) and
94-122 (constructor).  `fmt` is the text of a number (`operator<<` of a stream).
-/

namespace Xdyn.Hdb

variable {K : Type}

/-- The members of `CSVWriter`, RadiationDampingForceModel.cpp:83-87 (a name for each function). -/
structure CsvWriter (K : Type) where
  xName : List Char
  xs : List K
  functions : List (List Char × (K → K))

/-- `CSVWriter::add`, RadiationDampingForceModel.cpp:43-49. -/
def CsvWriter.add (w : CsvWriter K) (name : List Char) (f : K → K) (i j : Nat) : CsvWriter K :=
  { w with functions := w.functions ++ [(name ++ '_' :: ((toString i).toList ++ (toString j).toList), f)] }

/-- `CSVWriter::print_title`, RadiationDampingForceModel.cpp:61-69. -/
def CsvWriter.title (w : CsvWriter K) : List Char :=
  w.xName ++ w.functions.flatMap (fun f => ',' :: f.1) ++ ['\n']

/-- `CSVWriter::print_values`, RadiationDampingForceModel.cpp:71-82. -/
def CsvWriter.values (fmt : K → List Char) (w : CsvWriter K) : List Char :=
  w.xs.flatMap (fun x => fmt x ++ w.functions.flatMap (fun f => ',' :: fmt (f.2 x)) ++ ['\n'])

/-- `CSVWriter::print`, RadiationDampingForceModel.cpp:51-56. -/
def CsvWriter.print (fmt : K → List Char) (w : CsvWriter K) : List Char := w.title ++ w.values fmt

/-- The two loops of the constructor, RadiationDampingForceModel.cpp:102-114. -/
def fillWriter (w : CsvWriter K) (name : List Char) (f : Fin 6 → Fin 6 → K → K) : CsvWriter K :=
  (List.finRange 6).foldl (fun w i => (List.finRange 6).foldl (fun w j => w.add name (f i j) (i.val + 1) (j.val + 1)) w) w

/-- What the constructor `RadiationDampingForceModel::Impl::Impl` writes on the error stream, RadiationDampingForceModel.cpp:98-121. -/
def debugText (fmt : K → List Char) (output : Bool) (omega taus : List K) (Br Ker : Fin 6 → Fin 6 → K → K) : List Char :=
  if output then
    "Debugging information for damping functions Br:".toList ++ ['\n'] ++
    (fillWriter ⟨"omega".toList, omega, []⟩ "Br".toList Br).print fmt ++
    ['\n'] ++ "Debugging information for retardation functions K:".toList ++ ['\n'] ++
    (fillWriter ⟨"tau".toList, taus, []⟩ "K".toList Ker).print fmt
  else []

end Xdyn.Hdb

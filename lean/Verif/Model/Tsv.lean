/-
Model of observers_and_api/src/TsvObserver.cpp: output of a simulation as text in columns.

Simplifications. The text is a list of characters (the code counts bytes: same thing for ASCII names). `fmt` is `os << double` with
`std::scientific` and three digits. The width set by the constructor (line 18) is the one of the first name.
-/
import Verif.Model.Observer

namespace Xdyn.Obs

/-- Text written so far, `length_of_title_line`, and whether `std::string` has thrown `std::length_error`. -/
structure Tsv where
  text : List Char
  length : Nat
  failed : Bool
deriving DecidableEq

/-- `std::setw(WIDTH) << name`, TsvObserver.cpp:8-9, 34: padded on the left up to nine characters. -/
def padded (name : List Char) : List Char := List.replicate (9 - name.length) ' ' ++ name

/-- TsvObserver.cpp:27-51. Grids: the functions inherited from `Observer`, Observer.cpp:17-25, write nothing. When no title has been written,
`length_of_title_line-1` wraps to the largest `size_t`: `std::string` throws. -/
def tsv {N G : Type} (fmt : N → List Char) : Impl Tsv (Val N G) where
  serializer v _ s :=
    match v with
    | .num x => { s with text := s.text ++ fmt x }
    | .grid _ => s
  initializer v name s :=
    match v with
    | .num _ => { s with text := s.text ++ padded name.toList, length := s.length + (max name.toList.length 9 + 1) }
    | .grid _ => s
  flushAfterInitialization s :=
    if s.length = 0 then { s with text := s.text ++ ['\n'], failed := true }
    else { s with text := s.text ++ ['\n'] ++ List.replicate (s.length - 1) '-' ++ ['\n'] }
  beforeWrite s := s
  flushAfterWrite s := { s with text := s.text ++ ['\n'] }
  flushValueDuringWrite s := { s with text := s.text ++ [' '] }
  flushValueDuringInitialization s := { s with text := s.text ++ [' '] }

/-- A whole simulation observed by a TsvObserver: the text, or the exception. -/
def tsvRun {N G : Type} (fmt : N → List Char) (req : List String) (obs : List (Val N G × List (String × Val N G))) : Except Err (List Char) :=
  match (Observer.init req ⟨[], 0, false⟩).observeAll (tsv fmt) obs with
  | .error e => .error e
  | .ok o => if o.sub.failed then .error (.throw "length_error") else .ok o.sub.text

end Xdyn.Obs

import Verif.Model.Common
import Mathlib.Algebra.Order.Field.Basic

/-
Model of code/hdb_interpolators/src/History.cpp (class `History`).

`double` is an arbitrary linearly ordered field `K`.  The comparison in units in the last
place `almost_equal(a, b, n)` (History.cpp:24-44) is the parameter `ae n a b`: the theorems
only assume that it is reflexive.
-/

namespace Xdyn

variable {K : Type} [Field K] [LinearOrder K] [IsStrictOrderedRing K]

/-- Data members of class `History`: `Tmax`, the samples `L` as (date, value) pairs and
`oldest_recorded_instant` (History.hpp). -/
structure History (K : Type) where
  Tmax : K
  L : List (K × K)
  oldest : K
deriving DecidableEq

namespace History

/-- `1E-12`, History.cpp:64,105,109. -/
def eps (K : Type) [Field K] : K := 1 / 10 ^ 12

/-- `History::History(Tmax)`, History.cpp:46-48. -/
def new (Tmax : K) : History K := { Tmax := Tmax, L := [], oldest := 0 }

/-- `History::get_duration` (History.cpp:237-241) and `get_tmax` (50-55). -/
def durationOf (L : List (K × K)) : K :=
  match L.head?, L.getLast? with
  | some a, some b => b.1 - a.1
  | _, _ => 0

/-- `History::History(Container)`, History.cpp:57-59. -/
def ofContainer (L : List (K × K)) : History K :=
  { Tmax := durationOf L, L := L, oldest := (L.head?.map Prod.fst).getD 0 }

/-- `History::get_duration`, History.cpp:237-241. -/
def duration (h : History K) : K := durationOf h.L

/-- `History::get_current_time`, History.cpp:82-85. -/
def currentTime (h : History K) : K :=
  match h.L.getLast? with
  | some b => b.1
  | none => h.oldest

/-- The `while (true)` loop of `find_braketing_position`, History.cpp:132-160.
Simplification: the mean of the two indices, computed with `double`s at line 146, is
`(lo + gr) / 2`, exact for sizes below 2^52. -/
def bracketLoop (L : List (K × K)) (t : K) (lo gr : Nat) : Except Err Nat := do
  let a ← getUB L lo
  if t = a.1 then return lo
  let b ← getUB L gr
  if t = b.1 then return gr
  if h : gr ≤ lo + 1 then return gr
  else
    let mid := (lo + gr) / 2
    let m ← getUB L mid
    if t = m.1 then return mid
    if t < m.1 then bracketLoop L t lo mid
    else bracketLoop L t mid gr
termination_by gr - lo
decreasing_by all_goals omega

/-- `History::find_braketing_position`, History.cpp:125-162. -/
def bracket (L : List (K × K)) (t : K) : Except Err Nat :=
  match L.head?, L.getLast? with
  | some a, some b =>
    if b.1 < t then .ok L.length
    else if a.1 ≥ t then .ok 0
    else bracketLoop L t 0 (L.length - 1)
  | _, _ => .ok 0

/-- `History::interpolate_value_in_interval`, History.cpp:94-114. -/
def interpolate (L : List (K × K)) (idx : Nat) (t : K) : Except Err K :=
  if idx = 0 ∨ L.length ≤ idx then do return (← getUB L 0).2
  else do
    let (tA, yA) ← getUB L (idx - 1)
    let (tB, yB) ← getUB L idx
    if |t - tA| < eps K then return yA
    if |t - tB| < eps K then return yB
    return (t - tA) / (tB - tA) * (yB - yA) + yA

/-- `History::get_value`, History.cpp:87-92. -/
def getValue (h : History K) (tau : K) : Except Err K := do
  let t := h.currentTime
  let idx ← bracket h.L (t - tau)
  interpolate h.L idx (t - tau)

/-- `History::operator()(tau)`, History.cpp:61-80. -/
def value (h : History K) (tau : K) : Except Err K :=
  let tau := if |tau - h.Tmax| < eps K then h.Tmax else tau
  if tau > h.Tmax then .ok 0
  else if tau < 0 then .error (.throw "value in the future")
  else if h.L.isEmpty then .ok 0
  else h.getValue tau

/-- `History::update_oldest_recorded_instant`, History.cpp:192-196. -/
def updateOldest (h : History K) (t : K) : History K :=
  let o := if h.L.isEmpty then t else h.oldest
  { h with oldest := min o t }

/-- `History::add_value_to_history`, History.cpp:179-190. -/
def addValue (ae : Nat → K → K → Bool) (h : History K) (t v : K) : Except Err (History K) := do
  let idx ← bracket h.L t
  if idx ≠ h.L.length then
    let p ← getUB h.L idx
    if ae 4 p.1 t then return { h with L := h.L.set idx (t, v) }
  return { h with L := h.L.take idx ++ (t, v) :: h.L.drop idx }

/-- `History::shift_oldest_recorded_instant_if_necessary`, History.cpp:164-177.
`L.erase(begin, begin + idx)` is `drop idx`; `L.front()` of an empty vector would be
undefined behaviour. -/
def shift (ae : Nat → K → K → Bool) (h : History K) : Except Err (History K) := do
  if h.currentTime - h.oldest ≥ h.Tmax then
    let oldest := h.currentTime - h.Tmax
    let vmin ← interpolate h.L 1 oldest
    let idx ← bracket h.L oldest
    let L := h.L.drop idx
    let front ← getUB L 0
    if ae 32 front.1 oldest then return { h with L := L, oldest := oldest }
    return { h with L := (oldest, vmin) :: L, oldest := oldest }
  return h

/-- `History::record`, History.cpp:198-225. -/
def record (ae : Nat → K → K → Bool) (h : History K) (t v : K) : Except Err (History K) :=
  match h.L.getLast? with
  | some b =>
    let t := if ae 4 t b.1 then b.1 else t
    if t < b.1 then .error (.throw "history must be recorded in a strictly increasing order")
    else do
      let h ← addValue ae (updateOldest h t) t v
      shift ae h
  | none => do
    let h ← addValue ae (updateOldest h t) t v
    shift ae h

/-- `History::reset`, History.cpp:306-310. -/
def reset (h : History K) : History K := { h with L := [], oldest := 0 }

/-- `History::trapeze`, History.cpp:255-258. -/
def trapeze (xa ya xb yb : K) : K := (xb - xa) * (ya + yb) / 2

/-- `History::integrate` (History.cpp:260-268) applied to the samples from index `idx` on.
(For an empty history the loop bound `L.size()-1` would wrap around; `average` never calls
it in that case.) -/
def integrate : List (K × K) → K
  | a :: b :: l => trapeze a.1 a.2 b.1 b.2 + integrate (b :: l)
  | _ => 0

/-- `History::average`, History.cpp:280-292.  Simplification: the sum of `integrate` is
accumulated from the right instead of from the left (equal in a field). -/
def average (h : History K) (T : K) : Except Err K :=
  match h.L with
  | [] => .ok 0
  | [a] => .ok a.2
  | _ =>
    if T < 0 then .error (.throw "supplied length is negative")
    else do
      let T := min T h.duration
      let t := h.currentTime - T
      let idx ← bracket h.L t
      let firstValue ← interpolate h.L idx t
      let p ← getAt h.L idx
      let i0 := trapeze t firstValue p.1 p.2
      let i1 := integrate (h.L.drop idx)
      if T ≠ 0 then return (i0 + i1) / T
      else
        let b ← getUB h.L (h.L.length - 1)
        return b.2

/-- `History::operator[](int)`, History.cpp:294-304: `L.size()+(size_t)index` wraps modulo
2^64, i.e. is `L.size() + index` when that is non-negative. -/
def index (h : History K) (i : Int) : Except Err (K × K) :=
  if i ≥ 0 then getUB h.L i.toNat
  else if (h.L.length : Int) + i ≥ 0 then getUB h.L ((h.L.length : Int) + i).toNat
  else .error .ub

/-- `History::get_values`, History.cpp:317-334. -/
def getValues (h : History K) (tmax : K) : Except Err (List K) :=
  if tmax = 0 then do return [← h.value 0]
  else .ok ((h.L.filter (fun p => tmax ≥ h.currentTime - p.1)).map Prod.snd)

/-- `History::get_dates`, History.cpp:336-354. -/
def getDates (h : History K) (tmax : K) : List K :=
  if tmax = 0 then [h.currentTime]
  else (h.L.filter (fun p => tmax ≥ h.currentTime - p.1)).map Prod.fst

end History
end Xdyn

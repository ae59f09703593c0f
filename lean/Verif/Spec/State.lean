import Verif.Model.State
import Verif.Model.BlockedDof

/-! Names of the states of a body, and their documented order in the state vector
(x, y, z, u, v, w, p, q, r, qr, qi, qj, qk). -/

namespace Xdyn.Spec

inductive StateName where
  | x | y | z | u | v | w | p | q | r | qr | qi | qj | qk
deriving DecidableEq, Repr

/-- Rank of a state in the documented order. -/
def StateName.rank : StateName → Nat
  | .x => 0 | .y => 1 | .z => 2 | .u => 3 | .v => 4 | .w => 5 | .p => 6 | .q => 7 | .r => 8
  | .qr => 9 | .qi => 10 | .qj => 11 | .qk => 12

/-- The field of a record of thirteen states that has a given name. -/
def field {α : Type} (s : States α) : StateName → α
  | .x => s.x | .y => s.y | .z => s.z | .u => s.u | .v => s.v | .w => s.w | .p => s.p | .q => s.q
  | .r => s.r | .qr => s.qr | .qi => s.qi | .qj => s.qj | .qk => s.qk

/-- Name of a state that can be blocked. -/
def blockable : Blocked.BlockableState → StateName
  | .U => .u | .V => .v | .W => .w | .P => .p | .Q => .q | .R => .r

/-- Where the state `s` of body number `i` is expected in the state vector. -/
def slot (i : Nat) (s : StateName) : Nat := 13 * i + s.rank

/-- The dates of a table of prescribed values surround `t`. -/
def Covers {K : Type} [LE K] (T : Blocked.Table K) (t : K) : Prop :=
  (∃ a ∈ T.t, a ≤ t) ∧ ∃ a ∈ T.t, t ≤ a

end Xdyn.Spec

import Mathlib.Algebra.Order.Field.Basic

/-! Specifications used by the properties of `History`: they do not depend on the model. -/

namespace Xdyn.Spec

variable {K : Type} [Field K] [LinearOrder K]

/-- The dates of a list of (date, value) samples are strictly increasing. -/
def StrictlyIncreasing (L : List (K × K)) : Prop := L.Pairwise (fun p q => p.1 < q.1)

/-- `a` and `b` are two successive samples of `L`. -/
def Consecutive (L : List (K × K)) (a b : K × K) : Prop :=
  ∃ i, L[i]? = some a ∧ L[i + 1]? = some b

/-- Value at `s` of the straight line through `a` and `b`. -/
def line (a b : K × K) (s : K) : K := a.2 + (s - a.1) / (b.1 - a.1) * (b.2 - a.2)

/-- `y` is the value at date `s` of the piecewise linear curve through the samples `L`. -/
def Curve (L : List (K × K)) (s y : K) : Prop :=
  (s, y) ∈ L ∨ ∃ a b, Consecutive L a b ∧ a.1 < s ∧ s < b.1 ∧ y = line a b s

/-- Area under the piecewise linear curve through the samples. -/
def area : List (K × K) → K
  | a :: b :: l => (b.1 - a.1) * ((a.2 + b.2) / 2) + area (b :: l)
  | _ => 0

end Xdyn.Spec

import Mathlib.Data.List.Forall2

/-
Specification side of the input files: what a YAML document is, and what it means for it to say
something.  Nothing here comes from the code.
-/

namespace Xdyn.Input

/-- A YAML document: text, list, or map from keys to documents. -/
inductive Yaml where
  | scalar (s : String)
  | seq (l : List Yaml)
  | map (l : List (String × Yaml))

/-- What the reading libraries do with texts: numbers, integers, booleans and units (the factor that converts
to the international system); `emptyList` tells which documents that are not lists are read as the empty list. -/
structure Conv (K : Type) where
  num : String → Option K
  int : String → Option Int
  nat : String → Option Nat
  bool : String → Option Bool
  unit : String → Option K
  emptyList : Yaml → Bool

/-- Key `k` of the document is followed by `v`. -/
def HasKey (n : Yaml) (k : String) (v : Yaml) : Prop := ∃ l, n = .map l ∧ l.lookup k = some v

/-- The document has no key `k`. -/
def Lacks (n : Yaml) (k : String) : Prop := (∃ l, n = .map l ∧ l.lookup k = none) ∨ ∃ l, n = .seq l

/-- What follows key `k` satisfies `P`. -/
def Key (n : Yaml) (k : String) (P : Yaml → Prop) : Prop := ∃ v, HasKey n k v ∧ P v

/-- Either `k` is a key, and `P` holds for what follows it, or it is not, and `D` holds. -/
def OptKey (n : Yaml) (k : String) (P : Yaml → Prop) (D : Prop) : Prop := Key n k P ∨ (Lacks n k ∧ D)

def IsText (s : String) (n : Yaml) : Prop := n = .scalar s

variable {K : Type}

def IsNumber (c : Conv K) (x : K) (n : Yaml) : Prop := ∃ s, n = .scalar s ∧ c.num s = some x
def IsInt (c : Conv K) (x : Int) (n : Yaml) : Prop := ∃ s, n = .scalar s ∧ c.int s = some x
def IsNat (c : Conv K) (x : Nat) (n : Yaml) : Prop := ∃ s, n = .scalar s ∧ c.nat s = some x
def IsBool (c : Conv K) (x : Bool) (n : Yaml) : Prop := ∃ s, n = .scalar s ∧ c.bool s = some x

/-- The elements of a list satisfy `P`, one by one. -/
def IsList {α : Type} (c : Conv K) (P : α → Yaml → Prop) (l : List α) (n : Yaml) : Prop :=
  (∃ ns, n = .seq ns ∧ List.Forall₂ P l ns) ∨ ((∀ ns, n ≠ .seq ns) ∧ c.emptyList n = true ∧ l = [])

/-- `{value: v, unit: u}` is the quantity `x`, in the international system. -/
def IsQuantity [Mul K] (c : Conv K) (x : K) (n : Yaml) : Prop :=
  ∃ v u, Key n "value" (IsNumber c v) ∧ Key n "unit" (fun m => ∃ s, m = .scalar s ∧ c.unit s = some u) ∧ x = v * u

/-- `{values: [v1, v2, ...], unit: u}`. -/
def IsQuantities [Mul K] (c : Conv K) (l : List K) (n : Yaml) : Prop :=
  ∃ v u, Key n "values" (IsList c (IsNumber c) v) ∧ Key n "unit" (fun m => ∃ s, m = .scalar s ∧ c.unit s = some u) ∧
    l = v.map (· * u)

end Xdyn.Input

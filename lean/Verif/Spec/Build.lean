/-
Specification of a simulation built from an input file: which force models act on which body, independently of how they are stored.
-/
import Verif.Model.Build

namespace Xdyn.Build.Spec
open Xdyn.Config Xdyn.Build

variable {Y D K P C W M B X : Type}

/-- The force model `f` is the one that the section element `m` of body `body` asks for: constructed by the parser of its name, for
that body, with its parameters, in world `w`; `w'` is the world afterwards. -/
def Asked (makers : List (Maker Y K P W)) (body : Text) (m : Model Y) (w : W) (f : Made K P) (w' : W) : Prop :=
  ∃ p ∈ makers, p.name = m.model ∧ f.body = body ∧ p.make body m.yaml w = .ok ((f.tmax, f.surface, f.rest), w')

/-- The force models `fs` are those of the section `ms` of a body: one per element, in order, one construction each. -/
inductive Section (makers : List (Maker Y K P W)) (body : Text) : List (Model Y) → W → List (Made K P) → W → Prop
  | nil (w : W) : Section makers body [] w [] w
  | cons (m : Model Y) (ms : List (Model Y)) (f : Made K P) (fs : List (Made K P)) (w w1 w2 : W) :
      Asked makers body m w f w1 → Section makers body ms w1 fs w2 → Section makers body (m :: ms) w (f :: fs) w2

/-- The force models of all the bodies, one section per body, in order. -/
inductive Sections (makers : List (Maker Y K P W)) (models : YBody Y D → List (Model Y)) :
    List (YBody Y D) → W → List (List (Made K P)) → W → Prop
  | nil (w : W) : Sections makers models [] w [] w
  | cons (b : YBody Y D) (bs : List (YBody Y D)) (f : List (Made K P)) (fs : List (List (Made K P))) (w w1 w2 : W) :
      Section makers b.name (models b) w f w1 → Sections makers models bs w1 fs w2 → Sections makers models (b :: bs) w (f :: fs) w2

/-- The mesh of a body is the content of its own file, or the empty mesh. -/
def MeshOf (readStl : Text → Except Err M) (noMesh : M) (b : YBody Y D) (m : M) : Prop :=
  (b.mesh = [] ∧ m = noMesh) ∨ (b.mesh ≠ [] ∧ readStl b.mesh = .ok m)

/-- `T` is a sufficient length of history for all these force models. -/
def LongEnough [LE K] (T : K) (l : List (Made K P)) : Prop := ∀ f ∈ l, f.tmax ≤ T

end Xdyn.Build.Spec

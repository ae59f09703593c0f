import Verif.Spec.Control
import Verif.Spec.Converge
import Verif.Props.Diffraction

/-! The equations of motion of a body in waves: the forces depend on the date. -/

namespace Xdyn.Sim

open Blocked Body

/-- What the force model `diffraction` needs: the calculation point, whether the tables are mirrored, the modules and the phases of the responses of
each axis (functions of the period and of the incidence), the sea and the way the heading is read. -/
structure WaveLoad where
  H0 : Vec3 ℝ
  mirror : Bool
  modules : Fin 6 → ℝ → ℝ → ℝ
  phases : Fin 6 → ℝ → ℝ → ℝ
  sea : Sea.Sea
  psiOf : Mat3 ℝ → ℝ

/-- The six responses at the date `t` of a body at the position `p` with the attitude `q`. -/
noncomputable def WaveLoad.response (L : WaveLoad) (t : ℝ) (p : Vec3 ℝ) (q : Quat ℝ) : Fin 6 → ℝ :=
  Sea.seaResponse L.modules L.phases L.mirror L.sea ((p + q.matrix.mulVec L.H0) 0) ((p + q.matrix.mulVec L.H0) 1) t (L.psiOf q.matrix)

/-- Force and torque at the centre of gravity `G`, in the axes of the body. -/
noncomputable def WaveLoad.wrench (L : WaveLoad) (G : Vec3 ℝ) (t : ℝ) (p : Vec3 ℝ) (q : Quat ℝ) : Vec3 ℝ × Vec3 ℝ :=
  let R := L.response t p q
  (![-R 0, R 1, R 2], ![-R 3, R 4, R 5] + cross (L.H0 - G) ![-R 0, R 1, R 2])

/-- Sum of the forces on a body in waves, at the date `t`. -/
noncomputable def inWaves (b : Multi.MBody ℝ) (l : List Push) (cs : List Control) (L : WaveLoad) (t : ℝ) (p u w : Vec3 ℝ) (q : Quat ℝ) : Vec3 ℝ × Vec3 ℝ :=
  total b l cs p u w q + L.wrench b.G t p q

/-- The equations of motion when the forces depend on the date. -/
noncomputable def newtonAt (Minv : Mat6 ℝ) (F : ℝ → Vec3 ℝ → Vec3 ℝ → Vec3 ℝ → Quat ℝ → Vec3 ℝ × Vec3 ℝ) (x : List ℝ) (t : ℝ) : List ℝ :=
  newton Minv (F t) x t

/-- The responses are Lipschitz functions of the incidence, for the period of each wave of the sea. -/
def WaveLoad.Regular (L : WaveLoad) : Prop :=
  ∀ f ∈ L.sea.spectra, ∀ c ∈ f.comps, ∀ i : Fin 6,
    LipschitzOnIntervals (Hdb.interpolateModule (L.modules i) L.mirror i (2 * Real.pi / c.omega)) ∧
    LipschitzOnIntervals (Hdb.interpolatePhase (L.phases i) L.mirror i (2 * Real.pi / c.omega))

/-- Each stage uses all the previous ones, and the sum of its coefficients is its date (as a fraction of the time step); `m` stages precede these ones. -/
def TimedRows : Nat → List (ℝ × List ℝ) → Prop
  | _, [] => True
  | m, (c, a) :: rest => a.length = m ∧ a.sum = c ∧ TimedRows (m + 1) rest

end Xdyn.Sim

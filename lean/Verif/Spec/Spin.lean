import Verif.Model.Body
import Mathlib.Analysis.Complex.Trigonometric

/-! Quaternions of the rotations about an axis. -/

namespace Xdyn.Sim

open Body

/-- The quaternion `a + b n` for `z = a + i b`. If `n` is a unit vector and `z = cos (φ/2) + i sin (φ/2)`, it is the quaternion of the
rotation of angle `φ` about `n`. -/
def turn (n : Vec3 ℝ) (z : ℂ) : Quat ℝ := ⟨z.re, z.im * n 0, z.im * n 1, z.im * n 2⟩

/-- The quaternion `c q`. -/
def Quat.scale (c : ℝ) (q : Quat ℝ) : Quat ℝ := ⟨c * q.w, c * q.x, c * q.y, c * q.z⟩

/-- The attitude reached from `q` by a rotation of angle `phi` about the axis `n` of the body. -/
noncomputable def turned (q : Quat ℝ) (n : Vec3 ℝ) (phi : ℝ) : Quat ℝ :=
  q.mul ⟨Real.cos (phi / 2), Real.sin (phi / 2) * n 0, Real.sin (phi / 2) * n 1, Real.sin (phi / 2) * n 2⟩

/-- Rodrigues' formula: the vector `v` turned by `phi` about the unit vector `n`. -/
noncomputable def rotated (n : Vec3 ℝ) (phi : ℝ) (v : Vec3 ℝ) : Vec3 ℝ :=
  Real.cos phi • v + Real.sin phi • cross n v + ((1 - Real.cos phi) * dot n v) • n

end Xdyn.Sim

import Verif.Props.Hydrostatic
import Verif.Props.MeshVolume

/-
C115: potential energy of the fast hydrostatic model.
-/

namespace Xdyn.Hull

/-- **C115**, what holds: when a closed hull of volume `V`, entirely immersed, is moved by `T` in the body frame, the energy changes by
`-rho g V T.z`, i.e. by the scalar product of `T` and of Archimedes' force `(0, 0, -rho g V)`. -/
theorem hydrostatic_energy_partial (rho g : ℝ) (nodes : List (Pt ℝ)) (fs : List (Facet ℝ)) (ts : List Tri)
    (h : List.Forall₂ (HasPoints nodes) fs ts) (hc : Closed ts) (hv : (ts.map vol).sum ≠ 0) :
    ∃ c : CoM, centerOfMass nodes fs = .ok c ∧ c.volume = |(ts.map vol).sum| ∧
      ∀ T, ∃ c', centerOfMass (nodes.map (trans T)) fs = .ok c' ∧
        hydroEnergy rho g c' - hydroEnergy rho g c = (0 * T.x + 0 * T.y + (-(rho * g * |(ts.map vol).sum|)) * T.z) := by
  obtain ⟨c, h1, h2, h3⟩ := center_of_mass_translation nodes fs ts h hc hv
  refine ⟨c, h1, h2, fun T => ⟨_, h3 T, ?_⟩⟩
  simp only [hydroEnergy, trans, Pt.add, h2]
  ring

/-- **C115**, refuted: the change of energy is the work of the force and not its opposite, so that the sum of the kinetic energy and of this energy is
not conserved by a body that sinks or rises; moreover the centre used is in the body frame: the energy does not depend on the depth of the body
(`hydroEnergy` has no other argument than the centre of mass in the body frame). Here for a tetrahedron. -/
theorem hydrostatic_energy_refuted :
    ∃ (nodes : List (Pt ℝ)) (fs : List (Facet ℝ)) (c c' : CoM) (T : Pt ℝ), centerOfMass nodes fs = .ok c ∧ centerOfMass (nodes.map (trans T)) fs = .ok c' ∧
      0 < c.volume ∧ c'.volume = c.volume ∧ c'.G = trans T c.G ∧ T.z ≠ 0 ∧
      ∀ rho g : ℝ, 0 < rho → 0 < g →
        hydroEnergy rho g c' - hydroEnergy rho g c ≠ -((-(rho * g * c.volume)) * T.z) := by
  have hF : List.Forall₂ (HasPoints [⟨0, 0, 0⟩, ⟨6, 0, 0⟩, ⟨0, 6, 0⟩, ⟨0, 0, 6⟩])
      [⟨[0, 2, 1], ⟨0, 0, -1⟩⟩, ⟨[0, 1, 3], ⟨0, -1, 0⟩⟩, ⟨[1, 2, 3], ⟨1, 1, 1⟩⟩, ⟨[2, 0, 3], ⟨-1, 0, 0⟩⟩]
      (faces ⟨0, 0, 0⟩ ⟨6, 0, 0⟩ ⟨0, 6, 0⟩ ⟨0, 0, 6⟩) := by
    unfold faces HasPoints
    simp
  have hV : ((faces ⟨0, 0, 0⟩ ⟨6, 0, 0⟩ ⟨0, 6, 0⟩ ⟨0, 0, 6⟩).map vol).sum = 36 := by
    simp only [faces, List.map_cons, List.map_nil, List.sum_cons, List.sum_nil, vol, tetraVolume]; norm_num
  obtain ⟨c, h1, h2, h3⟩ := center_of_mass_translation _ _ _ hF (faces_closed _ _ _ _) (by rw [hV]; norm_num)
  rw [hV] at h2
  have hv : c.volume = 36 := by rw [h2]; norm_num
  refine ⟨_, _, c, _, ⟨0, 0, 1⟩, h1, h3 ⟨0, 0, 1⟩, by rw [hv]; norm_num, rfl, rfl, by norm_num, ?_⟩
  intro rho g hr hg he
  simp only [hydroEnergy, trans, Pt.add, hv] at he
  have : 0 < rho * g := mul_pos hr hg
  linarith

end Xdyn.Hull

import Verif.Model.Quat2Eul
import Verif.Props.Setup

/-! C217: the program `quat2eul`. -/

namespace Xdyn.Tools

open Body

/-- `anglesOf` gives the Euler angles (rotation about z, then y, then x) of the rotations, when they are in the usual ranges. -/
def GivesAngles (anglesOf : Mat3 ℝ → ℝ × ℝ × ℝ) : Prop :=
  ∀ phi theta psi, -Real.pi < phi → phi ≤ Real.pi → -(Real.pi / 2) < theta → theta < Real.pi / 2 → -Real.pi < psi → psi ≤ Real.pi →
    anglesOf (Server.rotationZYX phi theta psi) = (phi, theta, psi)

theorem quat2eul_four (atof : List Char → ℝ) (anglesOf : Mat3 ℝ → ℝ × ℝ × ℝ) (a b c d : List Char) (rest : List (List Char)) :
    quat2eul Real.pi atof anglesOf (a :: b :: c :: d :: rest) = .ok
      { message := decide (rest ≠ []),
        lines := [("phi: ", (anglesOf (Quat.matrix ⟨atof a, atof b, atof c, atof d⟩)).1 * (180 / Real.pi)),
          ("theta: ", (anglesOf (Quat.matrix ⟨atof a, atof b, atof c, atof d⟩)).2.1 * (180 / Real.pi)),
          ("psi: ", (anglesOf (Quat.matrix ⟨atof a, atof b, atof c, atof d⟩)).2.2 * (180 / Real.pi))], status := 0 } := by
  have : (rest.length + 1 + 1 + 1 + 1 ≠ 4) ↔ rest ≠ [] := by
    rw [← List.length_pos_iff]; omega
  simp only [quat2eul, argument, convert, List.getElem?_cons_zero, List.getElem?_cons_succ, bind, Except.bind, pure, Except.pure, List.length_cons, this]

/-- **C217** (partial) Given the four components of the quaternion of a rotation whose Euler angles are in the usual ranges, or the opposite quaternion, the program writes
the three angles in degrees, in the order φ, θ, ψ, and nothing on the error output. -/
theorem quat2eul_angles_partial (atof : List Char → ℝ) (anglesOf : Mat3 ℝ → ℝ × ℝ × ℝ) (hA : GivesAngles anglesOf) (phi theta psi : ℝ)
    (h1 : -Real.pi < phi) (h2 : phi ≤ Real.pi) (h3 : -(Real.pi / 2) < theta) (h4 : theta < Real.pi / 2) (h5 : -Real.pi < psi) (h6 : psi ≤ Real.pi)
    (q : Quat ℝ) (hq : q.matrix = Server.rotationZYX phi theta psi) (a b c d : List Char)
    (h : (atof a = q.w ∧ atof b = q.x ∧ atof c = q.y ∧ atof d = q.z) ∨ (atof a = -q.w ∧ atof b = -q.x ∧ atof c = -q.y ∧ atof d = -q.z)) :
    ∃ r, quat2eul Real.pi atof anglesOf [a, b, c, d] = .ok r ∧ r.message = false ∧ r.status = 0 ∧
      r.lines = [("phi: ", phi * 180 / Real.pi), ("theta: ", theta * 180 / Real.pi), ("psi: ", psi * 180 / Real.pi)] := by
  have hm : Quat.matrix ⟨atof a, atof b, atof c, atof d⟩ = Server.rotationZYX phi theta psi := by
    rw [← hq]
    rcases h with ⟨e1, e2, e3, e4⟩ | ⟨e1, e2, e3, e4⟩ <;> rw [e1, e2, e3, e4]
    ext i j
    fin_cases i <;> fin_cases j <;> simp [Quat.matrix]
  refine ⟨_, quat2eul_four atof anglesOf a b c d [], by simp, rfl, ?_⟩
  simp only [hm, hA phi theta psi h1 h2 h3 h4 h5 h6, mul_div_assoc]

/-- Each rotation is that of a quaternion: the hypotheses of `quat2eul_angles_partial` are met for all angles in the ranges. -/
theorem quat2eul_hypotheses (phi theta psi : ℝ) : ∃ q : Quat ℝ, q.matrix = Server.rotationZYX phi theta psi ∧ q.w ^ 2 + q.x ^ 2 + q.y ^ 2 + q.z ^ 2 = 1 := by
  obtain ⟨hn, hm⟩ := Setup.quaternion_of_rotation _ (Setup.rotationZYX_isRotation phi theta psi)
  exact ⟨_, hm, hn⟩

/-- **C217** A wrong number of arguments is not refused: with less than four the behaviour is undefined, with more the angles of the first four are written after the message,
and the status is that of a success. -/
theorem quat2eul_wrong_number (atof : List Char → ℝ) (anglesOf : Mat3 ℝ → ℝ × ℝ × ℝ) (args : List (List Char)) :
    (args.length < 4 → quat2eul Real.pi atof anglesOf args = .error .ub) ∧
    (4 < args.length → ∃ r r', quat2eul Real.pi atof anglesOf args = .ok r ∧ quat2eul Real.pi atof anglesOf (args.take 4) = .ok r' ∧ r.message = true ∧ r.status = 0 ∧ r.lines = r'.lines) := by
  match args with
  | [] => exact ⟨fun _ => rfl, by simp⟩
  | [_] => exact ⟨fun _ => rfl, by simp⟩
  | [_, _] => exact ⟨fun _ => rfl, by simp⟩
  | [_, _, _] => exact ⟨fun _ => rfl, by simp⟩
  | a :: b :: c :: d :: rest =>
    refine ⟨fun h => by simp at h; omega, fun h => ?_⟩
    have hr : rest ≠ [] := by
      rw [← List.length_pos_iff]; simp at h; omega
    refine ⟨_, _, quat2eul_four atof anglesOf a b c d rest, quat2eul_four atof anglesOf a b c d [], by simp [hr], rfl, rfl⟩

/-- **C217** A quaternion whose norm is not 1 is not normalised: the matrix of (1, 0, 0, 1), a quarter of a turn, is not that of a rotation, and its angle ψ is not 90°. -/
theorem quat2eul_not_normalised (atof : List Char → ℝ) (anglesOf : Mat3 ℝ → ℝ × ℝ × ℝ)
    (hpsi : ∀ R : Mat3 ℝ, (anglesOf R).2.2 = Complex.arg ⟨R 0 0, R 1 0⟩) (one zero : List Char) (h1 : atof one = 1) (h0 : atof zero = 0) :
    ∃ r psi, quat2eul Real.pi atof anglesOf [one, zero, zero, one] = .ok r ∧ r.message = false ∧ ("psi: ", psi) ∈ r.lines ∧ psi ≠ 90 := by
  refine ⟨_, _, quat2eul_four atof anglesOf one zero zero one [], by simp, List.mem_cons_of_mem _ (List.mem_cons_of_mem _ (List.mem_cons_self ..)), ?_⟩
  rw [hpsi, h1, h0]
  have hR : (⟨(Quat.matrix (⟨1, 0, 0, 1⟩ : Quat ℝ)) 0 0, (Quat.matrix (⟨1, 0, 0, 1⟩ : Quat ℝ)) 1 0⟩ : ℂ) = ⟨-1, 2⟩ := by
    simp [Quat.matrix]; norm_num
  rw [hR]
  intro h
  have hp := Real.pi_pos
  have ha : Complex.arg ⟨-1, 2⟩ = Real.pi / 2 := by field_simp at h; linarith
  rw [Complex.arg_eq_pi_div_two_iff] at ha
  have := ha.1
  norm_num at this

/-- The usual formulas for the Euler angles. -/
noncomputable def usualAngles (R : Mat3 ℝ) : ℝ × ℝ × ℝ := (Complex.arg ⟨R 2 2, R 2 1⟩, Real.arcsin (-R 2 0), Complex.arg ⟨R 0 0, R 1 0⟩)

/-- They give the angles: what is assumed about SSC is met. -/
theorem usualAngles_gives : GivesAngles usualAngles := by
  intro phi theta psi h1 h2 h3 h4 h5 h6
  have hc : 0 < Real.cos theta := Real.cos_pos_of_mem_Ioo ⟨h3, h4⟩
  have key : ∀ x : ℝ, -Real.pi < x → x ≤ Real.pi → Complex.arg ⟨Real.cos theta * Real.cos x, Real.cos theta * Real.sin x⟩ = x := by
    intro x hx1 hx2
    have := Complex.arg_mul_cos_add_sin_mul_I hc ⟨hx1, hx2⟩
    have e : (⟨Real.cos theta * Real.cos x, Real.cos theta * Real.sin x⟩ : ℂ) = (Real.cos theta : ℂ) * (Complex.cos x + Complex.sin x * Complex.I) := by
      apply Complex.ext <;> simp [Complex.cos_ofReal_re, Complex.sin_ofReal_re, Complex.cos_ofReal_im, Complex.sin_ofReal_im, -Complex.ofReal_cos]
    rw [e]; exact this
  rw [usualAngles, Server.rotationZYX_eq]
  simp only [Matrix.of_apply, Matrix.cons_val', Matrix.cons_val_zero, Matrix.cons_val_one, Matrix.cons_val, neg_neg, Prod.mk.injEq]
  exact ⟨key phi h1 h2, Real.arcsin_sin (le_of_lt h3) (le_of_lt h4), by rw [mul_comm (Real.cos psi), mul_comm (Real.sin psi)]; exact key psi h5 h6⟩

/-- The identity, read as "1 0 0 0". -/
example (atof : List Char → ℝ) (h1 : atof "1".toList = 1) (h0 : atof "0".toList = 0) :
    ∃ r, quat2eul Real.pi atof usualAngles ["1".toList, "0".toList, "0".toList, "0".toList] = .ok r ∧ r.message = false ∧ r.status = 0 ∧
      r.lines = [("phi: ", 0 * 180 / Real.pi), ("theta: ", 0 * 180 / Real.pi), ("psi: ", 0 * 180 / Real.pi)] := by
  have hp := Real.pi_pos
  refine quat2eul_angles_partial atof usualAngles usualAngles_gives 0 0 0 (by linarith) hp.le (by linarith) (by linarith) (by linarith) hp.le ⟨1, 0, 0, 0⟩ ?_ _ _ _ _
    (Or.inl ⟨h1, h0, h0, h0⟩)
  rw [Server.rotationZYX_eq]
  ext i j
  fin_cases i <;> fin_cases j <;> simp [Quat.matrix]

end Xdyn.Tools

import Verif.Model.GM
import Verif.Props.EulerRates
import Mathlib.Analysis.Calculus.Deriv.Slope
import Mathlib.Tactic.Positivity

/-! Property C104: metacentric height and righting lever given by the `GM` model. -/

namespace Xdyn.GM

open Body Matrix Real Server

/-- The righting lever of the attitude `q`: a fresh evaluation of the hydrostatic model for a
body in that attitude. -/
noncomputable def leverAt {I : Type} (immersed : Mat3 ℝ → I) (hs : HsModel I) (q : Mat3 ℝ) : ℝ :=
  gzOf hs (bodyUpdate immersed q) q

theorem rot_x (phi theta psi : ℝ) :
    (rotationZYX phi theta psi).mulVec ![1, 0, 0] = ![cos psi * cos theta, sin psi * cos theta, -sin theta] := by
  rw [rotationZYX_eq]
  ext i
  fin_cases i <;> simp [Matrix.mulVec, dotProduct, Fin.sum_univ_three]

/-- The righting lever of a vertical force `fz` applied at the position `r` from `G` (NED frame)
computed by `calculate_gz`: the horizontal distance between `G` and the line of action of the
force, measured across the heading of the body, times the cosine of the trim angle. -/
theorem gz_of_vertical_force (phi theta psi fz : ℝ) (r : Vec3 ℝ) (hf : fz ≠ 0) :
    calculateGz (rotationZYX phi theta psi) ![0, 0, fz] (cross r ![0, 0, fz]) =
      cos theta * (r 1 * cos psi - r 0 * sin psi) := by
  have hn : norm ![cos psi * cos theta, sin psi * cos theta, -sin theta] = 1 := by
    unfold norm
    have : (![cos psi * cos theta, sin psi * cos theta, -sin theta] : Vec3 ℝ) 0 * (![cos psi * cos theta, sin psi * cos theta, -sin theta] : Vec3 ℝ) 0
      + (![cos psi * cos theta, sin psi * cos theta, -sin theta] : Vec3 ℝ) 1 * (![cos psi * cos theta, sin psi * cos theta, -sin theta] : Vec3 ℝ) 1
      + (![cos psi * cos theta, sin psi * cos theta, -sin theta] : Vec3 ℝ) 2 * (![cos psi * cos theta, sin psi * cos theta, -sin theta] : Vec3 ℝ) 2 = 1 := by
      simp only [Matrix.cons_val_zero, Matrix.cons_val_one, Matrix.cons_val]
      linear_combination (cos theta) ^ 2 * (sin_sq_add_cos_sq psi) + sin_sq_add_cos_sq theta
    rw [this, Real.sqrt_one]
  unfold calculateGz
  simp only [rot_x, hn, div_one]
  simp only [cross, Matrix.cons_val_zero, Matrix.cons_val_one, Matrix.cons_val]
  field_simp
  ring

/-- **C104** (lever) For a body without trim, `calculate_gz` is the righting lever: the distance
between `G` and the line of action of the buoyancy, across the heading (-sin psi, cos psi). -/
theorem gz_lever_partial (phi psi fz : ℝ) (r : Vec3 ℝ) (hf : fz ≠ 0) :
    calculateGz (rotationZYX phi 0 psi) ![0, 0, fz] (cross r ![0, 0, fz]) = r 0 * (-sin psi) + r 1 * cos psi := by
  rw [gz_of_vertical_force _ _ _ _ _ hf, cos_zero]
  ring

/-- **C104, refuted with trim** For a body trimmed by 60 degrees, `calculate_gz` gives half of
the lever. -/
theorem gz_lever_refuted :
    calculateGz (rotationZYX 0 (π / 3) 0) ![0, 0, -1] (cross ![0, 1, 0] ![0, 0, -1]) = 1 / 2 := by
  rw [gz_of_vertical_force _ _ _ _ _ (by norm_num)]
  simp

/-- **C104** (difference quotient) The observed GM is the difference of the levers of the
current attitude and of the attitude rolled by minus the step, divided by the step; the wrench
is the one of the hydrostatic model in the current attitude. -/
theorem gm_difference {I : Type} (immersed : Mat3 ℝ → I) (hs : HsModel I) (shift : Mat3 ℝ → Mat3 ℝ) (dphi phi theta psi : ℝ)
    (hshift : shift (rotationZYX phi theta psi) = rotationZYX (phi - dphi) theta psi) :
    let q := rotationZYX phi theta psi
    let out := gmCall immersed hs shift dphi (bodyUpdate immersed q) q
    out.GM = (leverAt immersed hs (rotationZYX phi theta psi) - leverAt immersed hs (rotationZYX (phi - dphi) theta psi)) / dphi ∧
    out.GZ = (leverAt immersed hs (rotationZYX phi theta psi) + leverAt immersed hs (rotationZYX (phi - dphi) theta psi)) / 2 ∧
    out.wrench = hs (bodyUpdate immersed q) q := by
  intro q out
  refine ⟨?_, ?_, rfl⟩ <;> simp only [out, gmCall, q, hshift] <;> rfl

/-- **C104** (metacentric height) When the step tends to zero, the observed GM tends to the
derivative of the lever with respect to the roll angle, wherever this derivative exists. -/
theorem gm_tends_to_slope {I : Type} (immersed : Mat3 ℝ → I) (hs : HsModel I) (shift : ℝ → Mat3 ℝ → Mat3 ℝ) (phi theta psi D : ℝ)
    (hshift : ∀ dphi, shift dphi (rotationZYX phi theta psi) = rotationZYX (phi - dphi) theta psi)
    (hD : HasDerivAt (fun a => leverAt immersed hs (rotationZYX a theta psi)) D phi) :
    Filter.Tendsto (fun dphi => (gmCall immersed hs (shift dphi) dphi (bodyUpdate immersed (rotationZYX phi theta psi)) (rotationZYX phi theta psi)).GM)
      (nhdsWithin 0 {0}ᶜ) (nhds D) := by
  have h1 := hasDerivAt_iff_tendsto_slope.1 hD
  have h2 : Filter.Tendsto (fun h : ℝ => phi - h) (nhdsWithin 0 {0}ᶜ) (nhdsWithin phi {phi}ᶜ) := by
    apply tendsto_nhdsWithin_of_tendsto_nhds_of_eventually_within
    · have : Filter.Tendsto (fun h : ℝ => phi - h) (nhds 0) (nhds (phi - 0)) := (continuous_const.sub continuous_id).tendsto 0
      rw [sub_zero] at this
      exact this.mono_left nhdsWithin_le_nhds
    · filter_upwards [self_mem_nhdsWithin] with h hh
      simp only [Set.mem_compl_iff, Set.mem_singleton_iff] at hh ⊢
      intro e
      exact hh (by linarith)
  refine (h1.comp h2).congr' ?_
  filter_upwards [self_mem_nhdsWithin] with h hh
  simp only [Set.mem_compl_iff, Set.mem_singleton_iff] at hh
  rw [(gm_difference immersed hs (shift h) h phi theta psi (hshift h)).1]
  simp only [Function.comp, slope_def_field]
  rw [show phi - h - phi = -h by ring, div_neg, ← neg_div, neg_sub]

/-- **C104** (linear range) If the lever is `GM0 * phi + c` between the two roll angles, the
observed GM is exactly `GM0` for any step, and the observed GZ is the lever at the middle of the
step. -/
theorem gm_linear {I : Type} (immersed : Mat3 ℝ → I) (hs : HsModel I) (shift : Mat3 ℝ → Mat3 ℝ) (dphi phi theta psi GM0 c : ℝ)
    (hd : dphi ≠ 0) (hshift : shift (rotationZYX phi theta psi) = rotationZYX (phi - dphi) theta psi)
    (hlin : ∀ a ∈ Set.uIcc phi (phi - dphi), leverAt immersed hs (rotationZYX a theta psi) = GM0 * a + c) :
    let q := rotationZYX phi theta psi
    let out := gmCall immersed hs shift dphi (bodyUpdate immersed q) q
    out.GM = GM0 ∧ out.GZ = GM0 * (phi - dphi / 2) + c := by
  intro q out
  obtain ⟨h1, h2, _⟩ := gm_difference immersed hs shift dphi phi theta psi hshift
  simp only [out, q]
  rw [h1, h2, hlin _ Set.left_mem_uIcc, hlin _ Set.right_mem_uIcc]
  constructor
  · field_simp; ring
  · ring

/-- A buoyancy of 1 N applied 1 m above `G` (on the z axis of the body). -/
noncomputable def raft : HsModel Unit := fun _ q =>
  (q.transpose.mulVec ![0, 0, -1], cross ![0, 0, -1] (q.transpose.mulVec ![0, 0, -1]))

theorem raft_lever (phi : ℝ) : leverAt (fun _ => ()) raft (rotationZYX phi 0 0) = sin phi := by
  unfold leverAt gzOf calculateGz
  simp only [bodyUpdate, rot_x, raft, projectIntoNed]
  have hn : norm ![cos 0 * cos 0, sin 0 * cos 0, -sin 0] = 1 := by unfold norm; simp
  rw [hn, rotationZYX_eq]
  have := sin_sq_add_cos_sq phi
  simp [Matrix.mulVec, dotProduct, Fin.sum_univ_three, cross, Matrix.transpose_apply]
  rw [show -(cos phi * cos phi) + -(sin phi * sin phi) = -1 by linarith]
  simp

/-- The hypotheses of `gm_tends_to_slope` are met by this body: its metacentric height is
`cos phi`. -/
example (phi : ℝ) : HasDerivAt (fun a => leverAt (fun _ => ()) raft (rotationZYX a 0 0)) (cos phi) phi := by
  simp only [raft_lever]
  exact hasDerivAt_sin phi

/-- **C104, refuted for GZ** For this body upright, whose lever is zero, the observed GZ is not
zero for any step between 0 and 180 degrees. -/
theorem gz_observed_refuted (shift : Mat3 ℝ → Mat3 ℝ) (dphi : ℝ) (h0 : 0 < dphi) (h1 : dphi < π)
    (hshift : shift (rotationZYX 0 0 0) = rotationZYX (0 - dphi) 0 0) :
    let q := rotationZYX 0 0 0
    leverAt (fun _ => ()) raft q = 0 ∧
    (gmCall (fun _ => ()) raft shift dphi (bodyUpdate (fun _ => ()) q) q).GZ = -sin dphi / 2 ∧ -sin dphi / 2 ≠ 0 := by
  intro q
  have hp := sin_pos_of_pos_of_lt_pi h0 h1
  refine ⟨by simp only [q, raft_lever, sin_zero], ?_, by linarith [hp] |> fun h : -sin dphi / 2 < 0 => ne_of_lt h⟩
  rw [(gm_difference (fun _ => ()) raft shift dphi 0 0 0 hshift).2.1, raft_lever, raft_lever]
  simp

/-- A model that reads what is shared and leaves it as it is. -/
def ReadOnly {I : Type} (m : Model I) : Prop := ∀ s q, (m s q).1 = s

theorem sumOfForces_shared {I : Type} (q : Mat3 ℝ) (l : List (Model I)) (hl : ∀ m ∈ l, ReadOnly m) :
    ∀ s W, (sumOfForces q l s W).1 = s := by
  induction l with
  | nil => intro s W; rfl
  | cons m l ih =>
    intro s W
    simp only [sumOfForces]
    rw [ih (fun m hm => hl m (by simp [hm])), hl m (by simp)]

/-- **C104** (observation only) Without GM model, the position moves at the velocity of the body
in its current attitude, whatever the other models. -/
theorem position_rates_without_gm {I : Type} (immersed : Mat3 ℝ → I) (models : List (Model I)) (hl : ∀ m ∈ models, ReadOnly m)
    (q : Mat3 ℝ) (uvw : Vec3 ℝ) : positionRates immersed models q uvw = q.mulVec uvw := by
  unfold positionRates
  rw [sumOfForces_shared q models hl]
  rfl

/-- **C104, refuted** With a GM model among the models of the body, the position moves as if the
body were rolled by minus the step, whatever the other models. -/
theorem position_rates_with_gm {I : Type} (immersed : Mat3 ℝ → I) (before after : List (Model I)) (hb : ∀ m ∈ before, ReadOnly m)
    (ha : ∀ m ∈ after, ReadOnly m) (hs : HsModel I) (shift : Mat3 ℝ → Mat3 ℝ) (dphi : ℝ) (q : Mat3 ℝ) (uvw : Vec3 ℝ) :
    positionRates immersed (before ++ gmModel immersed hs shift dphi :: after) q uvw = (shift q).mulVec uvw := by
  have : ∀ (l : List (Model I)) s W, (∀ m ∈ l, ReadOnly m) →
      (sumOfForces q (l ++ gmModel immersed hs shift dphi :: after) s W).1 = bodyUpdate immersed (shift q) := by
    intro l
    induction l with
    | nil =>
      intro s W _
      simp only [List.nil_append, sumOfForces]
      rw [sumOfForces_shared q after ha]
      rfl
    | cons m l ih =>
      intro s W hl
      simp only [List.cons_append, sumOfForces]
      exact ih _ _ (fun m hm => hl m (by simp [hm]))
  unfold positionRates
  rw [this before _ _ hb]
  rfl

/-- **C104, refuted** (instance) For an upright body that moves sideways at 1 m/s, adding a GM
model with a step between 0 and 180 degrees makes the position move vertically. -/
theorem gm_changes_the_motion {I : Type} (immersed : Mat3 ℝ → I) (hs : HsModel I) (shift : Mat3 ℝ → Mat3 ℝ) (dphi : ℝ)
    (h0 : 0 < dphi) (h1 : dphi < π) (hshift : shift (rotationZYX 0 0 0) = rotationZYX (0 - dphi) 0 0) :
    positionRates immersed [] (rotationZYX 0 0 0) ![0, 1, 0] = ![0, 1, 0] ∧
    positionRates immersed [gmModel immersed hs shift dphi] (rotationZYX 0 0 0) ![0, 1, 0] 2 ≠ 0 := by
  constructor
  · rw [position_rates_without_gm immersed [] (by simp), rotationZYX_eq]
    ext i
    fin_cases i <;> simp [Matrix.mulVec, dotProduct, Fin.sum_univ_three]
  · have := position_rates_with_gm immersed [] [] (by simp) (by simp) hs shift dphi (rotationZYX 0 0 0) ![0, 1, 0]
    rw [List.nil_append] at this
    rw [this, hshift, rotationZYX_eq]
    simp [Matrix.mulVec, dotProduct, Fin.sum_univ_three]
    exact ne_of_gt (sin_pos_of_pos_of_lt_pi h0 h1)

/-- **C104, refuted** (order of the models) The weight computed by the gravity model depends on
whether the GM model comes before it in the list. -/
theorem gm_changes_the_weight {I : Type} (immersed : Mat3 ℝ → I) (hs : HsModel I) (shift : Mat3 ℝ → Mat3 ℝ) (dphi : ℝ)
    (inertia : Mat6 ℝ) (g : ℝ) (q : Mat3 ℝ) :
    let gm := gmModel immersed hs shift dphi
    let s := bodyUpdate immersed q
    (sumOfForces q [gravityModel inertia g, gm] s (0, 0)).2.1 = q.transpose.mulVec ![0, 0, inertia 2 2 * g] + (hs s q).1 ∧
    (sumOfForces q [gm, gravityModel inertia g] s (0, 0)).2.1 = (shift q).transpose.mulVec ![0, 0, inertia 2 2 * g] + (hs s q).1 := by
  intro gm s
  constructor
  · simp [sumOfForces, gravityModel, gm, gmModel, gmCall, gravity, s, bodyUpdate]
  · simp [sumOfForces, gravityModel, gm, gmModel, gmCall, gravity, s, bodyUpdate, add_comm]

end Xdyn.GM

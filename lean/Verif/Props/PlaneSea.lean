import Verif.Props.Heave
import Mathlib.Analysis.Real.Pi.Bounds

/-! Property C190: `linear hydrostatics` in waves, and on a plane sea. -/

namespace Xdyn.Sim

open Blocked Body Spec Solver

/-- **C190** A sea whose free surface is, at the date `t`, at the depth `eta x y t` (counted downwards) over the point `(x, y)`. The four points follow the body: they are at the positions `p + R (x_i, y_i, 0)`.
The force is `-K` times the differences between the depth, the roll and the pitch of the body, those of the four points of the surface and those of the equilibrium. -/
theorem linear_hydrostatics_in_waves (b : Multi.MBody ℝ) (hn : b.name ≠ "NED") (c : LinearHydrostatics) (anglesOf : Mat3 ℝ → ℝ × ℝ × ℝ)
    (waves : List ℝ → List ℝ → ℝ → Except Err (List ℝ)) (eta : ℝ → ℝ → ℝ → ℝ)
    (hw : ∀ xs ys t, waves xs ys t = .ok (List.zipWith (fun x y => eta x y t) xs ys))
    {h : States (History ℝ)} {p u w : Vec3 ℝ} {q : Quat ℝ} (t : ℝ) (hc : Current h (vec13 p u w q)) (h0 : ∀ n, (field h n).Tmax = 0)
    (X : Fin 4 → Vec3 ℝ) (hX : ∀ i, X i = p + q.matrix.mulVec ![c.x i, c.y i, 0]) (z : Fin 4 → ℝ) (hz : ∀ i, z i = eta (X i 0) (X i 1) t)
    (d : Fin 4 → Fin 4 → ℝ) (hd : ∀ i j, d i j = Real.sqrt ((c.x i - c.x j) ^ 2 + (c.y i - c.y j) ^ 2))
    (dz dphi dtheta : ℝ) (hdz : dz = p 2 - (z 0 + z 1 + z 2 + z 3) / 4 - c.zEq)
    (hdphi : dphi = (anglesOf q.matrix).1 - (Real.arctan (z 1 - z 0) / d 0 1 + Real.arctan (z 3 - z 2) / d 2 3) / 2 - c.phiEq)
    (hdtheta : dtheta = (anglesOf q.matrix).2.1 - (Real.arctan (z 1 - z 3) / d 1 3 + Real.arctan (z 0 - z 2) / d 0 2) / 2 - c.thetaEq) :
    linearHydrostaticModel b c anglesOf waves h (framesAt b.name p q) t =
      .ok ⟨b.name, b.G, ![0, 0, -(c.K 0 0 * dz + c.K 0 1 * dphi + c.K 0 2 * dtheta)],
        ![-(c.K 1 0 * dz + c.K 1 1 * dphi + c.K 1 2 * dtheta), -(c.K 2 0 * dz + c.K 2 1 * dphi + c.K 2 2 * dtheta), 0]⟩ := by
  have hzv : h.z.value 0 = .ok (p 2) := by
    obtain ⟨a, e1, e2⟩ := current_value hc h0 .z
    rw [show (vec13 p u w q)[slot 0 .z]? = some (p 2) from rfl] at e1
    cases e1
    exact e2
  have hR := (positions_read hc h0).2.2.2.2.2
  have hg : Multi.Kin.get (framesAt b.name p q) "NED" b.name = .ok ⟨p, q.matrix⟩ := by
    have hp : (![p 0, p 1, p 2] : Vec3 ℝ) = p := by funext i; fin_cases i <;> rfl
    rw [Multi.Kin.get, frame_of_body _ hn]
    simp [Multi.frameOf, hp]
  have hl : List.zipWith (fun x y => eta x y t) ((List.finRange 4).map fun i => c.pointInNed ⟨p, q.matrix⟩ i 0)
      ((List.finRange 4).map fun i => c.pointInNed ⟨p, q.matrix⟩ i 1) = [z 0, z 1, z 2, z 3] := by
    rw [hz, hz, hz, hz, hX, hX, hX, hX]
    rfl
  simp only [linearHydrostaticModel, LinearHydrostatics.waveHeights, hg, hw, hl, hzv, hR, bind, Except.bind, pure, Except.pure, getUB,
    List.getElem?_cons_zero, List.getElem?_cons_succ, Forces.linearHydrostatic, Forces.zbar, Forces.phibar, Forces.thetabar,
    Forces.mulVec3, LinearHydrostatics.distance, ← hd]
  have e1 : (0.25 : ℝ) * (z 0 + z 1 + z 2 + z 3) = (z 0 + z 1 + z 2 + z 3) / 4 := by norm_num; ring
  have e2 : ∀ a b : ℝ, (0.5 : ℝ) * (a + b) = (a + b) / 2 := by intro a b; norm_num; ring
  congr 2
  · funext i; fin_cases i <;> simp [Fin.sum_univ_three, e1, e2, hdz, hdphi, hdtheta]
  · funext i; fin_cases i <;> simp [Fin.sum_univ_three, e1, e2, hdz, hdphi, hdtheta]

/-- **C190** On a plane sea, the depth of the surface that the force model uses is the depth at the origin of the body, wherever the body is and whatever its attitude, when the four points are
centred on its origin. -/
theorem plane_sea_mean (q : Quat ℝ) (p : Vec3 ℝ) (x y : Fin 4 → ℝ) (hx : x 0 + x 1 + x 2 + x 3 = 0) (hy : y 0 + y 1 + y 2 + y 3 = 0)
    (X : Fin 4 → Vec3 ℝ) (hX : ∀ i, X i = p + q.matrix.mulVec ![x i, y i, 0]) (a b c : ℝ) (eta : ℝ → ℝ → ℝ) (he : ∀ x y, eta x y = a + b * x + c * y) :
    (eta (X 0 0) (X 0 1) + eta (X 1 0) (X 1 1) + eta (X 2 0) (X 2 1) + eta (X 3 0) (X 3 1)) / 4 = eta (p 0) (p 1) := by
  have e : ∀ i j, X i j = p j + (q.matrix j 0 * x i + q.matrix j 1 * y i) := by
    intro i j
    rw [hX]
    simp [Matrix.mulVec, dotProduct, Fin.sum_univ_three]
  simp only [he, e]
  linear_combination (b * q.matrix 0 0 + c * q.matrix 1 0) / 4 * hx + (b * q.matrix 0 1 + c * q.matrix 1 1) / 4 * hy

/-- The four points as the documentation lays them out: forward port, forward starboard, aft port, aft starboard, at the distance `a` forward and aft and `b` on each side. -/
structure Layout (c : LinearHydrostatics) (a b : ℝ) : Prop where
  x : c.x = ![a, a, -a, -a]
  y : c.y = ![-b, b, -b, b]

/-- The attitude of a body that has the pitch `θ` (bow upwards when `θ > 0`), without heading nor roll. -/
noncomputable def pitched (θ : ℝ) : Quat ℝ := ⟨Real.cos (θ / 2), 0, Real.sin (θ / 2), 0⟩

/-- The attitude of a body that has the roll `φ` (starboard downwards when `φ > 0`), without heading nor pitch. -/
noncomputable def rolled (φ : ℝ) : Quat ℝ := ⟨Real.cos (φ / 2), Real.sin (φ / 2), 0, 0⟩

theorem pitched_forward (θ : ℝ) : (pitched θ).matrix = !![Real.cos θ, 0, Real.sin θ; 0, 1, 0; -Real.sin θ, 0, Real.cos θ] := by
  have h1 : Real.sin θ = 2 * Real.sin (θ / 2) * Real.cos (θ / 2) := by rw [← Real.sin_two_mul]; ring_nf
  have h2 : Real.cos θ = 1 - 2 * Real.sin (θ / 2) ^ 2 := by
    have := Real.cos_two_mul (θ / 2)
    rw [show 2 * (θ / 2) = θ by ring] at this
    have h3 := Real.sin_sq_add_cos_sq (θ / 2)
    linarith
  rw [h1, h2]
  ext i j; fin_cases i <;> fin_cases j <;> simp [pitched, Quat.matrix] <;> ring

theorem rolled_starboard (φ : ℝ) : (rolled φ).matrix = !![1, 0, 0; 0, Real.cos φ, -Real.sin φ; 0, Real.sin φ, Real.cos φ] := by
  have h1 : Real.sin φ = 2 * Real.sin (φ / 2) * Real.cos (φ / 2) := by rw [← Real.sin_two_mul]; ring_nf
  have h2 : Real.cos φ = 1 - 2 * Real.sin (φ / 2) ^ 2 := by
    have := Real.cos_two_mul (φ / 2)
    rw [show 2 * (φ / 2) = φ by ring] at this
    have h3 := Real.sin_sq_add_cos_sq (φ / 2)
    linarith
  rw [h1, h2]
  ext i j; fin_cases i <;> fin_cases j <;> simp [rolled, Quat.matrix] <;> ring

theorem layout_distances {c : LinearHydrostatics} {a b : ℝ} (hc : Layout c a b) (ha : 0 < a) (hb : 0 < b) :
    Real.sqrt ((c.x 0 - c.x 1) ^ 2 + (c.y 0 - c.y 1) ^ 2) = 2 * b ∧ Real.sqrt ((c.x 2 - c.x 3) ^ 2 + (c.y 2 - c.y 3) ^ 2) = 2 * b ∧
      Real.sqrt ((c.x 1 - c.x 3) ^ 2 + (c.y 1 - c.y 3) ^ 2) = 2 * a ∧ Real.sqrt ((c.x 0 - c.x 2) ^ 2 + (c.y 0 - c.y 2) ^ 2) = 2 * a := by
  rw [hc.x, hc.y]
  have e1 : Real.sqrt ((2 * b) ^ 2) = 2 * b := Real.sqrt_sq (by positivity)
  have e2 : Real.sqrt ((2 * a) ^ 2) = 2 * a := Real.sqrt_sq (by positivity)
  refine ⟨?_, ?_, ?_, ?_⟩
  · rw [← e1]; congr 1; simp; ring
  · rw [← e1]; congr 1; simp; ring
  · rw [← e2]; congr 1; simp; ring
  · rw [← e2]; congr 1; simp; ring

/-- **C190** Roll. The sea is a plane that goes down to starboard with the slope `tan α`, and the body lies on it, with the roll `α`, anywhere. Whatever the stiffness in roll,
the torque is `-k (α - atan (2 b sin α) / (2 b))`: it has the right sign, but it is zero only for some distances between the points. -/
theorem roll_on_plane_sea (bd : Multi.MBody ℝ) (hn : bd.name ≠ "NED") (c : LinearHydrostatics) (anglesOf : Mat3 ℝ → ℝ × ℝ × ℝ)
    (waves : List ℝ → List ℝ → ℝ → Except Err (List ℝ)) (α a b k : ℝ) (hα : -(Real.pi / 2) < α) (hα' : α < Real.pi / 2) (ha : 0 < a) (hb : 0 < b) (hl : Layout c a b)
    (hw : ∀ xs ys t, waves xs ys t = .ok (List.zipWith (fun _ y => Real.tan α * y) xs ys))
    (hangles : anglesOf (rolled α).matrix = (α, 0, 0)) (hK : c.K 1 = ![0, k, 0]) (heq : c.phiEq = 0)
    {h : States (History ℝ)} {p u w : Vec3 ℝ} (t : ℝ) (hc : Current h (vec13 p u w (rolled α))) (h0 : ∀ n, (field h n).Tmax = 0) :
    ∃ F, linearHydrostaticModel bd c anglesOf waves h (framesAt bd.name p (rolled α)) t = .ok F ∧
      F.torque 0 = -(k * (α - Real.arctan (2 * b * Real.sin α) / (2 * b))) := by
  obtain ⟨d1, d2, d3, d4⟩ := layout_distances hl ha hb
  refine ⟨_, linear_hydrostatics_in_waves bd hn c anglesOf waves (fun _ y _ => Real.tan α * y) hw t hc h0 _ (fun _ => rfl) _ (fun _ => rfl) _ (fun _ _ => rfl)
    _ _ _ rfl rfl rfl, ?_⟩
  have hcos : Real.cos α ≠ 0 := (Real.cos_pos_of_mem_Ioo ⟨hα, hα'⟩).ne'
  have ht : Real.tan α * Real.cos α = Real.sin α := Real.tan_mul_cos hcos
  have e1 : Real.tan α * (p + (rolled α).matrix.mulVec ![c.x 1, c.y 1, 0]) 1 - Real.tan α * (p + (rolled α).matrix.mulVec ![c.x 0, c.y 0, 0]) 1 = 2 * b * Real.sin α := by
    rw [rolled_starboard, hl.x, hl.y, ← ht]
    simp [Matrix.mulVec, dotProduct, Fin.sum_univ_three]
    ring
  have e2 : Real.tan α * (p + (rolled α).matrix.mulVec ![c.x 3, c.y 3, 0]) 1 - Real.tan α * (p + (rolled α).matrix.mulVec ![c.x 2, c.y 2, 0]) 1 = 2 * b * Real.sin α := by
    rw [rolled_starboard, hl.x, hl.y, ← ht]
    simp [Matrix.mulVec, dotProduct, Fin.sum_univ_three]
    ring
  simp only [Matrix.cons_val_zero, hK, Matrix.cons_val_one, Matrix.cons_val_two, Matrix.head_cons, Matrix.tail_cons, zero_mul, zero_add, add_zero, d1, d2, hangles, heq, e1, e2]
  ring_nf

/-- **C190** (refuted for pitch) A body that lies on a plane sea should feel no torque: the sea goes up ahead with the slope `tan α`, `0 < α`, the pitch of the body is
`α`, anywhere. With the points laid out as in the documentation, whatever their distances the pitch of the sea is taken with the wrong sign: the torque is `-k (α + atan (2 a sin α) / (2 a))`,
stronger than the torque `-k α` that the body would feel in calm water with the same pitch, instead of zero. -/
theorem pitch_on_plane_sea_refuted (bd : Multi.MBody ℝ) (hn : bd.name ≠ "NED") (c : LinearHydrostatics) (anglesOf : Mat3 ℝ → ℝ × ℝ × ℝ)
    (waves : List ℝ → List ℝ → ℝ → Except Err (List ℝ)) (α a b k : ℝ) (hα : 0 < α) (hα' : α < Real.pi / 2) (ha : 0 < a) (hb : 0 < b) (hl : Layout c a b)
    (hw : ∀ xs ys t, waves xs ys t = .ok (List.zipWith (fun x _ => -Real.tan α * x) xs ys))
    (hangles : anglesOf (pitched α).matrix = (0, α, 0)) (hK : c.K 2 = ![0, 0, k]) (hk : 0 < k) (heq : c.thetaEq = 0)
    {h : States (History ℝ)} {p u w : Vec3 ℝ} (t : ℝ) (hc : Current h (vec13 p u w (pitched α))) (h0 : ∀ n, (field h n).Tmax = 0) :
    ∃ F, linearHydrostaticModel bd c anglesOf waves h (framesAt bd.name p (pitched α)) t = .ok F ∧
      F.torque 1 = -(k * (α + Real.arctan (2 * a * Real.sin α) / (2 * a))) ∧ F.torque 1 < -(k * α) := by
  obtain ⟨d1, d2, d3, d4⟩ := layout_distances hl ha hb
  refine ⟨_, linear_hydrostatics_in_waves bd hn c anglesOf waves (fun x _ _ => -Real.tan α * x) hw t hc h0 _ (fun _ => rfl) _ (fun _ => rfl) _ (fun _ _ => rfl)
    _ _ _ rfl rfl rfl, ?_⟩
  have hcos : Real.cos α ≠ 0 := (Real.cos_pos_of_mem_Ioo ⟨by linarith, hα'⟩).ne'
  have hsin : 0 < Real.sin α := Real.sin_pos_of_pos_of_lt_pi hα (by linarith [Real.pi_pos])
  have ht : Real.tan α * Real.cos α = Real.sin α := Real.tan_mul_cos hcos
  have e1 : -Real.tan α * (p + (pitched α).matrix.mulVec ![c.x 1, c.y 1, 0]) 0 - -Real.tan α * (p + (pitched α).matrix.mulVec ![c.x 3, c.y 3, 0]) 0 = -(2 * a * Real.sin α) := by
    rw [pitched_forward, hl.x, hl.y, ← ht]
    simp [Matrix.mulVec, dotProduct, Fin.sum_univ_three]
    ring
  have e2 : -Real.tan α * (p + (pitched α).matrix.mulVec ![c.x 0, c.y 0, 0]) 0 - -Real.tan α * (p + (pitched α).matrix.mulVec ![c.x 2, c.y 2, 0]) 0 = -(2 * a * Real.sin α) := by
    rw [pitched_forward, hl.x, hl.y, ← ht]
    simp [Matrix.mulVec, dotProduct, Fin.sum_univ_three]
    ring
  have key : ∀ x : ℝ, x = -(k * (α + Real.arctan (2 * a * Real.sin α) / (2 * a))) → x = -(k * (α + Real.arctan (2 * a * Real.sin α) / (2 * a))) ∧ x < -(k * α) := by
    rintro x rfl
    refine ⟨rfl, ?_⟩
    have h1 : 0 < Real.arctan (2 * a * Real.sin α) := Real.arctan_pos.2 (by positivity)
    have h2 : 0 < Real.arctan (2 * a * Real.sin α) / (2 * a) := by positivity
    nlinarith
  apply key
  simp only [Matrix.cons_val_zero, hK, Matrix.cons_val_one, Matrix.cons_val_two, Matrix.head_cons, Matrix.tail_cons, zero_mul, zero_add, add_zero, d3, d4, hangles, heq, e1, e2, Real.arctan_neg]
  ring_nf

/-! ### A concrete case -/

theorem barge_layout : Layout bargeHydrostatics 5 2 := ⟨rfl, rfl⟩

/-- A history in which the current state of the body is recorded. -/
theorem recorded (p u w : Vec3 ℝ) (q : Quat ℝ) : ∃ h, Current h (vec13 p u w q) ∧ ∀ n, (field h n).Tmax = 0 := by
  obtain ⟨h, -, -, h2, h3, -⟩ := updateBodyStates_ok (fun _ a b => decide (a = b)) (fun _ a => by simp) barge.blocked noHistory
    (vec13 p u w q) (vec13 p u w q) 0 ((noHistory_notAfter (fun _ a b => decide (a = b)) 0).before (fun _ a => by simp))
    (forceStates_free (fun _ => rfl) _ 0) (by simp [vec13])
  exact ⟨h, h3, fun n => (h2 n).trans (by cases n <;> rfl)⟩

/-- The barge of C187 with the pitch 1/2 rad on a sea that has the slope 1/2 rad: the torque is more than `8000 × 1/2` N.m although the barge is parallel to the sea. -/
example : ∃ h F, linearHydrostaticModel barge bargeHydrostatics (fun _ => (0, 1 / 2, 0))
    (fun xs ys _ => .ok (List.zipWith (fun x _ => -Real.tan (1 / 2) * x) xs ys)) h (framesAt barge.name 0 (pitched (1 / 2))) 0 = .ok F ∧ F.torque 1 < -(8000 * (1 / 2)) := by
  obtain ⟨h, h1, h2⟩ := recorded 0 0 0 (pitched (1 / 2))
  obtain ⟨F, h3, -, h4⟩ := pitch_on_plane_sea_refuted barge (by decide) bargeHydrostatics (fun _ => (0, 1 / 2, 0)) _ (1 / 2) 5 2 8000 (by norm_num)
    (by linarith [Real.pi_gt_three]) (by norm_num) (by norm_num) barge_layout (fun _ _ _ => rfl) rfl rfl (by norm_num) rfl 0 h1 h2
  exact ⟨h, F, h3, h4⟩

end Xdyn.Sim

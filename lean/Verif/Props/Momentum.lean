import Verif.Props.Energy

/-! C189: the momentum and the angular momentum of a body, in NED, vary as its forces and torques say. -/

namespace Xdyn.Sim

open Blocked Body Spec Solver

variable {Minv : Mat6 ℝ} {F : Vec3 ℝ → Vec3 ℝ → Vec3 ℝ → Quat ℝ → Vec3 ℝ × Vec3 ℝ} {y : ℝ → List ℝ}

/-- The derivatives of the quaternion along a motion. -/
theorem motion_attitude (hy : IsMotion (newton Minv F) y) (t : ℝ) :
    let q := attitudeOf (y t)
    let dq := q.mul ⟨0, turnOf (y t) 0, turnOf (y t) 1, turnOf (y t) 2⟩
    HasDerivAt (fun t => (attitudeOf (y t)).w) (1 / 2 * dq.w) t ∧ HasDerivAt (fun t => (attitudeOf (y t)).x) (1 / 2 * dq.x) t ∧
      HasDerivAt (fun t => (attitudeOf (y t)).y) (1 / 2 * dq.y) t ∧ HasDerivAt (fun t => (attitudeOf (y t)).z) (1 / 2 * dq.z) t := by
  intro q dq
  obtain ⟨hl, hd⟩ := hy t
  rw [newton_parts _ _ _ hl] at hd
  refine ⟨(hd 9).congr_deriv ?_, (hd 10).congr_deriv ?_, (hd 11).congr_deriv ?_, (hd 12).congr_deriv ?_⟩ <;>
    simp [vec13, dq, q, Quat.mul] <;> ring

/-- The quaternion keeps its norm along a motion. -/
theorem motion_unit (hy : IsMotion (newton Minv F) y) (h0 : Unit4 (attitudeOf (y 0))) (t : ℝ) : Unit4 (attitudeOf (y t)) := by
  have hd : ∀ t, HasDerivAt (fun t => (attitudeOf (y t)).w ^ 2 + (attitudeOf (y t)).x ^ 2 + (attitudeOf (y t)).y ^ 2 + (attitudeOf (y t)).z ^ 2) 0 t := by
    intro t
    obtain ⟨a, b, c, d⟩ := motion_attitude hy t
    refine ((((a.pow 2).add (b.pow 2)).add (c.pow 2)).add (d.pow 2)).congr_deriv ?_
    simp [Quat.mul]; ring
  have := is_const_of_deriv_eq_zero (fun t => (hd t).differentiableAt) (fun t => (hd t).deriv) t 0
  unfold Unit4 at h0 ⊢
  exact this.trans h0

theorem skew_mulVec (w a : Vec3 ℝ) : (skew w).mulVec a = cross w a := by
  funext i
  fin_cases i <;> simp [skew, cross, Matrix.mulVec, dotProduct, Fin.sum_univ_three] <;> ring

/-- Derivative, in NED, of a vector given in the axes of the body. -/
theorem rotating_axes (hy : IsMotion (newton Minv F) y) (h0 : Unit4 (attitudeOf (y 0))) (t : ℝ) (a : ℝ → Vec3 ℝ) (da : Vec3 ℝ)
    (ha : ∀ i, HasDerivAt (fun t => a t i) (da i) t) (i : Fin 3) :
    HasDerivAt (fun t => (attitudeOf (y t)).matrix.mulVec (a t) i)
      ((attitudeOf (y t)).matrix.mulVec (da + cross (turnOf (y t)) (a t)) i) t := by
  obtain ⟨h1, h2, h3, h4⟩ := motion_attitude hy t
  have hR := fun j => quaternion_kinematics (fun t => (attitudeOf (y t)).w) (fun t => (attitudeOf (y t)).x) (fun t => (attitudeOf (y t)).y)
    (fun t => (attitudeOf (y t)).z) _ _ _ t (motion_unit hy h0 t) h1 h2 h3 h4 i j
  have key : HasDerivAt (fun t => ∑ j, (attitudeOf (y t)).matrix i j * a t j)
      (∑ j, (((attitudeOf (y t)).matrix * skew ![turnOf (y t) 0, turnOf (y t) 1, turnOf (y t) 2]) i j * a t j +
        (attitudeOf (y t)).matrix i j * da j)) t :=
    HasDerivAt.fun_sum fun j _ => (hR j).mul (ha j)
  refine key.congr_deriv ?_
  rw [vec3_eta, Matrix.mulVec_add, Pi.add_apply, ← skew_mulVec, Matrix.mulVec_mulVec, Finset.sum_add_distrib, add_comm]
  rfl

/-- A rotation of two vectors is a rotation of their vector product. -/
theorem matrix_cross (q : Quat ℝ) (hq : Unit4 q) (a b : Vec3 ℝ) : cross (q.matrix.mulVec a) (q.matrix.mulVec b) = q.matrix.mulVec (cross a b) := by
  unfold Unit4 at hq
  funext i
  fin_cases i <;> simp [Quat.matrix, cross, Matrix.mulVec, dotProduct, Fin.sum_univ_three] <;> grind

/-- The derivatives of the momentum, in the axes of the body: the inertia times the acceleration. -/
theorem momentum_rate (hy : IsMotion (newton Minv F) y) {M : Mat6 ℝ} (hMi : M * Minv = 1) (t : ℝ) :
    let f := F (positionOf (y t)) (velocityOf (y t)) (turnOf (y t)) (attitudeOf (y t))
    (∀ i, HasDerivAt (fun t => linearMomentum M (velocityOf (y t)) (turnOf (y t)) i) (f.1 i) t) ∧
      ∀ i, HasDerivAt (fun t => angularMomentum M (velocityOf (y t)) (turnOf (y t)) i) (f.2 i) t := by
  intro f
  have hd := motion_velocity6 hy t
  have all : ∀ k : Fin 6, HasDerivAt (fun t => ∑ j, M k j * velocity6 (velocityOf (y t)) (turnOf (y t)) j)
      ((![f.1 0, f.1 1, f.1 2, f.2 0, f.2 1, f.2 2] : Vec6 ℝ) k) t := by
    intro k
    refine (HasDerivAt.fun_sum fun j _ => (hd j).const_mul (M k j)).congr_deriv ?_
    have : (∑ j, M k j * acceleration Minv F (y t) j) = M.mulVec (acceleration Minv F (y t)) k := rfl
    rw [this, acceleration, Matrix.mulVec_mulVec, hMi, Matrix.one_mulVec]
  constructor
  · intro i
    fin_cases i
    exacts [all 0, all 1, all 2]
  · intro i
    fin_cases i
    exacts [all 3, all 4, all 5]

theorem cross_anti (a b : Vec3 ℝ) : cross a b + cross b a = 0 := by
  funext i
  fin_cases i <;> simp [cross] <;> ring

/-- **C189** Without added mass, the momentum of a body in NED varies by the sum of the forces of its force models, turned into NED. -/
theorem momentum_balance (b : Multi.MBody ℝ) {M : Mat6 ℝ} (hMi : M * b.Minv = 1) (hcor : b.coriolis = inertialForces M) (l : List Push)
    (cs : List Control) (hy : IsMotion (newton b.Minv (total b l cs)) y) (h0 : Unit4 (attitudeOf (y 0))) (t : ℝ) (i : Fin 3) :
    HasDerivAt (fun t => nedMomentum M (y t) i)
      ((attitudeOf (y t)).matrix.mulVec (applied b l cs (positionOf (y t)) (velocityOf (y t)) (turnOf (y t)) (attitudeOf (y t))).1 i) t := by
  obtain ⟨h1, -⟩ := momentum_rate hy hMi t
  refine (rotating_axes hy h0 t (fun t => linearMomentum M (velocityOf (y t)) (turnOf (y t))) _ h1 i).congr_deriv ?_
  rw [total_applied hcor, Prod.fst_add, inertialForces]
  refine congrFun (congrArg _ ?_) i
  dsimp only
  rw [add_right_comm, cross_anti, zero_add]

/-- **C189** With added mass (`M` is the inertia with added mass, `Ms` the one without): the momentum also varies by what the rotation of the body makes of the
momentum of the added mass, because the corresponding Coriolis and centripetal forces are not computed (as the documentation says). -/
theorem momentum_added_mass (b : Multi.MBody ℝ) {M Ms : Mat6 ℝ} (hMi : M * b.Minv = 1) (hcor : b.coriolis = inertialForces Ms) (l : List Push)
    (cs : List Control) (hy : IsMotion (newton b.Minv (total b l cs)) y) (h0 : Unit4 (attitudeOf (y 0))) (t : ℝ) (i : Fin 3) :
    HasDerivAt (fun t => nedMomentum M (y t) i)
      ((attitudeOf (y t)).matrix.mulVec ((applied b l cs (positionOf (y t)) (velocityOf (y t)) (turnOf (y t)) (attitudeOf (y t))).1 +
        cross (turnOf (y t)) (linearMomentum (M - Ms) (velocityOf (y t)) (turnOf (y t)))) i) t := by
  obtain ⟨h1, -⟩ := momentum_rate hy hMi t
  refine (rotating_axes hy h0 t (fun t => linearMomentum M (velocityOf (y t)) (turnOf (y t))) _ h1 i).congr_deriv ?_
  rw [total_applied hcor, Prod.fst_add, inertialForces]
  refine congrFun (congrArg _ ?_) i
  dsimp only
  have e : linearMomentum (M - Ms) (velocityOf (y t)) (turnOf (y t)) =
      linearMomentum M (velocityOf (y t)) (turnOf (y t)) - linearMomentum Ms (velocityOf (y t)) (turnOf (y t)) := by
    funext j
    simp only [linearMomentum, Matrix.sub_apply, Pi.sub_apply, ← Finset.sum_sub_distrib]
    exact Finset.sum_congr rfl fun k _ => by ring
  rw [e]
  generalize (applied b l cs (positionOf (y t)) (velocityOf (y t)) (turnOf (y t)) (attitudeOf (y t))).1 = A
  funext j
  fin_cases j <;> simp [cross, Matrix.vecHead, Matrix.vecTail] <;> ring

/-- **C189** Without added mass, the angular momentum of a body about the origin of NED varies by the torque of its forces about this point. -/
theorem angular_momentum_balance (b : Multi.MBody ℝ) {M : Mat6 ℝ} (hMi : M * b.Minv = 1) (hcor : b.coriolis = inertialForces M) (l : List Push)
    (cs : List Control) (hy : IsMotion (newton b.Minv (total b l cs)) y) (h0 : Unit4 (attitudeOf (y 0))) (t : ℝ) (i : Fin 3) :
    let F := applied b l cs (positionOf (y t)) (velocityOf (y t)) (turnOf (y t)) (attitudeOf (y t))
    HasDerivAt (fun t => nedAngularMomentum M (y t) i)
      ((cross (positionOf (y t)) ((attitudeOf (y t)).matrix.mulVec F.1) + (attitudeOf (y t)).matrix.mulVec F.2) i) t := by
  intro F
  obtain ⟨-, h2⟩ := momentum_rate hy hMi t
  have hp := momentum_balance b hMi hcor l cs hy h0 t
  have hx := motion_position hy t
  have hu := motion_unit hy h0 t
  have hL := rotating_axes hy h0 t (fun t => angularMomentum M (velocityOf (y t)) (turnOf (y t))) _ h2 i
  have hX : HasDerivAt (fun t => cross (positionOf (y t)) (nedMomentum M (y t)) i)
      ((cross ((attitudeOf (y t)).matrix.mulVec (velocityOf (y t))) (nedMomentum M (y t)) +
        cross (positionOf (y t)) ((attitudeOf (y t)).matrix.mulVec F.1)) i) t := by
    fin_cases i
    · exact (((hx 1).mul (hp 2)).sub ((hx 2).mul (hp 1))).congr_deriv (by simp [cross]; ring)
    · exact (((hx 2).mul (hp 0)).sub ((hx 0).mul (hp 2))).congr_deriv (by simp [cross]; ring)
    · exact (((hx 0).mul (hp 1)).sub ((hx 1).mul (hp 0))).congr_deriv (by simp [cross]; ring)
  refine (hX.add hL).congr_deriv ?_
  have e1 : cross ((attitudeOf (y t)).matrix.mulVec (velocityOf (y t))) (nedMomentum M (y t)) =
      (attitudeOf (y t)).matrix.mulVec (cross (velocityOf (y t)) (linearMomentum M (velocityOf (y t)) (turnOf (y t)))) :=
    matrix_cross _ hu _ _
  rw [e1, ← Pi.add_apply, total_applied hcor, Prod.snd_add, inertialForces]
  refine congrFun ?_ i
  rw [add_right_comm, ← Matrix.mulVec_add, add_comm (cross (positionOf (y t)) _)]
  congr 2
  have a1 := cross_anti (velocityOf (y t)) (linearMomentum M (velocityOf (y t)) (turnOf (y t)))
  have a2 := cross_anti (turnOf (y t)) (angularMomentum M (velocityOf (y t)) (turnOf (y t)))
  calc _ = (cross (velocityOf (y t)) (linearMomentum M (velocityOf (y t)) (turnOf (y t))) +
        cross (linearMomentum M (velocityOf (y t)) (turnOf (y t))) (velocityOf (y t))) +
      (cross (turnOf (y t)) (angularMomentum M (velocityOf (y t)) (turnOf (y t))) +
        cross (angularMomentum M (velocityOf (y t)) (turnOf (y t))) (turnOf (y t))) + F.2 := by
          simp only [F]; abel
    _ = F.2 := by rw [a1, a2]; simp

/-- **C189** Without forces, the momentum and the angular momentum are constant. -/
theorem free_body_momentum (b : Multi.MBody ℝ) {M : Mat6 ℝ} (hMi : M * b.Minv = 1) (hcor : b.coriolis = inertialForces M)
    (hy : IsMotion (newton b.Minv (total b [] [])) y) (h0 : Unit4 (attitudeOf (y 0))) (t t' : ℝ) :
    nedMomentum M (y t) = nedMomentum M (y t') ∧ nedAngularMomentum M (y t) = nedAngularMomentum M (y t') := by
  have c0 : ∀ a : Vec3 ℝ, cross a 0 = 0 := by intro a; funext i; fin_cases i <;> simp [cross]
  constructor
  · funext i
    have hd := fun t => momentum_balance b hMi hcor [] [] hy h0 t i
    simp only [applied, List.map_nil, List.sum_nil, add_zero, Prod.fst_zero, Matrix.mulVec_zero, Pi.zero_apply] at hd
    exact is_const_of_deriv_eq_zero (fun t => (hd t).differentiableAt) (fun t => (hd t).deriv) t t'
  · funext i
    have hd := fun t => angular_momentum_balance b hMi hcor [] [] hy h0 t i
    simp only [applied, List.map_nil, List.sum_nil, add_zero, Prod.fst_zero, Prod.snd_zero, Matrix.mulVec_zero, c0, Pi.zero_apply] at hd
    exact is_const_of_deriv_eq_zero (fun t => (hd t).differentiableAt) (fun t => (hd t).deriv) t t'

/-! ### Concrete cases -/

theorem inertial_one (u w : Vec3 ℝ) : inertialForces 1 u w = (cross u w, 0) := by
  have e1 : linearMomentum 1 u w = u := by
    funext i
    fin_cases i <;> simp [linearMomentum, velocity6, Matrix.one_apply, Fin.sum_univ_succ]
  have e2 : angularMomentum 1 u w = w := by
    funext i
    fin_cases i <;> simp [angularMomentum, velocity6, Matrix.one_apply, Fin.sum_univ_succ]
  rw [inertialForces, e1, e2]
  refine Prod.ext rfl ?_
  funext i
  fin_cases i <;> simp [cross] <;> ring

/-- The ball of Props/Chain has the inertial forces of its inertia. -/
theorem top_inertial : Server.top.coriolis = inertialForces 1 := by
  funext u w
  rw [inertial_one]; rfl

/-- A ball thrown at 1 m/s along the x-axis of NED, which turns at 2 rad/s about the vertical, and falls. -/
noncomputable def thrown (t : ℝ) : List ℝ :=
  [t, 0, 5 * t ^ 2, Real.cos (2 * t), -Real.sin (2 * t), 10 * t, 0, 0, 2, Real.cos t, 0, 0, Real.sin t]

/-- It is a motion of the ball with gravity: the hypotheses of the theorems on energy and momentum are met. -/
theorem thrown_motion : IsMotion (newton Server.top.Minv (total Server.top [.gravity 1 10] [])) thrown := by
  intro t
  refine ⟨rfl, fun i => ?_⟩
  have hs : Real.sin (2 * t) = 2 * Real.sin t * Real.cos t := Real.sin_two_mul t
  have hc : Real.cos (2 * t) = 2 * Real.cos t ^ 2 - 1 := Real.cos_two_mul t
  have hu := Real.sin_sq_add_cos_sq t
  have hid := hasDerivAt_id t
  have h2 : HasDerivAt (fun t : ℝ => 2 * t) 2 t := by simpa using hid.const_mul 2
  have dc2 := (Real.hasDerivAt_cos (2 * t)).comp t h2
  have ds2 := (Real.hasDerivAt_sin (2 * t)).comp t h2
  have hm : (⟨Real.cos t, 0, 0, Real.sin t⟩ : Quat ℝ).matrix =
      !![Real.cos (2 * t), -Real.sin (2 * t), 0; Real.sin (2 * t), Real.cos (2 * t), 0; 0, 0, 1] := by
    ext i j
    fin_cases i <;> fin_cases j <;> simp [Quat.matrix, hs, hc] <;> grind
  have hu2 := Real.sin_sq_add_cos_sq (2 * t)
  have hn : newton Server.top.Minv (total Server.top [.gravity 1 10] []) (thrown t) t =
      [1, 0, 10 * t, -Real.sin (2 * t) * 2, -(Real.cos (2 * t) * 2), 10, 0, 0, 0, -Real.sin t, 0, 0, Real.cos t] := by
    simp only [newton, thrown, hm, total, resultant, Server.top, List.map_cons, List.map_nil, List.sum_cons, List.sum_nil, add_zero, Matrix.one_mulVec,
      cross, Push.wrench]
    simp [Matrix.mulVec, dotProduct, Fin.sum_univ_succ]
    simp [Matrix.vecHead, Matrix.vecTail, Matrix.mulVec, dotProduct, Fin.sum_univ_three]
    grind
  rw [hn]
  match i with
  | 0 => exact hid
  | 1 => simpa [thrown] using hasDerivAt_const t (0 : ℝ)
  | 2 => exact ((hid.pow 2).const_mul 5).congr_deriv (by simp; ring)
  | 3 => exact dc2
  | 4 => exact ds2.neg
  | 5 => exact (hid.const_mul 10).congr_deriv (by simp)
  | 6 => simpa [thrown] using hasDerivAt_const t (0 : ℝ)
  | 7 => simpa [thrown] using hasDerivAt_const t (0 : ℝ)
  | 8 => simpa [thrown] using hasDerivAt_const t (2 : ℝ)
  | 9 => exact Real.hasDerivAt_cos t
  | 10 => simpa [thrown] using hasDerivAt_const t (0 : ℝ)
  | 11 => simpa [thrown] using hasDerivAt_const t (0 : ℝ)
  | 12 => exact Real.hasDerivAt_sin t
  | n + 13 => simpa [thrown] using hasDerivAt_const t (0 : ℝ)

/-- Its energy at every date is the one at date 0. -/
example (t : ℝ) : kinetic 1 (velocityOf (thrown t)) (turnOf (thrown t)) + potential [.gravity 1 10] (positionOf (thrown t)) = 5 / 2 := by
  rw [mechanical_energy_conserved Server.top Matrix.transpose_one (by simp [Server.top]) top_inertial [.gravity 1 10] (by simp [Push.notGravity])
    thrown_motion t 0]
  simp [kinetic, potential, thrown, velocityOf, turnOf, positionOf, velocity6, Matrix.one_apply, Fin.sum_univ_succ]
  norm_num

/-- Two steps of 1 s of the ball without any force, with `euler`: its kinetic energy grows. -/
example (ae1 : ℝ → Bool) :
    ∃ s' obs, quicksolve (simSystem (oneBody Server.freeTop (fun _ a b => decide (a = b)) ae1) eulerMethod.stepper) 10
        ⟨vec13 0 ![1, 0, 0] ![0, 0, 3 / 2] ⟨1, 0, 0, 0⟩, noHistory, fun _ => none, [], 0⟩ 0 2 1 = some (.ok (s', obs)) ∧
      obs.length = 3 ∧ ∀ (i : Nat) (hi : i + 1 < obs.length),
        kinetic 1 (velocityOf obs[i].x) (turnOf obs[i].x) ≤ kinetic 1 (velocityOf obs[i + 1].x) (turnOf obs[i + 1].x) ∧
        (velocityOf obs[i].x ≠ velocityOf obs[i + 1].x ∨ turnOf obs[i].x ≠ turnOf obs[i + 1].x →
          kinetic 1 (velocityOf obs[i].x) (turnOf obs[i].x) < kinetic 1 (velocityOf obs[i + 1].x) (turnOf obs[i + 1].x)) := by
  refine euler_free_body_gains_energy Server.freeTop ⟨rfl, show "top" ≠ "NED" by decide, fun _ => rfl⟩ _ (by simp) ae1 rfl rfl Matrix.transpose_one
    (by simp [Server.freeTop, Server.top]) ?_ top_inertial _ rfl ?_ 0 2 1 one_pos ?_ 2 (by norm_num) ?_ 10 (by norm_num)
  · intro u w hv
    have hk : kinetic 1 u w = (u 0 ^ 2 + u 1 ^ 2 + u 2 ^ 2 + w 0 ^ 2 + w 1 ^ 2 + w 2 ^ 2) / 2 := by
      simp [kinetic, velocity6, Matrix.one_apply, Fin.sum_univ_succ]; ring
    rw [hk]
    by_contra hn
    push Not at hn
    have : ∀ i, velocity6 u w i = 0 := by
      intro i
      fin_cases i <;> simp [velocity6] <;> nlinarith [sq_nonneg (u 0), sq_nonneg (u 1), sq_nonneg (u 2), sq_nonneg (w 0), sq_nonneg (w 1), sq_nonneg (w 2)]
    exact hv (funext this)
  · intro n; cases n <;> rfl
  · exact noHistory_notAfter _ _
  · intro i hi
    have : (i : ℝ) ≤ 1 := by exact_mod_cast (by omega : i ≤ 1)
    linarith

/-- The balance of momentum of the ball: the weight. -/
example (t : ℝ) : HasDerivAt (fun t => nedMomentum 1 (thrown t) 2) 10 t := by
  refine (momentum_balance Server.top (by simp [Server.top]) top_inertial [.gravity 1 10] [] thrown_motion (by simp [thrown, Unit4, attitudeOf]) t
    2).congr_deriv ?_
  have hu := Real.sin_sq_add_cos_sq t
  simp [applied, Push.wrench, thrown, attitudeOf, Quat.matrix, Matrix.mulVec, dotProduct, Fin.sum_univ_succ]

end Xdyn.Sim

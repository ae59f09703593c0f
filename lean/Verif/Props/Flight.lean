import Verif.Spec.Flight
import Verif.Props.Converge
import Verif.Props.Order4

/-! C215: a body thrown with a spin goes along a parabola. -/

namespace Xdyn.Sim

open Blocked Body Spec Solver

theorem rigid_linear {M : Mat6 ℝ} {m : ℝ} {n : Vec3 ℝ} (h : RigidInertia M m n) (u w : Vec3 ℝ) : linearMomentum M u w = m • u := by
  funext i
  have h1 := h.mass i 0
  have h2 := h.mass i 1
  have h3 := h.mass i 2
  have h4 := h.upper i 0
  have h5 := h.upper i 1
  have h6 := h.upper i 2
  fin_cases i <;> simp [linearMomentum, velocity6, Fin.sum_univ_six] at * <;> simp_all

theorem rigid_angular {M : Mat6 ℝ} {m : ℝ} {n : Vec3 ℝ} (h : RigidInertia M m n) (u : Vec3 ℝ) (om : ℝ) :
    ∃ I : ℝ, angularMomentum M u (om • n) = I • n := by
  obtain ⟨I, hI⟩ := h.principal
  refine ⟨om * I, ?_⟩
  funext i
  have h1 := h.lower i 0
  have h2 := h.lower i 1
  have h3 := h.lower i 2
  have h4 := hI i
  rw [Fin.sum_univ_three] at h4
  fin_cases i <;> simp [angularMomentum, velocity6, Fin.sum_univ_six] at * <;> simp_all <;> linear_combination om * h4

theorem rigid_inertial {M : Mat6 ℝ} {m : ℝ} {n : Vec3 ℝ} (h : RigidInertia M m n) (u : Vec3 ℝ) (om : ℝ) :
    inertialForces M u (om • n) = (m • cross u (om • n), 0) := by
  obtain ⟨I, hI⟩ := rigid_angular h u om
  rw [inertialForces, rigid_linear h, hI]
  refine Prod.ext ?_ ?_ <;> funext i <;> fin_cases i <;> simp [cross] <;> ring

theorem rigid_acceleration {M Minv : Mat6 ℝ} (hMi : Minv * M = 1) {m : ℝ} {n : Vec3 ℝ} (h : RigidInertia M m n) (a : Vec3 ℝ) :
    Minv.mulVec ![m * a 0, m * a 1, m * a 2, 0, 0, 0] = ![a 0, a 1, a 2, 0, 0, 0] := by
  have : (![m * a 0, m * a 1, m * a 2, 0, 0, 0] : Vec6 ℝ) = M.mulVec ![a 0, a 1, a 2, 0, 0, 0] := by
    have h1 := h.mass
    have h2 := h.lower
    funext i
    have e := fun j => h.mass j 0
    have e1 := fun j => h.mass j 1
    have e2 := fun j => h.mass j 2
    have f := fun j => h.lower j 0
    have f1 := fun j => h.lower j 1
    have f2 := fun j => h.lower j 2
    simp only [Matrix.mulVec, dotProduct, Fin.sum_univ_six]
    fin_cases i
    · have := e 0; have := e1 0; have := e2 0; simp_all
    · have := e 1; have := e1 1; have := e2 1; simp_all
    · have := e 2; have := e1 2; have := e2 2; simp_all
    · have := f 0; have := f1 0; have := f2 0; simp_all
    · have := f 1; have := f1 1; have := f2 1; simp_all
    · have := f 2; have := f1 2; have := f2 2; simp_all
  rw [this, Matrix.mulVec_mulVec, hMi, Matrix.one_mulVec]

theorem turned_unit {q : Quat ℝ} (hq : Unit4 q) {n : Vec3 ℝ} (hn : unitAxis n) (phi : ℝ) : Unit4 (turned q n phi) := by
  have hs := Real.sin_sq_add_cos_sq (phi / 2)
  unfold Unit4 unitAxis at *
  simp only [turned, Quat.mul]
  grind

theorem matrix_transpose_mulVec {q : Quat ℝ} (hq : Unit4 q) (v : Vec3 ℝ) : q.matrix.mulVec (q.matrix.transpose.mulVec v) = v := by
  unfold Unit4 at hq
  funext i
  fin_cases i <;> simp [Quat.matrix, Matrix.mulVec, dotProduct, Fin.sum_univ_three] <;> grind

theorem turned_rate (q : Quat ℝ) {n : Vec3 ℝ} (hn : unitAxis n) (om t : ℝ) :
    HasDerivAt (fun t => (turned q n (om * t)).w) (1 / 2 * ((turned q n (om * t)).mul ⟨0, om * n 0, om * n 1, om * n 2⟩).w) t ∧
      HasDerivAt (fun t => (turned q n (om * t)).x) (1 / 2 * ((turned q n (om * t)).mul ⟨0, om * n 0, om * n 1, om * n 2⟩).x) t ∧
      HasDerivAt (fun t => (turned q n (om * t)).y) (1 / 2 * ((turned q n (om * t)).mul ⟨0, om * n 0, om * n 1, om * n 2⟩).y) t ∧
      HasDerivAt (fun t => (turned q n (om * t)).z) (1 / 2 * ((turned q n (om * t)).mul ⟨0, om * n 0, om * n 1, om * n 2⟩).z) t := by
  have hid : HasDerivAt (fun t : ℝ => om * t / 2) (om / 2) t := by simpa using ((hasDerivAt_id t).const_mul om).div_const 2
  have dc : HasDerivAt (fun t : ℝ => Real.cos (om * t / 2)) (-Real.sin (om * t / 2) * (om / 2)) t := (Real.hasDerivAt_cos _).comp t hid
  have ds : HasDerivAt (fun t : ℝ => Real.sin (om * t / 2)) (Real.cos (om * t / 2) * (om / 2)) t := (Real.hasDerivAt_sin _).comp t hid
  unfold unitAxis at hn
  simp only [turned, Quat.mul]
  refine ⟨((((dc.const_mul q.w).sub ((ds.mul_const (n 0)).const_mul q.x)).sub ((ds.mul_const (n 1)).const_mul q.y)).sub
      ((ds.mul_const (n 2)).const_mul q.z)).congr_deriv ?_,
    ((((ds.mul_const (n 0)).const_mul q.w).add (dc.const_mul q.x)).add ((ds.mul_const (n 2)).const_mul q.y)).sub
      ((ds.mul_const (n 1)).const_mul q.z) |>.congr_deriv ?_,
    ((((ds.mul_const (n 1)).const_mul q.w).add (dc.const_mul q.y)).add ((ds.mul_const (n 0)).const_mul q.z)).sub
      ((ds.mul_const (n 2)).const_mul q.x) |>.congr_deriv ?_,
    ((((ds.mul_const (n 2)).const_mul q.w).add (dc.const_mul q.z)).add ((ds.mul_const (n 1)).const_mul q.x)).sub
      ((ds.mul_const (n 0)).const_mul q.y) |>.congr_deriv ?_⟩ <;> grind

/-- Derivative of the velocity in the axes of the body. -/
theorem flight_velocity {q : Quat ℝ} (hq : Unit4 q) {n : Vec3 ℝ} (hn : unitAxis n) (om : ℝ) (v : ℝ → Vec3 ℝ) (dv : Vec3 ℝ) (t : ℝ)
    (hv : ∀ i, HasDerivAt (fun t => v t i) (dv i) t) (i : Fin 3) :
    HasDerivAt (fun t => (turned q n (om * t)).matrix.transpose.mulVec (v t) i)
      ((cross ((turned q n (om * t)).matrix.transpose.mulVec (v t)) (om • n) + (turned q n (om * t)).matrix.transpose.mulVec dv) i) t := by
  obtain ⟨h1, h2, h3, h4⟩ := turned_rate q hn om t
  have hR := fun j => quaternion_kinematics (fun t => (turned q n (om * t)).w) (fun t => (turned q n (om * t)).x) (fun t => (turned q n (om * t)).y)
    (fun t => (turned q n (om * t)).z) _ _ _ t (turned_unit hq hn (om * t)) h1 h2 h3 h4 j i
  have key : HasDerivAt (fun t => ∑ j, (turned q n (om * t)).matrix j i * v t j)
      (∑ j, (((turned q n (om * t)).matrix * skew ![om * n 0, om * n 1, om * n 2]) j i * v t j +
        (turned q n (om * t)).matrix j i * dv j)) t :=
    HasDerivAt.fun_sum fun j _ => (hR j).mul (hv j)
  refine key.congr_deriv ?_
  generalize (turned q n (om * t)).matrix = R
  fin_cases i <;> simp [skew, cross, Fin.sum_univ_three, Matrix.mul_apply, Matrix.mulVec, dotProduct] <;> ring

/-- **C215** The flight is the motion given by Newton's equations. -/
theorem flight_is_motion (b : Multi.MBody ℝ) {M : Mat6 ℝ} (hMi : b.Minv * M = 1) (hcor : b.coriolis = inertialForces M) {m : ℝ} (P V : Vec3 ℝ) {n : Vec3 ℝ}
    (hM : RigidInertia M m n) (hn : unitAxis n) {q : Quat ℝ} (hq : Unit4 q) (g om : ℝ) :
    IsMotion (newton b.Minv (fun _ => resultant b [.gravity M g])) (flight P V n q g om) := by
  intro t
  refine ⟨rfl, ?_⟩
  have hid := hasDerivAt_id t
  have hv : ∀ i, HasDerivAt (fun t : ℝ => (V + (g * t) • downward) i) ((g • downward) i) t := by
    intro i
    refine ((hasDerivAt_const t (V i)).add ((hid.const_mul g).mul_const (downward i))).congr_deriv ?_
    simp
  have hp : ∀ i, HasDerivAt (fun t : ℝ => (P + t • V + (g * t ^ 2 / 2) • downward) i) ((V + (g * t) • downward) i) t := by
    intro i
    refine (((hasDerivAt_const t (P i)).add (hid.mul_const (V i))).add ((((hid.pow 2).const_mul g).div_const 2).mul_const (downward i))).congr_deriv ?_
    simp
    exact Or.inl (by ring)
  have hu := flight_velocity hq hn om _ _ t hv
  obtain ⟨h1, h2, h3, h4⟩ := turned_rate q hn om t
  have hm : M 2 2 = m := by simpa using hM.mass 2 2
  have e1 : velocityOf (flight P V n q g om t) = (turned q n (om * t)).matrix.transpose.mulVec (V + (g * t) • downward) :=
    vec3_eta ((turned q n (om * t)).matrix.transpose.mulVec (V + (g * t) • downward))
  have e2 : turnOf (flight P V n q g om t) = om • n := vec3_eta (om • n)
  have e3 : attitudeOf (flight P V n q g om t) = turned q n (om * t) := rfl
  obtain ⟨a, haa⟩ : ∃ a, a = cross ((turned q n (om * t)).matrix.transpose.mulVec (V + (g * t) • downward)) (om • n) +
        (turned q n (om * t)).matrix.transpose.mulVec (g • downward) := ⟨_, rfl⟩
  have ha : acceleration b.Minv (fun _ => resultant b [.gravity M g]) (flight P V n q g om t) = ![a 0, a 1, a 2, 0, 0, 0] := by
    rw [← rigid_acceleration hMi hM a]
    unfold acceleration
    congr 1
    rw [e1, e2, e3]
    simp only [resultant, hcor, rigid_inertial hM, List.map_cons, List.map_nil, List.sum_cons, List.sum_nil, add_zero, Push.wrench, hm]
    have e4 : (![0, 0, m * g] : Vec3 ℝ) = m • (g • downward) := by
      funext i; fin_cases i <;> simp [downward]
    rw [e4, Matrix.mulVec_smul]
    simp only [haa, Prod.mk_add_mk, Pi.add_apply, Pi.smul_apply, smul_eq_mul, Pi.zero_apply, add_zero, mul_add]
  intro i
  rw [newton_parts _ _ _ rfl, ha]
  have e0 : (attitudeOf (flight P V n q g om t)).matrix.mulVec (velocityOf (flight P V n q g om t)) = V + (g * t) • downward := by
    rw [e1]
    exact matrix_transpose_mulVec (turned_unit hq hn (om * t)) _
  rw [e0]
  subst haa
  have hw : ∀ i, HasDerivAt (fun _ : ℝ => (om • n) i) 0 t := fun i => hasDerivAt_const t _
  match i with
  | 0 => exact hp 0
  | 1 => exact hp 1
  | 2 => exact hp 2
  | 3 => exact hu 0
  | 4 => exact hu 1
  | 5 => exact hu 2
  | 6 => exact hw 0
  | 7 => exact hw 1
  | 8 => exact hw 2
  | 9 => exact h1.congr_deriv (by simp [vec13, Quat.mul, flight, attitudeOf, turnOf]; ring)
  | 10 => exact h2.congr_deriv (by simp [vec13, Quat.mul, flight, attitudeOf, turnOf]; ring)
  | 11 => exact h3.congr_deriv (by simp [vec13, Quat.mul, flight, attitudeOf, turnOf]; ring)
  | 12 => exact h4.congr_deriv (by simp [vec13, Quat.mul, flight, attitudeOf, turnOf]; ring)
  | k + 13 => simpa [flight, vec13] using hasDerivAt_const t (0 : ℝ)

/-- **C215** A rigid body whose states are written at its centre of gravity, with the force model `gravity` alone, thrown from `P` at the velocity `V` while it
spins at `om` rad/s about one of its principal axes of inertia: all the simulations go to the end, and at each observed date the position, velocities, rates
of turn and attitude are at most `C dt` away from those of the flight along the parabola. -/
theorem flight_simulation (e : Multi.Entry ℝ) (he : Alone e) {M : Mat6 ℝ} (hMi : e.body.Minv * M = 1) (hcor : e.body.coriolis = inertialForces M) {m : ℝ}
    (P V : Vec3 ℝ) {n : Vec3 ℝ} (hM : RigidInertia M m n) (hn : unitAxis n) {q : Quat ℝ} (hq : Unit4 q) (g om : ℝ)
    (hl : e.forces = [Push.model e.body (.gravity M g)]) (hc : e.controlled = []) (ae : Nat → ℝ → ℝ → Bool) (hae : ∀ n a, ae n a a = true) (ae1 : ℝ → Bool)
    (T : Tableau ℝ) (hT : Forward T) (hw : WellWeighted T) (D : ℝ) (hD : 0 ≤ D) :
    ∃ C δ, 0 < δ ∧ ∀ dt, 0 < dt → dt ≤ δ → ∀ N : Nat, (N : ℝ) * dt ≤ D →
      ∀ tend, tend ≤ N * dt → (∀ i < N, (i : ℝ) * dt < tend) →
      ∀ s : Sim ℝ (Vec3 ℝ × Vec3 ℝ), s.state = vec13 P (q.matrix.transpose.mulVec V) (om • n) q → (∀ n, (field s.hist n).Tmax = 0) → NotAfter ae s.hist 0 →
      ∀ fuel, N ≤ fuel → ∀ sys, (sys = simSystem (oneBody e ae ae1) T.stepper ∨ sys = sscSystem (oneBody e ae ae1) T.stepper) →
      ∃ s' obs, quicksolve sys fuel s 0 tend dt = some (.ok (s', obs)) ∧ obs.length = N + 1 ∧
        ∀ (i : Nat) (hi : i < obs.length), obs[i].t = i * dt ∧ Near (C * dt) obs[i].x (flight P V n q g om obs[i].t) := by
  have h0 : turned q n (om * 0) = q := by cases q; simp [turned, Quat.mul]
  obtain ⟨C, δ, hδ, H⟩ := simulation_converges e he hcor ae hae ae1 [.gravity M g] hl (by simp [Push.InBody]) (by simp [Push.Regular]) hc T hT hw _
    (flight_is_motion e.body hMi hcor P V hM hn hq g om) 0 D hD (by change Unit4 (turned q n (om * 0)); rw [h0]; exact hq)
  refine ⟨C, δ, hδ, ?_⟩
  intro dt hdt hd N hN tend htend hfirst s hs hh hna fuel hf sys hsys
  have hs0 : s.state = flight P V n q g om 0 := by
    rw [hs, flight, h0]; simp
  obtain ⟨s', obs, a, b, c⟩ := H dt hdt hd N hN tend (by simpa using htend) (by simpa using hfirst) s hs0 hh hna fuel hf sys hsys
  exact ⟨s', obs, a, b, fun i hi => by simpa using c i hi⟩

/-- **C215** With the solver `rk4`, the distance to the flight is at most `C dt⁴`. -/
theorem flight_simulation_rk4 (e : Multi.Entry ℝ) (he : Alone e) {M : Mat6 ℝ} (hMi : e.body.Minv * M = 1) (hcor : e.body.coriolis = inertialForces M) {m : ℝ}
    (P V : Vec3 ℝ) {n : Vec3 ℝ} (hM : RigidInertia M m n) (hn : unitAxis n) {q : Quat ℝ} (hq : Unit4 q) (g om : ℝ)
    (hl : e.forces = [Push.model e.body (.gravity M g)]) (hc : e.controlled = []) (ae : Nat → ℝ → ℝ → Bool) (hae : ∀ n a, ae n a a = true) (ae1 : ℝ → Bool)
    (D : ℝ) (hD : 0 ≤ D) :
    ∃ C δ, 0 < δ ∧ ∀ dt, 0 < dt → dt ≤ δ → ∀ N : Nat, (N : ℝ) * dt ≤ D →
      ∀ tend, tend ≤ N * dt → (∀ i < N, (i : ℝ) * dt < tend) →
      ∀ s : Sim ℝ (Vec3 ℝ × Vec3 ℝ), s.state = vec13 P (q.matrix.transpose.mulVec V) (om • n) q → (∀ n, (field s.hist n).Tmax = 0) → NotAfter ae s.hist 0 →
      ∀ fuel, N ≤ fuel → ∀ sys, (sys = simSystem (oneBody e ae ae1) rk4Method.stepper ∨ sys = sscSystem (oneBody e ae ae1) rk4Method.stepper) →
      ∃ s' obs, quicksolve sys fuel s 0 tend dt = some (.ok (s', obs)) ∧ obs.length = N + 1 ∧
        ∀ (i : Nat) (hi : i < obs.length), obs[i].t = i * dt ∧ Near (C * dt ^ 4) obs[i].x (flight P V n q g om obs[i].t) := by
  have h0 : turned q n (om * 0) = q := by cases q; simp [turned, Quat.mul]
  obtain ⟨C, δ, hδ, H⟩ := rk4_fourth_order e he hcor ae hae ae1 [.gravity M g] hl (by simp [Push.InBody]) (by simp [Push.Smooth]) hc _
    (flight_is_motion e.body hMi hcor P V hM hn hq g om) 0 D hD (by change Unit4 (turned q n (om * 0)); rw [h0]; exact hq)
  refine ⟨C, δ, hδ, ?_⟩
  intro dt hdt hd N hN tend htend hfirst s hs hh hna fuel hf sys hsys
  have hs0 : s.state = flight P V n q g om 0 := by
    rw [hs, flight, h0]; simp
  obtain ⟨s', obs, a, b, c⟩ := H dt hdt hd N hN tend (by simpa using htend) (by simpa using hfirst) s hs0 hh hna fuel hf sys hsys
  exact ⟨s', obs, a, b, fun i hi => by simpa using c i hi⟩

/-! ### A plank that tumbles end over end -/

/-- Mass 2 kg, moments of inertia 1, 3 and 4 kg.m². -/
noncomputable def plankInertia : Mat6 ℝ := Matrix.diagonal ![2, 2, 2, 1, 3, 4]

noncomputable def plank : Multi.MBody ℝ :=
  { name := "plank", idx := 0, blocked := ⟨fun _ => none, 0, fun _ => none, fun _ => none⟩, G := 0
    Minv := Matrix.diagonal ![1 / 2, 1 / 2, 1 / 2, 1, 1 / 3, 1 / 4], coriolis := inertialForces plankInertia }

noncomputable def thrownPlank : Multi.Entry ℝ := ⟨plank, [Push.model plank (.gravity plankInertia 10)], []⟩

theorem plank_rigid : RigidInertia plankInertia 2 ![0, 1, 0] where
  mass i j := by fin_cases i <;> fin_cases j <;> simp [plankInertia, Matrix.diagonal_apply]
  upper i j := by fin_cases i <;> fin_cases j <;> exact Matrix.diagonal_apply_ne _ (by decide)
  lower i j := by fin_cases i <;> fin_cases j <;> exact Matrix.diagonal_apply_ne _ (by decide)
  principal := ⟨3, fun i => by
    rw [Fin.sum_univ_three]
    fin_cases i
    · simp [plankInertia, Matrix.diagonal_apply]
    · simp [plankInertia, Matrix.diagonal_apply]
    · simp [plankInertia, Matrix.diagonal_apply]⟩

theorem plank_inverse : plank.Minv * plankInertia = 1 := by
  rw [plank, plankInertia, Matrix.diagonal_mul_diagonal, ← Matrix.diagonal_one]
  congr 1
  funext i
  fin_cases i <;> norm_num

/-- Thrown upwards at 5 m/s and ahead at 1 m/s, it pitches at 6 rad/s, through the attitudes where the Euler angles are not defined. -/
example : ∃ C δ, 0 < δ ∧ ∀ dt, 0 < dt → dt ≤ δ → ∀ N : Nat, (N : ℝ) * dt ≤ 10 →
    ∃ s' obs, quicksolve (simSystem (oneBody thrownPlank (fun _ a b => decide (a = b)) (fun _ => false)) rk4Method.stepper) N
        ⟨vec13 0 ![1, 0, -5] ![0, 6, 0] ⟨1, 0, 0, 0⟩, noHistory, fun _ => none, [], 0⟩ 0 (N * dt) dt = some (.ok (s', obs)) ∧ obs.length = N + 1 ∧
      ∀ (i : Nat) (hi : i < obs.length), obs[i].t = i * dt ∧ Near (C * dt ^ 4) obs[i].x (flight 0 ![1, 0, -5] ![0, 1, 0] ⟨1, 0, 0, 0⟩ 10 6 obs[i].t) := by
  obtain ⟨C, δ, hδ, H⟩ := flight_simulation_rk4 thrownPlank ⟨rfl, show "plank" ≠ "NED" by decide, fun _ => rfl⟩ plank_inverse rfl 0 ![1, 0, -5] plank_rigid
    (by simp [unitAxis]) (q := ⟨1, 0, 0, 0⟩) (by simp [Unit4]) 10 6 rfl rfl (fun _ a b => decide (a = b)) (by simp) (fun _ => false) 10 (by norm_num)
  refine ⟨C, δ, hδ, fun dt hdt hd N hN => H dt hdt hd N hN (N * dt) le_rfl (fun i hi => ?_) _ ?_ (fun n => by cases n <;> rfl) (noHistory_notAfter _ _) N le_rfl _ (Or.inl rfl)⟩
  · exact mul_lt_mul_of_pos_right (by exact_mod_cast hi) hdt
  · simp [vec13, Quat.matrix, Matrix.mulVec, dotProduct, Fin.sum_univ_three]

/-- One second later it is back at its height, 1 m ahead, and falls at 5 m/s. -/
example : (flight 0 ![1, 0, -5] ![0, 1, 0] ⟨1, 0, 0, 0⟩ 10 6 1).getD 2 1 = 0 ∧ (flight 0 ![1, 0, -5] ![0, 1, 0] ⟨1, 0, 0, 0⟩ 10 6 1).getD 0 0 = 1 := by
  simp [flight, vec13, downward]; norm_num

end Xdyn.Sim

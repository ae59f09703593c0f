import Verif.Spec.Energy
import Verif.Props.Translation
import Verif.Props.Chain
import Mathlib.Analysis.Calculus.MeanValue
import Mathlib.Analysis.Calculus.Deriv.Add
import Mathlib.Analysis.Calculus.Deriv.Mul

/-! C188: the kinetic energy of a body varies by the work of its forces. -/

namespace Xdyn.Sim

open Blocked Body Spec Solver

/-! ### Algebra -/

/-- Coriolis and centripetal forces do no work. -/
theorem inertial_power (M : Mat6 ℝ) (u w : Vec3 ℝ) : powerOf (inertialForces M u w) u w = 0 := by
  simp only [powerOf, inertialForces, dot, cross, Pi.add_apply, Matrix.cons_val]
  ring

theorem powerOf_add (F F' : Vec3 ℝ × Vec3 ℝ) (u w : Vec3 ℝ) : powerOf (F + F') u w = powerOf F u w + powerOf F' u w := by
  simp only [powerOf, dot, Prod.fst_add, Prod.snd_add, Pi.add_apply]
  ring

theorem powerOf_zero (u w : Vec3 ℝ) : powerOf 0 u w = 0 := by simp [powerOf, dot]

theorem powerOf_sum (l : List (Vec3 ℝ × Vec3 ℝ)) (u w : Vec3 ℝ) : powerOf l.sum u w = (l.map fun F => powerOf F u w).sum := by
  induction l with
  | nil => simp [powerOf_zero]
  | cons a l ih => simp [powerOf_add, ih]

/-- Velocities times forces: the power. -/
theorem velocity_force (F : Vec3 ℝ × Vec3 ℝ) (u w : Vec3 ℝ) :
    ∑ i, velocity6 u w i * (![F.1 0, F.1 1, F.1 2, F.2 0, F.2 1, F.2 2] : Vec6 ℝ) i = powerOf F u w := by
  simp [velocity6, powerOf, dot, Fin.sum_univ_succ]
  ring

/-- Velocity times inertia times acceleration. -/
noncomputable def pairing (M : Mat6 ℝ) (a b : Vec6 ℝ) : ℝ := ∑ i, ∑ j, a i * M i j * b j

theorem pairing_comm {M : Mat6 ℝ} (hM : M.transpose = M) (a b : Vec6 ℝ) : pairing M a b = pairing M b a := by
  unfold pairing
  rw [Finset.sum_comm]
  refine Finset.sum_congr rfl fun i _ => Finset.sum_congr rfl fun j _ => ?_
  have : M j i = M i j := congrFun (congrFun hM i) j
  rw [this]; ring

theorem pairing_mulVec (M : Mat6 ℝ) (a b : Vec6 ℝ) : pairing M a b = ∑ i, a i * M.mulVec b i := by
  unfold pairing
  refine Finset.sum_congr rfl fun i _ => ?_
  simp only [Matrix.mulVec, dotProduct, Finset.mul_sum]
  exact Finset.sum_congr rfl fun j _ => by ring

theorem pairing_acceleration {M Minv : Mat6 ℝ} (hMi : M * Minv = 1) (a F : Vec6 ℝ) : pairing M a (Minv.mulVec F) = ∑ i, a i * F i := by
  rw [pairing_mulVec, Matrix.mulVec_mulVec, hMi, Matrix.one_mulVec]

/-! ### The components of a motion -/

theorem vec13_parts (s : List ℝ) (h : s.length = 13) : s = vec13 (positionOf s) (velocityOf s) (turnOf s) (attitudeOf s) := by
  match s, h with
  | [a, b, c, d, e, f, g, h, i, j, k, l, m], _ => rfl

/-- The acceleration given by the equations of motion. -/
noncomputable def acceleration (Minv : Mat6 ℝ) (F : Vec3 ℝ → Vec3 ℝ → Vec3 ℝ → Quat ℝ → Vec3 ℝ × Vec3 ℝ) (s : List ℝ) : Vec6 ℝ :=
  Minv.mulVec (let f := F (positionOf s) (velocityOf s) (turnOf s) (attitudeOf s); ![f.1 0, f.1 1, f.1 2, f.2 0, f.2 1, f.2 2])

theorem vec3_eta (a : Vec3 ℝ) : ![a 0, a 1, a 2] = a := by funext i; fin_cases i <;> rfl

theorem newton_parts (Minv : Mat6 ℝ) (F : Vec3 ℝ → Vec3 ℝ → Vec3 ℝ → Quat ℝ → Vec3 ℝ × Vec3 ℝ) (s : List ℝ) (h : s.length = 13) (t : ℝ) :
    newton Minv F s t = vec13 ((attitudeOf s).matrix.mulVec (velocityOf s))
      (fun i => acceleration Minv F s (i.castLE (by omega))) (fun i => acceleration Minv F s (i.natAdd 3))
      ⟨(-(attitudeOf s).x * turnOf s 0 - (attitudeOf s).y * turnOf s 1 - (attitudeOf s).z * turnOf s 2) / 2,
       ((attitudeOf s).w * turnOf s 0 + (attitudeOf s).y * turnOf s 2 - (attitudeOf s).z * turnOf s 1) / 2,
       ((attitudeOf s).w * turnOf s 1 - (attitudeOf s).x * turnOf s 2 + (attitudeOf s).z * turnOf s 0) / 2,
       ((attitudeOf s).w * turnOf s 2 + (attitudeOf s).x * turnOf s 1 - (attitudeOf s).y * turnOf s 0) / 2⟩ := by
  match s, h with
  | [a, b, c, d, e, f, g, h, i, j, k, l, m], _ => rfl

theorem motion_position {Minv : Mat6 ℝ} {F : Vec3 ℝ → Vec3 ℝ → Vec3 ℝ → Quat ℝ → Vec3 ℝ × Vec3 ℝ} {y : ℝ → List ℝ}
    (hy : IsMotion (newton Minv F) y) (t : ℝ) (i : Fin 3) :
    HasDerivAt (fun t => positionOf (y t) i) ((attitudeOf (y t)).matrix.mulVec (velocityOf (y t)) i) t := by
  obtain ⟨hl, hd⟩ := hy t
  rw [newton_parts _ _ _ hl] at hd
  fin_cases i
  exacts [hd 0, hd 1, hd 2]

theorem motion_velocity6 {Minv : Mat6 ℝ} {F : Vec3 ℝ → Vec3 ℝ → Vec3 ℝ → Quat ℝ → Vec3 ℝ × Vec3 ℝ} {y : ℝ → List ℝ}
    (hy : IsMotion (newton Minv F) y) (t : ℝ) (i : Fin 6) :
    HasDerivAt (fun t => velocity6 (velocityOf (y t)) (turnOf (y t)) i) (acceleration Minv F (y t) i) t := by
  obtain ⟨hl, hd⟩ := hy t
  rw [newton_parts _ _ _ hl] at hd
  fin_cases i
  exacts [hd 3, hd 4, hd 5, hd 6, hd 7, hd 8]

/-- The forces computed for the body, with its inertial forces. -/
theorem total_applied {b : Multi.MBody ℝ} {Ms : Mat6 ℝ} (hcor : b.coriolis = inertialForces Ms) (l : List Push) (cs : List Control) (P u w : Vec3 ℝ)
    (q : Quat ℝ) : total b l cs P u w q = inertialForces Ms u w + applied b l cs P u w q := by
  rw [total, resultant, applied, hcor, add_assoc]

/-- **C188** The kinetic energy of a body varies by the power of its forces: Coriolis and centripetal forces do no work. `M` is
the inertia with added mass, `Ms` the one without. -/
theorem kinetic_energy_rate (b : Multi.MBody ℝ) {M Ms : Mat6 ℝ} (hM : M.transpose = M) (hMi : M * b.Minv = 1)
    (hcor : b.coriolis = inertialForces Ms) (l : List Push) (cs : List Control) {y : ℝ → List ℝ}
    (hy : IsMotion (newton b.Minv (total b l cs)) y) (t : ℝ) :
    HasDerivAt (fun t => kinetic M (velocityOf (y t)) (turnOf (y t)))
      (powerOf (applied b l cs (positionOf (y t)) (velocityOf (y t)) (turnOf (y t)) (attitudeOf (y t))) (velocityOf (y t)) (turnOf (y t))) t := by
  set n := fun (i : Fin 6) t => velocity6 (velocityOf (y t)) (turnOf (y t)) i with hn
  set a := acceleration b.Minv (total b l cs) (y t) with ha
  have hd : ∀ i, HasDerivAt (n i) (a i) t := motion_velocity6 hy t
  have key : HasDerivAt (fun t => (∑ i, ∑ j, n i t * M i j * n j t) / 2)
      ((∑ i, ∑ j, (a i * M i j * n j t + n i t * M i j * a j)) / 2) t := by
    refine HasDerivAt.div_const (HasDerivAt.fun_sum fun i _ => HasDerivAt.fun_sum fun j _ => ?_) 2
    exact ((hd i).mul_const (M i j)).mul (hd j)
  refine key.congr_deriv ?_
  have e1 : (∑ i, ∑ j, (a i * M i j * n j t + n i t * M i j * a j)) =
      pairing M a (fun i => n i t) + pairing M (fun i => n i t) a := by
    simp only [pairing, Finset.sum_add_distrib]
  rw [e1, pairing_comm hM a, ha, acceleration, pairing_acceleration hMi]
  have e2 := velocity_force (total b l cs (positionOf (y t)) (velocityOf (y t)) (turnOf (y t)) (attitudeOf (y t))) (velocityOf (y t)) (turnOf (y t))
  simp only [hn]
  rw [e2, total_applied hcor, powerOf_add, inertial_power]
  ring

/-! ### Potential energy of gravity -/

theorem gravity_power (G u w : Vec3 ℝ) (q : Quat ℝ) (M : Mat6 ℝ) (g : ℝ) :
    powerOf (Push.wrench G u w q (.gravity M g)) u w = M 2 2 * g * q.matrix.mulVec u 2 := by
  simp only [Push.wrench, powerOf, dot, Matrix.mulVec, dotProduct, Fin.sum_univ_three, Matrix.transpose_apply, Matrix.cons_val, Pi.zero_apply]
  ring

theorem potential_rate (l : List Push) (z : ℝ → Vec3 ℝ) (dz t : ℝ) (hz : HasDerivAt (fun t => z t 2) dz t) (G u w : Vec3 ℝ) (q : Quat ℝ)
    (hq : q.matrix.mulVec u 2 = dz) :
    HasDerivAt (fun t => potential l (z t))
      (((l.filter Push.notGravity).map (fun f => powerOf (f.wrench G u w q) u w)).sum - (l.map (fun f => powerOf (f.wrench G u w q) u w)).sum) t := by
  induction l with
  | nil => simpa [potential] using hasDerivAt_const t (0 : ℝ)
  | cons f l ih =>
    have other : f.notGravity = true → HasDerivAt (fun t => potential (f :: l) (z t))
        ((((f :: l).filter Push.notGravity).map (fun f => powerOf (f.wrench G u w q) u w)).sum -
          ((f :: l).map (fun f => powerOf (f.wrench G u w q) u w)).sum) t := by
      intro hf
      have e : (fun t => potential (f :: l) (z t)) = fun t => potential l (z t) := by
        funext t
        cases f <;> simp_all [potential, Push.notGravity]
      rw [e, List.filter_cons_of_pos hf]
      refine ih.congr_deriv ?_
      simp only [List.map_cons, List.sum_cons]; ring
    cases f with
    | gravity M g =>
      have e : (fun t => potential (.gravity M g :: l) (z t)) = fun t => -(M 2 2 * g * z t 2) + potential l (z t) := by
        funext t; simp [potential]
      rw [e, List.filter_cons_of_neg (by simp [Push.notGravity])]
      refine ((hz.const_mul (M 2 2 * g)).neg.add ih).congr_deriv ?_
      simp only [List.map_cons, List.sum_cons, gravity_power, hq]; ring
    | _ => exact other rfl

/-- **C188** The mechanical energy (kinetic energy, plus `-m g z` for gravity) varies by the power of the forces other than gravity. -/
theorem mechanical_energy_rate (b : Multi.MBody ℝ) {M Ms : Mat6 ℝ} (hM : M.transpose = M) (hMi : M * b.Minv = 1)
    (hcor : b.coriolis = inertialForces Ms) (l : List Push) (cs : List Control) {y : ℝ → List ℝ}
    (hy : IsMotion (newton b.Minv (total b l cs)) y) (t : ℝ) :
    HasDerivAt (fun t => kinetic M (velocityOf (y t)) (turnOf (y t)) + potential l (positionOf (y t)))
      (powerOf (applied b (l.filter Push.notGravity) cs (positionOf (y t)) (velocityOf (y t)) (turnOf (y t)) (attitudeOf (y t)))
        (velocityOf (y t)) (turnOf (y t))) t := by
  refine ((kinetic_energy_rate b hM hMi hcor l cs hy t).add
    (potential_rate l (fun t => positionOf (y t)) _ t (motion_position hy t 2) b.G (velocityOf (y t)) (turnOf (y t)) (attitudeOf (y t)) rfl)).congr_deriv ?_
  simp only [applied, powerOf_add, powerOf_sum, List.map_map, Function.comp_def]
  ring

/-- Forces whose power is never positive. -/
def Push.Dissipative (G : Vec3 ℝ) (f : Push) : Prop := ∀ u w q, powerOf (f.wrench G u w q) u w ≤ 0

/-- **C188** With gravity, and other forces that never bring energy, the mechanical energy never increases. -/
theorem mechanical_energy_decreases (b : Multi.MBody ℝ) {M Ms : Mat6 ℝ} (hM : M.transpose = M) (hMi : M * b.Minv = 1)
    (hcor : b.coriolis = inertialForces Ms) (l : List Push) (hl : ∀ f ∈ l, f.notGravity = true → f.Dissipative b.G) {y : ℝ → List ℝ}
    (hy : IsMotion (newton b.Minv (total b l [])) y) :
    Antitone fun t => kinetic M (velocityOf (y t)) (turnOf (y t)) + potential l (positionOf (y t)) := by
  have hd := mechanical_energy_rate b hM hMi hcor l [] hy
  refine antitone_of_hasDerivAt_nonpos hd fun t => ?_
  simp only [applied, powerOf_add, powerOf_sum, List.map_map, List.map_nil, List.sum_nil, add_zero, Function.comp_def]
  have key : ∀ k : List Push, (∀ f ∈ k, f.Dissipative b.G) → ∀ u w q, (k.map fun f => powerOf (f.wrench b.G u w q) u w).sum ≤ 0 := by
    intro k hk u w q
    induction k with
    | nil => simp
    | cons f k ih =>
      have h1 := hk f (by simp) u w q
      have h2 := ih fun g hg => hk g (by simp [hg])
      simp only [List.map_cons, List.sum_cons]; linarith
  refine key _ (fun f hf => ?_) _ _ _
  rw [List.mem_filter] at hf
  exact hl f hf.1 hf.2

/-- **C188** With gravity only, the mechanical energy is constant. -/
theorem mechanical_energy_conserved (b : Multi.MBody ℝ) {M Ms : Mat6 ℝ} (hM : M.transpose = M) (hMi : M * b.Minv = 1)
    (hcor : b.coriolis = inertialForces Ms) (l : List Push) (hl : ∀ f ∈ l, f.notGravity = false) {y : ℝ → List ℝ}
    (hy : IsMotion (newton b.Minv (total b l [])) y) (t t' : ℝ) :
    kinetic M (velocityOf (y t)) (turnOf (y t)) + potential l (positionOf (y t)) =
      kinetic M (velocityOf (y t')) (turnOf (y t')) + potential l (positionOf (y t')) := by
  have hd := mechanical_energy_rate b hM hMi hcor l [] hy
  have e : l.filter Push.notGravity = [] := by
    rw [List.filter_eq_nil_iff]
    intro f hf; simp [hl f hf]
  refine is_const_of_deriv_eq_zero (f := fun t => kinetic M (velocityOf (y t)) (turnOf (y t)) + potential l (positionOf (y t)))
    (fun t => (hd t).differentiableAt) (fun t => ?_) t t'
  rw [(hd t).deriv, e]
  simp [applied, powerOf_zero]

/-- Linear damping with a positive semi-definite matrix never brings energy. -/
theorem linear_damping_push_dissipates (G P : Vec3 ℝ) (D : Fin 6 → Fin 6 → ℝ) (hD : ∀ W : Fin 6 → ℝ, 0 ≤ ∑ i, ∑ j, W i * D i j * W j) :
    (Push.linearDamping P D).Dissipative G := by
  intro u w q
  have h := hD (velocity6 u w)
  simp only [velocity6, Fin.sum_univ_six, Matrix.cons_val] at h
  simp only [Push.wrench, powerOf, dot]
  have e : ∀ i : Fin 3, ((i.castLE (by omega) : Fin 6), (i.natAdd 3 : Fin 6)) = (![(0, 3), (1, 4), (2, 5)] : Fin 3 → Fin 6 × Fin 6) i := by decide
  have e0 := e 0; have e1 := e 1; have e2 := e 2
  simp only [Prod.mk.injEq, Matrix.cons_val] at e0 e1 e2
  rw [e0.1, e0.2, e1.1, e1.2, e2.1, e2.2]
  linarith

/-- A resistance curve that opposes the motion never brings energy. -/
theorem resistance_push_dissipates (G P : Vec3 ℝ) (R : ℝ → ℝ) (hR : ∀ x, 0 ≤ R x * x) : (Push.resistance P R).Dissipative G := by
  intro u w q
  have := hR (u 0)
  simp only [Push.wrench, powerOf, dot, Matrix.cons_val, Pi.zero_apply]
  linarith

/-! ### Euler's method -/

theorem along_velocity6 (s : List ℝ) (hs : s.length = 13) (dt : ℝ) (P : Vec3 ℝ) (a : Vec6 ℝ) (q : Quat ℝ) :
    velocity6 (velocityOf (along s dt (vec13 P (fun i => a (i.castLE (by omega))) (fun i => a (i.natAdd 3)) q)))
      (turnOf (along s dt (vec13 P (fun i => a (i.castLE (by omega))) (fun i => a (i.natAdd 3)) q))) =
      fun i => velocity6 (velocityOf s) (turnOf s) i + dt * a i := by
  match s, hs with
  | [x, y, z, u, v, w, p, q, r, c, d, e, f], _ =>
    funext i
    fin_cases i <;> simp [velocity6, velocityOf, turnOf, along, vec13] <;> rfl

/-- **C188** A step of `euler`: the kinetic energy receives the work of the forces at the beginning of the step, and, in addition, the kinetic
energy of the velocity gained in the step, which is never negative. -/
theorem euler_step_energy (b : Multi.MBody ℝ) {M Ms : Mat6 ℝ} (hM : M.transpose = M) (hMi : M * b.Minv = 1)
    (hcor : b.coriolis = inertialForces Ms) (l : List Push) (cs : List Control) (s : List ℝ) (hs : s.length = 13) (t dt : ℝ) :
    let s' := RK.rkStep (newton b.Minv (total b l cs)) eulerMethod s t dt
    kinetic M (velocityOf s') (turnOf s') = kinetic M (velocityOf s) (turnOf s) +
      dt * powerOf (applied b l cs (positionOf s) (velocityOf s) (turnOf s) (attitudeOf s)) (velocityOf s) (turnOf s) +
      kinetic M (velocityOf s' - velocityOf s) (turnOf s' - turnOf s) := by
  intro s'
  set a := acceleration b.Minv (total b l cs) s with ha
  set n := velocity6 (velocityOf s) (turnOf s) with hn
  have hs' : velocity6 (velocityOf s') (turnOf s') = fun i => n i + dt * a i := by
    have : s' = along s dt (newton b.Minv (total b l cs) s t) := euler_textbook _ _ _ _
    rw [this, newton_parts _ _ _ hs]
    exact along_velocity6 s hs dt _ _ _
  have hd : velocity6 (velocityOf s' - velocityOf s) (turnOf s' - turnOf s) = fun i => dt * a i := by
    funext i
    have h1 := congrFun hs' i
    have h2 : velocity6 (velocityOf s' - velocityOf s) (turnOf s' - turnOf s) i = velocity6 (velocityOf s') (turnOf s') i - n i := by
      fin_cases i <;> rfl
    rw [h2, h1]; ring
  have hp : pairing M n a = powerOf (applied b l cs (positionOf s) (velocityOf s) (turnOf s) (attitudeOf s)) (velocityOf s) (turnOf s) := by
    have e2 := velocity_force (total b l cs (positionOf s) (velocityOf s) (turnOf s) (attitudeOf s)) (velocityOf s) (turnOf s)
    rw [ha, acceleration, pairing_acceleration hMi]
    rw [e2, total_applied hcor, powerOf_add, inertial_power, zero_add]
  have k1 : ∀ v w, kinetic M v w = pairing M (velocity6 v w) (velocity6 v w) / 2 := fun _ _ => rfl
  have k2 : pairing M (fun i => n i + dt * a i) (fun i => n i + dt * a i) =
      pairing M n n + dt * pairing M n a + dt * pairing M a n + pairing M (fun i => dt * a i) (fun i => dt * a i) := by
    simp only [pairing, Finset.mul_sum, ← Finset.sum_add_distrib]
    exact Finset.sum_congr rfl fun i _ => Finset.sum_congr rfl fun j _ => by ring
  rw [k1 (velocityOf s'), k1 (velocityOf s), k1 (_ - _), hs', hd, k2, pairing_comm hM a n, hp]
  ring

theorem unitQuaternion_velocity (ae1 : ℝ → Bool) (x : List ℝ) : velocityOf (Server.unitQuaternion ae1 x) = velocityOf x ∧
    turnOf (Server.unitQuaternion ae1 x) = turnOf x ∧ positionOf (Server.unitQuaternion ae1 x) = positionOf x := by
  unfold Server.unitQuaternion
  split
  · dsimp only; split <;> exact ⟨rfl, rfl, rfl⟩
  · exact ⟨rfl, rfl, rfl⟩

/-- **C188** A simulation with `euler` of a body whose forces do not depend on its attitude (in particular without any force): between two
consecutive observations, the kinetic energy receives the work of the forces and, in addition, the kinetic energy of the velocity gained. -/
theorem euler_simulation_energy (e : Multi.Entry ℝ) (he : Alone e) (ae : Nat → ℝ → ℝ → Bool) (hae : ∀ n a, ae n a a = true) (ae1 : ℝ → Bool)
    (l : List Push) (hl : e.forces = l.map (Push.model e.body)) (hb : ∀ f ∈ l, ¬ f.InBody) (cs : List Control)
    (hc : e.controlled = cs.map (Control.model e.body)) {M Ms : Mat6 ℝ} (hM : M.transpose = M) (hMi : M * e.body.Minv = 1)
    (hcor : e.body.coriolis = inertialForces Ms) (hq : ∀ P u w q q', applied e.body l cs P u w q = applied e.body l cs P u w q')
    (s : Sim ℝ (Vec3 ℝ × Vec3 ℝ)) (ho : ∀ c ∈ cs, c.Commanded s.commands) (hs : s.state.length = 13)
    (h0 : ∀ n, (field s.hist n).Tmax = 0) (tstart tend dt : ℝ) (hdt : 0 < dt) (hh : NotAfter ae s.hist tstart)
    (N : Nat) (hN : tend ≤ tstart + N * dt) (hfirst : ∀ i < N, tstart + (i : ℝ) * dt < tend) (fuel : Nat) (hf : N ≤ fuel) :
    ∃ s' obs, quicksolve (simSystem (oneBody e ae ae1) eulerMethod.stepper) fuel s tstart tend dt = some (.ok (s', obs)) ∧ obs.length = N + 1 ∧
      ∀ (i : Nat) (hi : i + 1 < obs.length),
        kinetic M (velocityOf obs[i + 1].x) (turnOf obs[i + 1].x) = kinetic M (velocityOf obs[i].x) (turnOf obs[i].x) +
          dt * powerOf (applied e.body l cs (positionOf obs[i].x) (velocityOf obs[i].x) (turnOf obs[i].x) (attitudeOf obs[i].x))
            (velocityOf obs[i].x) (turnOf obs[i].x) +
          kinetic M (velocityOf obs[i + 1].x - velocityOf obs[i].x) (turnOf obs[i + 1].x - turnOf obs[i].x) := by
  have hMem := controlled_memoryless e he ae ae1 l hl hb cs hc s.commands ho
  obtain ⟨s', obs, h1, -, h3, h4⟩ := simulation_is_runge_kutta hMem hae eulerMethod euler_forward s rfl hs h0 tstart tend dt hdt hh N hN hfirst fuel hf
  refine ⟨s', obs, h1, h3, fun i hi => ?_⟩
  set run := fun i => RK.rkRun (newton e.body.Minv (total e.body l cs)) (fun x _ => x) eulerMethod s.state tstart dt i with hrun
  have hlen : ∀ i, (run i).length = 13 := by
    intro i
    induction i with
    | zero => exact hs
    | succ i ih =>
      have : run (i + 1) = along (run i) dt (newton e.body.Minv (total e.body l cs) (run i) (tstart + i * dt)) := by
        simp only [hrun, RK.rkRun, euler_textbook]
      rw [this, newton_parts _ _ _ ih]
      simp [along, ih, vec13]
  have hobs : ∀ (i : Nat) (hi : i < obs.length), obs[i].x = Server.unitQuaternion ae1 (run i) := by
    intro i hi
    have h := (h4 i hi).2
    have h' := (Server.normalize_unitQuaternion ae1 (run i) (hlen i)).1
    have h'' : (oneBody e ae ae1).normalize (run i) = .ok (Server.unitQuaternion ae1 (run i)) := h'
    have : (Except.ok (Server.unitQuaternion ae1 (run i)) : Except Err _) = .ok obs[i].x := h''.symm.trans h
    exact (Except.ok.inj this).symm
  rw [hobs i (by omega), hobs (i + 1) hi, (unitQuaternion_velocity ae1 _).1, (unitQuaternion_velocity ae1 _).1, (unitQuaternion_velocity ae1 _).2.1,
    (unitQuaternion_velocity ae1 _).2.1, (unitQuaternion_velocity ae1 _).2.2, hq _ _ _ _ (attitudeOf (run i))]
  have key := euler_step_energy e.body hM hMi hcor l cs (run i) (hlen i) (tstart + i * dt) dt
  exact key

/-- **C188** Without any force, the kinetic energy of a body simulated with `euler` never decreases, and increases strictly at each step where the velocities
change. -/
theorem euler_free_body_gains_energy (e : Multi.Entry ℝ) (he : Alone e) (ae : Nat → ℝ → ℝ → Bool) (hae : ∀ n a, ae n a a = true) (ae1 : ℝ → Bool)
    (hl : e.forces = []) (hc : e.controlled = []) {M Ms : Mat6 ℝ} (hM : M.transpose = M) (hMi : M * e.body.Minv = 1)
    (hpos : ∀ u w, velocity6 u w ≠ 0 → 0 < kinetic M u w) (hcor : e.body.coriolis = inertialForces Ms)
    (s : Sim ℝ (Vec3 ℝ × Vec3 ℝ)) (hs : s.state.length = 13)
    (h0 : ∀ n, (field s.hist n).Tmax = 0) (tstart tend dt : ℝ) (hdt : 0 < dt) (hh : NotAfter ae s.hist tstart)
    (N : Nat) (hN : tend ≤ tstart + N * dt) (hfirst : ∀ i < N, tstart + (i : ℝ) * dt < tend) (fuel : Nat) (hf : N ≤ fuel) :
    ∃ s' obs, quicksolve (simSystem (oneBody e ae ae1) eulerMethod.stepper) fuel s tstart tend dt = some (.ok (s', obs)) ∧ obs.length = N + 1 ∧
      ∀ (i : Nat) (hi : i + 1 < obs.length),
        kinetic M (velocityOf obs[i].x) (turnOf obs[i].x) ≤ kinetic M (velocityOf obs[i + 1].x) (turnOf obs[i + 1].x) ∧
        (velocityOf obs[i].x ≠ velocityOf obs[i + 1].x ∨ turnOf obs[i].x ≠ turnOf obs[i + 1].x →
          kinetic M (velocityOf obs[i].x) (turnOf obs[i].x) < kinetic M (velocityOf obs[i + 1].x) (turnOf obs[i + 1].x)) := by
  obtain ⟨s', obs, h1, h2, h3⟩ := euler_simulation_energy e he ae hae ae1 [] (by simpa using hl) (by simp) [] (by simpa using hc) hM hMi hcor
    (fun _ _ _ _ _ => rfl) s (by simp) hs h0 tstart tend dt hdt hh N hN hfirst fuel hf
  refine ⟨s', obs, h1, h2, fun i hi => ?_⟩
  have h := h3 i hi
  have e0 : ∀ P u w q, powerOf (applied e.body [] [] P u w q) u w = 0 := by intro P u w q; simp [applied, powerOf_zero]
  rw [e0, mul_zero, add_zero] at h
  have hz : kinetic M 0 0 = 0 := by simp [kinetic, velocity6, Fin.sum_univ_succ]
  have sub : ∀ u w u' w' : Vec3 ℝ, velocity6 (u' - u) (w' - w) = 0 → u' - u = 0 ∧ w' - w = 0 := by
    intro u w u' w' hv
    constructor
    · funext i
      have a0 := congrFun hv 0; have a1 := congrFun hv 1; have a2 := congrFun hv 2
      fin_cases i
      exacts [a0, a1, a2]
    · funext i
      have a0 := congrFun hv 3; have a1 := congrFun hv 4; have a2 := congrFun hv 5
      fin_cases i
      exacts [a0, a1, a2]
  by_cases hv : velocity6 (velocityOf obs[i + 1].x - velocityOf obs[i].x) (turnOf obs[i + 1].x - turnOf obs[i].x) = 0
  · obtain ⟨e1, e2⟩ := sub _ _ _ _ hv
    rw [e1, e2, hz, add_zero] at h
    refine ⟨h.ge, ?_⟩
    rintro (hne | hne)
    · exact absurd (sub_eq_zero.mp e1).symm hne
    · exact absurd (sub_eq_zero.mp e2).symm hne
  · have := hpos _ _ hv
    exact ⟨by linarith, fun _ => by linarith⟩

end Xdyn.Sim

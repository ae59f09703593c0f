import Verif.Props.Flight

/-! C216: the energy and the momentum of the simulated bodies. -/

namespace Xdyn.Sim

open Blocked Body Spec Solver

/-- What is constant along the exact motion is constant, up to the accuracy of the states, along the results. -/
theorem invariant_near {f : List ℝ → ℝ → List ℝ} {y : ℝ → List ℝ} (hy : IsMotion f y) (t0 D : ℝ) {Q : List ℝ → ℝ} (hQ : LipBox Q) (hc : ∀ t t', Q (y t) = Q (y t')) :
    ∃ L, 0 ≤ L ∧ ∀ (C dt : ℝ) (p N : Nat) (t : Nat → ℝ) (x : Nat → List ℝ), 0 < dt → C * dt ^ p ≤ 1 → (N : ℝ) * dt ≤ D →
      (∀ i ≤ N, t i = t0 + i * dt ∧ Near (C * dt ^ p) (x i) (y (t i))) → ∀ i ≤ N, |Q (x i) - Q (y t0)| ≤ L * C * dt ^ p := by
  obtain ⟨R, hR, H⟩ := motion_bounded (t0 := t0) (t1 := t0 + D) y (fun t _ => hy t)
  obtain ⟨B, L, _, hL, hlip⟩ := hQ (R + 1)
  refine ⟨L, hL, fun C dt p N t x hdt hd hN h i hi => ?_⟩
  obtain ⟨ht, hn⟩ := h i hi
  have hti : t i ∈ Set.Icc t0 (t0 + D) := by
    rw [ht]
    have h1 : (i : ℝ) ≤ N := by exact_mod_cast hi
    have : (i : ℝ) * dt ≤ N * dt := mul_le_mul_of_nonneg_right h1 hdt.le
    exact ⟨le_add_of_nonneg_right (by positivity), by linarith⟩
  rw [hc t0 (t i), mul_assoc]
  have hin : Inside (R + 1) (x i) := fun k => (hn.inside (H _ hti) k).trans (by linarith)
  exact (hlip _ hin).2 (y (t i)) _ (fun k => (H _ hti k).trans (by linarith)) hn

theorem small_step {C dt : ℝ} (hdt : 0 < dt) (h : dt ≤ 1 / (|C| + 1)) {p : Nat} (hp : 1 ≤ p) : C * dt ^ p ≤ 1 := by
  have h1 : dt ≤ 1 := h.trans (by rw [div_le_one (by positivity)]; linarith [abs_nonneg C])
  have h2 : dt ^ p ≤ dt := pow_le_of_le_one hdt.le h1 (by omega)
  rw [le_div_iff₀ (by positivity)] at h
  have h3 : C * dt ^ p ≤ |C| * dt := (mul_le_mul_of_nonneg_right (le_abs_self C) (by positivity)).trans (mul_le_mul_of_nonneg_left h2 (abs_nonneg C))
  nlinarith

theorem kinetic_lip (M : Mat6 ℝ) : LipBox (fun x => kinetic M (velocityOf x) (turnOf x)) := by
  have h : LipBox (fun x => (∑ i, ∑ j, velocity6 (velocityOf x) (turnOf x) i * M i j * velocity6 (velocityOf x) (turnOf x) j) * (1 / 2)) :=
    (LipBox.sum _ _ fun i => LipBox.sum _ _ fun j => ((velocity6_lip i).mul (LipBox.const _)).mul (velocity6_lip j)).mul (LipBox.const _)
  have e : (fun x => kinetic M (velocityOf x) (turnOf x)) =
      fun x => (∑ i, ∑ j, velocity6 (velocityOf x) (turnOf x) i * M i j * velocity6 (velocityOf x) (turnOf x) j) * (1 / 2) := by
    funext x; rw [kinetic]; ring
  rw [e]; exact h

theorem potential_lip : ∀ l : List Push, LipBox (fun x => potential l (positionOf x))
  | [] => by simpa [potential] using LipBox.const 0
  | f :: l => by
    have ih := potential_lip l
    have h : LipBox (fun x => potential [f] (positionOf x)) := by
      cases f with
      | gravity M g => simpa [potential] using ((LipBox.const (M 2 2 * g)).mul (position_lip 2)).neg
      | _ => simpa [potential] using LipBox.const 0
    have e : (fun x => potential (f :: l) (positionOf x)) = fun x => potential [f] (positionOf x) + potential l (positionOf x) := by
      funext x; simp [potential]
    rw [e]; exact h.add ih

theorem linear_lip (M : Mat6 ℝ) : LipVec (fun x => linearMomentum M (velocityOf x) (turnOf x)) := fun i =>
  LipBox.sum _ _ fun j => (LipBox.const _).mul (velocity6_lip j)

theorem angular_lip (M : Mat6 ℝ) : LipVec (fun x => angularMomentum M (velocityOf x) (turnOf x)) := fun i =>
  LipBox.sum _ _ fun j => (LipBox.const _).mul (velocity6_lip j)

theorem nedMomentum_lip (M : Mat6 ℝ) : LipVec (nedMomentum M) := LipVec.mulVec matrix_lip (linear_lip M)

theorem nedAngularMomentum_lip (M : Mat6 ℝ) : LipVec (nedAngularMomentum M) :=
  (LipVec.cross position_lip (nedMomentum_lip M)).add (LipVec.mulVec matrix_lip (angular_lip M))

/-- Mechanical energy of a body whose inertia is `M`. -/
noncomputable def energyOf (M : Mat6 ℝ) (l : List Push) (x : List ℝ) : ℝ := kinetic M (velocityOf x) (turnOf x) + potential l (positionOf x)

/-- **C216** A body with the force models `gravity` only, whose equations of motion have the exact solution `y`, simulated with any Runge-Kutta method that goes
forward: in all the lines of the results the mechanical energy is that of the initial states, up to `C dt`. -/
theorem energy_kept (e : Multi.Entry ℝ) (he : Alone e) {M Ms : Mat6 ℝ} (hM : M.transpose = M) (hMi : M * e.body.Minv = 1) (hcor : e.body.coriolis = inertialForces Ms)
    (ae : Nat → ℝ → ℝ → Bool) (hae : ∀ n a, ae n a a = true) (ae1 : ℝ → Bool)
    (l : List Push) (hl : e.forces = l.map (Push.model e.body)) (hg : ∀ f ∈ l, f.notGravity = false) (hc : e.controlled = [])
    (T : Tableau ℝ) (hT : Forward T) (hw : WellWeighted T) (y : ℝ → List ℝ) (hy : IsMotion (newton e.body.Minv (fun _ => resultant e.body l)) y)
    (tstart D : ℝ) (hD : 0 ≤ D) (hu : Unit4 (attitudeOf (y tstart))) :
    ∃ C δ, 0 < δ ∧ ∀ dt, 0 < dt → dt ≤ δ → ∀ N : Nat, (N : ℝ) * dt ≤ D →
      ∀ tend, tend ≤ tstart + N * dt → (∀ i < N, tstart + (i : ℝ) * dt < tend) →
      ∀ s : Sim ℝ (Vec3 ℝ × Vec3 ℝ), s.state = y tstart → (∀ n, (field s.hist n).Tmax = 0) → NotAfter ae s.hist tstart → ∀ fuel, N ≤ fuel →
      ∀ sys, (sys = simSystem (oneBody e ae ae1) T.stepper ∨ sys = sscSystem (oneBody e ae ae1) T.stepper) →
      ∃ s' obs, quicksolve sys fuel s tstart tend dt = some (.ok (s', obs)) ∧ obs.length = N + 1 ∧
        ∀ (i : Nat) (hi : i < obs.length), |energyOf M l obs[i].x - energyOf M l s.state| ≤ C * dt := by
  have hb : ∀ f ∈ l, ¬ f.InBody := fun f hf h => by have := hg f hf; cases f <;> simp_all [Push.InBody, Push.notGravity]
  have hreg : ∀ f ∈ l, f.Regular := fun f hf => by have := hg f hf; cases f <;> simp_all [Push.Regular, Push.notGravity]
  obtain ⟨C, δ, hδ, H⟩ := simulation_converges e he hcor ae hae ae1 l hl hb hreg hc T hT hw y hy tstart D hD hu
  have hy' : IsMotion (newton e.body.Minv (total e.body l [])) y := by
    have : (fun _ => resultant e.body l) = total e.body l [] := by funext P u w q; simp [total]
    rwa [← this]
  obtain ⟨L, hL, HL⟩ := invariant_near hy tstart D ((kinetic_lip M).add (potential_lip l)) (fun t t' => mechanical_energy_conserved e.body hM hMi hcor l hg hy' t t')
  refine ⟨L * C, min δ (1 / (|C| + 1)), lt_min hδ (by positivity), ?_⟩
  intro dt hdt hd N hN tend htend hfirst s hs hh hna fuel hf sys hsys
  obtain ⟨s', obs, a, b, c⟩ := H dt hdt (hd.trans (min_le_left _ _)) N hN tend htend hfirst s hs hh hna fuel hf sys hsys
  refine ⟨s', obs, a, b, fun i hi => ?_⟩
  rw [hs]
  have hl : ∀ i ≤ N, i < obs.length := fun i hi => by omega
  have := HL C dt 1 N (fun i => if h : i < obs.length then obs[i].t else 0) (fun i => if h : i < obs.length then obs[i].x else []) hdt
    (small_step hdt (hd.trans (min_le_right _ _)) (by norm_num)) hN (fun i hi => by simpa [hl i hi] using c i (hl i hi)) i (by omega)
  simpa [hi, energyOf] using this

/-- **C216** A body with the force models `gravity` only, whose equations of motion have the exact solution `y`, simulated with the solver `rk4`: in all the lines of the results the mechanical energy is that of the initial states, up to `C dt⁴`. -/
theorem energy_kept_rk4 (e : Multi.Entry ℝ) (he : Alone e) {M Ms : Mat6 ℝ} (hM : M.transpose = M) (hMi : M * e.body.Minv = 1) (hcor : e.body.coriolis = inertialForces Ms)
    (ae : Nat → ℝ → ℝ → Bool) (hae : ∀ n a, ae n a a = true) (ae1 : ℝ → Bool)
    (l : List Push) (hl : e.forces = l.map (Push.model e.body)) (hg : ∀ f ∈ l, f.notGravity = false) (hc : e.controlled = [])
    (y : ℝ → List ℝ) (hy : IsMotion (newton e.body.Minv (fun _ => resultant e.body l)) y)
    (tstart D : ℝ) (hD : 0 ≤ D) (hu : Unit4 (attitudeOf (y tstart))) :
    ∃ C δ, 0 < δ ∧ ∀ dt, 0 < dt → dt ≤ δ → ∀ N : Nat, (N : ℝ) * dt ≤ D →
      ∀ tend, tend ≤ tstart + N * dt → (∀ i < N, tstart + (i : ℝ) * dt < tend) →
      ∀ s : Sim ℝ (Vec3 ℝ × Vec3 ℝ), s.state = y tstart → (∀ n, (field s.hist n).Tmax = 0) → NotAfter ae s.hist tstart → ∀ fuel, N ≤ fuel →
      ∀ sys, (sys = simSystem (oneBody e ae ae1) rk4Method.stepper ∨ sys = sscSystem (oneBody e ae ae1) rk4Method.stepper) →
      ∃ s' obs, quicksolve sys fuel s tstart tend dt = some (.ok (s', obs)) ∧ obs.length = N + 1 ∧
        ∀ (i : Nat) (hi : i < obs.length), |energyOf M l obs[i].x - energyOf M l s.state| ≤ C * dt ^ 4 := by
  have hb : ∀ f ∈ l, ¬ f.InBody := fun f hf h => by have := hg f hf; cases f <;> simp_all [Push.InBody, Push.notGravity]
  have hreg : ∀ f ∈ l, f.Smooth := fun f hf => by have := hg f hf; cases f <;> simp_all [Push.Smooth, Push.notGravity]
  obtain ⟨C, δ, hδ, H⟩ := rk4_fourth_order e he hcor ae hae ae1 l hl hb hreg hc y hy tstart D hD hu
  have hy' : IsMotion (newton e.body.Minv (total e.body l [])) y := by
    have : (fun _ => resultant e.body l) = total e.body l [] := by funext P u w q; simp [total]
    rwa [← this]
  obtain ⟨L, hL, HL⟩ := invariant_near hy tstart D ((kinetic_lip M).add (potential_lip l)) (fun t t' => mechanical_energy_conserved e.body hM hMi hcor l hg hy' t t')
  refine ⟨L * C, min δ (1 / (|C| + 1)), lt_min hδ (by positivity), ?_⟩
  intro dt hdt hd N hN tend htend hfirst s hs hh hna fuel hf sys hsys
  obtain ⟨s', obs, a, b, c⟩ := H dt hdt (hd.trans (min_le_left _ _)) N hN tend htend hfirst s hs hh hna fuel hf sys hsys
  refine ⟨s', obs, a, b, fun i hi => ?_⟩
  rw [hs]
  have hl : ∀ i ≤ N, i < obs.length := fun i hi => by omega
  have := HL C dt 4 N (fun i => if h : i < obs.length then obs[i].t else 0) (fun i => if h : i < obs.length then obs[i].x else []) hdt
    (small_step hdt (hd.trans (min_le_right _ _)) (by norm_num)) hN (fun i hi => by simpa [hl i hi] using c i (hl i hi)) i (by omega)
  simpa [hi, energyOf] using this

/-- **C216** A body without any force nor added mass, whose equations of motion have the exact solution `y`, simulated with any Runge-Kutta method that goes forward: in all
the lines of the results the momentum and the angular momentum about the origin of NED have the components, in NED, of the initial states, up to `C dt`. -/
theorem momentum_kept (e : Multi.Entry ℝ) (he : Alone e) {M : Mat6 ℝ} (hMi : M * e.body.Minv = 1) (hcor : e.body.coriolis = inertialForces M)
    (ae : Nat → ℝ → ℝ → Bool) (hae : ∀ n a, ae n a a = true) (ae1 : ℝ → Bool) (hl : e.forces = []) (hc : e.controlled = [])
    (T : Tableau ℝ) (hT : Forward T) (hw : WellWeighted T) (y : ℝ → List ℝ) (hy : IsMotion (newton e.body.Minv (fun _ => resultant e.body [])) y)
    (tstart D : ℝ) (hD : 0 ≤ D) (hu : Unit4 (attitudeOf (y tstart))) :
    ∃ C δ, 0 < δ ∧ ∀ dt, 0 < dt → dt ≤ δ → ∀ N : Nat, (N : ℝ) * dt ≤ D →
      ∀ tend, tend ≤ tstart + N * dt → (∀ i < N, tstart + (i : ℝ) * dt < tend) →
      ∀ s : Sim ℝ (Vec3 ℝ × Vec3 ℝ), s.state = y tstart → (∀ n, (field s.hist n).Tmax = 0) → NotAfter ae s.hist tstart → ∀ fuel, N ≤ fuel →
      ∀ sys, (sys = simSystem (oneBody e ae ae1) T.stepper ∨ sys = sscSystem (oneBody e ae ae1) T.stepper) →
      ∃ s' obs, quicksolve sys fuel s tstart tend dt = some (.ok (s', obs)) ∧ obs.length = N + 1 ∧
        ∀ (i : Nat) (hi : i < obs.length) (k : Fin 3), |nedMomentum M obs[i].x k - nedMomentum M s.state k| ≤ C * dt ∧
          |nedAngularMomentum M obs[i].x k - nedAngularMomentum M s.state k| ≤ C * dt := by
  obtain ⟨C, δ, hδ, H⟩ := simulation_converges e he hcor ae hae ae1 [] hl (by simp) (by simp) hc T hT hw y hy tstart D hD hu
  have hy' : IsMotion (newton e.body.Minv (total e.body [] [])) y := by
    have : (fun _ => resultant e.body []) = total e.body [] [] := by funext P u w q; simp [total]
    rwa [← this]
  have h0 : Unit4 (attitudeOf (y 0)) := by
    have := motion_unit (motion_moved hy tstart) (by simpa using hu) (0 - tstart)
    simpa using this
  have hcons := free_body_momentum e.body hMi hcor hy' h0
  have H1 := fun k : Fin 3 => invariant_near hy tstart D (nedMomentum_lip M k) (fun t t' => congrFun (hcons t t').1 k)
  have H2 := fun k : Fin 3 => invariant_near hy tstart D (nedAngularMomentum_lip M k) (fun t t' => congrFun (hcons t t').2 k)
  choose L1 hL1 HL1 using H1
  choose L2 hL2 HL2 using H2
  obtain ⟨L, hLdef⟩ : ∃ L, L = ∑ k, (L1 k + L2 k) := ⟨_, rfl⟩
  have hle1 : ∀ k, L1 k ≤ L := fun k => by
    rw [hLdef]
    exact (le_add_of_nonneg_right (hL2 k)).trans (Finset.single_le_sum (f := fun k => L1 k + L2 k) (fun j _ => add_nonneg (hL1 j) (hL2 j)) (Finset.mem_univ k))
  have hle2 : ∀ k, L2 k ≤ L := fun k => by
    rw [hLdef]
    exact (le_add_of_nonneg_left (hL1 k)).trans (Finset.single_le_sum (f := fun k => L1 k + L2 k) (fun j _ => add_nonneg (hL1 j) (hL2 j)) (Finset.mem_univ k))
  refine ⟨L * C, min δ (1 / (|C| + 1)), lt_min hδ (by positivity), ?_⟩
  intro dt hdt hd N hN tend htend hfirst s hs hh hna fuel hf sys hsys
  obtain ⟨s', obs, a, b, c⟩ := H dt hdt (hd.trans (min_le_left _ _)) N hN tend htend hfirst s hs hh hna fuel hf sys hsys
  refine ⟨s', obs, a, b, fun i hi k => ?_⟩
  rw [hs]
  have hlen : ∀ i ≤ N, i < obs.length := fun i hi => by omega
  have hpos : 0 ≤ C * dt := (c i hi).2.nonneg
  have h1 := HL1 k C dt 1 N (fun i => if h : i < obs.length then obs[i].t else 0) (fun i => if h : i < obs.length then obs[i].x else []) hdt
    (small_step hdt (hd.trans (min_le_right _ _)) (by norm_num)) hN (fun i hi => by simpa [hlen i hi] using c i (hlen i hi)) i (by omega)
  have h2 := HL2 k C dt 1 N (fun i => if h : i < obs.length then obs[i].t else 0) (fun i => if h : i < obs.length then obs[i].x else []) hdt
    (small_step hdt (hd.trans (min_le_right _ _)) (by norm_num)) hN (fun i hi => by simpa [hlen i hi] using c i (hlen i hi)) i (by omega)
  simp only [hi, dite_true, pow_one] at h1 h2
  refine ⟨h1.trans ?_, h2.trans ?_⟩
  · rw [mul_assoc, mul_assoc]; exact mul_le_mul_of_nonneg_right (hle1 k) hpos
  · rw [mul_assoc, mul_assoc]; exact mul_le_mul_of_nonneg_right (hle2 k) hpos

/-- **C216** The body thrown with a spin of C215: its mechanical energy is kept up to `C dt⁴` with the solver `rk4`. -/
theorem flight_energy_kept (e : Multi.Entry ℝ) (he : Alone e) {M : Mat6 ℝ} (hMt : M.transpose = M) (hMi : M * e.body.Minv = 1) (hcor : e.body.coriolis = inertialForces M) {m : ℝ}
    (P V : Vec3 ℝ) {n : Vec3 ℝ} (hM : RigidInertia M m n) (hn : unitAxis n) {q : Quat ℝ} (hq : Unit4 q) (g om : ℝ)
    (hl : e.forces = [Push.model e.body (.gravity M g)]) (hc : e.controlled = []) (ae : Nat → ℝ → ℝ → Bool) (hae : ∀ n a, ae n a a = true) (ae1 : ℝ → Bool)
    (D : ℝ) (hD : 0 ≤ D) :
    ∃ C δ, 0 < δ ∧ ∀ dt, 0 < dt → dt ≤ δ → ∀ N : Nat, (N : ℝ) * dt ≤ D →
      ∀ tend, tend ≤ N * dt → (∀ i < N, (i : ℝ) * dt < tend) →
      ∀ s : Sim ℝ (Vec3 ℝ × Vec3 ℝ), s.state = vec13 P (q.matrix.transpose.mulVec V) (om • n) q → (∀ n, (field s.hist n).Tmax = 0) → NotAfter ae s.hist 0 →
      ∀ fuel, N ≤ fuel → ∀ sys, (sys = simSystem (oneBody e ae ae1) rk4Method.stepper ∨ sys = sscSystem (oneBody e ae ae1) rk4Method.stepper) →
      ∃ s' obs, quicksolve sys fuel s 0 tend dt = some (.ok (s', obs)) ∧ obs.length = N + 1 ∧
        ∀ (i : Nat) (hi : i < obs.length), |energyOf M [.gravity M g] obs[i].x - energyOf M [.gravity M g] s.state| ≤ C * dt ^ 4 := by
  have h0 : turned q n (om * 0) = q := by cases q; simp [turned, Quat.mul]
  obtain ⟨C, δ, hδ, H⟩ := energy_kept_rk4 e he hMt hMi hcor ae hae ae1 [.gravity M g] hl (by simp [Push.notGravity]) hc _
    (flight_is_motion e.body (mul_eq_one_comm.mp hMi) hcor P V hM hn hq g om) 0 D hD (by change Unit4 (turned q n (om * 0)); rw [h0]; exact hq)
  refine ⟨C, δ, hδ, ?_⟩
  intro dt hdt hd N hN tend htend hfirst s hs hh hna fuel hf sys hsys
  have hs0 : s.state = flight P V n q g om 0 := by
    rw [hs, flight, h0]; simp
  exact H dt hdt hd N hN tend (by simpa using htend) (by simpa using hfirst) s hs0 hh hna fuel hf sys hsys

/-- The plank of C215. -/
example : ∃ C δ, 0 < δ ∧ ∀ dt, 0 < dt → dt ≤ δ → ∀ N : Nat, (N : ℝ) * dt ≤ 10 →
    ∃ s' obs, quicksolve (simSystem (oneBody thrownPlank (fun _ a b => decide (a = b)) (fun _ => false)) rk4Method.stepper) N
        ⟨vec13 0 ![1, 0, -5] ![0, 6, 0] ⟨1, 0, 0, 0⟩, noHistory, fun _ => none, [], 0⟩ 0 (N * dt) dt = some (.ok (s', obs)) ∧ obs.length = N + 1 ∧
      ∀ (i : Nat) (hi : i < obs.length), |energyOf plankInertia [.gravity plankInertia 10] obs[i].x - 80| ≤ C * dt ^ 4 := by
  obtain ⟨C, δ, hδ, H⟩ := flight_energy_kept thrownPlank ⟨rfl, show "plank" ≠ "NED" by decide, fun _ => rfl⟩ (Matrix.diagonal_transpose _) (mul_eq_one_comm.mp plank_inverse) rfl
    0 ![1, 0, -5] plank_rigid (by simp [unitAxis]) (q := ⟨1, 0, 0, 0⟩) (by simp [Unit4]) 10 6 rfl rfl (fun _ a b => decide (a = b)) (by simp) (fun _ => false) 10 (by norm_num)
  refine ⟨C, δ, hδ, fun dt hdt hd N hN => ?_⟩
  obtain ⟨s', obs, a, b, c⟩ := H dt hdt hd N hN (N * dt) le_rfl (fun i hi => mul_lt_mul_of_pos_right (by exact_mod_cast hi) hdt)
    ⟨vec13 0 ![1, 0, -5] ![0, 6, 0] ⟨1, 0, 0, 0⟩, noHistory, fun _ => none, [], 0⟩ (by simp [vec13, Quat.matrix, Matrix.mulVec, dotProduct, Fin.sum_univ_three])
    (fun n => by cases n <;> rfl) (noHistory_notAfter _ _) N le_rfl _ (Or.inl rfl)
  refine ⟨s', obs, a, b, fun i hi => ?_⟩
  have := c i hi
  have e : energyOf plankInertia [.gravity plankInertia 10] (vec13 0 ![1, 0, -5] ![0, 6, 0] ⟨1, 0, 0, 0⟩) = 80 := by
    simp [energyOf, kinetic, potential, vec13, velocityOf, turnOf, positionOf, velocity6, plankInertia, Matrix.diagonal_apply, Fin.sum_univ_six]
    norm_num
  rw [← e]; exact this

theorem weightless (b : Multi.MBody ℝ) (M : Mat6 ℝ) : resultant b [.gravity M 0] = resultant b [] := by
  funext u w q
  have : (![0, 0, 0] : Vec3 ℝ) = 0 := by funext i; fin_cases i <;> rfl
  simp [resultant, Push.wrench, this]

noncomputable def freePlank : Multi.Entry ℝ := ⟨plank, [], []⟩

/-- The plank without gravity: its momentum and its angular momentum. -/
example : ∃ C δ, 0 < δ ∧ ∀ dt, 0 < dt → dt ≤ δ → ∀ N : Nat, (N : ℝ) * dt ≤ 10 →
    ∃ s' obs, quicksolve (simSystem (oneBody freePlank (fun _ a b => decide (a = b)) (fun _ => false)) eulerMethod.stepper) N
        ⟨vec13 0 ![1, 0, -5] ![0, 6, 0] ⟨1, 0, 0, 0⟩, noHistory, fun _ => none, [], 0⟩ 0 (N * dt) dt = some (.ok (s', obs)) ∧ obs.length = N + 1 ∧
      ∀ (i : Nat) (hi : i < obs.length), |nedMomentum plankInertia obs[i].x 2 - -10| ≤ C * dt ∧ |nedAngularMomentum plankInertia obs[i].x 1 - 18| ≤ C * dt := by
  have hy := flight_is_motion plank plank_inverse rfl 0 ![1, 0, -5] plank_rigid (by simp [unitAxis]) (q := ⟨1, 0, 0, 0⟩) (by simp [Unit4]) 0 6
  rw [weightless] at hy
  obtain ⟨C, δ, hδ, H⟩ := momentum_kept freePlank ⟨rfl, show "plank" ≠ "NED" by decide, fun _ => rfl⟩ (mul_eq_one_comm.mp plank_inverse) rfl
    (fun _ a b => decide (a = b)) (by simp) (fun _ => false) rfl rfl eulerMethod euler_forward euler_weighted _ hy 0 10 (by norm_num)
    (by simp [flight, vec13, attitudeOf, turned, Quat.mul, Unit4])
  have e0 : flight 0 ![1, 0, -5] ![0, 1, 0] ⟨1, 0, 0, 0⟩ 0 6 0 = vec13 0 ![1, 0, -5] ![0, 6, 0] ⟨1, 0, 0, 0⟩ := by
    simp [flight, vec13, turned, Quat.mul, Quat.matrix, Matrix.mulVec, dotProduct, Fin.sum_univ_three]
  refine ⟨C, δ, hδ, fun dt hdt hd N hN => ?_⟩
  obtain ⟨s', obs, a, b, c⟩ := H dt hdt hd N hN (N * dt) (by simp) (fun i hi => by simpa using mul_lt_mul_of_pos_right (by exact_mod_cast hi) hdt)
    ⟨vec13 0 ![1, 0, -5] ![0, 6, 0] ⟨1, 0, 0, 0⟩, noHistory, fun _ => none, [], 0⟩ e0.symm
    (fun n => by cases n <;> rfl) (noHistory_notAfter _ _) N le_rfl _ (Or.inl rfl)
  refine ⟨s', obs, a, b, fun i hi => ?_⟩
  have e1 : nedMomentum plankInertia (vec13 0 ![1, 0, -5] ![0, 6, 0] ⟨1, 0, 0, 0⟩) 2 = -10 := by
    simp [nedMomentum, linearMomentum, vec13, velocityOf, turnOf, attitudeOf, velocity6, plankInertia, Matrix.diagonal_apply, Fin.sum_univ_six, Quat.matrix,
      Matrix.mulVec, dotProduct, Fin.sum_univ_three]
    norm_num
  have e2 : nedAngularMomentum plankInertia (vec13 0 ![1, 0, -5] ![0, 6, 0] ⟨1, 0, 0, 0⟩) 1 = 18 := by
    simp [nedAngularMomentum, nedMomentum, linearMomentum, angularMomentum, cross, vec13, velocityOf, turnOf, attitudeOf, positionOf, velocity6, plankInertia,
      Matrix.diagonal_apply, Fin.sum_univ_six, Quat.matrix, Matrix.mulVec, dotProduct, Fin.sum_univ_three]
    norm_num
  rw [← e1, ← e2]
  exact ⟨(c i hi 2).1, (c i hi 1).2⟩

end Xdyn.Sim

import Verif.Props.ConvergeControl
import Verif.Lemmas.RK4

/-! Property C201: with smooth forces, the errors of simulations with the solver `rk4` are of the fourth order. -/

namespace Xdyn.Sim

open Blocked Body Spec Solver Xdyn.Server ContDiff

/-- The states as a vector. -/
noncomputable def toVec (x : List ℝ) : Fin 13 → ℝ := fun i => x.getD i 0

theorem ofFn_toVec {x : List ℝ} (h : x.length = 13) : List.ofFn (toVec x) = x := by
  refine List.ext_getElem (by rw [List.length_ofFn, h]) fun i h1 h2 => ?_
  rw [List.getElem_ofFn, toVec, List.getD_eq_getElem _ _ h2]

theorem toVec_ofFn (v : Fin 13 → ℝ) : toVec (List.ofFn v) = v := by
  funext i
  rw [toVec, List.getD_eq_getElem _ _ (by rw [List.length_ofFn]; exact i.2), List.getElem_ofFn]

/-! ### Smooth functions of the states -/

def Sm (g : List ℝ → ℝ) : Prop := ContDiff ℝ ∞ (fun v : Fin 13 → ℝ => g (List.ofFn v))

theorem Sm.const (c : ℝ) : Sm (fun _ => c) := contDiff_const

theorem Sm.coordinate (i : Nat) : Sm (fun x => x.getD i 0) := by
  unfold Sm
  by_cases h : i < 13
  · have : (fun v : Fin 13 → ℝ => (List.ofFn v).getD i 0) = fun v => v ⟨i, h⟩ := by
      funext v
      rw [List.getD_eq_getElem _ _ (by rw [List.length_ofFn]; exact h), List.getElem_ofFn]
    rw [this]
    exact contDiff_apply ℝ ℝ _
  · have : (fun v : Fin 13 → ℝ => (List.ofFn v).getD i 0) = fun _ => 0 := by
      funext v
      rw [List.getD_eq_default _ _ (by rw [List.length_ofFn]; omega)]
    rw [this]
    exact contDiff_const

theorem Sm.add {g h : List ℝ → ℝ} (hg : Sm g) (hh : Sm h) : Sm (fun x => g x + h x) := ContDiff.add hg hh
theorem Sm.mul {g h : List ℝ → ℝ} (hg : Sm g) (hh : Sm h) : Sm (fun x => g x * h x) := ContDiff.mul hg hh
theorem Sm.neg {g : List ℝ → ℝ} (hg : Sm g) : Sm (fun x => -g x) := ContDiff.neg hg
theorem Sm.sub {g h : List ℝ → ℝ} (hg : Sm g) (hh : Sm h) : Sm (fun x => g x - h x) := ContDiff.sub hg hh
theorem Sm.comp {g : List ℝ → ℝ} (hg : Sm g) {r : ℝ → ℝ} (hr : ContDiff ℝ ∞ r) : Sm (fun x => r (g x)) := ContDiff.comp hr hg
theorem Sm.sum {ι : Type} (l : Finset ι) (g : ι → List ℝ → ℝ) (h : ∀ i, Sm (g i)) : Sm (fun x => ∑ i ∈ l, g i x) := ContDiff.sum fun i _ => h i

def SmVec {n : Nat} (v : List ℝ → Fin n → ℝ) : Prop := ∀ i, Sm (fun x => v x i)

theorem SmVec.const {n : Nat} (v : Fin n → ℝ) : SmVec (fun _ => v) := fun i => Sm.const (v i)

theorem SmVec.add {n : Nat} {v w : List ℝ → Fin n → ℝ} (hv : SmVec v) (hw : SmVec w) : SmVec (fun x => v x + w x) := fun i => (hv i).add (hw i)

theorem SmVec.mulVec {n m : Nat} {M : List ℝ → Matrix (Fin n) (Fin m) ℝ} (hM : ∀ i j, Sm (fun x => M x i j)) {v : List ℝ → Fin m → ℝ} (hv : SmVec v) :
    SmVec (fun x => (M x).mulVec (v x)) := fun i => Sm.sum Finset.univ _ fun j => (hM i j).mul (hv j)

theorem SmVec.three {a b c : List ℝ → ℝ} (ha : Sm a) (hb : Sm b) (hc : Sm c) : SmVec (fun x => ![a x, b x, c x]) := by
  intro i; fin_cases i; exacts [ha, hb, hc]

theorem SmVec.cross {v w : List ℝ → Vec3 ℝ} (hv : SmVec v) (hw : SmVec w) : SmVec (fun x => cross (v x) (w x)) :=
  SmVec.three (((hv 1).mul (hw 2)).sub ((hv 2).mul (hw 1))) (((hv 2).mul (hw 0)).sub ((hv 0).mul (hw 2))) (((hv 0).mul (hw 1)).sub ((hv 1).mul (hw 0)))

theorem velocity_sm : SmVec velocityOf := SmVec.three (Sm.coordinate 3) (Sm.coordinate 4) (Sm.coordinate 5)

theorem turn_sm : SmVec turnOf := SmVec.three (Sm.coordinate 6) (Sm.coordinate 7) (Sm.coordinate 8)

theorem velocity6_sm : SmVec (fun x => velocity6 (velocityOf x) (turnOf x)) := by
  intro i
  fin_cases i
  exacts [velocity_sm 0, velocity_sm 1, velocity_sm 2, turn_sm 0, turn_sm 1, turn_sm 2]

theorem matrix_sm (i j : Fin 3) : Sm (fun x => (attitudeOf x).matrix i j) := by
  have hw : Sm (fun x => (attitudeOf x).w) := Sm.coordinate 9
  have hx : Sm (fun x => (attitudeOf x).x) := Sm.coordinate 10
  have hy : Sm (fun x => (attitudeOf x).y) := Sm.coordinate 11
  have hz : Sm (fun x => (attitudeOf x).z) := Sm.coordinate 12
  fin_cases i <;> fin_cases j <;> simp only [Quat.matrix] <;>
    repeat' first | assumption | exact Sm.const _ | refine Sm.neg ?_ | refine Sm.add ?_ ?_ | refine Sm.mul ?_ ?_

/-- Equations without the date whose components are smooth. -/
structure SmoothEquations (f : List ℝ → ℝ → List ℝ) : Prop where
  length : ∀ x t, x.length = 13 → (f x t).length = 13
  component : ∀ i, ∃ g, Sm g ∧ ∀ x t, x.length = 13 → (f x t).getD i 0 = g x

theorem newton_smooth (Minv : Mat6 ℝ) (F : Vec3 ℝ → Vec3 ℝ → Vec3 ℝ → Quat ℝ → Vec3 ℝ × Vec3 ℝ)
    (h1 : SmVec fun s => (F (positionOf s) (velocityOf s) (turnOf s) (attitudeOf s)).1) (h2 : SmVec fun s => (F (positionOf s) (velocityOf s) (turnOf s) (attitudeOf s)).2) :
    SmoothEquations (newton Minv F) := by
  have hacc : SmVec (acceleration Minv F) := by
    unfold acceleration
    refine SmVec.mulVec (M := fun _ => Minv) (fun i j => Sm.const _) ?_
    intro i
    fin_cases i
    exacts [h1 0, h1 1, h1 2, h2 0, h2 1, h2 2]
  have hV : SmVec (fun s => (attitudeOf s).matrix.mulVec (velocityOf s)) := SmVec.mulVec matrix_sm velocity_sm
  have hw : Sm (fun x => (attitudeOf x).w) := Sm.coordinate 9
  have hx : Sm (fun x => (attitudeOf x).x) := Sm.coordinate 10
  have hy : Sm (fun x => (attitudeOf x).y) := Sm.coordinate 11
  have hz : Sm (fun x => (attitudeOf x).z) := Sm.coordinate 12
  have t0 := turn_sm 0
  have t1 := turn_sm 1
  have t2 := turn_sm 2
  have half : ∀ {g : List ℝ → ℝ}, Sm g → Sm (fun x => g x / 2) := fun h => by
    simpa [div_eq_mul_inv] using h.mul (Sm.const (2⁻¹))
  refine ⟨fun x t hx => newton_length _ _ x t hx, fun i => ?_⟩
  refine ⟨fun s => (vec13 ((attitudeOf s).matrix.mulVec (velocityOf s))
      (fun i => acceleration Minv F s (i.castLE (by omega))) (fun i => acceleration Minv F s (i.natAdd 3))
      ⟨(-(attitudeOf s).x * turnOf s 0 - (attitudeOf s).y * turnOf s 1 - (attitudeOf s).z * turnOf s 2) / 2,
       ((attitudeOf s).w * turnOf s 0 + (attitudeOf s).y * turnOf s 2 - (attitudeOf s).z * turnOf s 1) / 2,
       ((attitudeOf s).w * turnOf s 1 - (attitudeOf s).x * turnOf s 2 + (attitudeOf s).z * turnOf s 0) / 2,
       ((attitudeOf s).w * turnOf s 2 + (attitudeOf s).x * turnOf s 1 - (attitudeOf s).y * turnOf s 0) / 2⟩).getD i 0, ?_, fun x t hx => by rw [newton_parts _ _ _ hx]⟩
  match i with
  | 0 => exact hV 0
  | 1 => exact hV 1
  | 2 => exact hV 2
  | 3 => exact hacc 0
  | 4 => exact hacc 1
  | 5 => exact hacc 2
  | 6 => exact hacc 3
  | 7 => exact hacc 4
  | 8 => exact hacc 5
  | 9 => exact half (((hx.neg.mul t0).sub (hy.mul t1)).sub (hz.mul t2))
  | 10 => exact half (((hw.mul t0).add (hy.mul t2)).sub (hz.mul t1))
  | 11 => exact half (((hw.mul t1).sub (hx.mul t2)).add (hz.mul t0))
  | 12 => exact half (((hw.mul t2).add (hx.mul t1)).sub (hy.mul t0))
  | i + 13 => exact Sm.const 0

theorem wrench_sm (G : Vec3 ℝ) (f : Push) (hf : f.Smooth) :
    (SmVec fun s => (f.wrench G (velocityOf s) (turnOf s) (attitudeOf s)).1) ∧ (SmVec fun s => (f.wrench G (velocityOf s) (turnOf s) (attitudeOf s)).2) := by
  have hT : ∀ i j, Sm (fun x => (attitudeOf x).matrix.transpose i j) := fun i j => matrix_sm j i
  have u0 := velocity_sm 0
  have u1 := velocity_sm 1
  have u2 := velocity_sm 2
  have w0 := turn_sm 0
  have w1 := turn_sm 1
  have w2 := turn_sm 2
  match f, hf with
  | .gravity M g, _ => exact ⟨SmVec.mulVec hT (SmVec.const _), SmVec.const _⟩
  | .linearDamping P D, _ =>
    constructor <;> intro i <;> simp only [Push.wrench] <;>
      repeat' first | assumption | exact Sm.const _ | refine Sm.neg ?_ | refine Sm.add ?_ ?_ | refine Sm.mul ?_ ?_
  | .resistance P R, hR => exact ⟨SmVec.three (Sm.comp u0 hR).neg (Sm.const 0) (Sm.const 0), SmVec.const _⟩
  | .bodyForce f m P, _ => exact ⟨SmVec.const _, SmVec.const _⟩
  | .nedForce f m P, _ => exact ⟨SmVec.mulVec hT (SmVec.const _), SmVec.mulVec hT (SmVec.const _)⟩

theorem wrenches_sm (G : Vec3 ℝ) : ∀ (l : List Push) (_ : ∀ f ∈ l, f.Smooth),
    (SmVec fun s => ((l.map (Push.wrench G (velocityOf s) (turnOf s) (attitudeOf s))).sum).1) ∧ (SmVec fun s => ((l.map (Push.wrench G (velocityOf s) (turnOf s) (attitudeOf s))).sum).2)
  | [], _ => ⟨SmVec.const 0, SmVec.const 0⟩
  | f :: l, h => by
    have h1 := wrench_sm G f (h f (by simp))
    have h2 := wrenches_sm G l (fun f' hf' => h f' (by simp [hf']))
    simp only [List.map_cons, List.sum_cons, Prod.fst_add, Prod.snd_add]
    exact ⟨h1.1.add h2.1, h1.2.add h2.2⟩

theorem resultant_smooth (b : Multi.MBody ℝ) {Ms : Mat6 ℝ} (hcor : b.coriolis = inertialForces Ms) (l : List Push) (hl : ∀ f ∈ l, f.Smooth) :
    SmoothEquations (newton b.Minv (fun _ => resultant b l)) := by
  have hL : SmVec (fun s => linearMomentum Ms (velocityOf s) (turnOf s)) := fun i => Sm.sum Finset.univ _ fun j => (Sm.const _).mul (velocity6_sm j)
  have hA : SmVec (fun s => angularMomentum Ms (velocityOf s) (turnOf s)) := fun i => Sm.sum Finset.univ _ fun j => (Sm.const _).mul (velocity6_sm j)
  have hw := wrenches_sm b.G l hl
  refine newton_smooth _ _ ?_ ?_
  · simp only [resultant, hcor, inertialForces, Prod.fst_add]
    exact (hL.cross turn_sm).add hw.1
  · simp only [resultant, hcor, inertialForces, Prod.snd_add]
    exact ((hL.cross velocity_sm).add (hA.cross turn_sm)).add hw.2

/-! ### From lists to vectors -/

/-- The equations on vectors. -/
noncomputable def onVec (f : List ℝ → ℝ → List ℝ) (v : Fin 13 → ℝ) : Fin 13 → ℝ := toVec (f (List.ofFn v) 0)

theorem onVec_smooth {f : List ℝ → ℝ → List ℝ} (hf : SmoothEquations f) : ContDiff ℝ ∞ (onVec f) := by
  refine contDiff_pi.mpr fun i => ?_
  obtain ⟨g, hg, hfg⟩ := hf.component i
  have : (fun v : Fin 13 → ℝ => onVec f v i) = fun v => g (List.ofFn v) := by
    funext v
    exact hfg _ 0 (by simp)
  rw [this]
  exact hg

theorem onVec_toVec {f : List ℝ → ℝ → List ℝ} (hf : SmoothEquations f) {x : List ℝ} (hx : x.length = 13) (t : ℝ) : onVec f (toVec x) = toVec (f x t) := by
  funext i
  obtain ⟨g, _, hfg⟩ := hf.component i
  rw [onVec, ofFn_toVec hx]
  exact (hfg x 0 hx).trans (hfg x t hx).symm

theorem rk4_step {f : List ℝ → ℝ → List ℝ} (hf : SmoothEquations f) {x : List ℝ} (hx : x.length = 13) (t dt : ℝ) :
    (RK.rkStep f rk4Method x t dt).length = 13 ∧ toVec (RK.rkStep f rk4Method x t dt) = RK4.step (onVec f) dt (toVec x) := by
  have hm : ∀ (a : List ℝ) (ks : List (List ℝ)), (∀ k ∈ ks, k.length = 13) → (RK.move dt x a ks).length = 13 ∧ ∀ i, toVec (RK.move dt x a ks) i = toVec x i + dt * weighted a ks i :=
    fun a ks hk => ⟨(move_spec dt a ks x hx hk).1, fun i => (move_spec dt a ks x hx hk).2 i⟩
  simp only [RK.rkStep, rk4Method, RK.rkStages, List.nil_append, List.cons_append]
  set x1 := RK.move dt x [] [] with hx1
  have e1 : x1 = x := by rw [hx1, RK.move]; rfl
  set k1 := f x1 (t + 0 * dt) with hk1
  have l1 : k1.length = 13 := hf.length _ _ (by rw [e1, hx])
  have v1 : toVec k1 = onVec f (toVec x) := by rw [hk1, e1, onVec_toVec hf hx]
  have h2 := hm [1 / 2] [k1] (by simp [l1])
  set x2 := RK.move dt x [1 / 2] [k1] with hx2
  have w2 : toVec x2 = toVec x + (dt / 2) • onVec f (toVec x) := by
    funext i
    rw [h2.2 i, ← v1]
    simp [weighted, toVec]
    ring
  set k2 := f x2 (t + 1 / 2 * dt) with hk2
  have l2 : k2.length = 13 := hf.length _ _ h2.1
  have v2 : toVec k2 = onVec f (toVec x + (dt / 2) • onVec f (toVec x)) := by rw [← w2, hk2, onVec_toVec hf h2.1]
  have h3 := hm [0, 1 / 2] [k1, k2] (by simp [l1, l2])
  set x3 := RK.move dt x [0, 1 / 2] [k1, k2] with hx3
  have w3 : toVec x3 = toVec x + (dt / 2) • toVec k2 := by
    funext i
    rw [h3.2 i]
    simp [weighted, toVec]
    ring
  set k3 := f x3 (t + 1 / 2 * dt) with hk3
  have l3 : k3.length = 13 := hf.length _ _ h3.1
  have v3 : toVec k3 = onVec f (toVec x + (dt / 2) • toVec k2) := by rw [← w3, hk3, onVec_toVec hf h3.1]
  have h4 := hm [0, 0, 1] [k1, k2, k3] (by simp [l1, l2, l3])
  set x4 := RK.move dt x [0, 0, 1] [k1, k2, k3] with hx4
  have w4 : toVec x4 = toVec x + dt • toVec k3 := by
    funext i
    rw [h4.2 i]
    simp [weighted, toVec]
  set k4 := f x4 (t + 1 * dt) with hk4
  have l4 : k4.length = 13 := hf.length _ _ h4.1
  have v4 : toVec k4 = onVec f (toVec x + dt • toVec k3) := by rw [← w4, hk4, onVec_toVec hf h4.1]
  have h5 := hm [1 / 6, 1 / 3, 1 / 3, 1 / 6] [k1, k2, k3, k4] (by simp [l1, l2, l3, l4])
  refine ⟨h5.1, ?_⟩
  rw [RK4.step, ← v2, ← v3, ← v4, ← v1]
  funext i
  rw [h5.2 i]
  simp [weighted, toVec]
  ring

theorem rk4_run {f : List ℝ → ℝ → List ℝ} (hf : SmoothEquations f) {x : List ℝ} (hx : x.length = 13) (t dt : ℝ) (i : Nat) :
    (RK.rkRun f (fun x _ => x) rk4Method x t dt i).length = 13 ∧ toVec (RK.rkRun f (fun x _ => x) rk4Method x t dt i) = (RK4.step (onVec f) dt)^[i] (toVec x) := by
  induction i with
  | zero => exact ⟨hx, rfl⟩
  | succ i ih =>
    rw [RK.rkRun, Function.iterate_succ_apply', ← ih.2]
    exact rk4_step hf ih.1 _ _

theorem near_of_toVec {x y : List ℝ} (hx : x.length = 13) (hy : y.length = 13) {e : ℝ} (he : 0 ≤ e) (h : ‖toVec x - toVec y‖ ≤ e) : Near e x y := fun i => by
  by_cases hi : i < 13
  · have := (pi_norm_le_iff_of_nonneg he).mp h ⟨i, hi⟩
    simpa [toVec] using this
  · rw [List.getD_eq_default _ _ (by omega), List.getD_eq_default _ _ (by omega)]
    simpa using he

theorem smooth_fourth_order {f : List ℝ → ℝ → List ℝ} (hf : SmoothEquations f) {y : ℝ → List ℝ} (hy : IsMotion f y) (hlen : ∀ t, (y t).length = 13) (t0 : ℝ) {D : ℝ} (hD : 0 ≤ D) :
    ∃ C δ, 0 ≤ C ∧ 0 < δ ∧ ∀ dt, 0 ≤ dt → dt ≤ δ → ∀ j : Nat, j * dt ≤ D → Near (C * dt ^ 4) (RK.rkRun f (fun x _ => x) rk4Method (y t0) t0 dt j) (y (t0 + j * dt)) := by
  have hu : ∀ t, HasDerivAt (fun t => toVec (y t)) (onVec f (toVec (y t))) t := fun t => by
    rw [hasDerivAt_pi]
    intro i
    rw [onVec_toVec hf (hlen t) t]
    exact (hy t).2 i
  obtain ⟨C, δ, hC, hδ, H⟩ := RK4.global_error (onVec_smooth hf) hu t0 hD
  refine ⟨C, δ, hC, hδ, fun dt h0 h1 j hj => ?_⟩
  have hr := rk4_run hf (hlen t0) t0 dt j
  refine near_of_toVec hr.1 (hlen _) (by positivity) ?_
  rw [hr.2]
  exact H dt h0 h1 j hj

/-- **C201** One body with smooth force models and no controller, whose equations of motion have an exact solution `y`, simulated with the solver `rk4` from the exact states at the date
`tstart`: the simulation goes to the end, and all the observed states are at most `C dt⁴` away from the exact ones, where `C` depends neither on the time step nor on the dates. -/
theorem rk4_fourth_order (e : Multi.Entry ℝ) (he : Alone e) {Ms : Mat6 ℝ} (hcor : e.body.coriolis = inertialForces Ms) (ae : Nat → ℝ → ℝ → Bool) (hae : ∀ n a, ae n a a = true) (ae1 : ℝ → Bool)
    (l : List Push) (hl : e.forces = l.map (Push.model e.body)) (hb : ∀ f ∈ l, ¬ f.InBody) (hsm : ∀ f ∈ l, f.Smooth) (hc : e.controlled = [])
    (y : ℝ → List ℝ) (hy : IsMotion (newton e.body.Minv (fun _ => resultant e.body l)) y)
    (tstart D : ℝ) (hD : 0 ≤ D) (hu : Unit4 (attitudeOf (y tstart))) :
    ∃ C δ, 0 < δ ∧ ∀ dt, 0 < dt → dt ≤ δ → ∀ N : Nat, (N : ℝ) * dt ≤ D →
      ∀ tend, tend ≤ tstart + N * dt → (∀ i < N, tstart + (i : ℝ) * dt < tend) →
      ∀ s : Sim ℝ (Vec3 ℝ × Vec3 ℝ), s.state = y tstart → (∀ n, (field s.hist n).Tmax = 0) → NotAfter ae s.hist tstart → ∀ fuel, N ≤ fuel →
      ∀ sys, (sys = simSystem (oneBody e ae ae1) rk4Method.stepper ∨ sys = sscSystem (oneBody e ae ae1) rk4Method.stepper) →
      ∃ s' obs, quicksolve sys fuel s tstart tend dt = some (.ok (s', obs)) ∧ obs.length = N + 1 ∧
        ∀ (i : Nat) (hi : i < obs.length), obs[i].t = tstart + i * dt ∧ Near (C * dt ^ 4) obs[i].x (y obs[i].t) := by
  set f := newton e.body.Minv (fun _ => resultant e.body l) with hf
  obtain ⟨C, δ, hC, hδ, H⟩ := smooth_fourth_order (resultant_smooth e.body hcor l hsm) hy (fun t => (hy t).1) tstart hD
  have hunit : ∀ t, Unit4 (attitudeOf (y t)) := fun t => by
    have := motion_unit (motion_moved hy tstart) (by simpa using hu) (t - tstart)
    simpa using this
  refine ⟨13 * C, min δ (min 1 (1 / 24 / (C + 1))), lt_min hδ (lt_min one_pos (by positivity)), ?_⟩
  intro dt hdt hd N hN tend htend hfirst s hs h0 hh fuel hfuel sys hsys
  have hs13 : s.state.length = 13 := by rw [hs]; exact (hy tstart).1
  have hM := mechanical_memoryless e he ae ae1 l hl hb hc s.commands
  have key : ∃ s' obs, quicksolve sys fuel s tstart tend dt = some (.ok (s', obs)) ∧ obs.length = N + 1 ∧
      ∀ (i : Nat) (hi : i < obs.length), obs[i].t = tstart + i * dt ∧
        normalizeQuaternions ae1 1 (RK.rkRun f (fun x _ => x) rk4Method s.state tstart dt i) = .ok obs[i].x := by
    rcases hsys with rfl | rfl
    · obtain ⟨s', obs, h1, _, h3, h4⟩ := simulation_is_runge_kutta hM hae rk4Method rk4_forward s rfl hs13 h0 tstart tend dt hdt hh N htend hfirst fuel hfuel
      exact ⟨s', obs, h1, h3, h4⟩
    · obtain ⟨s', obs, h1, _, h3, h4⟩ := executable_is_runge_kutta hM hae rk4Method rk4_forward s rfl hs13 h0 tstart tend dt hdt hh N htend hfirst fuel hfuel
      exact ⟨s', obs, h1, h3, h4⟩
  obtain ⟨s', obs, h1, h2, h3⟩ := key
  refine ⟨s', obs, h1, h2, fun i hi => ?_⟩
  obtain ⟨h4, h5⟩ := h3 i hi
  refine ⟨h4, ?_⟩
  rw [h4]
  have hlen := rkRun_length e.body.Minv (fun _ => resultant e.body l) rk4Method s.state hs13 tstart dt i
  rw [(normalize_unitQuaternion ae1 _ hlen).1] at h5
  rw [← Except.ok.inj h5]
  have hiN : (i : ℝ) * dt ≤ D := by
    have : (i : ℝ) ≤ N := by exact_mod_cast (by omega : i ≤ N)
    exact (mul_le_mul_of_nonneg_right this hdt.le).trans hN
  have h6 := H dt hdt.le (hd.trans (min_le_left _ _)) i hiN
  rw [← hs] at h6
  have hsmall : C * dt ^ 4 ≤ 1 / 24 := by
    have h7 : dt ≤ 1 / 24 / (C + 1) := hd.trans ((min_le_right _ _).trans (min_le_right _ _))
    have h8 : dt ≤ 1 := hd.trans ((min_le_right _ _).trans (min_le_left _ _))
    have h9 : dt ^ 4 ≤ dt := pow_le_of_le_one hdt.le h8 (by norm_num)
    rw [le_div_iff₀ (by positivity)] at h7
    nlinarith
  rw [mul_assoc]
  exact unitQuaternion_near ae1 hsmall hlen (hy _).1 (hunit _) h6

/-- The ball of C198, thrown at 1 m/s, which turns at 2 rad/s and falls, during ten seconds: the hypotheses of C201 are met. -/
example : ∃ C δ, 0 < δ ∧ ∀ dt, 0 < dt → dt ≤ δ → ∀ N : Nat, (N : ℝ) * dt ≤ 10 →
    ∃ s' obs, quicksolve (simSystem (oneBody thrownBall (fun _ a b => decide (a = b)) (fun _ => false)) rk4Method.stepper) N
        ⟨thrown 0, noHistory, fun _ => none, [], 0⟩ 0 (N * dt) dt = some (.ok (s', obs)) ∧ obs.length = N + 1 ∧
      ∀ (i : Nat) (hi : i < obs.length), obs[i].t = 0 + i * dt ∧ Near (C * dt ^ 4) obs[i].x (thrown obs[i].t) := by
  obtain ⟨C, δ, hδ, H⟩ := rk4_fourth_order thrownBall ⟨rfl, by decide, fun _ => rfl⟩ (Ms := 1) top_inertial (fun _ a b => decide (a = b)) (by simp) (fun _ => false)
    [.gravity 1 10] rfl (by simp [Push.InBody]) (by simp [Push.Smooth]) rfl thrown thrown_is_motion 0 10 (by norm_num)
    (by simp [thrown, Unit4, attitudeOf])
  refine ⟨C, δ, hδ, fun dt hdt hd N hN => H dt hdt hd N hN (N * dt) (by rw [zero_add]) (fun i hi => ?_) _ rfl (fun n => by cases n <;> rfl) (noHistory_notAfter _ _) N le_rfl _ (Or.inl rfl)⟩
  rw [zero_add]
  exact mul_lt_mul_of_pos_right (by exact_mod_cast hi) hdt

end Xdyn.Sim

/-
Rudder in the wake of the propeller (C118), resistance curve (C94), constant force in a turned frame (C95), linear hydrostatics in waves (C96).
-/
import Mathlib.Tactic.FieldSimp
import Mathlib.Tactic.LinearCombination
import Verif.Props.Forces

namespace Xdyn.Forces
open Xdyn.Hdb (cross power)

/-! ### C91, C118: rudder -/

/-- The moment returned with the rudder force, about the propeller, is that of the force applied at the rudder: in every rigid motion, of velocity `vP` at the
propeller and `omega`, the power of the wrench is the force times the velocity of the rudder. `offset` goes from the rudder to the propeller. -/
theorem rudder_force_at_rudder (r : Rudder) (delta beta Vs area : ℝ) (vP omega : Fin 3 → ℝ) :
    power (r.wrench delta beta Vs area).1 (r.wrench delta beta Vs area).2 vP omega =
      power (r.wrench delta beta Vs area).1 (fun _ => 0) (fun i => vP i + cross omega (fun j => -(r.offset j)) i) omega := by
  unfold Rudder.wrench Rudder.force
  simp only [power, cross, Fin.sum_univ_three]
  simp
  ring

/-- The thrust loading coefficient is not negative for a positive thrust, so the theorems about the wake apply. -/
theorem loading_nonneg (r : Rudder) (Va T : ℝ) (hr : 0 < r.rho) (hT : 0 ≤ T) : 0 ≤ r.loading Va T := by
  have hp := Real.pi_pos
  unfold Rudder.loading
  simp only
  split_ifs
  · positivity
  · have h : 0 ≤ r.D * Va * (r.D * Va) := mul_self_nonneg _
    rw [mul_assoc r.rho]
    positivity

theorem speed_polar (V : ℝ × ℝ) : Rudder.speed V * Real.cos (Rudder.fluidAngle V) = V.1 ∧
    Rudder.speed V * Real.sin (Rudder.fluidAngle V) = V.2 := by
  have hn : ‖(⟨V.1, V.2⟩ : ℂ)‖ = Rudder.speed V := by
    rw [Complex.norm_def, Complex.normSq_mk]
    rfl
  have hc := Complex.norm_mul_cos_arg (⟨V.1, V.2⟩ : ℂ)
  have hs := Complex.norm_mul_sin_arg (⟨V.1, V.2⟩ : ℂ)
  rw [hn] at hc hs
  exact ⟨hc, hs⟩

/-- The two parts of the rudder, in and outside of the wake, both oppose the flow they are in. -/
theorem rudder_wake_dissipates (r : Rudder) (w u v beta T : ℝ) (hA : 0 < r.Ar) (hb : 0 < r.b) (hD : 0 ≤ r.D) (hl : 0 < r.aspect)
    (hrho : 0 < r.rho) (hdc : 0 ≤ r.dragCoeff) (hT : 0 ≤ T) :
    let W := r.rudderWrenches w u v beta T
    let V := r.getVs (r.loading (u * (1 - w)) T) (u * (1 - w)) v T
    W.1.1 0 * V.1.1 + W.1.1 1 * V.1.2 ≤ 0 ∧ W.2.1 0 * V.2.1 + W.2.1 1 * V.2.2 ≤ 0 := by
  intro W V
  have hload := loading_nonneg r (u * (1 - w)) T hrho hT
  obtain ⟨ha1, ha2, ha3⟩ := rudder_area_partition r _ hA.le hb hD hload
  have key : ∀ (U : ℝ × ℝ) (a : ℝ), 0 ≤ a → (r.wrench beta (Rudder.fluidAngle U) (Rudder.speed U) a).1 0 * U.1 +
      (r.wrench beta (Rudder.fluidAngle U) (Rudder.speed U) a).1 1 * U.2 ≤ 0 := by
    intro U a ha
    obtain ⟨h1, h2⟩ := speed_polar U
    have h := rudder_force_dissipates r beta (Rudder.fluidAngle U) (Rudder.speed U) a hA hb hl hrho.le ha hdc
    have hs : 0 ≤ Rudder.speed U := Real.sqrt_nonneg _
    have := mul_nonpos_of_nonneg_of_nonpos hs h
    calc _ = Rudder.speed U * ((r.wrench beta (Rudder.fluidAngle U) (Rudder.speed U) a).1 0 * Real.cos (Rudder.fluidAngle U) +
          (r.wrench beta (Rudder.fluidAngle U) (Rudder.speed U) a).1 1 * Real.sin (Rudder.fluidAngle U)) := by
          linear_combination (-(r.wrench beta (Rudder.fluidAngle U) (Rudder.speed U) a).1 0) * h1 -
            (r.wrench beta (Rudder.fluidAngle U) (Rudder.speed U) a).1 1 * h2
      _ ≤ 0 := this
  exact ⟨key _ _ ha1, key _ _ ha2⟩

/-- The wrench given to the simulator is the sum of the wrench of the propeller and of the two rudder forces, applied at the rudder. -/
theorem rudder_total_power (r : Rudder) (w u v beta : ℝ) (prop : Fin 6 → ℝ) (vP omega : Fin 3 → ℝ) :
    let T := Real.sqrt (∑ i, prop i * prop i)
    let W := r.rudderWrenches w u v beta T
    let vR : Fin 3 → ℝ := fun i => vP i + cross omega (fun j => -(r.offset j)) i
    power (r.totalWrench w u v beta prop).1 (r.totalWrench w u v beta prop).2 vP omega =
      power ![prop 0, prop 1, prop 2] ![prop 3, prop 4, prop 5] vP omega +
        (power W.1.1 (fun _ => 0) vR omega + power W.2.1 (fun _ => 0) vR omega) := by
  intro T W vR
  have h1 := rudder_force_at_rudder r beta (Rudder.fluidAngle (r.getVs (r.loading (u * (1 - w)) T) (u * (1 - w)) v T).1)
    (Rudder.speed (r.getVs (r.loading (u * (1 - w)) T) (u * (1 - w)) v T).1) (r.getAr (r.loading (u * (1 - w)) T)).1 vP omega
  have h2 := rudder_force_at_rudder r beta (Rudder.fluidAngle (r.getVs (r.loading (u * (1 - w)) T) (u * (1 - w)) v T).2)
    (Rudder.speed (r.getVs (r.loading (u * (1 - w)) T) (u * (1 - w)) v T).2) (r.getAr (r.loading (u * (1 - w)) T)).2 vP omega
  have hW1 : W.1 = r.wrench beta (Rudder.fluidAngle (r.getVs (r.loading (u * (1 - w)) T) (u * (1 - w)) v T).1)
    (Rudder.speed (r.getVs (r.loading (u * (1 - w)) T) (u * (1 - w)) v T).1) (r.getAr (r.loading (u * (1 - w)) T)).1 := rfl
  have hW2 : W.2 = r.wrench beta (Rudder.fluidAngle (r.getVs (r.loading (u * (1 - w)) T) (u * (1 - w)) v T).2)
    (Rudder.speed (r.getVs (r.loading (u * (1 - w)) T) (u * (1 - w)) v T).2) (r.getAr (r.loading (u * (1 - w)) T)).2 := rfl
  rw [← hW1] at h1
  rw [← hW2] at h2
  have ht : r.totalWrench w u v beta prop = (fun i => W.1.1 i + W.2.1 i + ![prop 0, prop 1, prop 2] i,
    fun i => W.1.2 i + W.2.2 i + ![prop 3, prop 4, prop 5] i) := rfl
  rw [← h1, ← h2, ht]
  simp only [power, Fin.sum_univ_three]
  ring

theorem wrench_add_area (r : Rudder) (delta beta Vs a b : ℝ) (i : Fin 3) :
    (r.wrench delta beta Vs a).1 i + (r.wrench delta beta Vs b).1 i = (r.wrench delta beta Vs (a + b)).1 i := by
  fin_cases i <;> simp [Rudder.wrench, Rudder.force, Rudder.lift, Rudder.drag] <;> ring

/-- Without thrust and going ahead, the wake is not different from the water around: the rudder force is that of the whole rudder in the same flow. -/
theorem rudder_no_thrust_partial (r : Rudder) (w u v beta : ℝ) (hA : 0 ≤ r.Ar) (hb : 0 < r.b) (hD : 0 ≤ r.D) (h : 0 ≤ u * (1 - w)) (i : Fin 3) :
    (r.rudderWrenches w u v beta 0).1.1 i + (r.rudderWrenches w u v beta 0).2.1 i =
      (r.wrench beta (Rudder.fluidAngle (u * (1 - w), v)) (Rudder.speed (u * (1 - w), v)) r.Ar).1 i := by
  have hl : r.loading (u * (1 - w)) 0 = 0 := by
    unfold Rudder.loading
    simp
  have hv : r.getVs 0 (u * (1 - w)) v 0 = ((u * (1 - w), v), (u * (1 - w), v)) := by
    unfold Rudder.getVs Rudder.reductionFactor
    simp only [mul_zero, zero_div, add_zero, Real.sqrt_mul_self h, sub_self, Real.sqrt_zero, sub_zero, mul_one]
    norm_num
  have ha := (rudder_area_partition r 0 hA hb hD le_rfl).2.2.1
  unfold Rudder.rudderWrenches
  simp only [hl, hv]
  rw [wrench_add_area, ha]

/-- Full statement, refuted going astern: with no thrust at all the water in the "wake" is supposed to flow in the direction opposite to the motion of
the ship, whatever the rudder (unless rudder and propeller are at the same place). -/
theorem rudder_no_thrust_refuted (r : Rudder) (Va v : ℝ) (hD : 0 < r.D) (hd : r.distance ≠ 0) (h : Va < 0) :
    0 < (r.getVs (r.loading Va 0) Va v 0).1.1 := by
  have hl : r.loading Va 0 = 0 := by
    unfold Rudder.loading
    simp
  have hq : 0 < |r.distance / r.D| := by
    rw [abs_pos]
    exact div_ne_zero hd hD.ne'
  have hK : 1 / 2 < r.Kr := by
    unfold Rudder.Kr
    have : 0 < 0.5 / (1 + 0.15 / |r.distance / r.D|) := by positivity
    norm_num at this ⊢
    linarith
  have hs : Real.sqrt (Va * Va) = -Va := by
    rw [Real.sqrt_mul_self_eq_abs, abs_of_neg h]
  rw [hl]
  unfold Rudder.getVs Rudder.reductionFactor
  simp only [mul_zero, zero_div, add_zero, hs, Real.sqrt_zero, sub_zero]
  rw [if_neg (by norm_num), mul_one]
  nlinarith

/-- The thrust given to the rudder is not that of the propeller: a propeller which brakes with a force of 3 N and takes a torque of 4 Nm is supposed to
give a thrust of 5 N. -/
theorem rudder_thrust_refuted (r : Rudder) (w u v beta : ℝ) :
    r.totalWrench w u v beta ![-3, 0, 0, 4, 0, 0] =
      (fun i => (r.rudderWrenches w u v beta 5).1.1 i + (r.rudderWrenches w u v beta 5).2.1 i + ![-3, 0, 0] i,
       fun i => (r.rudderWrenches w u v beta 5).1.2 i + (r.rudderWrenches w u v beta 5).2.2 i + ![4, 0, 0] i) := by
  have h : Real.sqrt (∑ i : Fin 6, (![-3, 0, 0, 4, 0, 0] : Fin 6 → ℝ) i * (![-3, 0, 0, 4, 0, 0] : Fin 6 → ℝ) i) = 5 := by
    have : ∑ i : Fin 6, (![-3, 0, 0, 4, 0, 0] : Fin 6 → ℝ) i * (![-3, 0, 0, 4, 0, 0] : Fin 6 → ℝ) i = 5 ^ 2 := by
      simp [Fin.sum_univ_six]
      norm_num
    rw [this, Real.sqrt_sq (by norm_num)]
  unfold Rudder.totalWrench
  simp only [h]
  rfl

/-! ### C92: formula of the propellers -/

/-- The thrust and the torque of a propeller are those of the open-water diagram: `T = (1 - t) rho n^2 D^4 Kt(J)` and `Q = eta_R rho n^2 D^5 Kq(J)` at the
advance ratio `J = (1 - w) |u| / (n D)`; a clockwise propeller (seen from aft: turning in the direct sense about x) gets the torque `-Q`, which opposes
its rotation. -/
theorem propeller_formula {K : Type} [Field K] [LinearOrder K] [IsStrictOrderedRing K] (rho w etaR t D : K) (Kt Kq : Ratio K → Ratio K) (u n kt kq : K)
    (hn : n ≠ 0) (hD : D ≠ 0) (ht : Kt (.num ((1 - w) * |u| / (n * D))) = .num kt) (hq : Kq (.num ((1 - w) * |u| / (n * D))) = .num kq) :
    propeller rho w etaR t D true Kt Kq u n = (.num ((1 - t) * rho * n ^ 2 * D ^ 4 * kt), .num (-(etaR * rho * n ^ 2 * D ^ 5 * kq))) ∧
    propeller rho w etaR t D false Kt Kq u n = (.num ((1 - t) * rho * n ^ 2 * D ^ 4 * kt), .num (etaR * rho * n ^ 2 * D ^ 5 * kq)) := by
  have hJ : advanceRatio w u n D = .num ((1 - w) * |u| / (n * D)) := by
    unfold advanceRatio divide
    simp only [hn, hD, if_false, div_div]
  constructor
  · unfold propeller
    simp only [hJ, ht, hq, if_true, Prod.mk.injEq, Ratio.num.injEq]
    constructor <;> ring
  · unfold propeller
    simp only [hJ, ht, hq, Bool.false_eq_true, if_false, Prod.mk.injEq, Ratio.num.injEq]
    constructor <;> ring

/-! ### C94: resistance curve -/

/-- The resistance acts along the axis of the ship only; its power is minus the speed times the value of the curve: the resistance brakes the ship as
soon as the curve has the sign of the speed. -/
theorem resistance_dissipates {K : Type} [Field K] [LinearOrder K] [IsStrictOrderedRing K] (S : K → K) (W : Fin 6 → K) (h : 0 ≤ S (W 0) * W 0) :
    ∑ i, resistance S (W 0) i * W i ≤ 0 ∧ (∀ i, i ≠ 0 → resistance S (W 0) i = 0) ∧ (0 < S (W 0) → resistance S (W 0) 0 < 0) := by
  refine ⟨?_, ?_, ?_⟩
  · simp only [resistance, Fin.sum_univ_six]
    simp
    linarith
  · intro i hi
    fin_cases i <;> simp_all [resistance]
  · intro h
    simpa [resistance] using h

example : ∑ i, resistance (fun u : ℚ => 3 * u) ((![2, 1, 0, 0, 0, 1] : Fin 6 → ℚ) 0) i * (![2, 1, 0, 0, 0, 1] : Fin 6 → ℚ) i = -12 := by decide +kernel

/-! ### C95: constant force in a turned frame -/

/-- Constant force declared in a frame with the origin of the body but turned by a rotation `R` which leaves the centre of gravity where it is (for instance
when G is the origin): same power as the turned force and torque at the turned point. -/
theorem constant_force_turned_partial {K : Type} [Field K] [LinearOrder K] (force torque P G vG omega : Fin 3 → K) (R : Fin 3 → Fin 3 → K)
    (hcross : ∀ a b : Fin 3 → K, mulVec3 R (cross a b) = cross (mulVec3 R a) (mulVec3 R b)) (hG : mulVec3 R G = G) :
    power (constantForce force torque P G R).1 (constantForce force torque P G R).2 vG omega =
      power (mulVec3 R force) (mulVec3 R torque) (fun i => vG i + cross omega (fun j => mulVec3 R P j - G j) i) omega := by
  have hlin : ∀ a b : Fin 3 → K, mulVec3 R (fun i => a i + b i) = fun i => mulVec3 R a i + mulVec3 R b i := by
    intro a b
    funext i
    simp only [mulVec3, Fin.sum_univ_three]
    ring
  have hneg : mulVec3 R (fun i => -(G i)) = fun i => -(G i) := by
    conv_rhs => rw [← hG]
    funext i
    simp only [mulVec3, Fin.sum_univ_three]
    ring
  have h2 : (constantForce force torque P G R).2 = fun i => mulVec3 R torque i + cross (fun j => -(G j) + mulVec3 R P j) (mulVec3 R force) i := by
    unfold constantForce
    simp only
    rw [hlin torque, hcross, hlin (fun i => -(G i)) P, hneg]
  rw [h2]
  have h1 : (constantForce force torque P G R).1 = mulVec3 R force := rfl
  rw [h1]
  generalize mulVec3 R force = f
  generalize mulVec3 R torque = m
  generalize mulVec3 R P = p
  simp only [power, cross, Fin.sum_univ_three]
  simp
  ring

/-- Rotation of 90 degrees about z: the hypotheses hold with G on the axis. -/
example : (∀ a b : Fin 3 → ℚ, mulVec3 ![![0, -1, 0], ![1, 0, 0], ![0, 0, 1]] (cross a b) =
      cross (mulVec3 ![![0, -1, 0], ![1, 0, 0], ![0, 0, 1]] a) (mulVec3 ![![0, -1, 0], ![1, 0, 0], ![0, 0, 1]] b)) ∧
    mulVec3 ![![0, -1, 0], ![1, 0, 0], ![0, 0, 1]] (![0, 0, 2] : Fin 3 → ℚ) = ![0, 0, 2] := by
  constructor
  · intro a b
    funext i
    fin_cases i <;> simp [mulVec3, cross, Fin.sum_univ_three] <;> ring
  · decide +kernel

/-! ### C96: linear hydrostatics in waves -/

/-- If the free surface rises by the same height everywhere and the ship with it, the force does not change. -/
theorem linear_hydrostatics_rise (Km : Fin 3 → Fin 3 → ℝ) (zEq phiEq thetaEq d12 d34 d24 d13 z phi theta h : ℝ) (zw : Fin 4 → ℝ) :
    linearHydrostatic Km zEq phiEq thetaEq d12 d34 d24 d13 (fun i => zw i + h) (z + h) phi theta =
      linearHydrostatic Km zEq phiEq thetaEq d12 d34 d24 d13 zw z phi theta := by
  have h1 : z + h - zbar (fun i => zw i + h) = z - zbar zw := by
    unfold zbar
    ring
  have h2 : phibar d12 d34 (fun i => zw i + h) = phibar d12 d34 zw := by
    unfold phibar
    simp only [add_sub_add_right_eq_sub]
  have h3 : thetabar d24 d13 (fun i => zw i + h) = thetabar d24 d13 zw := by
    unfold thetabar
    simp only [add_sub_add_right_eq_sub]
  unfold linearHydrostatic
  simp only [h1, h2, h3]

/-- With a stiffness in heave only, the force only depends on the mean of the four wave heights. -/
theorem linear_hydrostatics_mean (k zEq phiEq thetaEq d12 d34 d24 d13 z phi theta a b c d : ℝ) :
    linearHydrostatic ![![k, 0, 0], ![0, 0, 0], ![0, 0, 0]] zEq phiEq thetaEq d12 d34 d24 d13 ![a, b, c, d] z phi theta = ![-(k * (z - (a + b + c + d) / 4 - zEq)), 0, 0] := by
  funext i
  fin_cases i <;> simp [linearHydrostatic, zbar, mulVec3, Fin.sum_univ_three]
  left
  ring

end Xdyn.Forces

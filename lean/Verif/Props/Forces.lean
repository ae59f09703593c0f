/-
Force models: rudder, propellers, controllers, damping, gravity, constant force, hydrostatics, GZ.
-/
import Mathlib.Tactic.FieldSimp
import Mathlib.Tactic.Positivity
import Mathlib.Tactic.NormNum
import Verif.Model.Forces
import Verif.Props.Radiation

namespace Xdyn.Forces
open Xdyn.Hdb (cross power)

/-! ### C57: rudder area -/

theorem rudder_Kr_bounds (r : Rudder) : 1 / 2 ≤ r.Kr ∧ r.Kr ≤ 1 := by
  unfold Rudder.Kr
  have h0 : 0 ≤ 0.15 / |r.distance / r.D| := by positivity
  have h1 : (0 : ℝ) < 1 + 0.15 / |r.distance / r.D| := by linarith
  have h2 : 0 ≤ 0.5 / (1 + 0.15 / |r.distance / r.D|) := by positivity
  have h3 : 0.5 / (1 + 0.15 / |r.distance / r.D|) ≤ 0.5 := by
    rw [div_le_iff₀ h1]
    linarith
  constructor <;> norm_num at * <;> linarith

/-- The areas inside and outside of the wake are non-negative and add up to the rudder area; the
area inside the wake is at most the part of the rudder behind the propeller disc. -/
theorem rudder_area_partition (r : Rudder) (CTh : ℝ) (hA : 0 ≤ r.Ar) (hb : 0 < r.b) (hD : 0 ≤ r.D)
    (hC : 0 ≤ CTh) :
    0 ≤ (r.getAr CTh).1 ∧ 0 ≤ (r.getAr CTh).2 ∧ (r.getAr CTh).1 + (r.getAr CTh).2 = r.Ar ∧
      (r.getAr CTh).1 ≤ r.Ar / r.b * r.D := by
  have hc : 0 ≤ r.chord := div_nonneg hA (le_of_lt hb)
  have hK := rudder_Kr_bounds r
  have hs : 1 ≤ Real.sqrt (1 + CTh) := by
    rw [Real.one_le_sqrt]
    linarith
  unfold Rudder.getAr
  simp only
  have hq : Real.sqrt ((1 + 0.5 * (Real.sqrt (1 + CTh) - 1)) / (1 + r.Kr * (Real.sqrt (1 + CTh) - 1))) ≤ 1 := by
    rw [Real.sqrt_le_left (by norm_num), one_pow]
    have : (0 : ℝ) < 1 + r.Kr * (Real.sqrt (1 + CTh) - 1) := by nlinarith
    rw [div_le_one this]
    nlinarith
  have hw : 0 ≤ r.chord * (r.D * Real.sqrt ((1 + 0.5 * (Real.sqrt (1 + CTh) - 1)) / (1 + r.Kr * (Real.sqrt (1 + CTh) - 1)))) := by
    positivity
  refine ⟨le_min hA hw, ?_, by ring, ?_⟩
  · have := min_le_left r.Ar (r.chord * (r.D * Real.sqrt ((1 + 0.5 * (Real.sqrt (1 + CTh) - 1)) / (1 + r.Kr * (Real.sqrt (1 + CTh) - 1)))))
    linarith
  · refine le_trans (min_le_right _ _) ?_
    unfold Rudder.chord
    refine mul_le_mul_of_nonneg_left ?_ (div_nonneg hA (le_of_lt hb))
    calc r.D * _ ≤ r.D * 1 := mul_le_mul_of_nonneg_left hq hD
      _ = r.D := mul_one _

/-- The speed reduction factor in the wake lies between 0.5 and 1. -/
theorem rudder_reduction_factor (CTh : ℝ) (hC : 0 ≤ CTh) :
    1 / 2 ≤ Rudder.reductionFactor CTh ∧ Rudder.reductionFactor CTh ≤ 1 := by
  unfold Rudder.reductionFactor
  split
  · norm_num
  · rename_i h
    have hs := Real.sqrt_nonneg CTh
    have hle : Real.sqrt CTh ≤ 0.5 / 0.135 := by
      rw [Real.sqrt_le_left (by norm_num)]
      have := not_lt.mp h
      norm_num at this ⊢
      linarith
    constructor
    · have : 0.135 * Real.sqrt CTh ≤ 0.135 * (0.5 / 0.135) := by
        exact mul_le_mul_of_nonneg_left hle (by norm_num)
      norm_num at this ⊢
      linarith
    · have : 0 ≤ 0.135 * Real.sqrt CTh := by positivity
      linarith

/-! ### C91: rudder force -/

/-- The component of the rudder force along the flow is the opposite of the drag, which is
non-negative: the rudder cannot propel the ship. -/
theorem rudder_force_dissipates (r : Rudder) (delta beta Vs area : ℝ)
    (hA : 0 < r.Ar) (hb : 0 < r.b) (hl : 0 < r.aspect) (hrho : 0 ≤ r.rho) (harea : 0 ≤ area)
    (hdc : 0 ≤ r.dragCoeff) :
    (r.wrench delta beta Vs area).1 0 * Real.cos beta + (r.wrench delta beta Vs area).1 1 * Real.sin beta ≤ 0 := by
  have hlam : 0 < r.lambda := by
    unfold Rudder.lambda
    positivity
  have hCd : 0 ≤ r.Cd Vs (r.Cl (delta - beta)) := by
    unfold Rudder.Cd
    simp only
    have h1 : 0 ≤ 1.1 * r.Cl (delta - beta) * r.Cl (delta - beta) := by
      rw [mul_assoc]
      exact mul_nonneg (by norm_num) (mul_self_nonneg _)
    have h2 : 0 ≤ 1.1 * r.Cl (delta - beta) * r.Cl (delta - beta) / (Real.pi * r.lambda) := by
      positivity
    have h3 : 0 ≤ 2.5 * (0.075 / (Real.log (Vs * r.chord / r.nu) / Real.log 10 - 2) ^ 2) := by
      positivity
    linarith
  have hdrag : 0 ≤ r.drag Vs (r.Cd Vs (r.Cl (delta - beta))) area := by
    unfold Rudder.drag
    have := mul_self_nonneg Vs
    have h1 : 0 ≤ 0.5 * r.rho * area := by positivity
    have h2 : 0.5 * r.rho * area * Vs * Vs = 0.5 * r.rho * area * (Vs * Vs) := by ring
    rw [h2]
    positivity
  have h := Real.sin_sq_add_cos_sq beta
  unfold Rudder.wrench Rudder.force
  simp only [Matrix.cons_val_zero, Matrix.cons_val_one]
  have : (-r.lift Vs (r.Cl (delta - beta)) (delta - beta) area * Real.sin beta -
          r.drag Vs (r.Cd Vs (r.Cl (delta - beta))) area * Real.cos beta) * Real.cos beta +
      (r.lift Vs (r.Cl (delta - beta)) (delta - beta) area * Real.cos beta -
          r.drag Vs (r.Cd Vs (r.Cl (delta - beta))) area * Real.sin beta) * Real.sin beta =
      -(r.drag Vs (r.Cd Vs (r.Cl (delta - beta))) area) * (Real.sin beta ^ 2 + Real.cos beta ^ 2) := by
    ring
  rw [this, h]
  linarith

/-- Port-starboard symmetry: opposite rudder angle and flow angle give the same longitudinal force
and the opposite lateral force; with the rudder in line with the flow there is no lift. -/
theorem rudder_force_symmetric (r : Rudder) (delta beta Vs area : ℝ) :
    (r.wrench (-delta) (-beta) Vs area).1 0 = (r.wrench delta beta Vs area).1 0 ∧
    (r.wrench (-delta) (-beta) Vs area).1 1 = -((r.wrench delta beta Vs area).1 1) ∧
    (r.wrench beta beta Vs area).1 0 * Real.sin beta = (r.wrench beta beta Vs area).1 1 * Real.cos beta := by
  have hCl : r.Cl (-delta - -beta) = -(r.Cl (delta - beta)) := by
    unfold Rudder.Cl
    rw [show -delta - -beta = -(delta - beta) by ring, Real.sin_neg]
    ring
  have hlift : r.lift Vs (r.Cl (-delta - -beta)) (-delta - -beta) area =
      -(r.lift Vs (r.Cl (delta - beta)) (delta - beta) area) := by
    rw [hCl]
    unfold Rudder.lift
    rw [show -delta - -beta = -(delta - beta) by ring, Real.cos_neg]
    ring
  have hCd : r.Cd Vs (r.Cl (-delta - -beta)) = r.Cd Vs (r.Cl (delta - beta)) := by
    rw [hCl]
    unfold Rudder.Cd
    ring
  have h0 : r.lift Vs (r.Cl (beta - beta)) (beta - beta) area = 0 := by
    unfold Rudder.lift Rudder.Cl
    simp
  refine ⟨?_, ?_, ?_⟩
  · unfold Rudder.wrench Rudder.force
    simp only [Matrix.cons_val_zero, hlift, hCd, Real.sin_neg, Real.cos_neg]
    ring
  · unfold Rudder.wrench Rudder.force
    simp only [Matrix.cons_val_one, hlift, hCd, Real.sin_neg, Real.cos_neg, Matrix.cons_val_zero]
    ring
  · unfold Rudder.wrench Rudder.force
    simp only [Matrix.cons_val_one, Matrix.cons_val_zero, h0]
    ring

/-- A rudder of 2.2 m2 for which all the hypotheses hold. -/
example : ∃ r : Rudder, 0 < r.Ar ∧ 0 < r.b ∧ 0 < r.D ∧ 0 < r.aspect ∧ 0 ≤ r.rho ∧ 0 ≤ r.dragCoeff :=
  ⟨⟨2.2, 2, 1.7, 2.1, 1, 2, 1024, 1.18e-6, 1.1, fun _ => 0⟩, by norm_num, by norm_num, by norm_num,
    by norm_num, by norm_num, by norm_num⟩

/-! ### C58, C92: propellers -/

section
variable {K : Type} [Field K] [LinearOrder K]

theorem wageningen_parameters (Z : Nat) (A : K) :
    checkWageningen Z A = .ok () ↔ (2 ≤ Z ∧ Z ≤ 7) ∧ (3 / 10 ≤ A ∧ A ≤ 105 / 100) := by
  unfold checkWageningen
  by_cases h : Z < 2 ∨ 7 < Z
  · rw [if_pos h]
    constructor
    · intro hh; simp at hh
    · rintro ⟨⟨h1, h2⟩, -⟩
      omega
  · rw [if_neg h]
    by_cases h2 : A < 3 / 10 ∨ 105 / 100 < A
    · rw [if_pos h2]
      constructor
      · intro hh; simp at hh
      · rintro ⟨-, h3, h4⟩
        rcases h2 with h2 | h2
        · exact absurd h3 (not_le.mpr h2)
        · exact absurd h4 (not_le.mpr h2)
    · rw [if_neg h2]
      push Not at h h2
      simp [h, h2]

/-- Whatever the advance ratio (other than NaN), the polynomials are evaluated at a point of
[0, 1.5], which is the advance ratio if it belongs to this interval. -/
theorem wageningen_advance_ratio_saturated [IsStrictOrderedRing K] (l : List (Monomial K)) (Z : Nat)
    (A P : K) (J : Ratio K) (hJ : J ≠ .nan) :
    ∃ j, 0 ≤ j ∧ j ≤ 3 / 2 ∧ polynomial l Z A P J = polynomial l Z A P (.num j) ∧
      (∀ x, J = .num x → 0 ≤ x → x ≤ 3 / 2 → j = x) ∧
      ∃ y, polynomial l Z A P J = .num y := by
  have h32 : (0 : K) ≤ 3 / 2 := by norm_num
  have hs : ∀ j : K, 0 ≤ j → j ≤ 3 / 2 → saturate (.num j) = .num j := by
    intro j h0 h1
    simp [saturate, min_eq_left h1, max_eq_left h0]
  cases J with
  | num x =>
    refine ⟨max (min x (3 / 2)) 0, le_max_right _ _, max_le (min_le_right _ _) h32, ?_, ?_, ?_⟩
    · unfold polynomial
      rw [hs _ (le_max_right _ _) (max_le (min_le_right _ _) h32)]
      simp only [saturate]
    · intro y hy h0 h1
      cases hy
      rw [min_eq_left h1, max_eq_left h0]
    · exact ⟨_, rfl⟩
  | posInf =>
    refine ⟨3 / 2, h32, le_refl _, ?_, ?_, ?_⟩
    · unfold polynomial
      rw [hs _ h32 (le_refl _)]
      simp only [saturate]
    · intro y hy
      cases hy
    · exact ⟨_, rfl⟩
  | negInf =>
    refine ⟨0, le_refl _, h32, ?_, ?_, ?_⟩
    · unfold polynomial
      rw [hs _ (le_refl _) h32]
      simp only [saturate]
    · intro y hy
      cases hy
    · exact ⟨_, rfl⟩
  | nan => exact absurd rfl hJ

/-- The pitch ratio, on the other hand, is not restricted to the domain [0.5, 1.4] of the series: out
of this domain a message is printed and the polynomials are evaluated. -/
theorem wageningen_pitch_not_restricted :
    polynomial [⟨(1 : ℚ), 0, 1, 0, 0⟩] 3 (1 / 2) 100 (.num 1) = .num 100 := by
  decide +kernel

/-- Clockwise and counter-clockwise propellers have the same thrust and opposite torques. -/
theorem propeller_rotation_sense (rho w etaR t D : K) (Kt Kq : Ratio K → Ratio K) (u n : K) :
    (propeller rho w etaR t D true Kt Kq u n).1 = (propeller rho w etaR t D false Kt Kq u n).1 ∧
    ∀ x, (propeller rho w etaR t D false Kt Kq u n).2 = .num x →
      (propeller rho w etaR t D true Kt Kq u n).2 = .num (-x) := by
  unfold propeller
  simp only [Bool.false_eq_true, if_true, if_false]
  refine ⟨trivial, ?_⟩
  intro x hx
  cases hq : Kq (advanceRatio w u n D) with
  | num y =>
    rw [hq] at hx
    simp only [Ratio.num.injEq] at hx ⊢
    rw [← hx]
    ring
  | posInf => rw [hq] at hx; simp at hx
  | negInf => rw [hq] at hx; simp at hx
  | nan => rw [hq] at hx; simp at hx

/-- A stopped propeller on a moving ship gives no force. -/
theorem propeller_stopped_partial [IsStrictOrderedRing K] (rho w etaR t D : K) (cw : Bool) (lt lq : List (Monomial K))
    (Z : Nat) (A P u : K) (hw : w < 1) (hu : u ≠ 0) :
    propeller rho w etaR t D cw (polynomial lt Z A P) (polynomial lq Z A P) u 0 = (.num 0, .num 0) := by
  have h : 0 < (1 - w) * |u| := mul_pos (by linarith) (abs_pos.mpr hu)
  unfold propeller advanceRatio divide
  simp only [if_true, if_pos h, polynomial, saturate]
  simp

/-- Full statement: a stopped propeller gives no force.  Refuted: when the ship does not move either,
the force is not a number. -/
theorem propeller_stopped_at_rest_refuted [IsStrictOrderedRing K] (rho w etaR t D : K) (cw : Bool) (lt lq : List (Monomial K))
    (Z : Nat) (A P : K) :
    propeller rho w etaR t D cw (polynomial lt Z A P) (polynomial lq Z A P) 0 0 = (.nan, .nan) := by
  unfold propeller advanceRatio divide
  simp [polynomial, saturate]

/-- A propeller turning backwards pushes forward, as a propeller turning forward on a ship at rest:
the advance ratio is negative, hence saturated to zero, and the thrust is proportional to the
square of the rotation speed. -/
theorem propeller_reverse_pushes_forward [IsStrictOrderedRing K] (rho w etaR t D : K) (cw : Bool)
    (lt lq : List (Monomial K)) (Z : Nat) (A P u n : K) (hw : w < 1) (hD : 0 < D) (hn : n < 0) :
    (propeller rho w etaR t D cw (polynomial lt Z A P) (polynomial lq Z A P) u n).1 =
      (propeller rho w etaR t D cw (polynomial lt Z A P) (polynomial lq Z A P) 0 (-n)).1 := by
  have h0 : 0 ≤ (1 - w) * |u| := mul_nonneg (by linarith) (abs_nonneg _)
  have h1 : (1 - w) * |u| / n / D ≤ 0 := by
    have : (1 - w) * |u| / n ≤ 0 := div_nonpos_of_nonneg_of_nonpos h0 (le_of_lt hn)
    exact div_nonpos_of_nonpos_of_nonneg this (le_of_lt hD)
  unfold propeller advanceRatio divide
  simp only [ne_of_lt hn, ne_of_gt hD, neg_eq_zero, if_false, abs_zero, mul_zero, zero_div]
  have hs : saturate (.num ((1 - w) * |u| / n / D)) = saturate (.num (0 : K)) := by
    have h32 : (0 : K) ≤ 3 / 2 := by norm_num
    simp only [saturate]
    rw [min_eq_left (le_trans h1 h32), max_eq_right h1, min_eq_left h32, max_self]
  simp only [polynomial, hs]
  simp

example : propeller (1000 : ℚ) (1 / 10) 1 0 2 true (polynomial [⟨1 / 2, 0, 0, 0, 0⟩, ⟨-1 / 4, 1, 0, 0, 0⟩] 4 1 1)
    (polynomial [⟨1 / 10, 0, 0, 0, 0⟩] 4 1 1) 4 2 = (.num (1000 * 4 * 16 * (1 / 2 - 1 / 4 * (9 / 10))), .num (-12800)) := by
  decide +kernel

/-! ### C93: controllers -/

/-- Closed loop: with the inertia about z (entry (5,5) of the total inertia), the heading obeys the
second order equation with the damping and the period of the YAML file, provided the entries
(2,2) and (5,5) of the inertia matrix are equal. -/
theorem heading_controller_partial (I : Fin 6 → Fin 6 → K) (ksi omega psiCo psi r : K)
    (hI : I 5 5 ≠ 0) (heq : I 2 2 = I 5 5) :
    headingController I ksi omega psiCo psi r / I 5 5 =
      omega ^ 2 * (psiCo - psi) - 2 * ksi * omega * r := by
  unfold headingController
  simp only [heq]
  field_simp

/-- Full statement refuted: the gains are computed with the heave inertia (entry (2,2)) instead of the
inertia about z. -/
theorem heading_controller_refuted :
    ∃ (I : Fin 6 → Fin 6 → ℚ) (ksi omega psiCo psi r : ℚ), I 5 5 ≠ 0 ∧
      headingController I ksi omega psiCo psi r / I 5 5 ≠ omega ^ 2 * (psiCo - psi) - 2 * ksi * omega * r := by
  refine ⟨fun i j => if i = j then (if i = 5 then 10 else 1) else 0, 1, 1, 1, 0, 0, by decide +kernel, by decide +kernel⟩

/-- The heading error is not reduced modulo 2*pi: two headings which differ by one turn give different
torques, for the same attitude of the ship. -/
theorem heading_controller_not_periodic (I : Fin 6 → Fin 6 → ℝ) (ksi omega psiCo psi r : ℝ)
    (hI : I 2 2 ≠ 0) (ho : omega ≠ 0) :
    headingController I ksi omega (psiCo + 2 * Real.pi) psi r ≠ headingController I ksi omega psiCo psi r := by
  unfold headingController
  simp only
  intro h
  have : I 2 2 * omega * omega * (2 * Real.pi) = 0 := by linear_combination h
  have hp := Real.pi_ne_zero
  simp [hI, ho, hp] at this

/-- Station keeping: at heading zero, each of x, y and psi obeys its own second order equation. -/
theorem station_keeping_partial (I : Fin 6 → Fin 6 → K) (kx ox ky oy kp op xc yc pc x y p u v r : K)
    (h0 : I 0 0 ≠ 0) (h1 : I 1 1 ≠ 0) (h5 : I 5 5 ≠ 0) :
    let F := stationKeeping I kx ox ky oy kp op xc yc pc x y p u v r
    F 0 / I 0 0 = ox ^ 2 * (xc - x) - 2 * kx * ox * u ∧
    F 1 / I 1 1 = oy ^ 2 * (yc - y) - 2 * ky * oy * v ∧
    F 5 / I 5 5 = op ^ 2 * (pc - p) - 2 * kp * op * r := by
  have e0 : (stationKeeping I kx ox ky oy kp op xc yc pc x y p u v r) 0 = I 0 0 * ox * ox * (xc - x) - 2 * kx * ox * I 0 0 * u := rfl
  have e1 : (stationKeeping I kx ox ky oy kp op xc yc pc x y p u v r) 1 = I 1 1 * oy * oy * (yc - y) - 2 * ky * oy * I 1 1 * v := rfl
  have e5 : (stationKeeping I kx ox ky oy kp op xc yc pc x y p u v r) 5 = I 5 5 * op * op * (pc - p) - 2 * kp * op * I 5 5 * r := rfl
  simp only [e0, e1, e5]
  refine ⟨?_, ?_, ?_⟩ <;> field_simp

/-- The position error is in the NED frame while the force is in the body frame, without rotation:
with the ship at rest heading south (rotation of pi about z), the force in the NED frame pushes the
ship away from the target, for every target. -/
theorem station_keeping_wrong_heading [IsStrictOrderedRing K] (I : Fin 6 → Fin 6 → K)
    (kx ox ky oy kp op xc yc pc x y p : K)
    (hI : 0 < I 0 0) (ho : ox ≠ 0) (hx : xc ≠ x) :
    let F := stationKeeping I kx ox ky oy kp op xc yc pc x y p 0 0 0
    let south : Fin 3 → Fin 3 → K := ![![-1, 0, 0], ![0, -1, 0], ![0, 0, 1]]
    (mulVec3 south ![F 0, F 1, F 2] 0) * (xc - x) < 0 := by
  have e0 : (stationKeeping I kx ox ky oy kp op xc yc pc x y p 0 0 0) 0 = I 0 0 * ox * ox * (xc - x) - 2 * kx * ox * I 0 0 * 0 := rfl
  simp only [mulVec3, Fin.sum_univ_three, e0]
  simp
  have h1 : 0 < ox * ox := mul_self_pos.mpr ho
  have h2 : 0 < (xc - x) * (xc - x) := mul_self_pos.mpr (sub_ne_zero.mpr hx)
  have : I 0 0 * ox * ox * (xc - x) * (xc - x) = I 0 0 * (ox * ox) * ((xc - x) * (xc - x)) := by ring
  rw [this]
  positivity

/-! ### C94: damping -/

/-- The power of the linear damping is minus the quadratic form of the damping matrix: it is never
positive if this form is non-negative. -/
theorem linear_damping_dissipates [IsStrictOrderedRing K] (D : Fin 6 → Fin 6 → K)
    (hD : ∀ v : Fin 6 → K, 0 ≤ ∑ i, v i * ∑ j, D i j * v j) (W : Fin 6 → K) :
    ∑ i, linearDamping D W i * W i ≤ 0 := by
  have : ∑ i, linearDamping D W i * W i = -(∑ i, W i * ∑ j, D i j * W j) := by
    rw [← Finset.sum_neg_distrib]
    refine Finset.sum_congr rfl (fun i _ => ?_)
    simp only [linearDamping, mulVec6]
    ring
  rw [this]
  have := hD W
  linarith

/-- Quadratic damping with a diagonal, non-negative matrix dissipates energy. -/
theorem quadratic_damping_dissipates_partial [IsStrictOrderedRing K] (D : Fin 6 → Fin 6 → K)
    (hdiag : ∀ i j, i ≠ j → D i j = 0) (hpos : ∀ i, 0 ≤ D i i) (W : Fin 6 → K) :
    ∑ i, quadraticDamping D W i * W i ≤ 0 := by
  have : ∑ i, quadraticDamping D W i * W i = -(∑ i, D i i * |W i| * (W i * W i)) := by
    rw [← Finset.sum_neg_distrib]
    refine Finset.sum_congr rfl (fun i _ => ?_)
    simp only [quadraticDamping, mulVec6]
    rw [Finset.sum_eq_single i (fun j _ hj => by rw [hdiag i j (Ne.symm hj)]; ring) (by simp)]
    ring
  rw [this]
  have : 0 ≤ ∑ i, D i i * |W i| * (W i * W i) :=
    Finset.sum_nonneg (fun i _ => mul_nonneg (mul_nonneg (hpos i) (abs_nonneg _)) (mul_self_nonneg _))
  linarith

/-- Full statement refuted: a positive damping matrix with coupling terms can bring energy. -/
theorem quadratic_damping_refuted :
    ∃ (D : Fin 6 → Fin 6 → ℚ), (∀ v : Fin 6 → ℚ, 0 ≤ ∑ i, v i * ∑ j, D i j * v j) ∧
      ∃ W : Fin 6 → ℚ, 0 < ∑ i, quadraticDamping D W i * W i := by
  refine ⟨fun i j => if i.val < 2 ∧ j.val < 2 then (if i = j then (if i = 0 then 1 else 16) else -4) else 0, ?_, ?_⟩
  · intro v
    simp [Fin.sum_univ_six]
    nlinarith [mul_self_nonneg (v 0 - 4 * v 1)]
  · refine ⟨![3, 1, 0, 0, 0, 0], ?_⟩
    simp [quadraticDamping, mulVec6, Fin.sum_univ_six]
    norm_num

/-- Quadratic damping is odd: reversing the velocity reverses the force. -/
theorem quadratic_damping_odd [IsStrictOrderedRing K] (D : Fin 6 → Fin 6 → K) (W : Fin 6 → K) (i : Fin 6) :
    quadraticDamping D (fun j => -W j) i = -(quadraticDamping D W i) := by
  simp only [quadraticDamping, mulVec6, abs_neg, neg_neg]
  rw [← Finset.sum_neg_distrib]
  refine Finset.sum_congr rfl (fun j _ => ?_)
  ring

example : quadraticDamping (fun i j => if i = j then (2 : ℚ) else 0) ![-3, 0, 0, 0, 0, 1] 0 = 18 := by
  decide +kernel

/-! ### C95: points of application -/

/-- A controlled force in its own frame (origin `OP` and axes `R` in the body frame) is equivalent to
the force and moment returned at G: same power in every rigid motion of the body. -/
theorem controlled_force_transport (F : Fin 6 → K) (R : Fin 3 → Fin 3 → K) (OP G vG omega : Fin 3 → K) :
    power (transport F R OP G).1 (transport F R OP G).2 vG omega =
      power (mulVec3 R ![F 0, F 1, F 2]) (mulVec3 R ![F 3, F 4, F 5])
        (fun i => vG i + cross omega (fun j => OP j - G j) i) omega := by
  simp only [power, transport, mulVec3, cross, Fin.sum_univ_three]
  simp
  ring

/-- Constant force declared in the body frame: equivalent to the force at its point of application. -/
theorem constant_force_partial (force torque P G vG omega : Fin 3 → K) :
    let body : Fin 3 → Fin 3 → K := fun i j => if i = j then 1 else 0
    power (constantForce force torque P G body).1 (constantForce force torque P G body).2 vG omega =
      power force torque (fun i => vG i + cross omega (fun j => P j - G j) i) omega := by
  simp only [power, constantForce, mulVec3, cross, Fin.sum_univ_three]
  simp
  ring

/-- Full statement, refuted: for a force declared in another frame (here at the same origin, turned by
90 degrees about z), the lever arm mixes the coordinates of the two frames. The power differs from
that of the force `R force` applied at the point `R P`. -/
theorem constant_force_refuted :
    ∃ (force torque P G vG omega : Fin 3 → ℚ) (R : Fin 3 → Fin 3 → ℚ),
      R = ![![0, -1, 0], ![1, 0, 0], ![0, 0, 1]] ∧
      power (constantForce force torque P G R).1 (constantForce force torque P G R).2 vG omega ≠
        power (mulVec3 R force) (mulVec3 R torque)
          (fun i => vG i + cross omega (fun j => mulVec3 R P j - G j) i) omega := by
  refine ⟨![1, 0, 0], fun _ => 0, fun _ => 0, ![1, 0, 0], fun _ => 0, ![0, 0, 1], _, rfl, ?_⟩
  decide +kernel

/-- Weight: for every orientation of the ship (orthogonal matrix `R` from NED to body), the force
expressed back in NED is vertical, downwards, of value m*g. -/
theorem gravity_in_ned (M : Fin 6 → Fin 6 → K) (g : K) (R : Fin 3 → Fin 3 → K)
    (hR : ∀ i j, ∑ k, R k i * R k j = if i = j then 1 else 0) :
    mulVec3 (fun i j => R j i) (gravity M g R) = ![0, 0, M 2 2 * g] := by
  have key : ∀ (v : Fin 3 → K), mulVec3 (fun i j => R j i) (mulVec3 R v) = v := by
    intro v
    funext i
    have h0 := hR i 0
    have h1 := hR i 1
    have h2 := hR i 2
    simp only [Fin.sum_univ_three] at h0 h1 h2
    simp only [mulVec3, Fin.sum_univ_three]
    have : R 0 i * (R 0 0 * v 0 + R 0 1 * v 1 + R 0 2 * v 2) + R 1 i * (R 1 0 * v 0 + R 1 1 * v 1 + R 1 2 * v 2) +
        R 2 i * (R 2 0 * v 0 + R 2 1 * v 1 + R 2 2 * v 2) =
        (R 0 i * R 0 0 + R 1 i * R 1 0 + R 2 i * R 2 0) * v 0 +
        (R 0 i * R 0 1 + R 1 i * R 1 1 + R 2 i * R 2 1) * v 1 +
        (R 0 i * R 0 2 + R 1 i * R 1 2 + R 2 i * R 2 2) * v 2 := by ring
    rw [this, h0, h1, h2]
    fin_cases i <;> simp
  exact key _

/-- Buoyancy: the force returned at G is equivalent to rho*g*V upwards at the centre of buoyancy. -/
theorem hydrostatic_at_buoyancy_centre (rho g V : K) (B G vG omega : Fin 3 → K) (R : Fin 3 → Fin 3 → K) :
    power (hydrostatic rho g V false B G R).1 (hydrostatic rho g V false B G R).2 vG omega =
      power (mulVec3 R ![0, 0, -(rho * g * V)]) (fun _ => 0)
        (fun i => vG i + cross omega (fun j => B j - G j) i) omega := by
  simp only [power, hydrostatic, mulVec3, cross, Fin.sum_univ_three]
  simp
  ring

/-- No immersed volume (or a mesh reduced to a plane): no force. -/
theorem hydrostatic_zero (rho g V : K) (flat : Bool) (B G : Fin 3 → K) (R : Fin 3 → Fin 3 → K)
    (h : flat = true ∨ V = 0) :
    (hydrostatic rho g V flat B G R).1 = (fun _ => 0) ∧ (hydrostatic rho g V flat B G R).2 = fun _ => 0 := by
  have hV : (if flat = true then 0 else V) = 0 := by
    rcases h with h | h
    · rw [if_pos h]
    · simp [h]
  unfold hydrostatic
  simp only [hV]
  constructor
  · funext i
    simp [mulVec3, Fin.sum_univ_three]
  · funext i
    fin_cases i <;> simp [mulVec3, cross, Fin.sum_univ_three]

/-! ### C97: righting lever -/

/-- For a vertical force applied at a point B, the righting lever does not depend on the value of the
force: it is the distance between the verticals of G and B, measured along the horizontal
direction perpendicular to the x axis of the ship (up to the norm of this axis). -/
theorem gz_is_lever_arm (X GB : Fin 3 → K) (norm fz : K) (hf : fz ≠ 0) :
    calculateGz X norm ![0, 0, fz] (cross GB ![0, 0, fz]) = (X 0 * GB 1 - X 1 * GB 0) / norm := by
  unfold calculateGz cross
  simp
  congr 1
  field_simp
  ring

end

/-! ### C96: linear hydrostatics -/

/-- In calm water, at the equilibrium position and angles, there is no force; and the force is linear in
the differences with the equilibrium. -/
theorem linear_hydrostatics_equilibrium (Km : Fin 3 → Fin 3 → ℝ) (zEq phiEq thetaEq d12 d34 d24 d13 dz dphi dtheta : ℝ)
    (i : Fin 3) :
    linearHydrostatic Km zEq phiEq thetaEq d12 d34 d24 d13 (fun _ => 0) (zEq + dz) (phiEq + dphi) (thetaEq + dtheta) i =
      -(Km i 0 * dz + Km i 1 * dphi + Km i 2 * dtheta) := by
  simp [linearHydrostatic, zbar, phibar, thetabar, mulVec3, Fin.sum_univ_three]

/-- Full statement: on a plane wave surface of slope tan(alpha) the mean roll angle of the surface is
alpha.  Proved only when the distances between points are one metre. -/
theorem mean_wave_slope_partial (alpha : ℝ) (h1 : -(Real.pi / 2) < alpha) (h2 : alpha < Real.pi / 2) (z0 z2 : ℝ) :
    phibar 1 1 ![z0, z0 + 1 * Real.tan alpha, z2, z2 + 1 * Real.tan alpha] = alpha := by
  simp [phibar, Real.arctan_tan h1 h2]
  ring

/-- Refuted for any other distance: the arc tangent is divided by the distance instead of being taken of
the quotient. -/
theorem mean_wave_slope_refuted :
    ∃ (d alpha : ℝ), 0 < d ∧ -(Real.pi / 2) < alpha ∧ alpha < Real.pi / 2 ∧
      phibar d d ![0, d * Real.tan alpha, 0, d * Real.tan alpha] ≠ alpha := by
  have hp := Real.pi_pos
  refine ⟨2, Real.pi / 4, by norm_num, by linarith, by linarith, ?_⟩
  intro h
  simp [phibar, Real.tan_pi_div_four] at h
  have h2 : Real.arctan 2 < Real.pi / 2 := Real.arctan_lt_pi_div_two 2
  have h3 : Real.arctan 2 = Real.pi / 2 := by linarith
  linarith

end Xdyn.Forces

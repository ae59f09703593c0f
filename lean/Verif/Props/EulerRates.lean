import Verif.Model.Server
import Mathlib.Analysis.SpecialFunctions.Trigonometric.Deriv
import Mathlib.Tactic.FieldSimp
import Mathlib.Tactic.LinearCombination
import Mathlib.Tactic.FinCases

/-! Property C74: the Euler angle rates returned by the model exchange server. -/

namespace Xdyn.Server

open Matrix Real

/-- Rotation matrix of the angles phi (about x''), theta (about y') and psi (about z). -/
noncomputable def rotationZYX (phi theta psi : ℝ) : Matrix (Fin 3) (Fin 3) ℝ :=
  !![cos psi, -sin psi, 0; sin psi, cos psi, 0; 0, 0, 1] *
  !![cos theta, 0, sin theta; 0, 1, 0; -sin theta, 0, cos theta] *
  !![1, 0, 0; 0, cos phi, -sin phi; 0, sin phi, cos phi]

/-- Matrix of the cross product by (p, q, r). -/
def skew (p q r : ℝ) : Matrix (Fin 3) (Fin 3) ℝ := !![0, -r, q; r, 0, -p; -q, p, 0]

/-- A body whose attitude is given by differentiable angles rotates at (p, q, r), expressed in the
body's frame, at date `t`. -/
def RotatesAt (phi theta psi : ℝ → ℝ) (t p q r : ℝ) : Prop :=
  ∀ i j, HasDerivAt (fun s => rotationZYX (phi s) (theta s) (psi s) i j)
    ((rotationZYX (phi t) (theta t) (psi t) * skew p q r) i j) t

theorem rotationZYX_eq (phi theta psi : ℝ) : rotationZYX phi theta psi =
    !![cos psi * cos theta, cos psi * sin theta * sin phi - sin psi * cos phi, cos psi * sin theta * cos phi + sin psi * sin phi;
       sin psi * cos theta, sin psi * sin theta * sin phi + cos psi * cos phi, sin psi * sin theta * cos phi - cos psi * sin phi;
       -sin theta, cos theta * sin phi, cos theta * cos phi] := by
  unfold rotationZYX
  ext i j
  fin_cases i <;> fin_cases j <;> simp [Matrix.mul_apply, Fin.sum_univ_three] <;> ring

/-- **C74** For every motion whose attitude is given by differentiable Euler angles, away from the
singularity `cos theta = 0`: the body rotates at (p, q, r) if and only if the derivatives of its angles
are the rates computed by the server. -/
theorem euler_rates (phi theta psi : ℝ → ℝ) (t a b c p q r : ℝ) (hphi : HasDerivAt phi a t)
    (htheta : HasDerivAt theta b t) (hpsi : HasDerivAt psi c t) (hcos : cos (theta t) ≠ 0) :
    RotatesAt phi theta psi t p q r ↔ (a, b, c) = eulerRates (phi t) (theta t) p q r := by
  have d20 : HasDerivAt (fun s => -sin (theta s)) (-(cos (theta t) * b)) t := htheta.sin.neg
  have d21 : HasDerivAt (fun s => cos (theta s) * sin (phi s)) (-sin (theta t) * b * sin (phi t) + cos (theta t) * (cos (phi t) * a)) t :=
    htheta.cos.mul hphi.sin
  have d22 : HasDerivAt (fun s => cos (theta s) * cos (phi s)) (-sin (theta t) * b * cos (phi t) + cos (theta t) * (-sin (phi t) * a)) t :=
    htheta.cos.mul hphi.cos
  have d00 : HasDerivAt (fun s => cos (psi s) * cos (theta s)) (-sin (psi t) * c * cos (theta t) + cos (psi t) * (-sin (theta t) * b)) t :=
    hpsi.cos.mul htheta.cos
  have d10 : HasDerivAt (fun s => sin (psi s) * cos (theta s)) (cos (psi t) * c * cos (theta t) + sin (psi t) * (-sin (theta t) * b)) t :=
    hpsi.sin.mul htheta.cos
  have d01 := ((hpsi.cos.mul htheta.sin).mul hphi.sin).sub (hpsi.sin.mul hphi.cos)
  have d02 := ((hpsi.cos.mul htheta.sin).mul hphi.cos).add (hpsi.sin.mul hphi.sin)
  have d11 := ((hpsi.sin.mul htheta.sin).mul hphi.sin).add (hpsi.cos.mul hphi.cos)
  have d12 := ((hpsi.sin.mul htheta.sin).mul hphi.cos).sub (hpsi.cos.mul hphi.sin)
  have hp := sin_sq_add_cos_sq (phi t)
  have ht := sin_sq_add_cos_sq (theta t)
  have hs := sin_sq_add_cos_sq (psi t)
  constructor
  · intro h
    have h20 := h 2 0
    have h21 := h 2 1
    have h22 := h 2 2
    have h00 := h 0 0
    have h10 := h 1 0
    simp only [rotationZYX_eq] at h20 h21 h22 h00 h10
    simp [Matrix.mul_apply, Fin.sum_univ_three, skew] at h20 h21 h22 h00 h10
    have e20 := d20.unique h20
    have e21 := d21.unique h21
    have e22 := d22.unique h22
    have e00 := d00.unique h00
    have e10 := d10.unique h10
    have hb : b = cos (phi t) * q - sin (phi t) * r := by
      apply mul_left_cancel₀ hcos
      linear_combination -e20
    have ha : cos (theta t) * a = cos (theta t) * p + sin (phi t) * sin (theta t) * q + cos (phi t) * sin (theta t) * r := by
      subst hb
      linear_combination cos (phi t) * e21 - sin (phi t) * e22 + (cos (theta t) * p - cos (theta t) * a) * hp
    have hc : cos (theta t) * c = sin (phi t) * q + cos (phi t) * r := by
      subst hb
      linear_combination cos (psi t) * e10 - sin (psi t) * e00 + (sin (phi t) * q + cos (phi t) * r - cos (theta t) * c) * hs
    simp only [eulerRates, Prod.mk.injEq, tan_eq_sin_div_cos]
    refine ⟨?_, hb, ?_⟩
    · field_simp
      linear_combination ha
    · field_simp
      linear_combination hc
  · intro h
    simp only [eulerRates, Prod.mk.injEq, tan_eq_sin_div_cos] at h
    obtain ⟨ha, hb, hc⟩ := h
    have ha' : cos (theta t) * a = cos (theta t) * p + sin (phi t) * sin (theta t) * q + cos (phi t) * sin (theta t) * r := by
      rw [ha]; field_simp
    have hc' : cos (theta t) * c = sin (phi t) * q + cos (phi t) * r := by
      rw [hc]; field_simp
    have haq : a = p + sin (theta t) * c := by
      apply mul_left_cancel₀ hcos
      linear_combination ha' - sin (theta t) * hc'
    have hq : q = cos (phi t) * b + sin (phi t) * (cos (theta t) * c) := by
      rw [hc', hb]
      linear_combination (-q) * hp
    have hr : r = cos (phi t) * (cos (theta t) * c) - sin (phi t) * b := by
      rw [hc', hb]
      linear_combination (-r) * hp
    have hp' : p = a - sin (theta t) * c := by linear_combination -haq
    clear ha hb hc ha' hc' haq
    subst hp' hq hr
    intro i j
    fin_cases i <;> fin_cases j <;> simp only [rotationZYX_eq] <;>
      simp [Matrix.mul_apply, Fin.sum_univ_three, skew]
    · convert d00 using 1
      linear_combination (-cos (psi t) * sin (theta t) * b - sin (psi t) * cos (theta t) * c) * hp
    · refine d01.congr_deriv ?_
      simp only [Pi.mul_apply]
      linear_combination (cos (psi t) * cos (phi t) * c) * ht
    · refine d02.congr_deriv ?_
      simp only [Pi.mul_apply]
      linear_combination (-cos (psi t) * sin (phi t) * c) * ht
    · convert d10 using 1
      linear_combination (-sin (psi t) * sin (theta t) * b + cos (psi t) * cos (theta t) * c) * hp
    · refine d11.congr_deriv ?_
      simp only [Pi.mul_apply]
      linear_combination (sin (psi t) * cos (phi t) * c) * ht
    · refine d12.congr_deriv ?_
      simp only [Pi.mul_apply]
      linear_combination (-sin (psi t) * sin (phi t) * c) * ht
    · convert d20 using 1
      linear_combination (-cos (theta t) * b) * hp
    · convert d21 using 1
      linear_combination 0 * ht
    · convert d22 using 1
      linear_combination 0 * ht

/-- A steady turn in roll: the hypotheses and both sides are met. -/
example : RotatesAt (fun t => 2 * t) (fun _ => 0) (fun _ => 0) 1 2 0 0 := by
  have h : HasDerivAt (fun t : ℝ => 2 * t) 2 1 := by simpa using (hasDerivAt_id (1 : ℝ)).const_mul 2
  rw [euler_rates (fun t => 2 * t) (fun _ => 0) (fun _ => 0) 1 2 0 0 2 0 0 h (hasDerivAt_const _ _) (hasDerivAt_const _ _)
    (by simp)]
  simp [eulerRates]

end Xdyn.Server

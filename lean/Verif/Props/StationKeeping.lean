import Verif.Props.Translation
import Mathlib.Analysis.Complex.Exponential
import Mathlib.Analysis.SpecialFunctions.ExpDeriv
import Mathlib.Analysis.SpecialFunctions.Trigonometric.Deriv
import Mathlib.Analysis.SpecificLimits.Normed
import Mathlib.Analysis.Complex.Polynomial.Basic

/-! Properties C183 and C184: the station-keeping controller, from the commands to the observations. -/

namespace Xdyn.Sim

open Blocked Body Spec Solver

/-! ### The oscillator `e' = u`, `u' = -ω² e - 2 ξ ω u` -/

/-- The damped pulsation. -/
noncomputable def dampedPulsation (ksi w : ℝ) : ℝ := w * Real.sqrt (1 - ksi ^ 2)

/-- Distance to the target after the time `τ`, from the distance `e0` and the speed `u0`. -/
noncomputable def exactError (ksi w e0 u0 τ : ℝ) : ℝ :=
  Real.exp (-(ksi * w * τ)) * (e0 * Real.cos (dampedPulsation ksi w * τ) +
    (u0 + ksi * w * e0) / dampedPulsation ksi w * Real.sin (dampedPulsation ksi w * τ))

/-- Its speed. -/
noncomputable def exactRate (ksi w e0 u0 τ : ℝ) : ℝ :=
  Real.exp (-(ksi * w * τ)) * (u0 * Real.cos (dampedPulsation ksi w * τ) -
    (w ^ 2 * e0 + ksi * w * u0) / dampedPulsation ksi w * Real.sin (dampedPulsation ksi w * τ))

theorem dampedPulsation_pos {ksi w : ℝ} (hw : 0 < w) (h0 : 0 ≤ ksi) (h1 : ksi < 1) : 0 < dampedPulsation ksi w :=
  mul_pos hw (Real.sqrt_pos.2 (by nlinarith))

theorem dampedPulsation_sq {ksi w : ℝ} (h0 : 0 ≤ ksi) (h1 : ksi < 1) : dampedPulsation ksi w ^ 2 = w ^ 2 * (1 - ksi ^ 2) := by
  rw [dampedPulsation, mul_pow, Real.sq_sqrt (by nlinarith)]

/-- They are the solution of the second order equation with the damping and the pulsation asked for. -/
theorem exact_oscillation (ksi w e0 u0 τ : ℝ) (hw : 0 < w) (h0 : 0 ≤ ksi) (h1 : ksi < 1) :
    HasDerivAt (exactError ksi w e0 u0) (exactRate ksi w e0 u0 τ) τ ∧
      HasDerivAt (exactRate ksi w e0 u0) (-(w ^ 2 * exactError ksi w e0 u0 τ) - 2 * ksi * w * exactRate ksi w e0 u0 τ) τ ∧
      exactError ksi w e0 u0 0 = e0 ∧ exactRate ksi w e0 u0 0 = u0 := by
  have hd := (dampedPulsation_pos hw h0 h1).ne'
  have hsq := dampedPulsation_sq (w := w) h0 h1
  set d := dampedPulsation ksi w with hddef
  have he : HasDerivAt (fun τ => Real.exp (-(ksi * w * τ))) (Real.exp (-(ksi * w * τ)) * (-(ksi * w * 1))) τ :=
    (((hasDerivAt_id τ).const_mul (ksi * w)).neg).exp
  have hc : HasDerivAt (fun τ => Real.cos (d * τ)) (-Real.sin (d * τ) * (d * 1)) τ := ((hasDerivAt_id τ).const_mul d).cos
  have hs : HasDerivAt (fun τ => Real.sin (d * τ)) (Real.cos (d * τ) * (d * 1)) τ := ((hasDerivAt_id τ).const_mul d).sin
  refine ⟨?_, ?_, by simp [exactError], by simp [exactRate]⟩
  · have := he.mul ((hc.const_mul e0).add (hs.const_mul ((u0 + ksi * w * e0) / d)))
    refine HasDerivAt.congr_deriv (f' := _) this ?_
    simp only [exactRate, ← hddef, Pi.add_apply]
    generalize Real.exp (-(ksi * w * τ)) = r
    generalize Real.cos (d * τ) = C
    generalize Real.sin (d * τ) = S
    field_simp
    linear_combination (-r * e0 * S) * hsq
  · have := he.mul ((hc.const_mul u0).sub (hs.const_mul ((w ^ 2 * e0 + ksi * w * u0) / d)))
    refine HasDerivAt.congr_deriv (f' := _) this ?_
    simp only [exactRate, exactError, ← hddef, Pi.sub_apply]
    generalize Real.exp (-(ksi * w * τ)) = r
    generalize Real.cos (d * τ) = C
    generalize Real.sin (d * τ) = S
    field_simp
    linear_combination (-r * u0 * S) * hsq

/-- The root of `λ² + 2 ξ ω λ + ω²` above the real axis. -/
noncomputable def root (ksi w : ℝ) : ℂ := ⟨-(ksi * w), dampedPulsation ksi w⟩

/-- The mode of the oscillator for this root. -/
noncomputable def oscMode (ksi w e u : ℝ) : ℂ := ⟨u + ksi * w * e, dampedPulsation ksi w * e⟩

/-- Twice the energy per unit of mass, with a cross term that accounts for the damping. -/
def energy (ksi w e u : ℝ) : ℝ := w ^ 2 * e ^ 2 + 2 * ksi * w * e * u + u ^ 2

theorem oscMode_norm {ksi : ℝ} (w e u : ℝ) (h0 : 0 ≤ ksi) (h1 : ksi < 1) :
    ‖oscMode ksi w e u‖ ^ 2 = energy ksi w e u := by
  rw [← Complex.normSq_eq_norm_sq, Complex.normSq_apply, oscMode, energy]
  linear_combination (e ^ 2) * dampedPulsation_sq (w := w) h0 h1

theorem oscMode_rate {ksi : ℝ} (w e u : ℝ) (h0 : 0 ≤ ksi) (h1 : ksi < 1) :
    oscMode ksi w u (-(w ^ 2 * e) - 2 * ksi * w * u) = root ksi w * oscMode ksi w e u := by
  have h := dampedPulsation_sq (w := w) h0 h1
  apply Complex.ext
  · simp only [oscMode, root, Complex.mul_re]
    linear_combination (e) * h
  · simp only [oscMode, root, Complex.mul_im]
    ring

theorem oscMode_exact {ksi : ℝ} (w e0 u0 τ : ℝ) (hw : 0 < w) (h0 : 0 ≤ ksi) (h1 : ksi < 1) :
    oscMode ksi w (exactError ksi w e0 u0 τ) (exactRate ksi w e0 u0 τ) = Complex.exp (root ksi w * τ) * oscMode ksi w e0 u0 := by
  have hd := (dampedPulsation_pos hw h0 h1).ne'
  have hsq := dampedPulsation_sq (w := w) h0 h1
  have e1 : root ksi w * τ = ⟨-(ksi * w * τ), dampedPulsation ksi w * τ⟩ := by
    apply Complex.ext <;> simp [root]
  rw [e1]
  set d := dampedPulsation ksi w with hddef
  apply Complex.ext
  · rw [Complex.mul_re, Complex.exp_re, Complex.exp_im]
    simp only [oscMode, exactError, exactRate, ← hddef]
    generalize Real.exp (-(ksi * w * τ)) = r
    generalize Real.cos (d * τ) = C
    generalize Real.sin (d * τ) = S
    field_simp
    linear_combination (r * e0 * S) * hsq
  · rw [Complex.mul_im, Complex.exp_re, Complex.exp_im]
    simp only [oscMode, exactError, exactRate, ← hddef]
    generalize Real.exp (-(ksi * w * τ)) = r
    generalize Real.cos (d * τ) = C
    generalize Real.sin (d * τ) = S
    field_simp

/-- `euler` multiplies the energy by this factor at each step. -/
theorem euler_energy_factor {ksi : ℝ} (w dt : ℝ) (h0 : 0 ≤ ksi) (h1 : ksi < 1) :
    ‖eulerMode (root ksi w * dt)‖ ^ 2 = 1 - 2 * ksi * (w * dt) + (w * dt) ^ 2 := by
  rw [← Complex.normSq_eq_norm_sq, Complex.normSq_apply]
  simp only [eulerMode, root, Complex.add_re, Complex.add_im, Complex.mul_re, Complex.mul_im, Complex.one_re, Complex.one_im,
    Complex.ofReal_re, Complex.ofReal_im, mul_zero, sub_zero, zero_add]
  linear_combination (dt ^ 2) * dampedPulsation_sq (w := w) h0 h1

/-- Factor of `rk4` on the energy. -/
noncomputable def rk4Energy (s z : ℝ) : ℝ :=
  1 - s * z + (s * z) ^ 2 / 2 - (s * z) ^ 3 / 6 + (s * z) ^ 4 / 24 + (s - s ^ 3) * z ^ 5 / 24 + (s ^ 2 / 48 - 1 / 72) * z ^ 6 -
    s * z ^ 7 / 144 + z ^ 8 / 576

theorem rk4_energy_factor {ksi : ℝ} (w dt : ℝ) (h0 : 0 ≤ ksi) (h1 : ksi < 1) :
    ‖rk4Mode (root ksi w * dt)‖ ^ 2 = rk4Energy (2 * ksi) (w * dt) := by
  have hsq := dampedPulsation_sq (w := w) h0 h1
  set d := dampedPulsation ksi w with hddef
  have e2 : rk4Mode (root ksi w * dt) =
      ⟨1 - ksi * w * dt + ((ksi * w * dt) ^ 2 - (d * dt) ^ 2) / 2 + (-(ksi * w * dt) ^ 3 + 3 * (ksi * w * dt) * (d * dt) ^ 2) / 6 +
        ((ksi * w * dt) ^ 4 - 6 * (ksi * w * dt) ^ 2 * (d * dt) ^ 2 + (d * dt) ^ 4) / 24,
       (d * dt) * (1 - ksi * w * dt + (3 * (ksi * w * dt) ^ 2 - (d * dt) ^ 2) / 6 + (-4 * (ksi * w * dt) ^ 3 + 4 * (ksi * w * dt) * (d * dt) ^ 2) / 24)⟩ := by
    have e1 : root ksi w * dt = ((-(ksi * w * dt) : ℝ) : ℂ) + ((d * dt : ℝ) : ℂ) * Complex.I := by
      apply Complex.ext <;> simp [root, ← hddef]
    have hI2 : Complex.I ^ 2 = -1 := Complex.I_sq
    have hI3 : Complex.I ^ 3 = -Complex.I := by rw [pow_succ, hI2]; ring
    have hI4 : Complex.I ^ 4 = 1 := Complex.I_pow_four
    rw [e1]
    generalize ksi * w * dt = A
    generalize d * dt = B
    rw [Complex.mk_eq_add_mul_I, rk4Mode]
    push_cast
    linear_combination ((B : ℂ) ^ 2 / 2 - (A : ℂ) * B ^ 2 / 2 + (A : ℂ) ^ 2 * B ^ 2 / 4) * hI2 + ((B : ℂ) ^ 3 / 6 - (A : ℂ) * B ^ 3 / 6) * hI3 + ((B : ℂ) ^ 4 / 24) * hI4
  rw [e2, ← Complex.normSq_eq_norm_sq, Complex.normSq_apply, rk4Energy]
  have hB : (d * dt) ^ 2 = (w * dt) ^ 2 * (1 - ksi ^ 2) := by rw [mul_pow, hsq]; ring
  rw [show ksi * w * dt = ksi * (w * dt) by ring]
  generalize w * dt = z at *
  generalize d * dt = B at *
  have hB4 : B ^ 4 = (z ^ 2 * (1 - ksi ^ 2)) ^ 2 := by rw [← hB]; ring
  simp only [hB, hB4]
  rw [show ∀ C : ℝ, B * C * (B * C) = B ^ 2 * C ^ 2 by intro C; ring, hB]
  ring

theorem rk4Energy_lt (s z : ℝ) (hs : 0 ≤ s) (hs2 : s < 2) (hz : 0 < z) (hz1 : z ≤ 1) : rk4Energy s z < 1 := by
  have hw0 : 0 ≤ s * z := mul_nonneg hs hz.le
  have hw2 : s * z ≤ 2 := by nlinarith
  set w := s * z with hwdef
  have hb : 1 / 3 ≤ 1 - w / 2 + w ^ 2 / 6 - w ^ 3 / 24 := by nlinarith [sq_nonneg (w - 2), mul_nonneg hw0 (sub_nonneg.2 hw2)]
  have hz4 : z ^ 4 ≤ 1 := pow_le_one₀ hz.le hz1
  have hz40 : 0 < z ^ 4 := by positivity
  have hz6 : 0 < z ^ 6 := by positivity
  have hz8 : z ^ 8 ≤ z ^ 6 := pow_le_pow_of_le_one hz.le hz1 (by norm_num)
  have hz7 : 0 ≤ s * z ^ 7 := by positivity
  have h3 : 0 ≤ s ^ 3 * z ^ 5 := by positivity
  have e : rk4Energy s z = 1 - w * (1 - w / 2 + w ^ 2 / 6 - w ^ 3 / 24) + w * z ^ 4 / 24 - s ^ 3 * z ^ 5 / 24 + w * w * z ^ 4 / 48 - z ^ 6 / 72 -
      s * z ^ 7 / 144 + z ^ 8 / 576 := by rw [rk4Energy, hwdef]; ring
  have h1 : w * z ^ 4 ≤ w := by nlinarith
  have h2 : w * w * z ^ 4 ≤ 2 * w := by nlinarith [mul_nonneg hw0 hw0]
  have h4 : w * (1 / 3) ≤ w * (1 - w / 2 + w ^ 2 / 6 - w ^ 3 / 24) := mul_le_mul_of_nonneg_left hb hw0
  rw [e]
  linarith

theorem root_norm {ksi w : ℝ} (hw : 0 < w) (h0 : 0 ≤ ksi) (h1 : ksi < 1) : ‖root ksi w‖ = w := by
  have : ‖root ksi w‖ ^ 2 = w ^ 2 := by
    rw [← Complex.normSq_eq_norm_sq, Complex.normSq_apply, root]
    linear_combination dampedPulsation_sq (w := w) h0 h1
  exact (sq_eq_sq₀ (norm_nonneg _) hw.le).1 this

theorem rk4_mode_exp (z : ℂ) (h : ‖z‖ ≤ 1) : ‖rk4Mode z - Complex.exp z‖ ≤ ‖z‖ ^ 5 / 100 := by
  have := Complex.exp_bound (x := z) (n := 5) h (by norm_num)
  rw [norm_sub_rev]
  simp [Finset.sum_range_succ, Nat.factorial] at this
  rw [rk4Mode]
  convert this using 2
  norm_num
  ring

theorem norm_pow_sub_pow_le (a b : ℂ) (ha : ‖a‖ ≤ 1) (hb : ‖b‖ ≤ 1) : ∀ i : Nat, ‖a ^ i - b ^ i‖ ≤ i * ‖a - b‖
  | 0 => by simp
  | i + 1 => by
    have h := norm_pow_sub_pow_le a b ha hb i
    have e : a ^ (i + 1) - b ^ (i + 1) = a * (a ^ i - b ^ i) + (a - b) * b ^ i := by ring
    rw [e]
    push_cast
    calc ‖a * (a ^ i - b ^ i) + (a - b) * b ^ i‖ ≤ ‖a * (a ^ i - b ^ i)‖ + ‖(a - b) * b ^ i‖ := norm_add_le _ _
      _ = ‖a‖ * ‖a ^ i - b ^ i‖ + ‖a - b‖ * ‖b‖ ^ i := by rw [norm_mul, norm_mul, norm_pow]
      _ ≤ 1 * (i * ‖a - b‖) + ‖a - b‖ * 1 := by
        gcongr
        exact pow_le_one₀ (norm_nonneg b) hb
      _ = (i + 1) * ‖a - b‖ := by ring

theorem error_le_mode {ksi w : ℝ} (e u : ℝ) (hw : 0 < w) (h0 : 0 ≤ ksi) (h1 : ksi < 1) :
    |e| ≤ ‖oscMode ksi w e u‖ / dampedPulsation ksi w := by
  have hd := dampedPulsation_pos hw h0 h1
  rw [le_div_iff₀ hd]
  have := Complex.abs_im_le_norm (oscMode ksi w e u)
  rw [show (oscMode ksi w e u).im = dampedPulsation ksi w * e from rfl, abs_mul, abs_of_pos hd] at this
  linarith

theorem oscMode_sub (ksi w e u e' u' : ℝ) : oscMode ksi w (e - e') (u - u') = oscMode ksi w e u - oscMode ksi w e' u' := by
  apply Complex.ext <;> simp [oscMode] <;> ring

/-- The error of `rk4`. -/
theorem rk4_oscillation {ksi w dt : ℝ} (hw : 0 < w) (h0 : 0 ≤ ksi) (h1 : ksi < 1) (hdt : 0 < dt) (hz : w * dt ≤ 1) (e0 u0 e u : ℝ) (i : Nat)
    (h : oscMode ksi w e u = rk4Mode (root ksi w * dt) ^ i * oscMode ksi w e0 u0) :
    |e - exactError ksi w e0 u0 (i * dt)| ≤
      w * (i * dt) * (w * dt) ^ 4 / 100 * Real.sqrt (energy ksi w e0 u0) / dampedPulsation ksi w := by
  have hd := dampedPulsation_pos hw h0 h1
  refine (error_le_mode (w := w) _ (u - exactRate ksi w e0 u0 (i * dt)) hw h0 h1).trans ?_
  rw [oscMode_sub, oscMode_exact w e0 u0 _ hw h0 h1, h, ← sub_mul, norm_mul]
  have hz0 : 0 < w * dt := mul_pos hw hdt
  have hn : ‖root ksi w * dt‖ = w * dt := by rw [norm_mul, root_norm hw h0 h1, Complex.norm_real, Real.norm_of_nonneg hdt.le]
  have hexp : Complex.exp (root ksi w * ((i * dt : ℝ) : ℂ)) = Complex.exp (root ksi w * dt) ^ i := by
    rw [← Complex.exp_nat_mul]
    congr 1
    push_cast; ring
  have hb : ‖Complex.exp (root ksi w * dt)‖ ≤ 1 := by
    rw [Complex.norm_exp]
    refine Real.exp_le_one_iff.2 ?_
    simp only [root, Complex.mul_re, Complex.ofReal_re, Complex.ofReal_im, mul_zero, sub_zero]
    have : 0 ≤ ksi * w * dt := by positivity
    linarith
  have ha : ‖rk4Mode (root ksi w * dt)‖ ≤ 1 := by
    have := rk4Energy_lt (2 * ksi) (w * dt) (by linarith) (by linarith) hz0 hz
    rw [← rk4_energy_factor w dt h0 h1] at this
    exact (abs_le_of_sq_le_sq' (by linarith) zero_le_one).2
  have hE : ‖rk4Mode (root ksi w * dt) ^ i - Complex.exp (root ksi w * ((i * dt : ℝ) : ℂ))‖ ≤ w * (i * dt) * (w * dt) ^ 4 / 100 := by
    rw [hexp]
    refine (norm_pow_sub_pow_le _ _ ha hb i).trans ?_
    have := mul_le_mul_of_nonneg_left (rk4_mode_exp (root ksi w * dt) (by rw [hn]; exact hz)) (Nat.cast_nonneg (α := ℝ) i)
    rw [hn] at this
    refine this.trans (le_of_eq ?_)
    ring
  have hV : ‖oscMode ksi w e0 u0‖ = Real.sqrt (energy ksi w e0 u0) := by
    rw [← oscMode_norm w e0 u0 h0 h1, Real.sqrt_sq (norm_nonneg _)]
  rw [hV]
  gcongr

theorem mode_energy {ksi : ℝ} (w e0 u0 e u : ℝ) (h0 : 0 ≤ ksi) (h1 : ksi < 1) (i : Nat) (z : ℂ)
    (h : oscMode ksi w e u = z ^ i * oscMode ksi w e0 u0) : energy ksi w e u = (‖z‖ ^ 2) ^ i * energy ksi w e0 u0 := by
  rw [← oscMode_norm w e u h0 h1, ← oscMode_norm w e0 u0 h0 h1, h, norm_mul, norm_pow]
  ring

/-- The energy bounds the distance to the target and the speed. -/
theorem energy_bounds {ksi : ℝ} (w e u : ℝ) (h0 : 0 ≤ ksi) (h1 : ksi < 1) :
    (1 - ksi) * ((w * e) ^ 2 + u ^ 2) ≤ energy ksi w e u ∧ energy ksi w e u ≤ (1 + ksi) * ((w * e) ^ 2 + u ^ 2) := by
  rw [energy]
  constructor <;> nlinarith [mul_nonneg h0 (sq_nonneg (w * e + u)), mul_nonneg h0 (sq_nonneg (w * e - u))]

/-! ### The controller -/

/-- A body with the station-keeping controller `c`, ordered to go to `xCo`, `yCo` with the heading that it has: its other forces
balance each other when it does not turn, its centre of gravity is the origin of its axes and its inertia `M` (with added mass)
does not couple surge and sway with the other motions. -/
structure Kept (e : Multi.Entry ℝ) (l : List Push) (M : Mat6 ℝ) (psiOf : Mat3 ℝ → ℝ) (c : StationKeeper) (cmd : Commands ℝ)
    (xCo yCo : ℝ) (q : Quat ℝ) : Prop extends Alone e where
  inverse : e.body.Minv * M = 1
  forces : e.forces = l.map (Push.model e.body)
  balanced : ∀ v, resultant e.body l v 0 q = 0
  controlled : e.controlled = [stationKeepingModel e.body M psiOf c]
  xCommand : cmd (c.name ++ "(x_co)") = some xCo
  yCommand : cmd (c.name ++ "(y_co)") = some yCo
  psiCommand : cmd (c.name ++ "(psi_co)") = some (psiOf q.matrix)
  centre : e.body.G = 0
  surge : ∀ i, M i 0 = if i = 0 then M 0 0 else 0
  sway : ∀ i, M i 1 = if i = 1 then M 1 1 else 0

/-- Acceleration that the controller is meant to give. -/
noncomputable def keeperAcceleration (c : StationKeeper) (xCo yCo : ℝ) (P v : Vec3 ℝ) : Vec3 ℝ :=
  ![(2 * Real.pi / c.TX) ^ 2 * (xCo - P 0) - 2 * c.ksiX * (2 * Real.pi / c.TX) * v 0,
    (2 * Real.pi / c.TY) ^ 2 * (yCo - P 1) - 2 * c.ksiY * (2 * Real.pi / c.TY) * v 1, 0]

theorem kept_translating {e : Multi.Entry ℝ} {l : List Push} {M : Mat6 ℝ} {psiOf : Mat3 ℝ → ℝ} {c : StationKeeper} {cmd : Commands ℝ}
    {xCo yCo : ℝ} {q : Quat ℝ} (he : Kept e l M psiOf c cmd xCo yCo q) :
    Translating e l [.stationKeeping M psiOf c xCo yCo (psiOf q.matrix)] cmd M (keeperAcceleration c xCo yCo) q where
  toAlone := he.toAlone
  inverse := he.inverse
  forces := he.forces
  controlled := by rw [he.controlled]; rfl
  commanded := by
    intro c' hc
    rw [List.mem_singleton.1 hc]
    exact ⟨he.xCommand, he.yCommand, he.psiCommand⟩
  law := by
    intro P v
    rw [total, he.balanced, he.centre]
    funext i
    simp only [Matrix.mulVec, dotProduct, Fin.sum_univ_six]
    rw [he.surge i, he.sway i]
    simp only [Multi.toVector, List.map_cons, List.map_nil, List.sum_cons,
      List.sum_nil, add_zero, zero_add, Control.wrench, keeperForce, keeperAcceleration]
    fin_cases i <;> simp [cross]

/-- The mode of the motion along x, when the axes of the body are those of NED. -/
theorem x_mode (c : StationKeeper) (xCo yCo : ℝ) (h0 : 0 ≤ c.ksiX) (h1 : c.ksiX < 1) :
    Mode 1 (keeperAcceleration c xCo yCo) (root c.ksiX (2 * Real.pi / c.TX))
      (fun P v => oscMode c.ksiX (2 * Real.pi / c.TX) (P 0 - xCo) (v 0)) (fun P v => oscMode c.ksiX (2 * Real.pi / c.TX) (P 0) (v 0)) where
  affine P v P' v' k := by
    apply Complex.ext <;> simp [oscMode] <;> ring
  rate P v := by
    rw [← oscMode_rate _ _ _ h0 h1]
    simp only [Matrix.one_mulVec, keeperAcceleration, Matrix.cons_val_zero]
    congr 1
    ring

theorem y_mode (c : StationKeeper) (xCo yCo : ℝ) (h0 : 0 ≤ c.ksiY) (h1 : c.ksiY < 1) :
    Mode 1 (keeperAcceleration c xCo yCo) (root c.ksiY (2 * Real.pi / c.TY))
      (fun P v => oscMode c.ksiY (2 * Real.pi / c.TY) (P 1 - yCo) (v 1)) (fun P v => oscMode c.ksiY (2 * Real.pi / c.TY) (P 1) (v 1)) where
  affine P v P' v' k := by
    apply Complex.ext <;> simp [oscMode] <;> ring
  rate P v := by
    rw [← oscMode_rate _ _ _ h0 h1]
    simp only [Matrix.one_mulVec, keeperAcceleration, Matrix.cons_val_one, Matrix.cons_val_zero]
    congr 1
    ring

/-- **C183** With `rk4`, a body whose axes are those of NED (heading 0) and which is ordered to go to `xCo`, `yCo` does so: whatever its
position and its velocity, with damping coefficients less than one and a time step less than the periods over `2 π`, the
simulation goes to the end, the body does not turn, and its coordinates are those of damped oscillators with the periods and the
damping coefficients of the controller, up to an error in the fourth power of the time step. -/
theorem station_keeping_rk4 {e : Multi.Entry ℝ} {l : List Push} {M : Mat6 ℝ} {psiOf : Mat3 ℝ → ℝ} {c : StationKeeper}
    {xCo yCo : ℝ} {q : Quat ℝ} (s : Sim ℝ (Vec3 ℝ × Vec3 ℝ)) (he : Kept e l M psiOf c s.commands xCo yCo q) (hq : Unit4 q) (hR : q.matrix = 1)
    (hx0 : 0 ≤ c.ksiX) (hx1 : c.ksiX < 1) (hTX : 0 < c.TX) (hy0 : 0 ≤ c.ksiY) (hy1 : c.ksiY < 1) (hTY : 0 < c.TY)
    (ae : Nat → ℝ → ℝ → Bool) (hae : ∀ n a, ae n a a = true) (ae1 : ℝ → Bool) (P0 v0 : Vec3 ℝ) (hs : s.state = vec13 P0 v0 0 q)
    (h0 : ∀ n, (field s.hist n).Tmax = 0) (tstart tend dt : ℝ) (hdt : 0 < dt) (hh : NotAfter ae s.hist tstart)
    (N : Nat) (hN : tend ≤ tstart + N * dt) (hfirst : ∀ i < N, tstart + (i : ℝ) * dt < tend) (fuel : Nat) (hf : N ≤ fuel)
    (hzx : 2 * Real.pi / c.TX * dt ≤ 1) (hzy : 2 * Real.pi / c.TY * dt ≤ 1) :
    ∃ s' obs, quicksolve (simSystem (oneBody e ae ae1) rk4Method.stepper) fuel s tstart tend dt = some (.ok (s', obs)) ∧
      obs.length = N + 1 ∧ ∀ (i : Nat) (hi : i < obs.length), obs[i].t = tstart + i * dt ∧ ∃ P v, obs[i].x = vec13 P v 0 q ∧
        |P 0 - (xCo + exactError c.ksiX (2 * Real.pi / c.TX) (P0 0 - xCo) (v0 0) (i * dt))| ≤
          2 * Real.pi / c.TX * (i * dt) * (2 * Real.pi / c.TX * dt) ^ 4 / 100 *
            Real.sqrt (energy c.ksiX (2 * Real.pi / c.TX) (P0 0 - xCo) (v0 0)) / dampedPulsation c.ksiX (2 * Real.pi / c.TX) ∧
        |P 1 - (yCo + exactError c.ksiY (2 * Real.pi / c.TY) (P0 1 - yCo) (v0 1) (i * dt))| ≤
          2 * Real.pi / c.TY * (i * dt) * (2 * Real.pi / c.TY * dt) ^ 4 / 100 *
            Real.sqrt (energy c.ksiY (2 * Real.pi / c.TY) (P0 1 - yCo) (v0 1)) / dampedPulsation c.ksiY (2 * Real.pi / c.TY) := by
  obtain ⟨s', obs, a1, a2, a3⟩ := translates s (kept_translating he) hq ae hae ae1 rk4Method rk4_forward P0 v0 hs h0 tstart tend dt hdt hh N hN
    hfirst fuel hf
  refine ⟨s', obs, a1, a2, fun i hi => ?_⟩
  obtain ⟨a4, P, v, a5, a6⟩ := a3 i hi
  rw [hR] at a5
  have hpi := Real.pi_pos
  refine ⟨a4, P, v, a6, ?_, ?_⟩
  · rw [← sub_sub]
    exact rk4_oscillation (by positivity) hx0 hx1 hdt hzx _ _ _ _ i (mode_rk4 (x_mode c xCo yCo hx0 hx1) P0 v0 tstart dt i P v a5)
  · rw [← sub_sub]
    exact rk4_oscillation (by positivity) hy0 hy1 hdt hzy _ _ _ _ i (mode_rk4 (y_mode c xCo yCo hy0 hy1) P0 v0 tstart dt i P v a5)

/-- **C183** The energy of the motion along x is multiplied at each step by exactly the same factor: `1 - 2 ξ z + z²` with `euler`, where
`z = 2 π dt / T` (it grows, and the body never stops, when `z > 2 ξ`), and `rk4Energy (2 ξ) z`, which is less than one, with
`rk4`. -/
theorem station_keeping_energy {e : Multi.Entry ℝ} {l : List Push} {M : Mat6 ℝ} {psiOf : Mat3 ℝ → ℝ} {c : StationKeeper}
    {xCo yCo : ℝ} {q : Quat ℝ} (s : Sim ℝ (Vec3 ℝ × Vec3 ℝ)) (he : Kept e l M psiOf c s.commands xCo yCo q) (hq : Unit4 q) (hR : q.matrix = 1)
    (hx0 : 0 ≤ c.ksiX) (hx1 : c.ksiX < 1) (hy0 : 0 ≤ c.ksiY) (hy1 : c.ksiY < 1)
    (ae : Nat → ℝ → ℝ → Bool) (hae : ∀ n a, ae n a a = true) (ae1 : ℝ → Bool) (P0 v0 : Vec3 ℝ) (hs : s.state = vec13 P0 v0 0 q)
    (h0 : ∀ n, (field s.hist n).Tmax = 0) (tstart tend dt : ℝ) (hdt : 0 < dt) (hh : NotAfter ae s.hist tstart)
    (N : Nat) (hN : tend ≤ tstart + N * dt) (hfirst : ∀ i < N, tstart + (i : ℝ) * dt < tend) (fuel : Nat) (hf : N ≤ fuel)
    (T : Tableau ℝ) (φ : ℝ → ℝ → ℝ)
    (hT : T = eulerMethod ∧ (φ = fun ksi z => 1 - 2 * ksi * z + z ^ 2) ∨ T = rk4Method ∧ (φ = fun ksi z => rk4Energy (2 * ksi) z)) :
    ∃ s' obs, quicksolve (simSystem (oneBody e ae ae1) T.stepper) fuel s tstart tend dt = some (.ok (s', obs)) ∧
      obs.length = N + 1 ∧ ∀ (i : Nat) (hi : i < obs.length), obs[i].t = tstart + i * dt ∧ ∃ P v, obs[i].x = vec13 P v 0 q ∧
        energy c.ksiX (2 * Real.pi / c.TX) (P 0 - xCo) (v 0) =
          φ c.ksiX (2 * Real.pi / c.TX * dt) ^ i * energy c.ksiX (2 * Real.pi / c.TX) (P0 0 - xCo) (v0 0) ∧
        energy c.ksiY (2 * Real.pi / c.TY) (P 1 - yCo) (v 1) =
          φ c.ksiY (2 * Real.pi / c.TY * dt) ^ i * energy c.ksiY (2 * Real.pi / c.TY) (P0 1 - yCo) (v0 1) := by
  have hF : Forward T := by rcases hT with ⟨rfl, -⟩ | ⟨rfl, -⟩; exacts [euler_forward, rk4_forward]
  obtain ⟨s', obs, a1, a2, a3⟩ := translates s (kept_translating he) hq ae hae ae1 T hF P0 v0 hs h0 tstart tend dt hdt hh N hN
    hfirst fuel hf
  refine ⟨s', obs, a1, a2, fun i hi => ?_⟩
  obtain ⟨a4, P, v, a5, a6⟩ := a3 i hi
  rw [hR] at a5
  refine ⟨a4, P, v, a6, ?_⟩
  rcases hT with ⟨rfl, rfl⟩ | ⟨rfl, rfl⟩
  · simp only [← euler_energy_factor _ _ hx0 hx1, ← euler_energy_factor _ _ hy0 hy1]
    exact ⟨mode_energy _ _ _ _ _ hx0 hx1 i _ (mode_euler (x_mode c xCo yCo hx0 hx1) P0 v0 tstart dt i P v a5),
      mode_energy _ _ _ _ _ hy0 hy1 i _ (mode_euler (y_mode c xCo yCo hy0 hy1) P0 v0 tstart dt i P v a5)⟩
  · simp only [← rk4_energy_factor _ _ hx0 hx1, ← rk4_energy_factor _ _ hy0 hy1]
    exact ⟨mode_energy _ _ _ _ _ hx0 hx1 i _ (mode_rk4 (x_mode c xCo yCo hx0 hx1) P0 v0 tstart dt i P v a5),
      mode_energy _ _ _ _ _ hy0 hy1 i _ (mode_rk4 (y_mode c xCo yCo hy0 hy1) P0 v0 tstart dt i P v a5)⟩

theorem energy_nonneg {ksi : ℝ} (w e u : ℝ) (h0 : 0 ≤ ksi) (h1 : ksi < 1) : 0 ≤ energy ksi w e u := by
  rw [← oscMode_norm w e u h0 h1]; positivity

theorem energy_pos {ksi w : ℝ} (e u : ℝ) (hw : 0 < w) (h0 : 0 ≤ ksi) (h1 : ksi < 1) (h : e ≠ 0 ∨ u ≠ 0) : 0 < energy ksi w e u := by
  refine lt_of_lt_of_le (mul_pos (by linarith) ?_) (energy_bounds w e u h0 h1).1
  rcases h with h | h
  · have : 0 < (w * e) ^ 2 := by positivity
    positivity
  · positivity

/-- A small energy makes a small error. -/
theorem error_of_energy {ksi w ε : ℝ} (e u : ℝ) (hw : 0 < w) (h0 : 0 ≤ ksi) (h1 : ksi < 1) (hε : 0 < ε)
    (h : energy ksi w e u < (1 - ksi) * (w * ε) ^ 2) : |e| < ε := by
  have hb := (energy_bounds w e u h0 h1).1
  have hk : 0 < 1 - ksi := by linarith
  have h2 : (w * e) ^ 2 < (w * ε) ^ 2 := by
    have := lt_of_le_of_lt hb h
    have := lt_of_mul_lt_mul_left this hk.le
    nlinarith [sq_nonneg u]
  rw [mul_pow, mul_pow] at h2
  have := lt_of_mul_lt_mul_left h2 (by positivity)
  exact abs_lt_of_sq_lt_sq this hε.le

/-- **C183** With `rk4` (and a time step less than the periods over `2 π`), or with `euler` and a time step such that `2 π dt / T < 2 ξ`, the body
comes as near to its target as one wants and stays there. -/
theorem station_keeping_converges {e : Multi.Entry ℝ} {l : List Push} {M : Mat6 ℝ} {psiOf : Mat3 ℝ → ℝ} {c : StationKeeper}
    {xCo yCo : ℝ} {q : Quat ℝ} (s : Sim ℝ (Vec3 ℝ × Vec3 ℝ)) (he : Kept e l M psiOf c s.commands xCo yCo q) (hq : Unit4 q) (hR : q.matrix = 1)
    (hx0 : 0 ≤ c.ksiX) (hx1 : c.ksiX < 1) (hTX : 0 < c.TX) (hy0 : 0 ≤ c.ksiY) (hy1 : c.ksiY < 1) (hTY : 0 < c.TY)
    (ae : Nat → ℝ → ℝ → Bool) (hae : ∀ n a, ae n a a = true) (ae1 : ℝ → Bool) (P0 v0 : Vec3 ℝ) (hs : s.state = vec13 P0 v0 0 q)
    (h0 : ∀ n, (field s.hist n).Tmax = 0) (tstart dt : ℝ) (hdt : 0 < dt) (hh : NotAfter ae s.hist tstart) (T : Tableau ℝ)
    (hT : T = eulerMethod ∧ 2 * Real.pi / c.TX * dt < 2 * c.ksiX ∧ 2 * Real.pi / c.TY * dt < 2 * c.ksiY ∨
      T = rk4Method ∧ 2 * Real.pi / c.TX * dt ≤ 1 ∧ 2 * Real.pi / c.TY * dt ≤ 1) (ε : ℝ) (hε : 0 < ε) :
    ∃ n : Nat, ∀ (tend : ℝ) (N : Nat), tend ≤ tstart + N * dt → (∀ i < N, tstart + (i : ℝ) * dt < tend) →
      ∀ fuel, N ≤ fuel →
      ∃ s' obs, quicksolve (simSystem (oneBody e ae ae1) T.stepper) fuel s tstart tend dt = some (.ok (s', obs)) ∧
        obs.length = N + 1 ∧ ∀ (i : Nat) (hi : i < obs.length), n ≤ i →
          ∃ P v, obs[i].x = vec13 P v 0 q ∧ |P 0 - xCo| < ε ∧ |P 1 - yCo| < ε := by
  have hpi := Real.pi_pos
  have hwx : 0 < 2 * Real.pi / c.TX := by positivity
  have hwy : 0 < 2 * Real.pi / c.TY := by positivity
  set wx := 2 * Real.pi / c.TX with hwxdef
  set wy := 2 * Real.pi / c.TY with hwydef
  obtain ⟨φ, hφ, fx0, fx, fy0, fy⟩ : ∃ φ : ℝ → ℝ → ℝ,
      (T = eulerMethod ∧ (φ = fun ksi z => 1 - 2 * ksi * z + z ^ 2) ∨ T = rk4Method ∧ (φ = fun ksi z => rk4Energy (2 * ksi) z)) ∧
      0 ≤ φ c.ksiX (wx * dt) ∧ φ c.ksiX (wx * dt) < 1 ∧ 0 ≤ φ c.ksiY (wy * dt) ∧ φ c.ksiY (wy * dt) < 1 := by
    have zx : 0 < wx * dt := mul_pos hwx hdt
    have zy : 0 < wy * dt := mul_pos hwy hdt
    rcases hT with ⟨h1, h2, h3⟩ | ⟨h1, h2, h3⟩
    · refine ⟨_, Or.inl ⟨h1, rfl⟩, ?_, ?_, ?_, ?_⟩
      · simp only [← euler_energy_factor _ _ hx0 hx1]; positivity
      · show 1 - 2 * c.ksiX * (wx * dt) + (wx * dt) ^ 2 < 1
        nlinarith
      · simp only [← euler_energy_factor _ _ hy0 hy1]; positivity
      · show 1 - 2 * c.ksiY * (wy * dt) + (wy * dt) ^ 2 < 1
        nlinarith
    · refine ⟨_, Or.inr ⟨h1, rfl⟩, ?_, ?_, ?_, ?_⟩
      · simp only [← rk4_energy_factor _ _ hx0 hx1]; positivity
      · exact rk4Energy_lt _ _ (by linarith) (by linarith) zx h2
      · simp only [← rk4_energy_factor _ _ hy0 hy1]; positivity
      · exact rk4Energy_lt _ _ (by linarith) (by linarith) zy h3
  have small : ∀ r V δ : ℝ, 0 ≤ r → r < 1 → 0 < δ → ∃ n : Nat, ∀ i, n ≤ i → r ^ i * V < δ := by
    intro r V δ hr hr1 hδ
    have : Filter.Tendsto (fun i : ℕ => r ^ i * V) Filter.atTop (nhds (0 * V)) := (tendsto_pow_atTop_nhds_zero_of_lt_one hr hr1).mul_const V
    rw [zero_mul] at this
    exact Filter.eventually_atTop.1 (this.eventually (gt_mem_nhds hδ))
  obtain ⟨nx, hnx⟩ := small _ (energy c.ksiX wx (P0 0 - xCo) (v0 0)) ((1 - c.ksiX) * (wx * ε) ^ 2) fx0 fx (mul_pos (by linarith) (by positivity))
  obtain ⟨ny, hny⟩ := small _ (energy c.ksiY wy (P0 1 - yCo) (v0 1)) ((1 - c.ksiY) * (wy * ε) ^ 2) fy0 fy (mul_pos (by linarith) (by positivity))
  refine ⟨max nx ny, fun tend N hN hfirst fuel hf => ?_⟩
  obtain ⟨s', obs, a1, a2, a3⟩ := station_keeping_energy s he hq hR hx0 hx1 hy0 hy1 ae hae ae1 P0 v0 hs h0 tstart tend dt hdt hh N hN
    hfirst fuel hf T φ hφ
  refine ⟨s', obs, a1, a2, fun i hi hni => ?_⟩
  obtain ⟨-, P, v, a4, a5, a6⟩ := a3 i hi
  refine ⟨P, v, a4, error_of_energy _ (v 0) hwx hx0 hx1 hε ?_, error_of_energy _ (v 1) hwy hy0 hy1 hε ?_⟩
  · rw [a5]; exact hnx i (le_trans (le_max_left _ _) hni)
  · rw [a6]; exact hny i (le_trans (le_max_right _ _) hni)

/-- **C183** With `euler` and a time step such that `2 π dt / T > 2 ξ` (any time step when the controller has no damping), a body which is not at rest on its
target goes away from it: its energy exceeds any bound. -/
theorem station_keeping_euler_diverges {e : Multi.Entry ℝ} {l : List Push} {M : Mat6 ℝ} {psiOf : Mat3 ℝ → ℝ} {c : StationKeeper}
    {xCo yCo : ℝ} {q : Quat ℝ} (s : Sim ℝ (Vec3 ℝ × Vec3 ℝ)) (he : Kept e l M psiOf c s.commands xCo yCo q) (hq : Unit4 q) (hR : q.matrix = 1)
    (hx0 : 0 ≤ c.ksiX) (hx1 : c.ksiX < 1) (hTX : 0 < c.TX) (hy0 : 0 ≤ c.ksiY) (hy1 : c.ksiY < 1)
    (ae : Nat → ℝ → ℝ → Bool) (hae : ∀ n a, ae n a a = true) (ae1 : ℝ → Bool) (P0 v0 : Vec3 ℝ) (hs : s.state = vec13 P0 v0 0 q)
    (hv : P0 0 ≠ xCo ∨ v0 0 ≠ 0)
    (h0 : ∀ n, (field s.hist n).Tmax = 0) (tstart dt : ℝ) (hdt : 0 < dt) (hh : NotAfter ae s.hist tstart)
    (hz : 2 * c.ksiX < 2 * Real.pi / c.TX * dt) (B : ℝ) :
    ∃ n : Nat, ∀ (tend : ℝ) (N : Nat), tend ≤ tstart + N * dt → (∀ i < N, tstart + (i : ℝ) * dt < tend) →
      ∀ fuel, N ≤ fuel →
      ∃ s' obs, quicksolve (simSystem (oneBody e ae ae1) eulerMethod.stepper) fuel s tstart tend dt = some (.ok (s', obs)) ∧
        obs.length = N + 1 ∧ ∀ (i : Nat) (hi : i < obs.length), n ≤ i →
          ∃ P v, obs[i].x = vec13 P v 0 q ∧ B < (2 * Real.pi / c.TX * (P 0 - xCo)) ^ 2 + v 0 ^ 2 := by
  have hpi := Real.pi_pos
  have hwx : 0 < 2 * Real.pi / c.TX := by positivity
  set wx := 2 * Real.pi / c.TX with hwxdef
  have zx : 0 < wx * dt := mul_pos hwx hdt
  have hr : 1 < 1 - 2 * c.ksiX * (wx * dt) + (wx * dt) ^ 2 := by nlinarith
  have hV : 0 < energy c.ksiX wx (P0 0 - xCo) (v0 0) := energy_pos _ _ hwx hx0 hx1 (hv.imp sub_ne_zero.2 id)
  have hgrow : Filter.Tendsto (fun i : ℕ => (1 - 2 * c.ksiX * (wx * dt) + (wx * dt) ^ 2) ^ i * energy c.ksiX wx (P0 0 - xCo) (v0 0))
      Filter.atTop Filter.atTop := (tendsto_pow_atTop_atTop_of_one_lt hr).atTop_mul_const hV
  obtain ⟨n, hn⟩ := Filter.eventually_atTop.1 (hgrow.eventually (Filter.eventually_gt_atTop (2 * |B|)))
  refine ⟨n, fun tend N hN hfirst fuel hf => ?_⟩
  obtain ⟨s', obs, a1, a2, a3⟩ := station_keeping_energy s he hq hR hx0 hx1 hy0 hy1 ae hae ae1 P0 v0 hs h0 tstart tend dt hdt hh N hN
    hfirst fuel hf eulerMethod _ (Or.inl ⟨rfl, rfl⟩)
  refine ⟨s', obs, a1, a2, fun i hi hni => ?_⟩
  obtain ⟨-, P, v, a4, a5, -⟩ := a3 i hi
  refine ⟨P, v, a4, ?_⟩
  have h1 := hn i hni
  have h2 := (energy_bounds wx (P 0 - xCo) (v 0) hx0 hx1).2
  rw [a5] at h2
  have h3 : 0 ≤ (wx * (P 0 - xCo)) ^ 2 + (v 0) ^ 2 := by positivity
  have h4 : (1 + c.ksiX) * ((wx * (P 0 - xCo)) ^ 2 + (v 0) ^ 2) ≤ 2 * ((wx * (P 0 - xCo)) ^ 2 + (v 0) ^ 2) :=
    mul_le_mul_of_nonneg_right (by linarith) h3
  have h5 := le_abs_self B
  change 2 * |B| < (1 - 2 * c.ksiX * (wx * dt) + (wx * dt) ^ 2) ^ i * energy c.ksiX wx (P0 0 - xCo) (v0 0) at h1
  linarith

/-! ### C184: other headings -/

/-- A body that floats upright: its third axis is vertical, and its first one makes an angle of cosine `C` and of sine `S` with
the north. -/
def Upright (q : Quat ℝ) (C S : ℝ) : Prop := q.matrix = !![C, -S, 0; S, C, 0; 0, 0, 1]

/-- The mode of the motion of an upright body whose controller has the same damping and period in surge and in sway. -/
theorem yaw_mode (c : StationKeeper) (xCo yCo : ℝ) (hk : c.ksiY = c.ksiX) (hT : c.TY = c.TX) (R : Mat3 ℝ) (C S : ℝ)
    (hR : R = !![C, -S, 0; S, C, 0; 0, 0, 1]) (lam : ℂ) (hl : lam ≠ 0)
    (hlam : lam ^ 2 + 2 * c.ksiX * (2 * Real.pi / c.TX : ℝ) * lam + ((2 * Real.pi / c.TX : ℝ) : ℂ) ^ 2 * (C + S * Complex.I) = 0) :
    Mode R (keeperAcceleration c xCo yCo) lam
      (fun P v => ((v 0 : ℂ) + v 1 * Complex.I) - ((2 * Real.pi / c.TX : ℝ) : ℂ) ^ 2 / lam * (((P 0 - xCo : ℝ) : ℂ) + ((P 1 - yCo : ℝ) : ℂ) * Complex.I))
      (fun P v => ((v 0 : ℂ) + v 1 * Complex.I) - ((2 * Real.pi / c.TX : ℝ) : ℂ) ^ 2 / lam * ((P 0 : ℂ) + (P 1 : ℂ) * Complex.I)) where
  affine P v P' v' k := by
    simp only [Pi.add_apply, Pi.smul_apply, smul_eq_mul]
    push_cast
    ring
  rate P v := by
    subst hR
    have e0 : (Matrix.mulVec !![C, -S, 0; S, C, 0; 0, 0, 1] v) 0 = C * v 0 - S * v 1 := by
      simp [Matrix.mulVec, dotProduct, Fin.sum_univ_three]; ring
    have e1 : (Matrix.mulVec !![C, -S, 0; S, C, 0; 0, 0, 1] v) 1 = S * v 0 + C * v 1 := by
      simp [Matrix.mulVec, dotProduct, Fin.sum_univ_three]
    simp only [e0, e1, keeperAcceleration, hk, hT, Matrix.cons_val_zero, Matrix.cons_val_one]
    generalize 2 * Real.pi / c.TX = w at *
    generalize c.ksiX = k at *
    have hI : Complex.I ^ 2 = -1 := Complex.I_sq
    push_cast
    field_simp
    linear_combination (-((v 0 : ℂ) + v 1 * Complex.I)) * hlam + ((w : ℂ) ^ 2 * S * v 1) * hI

/-- There is an unstable mode when `4 ξ² cos ψ < sin² ψ`. -/
theorem unstable_root (ksi w C S : ℝ) (hw : 0 < w) (h0 : 0 ≤ ksi) (h1 : C ^ 2 + S ^ 2 = 1) (h : 4 * ksi ^ 2 * C < S ^ 2) :
    ∃ lam : ℂ, 0 < lam.re ∧ lam ^ 2 + 2 * ksi * w * lam + (w : ℂ) ^ 2 * (C + S * Complex.I) = 0 := by
  set D := (ksi ^ 2 - C) ^ 2 + S ^ 2 with hD
  have hD0 : 0 ≤ D := by positivity
  have hlt : ksi ^ 2 + C < Real.sqrt D := by
    rcases le_or_gt 0 (ksi ^ 2 + C) with h2 | h2
    · exact Real.lt_sqrt_of_sq_lt (by rw [hD]; nlinarith)
    · exact lt_of_lt_of_le h2 (Real.sqrt_nonneg _)
  have hA : ksi ^ 2 < ((ksi ^ 2 - C) + Real.sqrt D) / 2 := by linarith
  set a := Real.sqrt (((ksi ^ 2 - C) + Real.sqrt D) / 2) with ha
  have ha2 : a ^ 2 = ((ksi ^ 2 - C) + Real.sqrt D) / 2 := Real.sq_sqrt (by nlinarith [sq_nonneg ksi])
  have hak : ksi < a := by
    rw [ha]; exact Real.lt_sqrt_of_sq_lt hA
  have ha0 : 0 < a := lt_of_le_of_lt h0 hak
  have hsD : Real.sqrt D ^ 2 = D := Real.sq_sqrt hD0
  have key : a ^ 2 - (S / (2 * a)) ^ 2 = ksi ^ 2 - C := by
    have : 4 * a ^ 2 * a ^ 2 - S ^ 2 = 4 * a ^ 2 * (ksi ^ 2 - C) := by
      rw [ha2]
      nlinarith
    field_simp
    linarith
  refine ⟨⟨w * (a - ksi), -(w * (S / (2 * a)))⟩, mul_pos hw (by linarith), ?_⟩
  have key2 : 2 * a * (S / (2 * a)) = S := by field_simp
  generalize S / (2 * a) = b at key key2
  apply Complex.ext
  · simp [pow_two]
    linear_combination w ^ 2 * key
  · simp [pow_two]
    linear_combination (-(w ^ 2)) * key2

/-- The factors of an unstable mode. -/
theorem euler_mode_unstable (lam : ℂ) (dt : ℝ) (hdt : 0 < dt) (h : 0 < lam.re) : 1 < ‖eulerMode (lam * dt)‖ := by
  have := Complex.re_le_norm (eulerMode (lam * dt))
  simp only [eulerMode, Complex.add_re, Complex.one_re, Complex.mul_re, Complex.ofReal_re, Complex.ofReal_im, mul_zero, sub_zero] at this
  have h2 := mul_pos h hdt
  simp only [eulerMode]
  linarith

theorem rk4_mode_unstable (lam : ℂ) (dt : ℝ) (hdt : 0 < dt) (h : 0 < lam.re) (h1 : ‖lam‖ * dt ≤ 1) (h2 : ‖lam‖ ^ 5 * dt ^ 4 < 100 * lam.re) :
    1 < ‖rk4Mode (lam * dt)‖ := by
  have hn : ‖lam * dt‖ = ‖lam‖ * dt := by rw [norm_mul, Complex.norm_real, Real.norm_of_nonneg hdt.le]
  have hb := rk4_mode_exp (lam * dt) (by rw [hn]; exact h1)
  have he : 1 + lam.re * dt ≤ ‖Complex.exp (lam * dt)‖ := by
    rw [Complex.norm_exp]
    simp only [Complex.mul_re, Complex.ofReal_re, Complex.ofReal_im, mul_zero, sub_zero]
    linarith [Real.add_one_le_exp (lam.re * dt)]
  have ht : ‖Complex.exp (lam * dt)‖ ≤ ‖rk4Mode (lam * dt)‖ + ‖rk4Mode (lam * dt) - Complex.exp (lam * dt)‖ := by
    have := norm_sub_le (rk4Mode (lam * dt)) (rk4Mode (lam * dt) - Complex.exp (lam * dt))
    rwa [sub_sub_cancel] at this
  have h3 : ‖lam * dt‖ ^ 5 / 100 < lam.re * dt := by
    rw [hn, mul_pow]
    nlinarith
  linarith

/-- **C184** (refutation) An upright body ordered to keep the heading that it has and to go to `xCo`, `yCo`, with a controller that has the same damping
and period in surge and in sway: when the heading `ψ` is such that `4 ξ² cos ψ < sin² ψ` (for instance east, south or west, whatever the damping),
starting at rest anywhere but on the target, the body goes away: its distance to the target or its speed exceed any bound. This is not due to the time step: it is so for
every time step with `euler` and for every small enough time step with `rk4`. -/
theorem station_keeping_loses {e : Multi.Entry ℝ} {l : List Push} {M : Mat6 ℝ} {psiOf : Mat3 ℝ → ℝ} {c : StationKeeper}
    {xCo yCo C S : ℝ} {q : Quat ℝ} (s : Sim ℝ (Vec3 ℝ × Vec3 ℝ)) (he : Kept e l M psiOf c s.commands xCo yCo q) (hq : Unit4 q)
    (hU : Upright q C S) (hCS : C ^ 2 + S ^ 2 = 1) (hpsi : 4 * c.ksiX ^ 2 * C < S ^ 2)
    (h0 : 0 ≤ c.ksiX) (hTX : 0 < c.TX) (hk : c.ksiY = c.ksiX) (hTY : c.TY = c.TX)
    (ae : Nat → ℝ → ℝ → Bool) (hae : ∀ n a, ae n a a = true) (ae1 : ℝ → Bool) (P0 : Vec3 ℝ) (hs : s.state = vec13 P0 0 0 q)
    (hP : P0 0 ≠ xCo ∨ P0 1 ≠ yCo)
    (hT0 : ∀ n, (field s.hist n).Tmax = 0) (tstart : ℝ) (hh : NotAfter ae s.hist tstart) (B : ℝ) :
    ∃ dt0 > 0, ∀ dt, 0 < dt → ∀ T, (T = eulerMethod ∨ T = rk4Method ∧ dt < dt0) →
      ∃ n : Nat, ∀ (tend : ℝ) (N : Nat), tend ≤ tstart + N * dt → (∀ i < N, tstart + (i : ℝ) * dt < tend) → ∀ fuel, N ≤ fuel →
        ∃ s' obs, quicksolve (simSystem (oneBody e ae ae1) T.stepper) fuel s tstart tend dt = some (.ok (s', obs)) ∧
          obs.length = N + 1 ∧ ∀ (i : Nat) (hi : i < obs.length), n ≤ i →
            ∃ P v, obs[i].x = vec13 P v 0 q ∧
              (B < Real.sqrt ((P 0 - xCo) ^ 2 + (P 1 - yCo) ^ 2) ∨ B < Real.sqrt (v 0 ^ 2 + v 1 ^ 2)) := by
  have hpi := Real.pi_pos
  have hw : 0 < 2 * Real.pi / c.TX := by positivity
  obtain ⟨lam, hre, hlam⟩ := unstable_root c.ksiX (2 * Real.pi / c.TX) C S hw h0 hCS hpsi
  have hl : lam ≠ 0 := by rintro rfl; simp at hre
  have hmode := yaw_mode c xCo yCo hk hTY q.matrix C S hU lam hl hlam
  set w := 2 * Real.pi / c.TX with hwdef
  set μ : ℂ := (w : ℂ) ^ 2 / lam with hμ
  have hμ0 : μ ≠ 0 := div_ne_zero (pow_ne_zero _ (by exact_mod_cast hw.ne')) hl
  have hlam0 : 0 < ‖lam‖ := norm_pos_iff.2 hl
  refine ⟨min (1 / ‖lam‖) (min 1 (100 * lam.re / ‖lam‖ ^ 5)), by positivity, fun dt hdt T hT => ?_⟩
  obtain ⟨g, hg1, hF, hg⟩ : ∃ g : ℂ, 1 < ‖g‖ ∧ Forward T ∧ ∀ (i : Nat) (P v : Vec3 ℝ),
      RK.rkRun (translation q.matrix (keeperAcceleration c xCo yCo)) (fun x _ => x) T (vec6 P0 0) tstart dt i = vec6 P v →
      ((v 0 : ℂ) + v 1 * Complex.I) - μ * (((P 0 - xCo : ℝ) : ℂ) + ((P 1 - yCo : ℝ) : ℂ) * Complex.I) =
        g ^ i * ((((0 : Vec3 ℝ) 0 : ℝ) : ℂ) + (((0 : Vec3 ℝ) 1 : ℝ) : ℂ) * Complex.I - μ * (((P0 0 - xCo : ℝ) : ℂ) + ((P0 1 - yCo : ℝ) : ℂ) * Complex.I)) := by
    rcases hT with rfl | ⟨rfl, hsmall⟩
    · exact ⟨_, euler_mode_unstable lam dt hdt hre, euler_forward, fun i P v h => mode_euler hmode P0 0 tstart dt i P v h⟩
    · refine ⟨_, rk4_mode_unstable lam dt hdt hre ?_ ?_, rk4_forward, fun i P v h => mode_rk4 hmode P0 0 tstart dt i P v h⟩
      · have := hsmall.le.trans (min_le_left _ _)
        rw [le_div_iff₀ hlam0] at this
        linarith
      · have a1 := hsmall.trans_le ((min_le_right _ _).trans (min_le_left _ _))
        have a2 := hsmall.trans_le ((min_le_right _ _).trans (min_le_right _ _))
        rw [lt_div_iff₀ (by positivity)] at a2
        have a3 : dt ^ 4 ≤ dt := by
          calc dt ^ 4 = dt * dt ^ 3 := by ring
            _ ≤ dt * 1 := mul_le_mul_of_nonneg_left (pow_le_one₀ hdt.le a1.le) hdt.le
            _ = dt := mul_one _
        have a4 : ‖lam‖ ^ 5 * dt ^ 4 ≤ ‖lam‖ ^ 5 * dt := mul_le_mul_of_nonneg_left a3 (by positivity)
        linarith
  have hE0 : ((P0 0 - xCo : ℝ) : ℂ) + ((P0 1 - yCo : ℝ) : ℂ) * Complex.I ≠ 0 := by
    intro h
    have hr := congrArg Complex.re h
    have hi := congrArg Complex.im h
    simp at hr hi
    rcases hP with hP | hP
    · exact hP (by linarith)
    · exact hP (by linarith)
  have hm0 : 0 < ‖μ‖ * ‖((P0 0 - xCo : ℝ) : ℂ) + ((P0 1 - yCo : ℝ) : ℂ) * Complex.I‖ := mul_pos (norm_pos_iff.2 hμ0) (norm_pos_iff.2 hE0)
  have hgrow : Filter.Tendsto (fun i : ℕ => ‖g‖ ^ i * (‖μ‖ * ‖((P0 0 - xCo : ℝ) : ℂ) + ((P0 1 - yCo : ℝ) : ℂ) * Complex.I‖))
      Filter.atTop Filter.atTop := (tendsto_pow_atTop_atTop_of_one_lt hg1).atTop_mul_const hm0
  obtain ⟨n, hn⟩ := Filter.eventually_atTop.1 (hgrow.eventually (Filter.eventually_gt_atTop (B + ‖μ‖ * B)))
  refine ⟨n, fun tend N hN hfirst fuel hf => ?_⟩
  obtain ⟨s', obs, a1, a2, a3⟩ := translates s (kept_translating he) hq ae hae ae1 T hF P0 0 hs hT0 tstart tend dt hdt hh N hN
    hfirst fuel hf
  refine ⟨s', obs, a1, a2, fun i hi hni => ?_⟩
  obtain ⟨-, P, v, a4, a5⟩ := a3 i hi
  refine ⟨P, v, a5, ?_⟩
  have hnorm : ∀ x y : ℝ, ‖(x : ℂ) + y * Complex.I‖ = Real.sqrt (x ^ 2 + y ^ 2) := fun x y => Complex.norm_add_mul_I x y
  have h5 := congrArg norm (hg i P v a4)
  have h6 : B + ‖μ‖ * B < ‖g‖ ^ i * (‖μ‖ * ‖((P0 0 - xCo : ℝ) : ℂ) + ((P0 1 - yCo : ℝ) : ℂ) * Complex.I‖) := hn i hni
  simp only [Pi.zero_apply, Complex.ofReal_zero, zero_mul, add_zero, zero_sub] at h5
  rw [norm_mul (g ^ i), norm_neg, norm_pow, norm_mul μ] at h5
  have h7 := norm_sub_le ((v 0 : ℂ) + v 1 * Complex.I) (μ * (((P 0 - xCo : ℝ) : ℂ) + ((P 1 - yCo : ℝ) : ℂ) * Complex.I))
  rw [h5, norm_mul μ, hnorm (v 0) (v 1), hnorm (P 0 - xCo) (P 1 - yCo)] at h7
  by_contra hcon
  push Not at hcon
  have h8 := mul_le_mul_of_nonneg_left hcon.1 (norm_nonneg μ)
  linarith [hcon.2]

/-- When `4 ξ² cos ψ > sin² ψ` there are two different modes, both stable. -/
theorem stable_roots (ksi w C S : ℝ) (hw : 0 < w) (h0 : 0 ≤ ksi) (h : S ^ 2 < 4 * ksi ^ 2 * C) (hne : S ≠ 0 ∨ C ≠ ksi ^ 2) :
    ∃ l1 l2 : ℂ, l1.re < 0 ∧ l2.re < 0 ∧ l1 ≠ l2 ∧ l1 ^ 2 + 2 * ksi * w * l1 + (w : ℂ) ^ 2 * (C + S * Complex.I) = 0 ∧
      l2 ^ 2 + 2 * ksi * w * l2 + (w : ℂ) ^ 2 * (C + S * Complex.I) = 0 := by
  obtain ⟨δ, hδ⟩ := IsAlgClosed.exists_pow_nat_eq ((ksi : ℂ) ^ 2 - C - S * Complex.I) (n := 2) (by norm_num)
  have hre := congrArg Complex.re hδ
  have him := congrArg Complex.im hδ
  simp [pow_two] at hre him
  have hC : 0 < C := by
    by_contra hc
    nlinarith [mul_nonneg (sq_nonneg ksi) (neg_nonneg.2 (not_lt.1 hc)), sq_nonneg S]
  have hk : 0 < ksi ^ 2 := by nlinarith [sq_nonneg S, sq_nonneg ksi]
  have hx : δ.re ^ 2 < ksi ^ 2 := by
    by_contra hx
    have hx := not_lt.1 hx
    have e1 : δ.re ^ 2 * (δ.re ^ 2 - ksi ^ 2 + C) = S ^ 2 / 4 := by
      have e2 : δ.im ^ 2 = δ.re ^ 2 - ksi ^ 2 + C := by nlinarith
      have e3 : 2 * (δ.re * δ.im) = -S := by nlinarith
      rw [← e2]
      linear_combination ((2 * (δ.re * δ.im) - S) / 4) * e3
    have e4 : ksi ^ 2 * C ≤ δ.re ^ 2 * (δ.re ^ 2 - ksi ^ 2 + C) := by
      have : C ≤ δ.re ^ 2 - ksi ^ 2 + C := by linarith
      exact mul_le_mul hx this hC.le (by positivity)
    linarith
  obtain ⟨hx1, hx2⟩ := abs_lt.1 (abs_lt_of_sq_lt_sq hx h0)
  refine ⟨w * (-ksi + δ), w * (-ksi - δ), ?_, ?_, ?_, ?_, ?_⟩
  · simp; nlinarith
  · simp; nlinarith
  · intro he
    have hδ0 : δ = 0 := by
      have hw' : (w : ℂ) ≠ 0 := by exact_mod_cast hw.ne'
      have := mul_left_cancel₀ hw' he
      linear_combination (1 / 2) * this
    rw [hδ0] at hre him
    simp at hre him
    rcases hne with hne | hne
    · exact hne him
    · exact hne (by nlinarith)
  · linear_combination (w : ℂ) ^ 2 * hδ
  · linear_combination (w : ℂ) ^ 2 * hδ

theorem euler_mode_stable (lam : ℂ) (h : lam.re < 0) : ∃ dt0 > 0, ∀ dt : ℝ, 0 < dt → dt < dt0 → ‖eulerMode (lam * dt)‖ < 1 := by
  have hl : 0 < ‖lam‖ := norm_pos_iff.2 (by rintro rfl; simp at h)
  refine ⟨-lam.re / ‖lam‖ ^ 2, div_pos (by linarith) (by positivity), fun dt hdt hlt => ?_⟩
  rw [lt_div_iff₀ (by positivity)] at hlt
  have hn : ‖lam‖ ^ 2 = lam.re ^ 2 + lam.im ^ 2 := by
    rw [← Complex.normSq_eq_norm_sq, Complex.normSq_apply]; ring
  have : ‖eulerMode (lam * dt)‖ ^ 2 < 1 ^ 2 := by
    rw [← Complex.normSq_eq_norm_sq, Complex.normSq_apply]
    simp only [eulerMode, Complex.add_re, Complex.add_im, Complex.mul_re, Complex.mul_im, Complex.one_re, Complex.one_im,
      Complex.ofReal_re, Complex.ofReal_im, mul_zero, sub_zero, zero_add]
    rw [hn] at hlt
    nlinarith [mul_lt_mul_of_pos_left hlt hdt]
  exact lt_of_pow_lt_pow_left₀ 2 zero_le_one this

theorem rk4_mode_stable (lam : ℂ) (h : lam.re < 0) : ∃ dt0 > 0, ∀ dt : ℝ, 0 < dt → dt < dt0 → ‖rk4Mode (lam * dt)‖ < 1 := by
  have hl : 0 < ‖lam‖ := norm_pos_iff.2 (by rintro rfl; simp at h)
  have hr : 0 < -lam.re := by linarith
  refine ⟨min (1 / ‖lam‖) (min 1 (50 * -lam.re / ‖lam‖ ^ 5)), by positivity, fun dt hdt hlt => ?_⟩
  have h1 := (hlt.trans_le (min_le_left _ _)).le
  have h2 := (hlt.trans_le ((min_le_right _ _).trans (min_le_left _ _))).le
  have h3 := hlt.trans_le ((min_le_right _ _).trans (min_le_right _ _))
  rw [le_div_iff₀ hl] at h1
  rw [lt_div_iff₀ (by positivity)] at h3
  have hn : ‖lam * dt‖ = ‖lam‖ * dt := by rw [norm_mul, Complex.norm_real, Real.norm_of_nonneg hdt.le]
  have hb := rk4_mode_exp (lam * dt) (by rw [hn]; linarith)
  have hre : -lam.re ≤ ‖lam‖ := (neg_le_abs _).trans (Complex.abs_re_le_norm lam)
  set a := -lam.re * dt with ha
  have ha0 : 0 < a := mul_pos hr hdt
  have ha1 : a ≤ 1 := by nlinarith
  have hexp : ‖Complex.exp (lam * dt)‖ ≤ 1 - a / 2 := by
    rw [Complex.norm_exp]
    have e1 : (lam * dt).re = -a := by simp [ha]
    rw [e1]
    have e2 : Real.exp (-a) * Real.exp a = 1 := by rw [← Real.exp_add]; simp
    have e3 := Real.add_one_le_exp a
    have e4 := Real.exp_pos (-a)
    have e5 : (a + 1) * Real.exp (-a) ≤ 1 := by nlinarith
    have e6 : 1 ≤ (a + 1) * (1 - a / 2) := by nlinarith
    have e7 : (a + 1) * Real.exp (-a) ≤ (a + 1) * (1 - a / 2) := e5.trans e6
    exact le_of_mul_le_mul_left e7 (by linarith)
  have ht : ‖rk4Mode (lam * dt)‖ ≤ ‖Complex.exp (lam * dt)‖ + ‖rk4Mode (lam * dt) - Complex.exp (lam * dt)‖ := by
    have := norm_add_le (Complex.exp (lam * dt)) (rk4Mode (lam * dt) - Complex.exp (lam * dt))
    rwa [add_sub_cancel] at this
  have h4 : ‖lam * dt‖ ^ 5 / 100 < a / 2 := by
    rw [hn, mul_pow]
    have h5 : dt ^ 4 ≤ dt := by
      have := pow_le_pow_of_le_one hdt.le h2 (show 1 ≤ 4 by norm_num)
      simpa using this
    have h6 : ‖lam‖ ^ 5 * dt ^ 4 ≤ ‖lam‖ ^ 5 * dt := mul_le_mul_of_nonneg_left h5 (by positivity)
    have h7 : ‖lam‖ ^ 5 * dt ^ 4 < 50 * -lam.re := by linarith
    have h8 : ‖lam‖ ^ 5 * dt ^ 4 * dt < 50 * -lam.re * dt := mul_lt_mul_of_pos_right h7 hdt
    have h9 : ‖lam‖ ^ 5 * dt ^ 5 = ‖lam‖ ^ 5 * dt ^ 4 * dt := by ring
    rw [h9]
    linarith
  linarith

/-- **C184** Same body, same controller: when `4 ξ² cos ψ > sin² ψ`, for every small enough time step, with `euler` and with `rk4`, the body comes as near to its target
as one wants and stays there, whatever its position and its velocity. (`sin ψ = 0` and `ξ = 1` together are left out: there the two roots are equal.) -/
theorem station_keeping_holds_partial {e : Multi.Entry ℝ} {l : List Push} {M : Mat6 ℝ} {psiOf : Mat3 ℝ → ℝ} {c : StationKeeper}
    {xCo yCo C S : ℝ} {q : Quat ℝ} (s : Sim ℝ (Vec3 ℝ × Vec3 ℝ)) (he : Kept e l M psiOf c s.commands xCo yCo q) (hq : Unit4 q)
    (hU : Upright q C S) (hCS : C ^ 2 + S ^ 2 = 1) (hpsi : S ^ 2 < 4 * c.ksiX ^ 2 * C) (hdouble : S ≠ 0 ∨ c.ksiX ≠ 1)
    (h0 : 0 ≤ c.ksiX) (hTX : 0 < c.TX) (hk : c.ksiY = c.ksiX) (hTY : c.TY = c.TX)
    (ae : Nat → ℝ → ℝ → Bool) (hae : ∀ n a, ae n a a = true) (ae1 : ℝ → Bool) (P0 v0 : Vec3 ℝ) (hs : s.state = vec13 P0 v0 0 q)
    (hT0 : ∀ n, (field s.hist n).Tmax = 0) (tstart : ℝ) (hh : NotAfter ae s.hist tstart) :
    ∃ dt0 > 0, ∀ dt, 0 < dt → dt < dt0 → ∀ T, (T = eulerMethod ∨ T = rk4Method) → ∀ ε > 0,
      ∃ n : Nat, ∀ (tend : ℝ) (N : Nat), tend ≤ tstart + N * dt → (∀ i < N, tstart + (i : ℝ) * dt < tend) → ∀ fuel, N ≤ fuel →
        ∃ s' obs, quicksolve (simSystem (oneBody e ae ae1) T.stepper) fuel s tstart tend dt = some (.ok (s', obs)) ∧
          obs.length = N + 1 ∧ ∀ (i : Nat) (hi : i < obs.length), n ≤ i →
            ∃ P v, obs[i].x = vec13 P v 0 q ∧ Real.sqrt ((P 0 - xCo) ^ 2 + (P 1 - yCo) ^ 2) < ε := by
  have hpi := Real.pi_pos
  have hw : 0 < 2 * Real.pi / c.TX := by positivity
  have hC : 0 < C := by
    by_contra hc
    nlinarith [mul_nonneg (sq_nonneg c.ksiX) (neg_nonneg.2 (not_lt.1 hc)), sq_nonneg S]
  have hne : S ≠ 0 ∨ C ≠ c.ksiX ^ 2 := by
    by_cases hS : S = 0
    · right
      rintro hCk
      have hC1 : C = 1 := by
        rw [hS] at hCS
        nlinarith
      have : c.ksiX = 1 := by nlinarith
      rcases hdouble with h | h
      · exact h hS
      · exact h this
    · exact Or.inl hS
  obtain ⟨l1, l2, hre1, hre2, hl12, hr1, hr2⟩ := stable_roots c.ksiX (2 * Real.pi / c.TX) C S hw h0 hpsi hne
  have hl1 : l1 ≠ 0 := by rintro rfl; simp at hre1
  have hl2 : l2 ≠ 0 := by rintro rfl; simp at hre2
  have hm1 := yaw_mode c xCo yCo hk hTY q.matrix C S hU l1 hl1 hr1
  have hm2 := yaw_mode c xCo yCo hk hTY q.matrix C S hU l2 hl2 hr2
  obtain ⟨a1, ha1, b1⟩ := euler_mode_stable l1 hre1
  obtain ⟨a2, ha2, b2⟩ := euler_mode_stable l2 hre2
  obtain ⟨a3, ha3, b3⟩ := rk4_mode_stable l1 hre1
  obtain ⟨a4, ha4, b4⟩ := rk4_mode_stable l2 hre2
  set w := 2 * Real.pi / c.TX with hwdef
  set E : Vec3 ℝ → ℂ := fun P => ((P 0 - xCo : ℝ) : ℂ) + ((P 1 - yCo : ℝ) : ℂ) * Complex.I with hE
  set V : Vec3 ℝ → ℂ := fun v => (v 0 : ℂ) + v 1 * Complex.I with hV
  refine ⟨min (min a1 a2) (min a3 a4), by positivity, fun dt hdt hlt T hT ε hε => ?_⟩
  have c1 := b1 dt hdt (hlt.trans_le ((min_le_left _ _).trans (min_le_left _ _)))
  have c2 := b2 dt hdt (hlt.trans_le ((min_le_left _ _).trans (min_le_right _ _)))
  have c3 := b3 dt hdt (hlt.trans_le ((min_le_right _ _).trans (min_le_left _ _)))
  have c4 := b4 dt hdt (hlt.trans_le ((min_le_right _ _).trans (min_le_right _ _)))
  obtain ⟨g1, g2, hg1, hg2, hF, hg⟩ : ∃ g1 g2 : ℂ, ‖g1‖ < 1 ∧ ‖g2‖ < 1 ∧ Forward T ∧ ∀ (i : Nat) (P v : Vec3 ℝ),
      RK.rkRun (translation q.matrix (keeperAcceleration c xCo yCo)) (fun x _ => x) T (vec6 P0 v0) tstart dt i = vec6 P v →
      V v - (w : ℂ) ^ 2 / l1 * E P = g1 ^ i * (V v0 - (w : ℂ) ^ 2 / l1 * E P0) ∧
      V v - (w : ℂ) ^ 2 / l2 * E P = g2 ^ i * (V v0 - (w : ℂ) ^ 2 / l2 * E P0) := by
    rcases hT with rfl | rfl
    · exact ⟨_, _, c1, c2, euler_forward, fun i P v h => ⟨mode_euler hm1 P0 v0 tstart dt i P v h, mode_euler hm2 P0 v0 tstart dt i P v h⟩⟩
    · exact ⟨_, _, c3, c4, rk4_forward, fun i P v h => ⟨mode_rk4 hm1 P0 v0 tstart dt i P v h, mode_rk4 hm2 P0 v0 tstart dt i P v h⟩⟩
  set κ : ℂ := (w : ℂ) ^ 2 / l1 - (w : ℂ) ^ 2 / l2 with hκ
  have hκ0 : κ ≠ 0 := by
    have hw' : ((w : ℂ) ^ 2) ≠ 0 := pow_ne_zero _ (by exact_mod_cast hw.ne')
    intro hz
    apply hl12
    have := sub_eq_zero.1 hz
    rw [div_eq_div_iff hl1 hl2] at this
    exact (mul_left_cancel₀ hw' this).symm
  have hlim : Filter.Tendsto (fun i : ℕ => (g2 ^ i * (V v0 - (w : ℂ) ^ 2 / l2 * E P0) - g1 ^ i * (V v0 - (w : ℂ) ^ 2 / l1 * E P0)) / κ)
      Filter.atTop (nhds 0) := by
    have d1 := (tendsto_pow_atTop_nhds_zero_of_norm_lt_one hg1).mul_const (V v0 - (w : ℂ) ^ 2 / l1 * E P0)
    have d2 := (tendsto_pow_atTop_nhds_zero_of_norm_lt_one hg2).mul_const (V v0 - (w : ℂ) ^ 2 / l2 * E P0)
    have := (d2.sub d1).div_const κ
    simpa using this
  obtain ⟨n, hn⟩ := Metric.tendsto_atTop.1 hlim ε hε
  refine ⟨n, fun tend N hN hfirst fuel hf => ?_⟩
  obtain ⟨s', obs, d1, d2, d3⟩ := translates s (kept_translating he) hq ae hae ae1 T hF P0 v0 hs hT0 tstart tend dt hdt hh N hN
    hfirst fuel hf
  refine ⟨s', obs, d1, d2, fun i hi hni => ?_⟩
  obtain ⟨-, P, v, d4, d5⟩ := d3 i hi
  refine ⟨P, v, d5, ?_⟩
  obtain ⟨e1, e2⟩ := hg i P v d4
  have e3 := hn i hni
  rw [dist_zero_right, ← e1, ← e2, show V v - (w : ℂ) ^ 2 / l2 * E P - (V v - (w : ℂ) ^ 2 / l1 * E P) = κ * E P by rw [hκ]; ring,
    mul_div_cancel_left₀ _ hκ0] at e3
  rwa [hE, Complex.norm_add_mul_I] at e3

/-! ### Concrete cases -/

/-- A barge of 1000 kg whose centre of gravity is the origin of its axes. -/
noncomputable def barge : Multi.MBody ℝ where
  name := "barge"
  idx := 0
  blocked := ⟨fun _ => none, 0, fun _ => none, fun _ => none⟩
  G := 0
  Minv := (1000 : ℝ)⁻¹ • 1
  coriolis := fun v w => ((1000 : ℝ) • cross v w, 0)

/-- Its weight and a vertical force that carries it. -/
noncomputable def bargePushes : List Push := [.gravity ((1000 : ℝ) • 1) 9.81, .nedForce ![0, 0, -9810] 0 0]

def bargeKeeper : StationKeeper := ⟨"DP", 0.5, 20, 0.5, 20, 0.9, 30⟩

/-- `DP(x_co)` is 10, `DP(y_co)` is 20, `DP(psi_co)` is `psi`. -/
def bargeCommands (psi : ℝ) : Commands ℝ := fun s =>
  if s = "DP(x_co)" then some 10 else if s = "DP(y_co)" then some 20 else if s = "DP(psi_co)" then some psi else none

noncomputable def bargeKept (psiOf : Mat3 ℝ → ℝ) : Multi.Entry ℝ :=
  ⟨barge, bargePushes.map (Push.model barge), [stationKeepingModel barge ((1000 : ℝ) • (1 : Mat6 ℝ)) psiOf bargeKeeper]⟩

theorem barge_kept (psiOf : Mat3 ℝ → ℝ) (q : Quat ℝ) :
    Kept (bargeKept psiOf) bargePushes ((1000 : ℝ) • 1) psiOf bargeKeeper (bargeCommands (psiOf q.matrix)) 10 20 q where
  idx := rfl
  name := show "barge" ≠ "NED" by decide
  free _ := rfl
  inverse := by simp [bargeKept, barge]
  forces := rfl
  balanced v := by
    simp only [resultant, bargeKept, barge, bargePushes, List.map_cons, List.map_nil, List.sum_cons, List.sum_nil, Push.wrench, sub_zero]
    have e1 : cross v (0 : Vec3 ℝ) = 0 := by funext i; fin_cases i <;> simp [cross]
    have e2 : cross (0 : Vec3 ℝ) ![0, 0, -9810] = 0 := by funext i; fin_cases i <;> simp [cross]
    rw [e1, e2]
    simp only [smul_zero, Matrix.mulVec_zero, add_zero, Prod.mk_add_mk, zero_add, ← Matrix.mulVec_add, Prod.mk_eq_zero, and_true]
    rw [show (![0, 0, ((1000 : ℝ) • (1 : Mat6 ℝ)) 2 2 * 9.81] + ![0, 0, -9810] : Vec3 ℝ) = 0 by
      funext i; fin_cases i <;> simp <;> norm_num]
    exact Matrix.mulVec_zero _
  controlled := rfl
  xCommand := by simp [bargeKeeper, bargeCommands]
  yCommand := by simp [bargeKeeper, bargeCommands]
  psiCommand := by simp [bargeKeeper, bargeCommands]
  centre := rfl
  surge i := by fin_cases i <;> simp
  sway i := by fin_cases i <;> simp

/-- The barge at heading 0, at rest at the origin of NED, with `rk4` and time steps of one second: the hypotheses of C183 are met. -/
example (ae1 : ℝ → Bool) (psiOf : Mat3 ℝ → ℝ) (ε : ℝ) (hε : 0 < ε) :
    ∃ n : Nat, ∀ (tend : ℝ) (N : Nat), tend ≤ 0 + N * 1 → (∀ i < N, 0 + (i : ℝ) * 1 < tend) → ∀ fuel, N ≤ fuel →
      ∃ s' obs, quicksolve (simSystem (oneBody (bargeKept psiOf) (fun _ a b => decide (a = b)) ae1) rk4Method.stepper) fuel
          ⟨vec13 ![0, 0, 0] 0 0 ⟨1, 0, 0, 0⟩, noHistory, bargeCommands (psiOf (⟨1, 0, 0, 0⟩ : Quat ℝ).matrix), [], 0⟩ 0 tend 1 = some (.ok (s', obs)) ∧
        obs.length = N + 1 ∧ ∀ (i : Nat) (hi : i < obs.length), n ≤ i →
          ∃ P v, obs[i].x = vec13 P v 0 ⟨1, 0, 0, 0⟩ ∧ |P 0 - 10| < ε ∧ |P 1 - 20| < ε := by
  have hz : 2 * Real.pi / 20 * 1 ≤ 1 := by linarith [Real.pi_le_four]
  refine station_keeping_converges _ (barge_kept psiOf ⟨1, 0, 0, 0⟩) (by simp [Unit4]) ?_ (by norm_num [bargeKeeper]) (by norm_num [bargeKeeper])
    (by norm_num [bargeKeeper]) (by norm_num [bargeKeeper]) (by norm_num [bargeKeeper]) (by norm_num [bargeKeeper]) _ (fun _ a => by simp) ae1 _ _ rfl
    (fun n => by cases n <;> rfl) 0 1 (by norm_num) (noHistory_notAfter _ _) _ (Or.inr ⟨rfl, hz, hz⟩) ε hε
  ext i j
  fin_cases i <;> fin_cases j <;> simp [Quat.matrix]

/-- The same barge, heading to the east then 16 degrees more: the hypotheses of C184 are met. -/
example (ae1 : ℝ → Bool) (psiOf : Mat3 ℝ → ℝ) :
    ∃ dt0 > 0, ∀ dt, 0 < dt → ∀ T, (T = eulerMethod ∨ T = rk4Method ∧ dt < dt0) →
      ∃ n : Nat, ∀ (tend : ℝ) (N : Nat), tend ≤ 0 + N * dt → (∀ i < N, 0 + (i : ℝ) * dt < tend) → ∀ fuel, N ≤ fuel →
        ∃ s' obs, quicksolve (simSystem (oneBody (bargeKept psiOf) (fun _ a b => decide (a = b)) ae1) T.stepper) fuel
            ⟨vec13 ![0, 0, 0] 0 0 ⟨3 / 5, 0, 0, 4 / 5⟩, noHistory, bargeCommands (psiOf (⟨3 / 5, 0, 0, 4 / 5⟩ : Quat ℝ).matrix), [], 0⟩ 0 tend dt =
            some (.ok (s', obs)) ∧
          obs.length = N + 1 ∧ ∀ (i : Nat) (hi : i < obs.length), n ≤ i →
            ∃ P v, obs[i].x = vec13 P v 0 ⟨3 / 5, 0, 0, 4 / 5⟩ ∧
              (1000000 < Real.sqrt ((P 0 - 10) ^ 2 + (P 1 - 20) ^ 2) ∨ 1000000 < Real.sqrt (v 0 ^ 2 + v 1 ^ 2)) := by
  refine station_keeping_loses (C := -7 / 25) (S := 24 / 25) _ (barge_kept psiOf ⟨3 / 5, 0, 0, 4 / 5⟩) (by norm_num [Unit4]) ?_ (by norm_num)
    (by norm_num [bargeKeeper]) (by norm_num [bargeKeeper]) (by norm_num [bargeKeeper]) rfl rfl _ (fun _ a => by simp) ae1 _ rfl
    (Or.inl (by norm_num)) (fun n => by cases n <;> rfl) 0 (noHistory_notAfter _ _) 1000000
  rw [Upright]
  ext i j
  fin_cases i <;> fin_cases j <;> norm_num [Quat.matrix]

/-- The barge heading 37 degrees (cosine 4/5, sine 3/5): with `ξ = 1/2` the condition `4 ξ² cos ψ > sin² ψ` is met. -/
example (ae1 : ℝ → Bool) (psiOf : Mat3 ℝ → ℝ) (q : Quat ℝ) (hq : q = ⟨3 / Real.sqrt 10, 0, 0, 1 / Real.sqrt 10⟩) :
    ∃ dt0 > 0, ∀ dt, 0 < dt → dt < dt0 → ∀ T, (T = eulerMethod ∨ T = rk4Method) → ∀ ε > 0,
      ∃ n : Nat, ∀ (tend : ℝ) (N : Nat), tend ≤ 0 + N * dt → (∀ i < N, 0 + (i : ℝ) * dt < tend) → ∀ fuel, N ≤ fuel →
        ∃ s' obs, quicksolve (simSystem (oneBody (bargeKept psiOf) (fun _ a b => decide (a = b)) ae1) T.stepper) fuel
            ⟨vec13 ![0, 0, 0] ![1, 0, 0] 0 q, noHistory, bargeCommands (psiOf q.matrix), [], 0⟩ 0 tend dt = some (.ok (s', obs)) ∧
          obs.length = N + 1 ∧ ∀ (i : Nat) (hi : i < obs.length), n ≤ i →
            ∃ P v, obs[i].x = vec13 P v 0 q ∧ Real.sqrt ((P 0 - 10) ^ 2 + (P 1 - 20) ^ 2) < ε := by
  have h10 : Real.sqrt 10 ^ 2 = 10 := Real.sq_sqrt (by norm_num)
  have h10' : Real.sqrt 10 ≠ 0 := by positivity
  refine station_keeping_holds_partial (C := 4 / 5) (S := 3 / 5) _ (barge_kept psiOf q) ?_ ?_ (by norm_num)
    (by norm_num [bargeKeeper]) (Or.inl (by norm_num)) (by norm_num [bargeKeeper]) (by norm_num [bargeKeeper]) rfl rfl _ (fun _ a => by simp) ae1 _ _ rfl
    (fun n => by cases n <;> rfl) 0 (noHistory_notAfter _ _)
  · subst hq
    simp only [Unit4]
    field_simp
    nlinarith
  · subst hq
    rw [Upright]
    ext i j
    fin_cases i <;> fin_cases j <;> simp [Quat.matrix] <;> field_simp <;> nlinarith

/-- The hypotheses of `controlled_memoryless` are met with both controllers on the barge. -/
example (ae : Nat → ℝ → ℝ → Bool) (ae1 : ℝ → Bool) (psiOf : Mat3 ℝ → ℝ) :
    let cs := [Control.stationKeeping ((1000 : ℝ) • (1 : Mat6 ℝ)) psiOf bargeKeeper 10 20 3, .heading ((1000 : ℝ) • (1 : Mat6 ℝ)) psiOf "DP" 0.9 30 3]
    Memoryless (oneBody ⟨barge, bargePushes.map (Push.model barge), cs.map (Control.model barge)⟩ ae ae1) (bargeCommands 3)
      (newton barge.Minv (total barge bargePushes cs)) (fun x _ => x) (fun x => x.length = 13) (fun x => x.length = 13) := by
  intro cs
  refine controlled_memoryless _ ⟨rfl, show "barge" ≠ "NED" by decide, fun _ => rfl⟩ ae ae1 bargePushes rfl ?_ cs rfl _ ?_
  · intro f hf
    simp only [bargePushes, List.mem_cons, List.not_mem_nil, or_false] at hf
    rcases hf with rfl | rfl <;> exact id
  · intro c hc
    simp only [cs, List.mem_cons, List.not_mem_nil, or_false] at hc
    rcases hc with rfl | rfl
    · exact ⟨by simp [bargeKeeper, bargeCommands], by simp [bargeKeeper, bargeCommands], by simp [bargeKeeper, bargeCommands]⟩
    · simp [Control.Commanded, bargeCommands]

end Xdyn.Sim

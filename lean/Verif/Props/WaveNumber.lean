import Verif.Props.Airy
import Mathlib.Topology.Order.IntermediateValue
import Mathlib.Analysis.Real.Pi.Bounds

/-
C84: the finite depth dispersion relation `g k tanh(k h) = ω²`, and the interval searched by `get_wave_number`.
-/

namespace Xdyn.Waves

theorem tanh_eq (x : ℝ) : Real.tanh x = 1 - 2 / (Real.exp (2 * x) + 1) := by
  rw [Real.tanh_eq_sinh_div_cosh, Real.sinh_eq, Real.cosh_eq]
  have h1 : Real.exp (2 * x) = Real.exp x * Real.exp x := by rw [← Real.exp_add]; ring_nf
  have h2 : Real.exp x * Real.exp (-x) = 1 := by rw [← Real.exp_add]; simp
  have h3 := Real.exp_pos x
  have h4 := Real.exp_pos (-x)
  rw [h1]
  have h5 : Real.exp x * Real.exp x + 1 ≠ 0 := by positivity
  have h6 : Real.exp x + Real.exp (-x) ≠ 0 := by positivity
  field_simp
  ring_nf
  nlinarith [h2]

theorem tanh_strictMono : StrictMono Real.tanh := by
  intro x y hxy
  rw [tanh_eq, tanh_eq]
  have h1 : Real.exp (2 * x) < Real.exp (2 * y) := Real.exp_lt_exp.mpr (by linarith)
  have h2 := Real.exp_pos (2 * x)
  have : 2 / (Real.exp (2 * y) + 1) < 2 / (Real.exp (2 * x) + 1) := by
    apply div_lt_div_of_pos_left <;> linarith
  linarith

theorem tanh_lt_one (x : ℝ) : Real.tanh x < 1 := by
  rw [tanh_eq]
  have : 0 < 2 / (Real.exp (2 * x) + 1) := by positivity
  linarith

theorem tanh_pos {x : ℝ} (hx : 0 < x) : 0 < Real.tanh x := by
  have := tanh_strictMono hx
  rwa [Real.tanh_zero] at this

/-- `tanh(π/10) > 2/7`. -/
theorem tanh_pi_div_ten {x : ℝ} (hx : Real.pi / 10 ≤ x) : 2 / 7 < Real.tanh x := by
  rw [tanh_eq]
  have hpi := Real.pi_gt_d2
  have h1 : (0.628 : ℝ) ≤ 2 * x := by linarith
  have h2 := Real.quadratic_le_exp_of_nonneg (show (0 : ℝ) ≤ 2 * x by linarith)
  have h3 : (9 / 5 : ℝ) < Real.exp (2 * x) := by nlinarith
  have h4 : 2 / (Real.exp (2 * x) + 1) < 5 / 7 := by
    rw [div_lt_div_iff₀ (by linarith) (by norm_num)]; linarith
  linarith

/-- The left hand side of the dispersion relation is strictly increasing. -/
theorem dispersion_strictMono {h : ℝ} (hh : 0 < h) {k k' : ℝ} (hk : 0 ≤ k) (hkk : k < k') : k * Real.tanh (k * h) < k' * Real.tanh (k' * h) := by
  have h1 : Real.tanh (k * h) < Real.tanh (k' * h) := tanh_strictMono (by nlinarith)
  have h2 : 0 < Real.tanh (k' * h) := tanh_pos (by nlinarith)
  nlinarith

/-- C84: the dispersion relation for depth `h` has exactly one positive solution, which is at least the infinite depth wave number. -/
theorem wave_number_exists_unique (h omega : ℝ) (hh : 0 < h) (ho : 0 < omega) :
    ∃! k, 0 < k ∧ 9.81 * k * Real.tanh (k * h) = omega ^ 2 := by
  set F := fun k : ℝ => 9.81 * k * Real.tanh (k * h) with hF
  have hcont : Continuous F := by
    have : Continuous Real.tanh := by
      have e : Real.tanh = fun x => Real.sinh x / Real.cosh x := by funext x; exact Real.tanh_eq_sinh_div_cosh x
      rw [e]
      exact Real.continuous_sinh.div Real.continuous_cosh (fun x => (Real.cosh_pos x).ne')
    exact (continuous_const.mul continuous_id).mul (this.comp (continuous_id.mul continuous_const))
  set K := max (3.5 * (omega ^ 2 / 9.81)) (Real.pi / 10 / h) with hK
  have hK1 : 3.5 * (omega ^ 2 / 9.81) ≤ K := le_max_left _ _
  have hK2 : Real.pi / 10 ≤ K * h := by
    have := le_max_right (3.5 * (omega ^ 2 / 9.81)) (Real.pi / 10 / h)
    calc Real.pi / 10 = Real.pi / 10 / h * h := by field_simp
      _ ≤ K * h := mul_le_mul_of_nonneg_right this hh.le
  have hKpos : 0 < K := lt_of_lt_of_le (by positivity) hK1
  have hF0 : F 0 ≤ omega ^ 2 := by simp [hF]; positivity
  have hFK : omega ^ 2 ≤ F K := by
    have ht := tanh_pi_div_ten hK2
    have e : omega ^ 2 = 9.81 * (3.5 * (omega ^ 2 / 9.81)) * (2 / 7) := by ring_nf
    rw [e]
    simp only [hF]
    have h0 : 0 ≤ 3.5 * (omega ^ 2 / 9.81) := by positivity
    calc 9.81 * (3.5 * (omega ^ 2 / 9.81)) * (2 / 7) ≤ 9.81 * K * (2 / 7) := by nlinarith
      _ ≤ 9.81 * K * Real.tanh (K * h) := by nlinarith
  obtain ⟨k, hk1, hk2⟩ := intermediate_value_Icc hKpos.le hcont.continuousOn ⟨hF0, hFK⟩
  have hk0 : 0 < k := by
    rcases lt_or_eq_of_le hk1.1 with h' | h'
    · exact h'
    · exfalso
      rw [← h'] at hk2
      simp only [hF, mul_zero, zero_mul] at hk2
      have : 0 < omega ^ 2 := by positivity
      linarith
  refine ⟨k, ⟨hk0, hk2⟩, ?_⟩
  rintro k' ⟨hk'0, hk'⟩
  have e : 9.81 * (k * Real.tanh (k * h)) = 9.81 * (k' * Real.tanh (k' * h)) := by
    simp only [hF] at hk2; linarith
  rcases lt_trichotomy k k' with hlt | heq | hgt
  · have := dispersion_strictMono hh hk0.le hlt; linarith
  · exact heq.symm
  · have := dispersion_strictMono hh hk'0.le hgt; linarith

/-- C84: when it is accepted (`k h ≥ π/10`, see `finite_depth_partial`) the solution is in the interval searched by `get_wave_number`. -/
theorem wave_number_in_bracket (h omega k : ℝ) (hh : 0 < h) (hk0 : 0 < k) (hk : 9.81 * k * Real.tanh (k * h) = omega ^ 2) (ha : Real.pi / 10 ≤ k * h) :
    waveNumber omega ≤ k ∧ k ≤ 3.5 * waveNumber omega := by
  have h1 := tanh_lt_one (k * h)
  have h2 := tanh_pi_div_ten ha
  have e : 9.81 * waveNumber omega = omega ^ 2 := waveNumber_dispersion omega
  constructor <;> nlinarith

/-- C84: conversely, when the solution is outside of the interval searched, every value of the interval is refused. -/
theorem wave_number_out_of_bracket (h omega k k' : ℝ) (hh : 0 < h) (hk0 : 0 < k) (hk : 9.81 * k * Real.tanh (k * h) = omega ^ 2) (ho : 3.5 * waveNumber omega < k)
    (hk' : k' ≤ 3.5 * waveNumber omega) : k' * h < Real.pi / 10 := by
  by_contra hc
  have hc := not_lt.mp hc
  have : Real.pi / 10 ≤ k * h := hc.trans (by nlinarith)
  have := (wave_number_in_bracket h omega k hh hk0 hk this).2
  linarith

/-- C84: and the root of the function given to the search is the solution. -/
theorem waveNumberFunctor_root (h omega k : ℝ) : (waveNumberFunctor h omega k).1 = 0 ↔ 9.81 * k * Real.tanh (k * h) = omega ^ 2 := by
  simp only [waveNumberFunctor]
  constructor <;> intro h <;> linarith

/-- Non-vacuity: in 10 m of water, the wave of 1 rad/s. -/
example : ∃ k, (waveNumberFunctor 10 1 k).1 = 0 ∧ waveNumber 1 < k := by
  obtain ⟨k, ⟨h1, h2⟩, _⟩ := wave_number_exists_unique 10 1 (by norm_num) (by norm_num)
  refine ⟨k, (waveNumberFunctor_root 10 1 k).mpr h2, ?_⟩
  have h3 := tanh_lt_one (k * 10)
  have e := waveNumber_dispersion 1
  nlinarith

end Xdyn.Waves

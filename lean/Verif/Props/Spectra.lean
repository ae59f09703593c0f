import Verif.Props.Waves
import Mathlib.MeasureTheory.Integral.IntegralEqImproper
import Mathlib.Analysis.SpecialFunctions.Integrals.Basic
import Mathlib.Analysis.SpecialFunctions.Gamma.Basic
import Mathlib.Analysis.SpecialFunctions.Log.Basic

/-
C116: energy and peak of the spectra; C117: the directional spreadings.
-/

namespace Xdyn.Waves

open MeasureTheory Set Filter Topology

/-- Primitive of the Bretschneider density. -/
noncomputable def bretPrim (Hs w0 w : ℝ) : ℝ := if w ≤ 0 then 0 else Hs ^ 2 / 16 * Real.exp (-1.25 * (w0 / w) ^ 4)

/-- The density, as a function of the pulsation. -/
noncomputable def bretDens (Hs w0 w : ℝ) : ℝ := 0.3125 * ((w0 / w) ^ 4 / w) * Hs ^ 2 * Real.exp (-1.25 * (w0 / w) ^ 4)

theorem bretPrim_hasDerivAt (Hs w0 w : ℝ) (hw : 0 < w) : HasDerivAt (bretPrim Hs w0) (bretDens Hs w0 w) w := by
  have h1 : HasDerivAt (fun x : ℝ => w0 / x) (-(w0 / w ^ 2)) w := by
    have := (hasDerivAt_inv hw.ne').const_mul w0
    simpa [div_eq_mul_inv] using this
  have h2 := ((((h1.pow 4).const_mul (-1.25)).exp).const_mul (Hs ^ 2 / 16))
  have h3 : HasDerivAt (bretPrim Hs w0) (Hs ^ 2 / 16 * (Real.exp (-1.25 * (w0 / w) ^ 4) * (-1.25 * (((4 : ℕ) : ℝ) * (w0 / w) ^ (4 - 1) * -(w0 / w ^ 2))))) w := by
    refine h2.congr_of_eventuallyEq ?_
    filter_upwards [lt_mem_nhds hw] with x hx
    simp [bretPrim, not_le.mpr hx]
  convert h3 using 1
  unfold bretDens
  have hw' := hw.ne'
  norm_num
  field_simp

theorem bretDens_nonneg (Hs w0 w : ℝ) (hw : 0 < w) : 0 ≤ bretDens Hs w0 w := by
  unfold bretDens
  have : (0 : ℝ) ≤ (w0 / w) ^ 4 := by positivity
  positivity

theorem bretPrim_continuous (Hs w0 : ℝ) (h0 : 0 < w0) : ContinuousWithinAt (bretPrim Hs w0) (Ici 0) 0 := by
  have h : Tendsto (fun w : ℝ => Hs ^ 2 / 16 * Real.exp (-1.25 * (w0 / w) ^ 4)) (𝓝[>] 0) (𝓝 (Hs ^ 2 / 16 * 0)) := by
    refine Tendsto.const_mul _ (Real.tendsto_exp_atBot.comp ?_)
    have h1 : Tendsto (fun w : ℝ => w0 / w) (𝓝[>] 0) atTop := by
      simp only [div_eq_mul_inv]
      exact tendsto_inv_nhdsGT_zero.const_mul_atTop h0
    exact ((tendsto_pow_atTop (by norm_num : (4 : ℕ) ≠ 0)).comp h1).const_mul_atTop_of_neg (by norm_num)
  rw [mul_zero] at h
  have e0 : bretPrim Hs w0 0 = 0 := by simp [bretPrim]
  rw [← Ioi_insert, continuousWithinAt_insert_self]
  unfold ContinuousWithinAt
  rw [e0]
  refine h.congr' ?_
  filter_upwards [self_mem_nhdsWithin] with x hx
  have hx : 0 < x := hx
  simp [bretPrim, not_le.mpr hx]

theorem bretPrim_tendsto (Hs w0 : ℝ) : Tendsto (bretPrim Hs w0) atTop (𝓝 (Hs ^ 2 / 16)) := by
  have h : Tendsto (fun w : ℝ => Hs ^ 2 / 16 * Real.exp (-1.25 * (w0 / w) ^ 4)) atTop (𝓝 (Hs ^ 2 / 16 * Real.exp (-1.25 * 0 ^ 4))) := by
    refine Tendsto.const_mul _ ((Real.continuous_exp.tendsto _).comp (Tendsto.const_mul _ (Tendsto.pow ?_ 4)))
    exact tendsto_const_nhds.div_atTop tendsto_id
  have e : Hs ^ 2 / 16 * Real.exp (-1.25 * 0 ^ 4) = Hs ^ 2 / 16 := by norm_num
  rw [e] at h
  refine h.congr' ?_
  filter_upwards [eventually_gt_atTop 0] with x hx
  simp [bretPrim, not_le.mpr hx]

theorem bretschneider_eq (Hs Tp w : ℝ) (h1 : 0 ≤ Hs) (h2 : 0 < Tp) (h3 : 0 < w) :
    bretschneider Hs Tp w = .ok (bretDens Hs (2 * Real.pi / Tp) w) := by
  simp only [bretschneider, not_lt.mpr h1, not_le.mpr h2, not_le.mpr h3, if_false, bretDens]
  congr 1
  have e : ∀ r : ℝ, r * r * (r * r) = r ^ 4 := by intro r; ring
  rw [e]; ring

/-- `5 log r ≤ 1.25 (r^4 - 1)`. -/
theorem peak_bound (r : ℝ) (hr : 0 < r) : r ^ 5 * Real.exp (-1.25 * r ^ 4) ≤ Real.exp (-1.25) := by
  have h4 : (0 : ℝ) < r ^ 4 := by positivity
  have h1 := Real.log_le_sub_one_of_pos h4
  rw [Real.log_pow] at h1
  have h2 : r ^ 5 = Real.exp (5 * Real.log r) := by
    rw [mul_comm, Real.exp_mul, Real.exp_log hr]
    norm_cast
  rw [h2, ← Real.exp_add]
  apply Real.exp_le_exp.mpr
  push_cast at h1
  linarith

theorem bretDens_peak (Hs w0 w : ℝ) (h0 : 0 < w0) (hw : 0 < w) : bretDens Hs w0 w ≤ bretDens Hs w0 w0 := by
  unfold bretDens
  have h := peak_bound (w0 / w) (by positivity)
  have e : (w0 / w) ^ 4 / w = (w0 / w) ^ 5 / w0 := by field_simp
  rw [e, div_self h0.ne']
  have hk : 0 ≤ 0.3125 * Hs ^ 2 / w0 := by positivity
  have := mul_le_mul_of_nonneg_left h hk
  calc 0.3125 * ((w0 / w) ^ 5 / w0) * Hs ^ 2 * Real.exp (-1.25 * (w0 / w) ^ 4)
      = 0.3125 * Hs ^ 2 / w0 * ((w0 / w) ^ 5 * Real.exp (-1.25 * (w0 / w) ^ 4)) := by ring
    _ ≤ 0.3125 * Hs ^ 2 / w0 * Real.exp (-1.25) := this
    _ = 0.3125 * (1 ^ 4 / w0) * Hs ^ 2 * Real.exp (-1.25 * 1 ^ 4) := by norm_num; ring

/-- **C116.** The Bretschneider density of parameters `Hs` and `Tp` is defined for all the positive pulsations, integrable, its integral (the variance
of the surface elevation) is `(Hs / 4)²`, the energy of the pulsations from `a` to `b` is given by the primitive, and the density is greatest at
the pulsation `2 pi / Tp`. -/
theorem bretschneider_energy_peak (Hs Tp : ℝ) (h1 : 0 ≤ Hs) (h2 : 0 < Tp) :
    ∃ S : ℝ → ℝ, (∀ w, 0 < w → bretschneider Hs Tp w = .ok (S w)) ∧ IntegrableOn S (Ioi 0) ∧ ∫ w in Ioi (0 : ℝ), S w = (Hs / 4) ^ 2 ∧
      (∀ w, 0 < w → S w ≤ S (2 * Real.pi / Tp)) := by
  have h0 : 0 < 2 * Real.pi / Tp := by have := Real.pi_pos; positivity
  refine ⟨bretDens Hs (2 * Real.pi / Tp), fun w hw => bretschneider_eq Hs Tp w h1 h2 hw, ?_, ?_, fun w hw => bretDens_peak Hs _ w h0 hw⟩
  · exact integrableOn_Ioi_deriv_of_nonneg (bretPrim_continuous Hs _ h0) (fun x hx => bretPrim_hasDerivAt Hs _ x hx)
      (fun x hx => bretDens_nonneg Hs _ x hx) (bretPrim_tendsto Hs _)
  · rw [integral_Ioi_of_hasDerivAt_of_nonneg (bretPrim_continuous Hs _ h0) (fun x hx => bretPrim_hasDerivAt Hs _ x hx)
      (fun x hx => bretDens_nonneg Hs _ x hx) (bretPrim_tendsto Hs _)]
    simp only [bretPrim, le_refl, if_true]
    ring

/-- **C116**, Pierson-Moskowitz. -/
theorem piersonMoskowitz_energy_peak (Hs Tp : ℝ) (h1 : 0 ≤ Hs) (h2 : 0 < Tp) :
    ∃ S : ℝ → ℝ, (∀ w, 0 < w → piersonMoskowitz Hs Tp w = .ok (S w)) ∧ IntegrableOn S (Ioi 0) ∧ ∫ w in Ioi (0 : ℝ), S w = (Hs / 4) ^ 2 ∧
      (∀ w, 0 < w → S w ≤ S (2 * Real.pi / Tp)) := by
  obtain ⟨S, hS, h⟩ := bretschneider_energy_peak Hs Tp h1 h2
  exact ⟨S, fun w hw => by rw [piersonMoskowitz_eq_bretschneider]; exact hS w hw, h⟩

/-- The density of JONSWAP from that of Bretschneider. -/
theorem jonswap_eq (Hs Tp gamma w : ℝ) (h1 : 0 ≤ Hs) (h2 : 0 < Tp) (h3 : 0 < w) (hg : 0 < gamma) :
    ∃ r : ℝ, 0 < r ∧ r ≤ 1 ∧ (w = 2 * Real.pi / Tp → r = 1) ∧
      jonswap Hs Tp gamma w = .ok ((1 - 0.287 * Real.log gamma) * bretDens Hs (2 * Real.pi / Tp) w * gamma ^ r) := by
  refine ⟨Real.exp (-0.5 * ((w - 2 * Real.pi / Tp) / ((if w ≤ 2 * Real.pi / Tp then (0.07 : ℝ) else 0.09) * (2 * Real.pi / Tp)) *
    ((w - 2 * Real.pi / Tp) / ((if w ≤ 2 * Real.pi / Tp then (0.07 : ℝ) else 0.09) * (2 * Real.pi / Tp))))), Real.exp_pos _, ?_, ?_, ?_⟩
  · rw [Real.exp_le_one_iff]
    have := mul_self_nonneg ((w - 2 * Real.pi / Tp) / ((if w ≤ 2 * Real.pi / Tp then (0.07 : ℝ) else 0.09) * (2 * Real.pi / Tp)))
    linarith
  · intro he
    rw [he, sub_self, zero_div, mul_zero, mul_zero, Real.exp_zero]
  · simp only [jonswap, not_lt.mpr h1, not_le.mpr h2, not_le.mpr h3, not_le.mpr hg, if_false, bretDens]
    congr 2
    have e : ∀ r : ℝ, r * r * (r * r) = r ^ 4 := by intro r; ring
    rw [e]
    have e2 : ∀ x : ℝ, Real.exp (-(1.25 * x)) = Real.exp (-1.25 * x) := fun x => by congr 1; ring
    rw [e2]; ring

/-- **C116**, JONSWAP: for the peak enhancement factors from 1 to `exp(1/0.287)`, the density is greatest at `2 pi / Tp`, where it is `gamma (1 - 0.287 log gamma)`
times the one of Bretschneider. -/
theorem jonswap_peak (Hs Tp gamma : ℝ) (h1 : 0 ≤ Hs) (h2 : 0 < Tp) (hg : 1 ≤ gamma) (hg' : gamma ≤ Real.exp (1 / 0.287)) :
    ∃ M B, jonswap Hs Tp gamma (2 * Real.pi / Tp) = .ok M ∧ bretschneider Hs Tp (2 * Real.pi / Tp) = .ok B ∧
      M = gamma * (1 - 0.287 * Real.log gamma) * B ∧ ∀ w v, 0 < w → jonswap Hs Tp gamma w = .ok v → v ≤ M := by
  have h0 : 0 < 2 * Real.pi / Tp := by have := Real.pi_pos; positivity
  have hgp : 0 < gamma := by linarith
  obtain ⟨r, _, _, hr, hj⟩ := jonswap_eq Hs Tp gamma _ h1 h2 h0 hgp
  rw [hr rfl, Real.rpow_one] at hj
  refine ⟨_, _, hj, bretschneider_eq Hs Tp _ h1 h2 h0, by ring, ?_⟩
  intro w v hw hv
  obtain ⟨r, h3, h4, _, hj'⟩ := jonswap_eq Hs Tp gamma w h1 h2 hw hgp
  rw [hj'] at hv
  injection hv with hv
  rw [← hv]
  have hlog : 0 ≤ 1 - 0.287 * Real.log gamma := by
    have := Real.log_le_log hgp hg'
    rw [Real.log_exp] at this
    have : (0.287 : ℝ) * Real.log gamma ≤ 0.287 * (1 / 0.287) := by linarith
    have e : (0.287 : ℝ) * (1 / 0.287) = 1 := by norm_num
    linarith
  have hp : gamma ^ r ≤ gamma := by
    conv_rhs => rw [← Real.rpow_one gamma]
    exact Real.rpow_le_rpow_of_exponent_le hg h4
  have hb := bretDens_peak Hs _ w h0 hw
  have hb0 := bretDens_nonneg Hs (2 * Real.pi / Tp) _ h0
  exact mul_le_mul (mul_le_mul_of_nonneg_left hb hlog) hp (Real.rpow_nonneg hgp.le _) (mul_nonneg hlog hb0)

/-- **C116**, Dirac: a Dirac spectrum with a Dirac spreading gives one regular wave, of amplitude `Hs / 2` (height `Hs` from trough to crest), with the pulsation
and the direction of the spectrum; the variance is `Hs² / 8`. -/
theorem dirac_regular_wave (w0 Hs psi0 k ph : ℝ) (pd ps : ℝ → ℝ → ℝ → ℝ) (h1 : 0 ≤ Hs) (h2 : 0 < w0) :
    ∃ si, diracDensity w0 Hs w0 = .ok si ∧
      ∃ f, flatten ⟨[si], [diracSpreading psi0 psi0], [w0], [psi0], [k], [[ph]], pd, ps⟩ = .ok f ∧
        f.comps = [⟨Hs / 2, w0, psi0, Real.cos psi0, Real.sin psi0, k⟩] ∧ f.phase = [ph] := by
  refine ⟨Hs * Hs / 8, ?_, ?_⟩
  · simp only [diracDensity, not_lt.mpr h1, not_le.mpr h2, if_false, sub_self, abs_zero]
    rw [if_pos (by norm_num)]
  · have hd : diracSpreading psi0 psi0 = 1 := by
      simp only [diracSpreading, sub_self, abs_zero]
      rw [if_pos (by norm_num)]
    rw [hd]
    have ha : Real.sqrt (2 * (Hs * Hs / 8 * 1) * 1 * 1) = Hs / 2 := by
      rw [show (2 * (Hs * Hs / 8 * 1) * 1 * 1 : ℝ) = (Hs / 2) ^ 2 by ring]
      exact Real.sqrt_sq (by linarith)
    refine ⟨_, rfl, ?_, rfl⟩
    show [_] = [_]
    rw [← ha]

/-- **C116**, **C117**: outside of their pulsation and direction, Dirac spectra and spreadings are zero. -/
theorem dirac_zero (w0 Hs psi0 : ℝ) (h1 : 0 ≤ Hs) (h2 : 0 < w0) :
    (∀ w, 0 < w → 1e-15 ≤ |w - w0| → diracDensity w0 Hs w = .ok 0) ∧ (∀ psi, 1e-15 ≤ |psi - psi0| → diracSpreading psi0 psi = 0) := by
  constructor
  · intro w hw h
    simp only [diracDensity, not_lt.mpr h1, not_le.mpr h2, not_le.mpr hw, if_false]
    rw [if_neg (not_lt.mpr h)]
  · intro psi h
    simp only [diracSpreading]
    rw [if_neg (not_lt.mpr h)]

/-- Product in Wallis' integral. -/
theorem wallis_prod (s : Nat) : (∏ i ∈ Finset.range s, (2 * (i : ℝ) + 1) / (2 * i + 2)) = (2 * s).factorial / (4 ^ s * (s.factorial : ℝ) ^ 2) := by
  induction s with
  | zero => simp
  | succ s ih =>
    rw [Finset.prod_range_succ, ih]
    have h1 : (2 * (s + 1)).factorial = (2 * s + 2) * ((2 * s + 1) * (2 * s).factorial) := by
      rw [show 2 * (s + 1) = 2 * s + 1 + 1 by ring, Nat.factorial_succ, Nat.factorial_succ]
    have h2 : (s + 1).factorial = (s + 1) * s.factorial := Nat.factorial_succ s
    have h3 : (s.factorial : ℝ) ≠ 0 := by exact_mod_cast Nat.factorial_ne_zero s
    rw [h1, h2]
    push_cast
    have h4 : (2 * (s : ℝ) + 2) ≠ 0 := by positivity
    have h5 : ((s : ℝ) + 1) ≠ 0 := by positivity
    field_simp
    ring

theorem cos_pow_integral (psi0 : ℝ) (s : Nat) :
    ∫ psi in (psi0 - Real.pi)..(psi0 + Real.pi), Real.cos ((psi - psi0) / 2) ^ (2 * s) = 2 * (Real.pi * ((2 * s).factorial / (4 ^ s * (s.factorial : ℝ) ^ 2))) := by
  have h1 : ∀ psi : ℝ, Real.cos ((psi - psi0) / 2) ^ (2 * s) = Real.sin (psi / 2 + (Real.pi / 2 - psi0 / 2)) ^ (2 * s) := by
    intro psi
    rw [show psi / 2 + (Real.pi / 2 - psi0 / 2) = (psi - psi0) / 2 + Real.pi / 2 by ring, Real.sin_add_pi_div_two]
  simp only [h1]
  rw [intervalIntegral.integral_comp_div_add (fun x => Real.sin x ^ (2 * s)) (by norm_num : (2 : ℝ) ≠ 0)]
  rw [show (psi0 - Real.pi) / 2 + (Real.pi / 2 - psi0 / 2) = 0 by ring, show (psi0 + Real.pi) / 2 + (Real.pi / 2 - psi0 / 2) = Real.pi by ring,
    integral_sin_pow_even, wallis_prod]
  rw [smul_eq_mul]

/-- **C117.** For an integer exponent `s`, the cos2s spreading of main direction `psi0` is a distribution of the directions: its integral over one turn is 1, it is
greatest in the direction `psi0`, zero in the opposite direction (for `s ≥ 1`), and symmetric on both sides of `psi0`. -/
theorem cos2s_distribution (psi0 : ℝ) (s : Nat) (pw : ℝ → ℝ → ℝ) (hpw : ∀ c, pw c (2 * s) = c ^ (2 * s)) :
    ∃ D : ℝ → ℝ, (∀ psi, cos2s pw psi0 s psi = .ok (D psi)) ∧
      ∫ psi in (psi0 - Real.pi)..(psi0 + Real.pi), D psi = 1 ∧
      (∀ psi, D psi ≤ D psi0) ∧ (1 ≤ s → D (psi0 + Real.pi) = 0) ∧ (∀ x, D (psi0 + x) = D (psi0 - x)) := by
  have h0 : ¬ ((s : ℝ) < 0) := not_lt.mpr (Nat.cast_nonneg s)
  have hF : cos2sFactor s = 4 ^ s / (2 * Real.pi) * (s.factorial : ℝ) ^ 2 / (2 * s).factorial := by
    unfold cos2sFactor
    rw [Real.Gamma_nat_eq_factorial, show (2 * (s : ℝ) + 1) = (((2 * s : ℕ)) : ℝ) + 1 by push_cast; ring, Real.Gamma_nat_eq_factorial]
    have : (2 : ℝ) ^ (2 * (s : ℝ) - 1) = 4 ^ s / 2 := by
      rw [Real.rpow_sub (by norm_num), Real.rpow_one, Real.rpow_mul (by norm_num)]
      norm_num
    rw [this]
    have := Real.pi_pos
    field_simp
  have hF0 : 0 ≤ cos2sFactor s := by rw [hF]; have := Real.pi_pos; positivity
  refine ⟨fun psi => cos2sFactor s * Real.cos ((psi - psi0) / 2) ^ (2 * s), ?_, ?_, ?_, ?_, ?_⟩
  · intro psi
    simp only [cos2s, h0, if_false, hpw]
  · rw [intervalIntegral.integral_const_mul, cos_pow_integral, hF]
    have := Real.pi_pos
    have h3 : (s.factorial : ℝ) ≠ 0 := by exact_mod_cast Nat.factorial_ne_zero s
    have h4 : ((2 * s).factorial : ℝ) ≠ 0 := by exact_mod_cast Nat.factorial_ne_zero _
    field_simp
  · intro psi
    dsimp only
    rw [sub_self, zero_div, Real.cos_zero, one_pow]
    refine mul_le_mul_of_nonneg_left ?_ hF0
    rw [pow_mul]
    exact pow_le_one₀ (sq_nonneg _) (Real.cos_sq_le_one _)
  · intro hs
    dsimp only
    rw [show (psi0 + Real.pi - psi0) / 2 = Real.pi / 2 by ring, Real.cos_pi_div_two, zero_pow (by omega), mul_zero]
  · intro x
    dsimp only
    rw [show (psi0 + x - psi0) / 2 = x / 2 by ring, show (psi0 - x - psi0) / 2 = -(x / 2) by ring, Real.cos_neg]

/-- The hypothesis on `pow` is met by the real power. -/
example : ∃ D : ℝ → ℝ, (∀ psi, cos2s (fun c p => c ^ p) 1 (2 : ℕ) psi = .ok (D psi)) ∧ ∫ psi in (1 - Real.pi)..(1 + Real.pi), D psi = 1 := by
  obtain ⟨D, h1, h2, _⟩ := cos2s_distribution 1 2 (fun c p => c ^ p) (by intro c; norm_cast)
  exact ⟨D, h1, h2⟩

end Xdyn.Waves

import Verif.Lemmas.Airy
import Mathlib.Tactic.LinearCombination

/-
Airy wave kinematics: C51, C52 and C79 to C83.
-/

namespace Xdyn.Waves

open Spec

/-! ### Specification -/

/-- One Airy component: `-a sin(-ω t + k (x cos ψ + y sin ψ) + θ)` (z is downwards). -/
noncomputable def airyTerm (c : Comp) (theta x y t : ℝ) : ℝ :=
  -(c.a * Real.sin (-(c.omega * t) + c.k * (x * c.cosPsi + y * c.sinPsi) + theta))

/-- Superposition of the components of a spectrum. -/
noncomputable def airySum (f : Flat) (x y t : ℝ) : ℝ := ((f.comps.zip f.phase).map (fun p => airyTerm p.1 p.2 x y t)).sum

/-- One phase per component: what `flatten` produces (`flatten_components`). -/
def HasPhases (f : Flat) : Prop := f.comps.length = f.phase.length

/-- Directions are described by their cosine and sine: what `flatten` produces. -/
def HasDirections (f : Flat) : Prop := ∀ c ∈ f.comps, c.cosPsi = Real.cos c.psi ∧ c.sinPsi = Real.sin c.psi

theorem airySum_eq (f : Flat) (hp : HasPhases f) (x y t : ℝ) :
    airySum f x y t = ∑ i ∈ Finset.range f.comps.length, -((compAt f i).a * Real.sin (angleAt f x y t i)) := by
  unfold airySum
  have : (f.comps.zip f.phase).map (fun p => airyTerm p.1 p.2 x y t)
      = (List.range f.comps.length).map (fun i => -((compAt f i).a * Real.sin (angleAt f x y t i))) := by
    apply List.ext_getElem
    · have : f.phase.length = f.comps.length := hp.symm
      simp [this]
    · intro i h1 h2
      have hi : i < f.comps.length := by simpa using h2
      have hj : i < f.phase.length := by rw [← hp]; exact hi
      simp [airyTerm, compAt, angleAt, angle, fn, List.getElem?_eq_getElem hi, List.getElem?_eq_getElem hj]
  rw [this, list_sum_range]

/-! ### C51 -/

/-- C51 (superposition). -/
theorem elevation_superposition (f : Flat) (hp : HasPhases f) (x y t : ℝ) : elevationAt f x y t = .ok (airySum f x y t) := by
  rw [elevationAt_eq f (le_of_eq hp), airySum_eq f hp]

theorem airyTerm_le (c : Comp) (theta x y t : ℝ) : |airyTerm c theta x y t| ≤ |c.a| := by
  unfold airyTerm
  rw [abs_neg, abs_mul]
  exact mul_le_of_le_one_right (abs_nonneg _) (Real.abs_sin_le_one _)

/-- C51 (bound): the elevation is bounded by the sum of the amplitudes. -/
theorem elevation_bound (f : Flat) (hp : HasPhases f) (x y t z : ℝ) (h : elevationAt f x y t = .ok z) : |z| ≤ (f.comps.map (fun c => |c.a|)).sum := by
  rw [elevation_superposition f hp] at h
  simp only [Except.ok.injEq] at h
  rw [← h, airySum]
  have key : ∀ (cs : List Comp) (ps : List ℝ), cs.length = ps.length → |((cs.zip ps).map (fun p => airyTerm p.1 p.2 x y t)).sum| ≤ (cs.map (fun c => |c.a|)).sum := by
    intro cs
    induction cs with
    | nil => simp
    | cons c cs ih =>
      intro ps hps
      cases ps with
      | nil => simp at hps
      | cons p ps =>
        simp only [List.zip_cons_cons, List.map_cons, List.sum_cons]
        have h1 := ih ps (by simpa using hps)
        have h2 := airyTerm_le c p x y t
        exact (abs_add_le _ _).trans (add_le_add h2 h1)
  exact key _ _ hp

/-- C51: the superposition of two spectra. -/
theorem elevation_append (f1 f2 : Flat) (h1 : HasPhases f1) (h2 : HasPhases f2) (x y t z1 z2 : ℝ)
    (e1 : elevationAt f1 x y t = .ok z1) (e2 : elevationAt f2 x y t = .ok z2) :
    elevationAt { f1 with comps := f1.comps ++ f2.comps, phase := f1.phase ++ f2.phase } x y t = .ok (z1 + z2) := by
  rw [elevation_superposition _ (by simp only [HasPhases] at *; simp [h1, h2])]
  rw [elevation_superposition f1 h1] at e1
  rw [elevation_superposition f2 h2] at e2
  simp only [Except.ok.injEq] at e1 e2 ⊢
  rw [← e1, ← e2]
  unfold airySum
  simp only
  rw [List.zip_append h1, List.map_append, List.sum_append]

/-- C51: the elevation of several wave models is, at each point, the sum of their elevations. -/
theorem wave_height_sum (models : List Flat) (hp : ∀ f ∈ models, HasPhases f) (x y : List ℝ) (hxy : x.length = y.length) (t : ℝ) :
    waveHeight models x y t = .ok ((x.zip y).map (fun p => (models.map (fun f => airySum f p.1 p.2 t)).sum)) := by
  have hel : ∀ f ∈ models, getElevation f x y t = .ok ((x.zip y).map (fun p => airySum f p.1 p.2 t)) := by
    intro f hf
    unfold getElevation
    rw [if_neg (by simpa using hxy)]
    exact mapM_ok _ (fun p _ => elevation_superposition f (hp f hf) _ _ _)
  have key : ∀ (ms : List Flat) (z0 : ℝ × ℝ → ℝ), (∀ f ∈ ms, getElevation f x y t = .ok ((x.zip y).map (fun p => airySum f p.1 p.2 t))) →
      ms.foldlM (fun z f => do
        let w ← getElevation f x y t
        return z.zipWith (· + ·) w) ((x.zip y).map z0) = .ok ((x.zip y).map (fun p => z0 p + (ms.map (fun f => airySum f p.1 p.2 t)).sum)) := by
    intro ms
    induction ms with
    | nil => intro z0 _; simp [pure, Except.pure]
    | cons f ms ih =>
      intro z0 h
      simp only [List.foldlM_cons, h f (by simp), bind, Except.bind, pure, Except.pure]
      have e : List.zipWith (· + ·) ((x.zip y).map z0) ((x.zip y).map (fun p => airySum f p.1 p.2 t)) = (x.zip y).map (fun p => z0 p + airySum f p.1 p.2 t) := by
        rw [List.zipWith_map, List.zipWith_self]
      rw [e]
      have := ih (fun p => z0 p + airySum f p.1 p.2 t) (fun f hf => h f (by simp [hf]))
      simp only [bind, Except.bind, pure, Except.pure] at this
      rw [this]
      simp only [List.map_cons, List.sum_cons, add_assoc]
  have e0 : List.replicate x.length (0 : ℝ) = (x.zip y).map (fun _ => (0 : ℝ)) := by
    rw [List.map_const', List.length_zip, ← hxy, min_self]
  unfold waveHeight
  rw [e0, key models (fun _ => 0) hel]
  simp

/-- C51: vectors of different sizes are refused. -/
theorem elevation_sizes (f : Flat) (x y : List ℝ) (h : x.length ≠ y.length) (t : ℝ) : getElevation f x y t = .error (.throw "InternalErrorException") := by
  simp [getElevation, h]

/-- A spectrum with two components, for the non-vacuity examples. -/
noncomputable def twoWaves (st : Stretching) : Flat :=
  { comps := [⟨1, 2, 0, Real.cos 0, Real.sin 0, 4 / 9.81⟩, ⟨3, 5, 1, Real.cos 1, Real.sin 1, 25 / 9.81⟩], phase := [0, 7], pdyn := pdynInf st, pdynSh := pdynInf st }

theorem twoWaves_phases (st : Stretching) : HasPhases (twoWaves st) := rfl
theorem twoWaves_directions (st : Stretching) : HasDirections (twoWaves st) := by
  intro c hc; simp [twoWaves] at hc; rcases hc with rfl | rfl <;> simp

example : ∃ z, elevationAt (twoWaves ⟨0, 0⟩) 10 20 3 = .ok z ∧ |z| ≤ 4 := by
  refine ⟨_, elevation_superposition _ (twoWaves_phases _) _ _ _, ?_⟩
  have := elevation_bound _ (twoWaves_phases ⟨0, 0⟩) 10 20 3 _ (elevation_superposition _ (twoWaves_phases _) _ _ _)
  refine this.trans ?_
  simp [twoWaves]; norm_num

/-! ### C79: travelling waves -/

/-- C79: a single component travels without deformation, at the phase speed `ω/k`, in its direction `ψ`. -/
theorem component_travels (f : Flat) (c : Comp) (theta : ℝ) (hf : f.comps = [c] ∧ f.phase = [theta]) (hd : HasDirections f) (hk : c.k ≠ 0) (x y t dt : ℝ) :
    elevationAt f (x + c.omega / c.k * dt * Real.cos c.psi) (y + c.omega / c.k * dt * Real.sin c.psi) (t + dt) = elevationAt f x y t := by
  have hp : HasPhases f := by simp [HasPhases, hf.1, hf.2]
  rw [elevation_superposition f hp, elevation_superposition f hp]
  have hcs := hd c (by simp [hf.1])
  unfold airySum
  simp only [hf.1, hf.2, List.zip_cons_cons, List.zip_nil_right, List.map_cons, List.map_nil, List.sum_cons, List.sum_nil, airyTerm, hcs.1, hcs.2]
  have h1 := Real.sin_sq_add_cos_sq c.psi
  have e : -(c.omega * (t + dt)) + c.k * ((x + c.omega / c.k * dt * Real.cos c.psi) * Real.cos c.psi + (y + c.omega / c.k * dt * Real.sin c.psi) * Real.sin c.psi) + theta
      = -(c.omega * t) + c.k * (x * Real.cos c.psi + y * Real.sin c.psi) + theta := by
    have : c.k * (c.omega / c.k) = c.omega := by field_simp
    linear_combination c.k * (c.omega / c.k) * dt * h1 + dt * this
  rw [e]

/-- C79: the elevation at a point is periodic when there is only one frequency. -/
theorem component_periodic (f : Flat) (hp : HasPhases f) (w : ℝ) (hw : w ≠ 0) (hf : ∀ c ∈ f.comps, c.omega = w) (x y t : ℝ) :
    elevationAt f x y (t + 2 * Real.pi / w) = elevationAt f x y t := by
  rw [elevation_superposition f hp, elevation_superposition f hp]
  unfold airySum
  congr 2
  refine List.map_congr_left (fun p hp => ?_)
  have hc : p.1.omega = w := hf _ (List.of_mem_zip hp).1
  unfold airyTerm
  congr 2
  have e : -(p.1.omega * (t + 2 * Real.pi / w)) + p.1.k * (x * p.1.cosPsi + y * p.1.sinPsi) + p.2
      = -(p.1.omega * t) + p.1.k * (x * p.1.cosPsi + y * p.1.sinPsi) + p.2 - 2 * Real.pi := by
    rw [hc]; field_simp; ring
  rw [e, Real.sin_sub_two_pi]

example : elevationAt { twoWaves ⟨0, 0⟩ with comps := [⟨1, 2, 1, Real.cos 1, Real.sin 1, 4⟩], phase := [7] } (0 + 2 / 4 * 3 * Real.cos 1) (0 + 2 / 4 * 3 * Real.sin 1) (0 + 3)
    = elevationAt { twoWaves ⟨0, 0⟩ with comps := [⟨1, 2, 1, Real.cos 1, Real.sin 1, 4⟩], phase := [7] } 0 0 0 :=
  component_travels _ ⟨1, 2, 1, Real.cos 1, Real.sin 1, 4⟩ 7 ⟨rfl, rfl⟩ (by intro c hc; simp at hc; subst hc; simp) (by norm_num) 0 0 0 3

/-! ### C52: dynamic pressure -/

/-- C52: above the free surface. -/
theorem pressure_above_surface (f : Flat) (rho g x y z eta t : ℝ) (h : z < eta) : pressureAt f rho g x y z eta t = .ok 0 := by
  simp [pressureAt, h]

theorem velocity_above_surface (f : Flat) (g x y z t eta : ℝ) (h : z < eta) : velocityAt f g x y z t eta = .ok (0, 0, 0) := by
  simp [velocityAt, h]

/-- C52: below the free surface, the absolute value of the dynamic pressure is at most `ρ g Σ |a| × attenuation`. -/
theorem pressure_bound (f : Flat) (hp : HasPhases f) (rho g x y z eta t : ℝ) (hrho : 0 ≤ rho) (hg : 0 ≤ g) (A : ℝ)
    (hA : ∀ c ∈ f.comps, |f.pdyn c.k z eta| ≤ A) (hA0 : 0 ≤ A) :
    ∃ p, pressureAt f rho g x y z eta t = .ok p ∧ |p| ≤ rho * g * (f.comps.map (fun c => |c.a|)).sum * A := by
  have hsum0 : 0 ≤ (f.comps.map (fun c => |c.a|)).sum := List.sum_nonneg (by
    intro v hv; obtain ⟨c, _, rfl⟩ := List.mem_map.mp hv; exact abs_nonneg _)
  rcases lt_or_ge z eta with hz | hz
  · refine ⟨0, pressure_above_surface f rho g x y z eta t hz, ?_⟩
    rw [abs_zero]; positivity
  · refine ⟨_, pressureAt_eq f (le_of_eq hp) rho g x y z eta t hz, ?_⟩
    rw [abs_mul, abs_of_nonneg (mul_nonneg hrho hg)]
    have h1 : |∑ i ∈ Finset.range f.comps.length, (compAt f i).a * f.pdyn (compAt f i).k z eta * Real.sin (angleAt f x y t i)|
        ≤ ∑ i ∈ Finset.range f.comps.length, |(compAt f i).a| * A := by
      refine (Finset.abs_sum_le_sum_abs _ _).trans (Finset.sum_le_sum (fun i hi => ?_))
      have hm := hA _ (compAt_mem (Finset.mem_range.mp hi))
      rw [abs_mul, abs_mul]
      have hs := Real.abs_sin_le_one (angleAt f x y t i)
      have h0 : 0 ≤ |(compAt f i).a| := abs_nonneg _
      calc |(compAt f i).a| * |f.pdyn (compAt f i).k z eta| * |Real.sin (angleAt f x y t i)| ≤ |(compAt f i).a| * |f.pdyn (compAt f i).k z eta| * 1 := by
            apply mul_le_mul_of_nonneg_left hs; positivity
        _ ≤ |(compAt f i).a| * A := by rw [mul_one]; exact mul_le_mul_of_nonneg_left hm h0
    have h2 : ∑ i ∈ Finset.range f.comps.length, |(compAt f i).a| = (f.comps.map (fun c => |c.a|)).sum := by
      rw [← list_sum_range]
      congr 1
      apply List.ext_getElem
      · simp
      · intro i h1 h2
        have hi : i < f.comps.length := by simpa using h1
        simp [compAt, List.getElem?_eq_getElem hi]
    rw [← Finset.sum_mul, h2] at h1
    calc _ ≤ (f.comps.map (fun c => |c.a|)).sum * A * (rho * g) := mul_le_mul_of_nonneg_right h1 (mul_nonneg hrho hg)
      _ = _ := by ring

/-- C52: the infinite depth attenuation is in [0,1] below the calm water level, or below the wave surface with a Wheeler stretching (`delta = 0`).  Missing: the
other cases (`attenuation_above_one`). -/
theorem attenuation_partial (s : Stretching) (k z eta : ℝ) (hk : 0 ≤ k) (h : (s.h = 0 ∧ 0 ≤ z) ∨ (s.delta = 0 ∧ 0 < s.h ∧ eta < s.h ∧ eta ≤ z)) :
    0 ≤ pdynInf s k z eta ∧ pdynInf s k z eta ≤ 1 := by
  unfold pdynInf
  split
  · norm_num
  · refine ⟨(Real.exp_pos _).le, ?_⟩
    rw [Real.exp_le_one_iff]
    have hz : 0 ≤ s.rescaledZ z eta := by
      unfold Stretching.rescaledZ
      rcases h with ⟨h0, hz⟩ | ⟨h0, hh, he, hez⟩
      · rw [if_pos h0]; exact hz
      · rw [if_neg hh.ne']
        split
        · linarith
        · rename_i hz
          rw [h0, zero_mul, zero_sub]
          have h1 : (z - s.h) * -s.h / (eta - s.h) = -(s.h * ((s.h - z) / (s.h - eta))) := by
            have : eta - s.h ≠ 0 := by linarith
            have : s.h - eta ≠ 0 := by linarith
            field_simp
            ring
          rw [h1]
          have h2 : (s.h - z) / (s.h - eta) ≤ 1 := by rw [div_le_one (by linarith)]; linarith
          nlinarith
    nlinarith

/-- C52 (refutation): in a crest, without stretching, the attenuation is larger than 1: the dynamic pressure exceeds `ρ g a`. -/
theorem attenuation_above_one (k z eta : ℝ) (hk : 0 < k) (h1 : eta ≤ z) (h2 : z < 0) : 1 < pdynInf ⟨0, 0⟩ k z eta := by
  unfold pdynInf
  rw [if_neg (by intro h; linarith [h.2])]
  rw [Real.one_lt_exp_iff]
  simp only [Stretching.rescaledZ, if_true]
  nlinarith

/-- C52: the infinite depth attenuation decreases with depth, in the whole water column. -/
theorem attenuation_decreases (s : Stretching) (k eta : ℝ) (hk : 0 < k) (h : s.h = 0 ∨ (0 < s.h ∧ eta < s.h ∧ 0 ≤ s.delta ∧ s.delta ≤ 1)) :
    StrictAntiOn (fun z => pdynInf s k z eta) (Set.Ici eta) := by
  intro z hz z' hz' hzz
  have hz1 : ¬ (eta ≠ 0 ∧ z < eta) := fun h => absurd h.2 (not_lt.mpr hz)
  have hz2 : ¬ (eta ≠ 0 ∧ z' < eta) := fun h => absurd h.2 (not_lt.mpr hz')
  simp only [pdynInf, hz1, hz2, if_false]
  rw [Real.exp_lt_exp]
  have : s.rescaledZ z eta < s.rescaledZ z' eta := by
    rcases h with h | ⟨hh, he, h0, h1⟩
    · simpa [Stretching.rescaledZ, h] using hzz
    · have hc : 0 < (s.delta * eta - s.h) / (eta - s.h) := by
        apply div_pos_of_neg_of_neg _ (by linarith)
        by_cases hp : 0 ≤ eta <;> nlinarith
      have hform : ∀ z, z ≤ s.h → s.rescaledZ z eta = (z - s.h) * ((s.delta * eta - s.h) / (eta - s.h)) + s.h := by
        intro z hz
        unfold Stretching.rescaledZ
        rw [if_neg hh.ne', if_neg (by linarith)]; ring
      have hbot : ∀ z, s.h < z → s.rescaledZ z eta = z := by
        intro z hz
        unfold Stretching.rescaledZ
        rw [if_neg hh.ne', if_pos hz]
      rcases lt_or_ge s.h z with hb | hb
      · rw [hbot z hb, hbot z' (by linarith)]; exact hzz
      · rw [hform z hb]
        rcases lt_or_ge s.h z' with hb' | hb'
        · rw [hbot z' hb']
          have : (z - s.h) * ((s.delta * eta - s.h) / (eta - s.h)) ≤ 0 := mul_nonpos_of_nonpos_of_nonneg (by linarith) hc.le
          linarith
        · rw [hform z' hb']
          have : (z - s.h) * ((s.delta * eta - s.h) / (eta - s.h)) < (z' - s.h) * ((s.delta * eta - s.h) / (eta - s.h)) :=
            mul_lt_mul_of_pos_right (by linarith) hc
          linarith
  nlinarith

/-- C52: finite depth attenuation, without stretching: in [0,1] between the calm water level and the bottom, and zero under the bottom. -/
theorem attenuation_finite_partial (h k z eta : ℝ) (hk : 0 ≤ k) (hz : 0 ≤ z) :
    0 ≤ pdynFin h ⟨0, 0⟩ k z eta ∧ pdynFin h ⟨0, 0⟩ k z eta ≤ 1 ∧ (h < z → pdynFin h ⟨0, 0⟩ k z eta = 0) := by
  unfold pdynFin
  split
  · norm_num
  · split
    · norm_num
    · rename_i hzh
      have hzh := not_lt.mp hzh
      refine ⟨div_nonneg (Real.cosh_pos _).le (Real.cosh_pos _).le, ?_, fun h' => absurd h' (not_lt.mpr hzh)⟩
      rw [div_le_one (Real.cosh_pos _), Real.cosh_le_cosh]
      simp only [Stretching.rescaledZ, if_true]
      rw [abs_of_nonneg (mul_nonneg hk (by linarith)), abs_of_nonneg (mul_nonneg hk (by linarith))]
      nlinarith

/-- Non-vacuity. -/
example : ∃ p, pressureAt (twoWaves ⟨0, 0⟩) 1025 9.81 1 2 5 0.5 3 = .ok p ∧ |p| ≤ 1025 * 9.81 * 4 := by
  obtain ⟨p, h1, h2⟩ := pressure_bound (twoWaves ⟨0, 0⟩) (twoWaves_phases _) 1025 9.81 1 2 5 0.5 3 (by norm_num) (by norm_num) 1
    (by
      intro c hc
      have hk : 0 ≤ c.k := by simp [twoWaves] at hc; rcases hc with rfl | rfl <;> norm_num
      obtain ⟨h1, h2⟩ := attenuation_partial ⟨0, 0⟩ c.k 5 0.5 hk (.inl ⟨rfl, by norm_num⟩)
      have e : (twoWaves ⟨0, 0⟩).pdyn = pdynInf ⟨0, 0⟩ := rfl
      rw [e]
      exact abs_le.mpr ⟨by linarith, h2⟩) (by norm_num)
  refine ⟨p, h1, h2.trans (le_of_eq ?_)⟩
  simp [twoWaves]; norm_num

example : 1 < pdynInf ⟨0, 0⟩ 1 (-1) (-2) := attenuation_above_one 1 (-1) (-2) (by norm_num) (by norm_num) (by norm_num)

/-! ### C80: stretching and orbital velocities -/

/-- C80: the orbital velocities do not depend on the stretching parameters (with `h ≥ 0`): "no stretching for the orbital velocity" (comment of the code). -/
theorem velocity_ignores_stretching (f : Flat) (s s' : Stretching) (hs : 0 ≤ s.h) (hs' : 0 ≤ s'.h) (g x y z t eta : ℝ) :
    velocityAt { f with pdyn := pdynInf s, pdynSh := pdynInf s } g x y z t eta = velocityAt { f with pdyn := pdynInf s', pdynSh := pdynInf s' } g x y z t eta := by
  have h : ∀ (s : Stretching), 0 ≤ s.h → ∀ k, pdynInf s k z 0 = Real.exp (-k * z) := by
    intro s hs k
    unfold pdynInf
    rw [if_neg (by simp)]
    congr 2
    unfold Stretching.rescaledZ
    split
    · rfl
    · rename_i h0
      split
      · rfl
      · rw [mul_zero, zero_sub, mul_div_assoc, div_self (neg_ne_zero.mpr h0)]; ring
  unfold velocityAt
  simp only [h s hs, h s' hs']

/-- Non-vacuity: whereas the pressure does depend on it. -/
example : pdynInf ⟨0, 10⟩ 1 (-2) (-2) ≠ pdynInf ⟨1, 10⟩ 1 (-2) (-2) := by
  have : Real.exp 0 < Real.exp 2 := Real.exp_lt_exp.mpr (by norm_num)
  norm_num [pdynInf, Stretching.rescaledZ]
  rw [Real.exp_zero] at this
  exact this.ne

/-! ### C81, C82: the linearised equations of hydrodynamics -/

/-- Attenuation functions solution of `A' = -k B`, `B' = -k A` at depth `z`. -/
def Attenuates (A B : ℝ → ℝ → ℝ) (z : ℝ) : Prop :=
  ∀ k, HasDerivAt (A k) (-k * B k z) z ∧ HasDerivAt (B k) (-k * A k z) z

/-- The fields of a superposition of components with attenuations `A` (pressure and horizontal velocity) and `B` (vertical velocity). -/
noncomputable def fieldU (f : Flat) (A : ℝ → ℝ → ℝ) (g x y z t : ℝ) : ℝ :=
  (∑ i ∈ Finset.range f.comps.length, (compAt f i).a * (compAt f i).k / (compAt f i).omega * A (compAt f i).k z * Real.sin (angleAt f x y t i) * (compAt f i).cosPsi) * g

noncomputable def fieldV (f : Flat) (A : ℝ → ℝ → ℝ) (g x y z t : ℝ) : ℝ :=
  (∑ i ∈ Finset.range f.comps.length, (compAt f i).a * (compAt f i).k / (compAt f i).omega * A (compAt f i).k z * Real.sin (angleAt f x y t i) * (compAt f i).sinPsi) * g

noncomputable def fieldW (f : Flat) (B : ℝ → ℝ → ℝ) (g x y z t : ℝ) : ℝ :=
  (∑ i ∈ Finset.range f.comps.length, (compAt f i).a * (compAt f i).k / (compAt f i).omega * B (compAt f i).k z * Real.cos (angleAt f x y t i)) * g

noncomputable def fieldP (f : Flat) (A : ℝ → ℝ → ℝ) (rho g x y z t : ℝ) : ℝ :=
  (∑ i ∈ Finset.range f.comps.length, (compAt f i).a * A (compAt f i).k z * Real.sin (angleAt f x y t i)) * (rho * g)

/-- Common proof of C81 and C82. -/
theorem linearised_euler (f : Flat) (hd : HasDirections f) (A B : ℝ → ℝ → ℝ) (rho g x y z t : ℝ) (hw : ∀ c ∈ f.comps, c.omega ≠ 0) (hAB : Attenuates A B z) :
    LinearisedEuler rho (fieldU f A g) (fieldV f A g) (fieldW f B g) (fieldP f A rho g) x y z t := by
  unfold fieldU fieldV fieldW fieldP
  have hcs : ∀ i ∈ Finset.range f.comps.length, (compAt f i).cosPsi ^ 2 + (compAt f i).sinPsi ^ 2 = 1 := by
    intro i hi
    obtain ⟨h1, h2⟩ := hd _ (compAt_mem (Finset.mem_range.mp hi))
    rw [h1, h2]; exact Real.cos_sq_add_sin_sq _
  have hom : ∀ i ∈ Finset.range f.comps.length, (compAt f i).omega ≠ 0 := fun i hi => hw _ (compAt_mem (Finset.mem_range.mp hi))
  have ax : ∀ i, HasDerivAt (fun x => angleAt f x y t i) ((compAt f i).k * (compAt f i).cosPsi) x := fun i => angle_dx _ _ _ _ _
  have ay : ∀ i, HasDerivAt (fun y => angleAt f x y t i) ((compAt f i).k * (compAt f i).sinPsi) y := fun i => angle_dy _ _ _ _ _
  have at' : ∀ i, HasDerivAt (fun t => angleAt f x y t i) (-(compAt f i).omega) t := fun i => angle_dt _ _ _ _ _
  -- the derivatives of the sums
  have dUx := (HasDerivAt.fun_sum (u := Finset.range f.comps.length) (fun i _ => (((ax i).sin.const_mul ((compAt f i).a * (compAt f i).k / (compAt f i).omega * A (compAt f i).k z)).mul_const (compAt f i).cosPsi))).mul_const g
  have dUy := (HasDerivAt.fun_sum (u := Finset.range f.comps.length) (fun i _ => (((ay i).sin.const_mul ((compAt f i).a * (compAt f i).k / (compAt f i).omega * A (compAt f i).k z)).mul_const (compAt f i).cosPsi))).mul_const g
  have dUt := (HasDerivAt.fun_sum (u := Finset.range f.comps.length) (fun i _ => (((at' i).sin.const_mul ((compAt f i).a * (compAt f i).k / (compAt f i).omega * A (compAt f i).k z)).mul_const (compAt f i).cosPsi))).mul_const g
  have dUz := (HasDerivAt.fun_sum (u := Finset.range f.comps.length) (fun i _ => ((((hAB (compAt f i).k).1.const_mul ((compAt f i).a * (compAt f i).k / (compAt f i).omega)).mul_const (Real.sin (angleAt f x y t i))).mul_const (compAt f i).cosPsi))).mul_const g
  have dVx := (HasDerivAt.fun_sum (u := Finset.range f.comps.length) (fun i _ => (((ax i).sin.const_mul ((compAt f i).a * (compAt f i).k / (compAt f i).omega * A (compAt f i).k z)).mul_const (compAt f i).sinPsi))).mul_const g
  have dVy := (HasDerivAt.fun_sum (u := Finset.range f.comps.length) (fun i _ => (((ay i).sin.const_mul ((compAt f i).a * (compAt f i).k / (compAt f i).omega * A (compAt f i).k z)).mul_const (compAt f i).sinPsi))).mul_const g
  have dVt := (HasDerivAt.fun_sum (u := Finset.range f.comps.length) (fun i _ => (((at' i).sin.const_mul ((compAt f i).a * (compAt f i).k / (compAt f i).omega * A (compAt f i).k z)).mul_const (compAt f i).sinPsi))).mul_const g
  have dVz := (HasDerivAt.fun_sum (u := Finset.range f.comps.length) (fun i _ => ((((hAB (compAt f i).k).1.const_mul ((compAt f i).a * (compAt f i).k / (compAt f i).omega)).mul_const (Real.sin (angleAt f x y t i))).mul_const (compAt f i).sinPsi))).mul_const g
  have dWx := (HasDerivAt.fun_sum (u := Finset.range f.comps.length) (fun i _ => ((ax i).cos.const_mul ((compAt f i).a * (compAt f i).k / (compAt f i).omega * B (compAt f i).k z)))).mul_const g
  have dWy := (HasDerivAt.fun_sum (u := Finset.range f.comps.length) (fun i _ => ((ay i).cos.const_mul ((compAt f i).a * (compAt f i).k / (compAt f i).omega * B (compAt f i).k z)))).mul_const g
  have dWt := (HasDerivAt.fun_sum (u := Finset.range f.comps.length) (fun i _ => ((at' i).cos.const_mul ((compAt f i).a * (compAt f i).k / (compAt f i).omega * B (compAt f i).k z)))).mul_const g
  have dWz := (HasDerivAt.fun_sum (u := Finset.range f.comps.length) (fun i _ => (((hAB (compAt f i).k).2.const_mul ((compAt f i).a * (compAt f i).k / (compAt f i).omega)).mul_const (Real.cos (angleAt f x y t i))))).mul_const g
  have dPx := (HasDerivAt.fun_sum (u := Finset.range f.comps.length) (fun i _ => ((ax i).sin.const_mul ((compAt f i).a * A (compAt f i).k z)))).mul_const (rho * g)
  have dPy := (HasDerivAt.fun_sum (u := Finset.range f.comps.length) (fun i _ => ((ay i).sin.const_mul ((compAt f i).a * A (compAt f i).k z)))).mul_const (rho * g)
  have dPz := (HasDerivAt.fun_sum (u := Finset.range f.comps.length) (fun i _ => (((hAB (compAt f i).k).1.const_mul ((compAt f i).a)).mul_const (Real.sin (angleAt f x y t i))))).mul_const (rho * g)
  refine ⟨?_, ?_, ?_, ?_, ?_, ?_, ?_⟩
  · rw [dUx.deriv, dVy.deriv, dWz.deriv, ← add_mul, ← add_mul, ← Finset.sum_add_distrib, ← Finset.sum_add_distrib]
    rw [Finset.sum_eq_zero, zero_mul]
    intro i hi
    linear_combination (compAt f i).a * (compAt f i).k / (compAt f i).omega * A (compAt f i).k z * Real.cos (angleAt f x y t i) * (compAt f i).k * hcs i hi
  · rw [dUz.deriv, dWx.deriv]
    congr 1
    exact Finset.sum_congr rfl (fun i _ => by ring)
  · rw [dVz.deriv, dWy.deriv]
    congr 1
    exact Finset.sum_congr rfl (fun i _ => by ring)
  · rw [dUy.deriv, dVx.deriv]
    congr 1
    exact Finset.sum_congr rfl (fun i _ => by ring)
  · rw [dUt.deriv, dPx.deriv, Finset.sum_mul, Finset.sum_mul, Finset.mul_sum, ← Finset.sum_neg_distrib]
    exact Finset.sum_congr rfl (fun i hi => by have := hom i hi; field_simp)
  · rw [dVt.deriv, dPy.deriv, Finset.sum_mul, Finset.sum_mul, Finset.mul_sum, ← Finset.sum_neg_distrib]
    exact Finset.sum_congr rfl (fun i hi => by have := hom i hi; field_simp)
  · rw [dWt.deriv, dPz.deriv, Finset.sum_mul, Finset.sum_mul, Finset.mul_sum, ← Finset.sum_neg_distrib]
    exact Finset.sum_congr rfl (fun i hi => by have := hom i hi; field_simp)

/-- Date derivative of the elevation. -/
theorem elevation_dt (f : Flat) (hp : HasPhases f) (x y t : ℝ) :
    HasDerivAt (fun t => airySum f x y t) (∑ i ∈ Finset.range f.comps.length, (compAt f i).a * (compAt f i).omega * Real.cos (angleAt f x y t i)) t := by
  have e : (fun t => airySum f x y t) = fun t => ∑ i ∈ Finset.range f.comps.length, -((compAt f i).a * Real.sin (angleAt f x y t i)) := by
    funext t; exact airySum_eq f hp x y t
  rw [e]
  have at' : ∀ i, HasDerivAt (fun t => angleAt f x y t i) (-(compAt f i).omega) t := fun i => angle_dt _ _ _ _ _
  refine (HasDerivAt.fun_sum (u := Finset.range f.comps.length) (fun i _ => ((at' i).sin.const_mul (compAt f i).a).neg)).congr_deriv ?_
  exact Finset.sum_congr rfl (fun i _ => by ring)

theorem fieldP_surface (f : Flat) (hp : HasPhases f) (A : ℝ → ℝ → ℝ) (rho g x y t : ℝ) (hA : ∀ k, A k 0 = 1) :
    fieldP f A rho g x y 0 t = -(rho * g * airySum f x y t) := by
  rw [airySum_eq f hp, Finset.sum_neg_distrib]
  simp only [fieldP, hA, mul_one]
  ring

theorem fieldW_surface (f : Flat) (hp : HasPhases f) (B : ℝ → ℝ → ℝ) (g x y t : ℝ) (hw : ∀ c ∈ f.comps, c.omega ≠ 0)
    (hB : ∀ c ∈ f.comps, g * c.k * B c.k 0 = c.omega ^ 2) :
    fieldW f B g x y 0 t = deriv (fun t => airySum f x y t) t := by
  rw [(elevation_dt f hp x y t).deriv, fieldW, Finset.sum_mul]
  refine Finset.sum_congr rfl (fun i hi => ?_)
  have hm := compAt_mem (f := f) (Finset.mem_range.mp hi)
  have h1 := hB _ hm
  have h2 := hw _ hm
  field_simp
  linear_combination (compAt f i).a * Real.cos (angleAt f x y t i) * h1

/-- C81: in infinite depth, without stretching, the velocities and the pressure returned for the points under the surface are those of a solution of the
linearised Euler equations; the total (dynamic + hydrostatic) pressure at the mean level follows the elevation (`p(0) = -ρ g η`); and when the wave numbers
follow the dispersion relation, the vertical velocity at the mean level is the one of the surface. -/
theorem airy_infinite_depth (f : Flat) (hp : HasPhases f) (hd : HasDirections f) (s : Stretching) (hs : s.h = 0) (hf : f.pdyn = pdynInf s ∧ f.pdynSh = pdynInf s)
    (hw : ∀ c ∈ f.comps, c.omega ≠ 0) (rho g : ℝ) :
    ∃ U V W P : ℝ → ℝ → ℝ → ℝ → ℝ,
      (∀ x y z t eta, eta ≤ z → velocityAt f g x y z t eta = .ok (U x y z t, V x y z t, W x y z t) ∧ pressureAt f rho g x y z eta t = .ok (P x y z t))
      ∧ (∀ x y z t, LinearisedEuler rho U V W P x y z t)
      ∧ (∀ x y t eta, elevationAt f x y t = .ok eta → P x y 0 t + rho * g * eta = 0)
      ∧ ((∀ c ∈ f.comps, g * c.k = c.omega ^ 2) → ∀ x y t, ∃ E : ℝ → ℝ, (∀ t, elevationAt f x y t = .ok (E t)) ∧ W x y 0 t = deriv E t) := by
  have hres : ∀ z eta, s.rescaledZ z eta = z := by intro z eta; simp [Stretching.rescaledZ, hs]
  refine ⟨fieldU f (fun k z => Real.exp (-k * z)) g, fieldV f (fun k z => Real.exp (-k * z)) g, fieldW f (fun k z => Real.exp (-k * z)) g,
    fieldP f (fun k z => Real.exp (-k * z)) rho g, ?_, ?_, ?_, ?_⟩
  · intro x y z t eta hz
    have h1 : ∀ k, f.pdyn k z 0 = Real.exp (-k * z) := by intro k; rw [hf.1]; simp [pdynInf, hres]
    have h2 : ∀ k, f.pdynSh k z 0 = Real.exp (-k * z) := by intro k; rw [hf.2]; simp [pdynInf, hres]
    have h3 : ∀ k, f.pdyn k z eta = Real.exp (-k * z) := by intro k; rw [hf.1]; simp [pdynInf, hres, not_lt.mpr hz]
    constructor
    · rw [velocityAt_eq f (le_of_eq hp) g x y z t eta hz]
      simp only [sumU, sumV, sumW, h1, h2, fieldU, fieldV, fieldW]
    · rw [pressureAt_eq f (le_of_eq hp) rho g x y z eta t hz]
      simp only [h3, fieldP]
  · intro x y z t
    refine linearised_euler f hd _ _ rho g x y z t hw (fun k => ?_)
    have : HasDerivAt (fun z => Real.exp (-k * z)) (-k * Real.exp (-k * z)) z := by
      refine ((hasDerivAt_id z).const_mul (-k)).exp.congr_deriv ?_
      simp only [id]; ring
    exact ⟨this, this⟩
  · intro x y t eta he
    rw [elevation_superposition f hp] at he
    simp only [Except.ok.injEq] at he
    rw [fieldP_surface f hp _ rho g x y t (by simp), he]; ring
  · intro hk x y t
    refine ⟨fun t => airySum f x y t, fun t => elevation_superposition f hp x y t, ?_⟩
    exact fieldW_surface f hp _ g x y t hw (fun c hc => by simpa using hk c hc)

/-- C82: the same in finite depth `h`, for the points between the surface and the bottom, with the dispersion relation `g k tanh(k h) = ω²`, and the
impermeability of the bottom. -/
theorem airy_finite_depth (f : Flat) (hp : HasPhases f) (hd : HasDirections f) (s : Stretching) (hs : s.h = 0) (h : ℝ) (hf : f.pdyn = pdynFin h s ∧ f.pdynSh = pdynShFin h s)
    (hw : ∀ c ∈ f.comps, c.omega ≠ 0) (rho g : ℝ) :
    ∃ U V W P : ℝ → ℝ → ℝ → ℝ → ℝ,
      (∀ x y z t eta, eta ≤ z → z ≤ h → velocityAt f g x y z t eta = .ok (U x y z t, V x y z t, W x y z t) ∧ pressureAt f rho g x y z eta t = .ok (P x y z t))
      ∧ (∀ x y z t, LinearisedEuler rho U V W P x y z t)
      ∧ (∀ x y t, W x y h t = 0)
      ∧ (∀ x y t eta, elevationAt f x y t = .ok eta → P x y 0 t + rho * g * eta = 0)
      ∧ ((∀ c ∈ f.comps, g * c.k * Real.tanh (c.k * h) = c.omega ^ 2) → ∀ x y t, ∃ E : ℝ → ℝ, (∀ t, elevationAt f x y t = .ok (E t)) ∧ W x y 0 t = deriv E t) := by
  have hres : ∀ z eta, s.rescaledZ z eta = z := by intro z eta; simp [Stretching.rescaledZ, hs]
  refine ⟨fieldU f (fun k z => Real.cosh (k * (h - z)) / Real.cosh (k * h)) g, fieldV f (fun k z => Real.cosh (k * (h - z)) / Real.cosh (k * h)) g,
    fieldW f (fun k z => Real.sinh (k * (h - z)) / Real.cosh (k * h)) g, fieldP f (fun k z => Real.cosh (k * (h - z)) / Real.cosh (k * h)) rho g, ?_, ?_, ?_, ?_, ?_⟩
  · intro x y z t eta hz hzh
    have h1 : ∀ k, f.pdyn k z 0 = Real.cosh (k * (h - z)) / Real.cosh (k * h) := by intro k; rw [hf.1]; simp [pdynFin, hres, not_lt.mpr hzh]
    have h2 : ∀ k, f.pdynSh k z 0 = Real.sinh (k * (h - z)) / Real.cosh (k * h) := by intro k; rw [hf.2]; simp [pdynShFin, hres, not_lt.mpr hzh]
    have h3 : ∀ k, f.pdyn k z eta = Real.cosh (k * (h - z)) / Real.cosh (k * h) := by
      intro k; rw [hf.1]; simp [pdynFin, hres, not_lt.mpr hz, not_lt.mpr hzh]
    constructor
    · rw [velocityAt_eq f (le_of_eq hp) g x y z t eta hz]
      simp only [sumU, sumV, sumW, h1, h2, fieldU, fieldV, fieldW]
    · rw [pressureAt_eq f (le_of_eq hp) rho g x y z eta t hz]
      simp only [h3, fieldP]
  · intro x y z t
    refine linearised_euler f hd _ _ rho g x y z t hw (fun k => ?_)
    have hin : HasDerivAt (fun z => k * (h - z)) (-k) z := by
      refine (((hasDerivAt_id z).const_sub h).const_mul k).congr_deriv ?_
      ring
    constructor
    · refine (hin.cosh.div_const (Real.cosh (k * h))).congr_deriv ?_
      ring
    · refine (hin.sinh.div_const (Real.cosh (k * h))).congr_deriv ?_
      ring
  · intro x y t
    simp [fieldW]
  · intro x y t eta he
    rw [elevation_superposition f hp] at he
    simp only [Except.ok.injEq] at he
    rw [fieldP_surface f hp _ rho g x y t (fun k => by rw [sub_zero, div_self (Real.cosh_pos _).ne']), he]; ring
  · intro hk x y t
    refine ⟨fun t => airySum f x y t, fun t => elevation_superposition f hp x y t, ?_⟩
    refine fieldW_surface f hp _ g x y t hw (fun c hc => ?_)
    rw [← hk c hc, Real.tanh_eq_sinh_div_cosh, sub_zero]

/-- The infinite depth wave number satisfies the dispersion relation for `g = 9.81` only. -/
theorem waveNumber_dispersion (omega : ℝ) : 9.81 * waveNumber omega = omega ^ 2 := by
  unfold waveNumber; field_simp

/-- Non-vacuity: the two waves of the example. -/
example : ∃ U V W P : ℝ → ℝ → ℝ → ℝ → ℝ,
    (∀ x y z t eta, eta ≤ z → velocityAt (twoWaves ⟨0, 0⟩) 9.81 x y z t eta = .ok (U x y z t, V x y z t, W x y z t)) ∧ ∀ x y z t, LinearisedEuler 1025 U V W P x y z t := by
  obtain ⟨U, V, W, P, h1, h2, _⟩ := airy_infinite_depth (twoWaves ⟨0, 0⟩) (twoWaves_phases _) (twoWaves_directions _) ⟨0, 0⟩ rfl ⟨rfl, rfl⟩
    (by intro c hc; simp [twoWaves] at hc; rcases hc with rfl | rfl <;> norm_num) 1025 9.81
  exact ⟨U, V, W, P, fun x y z t eta h => (h1 x y z t eta h).1, h2⟩

/-! ### C83: RAO -/

/-- C83: a RAO of module 1 and phase 0 gives the elevation. -/
theorem rao_identity (f : Flat) (hp : HasPhases f) (x y t : ℝ) :
    evaluateRao f x y t (List.replicate f.comps.length 1) (List.replicate f.comps.length 0) = elevationAt f x y t := by
  rw [elevationAt_eq f (le_of_eq hp)]
  unfold evaluateRao
  rw [if_neg (by simp), List.length_replicate, foldlM_add (F := fun i => -((compAt f i).a * Real.sin (angleAt f x y t i))), zero_add]
  intro z i hi
  have h1 : i < (List.replicate f.comps.length (1 : ℝ)).length := by simpa using hi
  have h2 : i < (List.replicate f.comps.length (0 : ℝ)).length := by simpa using hi
  simp only [getUB_of_lt h1, getUB_of_lt h2, getUB_comp hi, getUB_fn (lt_of_lt_of_le hi (le_of_eq hp)), bind, Except.bind, pure, Except.pure,
    List.getElem_replicate, one_mul, add_zero, angleAt, sub_eq_add_neg]

/-- C83: the response is at most the sum of `|module × a|`. -/
theorem rao_bound (f : Flat) (hp : HasPhases f) (x y t : ℝ) (m p : List ℝ) (hm : m.length = f.comps.length) (hpl : p.length = f.comps.length) :
    ∃ F, evaluateRao f x y t m p = .ok F ∧ |F| ≤ ((m.zip f.comps).map (fun q => |q.1 * q.2.a|)).sum := by
  unfold evaluateRao
  rw [if_neg (by simpa using hm), hm, foldlM_add (F := fun i => -(fn m i * (compAt f i).a * Real.sin (angleAt f x y t i + fn p i))), zero_add]
  · refine ⟨_, rfl, ?_⟩
    have e : (m.zip f.comps).map (fun q => |q.1 * q.2.a|) = (List.range f.comps.length).map (fun i => |fn m i * (compAt f i).a|) := by
      apply List.ext_getElem
      · simp [hm]
      · intro i h1 h2
        have hi : i < f.comps.length := by simpa using h2
        have hj : i < m.length := by omega
        simp [compAt, fn, List.getElem?_eq_getElem hi, List.getElem?_eq_getElem hj]
    rw [e, list_sum_range]
    refine (Finset.abs_sum_le_sum_abs _ _).trans (Finset.sum_le_sum (fun i _ => ?_))
    rw [abs_neg, abs_mul]
    exact mul_le_of_le_one_right (abs_nonneg _) (Real.abs_sin_le_one _)
  · intro z i hi
    simp only [getUB_fn (show i < m.length by omega), getUB_fn (show i < p.length by omega), getUB_comp hi, getUB_fn (lt_of_lt_of_le hi (le_of_eq hp)), bind,
      Except.bind, pure, Except.pure, angleAt, sub_eq_add_neg]

/-- C83: a RAO of another size than the spectrum is refused. -/
theorem rao_size (f : Flat) (x y t : ℝ) (m p : List ℝ) (hm : m.length ≠ f.comps.length) : evaluateRao f x y t m p = .error (.throw "InternalErrorException") := by
  simp [evaluateRao, hm]

/-- Non-vacuity. -/
example : ∃ F, evaluateRao (twoWaves ⟨0, 0⟩) 0 0 1 [1, 2] [3, 4] = .ok F ∧ |F| ≤ 7 := by
  obtain ⟨F, h1, h2⟩ := rao_bound (twoWaves ⟨0, 0⟩) (twoWaves_phases _) 0 0 1 [1, 2] [3, 4] rfl rfl
  refine ⟨F, h1, h2.trans ?_⟩
  simp [twoWaves]; norm_num

/-! ### C84: the finite depth dispersion relation -/

/-- C84: the derivatives given to the root search are the derivatives of the function. -/
theorem waveNumberFunctor_derivatives (h omega k : ℝ) :
    HasDerivAt (fun k => (waveNumberFunctor h omega k).1) (waveNumberFunctor h omega k).2.1 k
      ∧ HasDerivAt (fun k => (waveNumberFunctor h omega k).2.1) (waveNumberFunctor h omega k).2.2 k := by
  have hth : ∀ k, HasDerivAt (fun k => Real.tanh (k * h)) ((1 - Real.tanh (k * h) * Real.tanh (k * h)) * h) k := by
    intro k
    have hin : HasDerivAt (fun k : ℝ => k * h) h k := by simpa using (hasDerivAt_id k).mul_const h
    have e : (fun k => Real.tanh (k * h)) = fun k => Real.sinh (k * h) / Real.cosh (k * h) := by
      funext k; exact Real.tanh_eq_sinh_div_cosh _
    rw [e]
    have hc := (Real.cosh_pos (k * h)).ne'
    refine (hin.sinh.div hin.cosh hc).congr_deriv ?_
    rw [Real.tanh_eq_sinh_div_cosh]
    field_simp
  have hgk : HasDerivAt (fun k : ℝ => (9.81 : ℝ) * k) 9.81 k := by simpa using (hasDerivAt_id k).const_mul (9.81 : ℝ)
  constructor
  · simp only [waveNumberFunctor]
    refine ((hgk.mul (hth k)).sub_const (omega * omega)).congr_deriv ?_
    ring
  · simp only [waveNumberFunctor]
    have h1 : HasDerivAt (fun k => 1 - Real.tanh (k * h) * Real.tanh (k * h)) _ k := ((hth k).mul (hth k)).const_sub 1
    refine (((hth k).const_mul 9.81).add ((hgk.mul h1).mul_const h)).congr_deriv ?_
    ring

end Xdyn.Waves

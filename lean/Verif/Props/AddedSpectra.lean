import Verif.Model.AddedSpectra
import Verif.Props.Waves
import Verif.Props.Spectra

/-! C204: sums of spectra. -/

namespace Xdyn.Waves

open Spec

theorem mem_sortedSet (l : List ℝ) (x : ℝ) : x ∈ sortedSet l ↔ x ∈ l := by simp [sortedSet]

theorem sortedSet_increasing (l : List ℝ) : (sortedSet l).Pairwise (· < ·) := by
  have h1 := l.toFinset.pairwise_sort (fun a b : ℝ => a ≤ b)
  have h2 : (sortedSet l).Pairwise (· ≠ ·) := l.toFinset.sort_nodup (fun a b : ℝ => a ≤ b)
  exact (h1.and h2).imp fun h => lt_of_le_of_ne h.1 h.2

theorem sortedSet_eq {l m : List ℝ} (hm : m.Pairwise (· < ·)) (h : ∀ x, x ∈ l ↔ x ∈ m) : sortedSet l = m := by
  have e : l.toFinset = m.toFinset := by
    ext x
    simp [h]
  unfold sortedSet
  rw [e, List.toFinset_sort (r := fun a b : ℝ => a ≤ b) (hm.imp fun h => h.ne)]
  exact hm.imp fun h => h.le

theorem mapM_forall₂ {α β : Type} {f : α → Except Err β} : ∀ {l : List α} {r : List β}, List.Forall₂ (fun a b => f a = .ok b) l r → l.mapM f = .ok r
  | [], _, .nil => by simp [pure, Except.pure]
  | _ :: _, _, .cons h hs => by simp only [List.mapM_cons, h, mapM_forall₂ hs, bind, Except.bind, pure, Except.pure]

/-- **C204** The sum of spectral densities is, at each frequency that they all accept, the sum of their values. -/
theorem added_value (number : ℝ → ℝ → Except Err ℝ) (omega : ℝ) (terms : List Density) (values : List ℝ)
    (h : List.Forall₂ (fun t v => t.value omega = .ok v) terms values) :
    (addDensities number terms).value omega = .ok values.sum := by
  have key : ∀ (acc : ℝ), terms.foldlM (fun ret t => do return ret + (← Density.value t omega)) acc = (.ok (acc + values.sum) : Except Err ℝ) := by
    induction h with
    | nil => intro acc; simp [pure, Except.pure]
    | cons h _ ih =>
      intro acc
      rw [List.foldlM_cons]
      simp only [h, bind, Except.bind, pure, Except.pure]
      simp only [bind, Except.bind, pure, Except.pure] at ih
      rw [ih, List.sum_cons, add_assoc]
  exact (key 0).trans (by rw [zero_add])

/-- **C204** A frequency that one of them refuses is refused. -/
theorem added_refused (number : ℝ → ℝ → Except Err ℝ) (omega : ℝ) (before after : List Density) (t : Density) (values : List ℝ) (e : Err)
    (h : List.Forall₂ (fun t v => t.value omega = .ok v) before values) (ht : t.value omega = .error e) :
    (addDensities number (before ++ t :: after)).value omega = .error e := by
  have key : ∀ (acc : ℝ), (before ++ t :: after).foldlM (fun ret t => do return ret + (← Density.value t omega)) acc = (.error e : Except Err ℝ) := by
    induction h with
    | nil => intro acc; simp [List.foldlM_cons, ht, bind, Except.bind]
    | cons h _ ih =>
      intro acc
      rw [List.cons_append, List.foldlM_cons]
      simp only [h, bind, Except.bind, pure, Except.pure]
      simp only [bind, Except.bind, pure, Except.pure] at ih
      exact ih _
  exact key 0

/-- **C204** The frequencies of a sum are the frequencies of its terms, each one once, in increasing order. -/
theorem added_frequencies (number : ℝ → ℝ → Except Err ℝ) (a b : ℝ) (n : Nat) (terms : List Density) (lists : List (List ℝ))
    (h : List.Forall₂ (fun t l => t.angular a b n = .ok l) terms lists) :
    ∃ l, (addDensities number terms).angular a b n = .ok l ∧ l.Pairwise (· < ·) ∧ ∀ x, x ∈ l ↔ ∃ m ∈ lists, x ∈ m := by
  refine ⟨sortedSet lists.flatten, ?_, sortedSet_increasing _, fun x => ?_⟩
  · simp only [addDensities, mapM_forall₂ h, bind, Except.bind, pure, Except.pure]
  · rw [mem_sortedSet, List.mem_flatten]

/-- **C204** A sum of directional spreadings: values and directions. -/
theorem added_spreadings (terms : List Spreading) (n : Nat) (psi : ℝ) :
    (addSpreadings terms).value psi = (terms.map fun t => t.value psi).sum ∧
      ((addSpreadings terms).directions n).Pairwise (· < ·) ∧ ∀ x, x ∈ (addSpreadings terms).directions n ↔ ∃ t ∈ terms, x ∈ t.directions n := by
  refine ⟨?_, sortedSet_increasing _, fun x => ?_⟩
  · have key : ∀ (l : List Spreading) (acc : ℝ), l.foldl (fun ret t => ret + t.value psi) acc = acc + (l.map fun t => t.value psi).sum := by
      intro l
      induction l with
      | nil => simp
      | cons t l ih => intro acc; simp [ih, add_assoc]
    simp [addSpreadings, key]
  · simp [addSpreadings, mem_sortedSet]

/-- The energy of a sea: the sum of `a²/2` over its components. -/
noncomputable def seaEnergy (f : Flat) : ℝ := (f.comps.map fun c => c.a ^ 2 / 2).sum

/-- The energy of the sea that is built from a spectral density `S` (values `v`, frequencies `omega`) and a directional spreading. -/
theorem sea_energy (S : Density) (D : Spreading) (a b : ℝ) (n : Nat) (st : Stretching) (rng : Nat → Nat → ℝ) (omega : List ℝ) (v : ℝ → ℝ)
    (ha : S.angular a b n = .ok omega) (ho : omega ≠ []) (so : omega.Pairwise (· < ·)) (hv : ∀ w ∈ omega, S.value w = .ok (v w)) (hv0 : ∀ w ∈ omega, 0 ≤ v w)
    (hp : D.directions n ≠ []) (sp : (D.directions n).Pairwise (· < ·)) (hD : ∀ p ∈ D.directions n, 0 ≤ D.value p) :
    ∃ d f, discretizeInf S D a b n st = .ok d ∧ waveModelRandom d rng = .ok f ∧
      seaEnergy f = integral omega.length (fn omega) (fn (omega.map v)) * integral (D.directions n).length (fn (D.directions n)) (fn ((D.directions n).map D.value)) := by
  obtain ⟨d, hd⟩ : ∃ d : Discrete, d =
      { Si := omega.map v, Dj := (D.directions n).map D.value, omega := omega, psi := D.directions n, k := omega.map waveNumber, phase := [], pdyn := pdynInf st,
        pdynSh := pdynInf st } := ⟨_, rfl⟩
  have hdi : discretizeInf S D a b n st = .ok d := by
    simp only [discretizeInf, commonPart, ha, mapM_ok omega hv, bind, Except.bind, pure, Except.pure, hd]
  have h1 : d.omega = omega := by rw [hd]
  have h2 : d.psi = D.directions n := by rw [hd]
  have hS : d.Si.length = d.omega.length := by rw [hd]; simp
  have hk : d.k.length = d.omega.length := by rw [hd]; simp
  have hDj : d.Dj.length = d.psi.length := by rw [hd]; simp
  obtain ⟨f, hf, -⟩ := random_phases d rng hS hk hDj (by rwa [h1]) (by rwa [h2])
  refine ⟨d, f, hdi, hf, ?_⟩
  have e : addRandomPhases d rng = { d with phase := (List.range d.omega.length).map (fun i => (List.range d.psi.length).map (rng i)) } := by
    have hpos : d.omega.length * d.psi.length > 0 := Nat.mul_pos (List.length_pos_iff.mpr (by rwa [h1])) (List.length_pos_iff.mpr (by rwa [h2]))
    simp only [addRandomPhases, hS, hDj, hpos, if_true]
  have w : WellFormed (addRandomPhases d rng) := by
    rw [e]
    refine ⟨hS, hk, hDj, by simp, ?_⟩
    intro r hr
    obtain ⟨i, _, rfl⟩ := List.mem_map.mp hr
    simp
  obtain ⟨f', hf', hE⟩ := flatten_energy (addRandomPhases d rng) w (by rw [e]; simpa [h1] using ho) (by rw [e]; simpa [h2] using hp)
    (by
      rw [e, hd]
      intro x hx
      obtain ⟨y, hy, rfl⟩ := List.mem_map.mp hx
      exact hv0 y hy)
    (by
      rw [e, hd]
      intro x hx
      obtain ⟨y, hy, rfl⟩ := List.mem_map.mp hx
      exact hD y hy)
    (by rw [e, hd]; exact so.imp fun h => h.le) (by rw [e, hd]; exact sp.imp fun h => h.le)
  have hff : f = f' := by
    unfold waveModelRandom at hf
    rw [hf'] at hf
    simp only [bind, Except.bind, pure, Except.pure] at hf
    split at hf
    · cases hf
    · exact (Except.ok.inj hf).symm
  rw [seaEnergy, hff, hE, e, hd]

theorem fn_add (omega : List ℝ) (v1 v2 : ℝ → ℝ) (i : Nat) : fn (omega.map fun w => v1 w + v2 w) i = fn (omega.map v1) i + fn (omega.map v2) i := by
  by_cases h : i < omega.length
  · simp [fn, h]
  · simp [fn, List.getElem?_eq_none (not_lt.mp h)]

theorem integral_add (n : Nat) (x y1 y2 y : Nat → ℝ) (h : ∀ i, y i = y1 i + y2 i) : integral n x y = integral n x y1 + integral n x y2 := by
  unfold integral trapezoid
  split_ifs
  · exact h 0
  · rw [← Finset.sum_add_distrib]
    refine Finset.sum_congr rfl fun i _ => ?_
    rw [h, h]
    ring

/-- **C204** (partial: the two densities have the same frequencies, as those of irregular waves do) The sea built from the sum of two spectral densities has the energy of the two
seas built from each of them. Missing: sums with a regular wave (`regular_wave_added_refuted`). -/
theorem added_energy_partial (number : ℝ → ℝ → Except Err ℝ) (S1 S2 : Density) (D : Spreading) (a b : ℝ) (n : Nat) (st : Stretching) (rng rng1 rng2 : Nat → Nat → ℝ)
    (omega : List ℝ) (v1 v2 : ℝ → ℝ) (ha1 : S1.angular a b n = .ok omega) (ha2 : S2.angular a b n = .ok omega) (ho : omega ≠ []) (so : omega.Pairwise (· < ·))
    (hv1 : ∀ w ∈ omega, S1.value w = .ok (v1 w) ∧ 0 ≤ v1 w) (hv2 : ∀ w ∈ omega, S2.value w = .ok (v2 w) ∧ 0 ≤ v2 w)
    (hp : D.directions n ≠ []) (sp : (D.directions n).Pairwise (· < ·)) (hD : ∀ p ∈ D.directions n, 0 ≤ D.value p) :
    ∃ d d1 d2 f f1 f2, discretizeInf S1 D a b n st = .ok d1 ∧ discretizeInf S2 D a b n st = .ok d2 ∧ discretizeInf (addDensities number [S1, S2]) D a b n st = .ok d ∧
      waveModelRandom d1 rng1 = .ok f1 ∧ waveModelRandom d2 rng2 = .ok f2 ∧ waveModelRandom d rng = .ok f ∧ seaEnergy f = seaEnergy f1 + seaEnergy f2 := by
  obtain ⟨d1, f1, h11, h12, h13⟩ := sea_energy S1 D a b n st rng1 omega v1 ha1 ho so (fun w hw => (hv1 w hw).1) (fun w hw => (hv1 w hw).2) hp sp hD
  obtain ⟨d2, f2, h21, h22, h23⟩ := sea_energy S2 D a b n st rng2 omega v2 ha2 ho so (fun w hw => (hv2 w hw).1) (fun w hw => (hv2 w hw).2) hp sp hD
  have ha : (addDensities number [S1, S2]).angular a b n = .ok omega := by
    simp only [addDensities, List.mapM_cons, List.mapM_nil, ha1, ha2, bind, Except.bind, pure, Except.pure]
    rw [sortedSet_eq so (by simp)]
  obtain ⟨d, f, h1, h2, h3⟩ := sea_energy (addDensities number [S1, S2]) D a b n st rng omega (fun w => v1 w + v2 w) ha ho so
    (fun w hw => by
      have := added_value number w [S1, S2] [v1 w, v2 w] (.cons (hv1 w hw).1 (.cons (hv2 w hw).1 .nil))
      simpa using this)
    (fun w hw => add_nonneg (hv1 w hw).2 (hv2 w hw).2) hp sp hD
  refine ⟨d, d1, d2, f, f1, f2, h11, h21, h1, h12, h22, h2, ?_⟩
  rw [h3, h13, h23, ← add_mul]
  congr 1
  exact integral_add _ _ _ _ _ (fn_add omega v1 v2)

/-! ### Concrete cases -/

/-- A long-crested sea, that goes to the North. -/
noncomputable def toTheNorth : Spreading := ⟨diracSpreading 0, fun _ => [0]⟩

/-- Irregular waves -/
noncomputable def irregular (number : ℝ → ℝ → Except Err ℝ) (Hs Tp : ℝ) : Density := ⟨bretschneider Hs Tp, getAngularFrequencies, number⟩

/-- A regular wave -/
noncomputable def regular (number : ℝ → ℝ → Except Err ℝ) (omega0 Hs : ℝ) : Density := ⟨diracDensity omega0 Hs, fun _ _ _ => .ok [omega0], number⟩

theorem three_frequencies : getAngularFrequencies 1 2 3 = .ok [1, 3 / 2, 2] := by
  simp [getAngularFrequencies, List.range_succ]
  norm_num

/-- A swell and a wind sea: the hypotheses of `added_energy_partial` are met. -/
example (number : ℝ → ℝ → Except Err ℝ) (st : Stretching) (rng : Nat → Nat → ℝ) : ∃ d d1 d2 f f1 f2,
    discretizeInf (irregular number 2 12) toTheNorth 1 2 3 st = .ok d1 ∧ discretizeInf (irregular number 1 5) toTheNorth 1 2 3 st = .ok d2 ∧
      discretizeInf (addDensities number [irregular number 2 12, irregular number 1 5]) toTheNorth 1 2 3 st = .ok d ∧
      waveModelRandom d1 rng = .ok f1 ∧ waveModelRandom d2 rng = .ok f2 ∧ waveModelRandom d rng = .ok f ∧ seaEnergy f = seaEnergy f1 + seaEnergy f2 := by
  have hpos : ∀ w ∈ [(1 : ℝ), 3 / 2, 2], 0 < w := by simp
  have nonneg : ∀ Hs Tp w : ℝ, 0 < w → 0 < Tp → 0 ≤ bretDens Hs (2 * Real.pi / Tp) w := by
    intro Hs Tp w hw hT
    unfold bretDens
    positivity
  exact added_energy_partial number _ _ toTheNorth 1 2 3 st rng rng rng [1, 3 / 2, 2] (bretDens 2 (2 * Real.pi / 12)) (bretDens 1 (2 * Real.pi / 5)) three_frequencies
    three_frequencies (by simp) (by simp; norm_num)
    (fun w hw => ⟨bretschneider_eq 2 12 w (by norm_num) (by norm_num) (hpos w hw), nonneg 2 12 w (hpos w hw) (by norm_num)⟩)
    (fun w hw => ⟨bretschneider_eq 1 5 w (by norm_num) (by norm_num) (hpos w hw), nonneg 1 5 w (hpos w hw) (by norm_num)⟩)
    (by simp [toTheNorth]) (by simp [toTheNorth]) (by norm_num [toTheNorth, diracSpreading])

/-- **C204** (refuted) A regular wave of 4 m (energy 2) added to irregular waves of height zero (energy 0), with three frequencies between 1 and 2 rad/s, gives a sea of energy 1: the
regular wave, whose density is its energy, is multiplied by the interval between frequencies. -/
theorem regular_wave_added_refuted (number : ℝ → ℝ → Except Err ℝ) (st : Stretching) (rng : Nat → Nat → ℝ) : ∃ d d1 d2 f f1 f2,
    discretizeInf (regular number (3 / 2) 4) toTheNorth 1 2 3 st = .ok d1 ∧ discretizeInf (irregular number 0 5) toTheNorth 1 2 3 st = .ok d2 ∧
      discretizeInf (addDensities number [regular number (3 / 2) 4, irregular number 0 5]) toTheNorth 1 2 3 st = .ok d ∧
      waveModelRandom d1 rng = .ok f1 ∧ waveModelRandom d2 rng = .ok f2 ∧ waveModelRandom d rng = .ok f ∧
      seaEnergy f1 = 2 ∧ seaEnergy f2 = 0 ∧ seaEnergy f = 1 := by
  have hpos : ∀ w ∈ [(1 : ℝ), 3 / 2, 2], 0 < w := by simp
  have hdir : integral (toTheNorth.directions 3).length (fn (toTheNorth.directions 3)) (fn ((toTheNorth.directions 3).map toTheNorth.value)) = 1 := by
    norm_num [integral, toTheNorth, diracSpreading, fn]
  have hz : ∀ w ∈ [(1 : ℝ), 3 / 2, 2], (irregular number 0 5).value w = .ok 0 := by
    intro w hw
    have := bretschneider_eq 0 5 w le_rfl (by norm_num) (hpos w hw)
    simp only [irregular, this]
    simp [bretDens]
  have hd : ∀ w : ℝ, 0 < w → (regular number (3 / 2) 4).value w = .ok (if |w - 3 / 2| < 1e-15 then 2 else 0) := by
    intro w hw
    simp only [regular, diracDensity, not_le.mpr hw, if_false]
    norm_num
    split_ifs <;> rfl
  obtain ⟨d1, f1, h11, h12, h13⟩ := sea_energy (regular number (3 / 2) 4) toTheNorth 1 2 3 st rng [3 / 2] (fun w => if |w - 3 / 2| < 1e-15 then 2 else 0) rfl (by simp) (by simp)
    (fun w hw => hd w (by simp at hw; rw [hw]; norm_num)) (fun w _ => by split_ifs <;> norm_num) (by simp [toTheNorth]) (by simp [toTheNorth]) (by norm_num [toTheNorth, diracSpreading])
  obtain ⟨d2, f2, h21, h22, h23⟩ := sea_energy (irregular number 0 5) toTheNorth 1 2 3 st rng [1, 3 / 2, 2] (fun _ => 0) three_frequencies (by simp) (by simp; norm_num)
    hz (fun w _ => le_rfl) (by simp [toTheNorth]) (by simp [toTheNorth]) (by norm_num [toTheNorth, diracSpreading])
  have ha : (addDensities number [regular number (3 / 2) 4, irregular number 0 5]).angular 1 2 3 = .ok [1, 3 / 2, 2] := by
    simp only [addDensities, List.mapM_cons, List.mapM_nil, regular, irregular, three_frequencies, bind, Except.bind, pure, Except.pure]
    rw [sortedSet_eq (m := [1, 3 / 2, 2]) (by simp; norm_num) (by intro x; simp; tauto)]
  obtain ⟨d, f, h1, h2, h3⟩ := sea_energy (addDensities number [regular number (3 / 2) 4, irregular number 0 5]) toTheNorth 1 2 3 st rng [1, 3 / 2, 2]
    (fun w => if |w - 3 / 2| < 1e-15 then 2 else 0) ha (by simp) (by simp; norm_num)
    (fun w hw => by
      have := added_value number w [regular number (3 / 2) 4, irregular number 0 5] _ (.cons (hd w (hpos w hw)) (.cons (hz w hw) .nil))
      simpa using this)
    (fun w _ => by split_ifs <;> norm_num) (by simp [toTheNorth]) (by simp [toTheNorth]) (by norm_num [toTheNorth, diracSpreading])
  refine ⟨d, d1, d2, f, f1, f2, h11, h21, h1, h12, h22, h2, ?_, ?_, ?_⟩
  · rw [h13, hdir]
    norm_num [integral, fn]
  · rw [h23, hdir]
    norm_num [integral, trapezoid, fn, Finset.sum_range_succ]
  · rw [h3, hdir]
    have e1 : ¬ |(1 : ℝ) - 3 / 2| < 1e-15 := by norm_num [abs_of_neg]
    have e2 : |(3 / 2 : ℝ) - 3 / 2| < 1e-15 := by norm_num
    have e3 : ¬ |(2 : ℝ) - 3 / 2| < 1e-15 := by norm_num [abs_of_pos]
    norm_num [integral, trapezoid, fn, Finset.sum_range_succ, e1, e2, e3]

end Xdyn.Waves

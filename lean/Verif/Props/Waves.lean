import Verif.Lemmas.Waves

/-
Discretisation of the wave spectra: C45 to C50 and C53.
-/

namespace Xdyn.Waves

open Spec

/-! ### C45: flattening -/

/-- C45 (components): with densities, directions and phases of consistent sizes, `flatten` succeeds and gives one component per (frequency, direction), in
row-major order, each with its own frequency, direction, wave number and phase; the pressure factors are those of the spectrum. -/
theorem flatten_components (s : Discrete) (w : WellFormed s) :
    ∃ f, flatten s = .ok f
      ∧ f.comps.length = s.omega.length * s.psi.length ∧ f.phase.length = s.omega.length * s.psi.length
      ∧ f.pdyn = s.pdyn ∧ f.pdynSh = s.pdynSh
      ∧ ∀ (i j : Nat) (hi : i < s.omega.length) (hj : j < s.psi.length),
          (∃ c, f.comps[i * s.psi.length + j]? = some c
            ∧ some c.omega = s.omega[i]? ∧ some c.psi = s.psi[j]? ∧ some c.k = s.k[i]?
            ∧ c.cosPsi = Real.cos s.psi[j] ∧ c.sinPsi = Real.sin s.psi[j])
          ∧ f.phase[i * s.psi.length + j]? = s.phase[i]?.bind (·[j]?) := by
  refine ⟨flatR s, flatten_eq w, length_flatten_rows _ _ _, length_flatten_rows _ _ _, rfl, rfl, fun i j hi hj => ⟨?_, ?_⟩⟩
  · have hk : i < s.k.length := by rw [w.k]; exact hi
    refine ⟨compR s i j, flatten_getElem? (compR s) _ _ i j hi hj, ?_⟩
    simp [compR, fn_of_lt hi, fn_of_lt hj, fn_of_lt hk, List.getElem?_eq_getElem hi, List.getElem?_eq_getElem hj, List.getElem?_eq_getElem hk]
  · have hp : i < s.phase.length := by rw [w.rows]; exact hi
    have hq : j < s.phase[i].length := lt_of_lt_of_le hj (w.cols _ (List.getElem_mem hp))
    have := flatten_getElem? (phaseR s) _ _ i j hi hj
    simp only [flatR, this, phaseR, List.getElem?_eq_getElem hp, Option.bind_some, List.getElem?_eq_getElem hq, List.getD_eq_getElem?_getD, Option.getD_some,
      fn_of_lt hq]

/-- C45 (energy): with non-negative densities and increasing frequencies and directions, the sum of `a²/2` is the integral (trapezoidal rule) of the frequency
density times the one of the directional spreading. -/
theorem flatten_energy (s : Discrete) (w : WellFormed s) (ho : s.omega ≠ []) (hp : s.psi ≠ [])
    (hS : ∀ x ∈ s.Si, 0 ≤ x) (hD : ∀ x ∈ s.Dj, 0 ≤ x) (so : s.omega.Pairwise (· ≤ ·)) (sp : s.psi.Pairwise (· ≤ ·)) :
    ∃ f, flatten s = .ok f ∧ (f.comps.map (fun c => c.a ^ 2 / 2)).sum
      = integral s.omega.length (fn s.omega) (fn s.Si) * integral s.psi.length (fn s.psi) (fn s.Dj) := by
  refine ⟨flatR s, flatten_eq w, ?_⟩
  have hfn : ∀ (l : List ℝ), (∀ x ∈ l, 0 ≤ x) → ∀ i, 0 ≤ fn l i := by
    intro l hl i
    by_cases h : i < l.length
    · rw [fn_of_lt h]; exact hl _ (List.getElem_mem h)
    · simp [fn, List.getElem?_eq_none (not_lt.mp h)]
  have e : (flatR s).comps.map (fun c => c.a ^ 2 / 2)
      = ((List.range s.omega.length).map (fun i => (List.range s.psi.length).map (fun j => (compR s i j).a ^ 2 / 2))).flatten := by
    simp only [flatR, List.map_flatten, List.map_map, Function.comp_def]
  rw [e, sum_flatten_rows, ← sum_widthR s.omega (fn s.Si) ho, ← sum_widthR s.psi (fn s.Dj) hp, Finset.sum_mul_sum]
  refine Finset.sum_congr rfl (fun i hi => Finset.sum_congr rfl (fun j hj => ?_))
  have h1 := widthR_nonneg so (Finset.mem_range.mp hi)
  have h2 := widthR_nonneg sp (Finset.mem_range.mp hj)
  have h3 := hfn s.Si hS i
  have h4 := hfn s.Dj hD j
  simp only [compR]
  rw [Real.sq_sqrt (by positivity)]
  ring

/-- Non-vacuity: a spectrum with three frequencies and two directions. -/
noncomputable def exampleSpectrum : Discrete :=
  { Si := [1, 2, 3], Dj := [4, 5], omega := [1, 2, 4], psi := [0, 1], k := [7, 8, 9], phase := [[1, 2], [3, 4], [5, 6]],
    pdyn := fun _ _ _ => 1, pdynSh := fun _ _ _ => 1 }

theorem exampleSpectrum_wellFormed : WellFormed exampleSpectrum :=
  ⟨rfl, rfl, rfl, rfl, by intro r hr; simp [exampleSpectrum] at hr; rcases hr with rfl | rfl | rfl <;> simp [exampleSpectrum]⟩

/-- Its energy: `(1.5 + 5) * 4.5`. -/
example : ∃ f, flatten exampleSpectrum = .ok f ∧ (f.comps.map (fun c => c.a ^ 2 / 2)).sum = 29.25 := by
  obtain ⟨f, h1, h2⟩ := flatten_energy exampleSpectrum exampleSpectrum_wellFormed (by simp [exampleSpectrum]) (by simp [exampleSpectrum])
    (by intro x hx; simp [exampleSpectrum] at hx; rcases hx with rfl | rfl | rfl <;> norm_num)
    (by intro x hx; simp [exampleSpectrum] at hx; rcases hx with rfl | rfl <;> norm_num)
    (by simp [exampleSpectrum]; norm_num) (by simp [exampleSpectrum])
  refine ⟨f, h1, h2.trans ?_⟩
  simp [integral, trapezoid, exampleSpectrum, fn, Finset.sum_range_succ]
  norm_num

/-! ### C78: the directional spreading and the circle -/

/-- C78 (refutation): with the uniform spreading `1/(2π)`, whose integral over the circle is 1, the discrete directions chosen by xdyn (`i * 2π/n`) only carry
the fraction `(n-1)/n` of the energy: the sector between the last direction and `2π` is not counted. -/
theorem directional_energy_is_lost (n : Nat) (hn : 2 ≤ n) :
    integral n (fn (getDirections n)) (fun _ => 1 / (2 * Real.pi)) = ((n : ℝ) - 1) / n := by
  have hn0 : (n : ℝ) ≠ 0 := by positivity
  have hpi := Real.pi_pos.ne'
  unfold integral trapezoid
  rw [if_neg (by omega)]
  have : ∀ i ∈ Finset.range (n - 1), (fn (getDirections n) (i + 1) - fn (getDirections n) i) * ((1 / (2 * Real.pi) + 1 / (2 * Real.pi)) / 2) = 1 / (n : ℝ) := by
    intro i hi
    have hi' := Finset.mem_range.mp hi
    rw [fn_of_lt (by simp [getDirections]; omega), fn_of_lt (by simp [getDirections]; omega)]
    simp only [getDirections, List.getElem_map, List.getElem_range]
    push_cast
    field_simp
    ring
  rw [Finset.sum_congr rfl this]
  simp only [Finset.sum_const, Finset.card_range, nsmul_eq_mul]
  rw [Nat.cast_sub (by omega)]
  field_simp
  simp

/-- C78 (what holds): the directions are `n` distinct values, from 0 (included) to `2π` (excluded), with a constant step. -/
theorem directions_partial (n : Nat) :
    (getDirections n).length = n ∧ (∀ x ∈ getDirections n, 0 ≤ x ∧ x < 2 * Real.pi)
      ∧ ∀ (i : Nat) (hi : i + 1 < n), fn (getDirections n) (i + 1) - fn (getDirections n) i = 2 * Real.pi / n := by
  refine ⟨by simp [getDirections], ?_, ?_⟩
  · intro x hx
    simp only [getDirections, List.mem_map, List.mem_range] at hx
    obtain ⟨i, hi, rfl⟩ := hx
    have hn : (0 : ℝ) < n := by exact_mod_cast (by omega : 0 < n)
    have hi' : (i : ℝ) < n := by exact_mod_cast hi
    have hpi := Real.pi_pos
    refine ⟨by positivity, ?_⟩
    have : (i : ℝ) * (2 * Real.pi / n) = (i / n) * (2 * Real.pi) := by field_simp
    rw [this]
    have h1 : (i : ℝ) / n < 1 := by rw [div_lt_one hn]; exact hi'
    nlinarith
  · intro i hi
    rw [fn_of_lt (by simp [getDirections]; omega), fn_of_lt (by simp [getDirections]; omega)]
    simp only [getDirections, List.getElem_map, List.getElem_range]
    push_cast; ring

/-- Non-vacuity: with four directions, one quarter of the energy is lost. -/
example : integral 4 (fn (getDirections 4)) (fun _ => 1 / (2 * Real.pi)) = 3 / 4 := by
  rw [directional_energy_is_lost 4 (by norm_num)]; norm_num

/-! ### C46: filtering -/

/-- Energy of a list of components. -/
noncomputable def energy (l : List Comp) : ℝ := (l.map (fun c => c.a ^ 2)).sum

/-- C46 (what holds): for a ratio of at most 1, `filter` keeps components of distinct indices `idx`, unchanged; they carry at least the requested energy; no
discarded component is more energetic than a kept one; and without any one of the kept components the energy would be too low.  Missing: the phases are lost
(`filter_loses_phases`). -/
theorem filter_partial (f : Flat) (ratio : ℝ) (hr : ratio ≤ 1) :
    ∃ (r : Flat) (idx : List Nat), filter f ratio = .ok r ∧ idx.Nodup ∧ (∀ i ∈ idx, i < f.comps.length)
      ∧ r.comps.map some = idx.map (fun i => f.comps[i]?)
      ∧ ratio * energy f.comps ≤ energy r.comps
      ∧ (∀ (i j : Nat) (c d : Comp), i ∈ idx → f.comps[i]? = some c → j ∉ idx → f.comps[j]? = some d → d.a ^ 2 ≤ c.a ^ 2)
      ∧ (∀ (i : Nat) (c : Comp), i ∈ idx → f.comps[i]? = some c → energy r.comps - c.a ^ 2 < ratio * energy f.comps) := by
  have hE : ((f.comps.map (fun c => c.a * c.a)).sum) = energy f.comps := by
    unfold energy; congr 1; exact List.map_congr_left (fun c _ => by ring)
  set L := sortedEnergies f with hL
  obtain ⟨m, h1, h2, h3, h4⟩ := takeEnergy_spec (ratio * energy f.comps) 0 L
  have hperm : L.Perm ((f.comps.map (fun c => c.a * c.a)).zipIdx) := List.mergeSort_perm _ _
  have hsorted : L.Pairwise (fun l r => r.1 ≤ l.1) := by
    have := List.pairwise_mergeSort (le := fun (l r : ℝ × Nat) => decide (r.1 ≤ l.1)) (fun a b c => by simpa using fun h1 h2 => le_trans h2 h1)
      (fun a b => by simpa using le_total b.1 a.1) ((f.comps.map (fun c => c.a * c.a)).zipIdx)
    refine this.imp ?_
    intro a b hab
    simpa using hab
  have hmem : ∀ e ∈ L, ∃ h : e.2 < f.comps.length, e.1 = f.comps[e.2].a ^ 2 := by
    intro e he
    have := hperm.mem_iff.mp he
    obtain ⟨a, i⟩ := e
    have h := List.mem_zipIdx_iff_getElem?.mp this
    simp only [List.getElem?_map, Option.map_eq_some_iff] at h
    obtain ⟨c, hc, hca⟩ := h
    obtain ⟨hlt, hget⟩ := List.getElem?_eq_some_iff.mp hc
    refine ⟨hlt, ?_⟩
    simp only
    rw [hget, ← hca]; ring
  have hsnd : (L.map Prod.snd).Perm (List.range f.comps.length) := by
    refine (hperm.map _).trans ?_
    have : ((f.comps.map (fun c => c.a * c.a)).zipIdx).map Prod.snd = List.range f.comps.length := by
      rw [List.zipIdx_map_snd]; simp [List.range_eq_range']
    rw [this]
  have hnodup : (L.map Prod.snd).Nodup := hsnd.nodup_iff.mpr List.nodup_range
  have hsum : (L.map Prod.fst).sum = energy f.comps := by
    rw [(hperm.map Prod.fst).sum_eq, List.zipIdx_map_fst, hE]
  set idx := (L.take m).map Prod.snd with hidx
  have htakemem : ∀ e ∈ L.take m, e ∈ L := fun e he => List.mem_of_mem_take he
  have hlt : ∀ i ∈ idx, i < f.comps.length := by
    intro i hi
    obtain ⟨e, he, rfl⟩ := List.mem_map.mp hi
    exact (hmem e (htakemem e he)).1
  have hmap : idx.mapM (getAt f.comps) = .ok (idx.map (fun i => f.comps.getD i ⟨0, 0, 0, 0, 0, 0⟩)) :=
    mapM_ok _ (fun i hi => by rw [getAt_of_lt (hlt i hi)]; simp [List.getElem?_eq_getElem (hlt i hi)])
  have henergy : energy (idx.map (fun i => f.comps.getD i ⟨0, 0, 0, 0, 0, 0⟩)) = ((L.take m).map Prod.fst).sum := by
    unfold energy
    rw [hidx, List.map_map, List.map_map]
    congr 1
    refine List.map_congr_left (fun e he => ?_)
    obtain ⟨h, h'⟩ := hmem e (htakemem e he)
    simp only [Function.comp, List.getD_eq_getElem?_getD, List.getElem?_eq_getElem h, Option.getD_some, h']
  have hpos : 0 ≤ energy f.comps := List.sum_nonneg (by
    intro x hx
    obtain ⟨c, _, rfl⟩ := List.mem_map.mp hx
    positivity)
  refine ⟨⟨idx.map (fun i => f.comps.getD i ⟨0, 0, 0, 0, 0, 0⟩), [], f.pdyn, f.pdynSh⟩, idx, ?_, ?_, hlt, ?_, ?_, ?_, ?_⟩
  · unfold filter
    simp only []
    rw [hE, ← hL, h2, hmap]
    rfl
  · exact hnodup.sublist ((List.take_sublist m L).map _)
  · simp only [List.map_map]
    exact List.map_congr_left (fun i hi => by simp [List.getElem?_eq_getElem (hlt i hi)])
  · rw [henergy]
    by_cases hm : m < L.length
    · have := h3 hm; linarith
    · rw [List.take_of_length_le (by omega), hsum]; nlinarith
  · intro i j c d hi hc hj hd
    obtain ⟨e, he, rfl⟩ := List.mem_map.mp hi
    have hjL : j ∈ L.map Prod.snd := hsnd.mem_iff.mpr (List.mem_range.mpr (List.getElem?_eq_some_iff.mp hd).1)
    obtain ⟨e', he', rfl⟩ := List.mem_map.mp hjL
    have hdrop : e' ∈ L.drop m := by
      have := List.take_append_drop m L
      rw [← this] at he'
      rcases List.mem_append.mp he' with h | h
      · exact absurd (List.mem_map_of_mem (f := Prod.snd) h) hj
      · exact h
    have hle : e'.1 ≤ e.1 := by
      have hs := hsorted
      rw [← List.take_append_drop m L] at hs
      exact (List.pairwise_append.mp hs).2.2 e he e' hdrop
    obtain ⟨q1, q2⟩ := hmem e (htakemem e he)
    obtain ⟨q3, q4⟩ := hmem e' he'
    rw [List.getElem?_eq_getElem q1] at hc
    rw [List.getElem?_eq_getElem q3] at hd
    cases hc; cases hd
    rw [← q2, ← q4]; exact hle
  · intro i c hi hc
    rw [henergy]
    obtain ⟨e, he, rfl⟩ := List.mem_map.mp hi
    obtain ⟨q1, q2⟩ := hmem e (htakemem e he)
    rw [List.getElem?_eq_getElem q1] at hc
    cases hc
    rw [← q2]
    obtain ⟨p, hp1, hp2⟩ := List.mem_iff_getElem.mp he
    have hlen : (L.take m).length = m := by simp [h1]
    obtain ⟨m', rfl⟩ : ∃ m', m = m' + 1 := ⟨m - 1, by omega⟩
    have hlast : L[m']'(by omega) ≤ L[m']'(by omega) → True := fun _ => trivial
    have hsplit : L.take (m' + 1) = L.take m' ++ [L[m']'(by omega)] := by
      rw [List.take_succ_eq_append_getElem (by omega)]
    have hle : (L[m']'(by omega)).1 ≤ e.1 := by
      rw [hsplit] at he
      rcases List.mem_append.mp he with h | h
      · have hs := hsorted.sublist (List.take_sublist (m' + 1) L)
        rw [hsplit] at hs
        exact (List.pairwise_append.mp hs).2.2 e h _ (by simp)
      · simp only [List.mem_singleton] at h; rw [h]
    have := h4 m' (by omega)
    rw [hsplit, List.map_append, List.sum_append]
    simp only [List.map_cons, List.map_nil, List.sum_cons, List.sum_nil]
    linarith

/-- C46 (refutation): the filtered spectrum has no phase, so its elevation cannot be computed as soon as a component is kept. -/
theorem filter_loses_phases (f r : Flat) (ratio x y t : ℝ) (h : filter f ratio = .ok r) (hr : r.comps ≠ []) :
    r.phase = [] ∧ elevationAt r x y t = .error .ub := by
  have hp : r.phase = [] := by
    unfold filter at h
    simp only [bind, Except.bind, pure, Except.pure] at h
    split at h
    · cases h
    · cases h; rfl
  refine ⟨hp, ?_⟩
  unfold elevationAt
  rw [hp]
  obtain ⟨n, hn⟩ : ∃ n, r.comps.length = n + 1 := ⟨r.comps.length - 1, by have := List.length_pos_iff.mpr hr; omega⟩
  rw [hn, List.range_succ_eq_map]
  simp only [List.foldlM_cons]
  rw [getUB_of_lt (by omega)]
  simp [getUB, bind, Except.bind]

/-! ### C47: frequencies -/

/-- C47: for valid bounds, `n` increasing values, from `omega_min` to `omega_max` inclusive, with a constant step. -/
theorem angular_frequencies (a b : ℝ) (n : Nat) (ha : 0 < a) (hab : a < b) (hn : 2 ≤ n) :
    ∃ l, getAngularFrequencies a b n = .ok l ∧ l.length = n ∧ l.head? = some a ∧ l.getLast? = some b ∧ l.Pairwise (· < ·)
      ∧ ∀ (i : Nat) (x y : ℝ), l[i]? = some x → l[i + 1]? = some y → y - x = (b - a) / (n - 1) := by
  have h1 : ¬ a ≤ 0 := not_le.mpr ha
  have h2 : ¬ b ≤ 0 := by linarith
  have h3 : ¬ b < a := by linarith
  have h4 : n ≠ 0 := by omega
  have h5 : n ≠ 1 := by omega
  have h6 : a ≠ b := ne_of_lt hab
  have hnr : ((n - 1 : Nat) : ℝ) = n - 1 := by rw [Nat.cast_sub (by omega)]; simp
  have hpos : (0 : ℝ) < n - 1 := by
    have : (2 : ℝ) ≤ n := by exact_mod_cast hn
    linarith
  simp only [getAngularFrequencies, h1, h2, h3, h4, h5, h6, if_false]
  refine ⟨_, rfl, by simp, ?_, ?_, ?_, ?_⟩
  · obtain ⟨m, rfl⟩ : ∃ m, n = m + 1 := ⟨n - 1, by omega⟩
    simp [List.range_succ_eq_map]
  · obtain ⟨m, rfl⟩ : ∃ m, n = m + 1 := ⟨n - 1, by omega⟩
    rw [List.range_succ, List.map_append]
    simp only [List.map_cons, List.map_nil, List.getLast?_append, List.getLast?_singleton, Option.some_or, Option.some.injEq]
    rw [hnr]
    push_cast at hpos ⊢
    have : (m : ℝ) + 1 - 1 = m := by ring
    rw [this] at hpos ⊢
    field_simp
    ring
  · rw [List.pairwise_map]
    refine List.pairwise_lt_range.imp ?_
    intro i j hij
    have hij' : (i : ℝ) < j := by exact_mod_cast hij
    rw [hnr]
    have : (i : ℝ) / (n - 1) < j / (n - 1) := by gcongr
    nlinarith
  · intro i x y hx hy
    simp only [List.getElem?_map, Option.map_eq_some_iff] at hx hy
    obtain ⟨u, hu, rfl⟩ := hx
    obtain ⟨v, hv, rfl⟩ := hy
    rw [List.getElem?_eq_some_iff] at hu hv
    obtain ⟨_, hu⟩ := hu
    obtain ⟨_, hv⟩ := hv
    simp only [List.getElem_range] at hu hv
    subst hu; subst hv
    rw [hnr]; push_cast
    field_simp
    ring

/-- C47: one frequency when the bounds are equal. -/
theorem angular_frequencies_single (a : ℝ) (ha : 0 < a) : getAngularFrequencies a a 1 = .ok [a] := by
  simp [getAngularFrequencies, not_le.mpr ha]

/-- C47: everything else raises an error. -/
theorem angular_frequencies_error (a b : ℝ) (n : Nat) (h : ¬ (0 < a ∧ a < b ∧ 2 ≤ n)) (h' : ¬ (0 < a ∧ a = b ∧ n = 1)) :
    getAngularFrequencies a b n = .error (.throw "InvalidInputException") := by
  unfold getAngularFrequencies
  split
  · rfl
  · rename_i h1
    split
    · rfl
    · split
      · rfl
      · rename_i h3
        split
        · rfl
        · split
          · rename_i h5
            split
            · rfl
            · rename_i h6
              exact absurd ⟨not_le.mp h1, not_not.mp h6, h5⟩ h'
          · rename_i h4 h5
            split
            · rfl
            · rename_i h6
              exact absurd ⟨not_le.mp h1, lt_of_le_of_ne (not_lt.mp h3) h6, by omega⟩ h

/-- Non-vacuity. -/
example : getAngularFrequencies 1 3 3 = .ok [1, 2, 3] := by
  have h : ¬ ((3 : ℝ) < 1) := by norm_num
  have h1 : ¬ ((1 : ℝ) = 3) := by norm_num
  simp [getAngularFrequencies, List.range_succ, h, h1]
  norm_num

/-! ### C48: phases -/

/-- C48 (what holds): when there are at most as many directions as frequencies, every component has the phase.  Missing: the other case,
`constant_phases_out_of_range`. -/
theorem constant_phases_partial (s : Discrete) (phase : ℝ) (hS : s.Si.length = s.omega.length) (hk : s.k.length = s.omega.length)
    (hD : s.Dj.length = s.psi.length) (ho : s.omega ≠ []) (hp : s.psi ≠ []) (h : s.psi.length ≤ s.omega.length) :
    ∃ f, waveModelConstant s phase = .ok f ∧ f.comps.length = s.omega.length * s.psi.length
      ∧ f.phase = List.replicate (s.omega.length * s.psi.length) phase := by
  have hno : 0 < s.omega.length := List.length_pos_iff.mpr ho
  have hnp : 0 < s.psi.length := List.length_pos_iff.mpr hp
  have hpos : s.omega.length * s.psi.length > 0 := Nat.mul_pos hno hnp
  have e : addConstantPhases s phase = { s with phase := List.replicate s.omega.length (List.replicate s.omega.length phase) } := by
    simp only [addConstantPhases, hS, hD, hpos, if_true]
  have w : WellFormed (addConstantPhases s phase) := by
    rw [e]
    refine ⟨hS, hk, hD, by simp, ?_⟩
    intro r hr
    rw [List.eq_of_mem_replicate hr]
    simpa using h
  have hl1 : (flatR (addConstantPhases s phase)).comps.length = s.omega.length * s.psi.length := by
    rw [e]; exact length_flatten_rows _ _ _
  have hl2 : (flatR (addConstantPhases s phase)).phase.length = s.omega.length * s.psi.length := by
    rw [e]; exact length_flatten_rows _ _ _
  refine ⟨_, ?_, hl1, ?_⟩
  · unfold waveModelConstant
    rw [flatten_eq w]
    have h1 : (flatR (addConstantPhases s phase)).comps ≠ [] := by intro hc; rw [hc, List.length_nil] at hl1; omega
    have h2 : (flatR (addConstantPhases s phase)).phase ≠ [] := by intro hc; rw [hc, List.length_nil] at hl2; omega
    simp [bind, Except.bind, pure, Except.pure, checkSizes, h1, h2]
  · rw [List.eq_replicate_iff]
    refine ⟨hl2, ?_⟩
    intro b hb
    rw [e] at hb
    simp only [flatR, List.mem_flatten, List.mem_map, List.mem_range] at hb
    obtain ⟨l, ⟨i, hi, rfl⟩, hb⟩ := hb
    obtain ⟨j, hj, rfl⟩ := List.mem_map.mp hb
    have hj' := List.mem_range.mp hj
    have hj2 : j < s.omega.length := lt_of_lt_of_le hj' h
    simp [phaseR, fn, List.getElem?_replicate, hi, hj2]

/-- C48 (refutation): with more directions than frequencies, the construction of a wave model with a constant phase raises `std::out_of_range`.  (For instance a
single frequency -- Dirac spectral density -- with a Cos2s spreading, and no seed for the random numbers.) -/
theorem constant_phases_out_of_range (s : Discrete) (phase : ℝ) (hS : s.Si.length = s.omega.length) (hk : s.k.length = s.omega.length)
    (hD : s.Dj.length = s.psi.length) (ho : s.omega ≠ []) (h : s.omega.length < s.psi.length) :
    waveModelConstant s phase = .error (.throw "out_of_range") := by
  have hno : 0 < s.omega.length := List.length_pos_iff.mpr ho
  have hpos : s.omega.length * s.psi.length > 0 := Nat.mul_pos hno (by omega)
  obtain ⟨n, hn⟩ : ∃ n, s.omega.length = n + 1 := ⟨s.omega.length - 1, by omega⟩
  set s' := { s with phase := List.replicate s.omega.length (List.replicate s.omega.length phase) } with hs'
  have e : addConstantPhases s phase = s' := by
    simp only [addConstantPhases, hS, hD, hpos, if_true, hs']
  -- the restriction to as many directions as frequencies is well formed
  have hone : ∀ j, j < s.omega.length → ∃ b, flattenOne s' 0 (widthR s.omega 0) j = .ok b := by
    intro j hj
    have h1 : 0 < s.k.length := by omega
    have h2 : 0 < s.Si.length := by omega
    have h3 : j < s.Dj.length := by omega
    have h4 : j < s.psi.length := by omega
    simp only [flattenOne, hs', width_ok h4, getUB_of_lt h1, getUB_of_lt hno, getUB_of_lt h4, getUB_of_lt h2, getUB_of_lt h3, bind, Except.bind, pure, Except.pure]
    rw [getAt_of_lt (by simpa using hno)]
    simp only [List.getElem_replicate]
    rw [getAt_of_lt (by simpa using hj)]
    exact ⟨_, rfl⟩
  have hbad : flattenOne s' 0 (widthR s.omega 0) s.omega.length = .error (.throw "out_of_range") := by
    have h1 : 0 < s.k.length := by omega
    have h2 : 0 < s.Si.length := by omega
    have h3 : s.omega.length < s.Dj.length := by omega
    simp only [flattenOne, hs', width_ok h, getUB_of_lt h1, getUB_of_lt hno, getUB_of_lt h, getUB_of_lt h2, getUB_of_lt h3, bind, Except.bind, pure, Except.pure]
    rw [getAt_of_lt (by simpa using hno)]
    simp only [List.getElem_replicate]
    rw [getAt_of_ge (by simp)]
  have hrow : (List.range s.psi.length).mapM (flattenOne s' 0 (widthR s.omega 0)) = .error (.throw "out_of_range") := by
    have hr : List.range s.psi.length = List.range s.omega.length ++ s.omega.length :: (List.range' (s.omega.length + 1) (s.psi.length - s.omega.length - 1)) := by
      apply List.ext_getElem?
      intro i
      by_cases h1 : i < s.omega.length
      · rw [List.getElem?_append_left (by simpa using h1)]
        rw [List.getElem?_range h1, List.getElem?_range (by omega)]
      · rw [List.getElem?_append_right (by simpa using h1)]
        simp only [List.length_range]
        by_cases h2 : i < s.psi.length
        · rw [List.getElem?_range h2]
          obtain ⟨d, hd⟩ : ∃ d, i = s.omega.length + d := ⟨i - s.omega.length, by omega⟩
          subst hd
          cases d with
          | zero => simp
          | succ d =>
            have : s.omega.length + (d + 1) - s.omega.length = d + 1 := by omega
            rw [this, List.getElem?_cons_succ, List.getElem?_range' (by omega)]
            simp; omega
        · rw [List.getElem?_eq_none (by simpa using h2), List.getElem?_eq_none]
          simp; omega
    rw [hr]
    exact mapM_error _ _ _ (fun j hj => hone j (List.mem_range.mp hj)) hbad
  unfold waveModelConstant flatten
  rw [e]
  have ho' : s'.omega = s.omega := rfl
  have hp' : s'.psi = s.psi := rfl
  rw [ho', hp', hn, List.range_succ_eq_map, List.mapM_cons]
  rw [width_ok hno]
  simp only [bind, Except.bind]
  rw [hrow]

/-- C48: with random phases, each component has its own random number. -/
theorem random_phases (s : Discrete) (rng : Nat → Nat → ℝ) (hS : s.Si.length = s.omega.length) (hk : s.k.length = s.omega.length)
    (hD : s.Dj.length = s.psi.length) (ho : s.omega ≠ []) (hp : s.psi ≠ []) :
    ∃ f, waveModelRandom s rng = .ok f ∧ f.comps.length = s.omega.length * s.psi.length ∧ f.phase.length = s.omega.length * s.psi.length
      ∧ ∀ (i j : Nat), i < s.omega.length → j < s.psi.length → f.phase[i * s.psi.length + j]? = some (rng i j) := by
  have hno : 0 < s.omega.length := List.length_pos_iff.mpr ho
  have hnp : 0 < s.psi.length := List.length_pos_iff.mpr hp
  have hpos : s.omega.length * s.psi.length > 0 := Nat.mul_pos hno hnp
  have e : addRandomPhases s rng = { s with phase := (List.range s.omega.length).map (fun i => (List.range s.psi.length).map (rng i)) } := by
    simp only [addRandomPhases, hS, hD, hpos, if_true]
  have w : WellFormed (addRandomPhases s rng) := by
    rw [e]
    refine ⟨hS, hk, hD, by simp, ?_⟩
    intro r hr
    obtain ⟨i, _, rfl⟩ := List.mem_map.mp hr
    simp
  have hl1 : (flatR (addRandomPhases s rng)).comps.length = s.omega.length * s.psi.length := by
    rw [e]; exact length_flatten_rows _ _ _
  have hl2 : (flatR (addRandomPhases s rng)).phase.length = s.omega.length * s.psi.length := by
    rw [e]; exact length_flatten_rows _ _ _
  refine ⟨_, ?_, hl1, hl2, ?_⟩
  · unfold waveModelRandom
    rw [flatten_eq w]
    have h1 : (flatR (addRandomPhases s rng)).comps ≠ [] := by intro hc; rw [hc, List.length_nil] at hl1; omega
    have h2 : (flatR (addRandomPhases s rng)).phase ≠ [] := by intro hc; rw [hc, List.length_nil] at hl2; omega
    simp [bind, Except.bind, pure, Except.pure, checkSizes, h1, h2]
  · intro i j hi hj
    have := flatten_getElem? (phaseR (addRandomPhases s rng)) s.omega.length s.psi.length i j hi hj
    rw [e] at this ⊢
    simp only [flatR]
    rw [this]
    simp [phaseR, fn, hi, hj]

/-- Non-vacuity: a spectrum of two frequencies and one direction; one of one frequency and two directions. -/
noncomputable def twoByOne : Discrete :=
  { Si := [1, 2], Dj := [4], omega := [1, 2], psi := [0], k := [7, 8], phase := [], pdyn := fun _ _ _ => 1, pdynSh := fun _ _ _ => 1 }

noncomputable def oneByTwo : Discrete :=
  { Si := [1], Dj := [4, 5], omega := [1], psi := [0, 1], k := [7], phase := [], pdyn := fun _ _ _ => 1, pdynSh := fun _ _ _ => 1 }

example : ∃ f, waveModelConstant twoByOne 3 = .ok f ∧ f.comps.length = 2 ∧ f.phase = [3, 3] := by
  simpa [twoByOne] using constant_phases_partial twoByOne 3 rfl rfl rfl (by simp [twoByOne]) (by simp [twoByOne]) (by simp [twoByOne])

example : waveModelConstant oneByTwo 3 = .error (.throw "out_of_range") :=
  constant_phases_out_of_range oneByTwo 3 rfl rfl rfl (by simp [oneByTwo]) (by simp [oneByTwo])

/-! ### C49: depth -/

/-- C49 (refutation 1): all the positive depths give the same discrete spectrum, with the infinite depth dispersion relation and pressure factor. -/
theorem positive_depth_is_ignored (S : Density) (D : Spreading) (a b : ℝ) (n : Nat) (st : Stretching) (d : ℝ) (hd : 0 < d) :
    parseDirectionalSpectrum S D a b n d st = discretizeInf S D a b n st := by
  simp [parseDirectionalSpectrum, hd]

/-- ... that is: `k = ω²/g` for all the depths, and the attenuation is `exp(-k z)`. -/
theorem positive_depth_wave_numbers (S : Density) (D : Spreading) (a b : ℝ) (n : Nat) (st : Stretching) (d : ℝ) (hd : 0 < d) (r : Discrete)
    (h : parseDirectionalSpectrum S D a b n d st = .ok r) :
    r.k = r.omega.map (fun w => w * w / 9.81) ∧ r.pdyn = pdynInf st := by
  rw [positive_depth_is_ignored _ _ _ _ _ _ _ hd] at h
  simp only [discretizeInf, bind, Except.bind, pure, Except.pure] at h
  split at h
  · cases h
  · cases h; exact ⟨rfl, rfl⟩

/-- C49 (refutation 2): with no depth (0, which means infinite depth according to the documentation), no spectrum is ever accepted. -/
theorem zero_depth_is_refused (S : Density) (D : Spreading) (a b : ℝ) (n : Nat) (st : Stretching) (r : Discrete)
    (h : parseDirectionalSpectrum S D a b n 0 st = .ok r) : r.k = [] := by
  simp only [parseDirectionalSpectrum, lt_irrefl, gt_iff_lt, if_false, discretizeFin, bind, Except.bind, pure, Except.pure] at h
  split at h
  · cases h
  · split at h
    · cases h
    · rename_i k hk
      split at h
      · simp [throw, throwThe, MonadExceptOf.throw] at h
      · rename_i hno
        simp only [Except.ok.injEq] at h
        subst h
        cases k with
        | nil => rfl
        | cons x k =>
          exact absurd ⟨x, by simp, by rw [mul_zero]; exact div_pos Real.pi_pos (by norm_num)⟩ hno

/-- C49 (what holds): the finite depth discretisation itself, which is never called with a positive depth, uses this depth, and refuses the shallow waters. -/
theorem finite_depth_partial (S : Density) (D : Spreading) (a b : ℝ) (n : Nat) (st : Stretching) (h : ℝ) (r : Discrete)
    (hr : discretizeFin S D a b n h st = .ok r) :
    r.omega.mapM (fun w => S.number w h) = .ok r.k ∧ (∀ k ∈ r.k, Real.pi / 10 ≤ k * h) ∧ r.pdyn = pdynFin h st ∧ r.pdynSh = pdynShFin h st := by
  simp only [discretizeFin, bind, Except.bind, pure, Except.pure] at hr
  split at hr
  · cases hr
  · split at hr
    · cases hr
    · rename_i k hk
      split at hr
      · simp [throw, throwThe, MonadExceptOf.throw] at hr
      · rename_i hno
        simp only [Except.ok.injEq] at hr
        subst hr
        refine ⟨hk, ?_, rfl, rfl⟩
        intro k' hk'
        by_contra hc
        exact hno ⟨k', hk', not_le.mp hc⟩

/-- Non-vacuity: a density and a spreading for which the three theorems apply. -/
noncomputable def exampleDensity : Density := { value := fun _ => .ok 1, angular := fun a _ _ => .ok [a], number := fun w _ => .ok w }
noncomputable def exampleSpreading : Spreading := { value := fun _ => 1, directions := fun _ => [0] }

example : parseDirectionalSpectrum exampleDensity exampleSpreading 1 2 1 100 ⟨0, 0⟩ = .ok
    { Si := [1], Dj := [1], omega := [1], psi := [0], k := [1 * 1 / 9.81], phase := [], pdyn := pdynInf ⟨0, 0⟩, pdynSh := pdynInf ⟨0, 0⟩ } := by
  rw [positive_depth_is_ignored _ _ _ _ _ _ _ (by norm_num)]
  rfl

example : parseDirectionalSpectrum exampleDensity exampleSpreading 1 2 1 0 ⟨0, 0⟩ = .error (.throw "InvalidInputException") := by
  have : (0 : ℝ) < Real.pi / 10 := div_pos Real.pi_pos (by norm_num)
  simp [parseDirectionalSpectrum, discretizeFin, commonPart, exampleDensity, exampleSpreading, bind, Except.bind, pure, Except.pure, throw, throwThe,
    MonadExceptOf.throw, this]

/-! ### C50: stretching -/

/-- C50: the bottom of the stretched column is fixed, and depths below are unchanged. -/
theorem stretching_bottom (s : Stretching) (z ksi : ℝ) (hz : s.h < z ∨ (z = s.h ∧ ksi ≠ s.h)) : s.rescaledZ z ksi = z := by
  unfold Stretching.rescaledZ
  rcases hz with hz | ⟨rfl, _⟩
  · split <;> simp [hz]
  · split <;> simp

/-- C50: the free surface is mapped to `delta` times the elevation. -/
theorem stretching_surface (s : Stretching) (ksi : ℝ) (hh : s.h ≠ 0) (hk : ksi < s.h) : s.rescaledZ ksi ksi = s.delta * ksi := by
  have h1 : ksi - s.h ≠ 0 := by linarith
  unfold Stretching.rescaledZ
  rw [if_neg hh, if_neg (by linarith)]
  field_simp
  ring

/-- C50: the map is strictly increasing on the whole water column, for `0 ≤ delta ≤ 1` and a surface above `h`. -/
theorem stretching_increasing (s : Stretching) (ksi : ℝ) (hh : 0 < s.h) (hk : ksi < s.h) (h0 : 0 ≤ s.delta) (h1 : s.delta ≤ 1) :
    StrictMono (fun z => s.rescaledZ z ksi) := by
  have hc : 0 < (s.delta * ksi - s.h) / (ksi - s.h) := by
    apply div_pos_of_neg_of_neg _ (by linarith)
    by_cases hp : 0 ≤ ksi
    · nlinarith
    · nlinarith
  have hform : ∀ z, z ≤ s.h → s.rescaledZ z ksi = (z - s.h) * ((s.delta * ksi - s.h) / (ksi - s.h)) + s.h := by
    intro z hz
    unfold Stretching.rescaledZ
    rw [if_neg hh.ne', if_neg (by linarith)]; ring
  intro z z' hzz
  simp only
  rcases lt_or_ge s.h z with hz | hz
  · rw [stretching_bottom s z ksi (.inl hz), stretching_bottom s z' ksi (.inl (by linarith))]; exact hzz
  · rw [hform z hz]
    rcases lt_or_ge s.h z' with hz' | hz'
    · rw [stretching_bottom s z' ksi (.inl hz')]
      have : (z - s.h) * ((s.delta * ksi - s.h) / (ksi - s.h)) ≤ 0 := mul_nonpos_of_nonpos_of_nonneg (by linarith) hc.le
      linarith
    · rw [hform z' hz']
      have : (z - s.h) * ((s.delta * ksi - s.h) / (ksi - s.h)) < (z' - s.h) * ((s.delta * ksi - s.h) / (ksi - s.h)) := by
        apply mul_lt_mul_of_pos_right _ hc; linarith
      linarith

/-- C50: consequently the water column is mapped between `delta * ksi` and `h`. -/
theorem stretching_range (s : Stretching) (z ksi : ℝ) (hh : 0 < s.h) (hk : ksi < s.h) (h0 : 0 ≤ s.delta) (h1 : s.delta ≤ 1) (hz : ksi ≤ z) (hz' : z ≤ s.h) :
    s.delta * ksi ≤ s.rescaledZ z ksi ∧ s.rescaledZ z ksi ≤ s.h := by
  have hm := (stretching_increasing s ksi hh hk h0 h1).monotone
  constructor
  · rw [← stretching_surface s ksi hh.ne' hk]; exact hm hz
  · have := hm hz'
    simp only at this
    rwa [stretching_bottom s s.h ksi (.inr ⟨rfl, ne_of_lt hk⟩)] at this

/-- C50: no stretching when `h = 0`, and with `delta = 1`, `z` is unchanged (linear extrapolation). -/
theorem stretching_identity (s : Stretching) (z ksi : ℝ) (h : s.h = 0 ∨ (s.delta = 1 ∧ ksi ≠ s.h)) : s.rescaledZ z ksi = z := by
  unfold Stretching.rescaledZ
  rcases h with h | ⟨h, hk⟩
  · simp [h]
  · have : ksi - s.h ≠ 0 := sub_ne_zero.mpr hk
    split
    · rfl
    · split
      · rfl
      · rw [h, one_mul, mul_div_assoc, div_self this]; ring

/-- Non-vacuity: Wheeler stretching (`delta = 0`) for a crest of 2 m in 10 m of water: the middle of the column goes to the middle of the calm water column. -/
example : (⟨0, 10⟩ : Stretching).rescaledZ 4 (-2) = 5 := by
  norm_num [Stretching.rescaledZ]

/-! ### C53: spectra are non-negative -/

/-- C53 -/
theorem bretschneider_nonneg (Hs Tp omega v : ℝ) (h : bretschneider Hs Tp omega = .ok v) : 0 ≤ v := by
  unfold bretschneider at h
  split at h
  · cases h
  · split at h
    · cases h
    · split at h
      · cases h
      · rename_i h1 h2 h3
        have ho : 0 < omega := not_le.mp h3
        simp only [Except.ok.injEq] at h
        rw [← h]
        have hT : 0 < Tp := not_le.mp h2
        have hpi := Real.pi_pos
        have := not_lt.mp h1
        positivity

theorem bretschneider_defined (Hs Tp omega : ℝ) (h1 : 0 ≤ Hs) (h2 : 0 < Tp) (h3 : 0 < omega) : ∃ v, bretschneider Hs Tp omega = .ok v := by
  simp only [bretschneider, not_lt.mpr h1, not_le.mpr h2, not_le.mpr h3, if_false]
  exact ⟨_, rfl⟩

/-- C53 -/
theorem jonswap_nonneg (Hs Tp gamma omega v : ℝ) (hg : gamma ≤ Real.exp (1 / 0.287)) (h : jonswap Hs Tp gamma omega = .ok v) : 0 ≤ v := by
  unfold jonswap at h
  split at h
  · cases h
  · split at h
    · cases h
    · split at h
      · cases h
      · split at h
        · cases h
        · rename_i h1 h2 h3 h4
          have ho : 0 < omega := not_le.mp h4
          have hgam : 0 < gamma := not_le.mp h3
          have hlog : 0 ≤ 1 - 0.287 * Real.log gamma := by
            have := Real.log_le_log hgam hg
            rw [Real.log_exp] at this
            have : (0.287 : ℝ) * Real.log gamma ≤ 0.287 * (1 / 0.287) := by linarith
            have e : (0.287 : ℝ) * (1 / 0.287) = 1 := by norm_num
            linarith
          simp only [Except.ok.injEq] at h
          rw [← h]
          have hpw := (Real.rpow_pos_of_pos hgam (Real.exp (-0.5 * ((omega - 2 * Real.pi / Tp) / ((if omega ≤ 2 * Real.pi / Tp then (0.07 : ℝ) else 0.09) * (2 * Real.pi / Tp)) *
            ((omega - 2 * Real.pi / Tp) / ((if omega ≤ 2 * Real.pi / Tp then (0.07 : ℝ) else 0.09) * (2 * Real.pi / Tp))))))).le
          refine mul_nonneg (mul_nonneg (mul_nonneg hlog ?_) (Real.exp_pos _).le) hpw
          have := not_lt.mp h1
          have hT : 0 < Tp := not_le.mp h2
          have hpi := Real.pi_pos
          positivity

/-- C53: beyond `exp(1/0.287)` (about 32.6) the JONSWAP density is negative at all frequencies (for `Hs ≠ 0`): the bound is needed. -/
theorem jonswap_negative (Hs Tp gamma omega : ℝ) (hH : 0 < Hs) (hT : 0 < Tp) (ho : 0 < omega) (hg : Real.exp (1 / 0.287) < gamma) :
    ∃ v, jonswap Hs Tp gamma omega = .ok v ∧ v < 0 := by
  have hgam : 0 < gamma := lt_trans (Real.exp_pos _) hg
  simp only [jonswap, not_lt.mpr hH.le, not_le.mpr hT, not_le.mpr hgam, not_le.mpr ho, if_false]
  refine ⟨_, rfl, ?_⟩
  have hlog : 1 - 0.287 * Real.log gamma < 0 := by
    have := Real.log_lt_log (Real.exp_pos _) hg
    rw [Real.log_exp] at this
    have : (0.287 : ℝ) * (1 / 0.287) < 0.287 * Real.log gamma := by linarith
    have e : (0.287 : ℝ) * (1 / 0.287) = 1 := by norm_num
    linarith
  have hpi := Real.pi_pos
  refine mul_neg_of_neg_of_pos (mul_neg_of_neg_of_pos (mul_neg_of_neg_of_pos hlog ?_) (Real.exp_pos _)) (Real.rpow_pos_of_pos hgam _)
  positivity

/-- C53 -/
theorem piersonMoskowitz_nonneg (Hs Tp omega v : ℝ) (h : piersonMoskowitz Hs Tp omega = .ok v) : 0 ≤ v :=
  jonswap_nonneg Hs Tp 1 omega v (Real.one_le_exp (by norm_num)) h

/-- C53: a Pierson-Moskowitz spectrum is a Bretschneider spectrum of the same parameters. -/
theorem piersonMoskowitz_eq_bretschneider (Hs Tp omega : ℝ) : piersonMoskowitz Hs Tp omega = bretschneider Hs Tp omega := by
  unfold piersonMoskowitz jonswap bretschneider
  have h1 : ¬ ((1 : ℝ) ≤ 0) := by norm_num
  simp only [h1, if_false, Real.log_one, mul_zero, sub_zero, Real.one_rpow, mul_one, one_mul]
  split
  · rfl
  · split
    · rfl
    · split
      · rfl
      · congr 1
        have e : ∀ x : ℝ, Real.exp (-(1.25 * x)) = Real.exp (-1.25 * x) := fun x => by congr 1; ring
        rw [e]
        ring

/-- C53 -/
theorem diracDensity_nonneg (omega0 Hs omega v : ℝ) (h : diracDensity omega0 Hs omega = .ok v) : 0 ≤ v := by
  unfold diracDensity at h
  split at h
  · cases h
  · split at h
    · cases h
    · split at h
      · cases h
      · rename_i h1 _ _
        have := not_lt.mp h1
        split at h <;> cases h
        · positivity
        · exact le_refl _

theorem diracSpreading_nonneg (psi0 psi : ℝ) : 0 ≤ diracSpreading psi0 psi := by
  unfold diracSpreading; split <;> norm_num

/-- C53: Cos2s, when `pow` is exact (for an integer `s`, the exponent is an even integer and the value is defined for all the directions). -/
theorem cos2s_nonneg (psi0 psi : ℝ) (s : Nat) (pw : ℝ → ℝ → ℝ) (hpw : ∀ c, pw c (2 * s) = c ^ (2 * s)) (v : ℝ) (h : cos2s pw psi0 s psi = .ok v) : 0 ≤ v := by
  unfold cos2s at h
  split at h
  · cases h
  · simp only [Except.ok.injEq] at h
    rw [← h, hpw]
    refine mul_nonneg ?_ (by rw [pow_mul]; positivity)
    unfold cos2sFactor
    have h1 : 0 < Real.Gamma ((s : ℝ) + 1) := Real.Gamma_pos_of_pos (by positivity)
    have h2 : 0 < Real.Gamma (2 * (s : ℝ) + 1) := Real.Gamma_pos_of_pos (by positivity)
    have h3 := Real.pi_pos
    have h4 : 0 < (2 : ℝ) ^ (2 * (s : ℝ) - 1) := Real.rpow_pos_of_pos (by norm_num) _
    positivity

/-- Non-vacuity. -/
example : ∃ v, bretschneider 2 5 1 = .ok v ∧ 0 ≤ v := by
  obtain ⟨v, hv⟩ := bretschneider_defined 2 5 1 (by norm_num) (by norm_num) (by norm_num)
  exact ⟨v, hv, bretschneider_nonneg _ _ _ _ hv⟩

end Xdyn.Waves

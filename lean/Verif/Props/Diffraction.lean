/-
Proofs about the diffraction force (C165, C166).
-/
import Verif.Model.Diffraction
import Verif.Props.SeaState
import Verif.Props.Radiation
import Mathlib.Analysis.Real.Pi.Bounds

namespace Xdyn.Sea
open Waves Hull Hdb

/-- Response of axis `i` of a ship of heading `psi`, the calculation point of which is at `x`, `y`, to one wave: the module of the RAO,
for the period of the wave and its incidence (heading minus direction of the wave), times the amplitude, times the sine of the phase
of the wave at the calculation point minus the phase of the RAO. -/
noncomputable def waveResponse (modules phases : Fin 6 → ℝ → ℝ → ℝ) (mirror : Bool) (x y t psi : ℝ) (i : Fin 6) (c : Comp) (theta : ℝ) : ℝ :=
  -(interpolateModule (modules i) mirror i (2 * Real.pi / c.omega) (psi - c.psi) * c.a *
    Real.sin (-(c.omega * t) + c.k * (x * c.cosPsi + y * c.sinPsi) + theta - interpolatePhase (phases i) mirror i (2 * Real.pi / c.omega) (psi - c.psi)))

/-- Response of axis `i` to all the waves of all the spectra. -/
noncomputable def seaResponse (modules phases : Fin 6 → ℝ → ℝ → ℝ) (mirror : Bool) (s : Sea) (x y t psi : ℝ) (i : Fin 6) : ℝ :=
  (s.spectra.map (fun f => ((f.comps.zip f.phase).map (fun q => waveResponse modules phases mirror x y t psi i q.1 q.2)).sum)).sum

/-! ### Construction -/

theorem makeDiffraction_iff (H0 : Pt ℝ) (mirror : Bool) (M P : Fin 6 → ℝ → ℝ → ℝ) (hp : List ℝ) (w : Option Sea) (d : Diffraction) :
    makeDiffraction H0 mirror M P hp w = .ok d ↔ ∃ s, w = some s ∧ d = ⟨H0, mirror, M, P, toPeriods s.omegas, s.psis⟩ ∧
      ∀ T, hp.head? = some T → ∀ f ∈ s.spectra, ∀ c ∈ f.comps, T - 1 / 100 ≤ 2 * Real.pi / c.omega ∧ 2 * Real.pi / c.omega ≤ hp.getLastD T + 1 / 100 := by
  unfold makeDiffraction
  cases w with
  | none => simp
  | some s =>
    simp only [Option.some.injEq, exists_eq_left']
    cases hp with
    | nil => simp [eq_comm]
    | cons T l =>
      simp only [List.head?_cons, Option.some.injEq]
      have key := diffraction_periods_accepted T ((T :: l).getLastD T) (toPeriods s.omegas)
      have h2 : (∀ t ∈ toPeriods s.omegas, ∀ Tp ∈ t, T - 1 / 100 ≤ Tp ∧ Tp ≤ (T :: l).getLastD T + 1 / 100) ↔
          ∀ T', T = T' → ∀ f ∈ s.spectra, ∀ c ∈ f.comps, T' - 1 / 100 ≤ 2 * Real.pi / c.omega ∧ 2 * Real.pi / c.omega ≤ (T :: l).getLastD T' + 1 / 100 := by
        constructor
        · rintro h T' rfl f hf c hc
          exact h _ (List.mem_map.mpr ⟨_, List.mem_map.mpr ⟨f, hf, rfl⟩, rfl⟩) _ (List.mem_map.mpr ⟨_, List.mem_map.mpr ⟨c, hc, rfl⟩, rfl⟩)
        · intro h t ht Tp hTp
          obtain ⟨_, ht', rfl⟩ := List.mem_map.mp ht
          obtain ⟨f, hf, rfl⟩ := List.mem_map.mp ht'
          obtain ⟨_, hw, rfl⟩ := List.mem_map.mp hTp
          obtain ⟨c, hc, rfl⟩ := List.mem_map.mp hw
          exact h T rfl f hf c hc
      rw [← h2, ← key]
      cases hc : checkPeriods T (toPeriods s.omegas) ((T :: l).getLastD T) with
      | error e => simp
      | ok u => simp [eq_comm]

/-! ### Force -/

theorem spectrumRao_ok (H0 : Pt ℝ) (mirror : Bool) (M P : Fin 6 → ℝ → ℝ → ℝ) (s : Sea) (i : Fin 6) (psi : ℝ) (n : Nat) (f : Flat)
    (h : s.spectra[n]? = some f) :
    spectrumRao ⟨H0, mirror, M, P, toPeriods s.omegas, s.psis⟩ i psi n = .ok
      (f.comps.map (fun c => interpolateModule (M i) mirror i (2 * Real.pi / c.omega) (psi - c.psi)),
       f.comps.map (fun c => -interpolatePhase (P i) mirror i (2 * Real.pi / c.omega) (psi - c.psi))) := by
  have e1 : getUB (toPeriods s.omegas) n = .ok (f.comps.map (fun c => 2 * Real.pi / c.omega)) := by
    unfold getUB
    simp [toPeriods, Sea.omegas, List.getElem?_map, h]
  have e2 : getAt s.psis n = .ok (f.comps.map (·.psi)) := by
    unfold getAt
    simp [Sea.psis, List.getElem?_map, h]
  unfold spectrumRao
  simp only [e1, e2, bind, Except.bind, pure, Except.pure, List.length_map]
  rw [mapM_ok (g := fun j => (interpolateModule (M i) mirror i (2 * Real.pi / (f.comps.getD j ⟨0, 0, 0, 0, 0, 0⟩).omega) (psi - (f.comps.getD j ⟨0, 0, 0, 0, 0, 0⟩).psi),
    -interpolatePhase (P i) mirror i (2 * Real.pi / (f.comps.getD j ⟨0, 0, 0, 0, 0, 0⟩).omega) (psi - (f.comps.getD j ⟨0, 0, 0, 0, 0, 0⟩).psi)))]
  · simp only [List.map_map, Function.comp_def, Except.ok.injEq, Prod.mk.injEq]
    constructor
    all_goals
      refine List.ext_getElem (by simp) (fun j h1 h2 => ?_)
      have hj : j < f.comps.length := by simpa using h1
      simp [List.getElem?_eq_getElem hj]
  · intro j hj
    have hj := List.mem_range.mp hj
    simp [getAt, getUB, List.getElem?_map, List.getElem?_eq_getElem hj]

theorem zip_map_sum (a : List Comp) (b : List ℝ) (g : Comp → ℝ × ℝ) (F : Comp → ℝ → ℝ × ℝ → ℝ) :
    ((a.zip b).zip ((a.map g))).map (fun q => F q.1.1 q.1.2 q.2) = (a.zip b).map (fun q => F q.1 q.2 (g q.1)) := by
  induction a generalizing b with
  | nil => simp
  | cons c a ih =>
    cases b with
    | nil => simp
    | cons x b => simp [ih]

/-- response of one axis -/
theorem axisResponse_ok (H0 : Pt ℝ) (mirror : Bool) (M P : Fin 6 → ℝ → ℝ → ℝ) (s : Sea) (hs : GoodSea s) (x y t psi : ℝ) (i : Fin 6) :
    axisResponse ⟨H0, mirror, M, P, toPeriods s.omegas, s.psis⟩ s x y t psi i = .ok (seaResponse M P mirror s x y t psi i) := by
  unfold axisResponse
  let g : Flat → List ℝ × List ℝ := fun f =>
    (f.comps.map (fun c => interpolateModule (M i) mirror i (2 * Real.pi / c.omega) (psi - c.psi)),
     f.comps.map (fun c => -interpolatePhase (P i) mirror i (2 * Real.pi / c.omega) (psi - c.psi)))
  have hl : (toPeriods s.omegas).length = s.spectra.length := by simp [toPeriods, Sea.omegas]
  have e : (List.range (toPeriods s.omegas).length).mapM (spectrumRao ⟨H0, mirror, M, P, toPeriods s.omegas, s.psis⟩ i psi) =
      .ok (s.spectra.map g) := by
    rw [mapM_ok (g := fun n => ((s.spectra.map g)[n]?).getD ([], []))]
    · congr 1
      refine List.ext_getElem (by simp [hl]) (fun n h1 h2 => ?_)
      have hn : n < s.spectra.length := by simpa using h2
      simp [List.getElem?_eq_getElem hn]
    · intro n hn
      have hn : n < s.spectra.length := by rw [List.mem_range, hl] at hn; exact hn
      rw [spectrumRao_ok H0 mirror M P s i psi n _ (List.getElem?_eq_getElem hn)]
      simp [List.getElem?_eq_getElem hn, g]
  simp only [e, bind, Except.bind]
  rw [rao_superposition s hs _ _ _ _ _ (by simp) (by simp) (by intro j hj; simp [g])]
  congr 1
  unfold seaResponse
  have hz : s.spectra.zip ((List.map Prod.fst (List.map g s.spectra)).zip (List.map Prod.snd (List.map g s.spectra))) = s.spectra.map (fun f => (f, g f)) := by
    generalize s.spectra = l
    induction l with
    | nil => rfl
    | cons f l ih => simp only [List.map_cons, List.zip_cons_cons, ih]
  rw [hz, List.map_map]
  congr 1
  refine List.map_congr_left (fun f _ => ?_)
  simp only [Function.comp_def, raoResponse, g]
  have := zip_map_sum f.comps f.phase
    (fun c => (interpolateModule (M i) mirror i (2 * Real.pi / c.omega) (psi - c.psi), -interpolatePhase (P i) mirror i (2 * Real.pi / c.omega) (psi - c.psi)))
    (fun c th r => r.1 * c.a * Real.sin (-(c.omega * t) + c.k * (x * c.cosPsi + y * c.sinPsi) + th + r.2))
  rw [List.zip_map', this]
  have neg : ∀ l : List ℝ, -l.sum = (l.map (fun x => -x)).sum := by
    intro l
    induction l with
    | nil => simp
    | cons a l ih => simp [← ih, add_comm]
  rw [neg, List.map_map]
  rfl

/-- the six responses -/
theorem diffractionForce_ok (H0 : Pt ℝ) (mirror : Bool) (M P : Fin 6 → ℝ → ℝ → ℝ) (s : Sea) (hs : GoodSea s) (k : Frames) (body : String) (T : Transform)
    (hT : k body = some T) (G : Pt ℝ) (t psi : ℝ) :
    diffractionForce ⟨H0, mirror, M, P, toPeriods s.omegas, s.psis⟩ s k body G t psi =
      .ok (diffractionWrench (seaResponse M P mirror s (T.apply H0).x (T.apply H0).y t psi) (vec3 H0) (vec3 G)) := by
  unfold diffractionForce
  rw [hT]
  simp only
  rw [mapM_ok (g := seaResponse M P mirror s (T.apply H0).x (T.apply H0).y t psi) _ (fun i _ => axisResponse_ok H0 mirror M P s hs _ _ t psi i)]
  simp only
  congr 2
  funext i
  fin_cases i <;> rfl

/-- **C165** (force) The diffraction force of a model that has been built for a sea: for every position and heading of the ship and
every date, there is a force and a moment at G, equivalent (same power in every rigid motion) to the wrench at the calculation point
the components of which are the responses of the six axes to all the waves of all the spectra, x and K axes being reversed. -/
theorem diffraction_force (H0 : Pt ℝ) (mirror : Bool) (M P : Fin 6 → ℝ → ℝ → ℝ) (hp : List ℝ) (s : Sea) (hs : GoodSea s) (d : Diffraction)
    (hd : makeDiffraction H0 mirror M P hp (some s) = .ok d) (k : Frames) (body : String) (T : Transform) (hT : k body = some T)
    (G : Pt ℝ) (t psi : ℝ) : ∃ F N, diffractionForce d s k body G t psi = .ok (F, N) ∧ ∀ vG omega : Fin 3 → ℝ,
      let R := seaResponse M P mirror s (T.apply H0).x (T.apply H0).y t psi
      power F N vG omega = power ![-(R 0), R 1, R 2] ![-(R 3), R 4, R 5] (fun i => vG i + cross omega (fun j => vec3 H0 j - vec3 G j) i) omega := by
  obtain ⟨s', hs', rfl, -⟩ := (makeDiffraction_iff H0 mirror M P hp (some s) d).mp hd
  cases hs'
  exact ⟨_, _, diffractionForce_ok H0 mirror M P s hs k body T hT G t psi, fun vG omega => diffraction_wrench_transport _ _ _ _ _⟩

/-- **C165** (still water) There is no diffraction force without waves. -/
theorem diffraction_still_water (H0 : Pt ℝ) (mirror : Bool) (M P : Fin 6 → ℝ → ℝ → ℝ) (hp : List ℝ) (z : ℝ) (k : Frames) (body : String) (T : Transform)
    (hT : k body = some T) (G : Pt ℝ) (t psi : ℝ) : ∃ d, makeDiffraction H0 mirror M P hp (some (.constant z)) = .ok d ∧
      diffractionForce d (.constant z) k body G t psi = .ok (fun _ => 0, fun _ => 0) := by
  refine ⟨_, (makeDiffraction_iff _ _ _ _ _ _ _).mpr ⟨.constant z, rfl, rfl, ?_⟩, ?_⟩
  · intro T _ f hf
    simp [Sea.spectra] at hf
  · rw [diffractionForce_ok H0 mirror M P (.constant z) trivial k body T hT]
    have hz : seaResponse M P mirror (.constant z) (T.apply H0).x (T.apply H0).y t psi = fun _ => 0 := by
      funext i; simp [seaResponse, Sea.spectra]
    rw [hz]
    simp only [diffractionWrench, aquaplusWrench, Except.ok.injEq, Prod.mk.injEq]
    constructor
    · funext i; fin_cases i <;> simp
    · funext i; fin_cases i <;> simp [Hdb.cross]

/-! ### Symmetry -/

/-- The image of a point in the plane y = 0. -/
def flipY (p : Pt ℝ) : Pt ℝ := ⟨p.x, -p.y, p.z⟩

/-- The image of a sea: the waves come from the other side. -/
def flipSea : Sea → Sea
  | .constant z => .constant z
  | .waves models => .waves (models.map (fun f => { f with comps := f.comps.map (fun c => { c with psi := -c.psi, sinPsi := -c.sinPsi }) }))

/-- The tables are those of a symmetric ship: no sway, roll or yaw in following and head waves. -/
def Symmetric (M : Fin 6 → ℝ → ℝ → ℝ) : Prop := ∀ i : Fin 6, i.val % 2 = 1 → ∀ T, M i T 0 = 0 ∧ M i T Real.pi = 0

theorem module_flip (M : Fin 6 → ℝ → ℝ → ℝ) (hM : Symmetric M) (i : Fin 6) (T beta : ℝ) :
    interpolateModule (M i) true i T (-beta) = (if i.val % 2 = 1 then -1 else 1) * interpolateModule (M i) true i T beta := by
  by_cases h : ∀ n : ℤ, beta ≠ n * Real.pi
  · exact (diffraction_port_starboard (M i) i T beta h).1
  · push Not at h
    obtain ⟨n, rfl⟩ := h
    have hp := Real.pi_pos
    rcases Int.even_or_odd' n with ⟨m, rfl | rfl⟩
    · have e1 : -(((2 * m : ℤ) : ℝ) * Real.pi) = 0 + 2 * Real.pi * ((-m : ℤ) : ℝ) := by push_cast; ring
      have e2 : (((2 * m : ℤ) : ℝ) * Real.pi) = 0 + 2 * Real.pi * ((m : ℤ) : ℝ) := by push_cast; ring
      rw [e1, e2, (diffraction_periodic _ _ _ _ _ _).1, (diffraction_periodic _ _ _ _ _ _).1,
        (diffraction_direct (M i) true i T 0 le_rfl (by linarith) (fun _ => hp.le)).1]
      split
      · rename_i hi; rw [(hM i hi T).1]; ring
      · ring
    · have e1 : -(((2 * m + 1 : ℤ) : ℝ) * Real.pi) = Real.pi + 2 * Real.pi * ((-m - 1 : ℤ) : ℝ) := by push_cast; ring
      have e2 : (((2 * m + 1 : ℤ) : ℝ) * Real.pi) = Real.pi + 2 * Real.pi * ((m : ℤ) : ℝ) := by push_cast; ring
      rw [e1, e2, (diffraction_periodic _ _ _ _ _ _).1, (diffraction_periodic _ _ _ _ _ _).1,
        (diffraction_direct (M i) true i T Real.pi hp.le (by linarith) (fun _ => le_rfl)).1]
      split
      · rename_i hi; rw [(hM i hi T).2]; ring
      · ring

theorem phase_flip (f : ℝ → ℝ → ℝ) (i : Fin 6) (T beta : ℝ) : interpolatePhase f true i T (-beta) = interpolatePhase f true i T beta := by
  by_cases h : ∀ n : ℤ, beta ≠ n * Real.pi
  · exact (diffraction_port_starboard f i T beta h).2
  · push Not at h
    obtain ⟨n, rfl⟩ := h
    have e1 : -((n : ℝ) * Real.pi) = (n : ℝ) * Real.pi + 2 * Real.pi * ((-n : ℤ) : ℝ) := by push_cast; ring
    rw [e1, (diffraction_periodic f true i T _ _).2]

theorem response_flip (M P : Fin 6 → ℝ → ℝ → ℝ) (hM : Symmetric M) (s : Sea) (x y t psi : ℝ) (i : Fin 6) :
    seaResponse M P true (flipSea s) x (-y) t (-psi) i = (if i.val % 2 = 1 then -1 else 1) * seaResponse M P true s x y t psi i := by
  cases s with
  | constant z => simp [seaResponse, flipSea, Sea.spectra]
  | waves l =>
    simp only [seaResponse, flipSea, Sea.spectra, List.map_map]
    rw [← List.sum_map_mul_left]
    congr 1
    refine List.map_congr_left (fun f _ => ?_)
    simp only [Function.comp_def]
    rw [← List.sum_map_mul_left, List.zip_map_left, List.map_map]
    congr 1
    refine List.map_congr_left (fun q _ => ?_)
    simp only [Function.comp_def, waveResponse, Prod.map_fst, Prod.map_snd, id]
    rw [show -psi - -q.1.psi = -(psi - q.1.psi) by ring, module_flip M hM, phase_flip, show x * q.1.cosPsi + -y * -q.1.sinPsi = x * q.1.cosPsi + y * q.1.sinPsi by ring]
    ring

/-- **C166** With the option `mirror` and the tables of a symmetric ship: in the image of the sea, the ship in the image position (with
the opposite heading) has the image of the force and of the moment. -/
theorem diffraction_symmetric (H0 : Pt ℝ) (M P : Fin 6 → ℝ → ℝ → ℝ) (hM : Symmetric M) (hp : List ℝ) (s : Sea) (hs : GoodSea s) (d : Diffraction)
    (hd : makeDiffraction H0 true M P hp (some s) = .ok d) (k k' : Frames) (body : String) (T T' : Transform) (hT : k body = some T) (hT' : k' body = some T')
    (hTT : T'.apply (flipY H0) = flipY (T.apply H0)) (G : Pt ℝ) (t psi : ℝ) :
    ∃ F N d', diffractionForce d s k body G t psi = .ok (F, N) ∧ makeDiffraction (flipY H0) true M P hp (some (flipSea s)) = .ok d' ∧
      diffractionForce d' (flipSea s) k' body (flipY G) t (-psi) = .ok (![F 0, -(F 1), F 2], ![-(N 0), N 1, -(N 2)]) := by
  obtain ⟨s', hs', rfl, hper⟩ := (makeDiffraction_iff H0 true M P hp (some s) d).mp hd
  cases hs'
  have hs2 : GoodSea (flipSea s) := by
    cases s with
    | constant z => trivial
    | waves l =>
      intro f hf
      obtain ⟨f', hf', rfl⟩ := List.mem_map.mp hf
      simpa [HasPhases] using hs f' hf'
  have hper2 : ∀ T, hp.head? = some T → ∀ f ∈ (flipSea s).spectra, ∀ c ∈ f.comps,
      T - 1 / 100 ≤ 2 * Real.pi / c.omega ∧ 2 * Real.pi / c.omega ≤ hp.getLastD T + 1 / 100 := by
    intro T hT f hf c hc
    cases s with
    | constant z => simp [flipSea, Sea.spectra] at hf
    | waves l =>
      obtain ⟨f', hf', rfl⟩ := List.mem_map.mp hf
      obtain ⟨c', hc', rfl⟩ := List.mem_map.mp hc
      exact hper T hT f' hf' c' hc'
  refine ⟨_, _, _, diffractionForce_ok H0 true M P s hs k body T hT G t psi,
    (makeDiffraction_iff _ _ _ _ _ _ _).mpr ⟨_, rfl, rfl, hper2⟩, ?_⟩
  rw [diffractionForce_ok (flipY H0) true M P (flipSea s) hs2 k' body T' hT' (flipY G) t (-psi), hTT]
  have e : ∀ i, seaResponse M P true (flipSea s) (flipY (T.apply H0)).x (flipY (T.apply H0)).y t (-psi) i =
      (if i.val % 2 = 1 then -1 else 1) * seaResponse M P true s (T.apply H0).x (T.apply H0).y t psi i := fun i => response_flip M P hM s _ _ t psi i
  generalize seaResponse M P true s (T.apply H0).x (T.apply H0).y t psi = R at e ⊢
  generalize seaResponse M P true (flipSea s) (flipY (T.apply H0)).x (flipY (T.apply H0)).y t (-psi) = R' at e ⊢
  have e' : R' = ![R 0, -(R 1), R 2, -(R 3), R 4, -(R 5)] := by
    funext i; rw [e i]; fin_cases i <;> simp
  subst e'
  refine congrArg Except.ok (Prod.ext ?_ ?_)
  · funext i; fin_cases i <;> simp [diffractionWrench, aquaplusWrench]
  · funext i; fin_cases i <;> simp [diffractionWrench, aquaplusWrench, Hdb.cross, vec3, flipY] <;> ring

/-! ### A ship in two waves -/

/-- Tables of a symmetric ship. -/
noncomputable def demoModules (i : Fin 6) (T beta : ℝ) : ℝ := if i.val % 2 = 1 then T * Real.sin beta else T + Real.cos beta

theorem demoModules_symmetric : Symmetric demoModules := by
  intro i hi T
  simp [demoModules, hi]

/-- The hypotheses of `diffraction_force` and `diffraction_symmetric` are met by a ship at (100, 20), heading 0.3, in two waves of
periods π and 2π/5 with tables from 1 s to 10 s. -/
example : ∃ d F N d', makeDiffraction ⟨5, 0, 1⟩ true demoModules demoModules [1, 10] (some (.waves [twoWaves ⟨0, 0⟩])) = .ok d ∧
    diffractionForce d (.waves [twoWaves ⟨0, 0⟩]) (fun _ => some ⟨⟨100, 20, 0⟩, ![![1, 0, 0], ![0, 1, 0], ![0, 0, 1]]⟩) "ship" ⟨0, 0, 0⟩ 3 0.3 = .ok (F, N) ∧
    diffractionForce d' (flipSea (.waves [twoWaves ⟨0, 0⟩])) (fun _ => some ⟨⟨100, -20, 0⟩, ![![1, 0, 0], ![0, 1, 0], ![0, 0, 1]]⟩) "ship" (flipY ⟨0, 0, 0⟩) 3 (-0.3) =
      .ok (![F 0, -(F 1), F 2], ![-(N 0), N 1, -(N 2)]) := by
  have hgood : GoodSea (.waves [twoWaves ⟨0, 0⟩]) := by
    intro f hf
    rw [List.mem_singleton.mp hf]
    exact twoWaves_phases _
  have h3 := Real.pi_gt_d2
  have h4 := Real.pi_lt_d2
  have hd : makeDiffraction ⟨5, 0, 1⟩ true demoModules demoModules [1, 10] (some (.waves [twoWaves ⟨0, 0⟩])) = .ok _ :=
    (makeDiffraction_iff _ _ _ _ _ _ _).mpr ⟨_, rfl, rfl, by
      intro T hT f hf c hc
      simp only [List.head?_cons, Option.some.injEq] at hT
      subst hT
      rw [List.mem_singleton.mp hf] at hc
      simp only [twoWaves, List.mem_cons, List.not_mem_nil, or_false] at hc
      rcases hc with rfl | rfl
      · simp only [List.getLastD_cons, List.getLastD_nil]
        constructor <;> linarith
      · simp only [List.getLastD_cons, List.getLastD_nil]
        constructor <;> linarith⟩
  obtain ⟨F, N, d', h1, -, h2⟩ := diffraction_symmetric ⟨5, 0, 1⟩ demoModules demoModules demoModules_symmetric [1, 10] _ hgood _ hd
    (fun _ => some ⟨⟨100, 20, 0⟩, ![![1, 0, 0], ![0, 1, 0], ![0, 0, 1]]⟩) (fun _ => some ⟨⟨100, -20, 0⟩, ![![1, 0, 0], ![0, 1, 0], ![0, 0, 1]]⟩) "ship" _ _ rfl rfl
    (by simp [Transform.apply, flipY, vadd, rotate]) ⟨0, 0, 0⟩ 3 0.3
  exact ⟨_, F, N, d', hd, h1, h2⟩

end Xdyn.Sea

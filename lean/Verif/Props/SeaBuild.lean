import Verif.Props.InputMore
import Verif.Props.SeaState
import Verif.Props.Spectra
import Verif.Model.SeaBuild

/-
The sea that is simulated is the one described in the input file (C148).
-/

namespace Xdyn.Input

open Xdyn.Waves Xdyn.Sea

/-! ### What the file describes -/

/-- The spectral density a section `spectral density` describes: Hs and Tp (in SI units) of the file are those of the spectrum. -/
def DensityOf (L : Lib) (c : Conv ℝ) (kind : String) (n : Yaml) (S : Density) : Prop :=
  (kind = "bretschneider" ∧ ∃ r, IsHsTp c r n ∧ 0 ≤ r.Hs ∧ 0 < r.Tp ∧
    S = { value := bretschneider r.Hs r.Tp, angular := getAngularFrequencies, number := L.number }) ∨
  (kind = "jonswap" ∧ ∃ r, IsJonswap c r n ∧ 0 ≤ r.Hs ∧ 0 < r.Tp ∧ 0 < r.gamma ∧
    S = { value := jonswap r.Hs r.Tp r.gamma, angular := getAngularFrequencies, number := L.number }) ∨
  (kind = "pierson-moskowitz" ∧ ∃ r, IsHsTp c r n ∧ 0 ≤ r.Hs ∧ 0 < r.Tp ∧
    S = { value := piersonMoskowitz r.Hs r.Tp, angular := getAngularFrequencies, number := L.number }) ∨
  (kind = "dirac" ∧ ∃ r, IsDiracSpectrum c r n ∧ 0 ≤ r.Hs ∧ 0 < r.omega0 ∧
    S = { value := diracDensity r.omega0 r.Hs, angular := fun _ _ _ => .ok [r.omega0], number := L.number })

/-- The spreading a section `directional spreading` describes. -/
def SpreadingOf (L : Lib) (c : Conv ℝ) (kind : String) (n : Yaml) (D : Spreading) : Prop :=
  (kind = "dirac" ∧ ∃ psi0, Key n "waves propagating to" (IsQuantity c psi0) ∧
    D = { value := diracSpreading psi0, directions := fun _ => [psi0] }) ∨
  (kind = "cos2s" ∧ ∃ r, IsCos2s c r n ∧ 0 ≤ r.s ∧
    D = { value := fun psi => cos2sFactor r.s * L.pw (Real.cos ((psi - r.psi0) / 2)) (2 * r.s), directions := getDirections })

/-- `seed of the random data generator: none` -/
def NoSeed (c : Conv ℝ) (n : Yaml) : Prop :=
  Key n "seed of the random data generator" (IsText "none") ∧
    ∀ s : Nat, ¬ Key n "seed of the random data generator" (IsInt c (s : Int))

/-! ### Densities and spreadings -/

theorem buildDensity_iff (L : Lib) (c : Conv ℝ) (s : Spectra ℝ) (S : Density) :
    buildDensity L c s = .ok S ↔ DensityOf L c s.densityType s.densityNode S := by
  unfold buildDensity DensityOf
  have bad : ∀ {r : Density}, ¬ ((invalidInput : Except Err Density) = .ok r) := by intro r; simp [invalidInput]
  constructor
  · intro h
    split_ifs at h with h1 h2 h3 h4
    · refine .inl ⟨h1, ?_⟩
      simp only [buildBretschneider, bind_iff, parseHsTp_iff] at h
      obtain ⟨r, hr, h⟩ := h
      split_ifs at h with ha hb
      · exact absurd h bad
      · exact absurd h bad
      · exact ⟨r, hr, not_lt.mp ha, not_le.mp hb, (Except.ok.inj h).symm⟩
    · refine .inr (.inl ⟨h2, ?_⟩)
      simp only [buildJonswap, bind_iff, parseJonswap_iff] at h
      obtain ⟨r, hr, h⟩ := h
      split_ifs at h with ha hb hc
      · exact absurd h bad
      · exact absurd h bad
      · exact absurd h bad
      · exact ⟨r, hr, not_lt.mp ha, not_le.mp hb, not_le.mp hc, (Except.ok.inj h).symm⟩
    · refine .inr (.inr (.inl ⟨h3, ?_⟩))
      simp only [buildPiersonMoskowitz, bind_iff, parseHsTp_iff] at h
      obtain ⟨r, hr, h⟩ := h
      split_ifs at h with ha hb
      · exact absurd h bad
      · exact absurd h bad
      · exact ⟨r, hr, not_lt.mp ha, not_le.mp hb, (Except.ok.inj h).symm⟩
    · refine .inr (.inr (.inr ⟨h4, ?_⟩))
      simp only [buildDiracDensity, bind_iff, parseDiracSpectrum_iff] at h
      obtain ⟨r, hr, h⟩ := h
      split_ifs at h with ha hb
      · exact absurd h bad
      · exact absurd h bad
      · exact ⟨r, hr, not_lt.mp ha, not_le.mp hb, (Except.ok.inj h).symm⟩
    · exact absurd h bad
  · rintro (⟨hk, r, hr, ha, hb, rfl⟩ | ⟨hk, r, hr, ha, hb, hc, rfl⟩ | ⟨hk, r, hr, ha, hb, rfl⟩ | ⟨hk, r, hr, ha, hb, rfl⟩)
    · rw [hk, if_pos rfl]
      simp only [buildBretschneider, bind_iff, parseHsTp_iff]
      exact ⟨r, hr, by rw [if_neg (not_lt.mpr ha), if_neg (not_le.mpr hb)]⟩
    · rw [hk, if_neg (by decide), if_pos rfl]
      simp only [buildJonswap, bind_iff, parseJonswap_iff]
      exact ⟨r, hr, by rw [if_neg (not_lt.mpr ha), if_neg (not_le.mpr hb), if_neg (not_le.mpr hc)]⟩
    · rw [hk, if_neg (by decide), if_neg (by decide), if_pos rfl]
      simp only [buildPiersonMoskowitz, bind_iff, parseHsTp_iff]
      exact ⟨r, hr, by rw [if_neg (not_lt.mpr ha), if_neg (not_le.mpr hb)]⟩
    · rw [hk, if_neg (by decide), if_neg (by decide), if_neg (by decide), if_pos rfl]
      simp only [buildDiracDensity, bind_iff, parseDiracSpectrum_iff]
      exact ⟨r, hr, by rw [if_neg (not_lt.mpr ha), if_neg (not_le.mpr hb)]⟩

theorem buildSpreading_iff (L : Lib) (c : Conv ℝ) (s : Spectra ℝ) (D : Spreading) :
    buildSpreading L c s = .ok D ↔ SpreadingOf L c s.spreadingType s.spreadingNode D := by
  unfold buildSpreading SpreadingOf
  have bad : ∀ {r : Spreading}, ¬ ((invalidInput : Except Err Spreading) = .ok r) := by intro r; simp [invalidInput]
  constructor
  · intro h
    split_ifs at h with h1 h2
    · refine .inl ⟨h1, ?_⟩
      simp only [buildDiracSpreading, parseDiracDirection, bind_iff, wrap_iff, field_iff, uv_iff] at h
      obtain ⟨p, hp, h⟩ := h
      exact ⟨p, hp, (Except.ok.inj h).symm⟩
    · refine .inr ⟨h2, ?_⟩
      simp only [buildCos2s, bind_iff, parseCos2s_iff] at h
      obtain ⟨r, hr, h⟩ := h
      split_ifs at h with ha
      · exact absurd h bad
      · exact ⟨r, hr, not_lt.mp ha, (Except.ok.inj h).symm⟩
    · exact absurd h bad
  · rintro (⟨hk, p, hp, rfl⟩ | ⟨hk, r, hr, ha, rfl⟩)
    · rw [hk, if_pos rfl]
      simp only [buildDiracSpreading, parseDiracDirection, bind_iff, wrap_iff, field_iff, uv_iff]
      exact ⟨p, hp, rfl⟩
    · rw [hk, if_neg (by decide), if_pos rfl]
      simp only [buildCos2s, bind_iff, parseCos2s_iff]
      exact ⟨r, hr, by rw [if_neg (not_lt.mpr ha)]⟩

/-! ### Wave models -/

theorem buildAiry_iff (L : Lib) (c : Conv ℝ) (s : Spectra ℝ) (d : Discrete) (f : Flat) :
    buildAiry L c s d = .ok f ↔ s.model = "airy" ∧
      ((∃ k, Key s.node "seed of the random data generator" (IsInt c ((k : Nat) : Int)) ∧ waveModelRandom d (L.rng k) = .ok f) ∨
       (NoSeed c s.node ∧ waveModelConstant d 0 = .ok f)) := by
  unfold buildAiry
  by_cases hm : s.model = "airy"
  · rw [if_pos hm, bind_iff]
    simp only [parseSeed_iff, hm, true_and]
    constructor
    · rintro ⟨o, ho, h⟩
      rcases ho with ⟨k, rfl, hk⟩ | ⟨rfl, hn⟩
      · exact .inl ⟨k, hk, h⟩
      · exact .inr ⟨hn, h⟩
    · rintro (⟨k, hk, h⟩ | ⟨hn, h⟩)
      · exact ⟨some k, .inl ⟨k, rfl, hk⟩, h⟩
      · exact ⟨none, .inr ⟨rfl, hn⟩, h⟩
  · simp only [if_neg hm, hm, false_and, iff_false]
    simp [invalidInput]

theorem buildAll_iff (L : Lib) (c : Conv ℝ) (d : Discretization ℝ) (l : List (Spectra ℝ)) (fs : List Flat) :
    buildAll L c d l = .ok fs ↔ List.Forall₂ (fun f s => buildWaveModel L c d s = .ok f) fs l := by
  induction l generalizing fs with
  | nil => simp [buildAll, eq_comm]
  | cons s l ih =>
    simp only [buildAll, bind_iff', Except.ok.injEq, List.forall₂_cons_right_iff]
    constructor
    · rintro ⟨x, hx, xs, hxs, rfl⟩
      exact ⟨x, xs, hx, (ih xs).mp hxs, rfl⟩
    · rintro ⟨x, xs, hx, hxs, rfl⟩
      exact ⟨x, hx, xs, (ih xs).mpr hxs, rfl⟩

/-- What one element of `spectra` gives: the spectrum and the spreading of the file are discretized with the bounds and
the number of components of the file, stretched as the file says, with random phases (or zero without seed). -/
theorem buildWaveModel_iff (L : Lib) (c : Conv ℝ) (d : Discretization ℝ) (s : Spectra ℝ) (f : Flat) :
    buildWaveModel L c d s = .ok f ↔ s.model = "airy" ∧ ∃ S D r, DensityOf L c s.densityType s.densityNode S ∧
      SpreadingOf L c s.spreadingType s.spreadingNode D ∧
      parseDirectionalSpectrum S D d.omegaMin d.omegaMax d.n s.depth ⟨s.stretching.delta, s.stretching.h⟩ = .ok r ∧
      ((∃ k, Key s.node "seed of the random data generator" (IsInt c ((k : Nat) : Int)) ∧ waveModelRandom r (L.rng k) = .ok f) ∨
       (NoSeed c s.node ∧ waveModelConstant r 0 = .ok f)) := by
  simp only [buildWaveModel, bind_iff', buildDensity_iff, buildSpreading_iff, buildAiry_iff]
  constructor
  · rintro ⟨S, hS, D, hD, r, hr, hm, h⟩
    exact ⟨hm, S, D, r, hS, hD, hr, h⟩
  · rintro ⟨hm, S, D, r, hS, hD, hr, h⟩
    exact ⟨S, hS, D, hD, r, hr, hm, h⟩

theorem mapM_forall₂ (g : ℝ → Except Err ℝ) (l vs : List ℝ) (h : l.mapM g = .ok vs) :
    List.Forall₂ (fun v w => g w = .ok v) vs l := by
  induction l generalizing vs with
  | nil =>
    simp only [List.mapM_nil, pure, Except.pure, Except.ok.injEq] at h
    subst h; exact .nil
  | cons w l ih =>
    simp only [List.mapM_cons, bind_iff', pure, Except.pure, Except.ok.injEq] at h
    obtain ⟨v, hv, vs, hvs, rfl⟩ := h
    exact .cons hv (ih vs hvs)

/-! ### The sea -/

/-- One environment model: which of the three it is decides what is built. -/
theorem surfaceOf_one (L : Lib) (c : Conv ℝ) (m : ModelNode) (x : Surface) :
    surfaceOf L c [m] = .ok (some x) ↔
      (m.model = "no waves" ∧ ∃ z, Key m.yaml "constant sea elevation in NED frame" (IsQuantity c z) ∧ x = .here (.constant z)) ∨
      (m.model = "waves" ∧ ∃ w models, IsWaves c w m.yaml ∧
        List.Forall₂ (fun f s => buildWaveModel L c w.discretization s = .ok f) models w.spectra ∧ x = .here (.waves models)) ∨
      (m.model = "grpc" ∧ ∃ u, Key m.yaml "url" (IsText u) ∧ x = .distant u) := by
  have key : surfaceOf L c [m] = .ok (some x) ↔ (∃ y, buildConstant c m = .ok y ∧ ∃ y', buildWaves L c m = .ok y' ∧
      ∃ y'', buildDistant c m = .ok y'' ∧
      ((y = some x ∧ y' = none ∧ y'' = none) ∨ (y = none ∧ y' = some x ∧ y'' = none) ∨ (y = none ∧ y' = none ∧ y'' = some x))) := by
    unfold surfaceOf Xdyn.Config.getWave
    rw [if_neg (by simp)]
    simp only [List.foldlM_cons, List.foldlM_nil, Xdyn.Config.tryWaveParser]
    rcases buildConstant c m with e | (_ | y) <;> rcases buildWaves L c m with e' | (_ | y') <;>
      rcases buildDistant c m with e'' | (_ | y'') <;>
      simp [bind, Except.bind, pure, Except.pure]
  rw [key]
  have c1 : m.model ≠ "no waves" → buildConstant c m = .ok none := fun h => by unfold buildConstant; rw [if_neg h]
  have c2 : m.model ≠ "waves" → buildWaves L c m = .ok none := fun h => by unfold buildWaves; rw [if_neg h]
  have c3 : m.model ≠ "grpc" → buildDistant c m = .ok none := fun h => by unfold buildDistant; rw [if_neg h]
  have d1 : m.model = "no waves" → ∀ y, buildConstant c m = .ok y ↔
      ∃ z, Key m.yaml "constant sea elevation in NED frame" (IsQuantity c z) ∧ y = some (.here (.constant z)) := by
    intro h y
    unfold buildConstant
    rw [if_pos h]
    simp only [bind_iff', Except.ok.injEq, Prod.exists, parseDefaultWaveModel_iff]
    constructor
    · rintro ⟨z, o, ⟨hz, -⟩, rfl⟩; exact ⟨z, hz, rfl⟩
    · rintro ⟨z, hz, rfl⟩; exact ⟨z, _, ⟨hz, rfl⟩, rfl⟩
  have d2 : m.model = "waves" → ∀ y, buildWaves L c m = .ok y ↔ ∃ w models, IsWaves c w m.yaml ∧
        List.Forall₂ (fun f s => buildWaveModel L c w.discretization s = .ok f) models w.spectra ∧ y = some (.here (.waves models)) := by
    intro h y
    unfold buildWaves
    rw [if_pos h]
    simp only [bind_iff', Except.ok.injEq, parseWaves_iff, buildAll_iff]
    constructor
    · rintro ⟨w, hw, ms, hms, rfl⟩; exact ⟨w, ms, hw, hms, rfl⟩
    · rintro ⟨w, ms, hw, hms, rfl⟩; exact ⟨w, hw, ms, hms, rfl⟩
  have d3 : m.model = "grpc" → ∀ y, buildDistant c m = .ok y ↔
      ∃ u, Key m.yaml "url" (IsText u) ∧ y = some (.distant u) := by
    intro h y
    unfold buildDistant
    rw [if_pos h]
    simp only [bind_iff', Except.ok.injEq, parseGrpcWaves, field_iff, text_iff]
    constructor
    · rintro ⟨r, ⟨u, hu, rfl⟩, rfl⟩; exact ⟨u, hu, rfl⟩
    · rintro ⟨u, hu, rfl⟩; exact ⟨_, ⟨u, hu, rfl⟩, rfl⟩
  by_cases h1 : m.model = "no waves"
  · have h2 : m.model ≠ "waves" := by rw [h1]; decide
    have h3 : m.model ≠ "grpc" := by rw [h1]; decide
    rw [c2 h2, c3 h3]
    simp only [d1 h1, h1, true_and, show ("no waves" = "waves") = False from by decide, show ("no waves" = "grpc") = False from by decide, false_and, or_false]
    constructor
    · rintro ⟨y, ⟨z, hz, rfl⟩, y', hy', y'', hy'', h⟩
      cases hy'; cases hy''
      simp at h
      exact ⟨z, hz, h.symm⟩
    · rintro ⟨z, hz, rfl⟩
      exact ⟨_, ⟨z, hz, rfl⟩, _, rfl, _, rfl, .inl ⟨rfl, rfl, rfl⟩⟩
  · rw [c1 h1]
    by_cases h2 : m.model = "waves"
    · have h3 : m.model ≠ "grpc" := by rw [h2]; decide
      rw [c3 h3]
      simp only [d2 h2, h2, true_and, show ("waves" = "no waves") = False from by decide, show ("waves" = "grpc") = False from by decide, false_and, or_false, false_or]
      constructor
      · rintro ⟨y, hy, y', ⟨w, ms, hw, hms, rfl⟩, y'', hy'', h⟩
        cases hy; cases hy''
        simp at h
        exact ⟨w, ms, hw, hms, h.symm⟩
      · rintro ⟨w, ms, hw, hms, rfl⟩
        exact ⟨_, rfl, _, ⟨w, ms, hw, hms, rfl⟩, _, rfl, .inr (.inl ⟨rfl, rfl, rfl⟩)⟩
    · rw [c2 h2]
      simp only [h1, h2, false_and, false_or]
      by_cases h3 : m.model = "grpc"
      · simp only [d3 h3, h3, true_and]
        constructor
        · rintro ⟨y, hy, y', hy', y'', ⟨u, hu, rfl⟩, h⟩
          cases hy; cases hy'
          simp at h
          exact ⟨u, hu, h.symm⟩
        · rintro ⟨u, hu, rfl⟩
          exact ⟨_, rfl, _, rfl, _, ⟨u, hu, rfl⟩, .inr (.inr ⟨rfl, rfl, rfl⟩)⟩
      · rw [c3 h3]
        simp [h3]

/-- **C148** The sea state of a file with model 'waves': one wave model per element of `spectra`, in order, each built
from its own spectrum, spreading, depth, stretching and seed, and from the common discretization. -/
theorem sea_of_file (L : Lib) (c : Conv ℝ) (m : ModelNode) (hm : m.model = "waves") (models : List Flat) :
    surfaceOf L c [m] = .ok (some (.here (.waves models))) ↔ ∃ w, IsWaves c w m.yaml ∧
      List.Forall₂ (fun f s => s.model = "airy" ∧ ∃ S D r, DensityOf L c s.densityType s.densityNode S ∧
        SpreadingOf L c s.spreadingType s.spreadingNode D ∧
        parseDirectionalSpectrum S D w.discretization.omegaMin w.discretization.omegaMax w.discretization.n s.depth
          ⟨s.stretching.delta, s.stretching.h⟩ = .ok r ∧
        ((∃ k, Key s.node "seed of the random data generator" (IsInt c ((k : Nat) : Int)) ∧ waveModelRandom r (L.rng k) = .ok f) ∨
         (NoSeed c s.node ∧ waveModelConstant r 0 = .ok f))) models w.spectra := by
  rw [surfaceOf_one]
  simp only [buildWaveModel_iff, hm, true_and, show ("waves" = "no waves") = False from by decide,
    show ("waves" = "grpc") = False from by decide, false_and, or_false, false_or, Surface.here.injEq, Sea.waves.injEq]
  constructor
  · rintro ⟨w, ms, hw, h, rfl⟩; exact ⟨w, hw, h⟩
  · rintro ⟨w, hw, h⟩; exact ⟨w, models, hw, h, rfl⟩

/-- **C148** Regular waves: a file with one spectrum, spectral density and directional spreading 'dirac', a positive depth and no
seed, gives the elevation `-(Hs/2) sin(ω²/9.81 (x cos ψ + y sin ψ) - ω t)` at every point and date, with the height, the
pulsation and the direction of the file, converted to SI units. -/
theorem regular_wave (L : Lib) (c : Conv ℝ) (m : ModelNode) (hm : m.model = "waves") (w : WaveModel ℝ)
    (hw : IsWaves c w m.yaml) (s : Spectra ℝ) (hs : w.spectra = [s]) (ha : s.model = "airy")
    (hd : s.densityType = "dirac") (r : DiracSpectrum ℝ) (hr : IsDiracSpectrum c r s.densityNode) (hH : 0 ≤ r.Hs) (ho : 0 < r.omega0)
    (hp : s.spreadingType = "dirac") (psi : ℝ) (hpsi : Key s.spreadingNode "waves propagating to" (IsQuantity c psi))
    (hdep : 0 < s.depth) (hseed : NoSeed c s.node) :
    ∃ sea, surfaceOf L c [m] = .ok (some (.here sea)) ∧ ∀ x y t,
      sea.height [x] [y] t = .ok [-(r.Hs / 2 * Real.sin (-(r.omega0 * t) +
        r.omega0 * r.omega0 / 9.81 * (x * Real.cos psi + y * Real.sin psi)))] := by
  obtain ⟨si, hsi, f, hf, hfc, hfp⟩ := dirac_regular_wave r.omega0 r.Hs psi (waveNumber r.omega0) 0
    (pdynInf ⟨s.stretching.delta, s.stretching.h⟩) (pdynInf ⟨s.stretching.delta, s.stretching.h⟩) hH ho
  refine ⟨.waves [f], ?_, ?_⟩
  · rw [sea_of_file L c m hm]
    refine ⟨w, hw, ?_⟩
    rw [hs]
    refine List.Forall₂.cons ⟨ha, { value := diracDensity r.omega0 r.Hs, angular := fun _ _ _ => .ok [r.omega0], number := L.number },
      { value := diracSpreading psi, directions := fun _ => [psi] },
      { Si := [si], Dj := [diracSpreading psi psi], omega := [r.omega0], psi := [psi], k := [waveNumber r.omega0], phase := [],
        pdyn := pdynInf ⟨s.stretching.delta, s.stretching.h⟩, pdynSh := pdynInf ⟨s.stretching.delta, s.stretching.h⟩ },
      .inr (.inr (.inr ⟨hd, r, hr, hH, ho, rfl⟩)), .inl ⟨hp, psi, hpsi, rfl⟩, ?_, .inr ⟨hseed, ?_⟩⟩ List.Forall₂.nil
    · simp only [parseDirectionalSpectrum, if_pos hdep, discretizeInf, commonPart, List.mapM_cons, List.mapM_nil, bind, Except.bind, pure, Except.pure, hsi,
        List.map_cons, List.map_nil]
    · have e : addConstantPhases ⟨[si], [diracSpreading psi psi], [r.omega0], [psi], [waveNumber r.omega0], [],
          pdynInf ⟨s.stretching.delta, s.stretching.h⟩, pdynInf ⟨s.stretching.delta, s.stretching.h⟩⟩ 0 =
          ⟨[si], [diracSpreading psi psi], [r.omega0], [psi], [waveNumber r.omega0], [[0]],
            pdynInf ⟨s.stretching.delta, s.stretching.h⟩, pdynInf ⟨s.stretching.delta, s.stretching.h⟩⟩ := by
        simp [addConstantPhases]
      unfold waveModelConstant
      rw [e, hf]
      simp [bind, Except.bind, pure, Except.pure, checkSizes, hfc, hfp]
  · intro x y t
    have hph : HasPhases f := by simp [HasPhases, hfc, hfp]
    have := wave_height_sum [f] (by intro g hg; rw [List.mem_singleton] at hg; rw [hg]; exact hph) [x] [y] rfl t
    show waveHeight [f] [x] [y] t = _
    rw [this]
    simp [airySum, hfc, hfp, airyTerm, angle, waveNumber]

/-- **C148** Irregular waves, random phases: one component per frequency and direction, each with the amplitude the densities
give it, its pulsation and direction, the wave number of infinite depth, and its own random phase. -/
theorem irregular_wave (L : Lib) (c : Conv ℝ) (d : Discretization ℝ) (s : Spectra ℝ) (f : Flat)
    (h : buildWaveModel L c d s = .ok f) (hdep : 0 < s.depth)
    (k : Nat) (hk : Key s.node "seed of the random data generator" (IsInt c (k : Int))) :
    ∃ S D omega Si, DensityOf L c s.densityType s.densityNode S ∧ SpreadingOf L c s.spreadingType s.spreadingNode D ∧
      S.angular d.omegaMin d.omegaMax d.n = .ok omega ∧
      List.Forall₂ (fun v w => S.value w = .ok v) Si omega ∧
      (omega ≠ [] → D.directions d.n ≠ [] →
        f.comps.length = omega.length * (D.directions d.n).length ∧ f.phase.length = f.comps.length ∧
        ∀ i j, i < omega.length → j < (D.directions d.n).length →
          f.phase[i * (D.directions d.n).length + j]? = some (L.rng k i j) ∧
          ∃ o si p, omega[i]? = some o ∧ Si[i]? = some si ∧ (D.directions d.n)[j]? = some p ∧
            f.comps[i * (D.directions d.n).length + j]? = some
              { a := Real.sqrt (2 * (si * D.value p) * widthR omega i * widthR (D.directions d.n) j), omega := o, psi := p,
                cosPsi := Real.cos p, sinPsi := Real.sin p, k := o * o / 9.81 }) := by
  obtain ⟨-, S, D, r, hS, hD, hr, hseed⟩ := (buildWaveModel_iff L c d s f).mp h
  have hseed : waveModelRandom r (L.rng k) = .ok f := by
    rcases hseed with ⟨k', hk', h⟩ | ⟨hn, -⟩
    · have e1 := (positiveInteger_iff c s.node _ k).mpr hk
      have e2 := (positiveInteger_iff c s.node _ k').mpr hk'
      rw [e1] at e2
      cases e2
      exact h
    · exact absurd hk (hn.2 k)
  rw [parseDirectionalSpectrum, if_pos hdep] at hr
  simp only [discretizeInf, commonPart, bind_iff', pure, Except.pure, Except.ok.injEq] at hr
  obtain ⟨r0, ⟨omega, homega, Si, hSi, rfl⟩, rfl⟩ := hr
  have hF : List.Forall₂ (fun v w => S.value w = .ok v) Si omega := mapM_forall₂ S.value omega Si hSi
  have hlen : Si.length = omega.length := hF.length_eq
  refine ⟨S, D, omega, Si, hS, hD, homega, hF, ?_⟩
  intro hne hne'
  obtain ⟨f', hf', hl1, hl2, hph⟩ := random_phases ⟨Si, (D.directions d.n).map D.value, omega, D.directions d.n, omega.map waveNumber, [],
      pdynInf ⟨s.stretching.delta, s.stretching.h⟩, pdynInf ⟨s.stretching.delta, s.stretching.h⟩⟩ (L.rng k) hlen (by simp) (by simp) hne hne'
  rw [hseed] at hf'
  cases hf'
  refine ⟨hl1, hl2.trans hl1.symm, ?_⟩
  intro i j hi hj
  refine ⟨hph i j hi hj, ?_⟩
  have hi' : i < Si.length := by omega
  refine ⟨omega[i], Si[i], (D.directions d.n)[j], List.getElem?_eq_getElem hi, List.getElem?_eq_getElem hi', List.getElem?_eq_getElem hj, ?_⟩
  have hno : 0 < omega.length := List.length_pos_iff.mpr hne
  have hnp : 0 < (D.directions d.n).length := List.length_pos_iff.mpr hne'
  have w : WellFormed (addRandomPhases ⟨Si, (D.directions d.n).map D.value, omega, D.directions d.n, omega.map waveNumber, [],
      pdynInf ⟨s.stretching.delta, s.stretching.h⟩, pdynInf ⟨s.stretching.delta, s.stretching.h⟩⟩ (L.rng k)) := by
    rw [addRandomPhases]
    simp only [hlen, List.length_map, gt_iff_lt, Nat.mul_pos hno hnp, if_true]
    exact ⟨hlen, by simp, by simp, by simp, by simp⟩
  unfold waveModelRandom at hseed
  rw [flatten_eq w] at hseed
  simp only [bind, Except.bind, pure, Except.pure, checkSizes] at hseed
  split_ifs at hseed with hc
  simp only [Except.ok.injEq] at hseed
  rw [← hseed]
  have e : addRandomPhases ⟨Si, (D.directions d.n).map D.value, omega, D.directions d.n, omega.map waveNumber,
      [], pdynInf ⟨s.stretching.delta, s.stretching.h⟩, pdynInf ⟨s.stretching.delta, s.stretching.h⟩⟩ (L.rng k) =
      ⟨Si, (D.directions d.n).map D.value, omega, D.directions d.n, omega.map waveNumber,
        (List.range omega.length).map (fun i => (List.range (D.directions d.n).length).map (L.rng k i)),
        pdynInf ⟨s.stretching.delta, s.stretching.h⟩, pdynInf ⟨s.stretching.delta, s.stretching.h⟩⟩ := by
    rw [addRandomPhases]
    simp only [hlen, List.length_map, gt_iff_lt, Nat.mul_pos hno hnp, if_true]
  rw [e]
  simp only [flatR]
  rw [flatten_getElem? _ _ _ i j hi hj]
  simp [compR, Spec.fn, hi, hj, hi', waveNumber]

/-- **C148** (refuted) `energy fraction`: two files that only differ by it give the same sea. -/
theorem energy_fraction_is_ignored (L : Lib) (c : Conv ℝ) (m m' : ModelNode) (w w' : WaveModel ℝ)
    (h : m.model = "waves") (h' : m'.model = "waves") (hw : IsWaves c w m.yaml) (hw' : IsWaves c w' m'.yaml)
    (hs : w'.spectra = w.spectra) (hn : w'.discretization.n = w.discretization.n)
    (h1 : w'.discretization.omegaMin = w.discretization.omegaMin) (h2 : w'.discretization.omegaMax = w.discretization.omegaMax) :
    surfaceOf L c [m] = surfaceOf L c [m'] := by
  have same : ∀ s, buildWaveModel L c w.discretization s = buildWaveModel L c w'.discretization s := by
    intro s; unfold buildWaveModel; rw [hn, h1, h2]
  have all : ∀ l, buildAll L c w.discretization l = buildAll L c w'.discretization l := by
    intro l
    induction l with
    | nil => rfl
    | cons s l ih => unfold buildAll; rw [same, ih]
  have hb : buildWaves L c m = buildWaves L c m' := by
    unfold buildWaves
    rw [if_pos h, if_pos h', (parseWaves_iff _ _ _).mpr hw, (parseWaves_iff _ _ _).mpr hw']
    simp only [bind, Except.bind]
    rw [hs, all]
  have hc : buildConstant c m = buildConstant c m' := by
    unfold buildConstant; rw [h, h', if_neg (by decide), if_neg (by decide)]
  have hd : buildDistant c m = buildDistant c m' := by
    unfold buildDistant; rw [h, h', if_neg (by decide), if_neg (by decide)]
  unfold surfaceOf Xdyn.Config.getWave
  simp only [List.foldlM_cons, List.foldlM_nil, Xdyn.Config.tryWaveParser, hb, hc, hd]

/-! ### A concrete file -/

/-- Enough conversions for the file below. -/
noncomputable def realConv : Conv ℝ where
  num s := (tinyConv.num s).map (fun q => (q : ℝ))
  int := tinyConv.int
  nat := tinyConv.nat
  bool := tinyConv.bool
  unit s := (tinyConv.unit s).map (fun q => (q : ℝ))
  emptyList _ := false

theorem hasKey_of (l : List (String × Yaml)) (k : String) (v : Yaml) (h : l.lookup k = some v) : HasKey (.map l) k v := ⟨l, rfl, h⟩

theorem real_number (s : String) (q : ℚ) (h : tinyConv.num s = some q) : IsNumber realConv (q : ℝ) (.scalar s) :=
  ⟨s, rfl, by simp [realConv, h]⟩

theorem real_quantity (v u : String) (q p : ℚ) (hv : tinyConv.num v = some q) (hu : tinyConv.unit u = some p) :
    IsQuantity realConv ((q : ℝ) * (p : ℝ)) (qty v u) :=
  ⟨q, p, ⟨.scalar v, hasKey_of _ _ _ rfl, real_number v q hv⟩,
    ⟨.scalar u, hasKey_of _ _ _ rfl, u, rfl, by simp [realConv, hu]⟩, rfl⟩

def regularSea : Yaml := .map [
  ("model", .scalar "airy"), ("depth", qty "2" "km"), ("seed of the random data generator", .scalar "none"),
  ("stretching", .map [("delta", .scalar "0"), ("h", qty "1" "m")]),
  ("directional spreading", .map [("type", .scalar "dirac"), ("waves propagating to", qty "0.5" "rad")]),
  ("spectral density", .map [("type", .scalar "dirac"), ("Hs", qty "2" "m"), ("omega0", qty "0.5" "rad/s")])]

def regularDoc (fraction : String) : Yaml := .map [
  ("discretization", .map [("n", .scalar "2"), ("omega min", qty "0.5" "rad/s"), ("omega max", qty "2" "rad/s"), ("energy fraction", .scalar fraction)]),
  ("spectra", .seq [regularSea])]

noncomputable def regularSpectra : Spectra ℝ where
  model := "airy"
  node := regularSea
  spreadingNode := .map [("type", .scalar "dirac"), ("waves propagating to", qty "0.5" "rad")]
  spreadingType := "dirac"
  densityNode := .map [("type", .scalar "dirac"), ("Hs", qty "2" "m"), ("omega0", qty "0.5" "rad/s")]
  densityType := "dirac"
  stretching := { h := ((1 : ℚ) : ℝ) * ((1 : ℚ) : ℝ), delta := ((0 : ℚ) : ℝ) }
  depth := ((2 : ℚ) : ℝ) * ((1000 : ℚ) : ℝ)

noncomputable def regularWaves (fraction : ℚ) : WaveModel ℝ where
  discretization := { n := 2, omegaMin := ((1/2 : ℚ) : ℝ) * ((1 : ℚ) : ℝ), omegaMax := ((2 : ℚ) : ℝ) * ((1 : ℚ) : ℝ), energyFraction := (fraction : ℝ) }
  spectra := [regularSpectra]
  output := { frame := "", xmin := 0, xmax := 0, nx := 0, ymin := 0, ymax := 0, ny := 0 }

theorem regularDoc_reads (s : String) (q : ℚ) (h : tinyConv.num s = some q) : IsWaves realConv (regularWaves q) (regularDoc s) := by
  refine ⟨⟨_, hasKey_of _ _ _ rfl, ?_⟩, ⟨_, hasKey_of _ _ _ rfl, .inl ⟨_, rfl, .cons ?_ .nil⟩⟩, .inr ⟨.inl ⟨_, rfl, rfl⟩, rfl⟩⟩
  · exact ⟨⟨_, hasKey_of _ _ _ rfl, "2", rfl, rfl⟩, ⟨_, hasKey_of _ _ _ rfl, real_quantity _ _ _ _ rfl rfl⟩,
      ⟨_, hasKey_of _ _ _ rfl, real_quantity _ _ _ _ rfl rfl⟩, ⟨_, hasKey_of _ _ _ rfl, real_number _ _ h⟩⟩
  · exact ⟨⟨_, hasKey_of _ _ _ rfl, rfl⟩, rfl, hasKey_of _ _ _ rfl, ⟨_, hasKey_of _ _ _ rfl, rfl⟩, hasKey_of _ _ _ rfl,
      ⟨_, hasKey_of _ _ _ rfl, rfl⟩, ⟨_, hasKey_of _ _ _ rfl, ⟨_, hasKey_of _ _ _ rfl, real_quantity _ _ _ _ rfl rfl⟩,
        ⟨_, hasKey_of _ _ _ rfl, real_number _ _ rfl⟩⟩, ⟨_, hasKey_of _ _ _ rfl, real_quantity _ _ _ _ rfl rfl⟩⟩

/-- `Hs: 2 m`, `omega0: 0.5 rad/s`, `waves propagating to: 0.5 rad`. -/
example (L : Lib) : ∃ sea, surfaceOf L realConv [⟨"waves", regularDoc "1"⟩] = .ok (some (.here sea)) ∧ ∀ x y t,
    sea.height [x] [y] t = .ok [-(1 * Real.sin (-(1/2 * t) + 1/4 / 9.81 * (x * Real.cos (1/2) + y * Real.sin (1/2))))] := by
  have h := regular_wave L realConv ⟨"waves", regularDoc "1"⟩ rfl (regularWaves 1) (regularDoc_reads "1" 1 rfl) regularSpectra rfl rfl
    rfl { Hs := ((2 : ℚ) : ℝ) * ((1 : ℚ) : ℝ), omega0 := ((1/2 : ℚ) : ℝ) * ((1 : ℚ) : ℝ) }
    ⟨⟨_, hasKey_of _ _ _ rfl, real_quantity _ _ _ _ rfl rfl⟩, ⟨_, hasKey_of _ _ _ rfl, real_quantity _ _ _ _ rfl rfl⟩⟩
    (by norm_num) (by norm_num) rfl (((1/2 : ℚ) : ℝ) * ((1 : ℚ) : ℝ)) ⟨_, hasKey_of _ _ _ rfl, real_quantity _ _ _ _ rfl rfl⟩
    (by simp [regularSpectra]) ⟨⟨_, hasKey_of _ _ _ rfl, rfl⟩, ?_⟩
  · obtain ⟨sea, h1, h2⟩ := h
    refine ⟨sea, h1, fun x y t => (h2 x y t).trans ?_⟩
    norm_num
  · rintro k ⟨v, ⟨l, hl, hv⟩, s, hs, hk⟩
    have : l.lookup "seed of the random data generator" = some (.scalar "none") := by cases hl; rfl
    rw [this] at hv
    cases hv
    cases hs
    exact absurd hk (by simp [realConv, show tinyConv.int "none" = none from rfl])

/-- The energy fractions 1 and 0.5 give the same sea. -/
example (L : Lib) : surfaceOf L realConv [⟨"waves", regularDoc "1"⟩] = surfaceOf L realConv [⟨"waves", regularDoc "0.5"⟩] :=
  energy_fraction_is_ignored L realConv _ _ (regularWaves 1) (regularWaves (1/2)) rfl rfl (regularDoc_reads "1" 1 rfl)
    (regularDoc_reads "0.5" (1/2) rfl) rfl rfl rfl rfl

end Xdyn.Input

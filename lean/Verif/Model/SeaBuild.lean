import Verif.Model.Input
import Verif.Model.SeaState
import Verif.Model.Config

/-
Model of the construction of the free surface from the input file: parser_extensions/src/builders.cpp with the
parsers registered by `get_builder`, observers_and_api/src/simulator_api.cpp:39-52.  Over the real numbers.

The parsers of each list (spectral densities, directional spreadings, wave models, free surfaces) are tried one after
the other; as each recognizes one name only and the names are distinct, the list is a case distinction on the name.
-/

namespace Xdyn.Input

open Xdyn.Waves Xdyn.Sea

noncomputable section

/-- What comes from Boost and from the C library: the root search for the wave number at finite depth, `pow`, and the
random phases given by a seed (boost::mt19937, then uniform over [0, 2π]), WaveModel.cpp:35-56. -/
structure Lib where
  number : ℝ → ℝ → Except Err ℝ
  pw : ℝ → ℝ → ℝ
  rng : Nat → Nat → Nat → ℝ

/-- `SpectrumBuilder<BretschneiderSpectrum>::try_to_parse`, builders.cpp:130-139; constructor, BretschneiderSpectrum.cpp:18-31 -/
def buildBretschneider (L : Lib) (c : Conv ℝ) (n : Yaml) : Except Err Density :=
  (parseHsTp c n).bind (fun r =>
    if r.Hs < 0 then invalidInput
    else if r.Tp ≤ 0 then invalidInput
    else .ok { value := bretschneider r.Hs r.Tp, angular := getAngularFrequencies, number := L.number })

/-- `SpectrumBuilder<JonswapSpectrum>::try_to_parse`, builders.cpp:141-150; constructor, JonswapSpectrum.cpp:19-38 -/
def buildJonswap (L : Lib) (c : Conv ℝ) (n : Yaml) : Except Err Density :=
  (parseJonswap c n).bind (fun r =>
    if r.Hs < 0 then invalidInput
    else if r.Tp ≤ 0 then invalidInput
    else if r.gamma ≤ 0 then invalidInput
    else .ok { value := jonswap r.Hs r.Tp r.gamma, angular := getAngularFrequencies, number := L.number })

/-- `SpectrumBuilder<PiersonMoskowitzSpectrum>::try_to_parse`, builders.cpp:152-161; constructor, PiersonMoskowitzSpectrum.cpp:10-12 -/
def buildPiersonMoskowitz (L : Lib) (c : Conv ℝ) (n : Yaml) : Except Err Density :=
  (parseHsTp c n).bind (fun r =>
    if r.Hs < 0 then invalidInput
    else if r.Tp ≤ 0 then invalidInput
    else .ok { value := piersonMoskowitz r.Hs r.Tp, angular := getAngularFrequencies, number := L.number })

/-- `SpectrumBuilder<DiracSpectralDensity>::try_to_parse`, builders.cpp:163-172; constructor and `get_angular_frequencies`,
DiracSpectralDensity.cpp:16-31 and 46-52 -/
def buildDiracDensity (L : Lib) (c : Conv ℝ) (n : Yaml) : Except Err Density :=
  (parseDiracSpectrum c n).bind (fun r =>
    if r.Hs < 0 then invalidInput
    else if r.omega0 ≤ 0 then invalidInput
    else .ok { value := diracDensity r.omega0 r.Hs, angular := fun _ _ _ => .ok [r.omega0], number := L.number })

/-- `parse_spectral_density`, builders.cpp:53-70 -/
def buildDensity (L : Lib) (c : Conv ℝ) (s : Spectra ℝ) : Except Err Density :=
  if s.densityType = "bretschneider" then buildBretschneider L c s.densityNode
  else if s.densityType = "jonswap" then buildJonswap L c s.densityNode
  else if s.densityType = "pierson-moskowitz" then buildPiersonMoskowitz L c s.densityNode
  else if s.densityType = "dirac" then buildDiracDensity L c s.densityNode
  else invalidInput

/-- `DirectionalSpreadingBuilder<DiracDirectionalSpreading>::try_to_parse`, builders.cpp:174-183; `get_directions`,
DiracDirectionalSpreading.cpp:31-34 -/
def buildDiracSpreading (c : Conv ℝ) (n : Yaml) : Except Err Spreading :=
  (parseDiracDirection c n).bind (fun psi0 => .ok { value := diracSpreading psi0, directions := fun _ => [psi0] })

/-- `DirectionalSpreadingBuilder<Cos2sDirectionalSpreading>::try_to_parse`, builders.cpp:185-194; constructor and value,
Cos2sDirectionalSpreading.cpp:19-34 -/
def buildCos2s (L : Lib) (c : Conv ℝ) (n : Yaml) : Except Err Spreading :=
  (parseCos2s c n).bind (fun r =>
    if r.s < 0 then invalidInput
    else .ok { value := fun psi => cos2sFactor r.s * L.pw (Real.cos ((psi - r.psi0) / 2)) (2 * r.s), directions := getDirections })

/-- `parse_directional_spreading`, builders.cpp:72-89 -/
def buildSpreading (L : Lib) (c : Conv ℝ) (s : Spectra ℝ) : Except Err Spreading :=
  if s.spreadingType = "dirac" then buildDiracSpreading c s.spreadingNode
  else if s.spreadingType = "cos2s" then buildCos2s L c s.spreadingNode
  else invalidInput

/-- `WaveModelBuilder<Airy>::try_to_parse`, builders.cpp:35-51, with the error of `parse_wave_model`, builders.cpp:110-113 -/
def buildAiry (L : Lib) (c : Conv ℝ) (s : Spectra ℝ) (d : Discrete) : Except Err Flat :=
  if s.model = "airy" then
    (parseSeed c s.node).bind (fun seed => match seed with
      | some k => waveModelRandom d (L.rng k)
      | none => waveModelConstant d 0)
  else invalidInput

/-- `parse_wave_model`, builders.cpp:102-114, and `parse_directional_spectrum`, builders.cpp:91-100 -/
def buildWaveModel (L : Lib) (c : Conv ℝ) (d : Discretization ℝ) (s : Spectra ℝ) : Except Err Flat := do
  let S ← buildDensity L c s
  let D ← buildSpreading L c s
  let r ← parseDirectionalSpectrum S D d.omegaMin d.omegaMax d.n s.depth ⟨s.stretching.delta, s.stretching.h⟩
  buildAiry L c s r

/-- The wave models of all the spectra, builders.cpp:123-124 -/
def buildAll (L : Lib) (c : Conv ℝ) (d : Discretization ℝ) : List (Spectra ℝ) → Except Err (List Flat)
  | [] => .ok []
  | s :: l => do
    let f ← buildWaveModel L c d s
    let fs ← buildAll L c d l
    .ok (f :: fs)

/-- A free surface: computed here, or by a distant model. -/
inductive Surface where
  | here (s : Sea)
  | distant (url : String)

/-- `SurfaceElevationBuilder<SurfaceElevationFromWaves>::try_to_parse`, builders.cpp:116-128 (without the mesh of the outputs) -/
def buildWaves (L : Lib) (c : Conv ℝ) (m : ModelNode) : Except Err (Option Surface) :=
  if m.model = "waves" then (do
    let w ← parseWaves c m.yaml
    let models ← buildAll L c w.discretization w.spectra
    .ok (some (.here (.waves models))))
  else .ok none

/-- `SurfaceElevationBuilder<DefaultSurfaceElevation>::try_to_parse`, builders.cpp:18-33 (without the mesh of the outputs) -/
def buildConstant (c : Conv ℝ) (m : ModelNode) : Except Err (Option Surface) :=
  if m.model = "no waves" then (do
    let r ← parseDefaultWaveModel c m.yaml
    .ok (some (.here (.constant r.1))))
  else .ok none

/-- `SurfaceElevationBuilder<SurfaceElevationFromGRPC>::try_to_parse`, builders.cpp:196-206 (without the mesh, nor the connection) -/
def buildDistant (c : Conv ℝ) (m : ModelNode) : Except Err (Option Surface) :=
  if m.model = "grpc" then (do
    let r ← parseGrpcWaves c m.yaml
    .ok (some (.distant r.1)))
  else .ok none

/-- `SimulatorBuilder::get_wave` (Model/Config) with the parsers of simulator_api.cpp:43, 50 and 52 -/
def surfaceOf (L : Lib) (c : Conv ℝ) (environment : List ModelNode) : Except Err (Option Surface) :=
  Xdyn.Config.getWave [buildConstant c, buildWaves L c, buildDistant c] environment

end

end Xdyn.Input

import Verif.Model.Common
import Mathlib.Analysis.SpecialFunctions.Trigonometric.Basic
import Mathlib.Analysis.SpecialFunctions.Trigonometric.Deriv
import Mathlib.Analysis.SpecialFunctions.Pow.Real
import Mathlib.Analysis.SpecialFunctions.Gamma.Basic

/-
Model of environment_models/src: discretize.cpp, WaveModel.cpp, WaveSpectralDensity.cpp, WaveDirectionalSpreading.cpp, Stretching.cpp, Airy.cpp,
the spectra, and of parser_extensions/src/builders.cpp (choice of the depth), over the real numbers (no NaN, no infinity).
-/

namespace Xdyn.Waves

noncomputable section

/-! ### Stretching -/

/-- `Stretching`, Stretching.hpp:36-37. -/
structure Stretching where
  delta : ℝ
  h : ℝ

/-- `Stretching::rescaled_z`, Stretching.cpp:20-41. -/
def Stretching.rescaledZ (s : Stretching) (z ksi : ℝ) : ℝ :=
  if s.h = 0 then z
  else if z > s.h then z
  else (z - s.h) * (s.delta * ksi - s.h) / (ksi - s.h) + s.h

/-! ### Pressure factors -/

/-- `dynamic_pressure_factor`, infinite depth, discretize.cpp:222-238. -/
def pdynInf (s : Stretching) (k z eta : ℝ) : ℝ :=
  if eta ≠ 0 ∧ z < eta then 0 else Real.exp (-k * s.rescaledZ z eta)

/-- `dynamic_pressure_factor`, finite depth, discretize.cpp:240-258. -/
def pdynFin (h : ℝ) (s : Stretching) (k z eta : ℝ) : ℝ :=
  if eta ≠ 0 ∧ z < eta then 0 else if z > h then 0 else Real.cosh (k * (h - s.rescaledZ z eta)) / Real.cosh (k * h)

/-- `dynamic_pressure_factor_sh`, discretize.cpp:260-270. -/
def pdynShFin (h : ℝ) (s : Stretching) (k z eta : ℝ) : ℝ :=
  if eta ≠ 0 ∧ z < eta then 0 else if z > h then 0 else Real.sinh (k * (h - s.rescaledZ z eta)) / Real.cosh (k * h)

/-! ### Spectra -/

/-- `DiscreteDirectionalWaveSpectrum`. -/
structure Discrete where
  Si : List ℝ
  Dj : List ℝ
  omega : List ℝ
  psi : List ℝ
  k : List ℝ
  phase : List (List ℝ)
  pdyn : ℝ → ℝ → ℝ → ℝ
  pdynSh : ℝ → ℝ → ℝ → ℝ

/-- One component of `FlatDiscreteDirectionalWaveSpectrum`: the vectors `a`, `omega`, `psi`, `cos_psi`, `sin_psi` and `k` are always extended together
(discretize.cpp:161-167 and 212-217). -/
structure Comp where
  a : ℝ
  omega : ℝ
  psi : ℝ
  cosPsi : ℝ
  sinPsi : ℝ
  k : ℝ

/-- `FlatDiscreteDirectionalWaveSpectrum`. -/
structure Flat where
  comps : List Comp
  phase : List ℝ
  pdyn : ℝ → ℝ → ℝ → ℝ
  pdynSh : ℝ → ℝ → ℝ → ℝ

/-- `domega` and `dpsi` of `flatten`, discretize.cpp:121-139 and 142-160. -/
def width (x : List ℝ) (i : Nat) : Except Err ℝ :=
  let n := x.length
  if n > 1 then
    if i = 0 then do return ((← getAt x 1) - (← getAt x 0)) / 2
    else if i = n - 1 then do return ((← getAt x (n - 1)) - (← getAt x (n - 2))) / 2
    else do return ((← getAt x i) - (← getAt x (i - 1))) / 2 + ((← getAt x (i + 1)) - (← getAt x i)) / 2
  else .ok 1

/-- Body of the inner loop of `flatten`, discretize.cpp:140-169. -/
def flattenOne (s : Discrete) (i : Nat) (domega : ℝ) (j : Nat) : Except Err (Comp × ℝ) := do
  let dpsi ← width s.psi j
  let k ← getUB s.k i
  let omega ← getUB s.omega i
  let psi ← getUB s.psi j
  let si ← getUB s.Si i
  let dj ← getUB s.Dj j
  let ph ← getAt (← getAt s.phase i) j
  return ({ a := Real.sqrt (2 * (si * dj) * domega * dpsi), omega := omega, psi := psi, cosPsi := Real.cos psi, sinPsi := Real.sin psi, k := k }, ph)

/-- `flatten`, discretize.cpp:106-174 (the local variable `domega` is assigned at the beginning of each turn). -/
def flatten (s : Discrete) : Except Err Flat := do
  let l ← (List.range s.omega.length).mapM (fun i => do
    let domega ← width s.omega i
    (List.range s.psi.length).mapM (flattenOne s i domega))
  return { comps := l.flatten.map Prod.fst, phase := l.flatten.map Prod.snd, pdyn := s.pdyn, pdynSh := s.pdynSh }

/-- The loop of `filter`, discretize.cpp:206-218, on the sorted list. -/
def takeEnergy (maxEnergy : ℝ) : ℝ → List (ℝ × Nat) → List Nat
  | _, [] => []
  | cumsum, (e, i) :: l => if cumsum ≥ maxEnergy then [] else i :: takeEnergy maxEnergy (cumsum + e) l

/-- The sorted list of (energy, index), discretize.cpp:197-203 (`std::list::sort` is stable). -/
def sortedEnergies (s : Flat) : List (ℝ × Nat) :=
  ((s.comps.map (fun c => c.a * c.a)).zipIdx).mergeSort (fun l r => decide (r.1 ≤ l.1))

/-- `filter`, discretize.cpp:185-220; `phase` is not copied. -/
def filter (s : Flat) (ratio : ℝ) : Except Err Flat := do
  let S := (s.comps.map (fun c => c.a * c.a)).sum
  let idx := takeEnergy (ratio * S) 0 (sortedEnergies s)
  let comps ← idx.mapM (getAt s.comps)
  return { comps := comps, phase := [], pdyn := s.pdyn, pdynSh := s.pdynSh }

/-- `WaveSpectralDensity::get_angular_frequencies`, WaveSpectralDensity.cpp:31-89. -/
def getAngularFrequencies (omegaMin omegaMax : ℝ) (n : Nat) : Except Err (List ℝ) :=
  if omegaMin ≤ 0 then .error (.throw "InvalidInputException")
  else if omegaMax ≤ 0 then .error (.throw "InvalidInputException")
  else if omegaMax < omegaMin then .error (.throw "InvalidInputException")
  else if n = 0 then .error (.throw "InvalidInputException")
  else if n = 1 then if omegaMin ≠ omegaMax then .error (.throw "InvalidInputException") else .ok [omegaMin]
  else if omegaMin = omegaMax then .error (.throw "InvalidInputException")
  else .ok ((List.range n).map (fun (i : Nat) => omegaMin + (i : ℝ) / ((n - 1 : Nat) : ℝ) * (omegaMax - omegaMin)))

/-- `WaveDirectionalSpreading::get_directions`, WaveDirectionalSpreading.cpp:28-39. -/
def getDirections (n : Nat) : List ℝ := (List.range n).map (fun (i : Nat) => (i : ℝ) * (2 * Real.pi / (n : ℝ)))

/-- `WaveSpectralDensity::get_wave_number`, infinite depth, WaveSpectralDensity.cpp:91-95. -/
def waveNumber (omega : ℝ) : ℝ := omega * omega / 9.81

/-- `WaveNumberFunctor::operator()`, WaveNumberFunctor.cpp:19-30. -/
def waveNumberFunctor (h omega k : ℝ) : ℝ × ℝ × ℝ :=
  let g : ℝ := 9.81
  let gk := g * k
  let tkh := Real.tanh (k * h)
  let f := gk * tkh - omega * omega
  let t3 := tkh * tkh
  let df := g * tkh + gk * (1 - t3) * h
  let t4 := 1 - t3
  let d2f := 2 * g * t4 * h - 2 * gk * tkh * t4 * (h * h)
  (f, df, d2f)

/-- A spectral density and a directional spreading (virtual functions): `angular` is `get_angular_frequencies`, `number` the finite depth `get_wave_number`
(a root search of Boost, WaveSpectralDensity.cpp:97-125, not modelled). -/
structure Density where
  value : ℝ → Except Err ℝ
  angular : ℝ → ℝ → Nat → Except Err (List ℝ)
  number : ℝ → ℝ → Except Err ℝ

structure Spreading where
  value : ℝ → ℝ
  directions : Nat → List ℝ

/-- `common`, discretize.cpp:28-44. -/
def commonPart (S : Density) (D : Spreading) (omegaMin omegaMax : ℝ) (n : Nat) : Except Err Discrete := do
  let omega ← S.angular omegaMin omegaMax n
  let psi := D.directions n
  let Si ← omega.mapM S.value
  return { Si := Si, Dj := psi.map D.value, omega := omega, psi := psi, k := [], phase := [], pdyn := fun _ _ _ => 0, pdynSh := fun _ _ _ => 0 }

/-- `discretize`, infinite depth, discretize.cpp:46-61. -/
def discretizeInf (S : Density) (D : Spreading) (omegaMin omegaMax : ℝ) (n : Nat) (st : Stretching) : Except Err Discrete := do
  let ret ← commonPart S D omegaMin omegaMax n
  return { ret with k := ret.omega.map waveNumber, pdyn := pdynInf st, pdynSh := pdynInf st }

/-- `discretize`, finite depth, discretize.cpp:69-93. -/
def discretizeFin (S : Density) (D : Spreading) (omegaMin omegaMax : ℝ) (n : Nat) (h : ℝ) (st : Stretching) : Except Err Discrete := do
  let ret ← commonPart S D omegaMin omegaMax n
  let k ← ret.omega.mapM (fun w => S.number w h)
  if ∃ k' ∈ k, k' * h < Real.pi / 10 then throw (.throw "InvalidInputException")
  return { ret with k := k, pdyn := pdynFin h st, pdynSh := pdynShFin h st }

/-- `parse_directional_spectrum`, builders.cpp:91-100 (with the spectral density and directional spreading already parsed). -/
def parseDirectionalSpectrum (S : Density) (D : Spreading) (omegaMin omegaMax : ℝ) (n : Nat) (depth : ℝ) (st : Stretching) : Except Err Discrete :=
  if depth > 0 then discretizeInf S D omegaMin omegaMax n st
  else discretizeFin S D omegaMin omegaMax n depth st

/-- `add_constant_phases`, WaveModel.cpp:18-33. -/
def addConstantPhases (s : Discrete) (phase : ℝ) : Discrete :=
  let n := s.Si.length
  let p := s.Dj.length
  if n * p > 0 then { s with phase := List.replicate n (List.replicate n phase) } else s

/-- `add_random_phases`, WaveModel.cpp:35-56: `rng i j` is the number drawn for component `i, j` (`phase.resize(n)` on an empty vector; the generator is Boost's). -/
def addRandomPhases (s : Discrete) (rng : Nat → Nat → ℝ) : Discrete :=
  let n := s.Si.length
  let p := s.Dj.length
  if n * p > 0 then { s with phase := (List.range n).map (fun i => (List.range p).map (rng i)) } else s

/-- `WaveModel::check_sizes`, WaveModel.cpp:68-109 (there are no NaN). -/
def checkSizes (f : Flat) : Except Err Unit :=
  if f.comps = [] ∨ f.phase = [] then .error (.throw "InternalErrorException") else .ok ()

/-- `WaveModel::WaveModel` with a constant phase, WaveModel.cpp:58-61. -/
def waveModelConstant (s : Discrete) (phase : ℝ) : Except Err Flat := do
  let f ← flatten (addConstantPhases s phase)
  checkSizes f
  return f

/-- `WaveModel::WaveModel` with random phases, WaveModel.cpp:63-66. -/
def waveModelRandom (s : Discrete) (rng : Nat → Nat → ℝ) : Except Err Flat := do
  let f ← flatten (addRandomPhases s rng)
  checkSizes f
  return f

/-! ### Airy -/

/-- `-omega_t + k_xCosPsi_ySinPsi + theta`. -/
def angle (c : Comp) (theta x y t : ℝ) : ℝ := -(c.omega * t) + c.k * (x * c.cosPsi + y * c.sinPsi) + theta

/-- The loop of `Airy::elevation` for one point, Airy.cpp:62-69 (`phase[i]` out of bounds is undefined behaviour). -/
def elevationAt (f : Flat) (x y t : ℝ) : Except Err ℝ :=
  (List.range f.comps.length).foldlM (fun z i => do
    let c ← getUB f.comps i
    let th ← getUB f.phase i
    return z - c.a * Real.sin (angle c th x y t)) 0

/-- `Airy::elevation`, Airy.cpp:52-73, with the check of `WaveModel::get_elevation`, WaveModel.cpp:125-136. -/
def getElevation (f : Flat) (x y : List ℝ) (t : ℝ) : Except Err (List ℝ) :=
  if x.length ≠ y.length then .error (.throw "InternalErrorException")
  else (x.zip y).mapM (fun p => elevationAt f p.1 p.2 t)

/-- The body of the loop of `Airy::dynamic_pressure`, Airy.cpp:87-118. -/
def pressureAt (f : Flat) (rho g x y z eta t : ℝ) : Except Err ℝ :=
  if z < eta then .ok 0
  else do
    let p ← (List.range f.comps.length).foldlM (fun p i => do
      let c ← getUB f.comps i
      let th ← getUB f.phase i
      return p + c.a * f.pdyn c.k z eta * Real.sin (angle c th x y t)) 0
    return p * (rho * g)

/-- The body of the loop of `Airy::orbital_velocity`, Airy.cpp:132-164. -/
def velocityAt (f : Flat) (g x y z t eta : ℝ) : Except Err (ℝ × ℝ × ℝ) :=
  if z < eta then .ok (0, 0, 0)
  else do
    let (u, v, w) ← (List.range f.comps.length).foldlM (fun (s : ℝ × ℝ × ℝ) i => do
      let c ← getUB f.comps i
      let th ← getUB f.phase i
      let pf := f.pdyn c.k z 0
      let ps := f.pdynSh c.k z 0
      let theta := angle c th x y t
      let ak := c.a * c.k / c.omega
      return (s.1 + ak * pf * Real.sin theta * c.cosPsi, s.2.1 + ak * pf * Real.sin theta * c.sinPsi, s.2.2 + ak * ps * Real.cos theta)) (0, 0, 0)
    return (u * g, v * g, w * g)

/-- The loop of `Airy::evaluate_rao`, Airy.cpp:27-50. -/
def evaluateRao (f : Flat) (x y t : ℝ) (modules phases : List ℝ) : Except Err ℝ :=
  if modules.length ≠ f.comps.length then .error (.throw "InternalErrorException")
  else (List.range modules.length).foldlM (fun F i => do
    let m ← getUB modules i
    let p ← getUB phases i
    let c ← getUB f.comps i
    let th ← getUB f.phase i
    return F - m * c.a * Real.sin (angle c th x y t + p)) 0

/-- `SurfaceElevationFromWaves::wave_height`, SurfaceElevationFromWaves.cpp:39-56. -/
def waveHeight (models : List Flat) (x y : List ℝ) (t : ℝ) : Except Err (List ℝ) :=
  models.foldlM (fun z f => do
    let w ← getElevation f x y t
    return z.zipWith (· + ·) w) (List.replicate x.length 0)

/-! ### Spectral densities and spreadings -/

/-- `BretschneiderSpectrum`, BretschneiderSpectrum.cpp:18-41. -/
def bretschneider (Hs Tp omega : ℝ) : Except Err ℝ :=
  if Hs < 0 then .error (.throw "InvalidInputException")
  else if Tp ≤ 0 then .error (.throw "InvalidInputException")
  else if omega ≤ 0 then .error (.throw "InvalidInputException")
  else
    let omega0 := 2 * Real.pi / Tp
    let alpha := (omega0 / omega * (omega0 / omega)) * (omega0 / omega * (omega0 / omega))
    .ok (0.3125 * (alpha / omega) * (Hs * Hs) * Real.exp (-1.25 * alpha))

/-- `JonswapSpectrum`, JonswapSpectrum.cpp:19-53. -/
def jonswap (Hs Tp gamma omega : ℝ) : Except Err ℝ :=
  if Hs < 0 then .error (.throw "InvalidInputException")
  else if Tp ≤ 0 then .error (.throw "InvalidInputException")
  else if gamma ≤ 0 then .error (.throw "InvalidInputException")
  else if omega ≤ 0 then .error (.throw "InvalidInputException")
  else
    let omega0 := 2 * Real.pi / Tp
    let coeff := 1 - 0.287 * Real.log gamma
    let sigma : ℝ := if omega ≤ omega0 then 0.07 else 0.09
    let ratio := omega0 / omega
    let alpha := (ratio * ratio) * (ratio * ratio)
    let Awm5 := 5 / 16 * alpha / omega * (Hs * Hs)
    let Bwm4 := 1.25 * alpha
    let q := (omega - omega0) / (sigma * omega0)
    let r := Real.exp (-0.5 * (q * q))
    .ok (coeff * Awm5 * Real.exp (-Bwm4) * gamma ^ r)

/-- `PiersonMoskowitzSpectrum`, PiersonMoskowitzSpectrum.cpp:10-12. -/
def piersonMoskowitz (Hs Tp omega : ℝ) : Except Err ℝ := jonswap Hs Tp 1 omega

/-- `DiracSpectralDensity`, DiracSpectralDensity.cpp:16-44. -/
def diracDensity (omega0 Hs omega : ℝ) : Except Err ℝ :=
  if Hs < 0 then .error (.throw "InvalidInputException")
  else if omega0 ≤ 0 then .error (.throw "InvalidInputException")
  else if omega ≤ 0 then .error (.throw "InvalidInputException")
  else if |omega - omega0| < 1e-15 then .ok (Hs * Hs / 8) else .ok 0

/-- `DiracDirectionalSpreading::operator()`, DiracDirectionalSpreading.cpp:17-24. -/
def diracSpreading (psi0 psi : ℝ) : ℝ := if |psi - psi0| < 1e-15 then 1 else 0

/-- `Fs`, Cos2sDirectionalSpreading.cpp:27. -/
def cos2sFactor (s : ℝ) : ℝ := (2 : ℝ) ^ (2 * s - 1) / Real.pi * Real.Gamma (s + 1) ^ 2 / Real.Gamma (2 * s + 1)

/-- `Cos2sDirectionalSpreading`, Cos2sDirectionalSpreading.cpp:19-34; `pw c p` is `pow(c, p)` of the C library (a NaN for a negative `c` and a non-integer `p`:
hence a parameter). -/
def cos2s (pw : ℝ → ℝ → ℝ) (psi0 s psi : ℝ) : Except Err ℝ :=
  if s < 0 then .error (.throw "InvalidInputException")
  else .ok (cos2sFactor s * pw (Real.cos ((psi - psi0) / 2)) (2 * s))

end

end Xdyn.Waves

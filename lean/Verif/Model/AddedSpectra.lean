import Verif.Model.Waves
import Mathlib.Data.Finset.Sort

/-!
Sums of spectral densities and of directional spreadings (`a + b`).

Simplification. Real numbers instead of `double` (no NaN in a `std::set`).
-/

namespace Xdyn.Waves

noncomputable section

/-- The values put in a `std::set<double>`, then in a sorted list: SumOfWaveSpectralDensities.cpp:64-71 and SumOfWaveDirectionalSpreadings.cpp:57-65. -/
def sortedSet (l : List ℝ) : List ℝ := l.toFinset.sort (fun a b => a ≤ b)

/-- `SumOfWaveSpectralDensities`, SumOfWaveSpectralDensities.cpp:17-72 (`operator+` of the densities, WaveSpectralDensity.cpp:22-25, gives two terms): `number` is
`get_wave_number`, inherited. -/
def addDensities (number : ℝ → ℝ → Except Err ℝ) (terms : List Density) : Density where
  value omega := terms.foldlM (fun ret t => do return ret + (← t.value omega)) 0
  angular omegaMin omegaMax n := do
    let l ← terms.mapM (fun t => t.angular omegaMin omegaMax n)
    return sortedSet l.flatten
  number := number

/-- `SumOfWaveDirectionalSpreadings`, SumOfWaveDirectionalSpreadings.cpp:16-65 (`operator+` of the spreadings, WaveDirectionalSpreading.cpp:41-44, gives two terms). -/
def addSpreadings (terms : List Spreading) : Spreading where
  value psi := terms.foldl (fun ret t => ret + t.value psi) 0
  directions n := sortedSet (terms.map (fun t => t.directions n)).flatten

end

end Xdyn.Waves

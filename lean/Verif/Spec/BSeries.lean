import Mathlib.Data.Real.Basic

/-! Specification: the polynomials of the propellers of the Wageningen B series, as they are published (M.W.C. Oosterveld and P. van Oossanen, Further computer-analyzed data of the
Wageningen B-screw series, International Shipbuilding Progress 22, 1975), one line per term. -/

namespace Xdyn.BSeries

/-- A line of the published tables: the exponents of the advance ratio `J`, of the pitch ratio `P/D`, of the area ratio `AE/AO` and of the number of blades `Z`, and the coefficient. -/
structure Line where
  s : Nat
  t : Nat
  u : Nat
  v : Nat
  C : ℝ

/-- The value of a published polynomial. -/
noncomputable def value (table : List Line) (Z : Nat) (areaRatio pitchRatio J : ℝ) : ℝ :=
  (table.map fun l => l.C * (J ^ l.s * pitchRatio ^ l.t * areaRatio ^ l.u * (Z : ℝ) ^ l.v)).sum

/-- Thrust coefficient -/
noncomputable def thrust : List Line := [
  ⟨0, 0, 0, 0, 0.00880496⟩, ⟨1, 0, 0, 0, -0.204554⟩, ⟨0, 1, 0, 0, 0.166351⟩, ⟨0, 2, 0, 0, 0.158114⟩, ⟨2, 0, 1, 0, -0.147581⟩, ⟨1, 1, 1, 0, -0.481497⟩,
  ⟨0, 2, 1, 0, 0.415437⟩, ⟨0, 0, 0, 1, 0.0144043⟩, ⟨2, 0, 0, 1, -0.0530054⟩, ⟨0, 1, 0, 1, 0.0143481⟩, ⟨1, 1, 0, 1, 0.0606826⟩, ⟨0, 0, 1, 1, -0.0125894⟩,
  ⟨1, 0, 1, 1, 0.0109689⟩, ⟨0, 3, 0, 0, -0.133698⟩, ⟨0, 6, 0, 0, 0.00638407⟩, ⟨2, 6, 0, 0, -0.00132718⟩, ⟨3, 0, 1, 0, 0.168496⟩, ⟨0, 0, 2, 0, -0.0507214⟩,
  ⟨2, 0, 2, 0, 0.0854559⟩, ⟨3, 0, 2, 0, -0.0504475⟩, ⟨1, 6, 2, 0, 0.010465⟩, ⟨2, 6, 2, 0, -0.00648272⟩, ⟨0, 3, 0, 1, -0.00841728⟩, ⟨1, 3, 0, 1, 0.0168424⟩,
  ⟨3, 3, 0, 1, -0.00102296⟩, ⟨0, 3, 1, 1, -0.0317791⟩, ⟨1, 0, 2, 1, 0.018604⟩, ⟨0, 2, 2, 1, -0.00410798⟩, ⟨0, 0, 0, 2, -0.000606848⟩, ⟨1, 0, 0, 2, -0.0049819⟩,
  ⟨2, 0, 0, 2, 0.0025983⟩, ⟨3, 0, 0, 2, -0.000560528⟩, ⟨1, 2, 0, 2, -0.00163652⟩, ⟨1, 6, 0, 2, -0.000328787⟩, ⟨2, 6, 0, 2, 0.000116502⟩, ⟨0, 0, 1, 2, 0.000690904⟩,
  ⟨0, 3, 1, 2, 0.00421749⟩, ⟨3, 6, 1, 2, 0.0000565229⟩, ⟨0, 3, 2, 2, -0.00146564⟩]

/-- Torque coefficient -/
noncomputable def torque : List Line := [
  ⟨0, 0, 0, 0, 0.00379368⟩, ⟨2, 0, 0, 0, 0.00886523⟩, ⟨1, 1, 0, 0, -0.032241⟩, ⟨0, 2, 0, 0, 0.00344778⟩, ⟨0, 1, 1, 0, -0.0408811⟩, ⟨1, 1, 1, 0, -0.108009⟩,
  ⟨2, 1, 1, 0, -0.0885381⟩, ⟨0, 2, 1, 0, 0.188561⟩, ⟨1, 0, 0, 1, -0.00370871⟩, ⟨0, 1, 0, 1, 0.00513696⟩, ⟨1, 1, 0, 1, 0.0209449⟩, ⟨2, 1, 0, 1, 0.00474319⟩,
  ⟨2, 0, 1, 1, -0.00723408⟩, ⟨1, 1, 1, 1, 0.00438388⟩, ⟨0, 2, 1, 1, -0.0269403⟩, ⟨3, 0, 1, 0, 0.0558082⟩, ⟨0, 3, 1, 0, 0.0161886⟩, ⟨1, 3, 1, 0, 0.00318086⟩,
  ⟨0, 0, 2, 0, 0.015896⟩, ⟨1, 0, 2, 0, 0.0471729⟩, ⟨3, 0, 2, 0, 0.0196283⟩, ⟨0, 1, 2, 0, -0.0502782⟩, ⟨3, 1, 2, 0, -0.030055⟩, ⟨2, 2, 2, 0, 0.0417122⟩,
  ⟨0, 3, 2, 0, -0.0397722⟩, ⟨0, 6, 2, 0, -0.00350024⟩, ⟨3, 0, 0, 1, -0.0106854⟩, ⟨3, 3, 0, 1, 0.00110903⟩, ⟨0, 6, 0, 1, -0.000313912⟩, ⟨3, 0, 1, 1, 0.0035985⟩,
  ⟨0, 6, 1, 1, -0.00142121⟩, ⟨1, 0, 2, 1, -0.00383637⟩, ⟨0, 2, 2, 1, 0.0126803⟩, ⟨2, 3, 2, 1, -0.00318278⟩, ⟨0, 6, 2, 1, 0.00334268⟩, ⟨1, 1, 0, 2, -0.00183491⟩,
  ⟨3, 2, 0, 2, 0.000112451⟩, ⟨3, 6, 0, 2, -0.0000297228⟩, ⟨1, 0, 1, 2, 0.000269551⟩, ⟨2, 0, 1, 2, 0.00083265⟩, ⟨0, 2, 1, 2, 0.00155334⟩, ⟨0, 6, 1, 2, 0.000302683⟩,
  ⟨0, 0, 2, 2, -0.0001843⟩, ⟨0, 3, 2, 2, -0.000425399⟩, ⟨3, 3, 2, 2, 0.0000869243⟩, ⟨0, 6, 2, 2, -0.0004659⟩, ⟨1, 6, 2, 2, 0.0000554194⟩]

end Xdyn.BSeries

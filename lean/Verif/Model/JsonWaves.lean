import Verif.Model.Observer
import Verif.Model.WaveGrid
import Verif.Model.Base91

/-
The wave elevations in the JSON and websocket outputs: DictObserver.cpp:58-77.
-/

namespace Xdyn.Obs

/-- A character of the base91 text (`char`). -/
def charOf (b : Base91.Byte) : Char := Char.ofNat b.val

/-- The data that the serializer takes from a `SurfaceElevationGrid`, DictObserver.cpp:61-71: `z.data()` gives the elevations column by column (Eigen's matrices), `bytes` gives the bytes of
`(float)data[i]`, and `base<91>::encode(sizeof(float)*n, &v[0])` is the text. -/
def jsonGrid {K : Type} (bytes : K → List Base91.Byte) (g : WaveGrid.Grid K) : Option (Grid K) := do
  let text ← Base91.encode (g.z.flatten.flatMap bytes)
  return { x := g.x, y := g.y, n := g.z.flatten.length, z := text.map charOf }

end Xdyn.Obs

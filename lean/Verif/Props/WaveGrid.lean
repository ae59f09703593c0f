import Verif.Model.WaveGrid
import Verif.Lemmas.Waves
import Mathlib.Data.Rat.Defs
import Mathlib.Algebra.Field.Rat
import Mathlib.Algebra.Order.Ring.Rat

/-
C54: the output mesh of the waves.
-/

namespace Xdyn.WaveGrid

open Xdyn.Waves (mapM_ok getUB_of_lt flatten_getElem? length_flatten_rows)

section
variable {K : Type} [Field K] [LinearOrder K] [IsStrictOrderedRing K]

/-- C54: the abscissae of the mesh, in one direction: with at least two points and distinct bounds, `n` points from `lo` to `hi` inclusive. -/
theorem mesh_covers (lo hi : K) (n : Nat) (hn : 2 ≤ n) (h : lo ≠ hi) :
    size (step lo hi n) n = n ∧ lo + ((0 : Nat) : K) * step lo hi n = lo ∧ lo + ((n - 1 : Nat) : K) * step lo hi n = hi := by
  have hn0 : ((n - 1 : Nat) : K) ≠ 0 := by exact_mod_cast (by omega : n - 1 ≠ 0)
  have hs : step lo hi n = (hi - lo) / ((n - 1 : Nat) : K) := by simp [step, show n > 1 by omega]
  refine ⟨?_, by simp, ?_⟩
  · unfold size
    rw [if_neg]
    rintro ⟨h1, _⟩
    rw [hs, div_eq_zero_iff] at h1
    rcases h1 with h1 | h1
    · exact h (sub_eq_zero.mp h1).symm
    · exact hn0 h1
  · rw [hs]; field_simp; ring

/-- C54: with equal bounds, there is only one point. -/
theorem mesh_single (lo : K) (n : Nat) (hn : 1 ≤ n) : size (step lo lo n) n = 1 := by
  simp [size, step, show n ≠ 0 by omega]

/-- C54: with increasing bounds the abscissae increase and stay within the bounds. -/
theorem mesh_increasing (lo hi : K) (n : Nat) (hn : 2 ≤ n) (h : lo < hi) (i : Nat) (hi' : i < n) :
    lo ≤ lo + (i : K) * step lo hi n ∧ lo + (i : K) * step lo hi n ≤ hi ∧ 0 < step lo hi n := by
  have hn0 : (0 : K) < ((n - 1 : Nat) : K) := by exact_mod_cast (by omega : 0 < n - 1)
  have hs : step lo hi n = (hi - lo) / ((n - 1 : Nat) : K) := by simp [step, show n > 1 by omega]
  have hpos : 0 < step lo hi n := by rw [hs]; exact div_pos (sub_pos.mpr h) hn0
  have hle : (i : K) ≤ ((n - 1 : Nat) : K) := by exact_mod_cast (by omega : i ≤ n - 1)
  refine ⟨?_, ?_, hpos⟩
  · have : 0 ≤ (i : K) * step lo hi n := mul_nonneg (by positivity) hpos.le
    linarith
  · have h1 : (i : K) * step lo hi n ≤ ((n - 1 : Nat) : K) * step lo hi n := mul_le_mul_of_nonneg_right hle hpos.le
    have h2 : ((n - 1 : Nat) : K) * step lo hi n = hi - lo := by rw [hs]; field_simp
    linarith

end

section
variable {K : Type} [Field K] [DecidableEq K]

/-- C54: the mesh has `nx * ny` points; point `(i, j)` is `xmin + i dx, ymin + j dy`. -/
theorem mesh_points (o : Output K) :
    (makeWaveMesh o).length = (meshSize o).1 * (meshSize o).2
      ∧ ∀ (i j : Nat), i < (meshSize o).1 → j < (meshSize o).2 →
          (makeWaveMesh o)[j * (meshSize o).1 + i]? = some (o.xmin + (i : K) * step o.xmin o.xmax o.nx, o.ymin + (j : K) * step o.ymin o.ymax o.ny, 0) := by
  constructor
  · simp only [makeWaveMesh, meshSize]
    rw [length_flatten_rows]; ring
  · intro i j hi hj
    exact flatten_getElem? (fun (j i : Nat) => (o.xmin + (i : K) * step o.xmin o.xmax o.nx, o.ymin + (j : K) * step o.ymin o.ymax o.ny, (0 : K))) _ _ j i hj hi

/-- The grid of the waves, for any change of frame `T`: `z(i,j)` is the elevation at the image of the point `(i, j)` of the mesh; `x(i)` is the abscissa of the
image of `(i, 0)` and `y(j)` the ordinate of the image of `(0, j)`. -/
theorem grid_values (o : Output K) (T : K × K × K → K × K × K) (eta : K → K → K) (hx : 0 < (meshSize o).1) (hy : 0 < (meshSize o).2) :
    let P := fun (i j : Nat) => T (o.xmin + (i : K) * step o.xmin o.xmax o.nx, o.ymin + (j : K) * step o.ymin o.ymax o.ny, 0)
    ∃ g, wavesOnGrid (meshSize o).1 (meshSize o).2 (wavesOnMesh T eta (makeWaveMesh o)) = .ok g
      ∧ g.x = (List.range (meshSize o).1).map (fun i => (P i 0).1)
      ∧ g.y = (List.range (meshSize o).2).map (fun j => (P 0 j).2.1)
      ∧ g.z = (List.range (meshSize o).2).map (fun j => (List.range (meshSize o).1).map (fun i => eta (P i j).1 (P i j).2.1)) := by
  intro P
  obtain ⟨hlen, hpt⟩ := mesh_points o
  set nx := (meshSize o).1
  set ny := (meshSize o).2
  set res := wavesOnMesh T eta (makeWaveMesh o) with hres
  have hlen' : res.length = nx * ny := by rw [hres, wavesOnMesh, List.length_map, hlen]
  have hget : ∀ i j, i < nx → j < ny → getUB res (j * nx + i) = .ok ((P i j).1, (P i j).2.1, eta (P i j).1 (P i j).2.1) := by
    intro i j hi hj
    have h1 : res[j * nx + i]? = some ((P i j).1, (P i j).2.1, eta (P i j).1 (P i j).2.1) := by
      rw [hres, wavesOnMesh, List.getElem?_map, hpt i j hi hj]; rfl
    simp [getUB, h1]
  have hpos : res.length ≠ 0 := by rw [hlen']; exact (Nat.mul_pos hx hy).ne'
  refine ⟨⟨nx, ny, _, _, _⟩, ?_, rfl, rfl, rfl⟩
  unfold wavesOnGrid
  rw [if_neg hpos, if_neg (by rw [hlen']; simp)]
  rw [mapM_ok (g := fun i => (P i 0).1), mapM_ok (g := fun j => (P 0 j).2.1), mapM_ok (g := fun j => (List.range nx).map (fun i => eta (P i j).1 (P i j).2.1))]
  · rfl
  · intro j hj
    refine mapM_ok _ (fun i hi => ?_)
    rw [hget i j (List.mem_range.mp hi) (List.mem_range.mp hj)]; rfl
  · intro j hj
    have := hget 0 j hx (List.mem_range.mp hj)
    rw [add_zero] at this
    rw [this]; rfl
  · intro i hi
    have := hget i 0 (List.mem_range.mp hi) hy
    rw [zero_mul, zero_add] at this
    rw [this]; rfl

/-- C54 (what holds): when the output frame is translated from NED (or is NED), `z(i,j)` is the elevation at `(x(i), y(j))`.  Missing: the rotated frames,
`grid_wrong_in_rotated_frame`. -/
theorem grid_partial (o : Output K) (a b c : K) (eta : K → K → K) (hx : 0 < (meshSize o).1) (hy : 0 < (meshSize o).2) :
    ∃ g, wavesOnGrid (meshSize o).1 (meshSize o).2 (wavesOnMesh (fun p => (p.1 + a, p.2.1 + b, p.2.2 + c)) eta (makeWaveMesh o)) = .ok g
      ∧ g.x.length = (meshSize o).1 ∧ g.y.length = (meshSize o).2
      ∧ ∀ (i j : Nat) (x y : K), g.x[i]? = some x → g.y[j]? = some y → g.z[j]?.bind (·[i]?) = some (eta x y) := by
  obtain ⟨g, h1, h2, h3, h4⟩ := grid_values o (fun p => (p.1 + a, p.2.1 + b, p.2.2 + c)) eta hx hy
  refine ⟨g, h1, by simp [h2], by simp [h3], ?_⟩
  intro i j x y hi hj
  rw [h2, List.getElem?_map, Option.map_eq_some_iff] at hi
  rw [h3, List.getElem?_map, Option.map_eq_some_iff] at hj
  obtain ⟨i', hi', rfl⟩ := hi
  obtain ⟨j', hj', rfl⟩ := hj
  rw [h4, List.getElem?_map, hj']
  simp only [Option.map_some, Option.bind_some, List.getElem?_map, hi']

end

/-- C54 (refutation): in a frame rotated by 90 degrees, the grid does not describe the surface: with the elevation `x + 10 y`, mesh [0,1]×[0,1], the elevation given
for `(x(1), y(0)) = (0, 0)` is 10, instead of 0. -/
theorem grid_wrong_in_rotated_frame :
    let o : Output ℚ := ⟨0, 1, 2, 0, 1, 2⟩
    ∃ g, wavesOnGrid 2 2 (wavesOnMesh (fun p => (-p.2.1, p.1, p.2.2)) (fun x y => x + 10 * y) (makeWaveMesh o)) = .ok g
      ∧ g.x = [0, 0] ∧ g.y = [0, 0] ∧ g.z = [[0, 10], [-1, 9]] := by
  exact ⟨⟨2, 2, [0, 0], [0, 0], [[0, 10], [-1, 9]]⟩, by decide +kernel, rfl, rfl, rfl⟩

/-- Non-vacuity: a 3×2 mesh in the NED frame. -/
example : (makeWaveMesh (⟨0, 4, 3, 10, 11, 2⟩ : Output ℚ)) = [(0, 10, 0), (2, 10, 0), (4, 10, 0), (0, 11, 0), (2, 11, 0), (4, 11, 0)] := by decide +kernel

example : ∃ g, wavesOnGrid 3 2 (wavesOnMesh id (fun x y => x + y) (makeWaveMesh (⟨0, 4, 3, 10, 11, 2⟩ : Output ℚ))) = .ok g ∧ g.z = [[10, 12, 14], [11, 13, 15]] :=
  ⟨⟨3, 2, [0, 2, 4], [10, 11], [[10, 12, 14], [11, 13, 15]]⟩, by decide +kernel, rfl⟩

end Xdyn.WaveGrid

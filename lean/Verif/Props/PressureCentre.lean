import Verif.Props.MeshFrame
import Verif.Props.EulerRates
import Mathlib.Analysis.SpecialFunctions.Integrals.Basic
import Mathlib.Tactic.Ring

/-
C106: the point of application of the "exact" hydrostatic force model.
-/

namespace Xdyn.Hull

theorem integral_cubic (c0 c1 c2 c3 b : ℝ) : ∫ v in (0 : ℝ)..b, (c0 + c1 * v + c2 * v ^ 2 + c3 * v ^ 3) =
    c0 * b + c1 * b ^ 2 / 2 + c2 * b ^ 3 / 3 + c3 * b ^ 4 / 4 := by
  have h := intervalIntegral.integral_eq_sub_of_hasDerivAt (a := 0) (b := b)
      (f := fun v => c0 * v + c1 * v ^ 2 / 2 + c2 * v ^ 3 / 3 + c3 * v ^ 4 / 4)
      (f' := fun v => c0 + c1 * v + c2 * v ^ 2 + c3 * v ^ 3)
      (fun v _ => by
        have h1 : HasDerivAt (fun v : ℝ => c0 * v) (c0 * 1) v := (hasDerivAt_id v).const_mul c0
        have h2 := ((hasDerivAt_pow 2 v).const_mul c1).div_const 2
        have h3 := ((hasDerivAt_pow 3 v).const_mul c2).div_const 3
        have h4 := ((hasDerivAt_pow 4 v).const_mul c3).div_const 4
        refine (((h1.add h2).add h3).add h4).congr_deriv ?_
        norm_num; ring)
      (by apply Continuous.intervalIntegrable; fun_prop)
  rw [h]; simp

theorem mean_product (p0 p1 p2 q0 q1 q2 : ℝ) :
    2 * ∫ u in (0 : ℝ)..1, ∫ v in (0 : ℝ)..(1 - u), (p0 + u * (p1 - p0) + v * (p2 - p0)) * (q0 + u * (q1 - q0) + v * (q2 - q0)) =
      ((p0 + p1 + p2) * (q0 + q1 + q2) + (p0 * q0 + p1 * q1 + p2 * q2)) / 12 := by
  have inner : ∀ u : ℝ, ∫ v in (0 : ℝ)..(1 - u), (p0 + u * (p1 - p0) + v * (p2 - p0)) * (q0 + u * (q1 - q0) + v * (q2 - q0)) =
      (p0 + u * (p1 - p0)) * (q0 + u * (q1 - q0)) * (1 - u) + ((p0 + u * (p1 - p0)) * (q2 - q0) + (p2 - p0) * (q0 + u * (q1 - q0))) * (1 - u) ^ 2 / 2 +
        (p2 - p0) * (q2 - q0) * (1 - u) ^ 3 / 3 := by
    intro u
    have := integral_cubic ((p0 + u * (p1 - p0)) * (q0 + u * (q1 - q0))) ((p0 + u * (p1 - p0)) * (q2 - q0) + (p2 - p0) * (q0 + u * (q1 - q0))) ((p2 - p0) * (q2 - q0)) 0 (1 - u)
    rw [show (fun v : ℝ => (p0 + u * (p1 - p0) + v * (p2 - p0)) * (q0 + u * (q1 - q0) + v * (q2 - q0))) = fun v => (p0 + u * (p1 - p0)) * (q0 + u * (q1 - q0)) +
      ((p0 + u * (p1 - p0)) * (q2 - q0) + (p2 - p0) * (q0 + u * (q1 - q0))) * v + (p2 - p0) * (q2 - q0) * v ^ 2 + 0 * v ^ 3 from by funext v; ring, this]
    ring
  simp only [inner]
  have h := integral_cubic (p0 * q0 + (p0 * (q2 - q0) + (p2 - p0) * q0) / 2 + (p2 - p0) * (q2 - q0) / 3)
    (p0 * (q1 - q0) + (p1 - p0) * q0 - p0 * q0 + ((p1 - p0) * (q2 - q0) + (p2 - p0) * (q1 - q0) - 2 * (p0 * (q2 - q0) + (p2 - p0) * q0)) / 2 - (p2 - p0) * (q2 - q0))
    ((p1 - p0) * (q1 - q0) - (p0 * (q1 - q0) + (p1 - p0) * q0) + ((p0 * (q2 - q0) + (p2 - p0) * q0) - 2 * ((p1 - p0) * (q2 - q0) + (p2 - p0) * (q1 - q0))) / 2 + (p2 - p0) * (q2 - q0))
    (-(p1 - p0) * (q1 - q0) + ((p1 - p0) * (q2 - q0) + (p2 - p0) * (q1 - q0)) / 2 - (p2 - p0) * (q2 - q0) / 3) 1
  rw [show (fun u : ℝ => (p0 + u * (p1 - p0)) * (q0 + u * (q1 - q0)) * (1 - u) + ((p0 + u * (p1 - p0)) * (q2 - q0) + (p2 - p0) * (q0 + u * (q1 - q0))) * (1 - u) ^ 2 / 2 +
        (p2 - p0) * (q2 - q0) * (1 - u) ^ 3 / 3) = fun u => (p0 * q0 + (p0 * (q2 - q0) + (p2 - p0) * q0) / 2 + (p2 - p0) * (q2 - q0) / 3) +
    (p0 * (q1 - q0) + (p1 - p0) * q0 - p0 * q0 + ((p1 - p0) * (q2 - q0) + (p2 - p0) * (q1 - q0) - 2 * (p0 * (q2 - q0) + (p2 - p0) * q0)) / 2 - (p2 - p0) * (q2 - q0)) * u +
    ((p1 - p0) * (q1 - q0) - (p0 * (q1 - q0) + (p1 - p0) * q0) + ((p0 * (q2 - q0) + (p2 - p0) * q0) - 2 * ((p1 - p0) * (q2 - q0) + (p2 - p0) * (q1 - q0))) / 2 + (p2 - p0) * (q2 - q0)) * u ^ 2 +
    (-(p1 - p0) * (q1 - q0) + ((p1 - p0) * (q2 - q0) + (p2 - p0) * (q1 - q0)) / 2 - (p2 - p0) * (q2 - q0) / 3) * u ^ 3 from by funext u; ring, h]
  ring

/-- Mean of a function on the triangle `a b c`. -/
noncomputable def meanOn (t : Tri) (F : Pt ℝ → ℝ) : ℝ :=
  2 * ∫ u in (0 : ℝ)..1, ∫ v in (0 : ℝ)..(1 - u),
    F ⟨t.1.x + u * (t.2.1.x - t.1.x) + v * (t.2.2.x - t.1.x), t.1.y + u * (t.2.1.y - t.1.y) + v * (t.2.2.y - t.1.y), t.1.z + u * (t.2.1.z - t.1.z) + v * (t.2.2.z - t.1.z)⟩

/-- The vector `depthMoment` of the specification of the centre of pressure is the mean of the depth times the position. -/
theorem depthMoment_mean (tz : ℝ) (d : Pt ℝ) (t : Tri) :
    depthMoment tz d t = ⟨meanOn t (fun p => depthAt tz d p * p.x), meanOn t (fun p => depthAt tz d p * p.y), meanOn t (fun p => depthAt tz d p * p.z)⟩ := by
  have e : ∀ (F : Pt ℝ → ℝ) (_ : ∀ u v, F ⟨t.1.x + u * (t.2.1.x - t.1.x) + v * (t.2.2.x - t.1.x), t.1.y + u * (t.2.1.y - t.1.y) + v * (t.2.2.y - t.1.y), t.1.z + u * (t.2.1.z - t.1.z) + v * (t.2.2.z - t.1.z)⟩ =
      F t.1 + u * (F t.2.1 - F t.1) + v * (F t.2.2 - F t.1)),
      meanOn t (fun p => depthAt tz d p * F p) = ((depthAt tz d t.1 + depthAt tz d t.2.1 + depthAt tz d t.2.2) * (F t.1 + F t.2.1 + F t.2.2) +
        (depthAt tz d t.1 * F t.1 + depthAt tz d t.2.1 * F t.2.1 + depthAt tz d t.2.2 * F t.2.2)) / 12 := by
    intro F hF
    rw [← mean_product]
    unfold meanOn
    simp only [hF]
    congr 1
    congr 1
    funext u
    congr 1
    funext v
    simp only [depthAt]
    ring
  rw [e Pt.x (fun u v => rfl), e Pt.y (fun u v => rfl), e Pt.z (fun u v => rfl)]
  simp only [depthMoment, Pt.smul, Pt.add, Pt.mk.injEq]
  refine ⟨?_, ?_, ?_⟩ <;> ring

theorem inertiaOfTriangle_mean (t : Tri) : inertiaOfTriangle t.1 t.2.1 t.2.2 =
    ⟨meanOn t (fun p => p.x * p.x), meanOn t (fun p => p.x * p.y), meanOn t (fun p => p.y * p.x), meanOn t (fun p => p.y * p.y)⟩ := by
  simp only [meanOn, mean_product, inertiaOfTriangle, Inertia2.mk.injEq]
  refine ⟨?_, ?_, ?_, ?_⟩ <;> ring

theorem inertiaLoop_eq (p0 : Pt ℝ) : ∀ (l : List (Pt ℝ)) (p : Pt ℝ) (s : ℝ × Inertia2), inertiaLoop p0 p l s =
    (s.1 + ((fanTriangles (p0 :: p :: l)).map areaOf).sum,
      ⟨s.2.j00 + ((fanTriangles (p0 :: p :: l)).map (fun t => meanOn t (fun p => p.x * p.x) * areaOf t)).sum,
       s.2.j01 + ((fanTriangles (p0 :: p :: l)).map (fun t => meanOn t (fun p => p.x * p.y) * areaOf t)).sum,
       s.2.j10 + ((fanTriangles (p0 :: p :: l)).map (fun t => meanOn t (fun p => p.y * p.x) * areaOf t)).sum,
       s.2.j11 + ((fanTriangles (p0 :: p :: l)).map (fun t => meanOn t (fun p => p.y * p.y) * areaOf t)).sum⟩) := by
  intro l
  induction l with
  | nil => intro p s; simp [inertiaLoop, fanTriangles, steps]
  | cons q l ih =>
    intro p s
    obtain ⟨S, v⟩ := s
    rw [inertiaLoop, ih]
    have h := inertiaOfTriangle_mean (p0, p, q)
    simp only at h
    simp only [fanTriangles, steps, List.map_cons, List.sum_cons, Prod.mk.injEq, Inertia2.mk.injEq, h, areaOf]
    refine ⟨by ring, by ring, by ring, by ring, by ring⟩

/-- **C106 (second moments).** `inertia_of_polygon` gives the means, on the polygon, of `x²`, `x y`, `y x` and `y²`. -/
theorem inertia_of_polygon_means (p0 p1 : Pt ℝ) (l : List (Pt ℝ)) :
    let ts := fanTriangles (p0 :: p1 :: l)
    let A := polyArea (p0 :: p1 :: l)
    inertiaOfPolygon (p0 :: p1 :: l) =
      ⟨(ts.map (fun t => meanOn t (fun p => p.x * p.x) * areaOf t)).sum / A, (ts.map (fun t => meanOn t (fun p => p.x * p.y) * areaOf t)).sum / A,
       (ts.map (fun t => meanOn t (fun p => p.y * p.x) * areaOf t)).sum / A, (ts.map (fun t => meanOn t (fun p => p.y * p.y) * areaOf t)).sum / A⟩ := by
  intro ts A
  simp only [inertiaOfPolygon, inertiaLoop_eq, zero_add, A, polyArea_fan]
  rfl

/-- **C106 (facets parallel to the free surface).** When all the points of the facet are at the same depth, its centre of gravity, which is what the fast model uses,
is the centre of pressure. -/
theorem fast_point_flat (tz : ℝ) (d : Pt ℝ) (pts : List (Pt ℝ)) (z : ℝ) (hz : ∀ p ∈ pts, depthAt tz d p = z) (ha : polyArea pts ≠ 0) :
    AtPressureCentre tz d pts (centreOfGravity pts) := by
  match pts, hz, ha with
  | [], _, ha => exact absurd rfl ha
  | [_], _, ha => exact absurd rfl ha
  | p0 :: p :: l, hz, ha =>
    have hmem : ∀ t ∈ fanTriangles (p0 :: p :: l), depthAt tz d t.1 = z ∧ depthAt tz d t.2.1 = z ∧ depthAt tz d t.2.2 = z := by
      intro t ht
      simp only [fanTriangles, List.mem_map] at ht
      obtain ⟨s, hs, rfl⟩ := ht
      have hs' : ∀ (l : List (Pt ℝ)) (s : Pt ℝ × Pt ℝ), s ∈ steps l → s.1 ∈ l ∧ s.2 ∈ l := by
        intro l
        induction l with
        | nil => intro s hs; simp [steps] at hs
        | cons a l ih =>
          intro s hs
          cases l with
          | nil => simp [steps] at hs
          | cons b l =>
            simp only [steps, List.mem_cons] at hs
            rcases hs with rfl | hs
            · simp
            · have := ih s hs
              exact ⟨List.mem_cons_of_mem _ this.1, List.mem_cons_of_mem _ this.2⟩
      obtain ⟨h1, h2⟩ := hs' _ _ hs
      exact ⟨hz _ (by simp), hz _ (List.mem_cons_of_mem _ h1), hz _ (List.mem_cons_of_mem _ h2)⟩
    unfold AtPressureCentre
    rw [polyArea_fan] at ha
    simp only [centreOfGravity, cogLoop_eq, zero_add]
    generalize fanTriangles (p0 :: p :: l) = ts at ha hmem ⊢
    have e1 : ts.map (fun t => areaOf t * ((depthAt tz d t.1 + depthAt tz d t.2.1 + depthAt tz d t.2.2) / 3)) = ts.map (fun t => z * areaOf t) := by
      apply List.map_congr_left
      intro t ht
      obtain ⟨h1, h2, h3⟩ := hmem t ht
      rw [h1, h2, h3]; ring
    have e2 : ts.map (fun t => vscale (areaOf t) (depthMoment tz d t)) = ts.map (fun t => (⟨z * (areaOf t * ((t.1.x + t.2.1.x + t.2.2.x) / 3)),
        z * (areaOf t * ((t.1.y + t.2.1.y + t.2.2.y) / 3)), z * (areaOf t * ((t.1.z + t.2.1.z + t.2.2.z) / 3))⟩ : Pt ℝ)) := by
      apply List.map_congr_left
      intro t ht
      obtain ⟨h1, h2, h3⟩ := hmem t ht
      simp only [depthMoment, h1, h2, h3, vscale, Pt.smul, Pt.add, Pt.mk.injEq]
      refine ⟨?_, ?_, ?_⟩ <;> ring
    rw [e1, e2]
    simp only [ptSum, List.map_map, Function.comp_def, vscale, sum_map_mul_left, Pt.mk.injEq]
    refine ⟨?_, ?_, ?_⟩ <;> field_simp

/-- A vertical triangle whose upper side, of length `X`, is in the free surface. -/
def wallPts (X : ℝ) : List (Pt ℝ) := [⟨0, 0, 0⟩, ⟨0, 0, 1⟩, ⟨X, 0, 0⟩]

theorem wall_area (X : ℝ) (hX : 0 < X) : triArea (⟨0, 0, 0⟩ : Pt ℝ) ⟨0, 0, 1⟩ ⟨X, 0, 0⟩ = X / 2 := by
  unfold triArea normal2 norm3
  norm_num
  rw [Real.sqrt_mul_self hX.le]; ring

theorem wall_cog (X : ℝ) (hX : 0 < X) : centreOfGravity (wallPts X) = ⟨X / 3, 0, 1 / 3⟩ := by
  simp only [wallPts, centreOfGravity, cogLoop, wall_area X hX, vscale, vadd, Pt.mk.injEq]
  refine ⟨?_, ?_, ?_⟩
  · field_simp; ring
  · simp
  · field_simp; ring

/-- The centre of pressure of the wall is half way down, at a quarter of its length. -/
theorem wall_pressure_centre (X : ℝ) (hX : 0 < X) (C : Pt ℝ) : AtPressureCentre 0 ⟨0, 0, 1⟩ (wallPts X) C ↔ C = ⟨X / 4, 0, 1 / 2⟩ := by
  obtain ⟨x, y, z⟩ := C
  simp only [AtPressureCentre, wallPts, fanTriangles, steps, List.map_cons, List.map_nil, List.sum_cons, List.sum_nil, areaOf, wall_area X hX, depthAt, depthMoment, ptSum,
    vscale, Pt.smul, Pt.add, Pt.mk.injEq]
  constructor
  · rintro ⟨h1, h2, h3⟩
    have hX' := hX.ne'
    have k1 : X * (x - X / 4) = 0 := by linarith
    have k2 : X * y = 0 := by linarith
    have k3 : X * (z - 1 / 2) = 0 := by linarith
    refine ⟨?_, ?_, ?_⟩
    · rcases mul_eq_zero.mp k1 with h | h
      · exact absurd h hX'
      · linarith
    · rcases mul_eq_zero.mp k2 with h | h
      · exact absurd h hX'
      · exact h
    · rcases mul_eq_zero.mp k3 with h | h
      · exact absurd h hX'
      · linarith
  · rintro ⟨rfl, rfl, rfl⟩
    refine ⟨?_, ?_, ?_⟩ <;> ring

theorem norm3_axis_y (y : ℝ) : norm3 ⟨0, y, 0⟩ = |y| := by
  unfold norm3
  rw [show (0 : ℝ) * 0 + y * y + 0 * 0 = y * y by ring, Real.sqrt_mul_self_eq_abs]

theorem gInMeshFrame_one (g : ℝ) : gInMeshFrame 1 1 g = ⟨0, 0, g⟩ := by
  simp [gInMeshFrame, rotate]

/-- **C106 (refutation).** The vector the body hands over as the direction of gravity is not the
direction of gravity seen from the body: for a body heeled by `phi` it is turned to the wrong side
(and it has the length `g`): the product of the attitude matrix with the vector handed over should be
vertical in NED, and it is so only if `sin phi = 0` or `cos phi = 0`. -/
theorem g_in_mesh_frame_refuted (phi g : ℝ) (hg : g ≠ 0) :
    gInMeshFrame (Server.rotationZYX phi 0 0) 1 g = ⟨0, -(Real.sin phi * g), Real.cos phi * g⟩ ∧
    ((rotate (Server.rotationZYX phi 0 0) (gInMeshFrame (Server.rotationZYX phi 0 0) 1 g)).y = 0 ↔ Real.sin phi = 0 ∨ Real.cos phi = 0) := by
  have h : gInMeshFrame (Server.rotationZYX phi 0 0) 1 g = ⟨0, -(Real.sin phi * g), Real.cos phi * g⟩ := by
    simp [gInMeshFrame, rotate, Server.rotationZYX_eq]
  refine ⟨h, ?_⟩
  rw [h]
  simp only [rotate, Server.rotationZYX_eq]
  simp
  constructor
  · intro h2
    have : (Real.sin phi * Real.cos phi) * (2 * g) = 0 := by linarith
    rcases mul_eq_zero.mp this with h3 | h3
    · exact mul_eq_zero.mp h3
    · exact absurd h3 (by positivity)
  · rintro (h2 | h2) <;> rw [h2] <;> ring

/-- **C106 (refutation).** The direction given to `exact_application_point` by the body is not a unit vector: its length is the acceleration of gravity. For a vertical facet
under the free surface the function then returns the centre of gravity of the facet, like the fast model, which is not the centre of pressure. -/
theorem exact_application_point_refuted (X g : ℝ) (hX : 0 < X) (hg : tinyNormal ≤ X * |1 - g|) :
    exactApplicationPoint (wallPts X) ⟨0, 1, 0⟩ (gInMeshFrame 1 1 g) (1 / 3) [0, 1, 0] = .ok (centreOfGravity (wallPts X)) ∧
    ¬ AtPressureCentre 0 ⟨0, 0, 1⟩ (wallPts X) (centreOfGravity (wallPts X)) := by
  constructor
  · have hp : projectOnFreeSurface (wallPts X) [0, 1, 0] (gInMeshFrame 1 1 g) = [⟨0, 0, 0⟩, ⟨0, 0, 1 - g⟩, ⟨X, 0, 0⟩] := by
      simp [projectOnFreeSurface, wallPts, gInMeshFrame_one, vsub, vscale]
    have hc : cross3 (⟨0, 0, 0⟩ : Pt ℝ) ⟨0, 0, 1 - g⟩ ⟨X, 0, 0⟩ = ⟨0, (1 - g) * X, 0⟩ := by
      simp [cross3]
    have hn : norm3 (⟨0, (1 - g) * X, 0⟩ : Pt ℝ) = |1 - g| * X := by
      rw [norm3_axis_y, abs_mul, abs_of_pos hX]
    have htp : 0 < tinyNormal := by unfold tinyNormal; norm_num
    have hpos : 0 < |1 - g| * X := lt_of_lt_of_le htp (by rw [mul_comm]; exact hg)
    have hne : (1 - g) * X ≠ 0 := by
      intro h
      have := congrArg abs h
      rw [abs_mul, abs_of_pos hX, abs_zero] at this
      linarith
    have hun : unitNormal [⟨0, 0, 0⟩, ⟨0, 0, 1 - g⟩, ⟨X, 0, 0⟩] = .ok (⟨0, (1 - g) * X / (|1 - g| * X), 0⟩ : Pt ℝ) := by
      rw [unitNormal_three, hc, hn, if_neg (by rw [mul_comm]; exact not_lt.mpr hg)]
      simp
    have hs : |(1 - g) * X / (|1 - g| * X)| = 1 := by
      rw [abs_div, abs_mul, abs_mul, abs_abs, abs_of_pos hX]
      exact div_self hpos.ne'
    unfold exactApplicationPoint normalToFreeSurface
    rw [hp, hun]
    simp only [bind, Except.bind, pure, Except.pure, norm3_axis_y, hs]
    rw [if_neg (by norm_num), if_neg (by simp [dot, gInMeshFrame_one])]
    simp only [vcross, mul_zero, zero_mul, sub_self]
    have : norm3 (⟨0, 0, 0⟩ : Pt ℝ) < tinyNormal := by
      unfold norm3 tinyNormal; norm_num
    rw [if_pos (by simpa using this)]
  · rw [wall_pressure_centre X hX, wall_cog X hX]
    intro h
    simp only [Pt.mk.injEq] at h
    have := h.2.2
    norm_num at this

/-- **C106 (refutation, even with a unit direction).** The offset along the slope uses the second moment across the slope: for a wall longer than deep, the computed
point is under the facet. -/
theorem exact_application_point_refuted_unit (X : ℝ) (hX : 0 < X) :
    exactApplicationPoint (wallPts X) ⟨0, 1, 0⟩ ⟨0, 0, 1⟩ (1 / 3) [0, 1, 0] = .ok ⟨X / 4, 0, 1 / 3 + X ^ 2 / 6⟩ ∧
    (AtPressureCentre 0 ⟨0, 0, 1⟩ (wallPts X) ⟨X / 4, 0, 1 / 3 + X ^ 2 / 6⟩ ↔ X = 1) := by
  constructor
  · have hp : projectOnFreeSurface (wallPts X) [0, 1, 0] ⟨0, 0, 1⟩ = [⟨0, 0, 0⟩, ⟨0, 0, 0⟩, ⟨X, 0, 0⟩] := by
      simp [projectOnFreeSurface, wallPts, vsub, vscale]
    have hc : cross3 (⟨0, 0, 0⟩ : Pt ℝ) ⟨0, 0, 0⟩ ⟨X, 0, 0⟩ = ⟨0, 0, 0⟩ := by
      simp [cross3]
    have h0 : norm3 (⟨0, 0, 0⟩ : Pt ℝ) = 0 := by unfold norm3; norm_num
    have hun : unitNormal [⟨0, 0, 0⟩, ⟨0, 0, 0⟩, ⟨X, 0, 0⟩] = .ok (⟨0, 0, 0⟩ : Pt ℝ) := by
      rw [unitNormal_three, hc, h0, if_pos (by unfold tinyNormal; norm_num)]
    have h1 : norm3 (⟨-1, 0, 0⟩ : Pt ℝ) = 1 := by unfold norm3; norm_num
    have h2 : norm3 (⟨1, 0, 0⟩ : Pt ℝ) = 1 := by unfold norm3; norm_num
    unfold exactApplicationPoint normalToFreeSurface
    rw [hp, hun]
    simp only [bind, Except.bind, pure, Except.pure, h0]
    rw [if_pos (by norm_num)]
    have hv : vcross (⟨0, 0, 1⟩ : Pt ℝ) ⟨0, 1, 0⟩ = ⟨-1, 0, 0⟩ := by simp [vcross]
    have hv' : vcross (⟨0, 1, 0⟩ : Pt ℝ) ⟨0, 0, 1⟩ = ⟨1, 0, 0⟩ := by simp [vcross]
    have ht : facetTrihedron ⟨0, 1, 0⟩ ⟨0, 0, 1⟩ = some (⟨-1, 0, 0⟩, ⟨0, 0, 1⟩, ⟨0, 1, 0⟩) := by
      unfold facetTrihedron
      simp only [hv, h1]
      rw [if_neg (by unfold tinyNormal; norm_num)]
      simp [vscale, vcross, dot]
    dsimp only
    rw [hv', h2, if_neg (by unfold tinyNormal; norm_num), ht]
    have hpts : (wallPts X).map (fun p => (⟨dot ⟨-1, 0, 0⟩ (vsub p ⟨X / 3, 0, 1 / 3⟩), dot ⟨0, 0, 1⟩ (vsub p ⟨X / 3, 0, 1 / 3⟩), dot ⟨0, 1, 0⟩ (vsub p ⟨X / 3, 0, 1 / 3⟩)⟩ : Pt ℝ)) =
        [⟨X / 3, -1 / 3, 0⟩, ⟨X / 3, 2 / 3, 0⟩, ⟨-(2 * X / 3), -1 / 3, 0⟩] := by
      simp only [wallPts, List.map_cons, List.map_nil, dot, vsub, List.cons.injEq, Pt.mk.injEq, and_true]
      refine ⟨⟨?_, ?_, ?_⟩, ⟨?_, ?_, ?_⟩, ?_, ?_, ?_⟩ <;> ring
    have ha : triArea (⟨X / 3, -1 / 3, 0⟩ : Pt ℝ) ⟨X / 3, 2 / 3, 0⟩ ⟨-(2 * X / 3), -1 / 3, 0⟩ = X / 2 := by
      unfold triArea normal2 norm3
      have : ∀ q : ℝ, q = X * X → 0.5 * Real.sqrt q = X / 2 := by
        intro q hq
        rw [hq, Real.sqrt_mul_self hX.le]; ring
      apply this
      ring
    have hJ : inertiaWrt (wallPts X) (⟨-1, 0, 0⟩, ⟨0, 0, 1⟩, ⟨0, 1, 0⟩) = ⟨X ^ 2 / 18, X / 36, X / 36, 1 / 18⟩ := by
      unfold inertiaWrt
      rw [wall_cog X hX]
      simp only [hpts, inertiaOfPolygon, inertiaLoop, ha, inertiaOfTriangle, Inertia2.mk.injEq]
      refine ⟨?_, ?_, ?_, ?_⟩ <;> (field_simp; ring)
    rw [wall_cog X hX]
    simp only [hJ, vadd, vscale, dot, Except.ok.injEq, Pt.mk.injEq]
    refine ⟨?_, ?_, ?_⟩
    · norm_num; ring
    · norm_num
    · norm_num; ring
  · rw [wall_pressure_centre X hX]
    simp only [Pt.mk.injEq, true_and]
    constructor
    · intro h
      have h2 : (X - 1) * (X + 1) = 0 := by nlinarith
      rcases mul_eq_zero.mp h2 with h | h
      · linarith
      · linarith
    · rintro rfl; norm_num

end Xdyn.Hull

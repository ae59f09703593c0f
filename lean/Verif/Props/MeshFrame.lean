import Verif.Model.MeshFrame
import Verif.Props.MeshVolume
import Verif.Props.Hydrostatic
import Mathlib.LinearAlgebra.Matrix.Determinant.Basic
import Mathlib.LinearAlgebra.Matrix.Adjugate
import Mathlib.Tactic.LinearCombination

/-! Property C108: the hull in the frame of the body. -/

namespace Xdyn.Hull

open Body

/-- The matrix is a rotation: its columns are orthonormal and it keeps the orientation. -/
structure IsRotation (R : Mat3 ℝ) : Prop where
  orth : R.transpose * R = 1
  orth' : R * R.transpose = 1
  det : R.det = 1

section Commutes
variable {K : Type} [Field K] [LinearOrder K]

/-- The builder after a change of frame: `f` for the points, `g` for the normals. -/
def mapB (f g : Pt K → Pt K) (b : Builder K) : Builder K :=
  { b with xyzMap := b.xyzMap.map (fun p => (f p.1, p.2)), nodes := b.nodes.map f,
           facets := b.facets.map (fun q => { q with normal := g q.normal }) }

theorem lookPt_map {f : Pt K → Pt K} (hf : Function.Injective f) (m : List (Pt K × Nat)) (p : Pt K) :
    lookPt (m.map (fun q => (f q.1, q.2))) (f p) = lookPt m p := by
  induction m with
  | nil => rfl
  | cons q m ih =>
    obtain ⟨q, i⟩ := q
    simp only [List.map_cons, lookPt, hf.eq_iff, ih]

theorem onePoint_map {f g : Pt K → Pt K} (hf : Function.Injective f) (b : Builder K) (p : Pt K) :
    (mapB f g b).onePoint (f p) = (b.onePoint p).map (fun r => (mapB f g r.1, r.2)) := by
  unfold Builder.onePoint
  have : lookPt (mapB f g b).xyzMap (f p) = lookPt b.xyzMap p := lookPt_map hf _ _
  rw [this]
  cases lookPt b.xyzMap p with
  | some i => rfl
  | none =>
    simp only [mapB, List.length_map]
    split
    · simp [Except.map]
    · rfl

theorem oneEdge_map {f g : Pt K → Pt K} (b : Builder K) (e : Nat × Nat) :
    (mapB f g b).oneEdge e = (mapB f g (b.oneEdge e).1, (b.oneEdge e).2) := by
  unfold Builder.oneEdge
  have : (mapB f g b).edgeMap = b.edgeMap := rfl
  rw [this]
  cases lookEdge b.edgeMap e <;> rfl

theorem facetPoints_map {f g : Pt K → Pt K} (hf : Function.Injective f) (n : Nat) (first : Pt K) :
    ∀ (ps : List (Pt K)) (b : Builder K) (vs os : List Nat),
      Builder.facetPoints n (f first) (mapB f g b) (ps.map f) vs os =
        (Builder.facetPoints n first b ps vs os).map (fun r => (mapB f g r.1, r.2)) := by
  intro ps
  induction ps with
  | nil => intro b vs os; rfl
  | cons p ps ih =>
    intro b vs os
    have hh : (ps.map f).headD (f first) = f (ps.headD first) := by cases ps <;> rfl
    simp only [List.map_cons, Builder.facetPoints, hh]
    rw [onePoint_map hf]
    cases h1 : b.onePoint p with
    | error e => rfl
    | ok r1 =>
      obtain ⟨b1, v⟩ := r1
      simp only [Except.map, bind, Except.bind]
      rw [onePoint_map hf]
      cases h2 : b1.onePoint (ps.headD first) with
      | error e => rfl
      | ok r2 =>
        obtain ⟨b2, w⟩ := r2
        simp only [Except.map]
        rw [oneEdge_map]
        cases h3 : b2.oneEdge (v, w) with
        | mk b3 e =>
          simp only
          have e1 : (mapB f g b3).edges = b3.edges := rfl
          have e2 : (mapB f g b3).facetsPerEdge = b3.facetsPerEdge := rfl
          rw [e1, e2]
          cases getAt b3.edges e with
          | error _ => rfl
          | ok st =>
            simp only
            cases getAt b3.facetsPerEdge e with
            | error _ => rfl
            | ok fs =>
              simp only
              exact ih { b3 with facetsPerEdge := b3.facetsPerEdge.set e (fs ++ [n]) } _ _

theorem addFacet_map {f g : Pt K → Pt K} (hf : Function.Injective f) {normal : List (Pt K) → Except Err (Pt K)}
    (hn : ∀ l, normal (l.map f) = (normal l).map g) (b : Builder K) (l : List (Pt K)) :
    Builder.addFacet normal (mapB f g b) (l.map f) = (Builder.addFacet normal b l).map (mapB f g) := by
  cases l with
  | nil => rfl
  | cons p l =>
    have h1 := hn (p :: l)
    simp only [List.map_cons] at h1
    simp only [List.map_cons, Builder.addFacet, h1]
    cases normal (p :: l) with
    | error _ => rfl
    | ok n =>
      simp only [Except.map, bind, Except.bind]
      have := facetPoints_map (g := g) hf b.facets.length p (p :: l) b [] []
      rw [List.map_cons] at this
      have hl : (mapB f g b).facets.length = b.facets.length := by simp [mapB]
      rw [hl, this]
      cases Builder.facetPoints b.facets.length p b (p :: l) [] [] with
      | error _ => rfl
      | ok r =>
        obtain ⟨b', vs, os⟩ := r
        simp [Except.map, pure, Except.pure, mapB]

theorem addFacets_map {f g : Pt K → Pt K} (hf : Function.Injective f) {normal : List (Pt K) → Except Err (Pt K)}
    (hn : ∀ l, normal (l.map f) = (normal l).map g) :
    ∀ (v : List (List (Pt K))) (b : Builder K),
      (v.map (List.map f)).foldlM (Builder.addFacet normal) (mapB f g b) =
        (v.foldlM (Builder.addFacet normal) b).map (mapB f g)
  | [], b => rfl
  | l :: v, b => by
    simp only [List.map_cons, List.foldlM_cons, addFacet_map hf hn]
    cases Builder.addFacet normal b l with
    | error _ => rfl
    | ok b' =>
      simp only [Except.map, bind, Except.bind]
      exact addFacets_map hf hn v b'

end Commutes

theorem rotate_mul (A B : Mat3 ℝ) (v : Pt ℝ) : rotate (A * B) v = rotate A (rotate B v) := by
  simp only [rotate, Matrix.mul_apply, Fin.sum_univ_three, Pt.mk.injEq]
  refine ⟨by ring, by ring, by ring⟩

theorem rotate_one (v : Pt ℝ) : rotate 1 v = v := by
  simp [rotate]

theorem rotate_sub (A : Mat3 ℝ) (u v : Pt ℝ) : rotate A (vsub u v) = vsub (rotate A u) (rotate A v) := by
  simp only [rotate, vsub, Pt.mk.injEq]
  refine ⟨by ring, by ring, by ring⟩

/-- Position, in the frame of the body, of the point `p` of the frame of the mesh: the body
frame has its origin at `t` and its axes are the columns of `R`. -/
def inBodyFrame (t : Pt ℝ) (R : Mat3 ℝ) (p : Pt ℝ) : Pt ℝ := rotate R.transpose (vsub p t)

/-- The change of frame made by the code. -/
theorem apply_inverse (t : Pt ℝ) (R : Mat3 ℝ) (p : Pt ℝ) : (Transform.mk t R).inverse.apply p = inBodyFrame t R p := by
  simp only [Transform.apply, Transform.inverse, inBodyFrame, rotate_sub]
  simp only [vadd, vscale, vsub, Pt.mk.injEq]
  refine ⟨by ring, by ring, by ring⟩

/-- **C108** (meaning of the position) A point at the position `b` in the frame of the body is at
`t + R b` in the frame of the mesh, and conversely. -/
theorem in_body_frame_iff (t : Pt ℝ) (R : Mat3 ℝ) (hR : IsRotation R) (p b : Pt ℝ) :
    inBodyFrame t R p = b ↔ p = vadd t (rotate R b) := by
  unfold inBodyFrame
  constructor
  · rintro rfl
    rw [← rotate_mul, hR.orth', rotate_one]
    simp [vadd, vsub]
  · rintro rfl
    have : vsub (vadd t (rotate R b)) t = rotate R b := by simp [vadd, vsub]
    rw [this, ← rotate_mul, hR.orth, rotate_one]

theorem inBodyFrame_injective (t : Pt ℝ) (R : Mat3 ℝ) (hR : IsRotation R) : Function.Injective (inBodyFrame t R) := by
  intro p q h
  rw [(in_body_frame_iff t R hR p _).1 rfl, (in_body_frame_iff t R hR q _).1 rfl, h]

/-- The scalar product of two vectors does not depend on the frame. -/
theorem dot_rotate (R : Mat3 ℝ) (hR : IsRotation R) (u v : Pt ℝ) : dot (rotate R.transpose u) (rotate R.transpose v) = dot u v := by
  have h := hR.orth'
  have e : ∀ i j, R i 0 * R j 0 + R i 1 * R j 1 + R i 2 * R j 2 = if i = j then 1 else 0 := by
    intro i j
    have := congrFun (congrFun h i) j
    rw [Matrix.mul_apply, Fin.sum_univ_three, Matrix.one_apply] at this
    simpa [Matrix.transpose_apply] using this
  have e00 := e 0 0; have e01 := e 0 1; have e02 := e 0 2; have e11 := e 1 1; have e12 := e 1 2; have e22 := e 2 2
  have e10 := e 1 0; have e20 := e 2 0; have e21 := e 2 1
  simp at e00 e01 e02 e11 e12 e22 e10 e20 e21
  simp only [dot, rotate, Matrix.transpose_apply]
  linear_combination u.x * v.x * e00 + u.x * v.y * e01 + u.x * v.z * e02 + u.y * v.x * e10 + u.y * v.y * e11 + u.y * v.z * e12
    + u.z * v.x * e20 + u.z * v.y * e21 + u.z * v.z * e22

theorem norm3_rotate (R : Mat3 ℝ) (hR : IsRotation R) (u : Pt ℝ) : norm3 (rotate R.transpose u) = norm3 u := by
  have := dot_rotate R hR u u
  unfold norm3
  simp only [dot] at this
  rw [this]

/-- A rotation matrix is its own matrix of cofactors. -/
theorem cofactors (R : Mat3 ℝ) (hR : IsRotation R) :
    R 1 1 * R 2 2 - R 1 2 * R 2 1 = R 0 0 ∧ R 1 2 * R 2 0 - R 1 0 * R 2 2 = R 0 1 ∧ R 1 0 * R 2 1 - R 1 1 * R 2 0 = R 0 2 ∧
    R 2 1 * R 0 2 - R 2 2 * R 0 1 = R 1 0 ∧ R 2 2 * R 0 0 - R 2 0 * R 0 2 = R 1 1 ∧ R 2 0 * R 0 1 - R 2 1 * R 0 0 = R 1 2 ∧
    R 0 1 * R 1 2 - R 0 2 * R 1 1 = R 2 0 ∧ R 0 2 * R 1 0 - R 0 0 * R 1 2 = R 2 1 ∧ R 0 0 * R 1 1 - R 0 1 * R 1 0 = R 2 2 := by
  have hadj : R.adjugate = R.transpose := by
    have h1 : R * R.adjugate = 1 := by rw [Matrix.mul_adjugate, hR.det, one_smul]
    calc R.adjugate = (R.transpose * R) * R.adjugate := by rw [hR.orth, Matrix.one_mul]
      _ = R.transpose := by rw [Matrix.mul_assoc, h1, Matrix.mul_one]
  rw [Matrix.adjugate_fin_three] at hadj
  have e : ∀ i j, _ := fun i j => congrFun (congrFun hadj i) j
  have e00 := e 0 0; have e01 := e 0 1; have e02 := e 0 2; have e10 := e 1 0; have e11 := e 1 1; have e12 := e 1 2
  have e20 := e 2 0; have e21 := e 2 1; have e22 := e 2 2
  simp [Matrix.transpose_apply] at e00 e01 e02 e10 e11 e12 e20 e21 e22
  refine ⟨?_, ?_, ?_, ?_, ?_, ?_, ?_, ?_, ?_⟩ <;> linarith

/-- The normal of a triangle turns with the frame. -/
theorem cross3_inBodyFrame (t : Pt ℝ) (R : Mat3 ℝ) (hR : IsRotation R) (a b c : Pt ℝ) :
    cross3 (inBodyFrame t R a) (inBodyFrame t R b) (inBodyFrame t R c) = rotate R.transpose (cross3 a b c) := by
  obtain ⟨c00, c01, c02, c10, c11, c12, c20, c21, c22⟩ := cofactors R hR
  simp only [cross3, inBodyFrame, rotate, vsub, Matrix.transpose_apply, Pt.mk.injEq]
  refine ⟨?_, ?_, ?_⟩
  · rw [← c00, ← c10, ← c20]; ring
  · rw [← c01, ← c11, ← c21]; ring
  · rw [← c02, ← c12, ← c22]; ring

theorem unitNormal_map (t : Pt ℝ) (R : Mat3 ℝ) (hR : IsRotation R) (l : List (Pt ℝ)) :
    unitNormal (l.map (inBodyFrame t R)) = (unitNormal l).map (rotate R.transpose) := by
  match l with
  | [] => rfl
  | [_] => rfl
  | [_, _] => rfl
  | a :: b :: c :: l =>
    simp only [List.map_cons, unitNormal_three, cross3_inBodyFrame t R hR, norm3_rotate R hR]
    split
    · simp [Except.map, rotate]
    · simp only [Except.map, rotate, Except.ok.injEq, Pt.mk.injEq]
      refine ⟨by ring, by ring, by ring⟩

/-- **C108** The mesh in the frame of the body is the mesh that would have been built from the
vertices expressed in that frame: same nodes, same edges, same facets with the same normals (or
same error).  The columns of `all_nodes` after the nodes are not initialised by the user's mesh;
they are overwritten before being used. -/
theorem mesh_in_body_frame (t : Pt ℝ) (R : Mat3 ℝ) (hR : IsRotation R) (v : List (List (Pt ℝ))) :
    (∃ m m', build unitNormal v = .ok m ∧ build unitNormal (v.map (List.map (inBodyFrame t R))) = .ok m' ∧
      let c := changeMeshRefFrame t R m
      c.allNodes.take m.nbNodes = m'.allNodes.take m.nbNodes ∧ c.allNodes.length = m'.allNodes.length ∧
      { c with allNodes := [] } = { m' with allNodes := [] }) ∨
    ∃ e, build unitNormal v = .error e ∧ build unitNormal (v.map (List.map (inBodyFrame t R))) = .error e := by
  have hcap : (v.map (List.map (inBodyFrame t R))).length * ((v.map (List.map (inBodyFrame t R))).headD []).length
      = v.length * (v.headD []).length := by
    cases v <;> simp
  have key := addFacets_map (g := rotate R.transpose) (inBodyFrame_injective t R hR) (unitNormal_map t R hR) v
    { capacity := v.length * (v.headD []).length }
  have hb0 : mapB (inBodyFrame t R) (rotate R.transpose) ({ capacity := v.length * (v.headD []).length } : Builder ℝ)
      = { capacity := v.length * (v.headD []).length } := rfl
  rw [hb0] at key
  unfold build
  rw [hcap, key]
  cases h : v.foldlM (Builder.addFacet unitNormal) { capacity := v.length * (v.headD []).length } with
  | error e => right; exact ⟨e, rfl, rfl⟩
  | ok b =>
    left
    refine ⟨_, _, rfl, rfl, ?_⟩
    have hap : (Transform.mk t R).inverse.apply = inBodyFrame t R := funext (apply_inverse t R)
    have hr : (Transform.mk t R).inverse.r = R.transpose := rfl
    refine ⟨?_, ?_, ?_⟩
    · simp [changeMeshRefFrame, Builder.toMesh, mapB, hap, List.take_append]
    · simp [changeMeshRefFrame, Builder.toMesh, mapB]
    · simp [changeMeshRefFrame, Builder.toMesh, mapB, hr]

theorem triArea_inBodyFrame (t : Pt ℝ) (R : Mat3 ℝ) (hR : IsRotation R) (a b c : Pt ℝ) :
    triArea (inBodyFrame t R a) (inBodyFrame t R b) (inBodyFrame t R c) = triArea a b c := by
  unfold triArea
  rw [normal2_eq, normal2_eq, cross3_inBodyFrame t R hR, norm3_rotate R hR]

/-- **C108** (areas) The areas of the facets, which are not computed again, are the ones of the
moved polygons. -/
theorem area_in_body_frame (t : Pt ℝ) (R : Mat3 ℝ) (hR : IsRotation R) (l : List (Pt ℝ)) :
    polyArea (l.map (inBodyFrame t R)) = polyArea l := by
  have fan : ∀ (l : List (Pt ℝ)) (p0 p : Pt ℝ),
      fanFrom (inBodyFrame t R p0) (inBodyFrame t R p) (l.map (inBodyFrame t R)) = fanFrom p0 p l := by
    intro l
    induction l with
    | nil => intro p0 p; rfl
    | cons q l ih => intro p0 p; simp only [List.map_cons, fanFrom, triArea_inBodyFrame t R hR, ih]
  match l with
  | [] => rfl
  | [_] => rfl
  | p0 :: p1 :: l => exact fan l p0 p1

/-- The sums of the loop of `centre_of_gravity` in the two frames. -/
theorem cogLoop_inBodyFrame (t : Pt ℝ) (R : Mat3 ℝ) (hR : IsRotation R) :
    ∀ (l : List (Pt ℝ)) (p0 p : Pt ℝ) (A : ℝ) (v : Pt ℝ),
      cogLoop (inBodyFrame t R p0) (inBodyFrame t R p) (l.map (inBodyFrame t R))
          (A, rotate R.transpose (vsub v (vscale A t))) =
        ((cogLoop p0 p l (A, v)).1, rotate R.transpose (vsub (cogLoop p0 p l (A, v)).2 (vscale (cogLoop p0 p l (A, v)).1 t))) := by
  intro l
  induction l with
  | nil => intro p0 p A v; rfl
  | cons q l ih =>
    intro p0 p A v
    simp only [List.map_cons, cogLoop, triArea_inBodyFrame t R hR]
    rw [← ih]
    congr 2
    simp only [inBodyFrame, rotate, vsub, vadd, vscale, Pt.mk.injEq]
    refine ⟨by ring, by ring, by ring⟩

/-- **C108** (centres) The moved centre of gravity of a facet is the centre of gravity of the
moved polygon, when its area is not zero. -/
theorem centre_in_body_frame (t : Pt ℝ) (R : Mat3 ℝ) (hR : IsRotation R) (p0 p1 : Pt ℝ) (l : List (Pt ℝ))
    (ha : polyArea (p0 :: p1 :: l) ≠ 0) :
    movedCentre t R (p0 :: p1 :: l) = centreOfGravity ((p0 :: p1 :: l).map (inBodyFrame t R)) := by
  have h := cogLoop_inBodyFrame t R hR l p0 p1 0 ⟨0, 0, 0⟩
  have h0 : rotate R.transpose (vsub ⟨0, 0, 0⟩ (vscale 0 t)) = ⟨0, 0, 0⟩ := by simp [rotate, vsub, vscale]
  rw [h0] at h
  have harea : ∀ (l : List (Pt ℝ)) (p : Pt ℝ) (s : ℝ × Pt ℝ), (cogLoop p0 p l s).1 = s.1 + fanFrom p0 p l := by
    intro l
    induction l with
    | nil => intro p s; simp [cogLoop, fanFrom]
    | cons q l ih => intro p s; obtain ⟨A, v⟩ := s; simp only [cogLoop, fanFrom, ih]; ring
  have hA : (cogLoop p0 p1 l (0, ⟨0, 0, 0⟩)).1 ≠ 0 := by
    rw [harea]
    simpa [polyArea] using ha
  unfold movedCentre
  rw [apply_inverse]
  simp only [List.map_cons, centreOfGravity, h]
  generalize cogLoop p0 p1 l (0, ⟨0, 0, 0⟩) = r at hA
  obtain ⟨A, w⟩ := r
  simp only at hA ⊢
  simp only [inBodyFrame, rotate, vsub, vscale, Pt.mk.injEq]
  refine ⟨?_, ?_, ?_⟩ <;> field_simp

/-- Distances and angles are kept. -/
theorem distance_in_body_frame (t : Pt ℝ) (R : Mat3 ℝ) (hR : IsRotation R) (a b c : Pt ℝ) :
    dot (vsub (inBodyFrame t R b) (inBodyFrame t R a)) (vsub (inBodyFrame t R c) (inBodyFrame t R a)) = dot (vsub b a) (vsub c a) := by
  have : ∀ p q, vsub (inBodyFrame t R p) (inBodyFrame t R q) = rotate R.transpose (vsub p q) := by
    intro p q
    unfold inBodyFrame
    rw [← rotate_sub]
    congr 1
    simp only [vsub, Pt.mk.injEq]
    refine ⟨by ring, by ring, by ring⟩
  rw [this, this, dot_rotate R hR]

/-- A quarter of a turn about the z axis is a rotation; a point of the x axis one metre from the origin of the body at (2, 0, 0). -/
def quarterTurn : Mat3 ℝ := !![0, -1, 0; 1, 0, 0; 0, 0, 1]

example : IsRotation quarterTurn ∧ inBodyFrame ⟨2, 0, 0⟩ quarterTurn ⟨3, 0, 0⟩ = ⟨0, -1, 0⟩ := by
  refine ⟨⟨?_, ?_, ?_⟩, ?_⟩
  · ext i j; fin_cases i <;> fin_cases j <;> simp [quarterTurn, Matrix.mul_apply, Fin.sum_univ_three]
  · ext i j; fin_cases i <;> fin_cases j <;> simp [quarterTurn, Matrix.mul_apply, Fin.sum_univ_three]
  · simp [quarterTurn, Matrix.det_fin_three]
  · simp only [inBodyFrame, quarterTurn, rotate, vsub, Matrix.transpose_apply]
    norm_num [Matrix.of_apply]
    rfl

end Xdyn.Hull

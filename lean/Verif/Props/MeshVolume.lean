import Verif.Model.MeshVolume
import Verif.Props.MeshBuild
import Mathlib.Tactic.Linarith
import Mathlib.Tactic.FieldSimp
import Mathlib.Tactic.NormNum
import Mathlib.Tactic.LinearCombination

/-
C41 (areas and volumes of the two parts), C44 (volume of a closed hull), C77 (centre of mass of a closed hull).
-/

namespace Xdyn.Hull

theorem col_eq (nodes : List (Pt ℝ)) (i : Nat) : col nodes i = nodeAt nodes i := rfl

theorem normal2_eq (a b c : Pt ℝ) : normal2 a b c = cross3 a b c := rfl

theorem norm3_smul (c : ℝ) (hc : 0 ≤ c) (N : Pt ℝ) : norm3 (Pt.smul c N) = c * norm3 N := by
  unfold norm3 Pt.smul
  rw [show c * N.x * (c * N.x) + c * N.y * (c * N.y) + c * N.z * (c * N.z) = c ^ 2 * (N.x * N.x + N.y * N.y + N.z * N.z) by ring,
    Real.sqrt_mul (sq_nonneg c), Real.sqrt_sq hc]

theorem norm3_nonneg (N : Pt ℝ) : 0 ≤ norm3 N := Real.sqrt_nonneg _

theorem norm3_sq (N : Pt ℝ) : norm3 N * norm3 N = N.x * N.x + N.y * N.y + N.z * N.z :=
  Real.mul_self_sqrt (by nlinarith [mul_self_nonneg N.x, mul_self_nonneg N.y, mul_self_nonneg N.z])

theorem norm3_eq_zero {N : Pt ℝ} (h : norm3 N = 0) : N = ⟨0, 0, 0⟩ := by
  have h1 := norm3_sq N
  rw [h] at h1
  have hx : N.x = 0 := by nlinarith [mul_self_nonneg N.x, mul_self_nonneg N.y, mul_self_nonneg N.z]
  have hy : N.y = 0 := by nlinarith [mul_self_nonneg N.x, mul_self_nonneg N.y, mul_self_nonneg N.z]
  have hz : N.z = 0 := by nlinarith [mul_self_nonneg N.x, mul_self_nonneg N.y, mul_self_nonneg N.z]
  rcases N with ⟨a, b, c⟩
  exact congr (congr (congrArg Pt.mk hx) hy) hz

/-- Sum of the vector products of the triangles of the fan. -/
def fanVec (p0 : Pt ℝ) : Pt ℝ → List (Pt ℝ) → Pt ℝ
  | _, [] => ⟨0, 0, 0⟩
  | p, q :: l => (cross3 p0 p q).add (fanVec p0 q l)

theorem fanVec_eq (p0 : Pt ℝ) : ∀ (l : List (Pt ℝ)) (p : Pt ℝ),
    (p0.cross p).add (pathCross (p :: (l ++ [p0]))) = fanVec p0 p l := by
  intro l
  induction l with
  | nil => intro p; simp [fanVec, pathCross, Pt.cross, Pt.add]; refine ⟨by ring, by ring, by ring⟩
  | cons q l ih =>
    intro p
    rw [fanVec, ← ih q]
    simp only [List.cons_append, pathCross, Pt.add, Pt.cross, cross3, Pt.mk.injEq]
    refine ⟨by ring, by ring, by ring⟩

theorem areaVector2_fan (p0 p1 : Pt ℝ) (l : List (Pt ℝ)) : areaVector2 (p0 :: p1 :: l) = fanVec p0 p1 l := by
  rw [← fanVec_eq]; rfl

theorem fan_convex (N p0 : Pt ℝ) : ∀ (l : List (Pt ℝ)) (p : Pt ℝ),
    (∀ t ∈ pairs (p :: l), ∃ c : ℝ, 0 ≤ c ∧ cross3 p0 t.1 t.2 = Pt.smul c N) →
    ∃ c : ℝ, 0 ≤ c ∧ fanVec p0 p l = Pt.smul c N ∧ fanFrom p0 p l = c * norm3 N / 2 := by
  intro l
  induction l with
  | nil => intro p _; exact ⟨0, le_refl _, by simp [fanVec, Pt.smul], by simp [fanFrom]⟩
  | cons q l ih =>
    intro p h
    obtain ⟨c1, h1, h2⟩ := h (p, q) (by simp [pairs])
    obtain ⟨c2, h3, h4, h5⟩ := ih q (fun t ht => h t (by
      rw [pairs]; exact List.mem_append_right _ ht))
    refine ⟨c1 + c2, by linarith, ?_, ?_⟩
    · rw [fanVec, h4, h2]
      simp only [Pt.smul, Pt.add, Pt.mk.injEq]
      refine ⟨by ring, by ring, by ring⟩
    · rw [fanFrom, h5, triArea, normal2_eq, h2, norm3_smul _ h1]
      ring

/-- The area computed for a convex polygon is half the length of its area vector. -/
theorem convex_area {N : Pt ℝ} {l : List (Pt ℝ)} (h : ConvexAlong N l) (hl : 3 ≤ l.length) :
    ∃ c : ℝ, 0 ≤ c ∧ areaVector2 l = Pt.smul c N ∧ polyArea l = c * norm3 N / 2 := by
  match l, hl with
  | p0 :: p1 :: p2 :: l, _ =>
    rw [areaVector2_fan]
    apply fan_convex
    intro t ht
    exact h (p0, t) (by
      rw [triples]
      exact List.mem_append_left _ (List.mem_map.mpr ⟨t, ht, rfl⟩))

theorem polyArea_triangle (a b c : Pt ℝ) : polyArea [a, b, c] = norm3 (cross3 a b c) / 2 := by
  simp only [polyArea, fanFrom, triArea, normal2_eq]; ring

theorem areaVector2_triangle (a b c : Pt ℝ) : areaVector2 [a, b, c] = cross3 a b c := by
  rw [areaVector2_fan]
  simp [fanVec, Pt.add]

/-- **C41 (areas).** The areas of the two parts of a split triangle add up to the area of the triangle. -/
theorem split_area {nodes : List (Pt ℝ)} {rel : List ℝ} {v0 v1 v2 : Nat} {ve vi : List Nat} (h : PartsOf nodes rel v0 v1 v2 ve vi) :
    polyArea (ve.map (col nodes)) + polyArea (vi.map (col nodes)) = polyArea ([v0, v1, v2].map (col nodes)) := by
  have hc : col nodes = nodeAt nodes := rfl
  rw [hc]
  obtain ⟨ce, e1, e2, e3⟩ := convex_area h.convexE (by simpa using h.sizeE)
  obtain ⟨ci, i1, i2, i3⟩ := convex_area h.convexI (by simpa using h.sizeI)
  have ha := h.area
  rw [e2, i2] at ha
  simp only [List.map_cons, List.map_nil] at ha ⊢
  rw [areaVector2_triangle] at ha
  rw [e3, i3, polyArea_triangle]
  generalize cross3 (nodeAt nodes v0) (nodeAt nodes v1) (nodeAt nodes v2) = N at ha ⊢
  have hN : norm3 N = (ce + ci) * norm3 N := by
    rw [← norm3_smul _ (by linarith)]
    congr 1
    conv_lhs => rw [← ha]
    simp only [Pt.smul, Pt.add, Pt.mk.injEq]
    refine ⟨by ring, by ring, by ring⟩
  linear_combination -(1 / 2 : ℝ) * hN

theorem unitNormal_three (a b c : Pt ℝ) (l : List (Pt ℝ)) : unitNormal (a :: b :: c :: l) =
    if norm3 (cross3 a b c) < tinyNormal then .ok ⟨0, 0, 0⟩ else
      .ok ⟨(cross3 a b c).x / norm3 (cross3 a b c), (cross3 a b c).y / norm3 (cross3 a b c), (cross3 a b c).z / norm3 (cross3 a b c)⟩ := rfl

/-- `unitNormal` is orthogonal to the triangle. -/
theorem unitNormal_dot {a b c : Pt ℝ} {l : List (Pt ℝ)} {n : Pt ℝ} (h : unitNormal (a :: b :: c :: l) = .ok n) :
    dot n b = dot n a ∧ dot n c = dot n a := by
  simp only [unitNormal] at h
  split_ifs at h with hs
  · injection h with h
    subst h; simp [dot]
  · injection h with h
    subst h
    simp only [dot, normal2]
    constructor <;> (rw [← sub_eq_zero]; ring)

theorem unitNormal_area {a b c : Pt ℝ} {n : Pt ℝ} (h : unitNormal [a, b, c] = .ok n) (hs : tinyNormal ≤ norm3 (cross3 a b c)) :
    Pt.smul (polyArea [a, b, c]) n = Pt.smul (1 / 2) (cross3 a b c) := by
  rw [polyArea_triangle]
  rw [unitNormal_three, if_neg (not_lt.mpr hs)] at h
  injection h with h
  subst h
  have hp : 0 < norm3 (cross3 a b c) := lt_of_lt_of_le (by unfold tinyNormal; norm_num) hs
  simp only [Pt.smul, Pt.mk.injEq]
  refine ⟨?_, ?_, ?_⟩ <;> field_simp

/-- **C41 (volumes).** The volumes (cones from the origin) of the two parts of a split triangle add up to the one of the triangle. -/
theorem split_volume {nodes : List (Pt ℝ)} {rel : List ℝ} {v0 v1 v2 : Nat} {ve vi : List Nat} (h : PartsOf nodes rel v0 v1 v2 ve vi) (n : Pt ℝ)
    (hn : unitNormal ([v0, v1, v2].map (col nodes)) = .ok n) :
    facetVolume nodes ⟨ve, n⟩ + facetVolume nodes ⟨vi, n⟩ = facetVolume nodes ⟨[v0, v1, v2], n⟩ := by
  have harea := split_area h
  obtain ⟨d1, d2⟩ := unitNormal_dot (l := []) hn
  have hin : ∀ v ∈ ve ++ vi, dot n (col nodes v) = dot n (col nodes v0) := by
    intro v hv
    obtain ⟨a, b, c, _, _, _, habc, hP, _⟩ := h.inside v hv
    rw [col_eq, hP, ← col_eq, ← col_eq, ← col_eq]
    have ha : a = 1 - b - c := by linarith
    subst ha
    simp only [dot, Pt.add, Pt.smul] at d1 d2 ⊢
    linear_combination b * d1 + c * d2
  have hv : ∀ w : List Nat, 3 ≤ w.length → (∀ v ∈ w, dot n (col nodes v) = dot n (col nodes v0)) →
      facetVolume nodes ⟨w, n⟩ = polyArea (w.map (col nodes)) * dot n (col nodes v0) / 3 := by
    intro w hw hd
    cases w with
    | nil => simp at hw
    | cons x w => simp only [facetVolume]; rw [hd x (by simp)]
  rw [hv ve h.sizeE (fun v hv => hin v (by simp [hv])), hv vi h.sizeI (fun v hv => hin v (by simp [hv])),
    hv [v0, v1, v2] (by simp) ?_, ← harea]
  · ring
  · intro v hv
    simp only [List.mem_cons, List.not_mem_nil, or_false] at hv
    rcases hv with rfl | rfl | rfl
    · rfl
    · exact d1
    · exact d2

theorem sum_flatMap_map {α : Type} (l : List α) (f : α → List Nat) (g : Nat → ℝ) :
    ((l.flatMap f).map g).sum = (l.map (fun a => ((f a).map g).sum)).sum := by
  induction l with
  | nil => rfl
  | cons a l ih => simp [List.flatMap_cons, List.map_append, List.sum_append, ih]

/-- Facet `i` of a mesh. -/
noncomputable def facetAt (m : Mesh ℝ) (i : Nat) : Facet ℝ := (m.facets[i]?).getD ⟨[], ⟨0, 0, 0⟩⟩

/-- **C41 (whole hull).** After an update of a hull of triangles whose normals are the computed ones, none of them lying entirely in the free surface: the areas, and
the volumes, of the listed emerged facets and of the listed immersed facets add up to those of the hull. -/
theorem update_conserves (m : Mesh ℝ) (hm : TriMesh m) (z w : List ℝ) (hz : z.length = m.nbNodes) (hw : w.length = m.nbNodes)
    (hn : ∀ f < m.nbFacets, unitNormal ((facetAt m f).vertices.map (col m.allNodes)) = .ok (facetAt m f).normal)
    (hflat : ∀ f < m.nbFacets, ∃ v ∈ (facetAt m f).vertices, immersion z v ≠ 0) :
    ∃ r, update m z w = .ok r ∧
      (r.emerged.map (fun i => polyArea ((facetAt r.mesh i).vertices.map (col r.mesh.allNodes)))).sum +
      (r.immersed.map (fun i => polyArea ((facetAt r.mesh i).vertices.map (col r.mesh.allNodes)))).sum =
        ((List.range m.nbFacets).map (fun i => polyArea ((facetAt m i).vertices.map (col m.allNodes)))).sum ∧
      (r.emerged.map (fun i => facetVolume r.mesh.allNodes (facetAt r.mesh i))).sum +
      (r.immersed.map (fun i => facetVolume r.mesh.allNodes (facetAt r.mesh i))).sum =
        ((List.range m.nbFacets).map (fun i => facetVolume m.allNodes (facetAt m i))).sum := by
  obtain ⟨r, hr, htri, ⟨_, _, hnbf, _, _⟩, hF, hE, hN, em, im, hem, him, hout⟩ := update_triangles m hm z w hz hw
  refine ⟨r, hr, ?_⟩
  have hcol : ∀ i < m.nbNodes, col r.mesh.allNodes i = col m.allNodes i := by
    intro i hi; unfold col; rw [(hN i hi).1]
  have key : ∀ (g : Mesh ℝ → Facet ℝ → ℝ),
      (∀ f < m.nbFacets, g r.mesh (facetAt r.mesh f) = g m (facetAt m f)) →
      (∀ f v0 v1 v2 n ve vi, f < m.nbFacets → facetAt r.mesh f = ⟨[v0, v1, v2], n⟩ → unitNormal ([v0, v1, v2].map (col r.mesh.allNodes)) = .ok n →
        PartsOf r.mesh.allNodes r.rel v0 v1 v2 ve vi →
        g r.mesh ⟨ve, n⟩ + g r.mesh ⟨vi, n⟩ = g r.mesh ⟨[v0, v1, v2], n⟩) →
      (r.emerged.map (fun i => g r.mesh (facetAt r.mesh i))).sum + (r.immersed.map (fun i => g r.mesh (facetAt r.mesh i))).sum =
        ((List.range m.nbFacets).map (fun i => g m (facetAt m i))).sum := by
    intro g hg1 hg2
    rw [hem, him, sum_flatMap_map, sum_flatMap_map, ← List.sum_map_add]
    congr 1
    apply List.map_congr_left
    intro f hf
    rw [List.mem_range] at hf
    obtain ⟨v0, v1, v2, n, hfv, ho⟩ := hout f hf
    have hfa : facetAt m f = ⟨[v0, v1, v2], n⟩ := by unfold facetAt; rw [hfv]; rfl
    have hfr : facetAt r.mesh f = ⟨[v0, v1, v2], n⟩ := by unfold facetAt; rw [hF f hf, hfv]; rfl
    have hun := hn f hf
    rw [hfa] at hun
    have hlt : ∀ v ∈ [v0, v1, v2], v < m.nbNodes := by
      obtain ⟨w0, w1, w2, o0, o1, o2, T⟩ := hm.triangle f hf
      obtain ⟨n', hn'⟩ := T.vertices
      rw [hfv] at hn'
      injection hn' with hn'
      injection hn' with h1 h2
      injection h1 with h1 h3
      injection h3 with h3 h4
      injection h4 with h4 _
      subst h1 h3 h4
      have l0 := runs_lt hm T.runs0 T.static.1
      have l1 := runs_lt hm T.runs1 T.static.2.1
      intro v hv
      simp only [List.mem_cons, List.not_mem_nil, or_false] at hv
      rcases hv with rfl | rfl | rfl
      · exact l0.1
      · exact l0.2
      · exact l1.2
    have hun' : unitNormal ([v0, v1, v2].map (col r.mesh.allNodes)) = .ok n := by
      rw [← hun]
      congr 1
      apply List.map_congr_left
      intro v hv; exact hcol v (hlt v hv)
    rcases ho with ⟨_, h1, h2⟩ | ⟨_, h1, h2⟩ | ⟨_, e, ve, vi, _, h1, h2, h3, h4, h5, _⟩ | ⟨h0, _⟩
    · rw [h1, h2]; simp [hg1 f hf]
    · rw [h1, h2]; simp [hg1 f hf]
    · rw [h1, h2]
      have e1 : facetAt r.mesh e = ⟨ve, n⟩ := by unfold facetAt; rw [h3]; rfl
      have e2 : facetAt r.mesh (e + 1) = ⟨vi, n⟩ := by unfold facetAt; rw [h4]; rfl
      simp only [List.map_cons, List.map_nil, List.sum_cons, List.sum_nil, add_zero, e1, e2]
      rw [hg2 f v0 v1 v2 n ve vi hf hfr hun' h5, ← hfr, hg1 f hf]
    · exfalso
      obtain ⟨v, hv, hne⟩ := hflat f hf
      rw [hfa] at hv
      simp only [List.mem_cons, List.not_mem_nil, or_false] at hv
      rcases hv with rfl | rfl | rfl
      · exact hne h0.1
      · exact hne h0.2.1
      · exact hne h0.2.2
  have hvert : ∀ f < m.nbFacets, facetAt r.mesh f = facetAt m f ∧ (facetAt m f).vertices.map (col r.mesh.allNodes) = (facetAt m f).vertices.map (col m.allNodes) := by
    intro f hf
    refine ⟨by unfold facetAt; rw [hF f hf], ?_⟩
    obtain ⟨v0, v1, v2, o0, o1, o2, T⟩ := hm.triangle f hf
    obtain ⟨n, hfv⟩ := T.vertices
    have hfa : facetAt m f = ⟨[v0, v1, v2], n⟩ := by unfold facetAt; rw [hfv]; rfl
    have l0 := runs_lt hm T.runs0 T.static.1
    have l1 := runs_lt hm T.runs1 T.static.2.1
    rw [hfa]
    simp only [List.map_cons, List.map_nil, hcol _ l0.1, hcol _ l0.2, hcol _ l1.2]
  constructor
  · apply key (fun M F => polyArea (F.vertices.map (col M.allNodes)))
    · intro f hf; rw [(hvert f hf).1, (hvert f hf).2]
    · intro f v0 v1 v2 n ve vi _ _ _ hp; exact split_area hp
  · apply key (fun M F => facetVolume M.allNodes F)
    · intro f hf
      rw [(hvert f hf).1]
      have := (hvert f hf).2
      unfold facetVolume
      cases hv : (facetAt m f).vertices with
      | nil => rfl
      | cons v l =>
        rw [hv] at this
        dsimp only
        rw [this]
        simp only [List.map_cons, List.cons.injEq] at this
        rw [this.1]
    · intro f v0 v1 v2 n ve vi _ _ hu hp; exact split_volume hp n hu

/-- **C41, from the list of triangles given by the user.** Build a hull from triangles with three different vertices and cut it with the free surface: unless one of them lies
entirely in the free surface, the emerged and immersed areas add up to the sum of the areas of the triangles. -/
theorem build_update_area (v : List (List (Pt ℝ))) (hv : ∀ l ∈ v, ∃ a b c : Pt ℝ, l = [a, b, c] ∧ a ≠ b ∧ b ≠ c ∧ c ≠ a) :
    ∃ m, build unitNormal v = .ok m ∧ TriMesh m ∧ ∀ z w : List ℝ, z.length = m.nbNodes → w.length = m.nbNodes →
      (∀ f < m.nbFacets, ∃ u ∈ (facetAt m f).vertices, immersion z u ≠ 0) →
      ∃ r, update m z w = .ok r ∧
        (r.emerged.map (fun i => polyArea ((facetAt r.mesh i).vertices.map (col r.mesh.allNodes)))).sum +
        (r.immersed.map (fun i => polyArea ((facetAt r.mesh i).vertices.map (col r.mesh.allNodes)))).sum = (v.map polyArea).sum := by
  have hn : ∀ l ∈ v, ∃ n, unitNormal l = .ok n := by
    intro l hl
    obtain ⟨a, b, c, rfl, _⟩ := hv l hl
    rw [unitNormal_three]
    split_ifs <;> exact ⟨_, rfl⟩
  obtain ⟨m, hm, htri, hnb⟩ := build_triangles unitNormal v (fun l hl => by
    obtain ⟨a, b, c, h1, h2, h3, h4⟩ := hv l hl
    exact ⟨a, b, c, h1, h2, h3, h4, hn l hl⟩)
  refine ⟨m, hm, htri, fun z w hz hw hflat => ?_⟩
  obtain ⟨_, _, _, _, hnf, _, _, hpoly, _⟩ := mesh_building unitNormal v m hm
  have hfil : v.filter (fun l => l ≠ []) = v := by
    rw [List.filter_eq_self]
    intro l hl
    obtain ⟨a, b, c, rfl, _⟩ := hv l hl
    simp
  rw [hfil] at hpoly
  have hget : ∀ f (hf : f < v.length), unitNormal v[f] = .ok (facetAt m f).normal ∧ (facetAt m f).vertices.map (col m.allNodes) = v[f] := by
    intro f hf
    obtain ⟨n, hn1, vs, os, h1, h2, h3, h4, h5, h6⟩ := hpoly f v[f] (List.getElem?_eq_getElem hf)
    have hfa : facetAt m f = ⟨vs, n⟩ := by unfold facetAt; rw [h1]; rfl
    rw [hfa]
    refine ⟨hn1, ?_⟩
    apply List.ext_getElem?
    intro j
    by_cases hj : j < v[f].length
    · obtain ⟨i, g1, g2, g3⟩ := h5 j v[f][j] (List.getElem?_eq_getElem hj)
      rw [List.getElem?_map, g1, Option.map_some, List.getElem?_eq_getElem hj]
      unfold col; rw [g3]; rfl
    · rw [List.getElem?_eq_none (by rw [List.length_map, h3]; omega), List.getElem?_eq_none (by omega)]
  obtain ⟨r, hr, hA, _⟩ := update_conserves m htri z w hz hw (fun f hf => by
    rw [hnb] at hf
    rw [(hget f hf).2]; exact (hget f hf).1) hflat
  refine ⟨r, hr, ?_⟩
  rw [hA, hnb]
  congr 1
  apply List.ext_getElem
  · simp
  · intro i h1 h2
    simp only [List.getElem_map, List.getElem_range]
    rw [(hget i (by simpa using h2)).2]

/-! ### C44, C77: closed surfaces -/

/-- A triangle. -/
abbrev Tri := Pt ℝ × Pt ℝ × Pt ℝ

/-- The sides of a triangle, run in its direction. -/
def sidesOf (t : Tri) : List (Pt ℝ × Pt ℝ) := [(t.1, t.2.1), (t.2.1, t.2.2), (t.2.2, t.1)]

/-- A list of triangles is a closed (oriented) surface if each side is run as many times in one direction as in the other one. -/
def Closed (ts : List Tri) : Prop := (ts.flatMap sidesOf).Perm ((ts.flatMap sidesOf).map Prod.swap)

theorem closed_sum {ts : List Tri} (h : Closed ts) (g : Pt ℝ → Pt ℝ → ℝ) (hg : ∀ p q, g q p = - g p q) :
    (ts.map (fun t => g t.1 t.2.1 + g t.2.1 t.2.2 + g t.2.2 t.1)).sum = 0 := by
  have h1 : (ts.map (fun t => g t.1 t.2.1 + g t.2.1 t.2.2 + g t.2.2 t.1)).sum = ((ts.flatMap sidesOf).map (fun s => g s.1 s.2)).sum := by
    clear h
    induction ts with
    | nil => rfl
    | cons t ts ih => simp [List.flatMap_cons, sidesOf, ih]; ring
  have h2 : ((ts.flatMap sidesOf).map (fun s => g s.1 s.2)).sum = (((ts.flatMap sidesOf).map Prod.swap).map (fun s => g s.1 s.2)).sum :=
    (h.map _).sum_eq
  have h3 : ∀ L : List (Pt ℝ × Pt ℝ), ((L.map Prod.swap).map (fun s => g s.1 s.2)).sum = - (L.map (fun s => g s.1 s.2)).sum := by
    intro L
    induction L with
    | nil => simp
    | cons s L ih =>
      simp only [List.map_cons, List.sum_cons, ih, Prod.fst_swap, Prod.snd_swap, hg s.1 s.2]; ring
  rw [h3] at h2
  rw [h1]; linarith

/-- Triangle `t` translated by `T`. -/
def trans (T : Pt ℝ) (p : Pt ℝ) : Pt ℝ := p.add T

/-- The facet of the mesh with nodes `nodes` is the triangle `t`, with its computed normal, and it is not so small that its normal is set to zero. -/
structure IsFacetOf (nodes : List (Pt ℝ)) (f : Facet ℝ) (t : Tri) : Prop where
  points : f.vertices.map (fun i => nodes[i]?) = [some t.1, some t.2.1, some t.2.2]
  normal : unitNormal [t.1, t.2.1, t.2.2] = .ok f.normal
  big : tinyNormal ≤ norm3 (cross3 t.1 t.2.1 t.2.2)

theorem IsFacetOf.vertices {nodes : List (Pt ℝ)} {f : Facet ℝ} {t : Tri} (h : IsFacetOf nodes f t) :
    ∃ a b c, f.vertices = [a, b, c] ∧ nodes[a]? = some t.1 ∧ nodes[b]? = some t.2.1 ∧ nodes[c]? = some t.2.2 := by
  have hp := h.points
  match hv : f.vertices with
  | [] => rw [hv] at hp; simp at hp
  | [a] => rw [hv] at hp; simp at hp
  | [a, b] => rw [hv] at hp; simp at hp
  | [a, b, c] =>
    rw [hv] at hp
    simp only [List.map_cons, List.map_nil, List.cons.injEq, and_true] at hp
    exact ⟨a, b, c, rfl, hp.1, hp.2.1, hp.2.2⟩
  | a :: b :: c :: d :: l => rw [hv] at hp; simp at hp

/-- The computed volume of a facet is the volume of the tetrahedron made with the origin. -/
theorem facetVolume_eq {nodes : List (Pt ℝ)} {f : Facet ℝ} {t : Tri} (h : IsFacetOf nodes f t) :
    facetVolume nodes f = tetraVolume t.1 t.2.1 t.2.2 := by
  obtain ⟨a, b, c, hv, ha, hb, hc⟩ := h.vertices
  unfold facetVolume
  rw [hv]
  simp only [List.map_cons, List.map_nil]
  have e1 : col nodes a = t.1 := by unfold col; rw [ha]; rfl
  have e2 : col nodes b = t.2.1 := by unfold col; rw [hb]; rfl
  have e3 : col nodes c = t.2.2 := by unfold col; rw [hc]; rfl
  rw [e1, e2, e3]
  have hA := unitNormal_area h.normal h.big
  simp only [Pt.smul, Pt.mk.injEq, cross3] at hA
  obtain ⟨hx, hy, hz⟩ := hA
  simp only [dot, tetraVolume]
  linear_combination (1 / 3 * t.1.x) * hx + (1 / 3 * t.1.y) * hy + (1 / 3 * t.1.z) * hz

theorem IsFacetOf.trans {nodes : List (Pt ℝ)} {f : Facet ℝ} {t : Tri} (h : IsFacetOf nodes f t) (T : Pt ℝ) :
    IsFacetOf (nodes.map (trans T)) f (trans T t.1, trans T t.2.1, trans T t.2.2) := by
  have hc : cross3 (Hull.trans T t.1) (Hull.trans T t.2.1) (Hull.trans T t.2.2) = cross3 t.1 t.2.1 t.2.2 := by
    simp only [cross3, Hull.trans, Pt.add, Pt.mk.injEq]
    refine ⟨by ring, by ring, by ring⟩
  obtain ⟨a, b, c, hv, ha, hb, hcc⟩ := h.vertices
  constructor
  · rw [hv]; simp [ha, hb, hcc]
  · rw [← h.normal]
    rw [unitNormal_three, unitNormal_three, hc]
  · rw [hc]; exact h.big

theorem tetraVolume_trans (T P1 P2 P3 : Pt ℝ) : tetraVolume (trans T P1) (trans T P2) (trans T P3) =
    tetraVolume P1 P2 P3 + (T.x * (cross3 P1 P2 P3).x + T.y * (cross3 P1 P2 P3).y + T.z * (cross3 P1 P2 P3).z) / 6 := by
  simp only [tetraVolume, trans, Pt.add, cross3]; ring

theorem closed_area_vector {ts : List Tri} (h : Closed ts) (T : Pt ℝ) :
    (ts.map (fun t => T.x * (cross3 t.1 t.2.1 t.2.2).x + T.y * (cross3 t.1 t.2.1 t.2.2).y + T.z * (cross3 t.1 t.2.1 t.2.2).z)).sum = 0 := by
  rw [← closed_sum h (fun p q => T.x * (p.cross q).x + T.y * (p.cross q).y + T.z * (p.cross q).z)
    (by intro p q; simp only [Pt.cross]; ring)]
  congr 1
  apply List.map_congr_left
  intro t _
  simp only [cross3, Pt.cross]; ring

theorem sum_map_div {α : Type} (l : List α) (g : α → ℝ) (c : ℝ) : (l.map (fun t => g t / c)).sum = (l.map g).sum / c := by
  induction l with
  | nil => simp
  | cons a l ih => simp only [List.map_cons, List.sum_cons, ih]; ring

theorem sum_map_forall2 {fs : List (Facet ℝ)} {ts : List Tri} {R : Facet ℝ → Tri → Prop} (h : List.Forall₂ R fs ts) (g : Facet ℝ → ℝ) (g' : Tri → ℝ)
    (hg : ∀ f t, R f t → g f = g' t) : (fs.map g).sum = (ts.map g').sum := by
  induction h with
  | nil => rfl
  | cons h1 _ ih => simp [hg _ _ h1, ih]

/-- **C44.** The volume of a hull made of at least three triangles is the sum of the signed volumes of the tetrahedra that the triangles make with the origin; if the triangles
make a closed surface it is the same when the hull is translated. -/
theorem volume_translation (nodes : List (Pt ℝ)) (fs : List (Facet ℝ)) (ts : List Tri) (h : List.Forall₂ (IsFacetOf nodes) fs ts) (hl : 3 ≤ ts.length) :
    volume nodes fs = (ts.map (fun t => tetraVolume t.1 t.2.1 t.2.2)).sum ∧
    (Closed ts → ∀ T, volume (nodes.map (trans T)) fs = volume nodes fs) := by
  have hlen := h.length_eq
  have h1 : volume nodes fs = (ts.map (fun t => tetraVolume t.1 t.2.1 t.2.2)).sum := by
    unfold volume
    rw [if_neg (by omega)]
    exact sum_map_forall2 h _ _ (fun f t hft => facetVolume_eq hft)
  refine ⟨h1, fun hc T => ?_⟩
  rw [h1]
  unfold volume
  rw [if_neg (by omega)]
  rw [sum_map_forall2 h _ (fun t => tetraVolume t.1 t.2.1 t.2.2 +
    (T.x * (cross3 t.1 t.2.1 t.2.2).x + T.y * (cross3 t.1 t.2.1 t.2.2).y + T.z * (cross3 t.1 t.2.1 t.2.2).z) / 6)]
  · rw [List.sum_map_add, sum_map_div, closed_area_vector hc T]
    simp
  · intro f t hft
    rw [facetVolume_eq (hft.trans T), tetraVolume_trans]

/-- The facet has the points of the triangle `t`. -/
def HasPoints (nodes : List (Pt ℝ)) (f : Facet ℝ) (t : Tri) : Prop :=
  f.vertices.map (fun i => nodes[i]?) = [some t.1, some t.2.1, some t.2.2]

theorem HasPoints.map_col {nodes : List (Pt ℝ)} {f : Facet ℝ} {t : Tri} (h : HasPoints nodes f t) :
    f.vertices.map (col nodes) = [t.1, t.2.1, t.2.2] := by
  have h2 := congrArg (List.map (fun o : Option (Pt ℝ) => o.getD ⟨0, 0, 0⟩)) h
  rw [List.map_map] at h2
  exact h2

theorem HasPoints.trans {nodes : List (Pt ℝ)} {f : Facet ℝ} {t : Tri} (h : HasPoints nodes f t) (T : Pt ℝ) :
    HasPoints (nodes.map (trans T)) f (trans T t.1, trans T t.2.1, trans T t.2.2) := by
  have h2 := congrArg (List.map (fun o : Option (Pt ℝ) => o.map (Hull.trans T))) h
  rw [List.map_map] at h2
  unfold HasPoints
  rw [← show List.map (fun o : Option (Pt ℝ) => o.map (Hull.trans T)) [some t.1, some t.2.1, some t.2.2] =
    [some (Hull.trans T t.1), some (Hull.trans T t.2.1), some (Hull.trans T t.2.2)] from rfl, ← h2]
  apply List.map_congr_left
  intro i _
  simp

/-- Signed volume of the tetrahedron made by a triangle and the origin, and its moment with respect to the coordinate `f`. -/
noncomputable def vol (t : Tri) : ℝ := tetraVolume t.1 t.2.1 t.2.2
noncomputable def moment (f : Pt ℝ → ℝ) (t : Tri) : ℝ := (f t.1 + f t.2.1 + f t.2.2) / 4 * vol t

theorem comSum_eq {nodes : List (Pt ℝ)} : ∀ {fs : List (Facet ℝ)} {ts : List Tri}, List.Forall₂ (HasPoints nodes) fs ts → ∀ s : CoM,
    comSum nodes s fs = .ok ⟨⟨s.G.x + (ts.map (moment Pt.x)).sum, s.G.y + (ts.map (moment Pt.y)).sum, s.G.z + (ts.map (moment Pt.z)).sum⟩,
      s.volume + (ts.map vol).sum⟩ := by
  intro fs ts h
  induction h with
  | nil => intro s; simp [comSum]
  | @cons f t fs ts h1 _ ih =>
    intro s
    simp only [comSum, bind, Except.bind, h1.map_col, facetCoM, comLoop]
    have hv : tetraVolume t.1 t.2.1 t.2.2 = vol t := rfl
    simp only [hv, zero_add]
    rw [ih]
    by_cases h0 : vol t = 0
    · simp only [h0, ne_eq, not_true_eq_false, if_false, CoM.add, List.map_cons, List.sum_cons, moment, mul_zero, zero_add, add_zero]
    · simp only [ne_eq, h0, not_false_eq_true, if_true, CoM.add, List.map_cons, List.sum_cons, moment]
      rw [div_mul_cancel₀ _ h0, div_mul_cancel₀ _ h0, div_mul_cancel₀ _ h0]
      simp only [add_assoc]

theorem moment_trans (f : Pt ℝ → ℝ) (hf : ∀ p q, f (p.add q) = f p + f q) (ts : List Tri) (hc : Closed ts) (T : Pt ℝ)
    (hcof : ∀ P1 P2 P3 : Pt ℝ, dot T (P1.cross P2) * f P3 + dot T (P2.cross P3) * f P1 + dot T (P3.cross P1) * f P2 = 6 * tetraVolume P1 P2 P3 * f T) :
    (ts.map (fun t => moment f (trans T t.1, trans T t.2.1, trans T t.2.2))).sum = (ts.map (moment f)).sum + f T * (ts.map vol).sum := by
  have hA := closed_area_vector hc T
  have hB := closed_sum hc (fun p q => dot T (p.cross q) * (f p + f q)) (by intro p q; simp only [dot, Pt.cross]; ring)
  have key : ∀ t : Tri, moment f (trans T t.1, trans T t.2.1, trans T t.2.2) = moment f t + f T * vol t +
      ((dot T (t.1.cross t.2.1) * (f t.1 + f t.2.1) + dot T (t.2.1.cross t.2.2) * (f t.2.1 + f t.2.2) + dot T (t.2.2.cross t.1) * (f t.2.2 + f t.1)) / 24 +
       (T.x * (cross3 t.1 t.2.1 t.2.2).x + T.y * (cross3 t.1 t.2.1 t.2.2).y + T.z * (cross3 t.1 t.2.1 t.2.2).z) * (f T / 8)) := by
    intro t
    simp only [moment, vol, trans, hf]
    have h1 := tetraVolume_trans T t.1 t.2.1 t.2.2
    simp only [trans] at h1
    rw [h1]
    have h2 := hcof t.1 t.2.1 t.2.2
    have h3 : T.x * (cross3 t.1 t.2.1 t.2.2).x + T.y * (cross3 t.1 t.2.1 t.2.2).y + T.z * (cross3 t.1 t.2.1 t.2.2).z =
      dot T (t.1.cross t.2.1) + dot T (t.2.1.cross t.2.2) + dot T (t.2.2.cross t.1) := by
      simp only [cross3, dot, Pt.cross]; ring
    rw [h3]
    linear_combination (1 / 24 : ℝ) * h2
  have hsum : ∀ (l : List Tri) (c : ℝ) (g : Tri → ℝ), (l.map (fun t => g t * c)).sum = (l.map g).sum * c := by
    intro l c g
    induction l with
    | nil => simp
    | cons a l ih => simp only [List.map_cons, List.sum_cons, ih]; ring
  have hsum' : ∀ (l : List Tri) (c : ℝ) (g : Tri → ℝ), (l.map (fun t => c * g t)).sum = c * (l.map g).sum := by
    intro l c g
    induction l with
    | nil => simp
    | cons a l ih => simp only [List.map_cons, List.sum_cons, ih]; ring
  rw [List.map_congr_left (g := fun t => moment f t + f T * vol t +
      ((dot T (t.1.cross t.2.1) * (f t.1 + f t.2.1) + dot T (t.2.1.cross t.2.2) * (f t.2.1 + f t.2.2) + dot T (t.2.2.cross t.1) * (f t.2.2 + f t.1)) / 24 +
       (T.x * (cross3 t.1 t.2.1 t.2.2).x + T.y * (cross3 t.1 t.2.1 t.2.2).y + T.z * (cross3 t.1 t.2.1 t.2.2).z) * (f T / 8))) (fun t _ => key t)]
  rw [List.sum_map_add, List.sum_map_add, List.sum_map_add, sum_map_div, hB, hsum, hA, hsum']
  ring

/-- **C77.** The centre of mass of a closed hull of triangles of non-zero volume moves with the hull when it is translated, its volume does not change. -/
theorem center_of_mass_translation (nodes : List (Pt ℝ)) (fs : List (Facet ℝ)) (ts : List Tri) (h : List.Forall₂ (HasPoints nodes) fs ts)
    (hc : Closed ts) (hv : (ts.map vol).sum ≠ 0) :
    ∃ c : CoM, centerOfMass nodes fs = .ok c ∧ c.volume = |(ts.map vol).sum| ∧
      ∀ T, centerOfMass (nodes.map (trans T)) fs = .ok ⟨trans T c.G, c.volume⟩ := by
  refine ⟨⟨⟨(ts.map (moment Pt.x)).sum / (ts.map vol).sum, (ts.map (moment Pt.y)).sum / (ts.map vol).sum, (ts.map (moment Pt.z)).sum / (ts.map vol).sum⟩, |(ts.map vol).sum|⟩, ?_, ?_, ?_⟩
  · unfold centerOfMass
    rw [comSum_eq h]
    simp only [bind, Except.bind, pure, Except.pure, zero_add]
    rw [if_pos hv]
  · rfl
  · intro T
    have h' : List.Forall₂ (HasPoints (nodes.map (trans T))) fs (ts.map (fun t => (trans T t.1, trans T t.2.1, trans T t.2.2))) := by
      rw [List.forall₂_map_right_iff]
      exact h.imp (fun f t hft => hft.trans T)
    unfold centerOfMass
    rw [comSum_eq h']
    have hvol : ((ts.map (fun t => (trans T t.1, trans T t.2.1, trans T t.2.2))).map vol).sum = (ts.map vol).sum := by
      rw [List.map_map]
      have e := List.map_congr_left (l := ts) (f := vol ∘ fun t : Tri => (trans T t.1, trans T t.2.1, trans T t.2.2)) (g := fun t => vol t + (T.x * (cross3 t.1 t.2.1 t.2.2).x + T.y * (cross3 t.1 t.2.1 t.2.2).y + T.z * (cross3 t.1 t.2.1 t.2.2).z) / 6)
        (fun t _ => tetraVolume_trans T t.1 t.2.1 t.2.2)
      rw [e, List.sum_map_add, sum_map_div, closed_area_vector hc T]
      simp
    have hmx := moment_trans Pt.x (by intro p q; rfl) ts hc T (by intro P1 P2 P3; simp only [dot, Pt.cross, tetraVolume]; ring)
    have hmy := moment_trans Pt.y (by intro p q; rfl) ts hc T (by intro P1 P2 P3; simp only [dot, Pt.cross, tetraVolume]; ring)
    have hmz := moment_trans Pt.z (by intro p q; rfl) ts hc T (by intro P1 P2 P3; simp only [dot, Pt.cross, tetraVolume]; ring)
    simp only [bind, Except.bind, pure, Except.pure, zero_add, hvol]
    rw [if_pos hv]
    simp only [List.map_map, Function.comp_def, hmx, hmy, hmz, Except.ok.injEq, CoM.mk.injEq, and_true]
    simp only [trans, Pt.add, Pt.mk.injEq]
    refine ⟨?_, ?_, ?_⟩ <;> field_simp

/-- The four faces of a tetrahedron. -/
def faces (A B C D : Pt ℝ) : List Tri := [(A, C, B), (A, B, D), (B, C, D), (C, A, D)]

theorem faces_closed (A B C D : Pt ℝ) : Closed (faces A B C D) := by
  unfold Closed
  rw [List.perm_iff_count]
  intro p
  simp only [faces, sidesOf, List.flatMap_cons, List.flatMap_nil, List.cons_append, List.nil_append, List.map_cons, List.map_nil, Prod.swap,
    List.count_cons, List.count_nil]
  ring

/-- **C44, C77 (a case that can be checked by hand).** For every non-flat tetrahedron, the volume is the one of the tetrahedron and the centre of mass is the mean of its vertices. -/
theorem tetrahedron (nodes : List (Pt ℝ)) (fs : List (Facet ℝ)) (A B C D : Pt ℝ) (h : List.Forall₂ (HasPoints nodes) fs (faces A B C D))
    (hv : dot (cross3 A B C) ⟨D.x - A.x, D.y - A.y, D.z - A.z⟩ ≠ 0) :
    centerOfMass nodes fs = .ok ⟨⟨(A.x + B.x + C.x + D.x) / 4, (A.y + B.y + C.y + D.y) / 4, (A.z + B.z + C.z + D.z) / 4⟩,
      |dot (cross3 A B C) ⟨D.x - A.x, D.y - A.y, D.z - A.z⟩| / 6⟩ := by
  have hvol : ((faces A B C D).map vol).sum = dot (cross3 A B C) ⟨D.x - A.x, D.y - A.y, D.z - A.z⟩ / 6 := by
    simp only [faces, List.map_cons, List.map_nil, List.sum_cons, List.sum_nil, vol, tetraVolume, dot, cross3]; ring
  unfold centerOfMass
  rw [comSum_eq h]
  simp only [bind, Except.bind, pure, Except.pure, zero_add, hvol]
  rw [if_pos (by simpa using hv)]
  have hx : ((faces A B C D).map (moment Pt.x)).sum = (A.x + B.x + C.x + D.x) / 4 * (dot (cross3 A B C) ⟨D.x - A.x, D.y - A.y, D.z - A.z⟩ / 6) := by
    simp only [faces, List.map_cons, List.map_nil, List.sum_cons, List.sum_nil, moment, vol, tetraVolume, dot, cross3]; ring
  have hy : ((faces A B C D).map (moment Pt.y)).sum = (A.y + B.y + C.y + D.y) / 4 * (dot (cross3 A B C) ⟨D.x - A.x, D.y - A.y, D.z - A.z⟩ / 6) := by
    simp only [faces, List.map_cons, List.map_nil, List.sum_cons, List.sum_nil, moment, vol, tetraVolume, dot, cross3]; ring
  have hz : ((faces A B C D).map (moment Pt.z)).sum = (A.z + B.z + C.z + D.z) / 4 * (dot (cross3 A B C) ⟨D.x - A.x, D.y - A.y, D.z - A.z⟩ / 6) := by
    simp only [faces, List.map_cons, List.map_nil, List.sum_cons, List.sum_nil, moment, vol, tetraVolume, dot, cross3]; ring
  rw [hx, hy, hz]
  have hne : dot (cross3 A B C) ⟨D.x - A.x, D.y - A.y, D.z - A.z⟩ / 6 ≠ 0 := by simpa using hv
  rw [mul_div_assoc, div_self hne, mul_one, mul_div_assoc, div_self hne, mul_one, mul_div_assoc, div_self hne, mul_one, abs_div]
  simp

/-- The hypotheses of `volume_translation` and `center_of_mass_translation` are met by the faces of a tetrahedron. -/
example : Closed (faces ⟨0, 0, 0⟩ ⟨6, 0, 0⟩ ⟨0, 6, 0⟩ ⟨0, 0, 6⟩) ∧ ((faces ⟨0, 0, 0⟩ ⟨6, 0, 0⟩ ⟨0, 6, 0⟩ ⟨0, 0, 6⟩).map vol).sum = 36 ∧
    List.Forall₂ (HasPoints [⟨0, 0, 0⟩, ⟨6, 0, 0⟩, ⟨0, 6, 0⟩, ⟨0, 0, 6⟩])
      [⟨[0, 2, 1], ⟨0, 0, -1⟩⟩, ⟨[0, 1, 3], ⟨0, -1, 0⟩⟩, ⟨[1, 2, 3], ⟨1, 1, 1⟩⟩, ⟨[2, 0, 3], ⟨-1, 0, 0⟩⟩]
      (faces ⟨0, 0, 0⟩ ⟨6, 0, 0⟩ ⟨0, 6, 0⟩ ⟨0, 0, 6⟩) := by
  refine ⟨faces_closed _ _ _ _, ?_, ?_⟩
  · simp only [faces, List.map_cons, List.map_nil, List.sum_cons, List.sum_nil, vol, tetraVolume]; norm_num
  · unfold faces HasPoints
    simp

example : IsFacetOf [⟨0, 0, 0⟩, ⟨6, 0, 0⟩, ⟨0, 6, 0⟩, ⟨0, 0, 6⟩] ⟨[0, 2, 1], ⟨0, 0, -1⟩⟩ (⟨0, 0, 0⟩, ⟨0, 6, 0⟩, ⟨6, 0, 0⟩) := by
  have hs : norm3 (cross3 (⟨0, 0, 0⟩ : Pt ℝ) ⟨0, 6, 0⟩ ⟨6, 0, 0⟩) = 36 := by
    unfold norm3 cross3
    norm_num
    rw [show (1296 : ℝ) = 36 * 36 by norm_num]
    exact Real.sqrt_mul_self (by norm_num)
  refine ⟨by simp, ?_, by rw [hs]; unfold tinyNormal; norm_num⟩
  rw [unitNormal_three, hs, if_neg (by unfold tinyNormal; norm_num)]
  simp only [cross3]; norm_num

end Xdyn.Hull

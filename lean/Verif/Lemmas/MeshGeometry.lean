import Verif.Lemmas.MeshSplit
import Mathlib.Tactic.FieldSimp
import Mathlib.Tactic.LinearCombination

/-
Geometry of the parts of a triangle.
-/

namespace Xdyn.Hull

variable {K : Type} [Field K] [LinearOrder K] [IsStrictOrderedRing K]

/-- Point at the fraction `k` of the segment `A B`. -/
def lerp (k : K) (A B : Pt K) : Pt K :=
  ⟨A.x + k * (B.x - A.x), A.y + k * (B.y - A.y), A.z + k * (B.z - A.z)⟩

/-- The point where the side is cut. -/
structure MidOf (nodes : List (Pt K)) (rel : List K) (v w m : Nat) (zv zw : K) : Prop where
  node : (zv < 0 ∧ 0 < zw) ∨ (0 < zv ∧ zw < 0) → nodeAt nodes m = lerp (zv / (zv - zw)) (nodeAt nodes v) (nodeAt nodes w)
  rel : (zv < 0 ∧ 0 < zw) ∨ (0 < zv ∧ zw < 0) → immersion rel m = 0

theorem frac_bounds {a b : K} (h : (a < 0 ∧ 0 < b) ∨ (0 < a ∧ b < 0)) : 0 < a / (a - b) ∧ a / (a - b) < 1 := by
  rcases h with ⟨h1, h2⟩ | ⟨h1, h2⟩
  · have h3 : a - b < 0 := by linarith
    exact ⟨div_pos_of_neg_of_neg h1 h3, by rw [div_lt_one_of_neg h3]; linarith⟩
  · have h3 : 0 < a - b := by linarith
    exact ⟨div_pos h1 h3, by rw [div_lt_one h3]; linarith⟩

theorem frac_zero {a b : K} (h : (a < 0 ∧ 0 < b) ∨ (0 < a ∧ b < 0)) :
    (1 - a / (a - b)) * a + a / (a - b) * b = 0 := by
  have h3 : a - b ≠ 0 := by
    rcases h with ⟨h1, h2⟩ | ⟨h1, h2⟩ <;> intro h4 <;> linarith
  field_simp
  ring

theorem inTriangle_rot {A B C P : Pt K} {zA zB zC z : K} (h : InTriangle B C A zB zC zA P z) :
    InTriangle A B C zA zB zC P z := by
  obtain ⟨a, b, c, h1, h2, h3, h4, h5, h6⟩ := h
  refine ⟨c, a, b, h3, h1, h2, by rw [← h4]; ring, ?_, by rw [h6]; ring⟩
  rw [h5]
  simp only [Pt.add, Pt.smul, Pt.mk.injEq]
  refine ⟨by ring, by ring, by ring⟩

theorem convexAlong_rot3 {N A B C : Pt K} (h : ConvexAlong N [B, C, A]) : ConvexAlong N [A, B, C] := by
  intro t ht
  simp only [triples, pairs, List.map_cons, List.map_nil, List.append_nil, List.mem_cons, List.not_mem_nil, or_false] at ht
  subst ht
  obtain ⟨c, h1, h2⟩ := h (B, C, A) (by simp [triples, pairs])
  refine ⟨c, h1, ?_⟩
  rw [← h2]
  simp only [cross3, Pt.mk.injEq]
  refine ⟨by ring, by ring, by ring⟩

theorem convexAlong_rot4 {N A B C D : Pt K} (h : ConvexAlong N [B, C, D, A]) : ConvexAlong N [A, B, C, D] := by
  intro t ht
  simp only [triples, pairs, List.map_cons, List.map_nil, List.append_nil, List.cons_append, List.nil_append, List.mem_cons,
    List.not_mem_nil, or_false] at ht
  rcases ht with rfl | rfl | rfl | rfl
  · obtain ⟨c, h1, h2⟩ := h (B, C, A) (by simp [triples, pairs])
    refine ⟨c, h1, ?_⟩
    rw [← h2]
    simp only [cross3, Pt.mk.injEq]
    refine ⟨by ring, by ring, by ring⟩
  · obtain ⟨c, h1, h2⟩ := h (B, D, A) (by simp [triples, pairs])
    refine ⟨c, h1, ?_⟩
    rw [← h2]
    simp only [cross3, Pt.mk.injEq]
    refine ⟨by ring, by ring, by ring⟩
  · obtain ⟨c, h1, h2⟩ := h (C, D, A) (by simp [triples, pairs])
    refine ⟨c, h1, ?_⟩
    rw [← h2]
    simp only [cross3, Pt.mk.injEq]
    refine ⟨by ring, by ring, by ring⟩
  · exact h (B, C, D) (by simp [triples, pairs])

theorem cross3_rot (A B C : Pt K) : cross3 B C A = cross3 A B C := by
  simp only [cross3, Pt.mk.injEq]
  refine ⟨by ring, by ring, by ring⟩

theorem areaVector2_rot3 (A B C : Pt K) : areaVector2 [B, C, A] = areaVector2 [A, B, C] := by
  simp only [areaVector2, List.cons_append, List.nil_append, pathCross, Pt.add, Pt.cross, Pt.mk.injEq]
  refine ⟨by ring, by ring, by ring⟩

theorem areaVector2_rot4 (A B C D : Pt K) : areaVector2 [B, C, D, A] = areaVector2 [A, B, C, D] := by
  simp only [areaVector2, List.cons_append, List.nil_append, pathCross, Pt.add, Pt.cross, Pt.mk.injEq]
  refine ⟨by ring, by ring, by ring⟩

/-- The corner case: triangle `M1 C M2` and quadrilateral `A B M1 M2`. -/
theorem corner_geometry (A B C : Pt K) {k1 k2 : K} (h1 : 0 < k1 ∧ k1 < 1) (h2 : 0 < k2 ∧ k2 < 1) :
    (areaVector2 [lerp k1 B C, C, lerp k2 C A]).add (areaVector2 [A, B, lerp k1 B C, lerp k2 C A]) = areaVector2 [A, B, C] ∧
    ConvexAlong (cross3 A B C) [lerp k1 B C, C, lerp k2 C A] ∧
    ConvexAlong (cross3 A B C) [A, B, lerp k1 B C, lerp k2 C A] := by
  obtain ⟨a1, b1⟩ := h1
  obtain ⟨a2, b2⟩ := h2
  have c1 : 0 ≤ 1 - k1 := by linarith
  have c2 : 0 ≤ 1 - k2 := by linarith
  refine ⟨?_, ?_, ?_⟩
  · simp only [areaVector2, List.cons_append, List.nil_append, pathCross, Pt.add, Pt.cross, lerp, Pt.mk.injEq]
    refine ⟨by ring, by ring, by ring⟩
  · intro t ht
    simp only [triples, pairs, List.map_cons, List.map_nil, List.append_nil, List.mem_cons, List.not_mem_nil, or_false] at ht
    subst ht
    refine ⟨(1 - k1) * k2, mul_nonneg c1 a2.le, ?_⟩
    simp only [cross3, lerp, Pt.smul, Pt.mk.injEq]
    refine ⟨by ring, by ring, by ring⟩
  · intro t ht
    simp only [triples, pairs, List.map_cons, List.map_nil, List.append_nil, List.cons_append, List.nil_append, List.mem_cons,
      List.not_mem_nil, or_false] at ht
    rcases ht with rfl | rfl | rfl | rfl
    · refine ⟨k1, a1.le, ?_⟩
      simp only [cross3, lerp, Pt.smul, Pt.mk.injEq]
      refine ⟨by ring, by ring, by ring⟩
    · refine ⟨1 - k2, c2, ?_⟩
      simp only [cross3, lerp, Pt.smul, Pt.mk.injEq]
      refine ⟨by ring, by ring, by ring⟩
    · refine ⟨(1 - k1) * (1 - k2), mul_nonneg c1 c2, ?_⟩
      simp only [cross3, lerp, Pt.smul, Pt.mk.injEq]
      refine ⟨by ring, by ring, by ring⟩
    · refine ⟨k1 * k2, mul_nonneg a1.le a2.le, ?_⟩
      simp only [cross3, lerp, Pt.smul, Pt.mk.injEq]
      refine ⟨by ring, by ring, by ring⟩

/-- The case of a vertex on the free surface: triangles `M1 C A` and `A B M1`. -/
theorem vertex_geometry (A B C : Pt K) {k1 : K} (h1 : 0 < k1 ∧ k1 < 1) :
    (areaVector2 [lerp k1 B C, C, A]).add (areaVector2 [A, B, lerp k1 B C]) = areaVector2 [A, B, C] ∧
    ConvexAlong (cross3 A B C) [lerp k1 B C, C, A] ∧
    ConvexAlong (cross3 A B C) [A, B, lerp k1 B C] := by
  obtain ⟨a1, b1⟩ := h1
  have c1 : 0 ≤ 1 - k1 := by linarith
  refine ⟨?_, ?_, ?_⟩
  · simp only [areaVector2, List.cons_append, List.nil_append, pathCross, Pt.add, Pt.cross, lerp, Pt.mk.injEq]
    refine ⟨by ring, by ring, by ring⟩
  · intro t ht
    simp only [triples, pairs, List.map_cons, List.map_nil, List.append_nil, List.mem_cons, List.not_mem_nil, or_false] at ht
    subst ht
    refine ⟨1 - k1, c1, ?_⟩
    simp only [cross3, lerp, Pt.smul, Pt.mk.injEq]
    refine ⟨by ring, by ring, by ring⟩
  · intro t ht
    simp only [triples, pairs, List.map_cons, List.map_nil, List.append_nil, List.mem_cons, List.not_mem_nil, or_false] at ht
    subst ht
    refine ⟨k1, a1.le, ?_⟩
    simp only [cross3, lerp, Pt.smul, Pt.mk.injEq]
    refine ⟨by ring, by ring, by ring⟩

theorem pt_add_comm (A B : Pt K) : A.add B = B.add A := by
  simp only [Pt.add, Pt.mk.injEq]
  exact ⟨add_comm _ _, add_comm _ _, add_comm _ _⟩

theorem inTriangle_fst (A B C : Pt K) (zA zB zC : K) : InTriangle A B C zA zB zC A zA := by
  refine ⟨1, 0, 0, zero_le_one, le_refl _, le_refl _, by ring, ?_, by ring⟩
  simp [Pt.add, Pt.smul]

theorem inTriangle_snd (A B C : Pt K) (zA zB zC : K) : InTriangle A B C zA zB zC B zB :=
  inTriangle_rot (inTriangle_fst B C A zB zC zA)

theorem inTriangle_thd (A B C : Pt K) (zA zB zC : K) : InTriangle A B C zA zB zC C zC :=
  inTriangle_rot (inTriangle_snd B C A zB zC zA)

theorem inTriangle_side (A B C : Pt K) {zA zB : K} (zC : K) (h : (zA < 0 ∧ 0 < zB) ∨ (0 < zA ∧ zB < 0)) :
    InTriangle A B C zA zB zC (lerp (zA / (zA - zB)) A B) 0 := by
  obtain ⟨h1, h2⟩ := frac_bounds h
  refine ⟨1 - zA / (zA - zB), zA / (zA - zB), 0, by linarith, h1.le, le_refl _, by ring, ?_, ?_⟩
  · simp only [Pt.add, Pt.smul, lerp, Pt.mk.injEq]
    refine ⟨by ring, by ring, by ring⟩
  · rw [frac_zero h]; ring

theorem inTriangle_side2 (A B C : Pt K) {zB zC : K} (zA : K) (h : (zB < 0 ∧ 0 < zC) ∨ (0 < zB ∧ zC < 0)) :
    InTriangle A B C zA zB zC (lerp (zB / (zB - zC)) B C) 0 :=
  inTriangle_rot (inTriangle_side B C A zA h)

theorem inTriangle_side3 (A B C : Pt K) {zA zC : K} (zB : K) (h : (zC < 0 ∧ 0 < zA) ∨ (0 < zC ∧ zA < 0)) :
    InTriangle A B C zA zB zC (lerp (zC / (zC - zA)) C A) 0 :=
  inTriangle_rot (inTriangle_rot (inTriangle_side C A B zB h))

theorem partsOf_rot {nodes : List (Pt K)} {rel : List K} {v0 v1 v2 : Nat} {ve vi : List Nat}
    (h : PartsOf nodes rel v1 v2 v0 ve vi) : PartsOf nodes rel v0 v1 v2 ve vi where
  emerged := h.emerged
  immersed := h.immersed
  sizeE := h.sizeE
  sizeI := h.sizeI
  inside := fun v hv => inTriangle_rot (h.inside v hv)
  area := by rw [h.area]; exact areaVector2_rot3 _ _ _
  convexE := by have := h.convexE; rwa [cross3_rot] at this
  convexI := by have := h.convexI; rwa [cross3_rot] at this

/-- The parts made by `Cut` are the emerged and immersed parts of the triangle. -/
theorem partsOf_cut {nodes : List (Pt K)} {rel : List K} {v0 v1 v2 m0 m1 m2 : Nat} {z0 z1 z2 : K} {ve vi : List Nat}
    (h : Cut v0 v1 v2 m0 m1 m2 z0 z1 z2 ve vi) (hz0 : immersion rel v0 = z0) (hz1 : immersion rel v1 = z1)
    (hz2 : immersion rel v2 = z2) (M0 : MidOf nodes rel v0 v1 m0 z0 z1) (M1 : MidOf nodes rel v1 v2 m1 z1 z2)
    (M2 : MidOf nodes rel v2 v0 m2 z2 z0) : PartsOf nodes rel v0 v1 v2 ve vi := by
  induction h with
  | @cornerE v0 v1 v2 m0 m1 m2 z0 z1 z2 h0 h1 h2 =>
    have n1 := M1.node (Or.inr ⟨h1, h2⟩); have r1 := M1.rel (Or.inr ⟨h1, h2⟩)
    have n2 := M2.node (Or.inl ⟨h2, h0⟩); have r2 := M2.rel (Or.inl ⟨h2, h0⟩)
    have g := corner_geometry (nodeAt nodes v0) (nodeAt nodes v1) (nodeAt nodes v2) (frac_bounds (Or.inr ⟨h1, h2⟩))
      (frac_bounds (Or.inl ⟨h2, h0⟩))
    refine ⟨?_, ?_, by simp, by simp, ?_, ?_, ?_, ?_⟩
    · simp only [List.mem_cons, List.not_mem_nil, or_false, forall_eq_or_imp, forall_eq, r1, r2, hz2]
      exact ⟨le_refl _, h2.le, le_refl _⟩
    · simp only [List.mem_cons, List.not_mem_nil, or_false, forall_eq_or_imp, forall_eq, r1, r2, hz0, hz1]
      exact ⟨h0.le, h1.le, le_refl _, le_refl _⟩
    · simp only [List.cons_append, List.nil_append, List.mem_cons, List.not_mem_nil, or_false, forall_eq_or_imp, forall_eq, r1, r2, hz0, hz1, hz2, n1, n2]
      exact ⟨inTriangle_side2 _ _ _ _ (Or.inr ⟨h1, h2⟩), inTriangle_thd _ _ _ _ _ _, inTriangle_side3 _ _ _ _ (Or.inl ⟨h2, h0⟩),
        inTriangle_fst _ _ _ _ _ _, inTriangle_snd _ _ _ _ _ _, inTriangle_side2 _ _ _ _ (Or.inr ⟨h1, h2⟩),
        inTriangle_side3 _ _ _ _ (Or.inl ⟨h2, h0⟩)⟩
    · simpa only [List.map_cons, List.map_nil, n1, n2] using g.1
    · simpa only [List.map_cons, List.map_nil, n1, n2] using g.2.1
    · simpa only [List.map_cons, List.map_nil, n1, n2] using g.2.2
  | @cornerI v0 v1 v2 m0 m1 m2 z0 z1 z2 h0 h1 h2 =>
    have n1 := M1.node (Or.inl ⟨h1, h2⟩); have r1 := M1.rel (Or.inl ⟨h1, h2⟩)
    have n2 := M2.node (Or.inr ⟨h2, h0⟩); have r2 := M2.rel (Or.inr ⟨h2, h0⟩)
    have g := corner_geometry (nodeAt nodes v0) (nodeAt nodes v1) (nodeAt nodes v2) (frac_bounds (Or.inl ⟨h1, h2⟩))
      (frac_bounds (Or.inr ⟨h2, h0⟩))
    refine ⟨?_, ?_, by simp, by simp, ?_, ?_, ?_, ?_⟩
    · simp only [List.mem_cons, List.not_mem_nil, or_false, forall_eq_or_imp, forall_eq, r1, r2, hz0, hz1]
      exact ⟨h0.le, h1.le, le_refl _, le_refl _⟩
    · simp only [List.mem_cons, List.not_mem_nil, or_false, forall_eq_or_imp, forall_eq, r1, r2, hz2]
      exact ⟨le_refl _, h2.le, le_refl _⟩
    · simp only [List.cons_append, List.nil_append, List.mem_cons, List.not_mem_nil, or_false, forall_eq_or_imp, forall_eq, r1, r2, hz0, hz1, hz2, n1, n2]
      exact ⟨inTriangle_fst _ _ _ _ _ _, inTriangle_snd _ _ _ _ _ _, inTriangle_side2 _ _ _ _ (Or.inl ⟨h1, h2⟩),
        inTriangle_side3 _ _ _ _ (Or.inr ⟨h2, h0⟩), inTriangle_side2 _ _ _ _ (Or.inl ⟨h1, h2⟩), inTriangle_thd _ _ _ _ _ _,
        inTriangle_side3 _ _ _ _ (Or.inr ⟨h2, h0⟩)⟩
    · have := g.1
      rw [pt_add_comm] at this
      simpa only [List.map_cons, List.map_nil, n1, n2] using this
    · simpa only [List.map_cons, List.map_nil, n1, n2] using g.2.2
    · simpa only [List.map_cons, List.map_nil, n1, n2] using g.2.1
  | @vertE v0 v1 v2 m0 m1 m2 z0 z1 z2 h0 h1 h2 =>
    have n1 := M1.node (Or.inr ⟨h1, h2⟩); have r1 := M1.rel (Or.inr ⟨h1, h2⟩)
    have g := vertex_geometry (nodeAt nodes v0) (nodeAt nodes v1) (nodeAt nodes v2) (frac_bounds (Or.inr ⟨h1, h2⟩))
    refine ⟨?_, ?_, by simp, by simp, ?_, ?_, ?_, ?_⟩
    · simp only [List.mem_cons, List.not_mem_nil, or_false, forall_eq_or_imp, forall_eq, r1, hz2, hz0]
      exact ⟨le_refl _, h2.le, h0.le⟩
    · simp only [List.mem_cons, List.not_mem_nil, or_false, forall_eq_or_imp, forall_eq, r1, hz0, hz1]
      exact ⟨h0.ge, h1.le, le_refl _⟩
    · simp only [List.cons_append, List.nil_append, List.mem_cons, List.not_mem_nil, or_false, forall_eq_or_imp, forall_eq, r1, hz0, hz1, hz2, n1]
      exact ⟨inTriangle_side2 _ _ _ _ (Or.inr ⟨h1, h2⟩), inTriangle_thd _ _ _ _ _ _, inTriangle_fst _ _ _ _ _ _,
        inTriangle_fst _ _ _ _ _ _, inTriangle_snd _ _ _ _ _ _, inTriangle_side2 _ _ _ _ (Or.inr ⟨h1, h2⟩)⟩
    · simpa only [List.map_cons, List.map_nil, n1] using g.1
    · simpa only [List.map_cons, List.map_nil, n1] using g.2.1
    · simpa only [List.map_cons, List.map_nil, n1] using g.2.2
  | @vertI v0 v1 v2 m0 m1 m2 z0 z1 z2 h0 h1 h2 =>
    have n1 := M1.node (Or.inl ⟨h1, h2⟩); have r1 := M1.rel (Or.inl ⟨h1, h2⟩)
    have g := vertex_geometry (nodeAt nodes v0) (nodeAt nodes v1) (nodeAt nodes v2) (frac_bounds (Or.inl ⟨h1, h2⟩))
    refine ⟨?_, ?_, by simp, by simp, ?_, ?_, ?_, ?_⟩
    · simp only [List.mem_cons, List.not_mem_nil, or_false, forall_eq_or_imp, forall_eq, r1, hz0, hz1]
      exact ⟨h0.le, h1.le, le_refl _⟩
    · simp only [List.mem_cons, List.not_mem_nil, or_false, forall_eq_or_imp, forall_eq, r1, hz2, hz0]
      exact ⟨le_refl _, h2.le, h0.ge⟩
    · simp only [List.cons_append, List.nil_append, List.mem_cons, List.not_mem_nil, or_false, forall_eq_or_imp, forall_eq, r1, hz0, hz1, hz2, n1]
      exact ⟨inTriangle_fst _ _ _ _ _ _, inTriangle_snd _ _ _ _ _ _, inTriangle_side2 _ _ _ _ (Or.inl ⟨h1, h2⟩),
        inTriangle_side2 _ _ _ _ (Or.inl ⟨h1, h2⟩), inTriangle_thd _ _ _ _ _ _, inTriangle_fst _ _ _ _ _ _⟩
    · have := g.1
      rw [pt_add_comm] at this
      simpa only [List.map_cons, List.map_nil, n1] using this
    · simpa only [List.map_cons, List.map_nil, n1] using g.2.2
    · simpa only [List.map_cons, List.map_nil, n1] using g.2.1
  | rotT _ ih => exact partsOf_rot (ih hz1 hz2 hz0 M1 M2 M0)
  | @rotE3 v0 v1 v2 m0 m1 m2 z0 z1 z2 a b c vi _ ih =>
    have p := ih hz0 hz1 hz2 M0 M1 M2
    refine ⟨fun v hv => p.emerged v ?_, p.immersed, by simp, p.sizeI, fun v hv => p.inside v ?_, ?_, ?_, p.convexI⟩
    · simpa only [List.mem_cons, List.not_mem_nil, or_false, or_comm, or_left_comm] using hv
    · simpa only [List.mem_append, List.mem_cons, List.not_mem_nil, or_false, or_comm, or_left_comm] using hv
    · rw [← p.area]; simp only [List.map_cons, List.map_nil]; rw [areaVector2_rot3 (nodeAt nodes a) (nodeAt nodes b) (nodeAt nodes c)]
    · exact convexAlong_rot3 p.convexE
  | @rotE4 v0 v1 v2 m0 m1 m2 z0 z1 z2 a b c d vi _ ih =>
    have p := ih hz0 hz1 hz2 M0 M1 M2
    refine ⟨fun v hv => p.emerged v ?_, p.immersed, by simp, p.sizeI, fun v hv => p.inside v ?_, ?_, ?_, p.convexI⟩
    · simpa only [List.mem_cons, List.not_mem_nil, or_false, or_comm, or_left_comm] using hv
    · simpa only [List.mem_append, List.mem_cons, List.not_mem_nil, or_false, or_comm, or_left_comm] using hv
    · rw [← p.area]; simp only [List.map_cons, List.map_nil]; rw [areaVector2_rot4 (nodeAt nodes a) (nodeAt nodes b) (nodeAt nodes c) (nodeAt nodes d)]
    · exact convexAlong_rot4 p.convexE
  | @rotI3 v0 v1 v2 m0 m1 m2 z0 z1 z2 a b c ve _ ih =>
    have p := ih hz0 hz1 hz2 M0 M1 M2
    refine ⟨p.emerged, fun v hv => p.immersed v ?_, p.sizeE, by simp, fun v hv => p.inside v ?_, ?_, p.convexE, ?_⟩
    · simpa only [List.mem_cons, List.not_mem_nil, or_false, or_comm, or_left_comm] using hv
    · simpa only [List.mem_append, List.mem_cons, List.not_mem_nil, or_false, or_comm, or_left_comm] using hv
    · rw [← p.area]; simp only [List.map_cons, List.map_nil]; rw [areaVector2_rot3 (nodeAt nodes a) (nodeAt nodes b) (nodeAt nodes c)]
    · exact convexAlong_rot3 p.convexI
  | @rotI4 v0 v1 v2 m0 m1 m2 z0 z1 z2 a b c d ve _ ih =>
    have p := ih hz0 hz1 hz2 M0 M1 M2
    refine ⟨p.emerged, fun v hv => p.immersed v ?_, p.sizeE, by simp, fun v hv => p.inside v ?_, ?_, p.convexE, ?_⟩
    · simpa only [List.mem_cons, List.not_mem_nil, or_false, or_comm, or_left_comm] using hv
    · simpa only [List.mem_append, List.mem_cons, List.not_mem_nil, or_false, or_comm, or_left_comm] using hv
    · rw [← p.area]; simp only [List.map_cons, List.map_nil]; rw [areaVector2_rot4 (nodeAt nodes a) (nodeAt nodes b) (nodeAt nodes c) (nodeAt nodes d)]
    · exact convexAlong_rot4 p.convexI

/-- The sides of the immersed part made by `Cut`. -/
theorem wetSides_cut {nodes : List (Pt K)} {rel : List K} {v0 v1 v2 m0 m1 m2 : Nat} {z0 z1 z2 : K} {ve vi : List Nat}
    (h : Cut v0 v1 v2 m0 m1 m2 z0 z1 z2 ve vi) (hz0 : immersion rel v0 = z0) (hz1 : immersion rel v1 = z1)
    (hz2 : immersion rel v2 = z2) (M0 : MidOf nodes rel v0 v1 m0 z0 z1) (M1 : MidOf nodes rel v1 v2 m1 z1 z2)
    (M2 : MidOf nodes rel v2 v0 m2 z2 z0) : WetSides nodes rel v0 v1 v2 vi := by
  have key : ∀ {v w m : Nat} {a b : K}, immersion rel v = a → immersion rel w = b → MidOf nodes rel v w m a b →
      (a < 0 ∧ 0 < b) ∨ (0 < a ∧ b < 0) → vtx nodes rel m = crossingOf (vtx nodes rel v) (vtx nodes rel w) := by
    intro v w m a b ha hb M hc
    simp only [vtx, crossingOf, M.node hc, M.rel hc, ha, hb, lerp, Pt.add, Pt.smul, Prod.mk.injEq, Pt.mk.injEq, and_true]
    try (refine ⟨?_, ?_, ?_⟩ <;> ring)
  have s2 : ∀ {v : Nat} {a : K}, immersion rel v = a → (vtx nodes rel v).2 = a := fun h => h
  have c2 : ∀ A B : Vtx K, (crossingOf A B).2 = 0 := fun _ _ => rfl
  induction h with
  | @cornerE v0 v1 v2 m0 m1 m2 z0 z1 z2 h0 h1 h2 =>
    unfold WetSides
    simp only [List.map_cons, List.map_nil, ring, List.cons_append, List.nil_append, steps, List.flatMap_cons, List.flatMap_nil,
      underSide, s2 hz0, s2 hz1, s2 hz2, key hz1 hz2 M1 (Or.inr ⟨h1, h2⟩), key hz2 hz0 M2 (Or.inl ⟨h2, h0⟩), h0, h1, h2, h0.le, h1.le, not_le.mpr h2,
      not_lt.mpr h0.le, not_lt.mpr h1.le, not_lt.mpr h2.le, and_true, true_and, and_false, false_and, and_self, if_true, if_false, List.append_nil]
    simp [wet, s2 hz0, s2 hz1, s2 hz2, c2, h0.ne', h1.ne', h2.ne]
  | @cornerI v0 v1 v2 m0 m1 m2 z0 z1 z2 h0 h1 h2 =>
    unfold WetSides
    simp only [List.map_cons, List.map_nil, ring, List.cons_append, List.nil_append, steps, List.flatMap_cons, List.flatMap_nil,
      underSide, s2 hz0, s2 hz1, s2 hz2, key hz1 hz2 M1 (Or.inl ⟨h1, h2⟩), key hz2 hz0 M2 (Or.inr ⟨h2, h0⟩), h0, h1, h2, h2.le, not_le.mpr h0, not_le.mpr h1,
      not_lt.mpr h0.le, not_lt.mpr h1.le, not_lt.mpr h2.le, and_true, true_and, and_false, false_and, and_self, if_true, if_false, List.append_nil]
    simp [wet, s2 hz0, s2 hz1, s2 hz2, c2, h0.ne, h1.ne, h2.ne']
  | @vertE v0 v1 v2 m0 m1 m2 z0 z1 z2 h0 h1 h2 =>
    unfold WetSides
    simp only [List.map_cons, List.map_nil, ring, List.cons_append, List.nil_append, steps, List.flatMap_cons, List.flatMap_nil,
      underSide, s2 hz0, s2 hz1, s2 hz2, key hz1 hz2 M1 (Or.inr ⟨h1, h2⟩), h0, h1, h2, h1.le, not_le.mpr h2, lt_irrefl, le_refl,
      not_lt.mpr h1.le, not_lt.mpr h2.le, and_true, true_and, and_false, false_and, and_self, if_true, if_false, List.append_nil]
    simp [wet, s2 hz0, s2 hz1, s2 hz2, c2, h0, h1.ne', h2.ne]
  | @vertI v0 v1 v2 m0 m1 m2 z0 z1 z2 h0 h1 h2 =>
    unfold WetSides
    simp only [List.map_cons, List.map_nil, ring, List.cons_append, List.nil_append, steps, List.flatMap_cons, List.flatMap_nil,
      underSide, s2 hz0, s2 hz1, s2 hz2, key hz1 hz2 M1 (Or.inl ⟨h1, h2⟩), h0, h1, h2, h2.le, not_le.mpr h1, lt_irrefl, le_refl,
      not_lt.mpr h1.le, not_lt.mpr h2.le, and_true, true_and, and_false, false_and, and_self, if_true, if_false, List.append_nil]
    simp [wet, s2 hz0, s2 hz1, s2 hz2, c2, h0, h1.ne, h2.ne']
  | rotT _ ih =>
    have p := ih hz1 hz2 hz0 M1 M2 M0
    unfold WetSides at p ⊢
    refine p.trans ((List.Perm.flatMap_right _ ?_).filter _)
    simp only [List.map_cons, List.map_nil, ring, List.cons_append, List.nil_append, steps]
    exact (List.perm_append_comm (l₁ := [_]) (l₂ := [_, _])).symm
  | rotE3 _ ih => exact ih hz0 hz1 hz2 M0 M1 M2
  | rotE4 _ ih => exact ih hz0 hz1 hz2 M0 M1 M2
  | rotI3 _ ih =>
    refine List.Perm.trans ((List.Perm.filter _ ?_)) (ih hz0 hz1 hz2 M0 M1 M2)
    simp only [List.map_cons, List.map_nil, ring, List.cons_append, List.nil_append, steps]
    exact List.perm_append_comm (l₁ := [_]) (l₂ := [_, _])
  | rotI4 _ ih =>
    refine List.Perm.trans ((List.Perm.filter _ ?_)) (ih hz0 hz1 hz2 M0 M1 M2)
    simp only [List.map_cons, List.map_nil, ring, List.cons_append, List.nil_append, steps]
    exact List.perm_append_comm (l₁ := [_]) (l₂ := [_, _, _])

end Xdyn.Hull

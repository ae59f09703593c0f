import Verif.Props.MeshBuild

/-
C109: the part of a closed hull under the free surface has no hole under the free surface.
-/

namespace Xdyn.Hull

variable {K : Type} [Field K] [LinearOrder K] [IsStrictOrderedRing K]

/-- Vertices of facet `i`. -/
def vertsOf (m : Mesh K) (i : Nat) : List Nat := ((m.facets[i]?).map Facet.vertices).getD []

theorem crossingOf_comm (A B : Vtx K) (h : A.2 ≠ B.2) : crossingOf B A = crossingOf A B := by
  have h1 : A.2 - B.2 ≠ 0 := sub_ne_zero.mpr h
  have h2 : B.2 - A.2 ≠ 0 := sub_ne_zero.mpr h.symm
  simp only [crossingOf, Pt.add, Pt.smul, Prod.mk.injEq, Pt.mk.injEq, and_true]
  have e : B.2 / (B.2 - A.2) = 1 - A.2 / (A.2 - B.2) := by
    field_simp
    ring
  rw [e]
  refine ⟨?_, ?_, ?_⟩ <;> ring

theorem underSide_swap (s : Vtx K × Vtx K) : underSide s.swap.1 s.swap.2 = (underSide s.1 s.2).map Prod.swap := by
  obtain ⟨A, B⟩ := s
  simp only [Prod.fst_swap, Prod.snd_swap, underSide]
  rcases lt_trichotomy A.2 0 with ha | ha | ha <;> rcases lt_trichotomy B.2 0 with hb | hb | hb
  all_goals simp only [ha, hb, ha.le, hb.le, not_le.mpr, not_lt.mpr, lt_irrefl, le_refl, and_true, true_and, and_false, false_and, and_self, if_true, if_false,
    List.map_cons, List.map_nil, Prod.swap]
  · rw [crossingOf_comm _ _ (by intro h; rw [h] at ha; exact lt_asymm ha hb)]
  · rw [crossingOf_comm _ _ (by intro h; rw [h] at ha; exact lt_asymm ha hb)]

theorem wet_swap (s : Vtx K × Vtx K) : wet s.swap = wet s := by
  unfold wet; simp [Bool.and_comm]

theorem closedSides_under {l : List (Vtx K × Vtx K)} (h : ClosedSides l) :
    ClosedSides ((l.flatMap (fun s => underSide s.1 s.2)).filter wet) := by
  unfold ClosedSides
  have h1 := (List.Perm.flatMap_right (fun s : Vtx K × Vtx K => underSide s.1 s.2) h).filter wet
  refine h1.trans (List.Perm.of_eq ?_)
  rw [List.flatMap_map]
  have e1 : ((wet ∘ Prod.swap : Vtx K × Vtx K → Bool)) = wet := by funext s; exact wet_swap s
  rw [show (fun a : Vtx K × Vtx K => underSide a.swap.1 a.swap.2) = fun a => (underSide a.1 a.2).map Prod.swap from funext underSide_swap]
  rw [← List.map_flatMap, List.filter_map, e1]

theorem steps_map {α β : Type} (g : α → β) : ∀ l : List α, steps (l.map g) = (steps l).map (Prod.map g g)
  | [] => rfl
  | [_] => rfl
  | a :: b :: l => by
    have := steps_map g (b :: l)
    simp only [List.map_cons, steps, Prod.map_apply] at this ⊢
    rw [this]

theorem ring_map {α β : Type} (g : α → β) (l : List α) : ring (l.map g) = (ring l).map (Prod.map g g) := by
  cases l with
  | nil => rfl
  | cons a l =>
    show steps (g a :: l.map g ++ [g a]) = (steps (a :: l ++ [a])).map _
    rw [← steps_map]
    simp

theorem closedSides_map {α β : Type} (g : α → β) {l : List (α × α)} (h : ClosedSides l) : ClosedSides (l.map (Prod.map g g)) := by
  unfold ClosedSides at h ⊢
  have := h.map (Prod.map g g)
  rw [List.map_map] at this ⊢
  exact this

/-- **C109.** If the triangles of the hull make a closed surface (each side is run as many times in one direction as in the other one), then
whatever the immersions of the nodes the immersed facets (cut along the free surface) make a surface which is closed but for sides lying in the free surface. -/
theorem watertight (m : Mesh K) (hm : TriMesh m) (z w : List K) (hz : z.length = m.nbNodes) (hw : w.length = m.nbNodes)
    (hc : ClosedSides ((List.range m.nbFacets).flatMap (fun f => ring (vertsOf m f)))) :
    ∃ r, update m z w = .ok r ∧
      ClosedSides ((r.immersed.flatMap (fun i => ring ((vertsOf r.mesh i).map (vtx r.mesh.allNodes r.rel)))).filter wet) := by
  obtain ⟨r, hr, htri, ⟨_, _, hnbf, _, _⟩, hF, hE, hN, em, im, hem, him, hout⟩ := update_triangles m hm z w hz hw
  refine ⟨r, hr, ?_⟩
  have h1 := closedSides_under (closedSides_map (vtx r.mesh.allNodes r.rel) hc)
  rw [List.map_flatMap, List.flatMap_assoc] at h1
  have key : ((r.immersed.flatMap (fun i => ring ((vertsOf r.mesh i).map (vtx r.mesh.allNodes r.rel)))).filter wet).Perm
      (((List.range m.nbFacets).flatMap (fun f => ((ring (vertsOf m f)).map (Prod.map (vtx r.mesh.allNodes r.rel) (vtx r.mesh.allNodes r.rel))).flatMap
        (fun s => underSide s.1 s.2))).filter wet) := by
    rw [him, List.flatMap_assoc, List.filter_flatMap, List.filter_flatMap]
    apply List.Perm.flatMap_left
    intro f hf
    rw [List.mem_range] at hf
    obtain ⟨v0, v1, v2, n, hfv, ho⟩ := hout f hf
    have hvm : vertsOf m f = [v0, v1, v2] := by unfold vertsOf; rw [hfv]; rfl
    have hvr : vertsOf r.mesh f = [v0, v1, v2] := by unfold vertsOf; rw [hF f hf, hfv]; rfl
    rw [hvm, ← ring_map]
    have hlt : ∀ v ∈ [v0, v1, v2], v < m.nbNodes := by
      obtain ⟨w0, w1, w2, o0, o1, o2, T⟩ := hm.triangle f hf
      obtain ⟨n', hn'⟩ := T.vertices
      rw [hfv] at hn'
      injection hn' with hn'
      injection hn' with h1 h2
      injection h1 with h1 h3
      injection h3 with h3 h4
      injection h4 with h4 _
      subst h1 h3 h4
      have l0 := runs_lt hm T.runs0 T.static.1
      have l1 := runs_lt hm T.runs1 T.static.2.1
      intro v hv
      simp only [List.mem_cons, List.not_mem_nil, or_false] at hv
      rcases hv with rfl | rfl | rfl
      · exact l0.1
      · exact l0.2
      · exact l1.2
    have himm : ∀ v ∈ [v0, v1, v2], (vtx r.mesh.allNodes r.rel v).2 = immersion z v := by
      intro v hv
      unfold vtx immersion
      rw [(hN v (hlt v hv)).2]
    have i0 := himm v0 (by simp)
    have i1 := himm v1 (by simp)
    have i2 := himm v2 (by simp)
    rcases ho with ⟨⟨a0, a1, a2, _⟩, h2, h3⟩ | ⟨⟨a0, a1, a2, _⟩, h2, h3⟩ | ⟨_, e, ve, vi, _, h2, h3, h4, h5, _, h6⟩ | ⟨⟨a0, a1, a2⟩, e, _, h2, h3, h4, h5⟩
    · rw [h3]
      apply List.Perm.of_eq
      have dry : ∀ A B : Vtx K, A.2 ≤ 0 → B.2 ≤ 0 → (underSide A B).filter wet = [] := by
        intro A B hA hB
        unfold underSide
        split_ifs with c1 c2 c3
        · simp [wet, le_antisymm hA c1.1, le_antisymm hB c1.2]
        · exact absurd c2.1 (not_lt.mpr hA)
        · exact absurd c3.2 (not_lt.mpr hB)
        · rfl
      rw [← i0] at a0
      rw [← i1] at a1
      rw [← i2] at a2
      simp only [List.flatMap_nil, List.filter_nil, List.map_cons, List.map_nil, ring, List.cons_append, List.nil_append, steps, List.flatMap_cons,
        List.filter_append, dry _ _ a0 a1, dry _ _ a1 a2, dry _ _ a2 a0]
    · rw [h3]
      apply List.Perm.of_eq
      rw [← i0] at a0
      rw [← i1] at a1
      rw [← i2] at a2
      simp only [List.flatMap_cons, List.flatMap_nil, hvr, List.map_cons, List.map_nil, ring, List.cons_append, List.nil_append, steps,
        underSide, a0, a1, a2, and_self, if_true]
    · rw [h3]
      have hve : vertsOf r.mesh (e + 1) = vi := by unfold vertsOf; rw [h5]; rfl
      simp only [List.flatMap_cons, List.flatMap_nil, List.append_nil, hve]
      exact h6
    · rw [h3]
      apply List.Perm.of_eq
      have hve : vertsOf r.mesh (e + 1) = [v0, v1, v2] := by unfold vertsOf; rw [h5]; rfl
      rw [a0] at i0
      rw [a1] at i1
      rw [a2] at i2
      simp only [List.flatMap_cons, List.flatMap_nil, List.append_nil, hve, List.map_cons, List.map_nil, ring, List.cons_append, List.nil_append, steps,
        underSide, i0, i1, i2, le_refl, and_self, if_true]
  have h2 := key.trans (h1.trans (List.Perm.map _ key.symm))
  exact h2

/-- Facet `f` of a built mesh gives back the points of the list. -/
theorem build_vertices (normal : List (Pt K) → Except Err (Pt K)) (v : List (List (Pt K))) (hne : ∀ l ∈ v, l ≠ []) (m : Mesh K)
    (h : build normal v = .ok m) : m.nbFacets = v.length ∧ ∀ f (hf : f < v.length), (∃ n, normal v[f] = .ok n ∧ m.facets[f]? = some ⟨vertsOf m f, n⟩) ∧
      (vertsOf m f).map (nodeAt m.allNodes) = v[f] ∧ (∀ i ∈ vertsOf m f, i < m.nbNodes ∧ i < m.allNodes.length) := by
  obtain ⟨_, _, _, _, hnf, _, _, hpoly, _⟩ := mesh_building normal v m h
  have hfil : v.filter (fun l => l ≠ []) = v := by
    rw [List.filter_eq_self]
    intro l hl
    simpa using hne l hl
  rw [hfil] at hpoly hnf
  refine ⟨hnf, fun f hf => ?_⟩
  obtain ⟨n, hn1, vs, os, h1, h2, h3, h4, h5, h6⟩ := hpoly f v[f] (List.getElem?_eq_getElem hf)
  have hfa : vertsOf m f = vs := by unfold vertsOf; rw [h1]; rfl
  rw [hfa]
  refine ⟨⟨n, hn1, h1⟩, ?_, ?_⟩
  · apply List.ext_getElem?
    intro j
    by_cases hj : j < v[f].length
    · obtain ⟨i, g1, g2, g3⟩ := h5 j v[f][j] (List.getElem?_eq_getElem hj)
      rw [List.getElem?_map, g1, Option.map_some, List.getElem?_eq_getElem hj]
      unfold nodeAt; rw [g3]; rfl
    · rw [List.getElem?_eq_none (by rw [List.length_map, h3]; omega), List.getElem?_eq_none (by omega)]
  · intro i hi
    obtain ⟨j, hj, rfl⟩ := List.mem_iff_getElem.mp hi
    obtain ⟨i, g1, g2, g3⟩ := h5 j v[f][j] (List.getElem?_eq_getElem (by omega))
    rw [List.getElem?_eq_getElem hj] at g1
    injection g1 with g1
    rw [g1]; exact ⟨g2, (List.getElem?_eq_some_iff.mp g3).1⟩

/-- A closed list of facets gives a closed mesh. -/
theorem build_closed (normal : List (Pt K) → Except Err (Pt K)) (v : List (List (Pt K))) (hne : ∀ l ∈ v, l ≠ []) (m : Mesh K)
    (h : build normal v = .ok m) (hc : ClosedSides (v.flatMap ring)) : ClosedSides ((List.range m.nbFacets).flatMap (fun f => ring (vertsOf m f))) := by
  obtain ⟨hnd, _⟩ := mesh_building normal v m h
  obtain ⟨hnb, hv⟩ := build_vertices normal v hne m h
  have hcc := closedSides_map (fun p => (m.allNodes.take m.nbNodes).idxOf p) hc
  rw [List.map_flatMap] at hcc
  have : (List.range m.nbFacets).flatMap (fun f => ring (vertsOf m f)) =
      v.flatMap (fun l => (ring l).map (Prod.map (fun p => (m.allNodes.take m.nbNodes).idxOf p) (fun p => (m.allNodes.take m.nbNodes).idxOf p))) := by
    unfold List.flatMap
    congr 1
    apply List.ext_getElem
    · simp [hnb]
    · intro f h1 h2
      simp only [List.getElem_map, List.getElem_range]
      have hf : f < v.length := by simpa using h2
      rw [← ring_map]
      congr 1
      obtain ⟨_, h3, h4⟩ := hv f hf
      conv_rhs => rw [← h3]
      rw [List.map_map]
      conv_lhs => rw [← List.map_id (vertsOf m f)]
      apply List.map_congr_left
      intro i hi
      have hi := h4 i hi
      have hlen : i < (m.allNodes.take m.nbNodes).length := by
        rw [List.length_take]; omega
      have e : nodeAt m.allNodes i = (m.allNodes.take m.nbNodes)[i] := by
        unfold nodeAt
        rw [List.getElem_take, List.getElem?_eq_getElem (by rw [List.length_take] at hlen; omega)]
        rfl
      show i = _
      simp only [Function.comp_apply, e]
      exact (hnd.idxOf_getElem i hlen).symm
  rw [this]
  exact hcc

/-- **C109, from the list of triangles given by the user.** -/
theorem build_watertight (normal : List (Pt K) → Except Err (Pt K)) (v : List (List (Pt K)))
    (hv : ∀ l ∈ v, ∃ a b c : Pt K, l = [a, b, c] ∧ a ≠ b ∧ b ≠ c ∧ c ≠ a ∧ ∃ n, normal l = .ok n) (hc : ClosedSides (v.flatMap ring)) :
    ∃ m, build normal v = .ok m ∧ ∀ z w : List K, z.length = m.nbNodes → w.length = m.nbNodes →
      ∃ r, update m z w = .ok r ∧
        ClosedSides ((r.immersed.flatMap (fun i => ring ((vertsOf r.mesh i).map (vtx r.mesh.allNodes r.rel)))).filter wet) := by
  obtain ⟨m, hm, htri, _⟩ := build_triangles normal v hv
  refine ⟨m, hm, fun z w hz hw => watertight m htri z w hz hw (build_closed normal v ?_ m hm hc)⟩
  intro l hl
  obtain ⟨a, b, c, rfl, _⟩ := hv l hl
  simp

/-- The hypotheses are met by the tetrahedron of `Props/MeshBuild`, with a node out of the water. -/
example : ∃ m, tetraMesh = .ok m ∧ ClosedSides ((List.range m.nbFacets).flatMap (fun f => ring (vertsOf m f))) := by
  have h : (match tetraMesh with
    | .ok m => ((List.range m.nbFacets).flatMap (fun f => ring (vertsOf m f))).isPerm
        (((List.range m.nbFacets).flatMap (fun f => ring (vertsOf m f))).map Prod.swap)
    | .error _ => false) = true := by decide +kernel
  split at h
  · rename_i m hm
    exact ⟨m, hm, List.isPerm_iff.mp h⟩
  · simp at h

end Xdyn.Hull

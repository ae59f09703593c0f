import Verif.Lemmas.MeshUpdate
import Mathlib.Data.Rat.Cast.Order
import Mathlib.Tactic.NormNum

/-
Intersection of the hull with the free surface: C38 (classification of the edges), C39 (intersection point),
C40 (every facet is classified), C41 (the parts of a split triangle), C42 (oriented edges).
-/

namespace Xdyn.Hull

variable {K : Type} [Field K] [LinearOrder K]

/-! ### C38 -/

/-- **C38.** An edge whose ends have immersions `a` and `b` is in exactly one of the four classes, which is
given by the signs of `a` and `b`: on the surface (both zero), emerged (no end immersed, one end emerged), immersed (no end emerged,
one end immersed), crossing (one end on each side). -/
theorem edge_classification (a b : K) :
    (bothTouch (edgeStatus a b) = true ↔ a = 0 ∧ b = 0) ∧
    (isEmerged (edgeStatus a b) = true ↔ a ≤ 0 ∧ b ≤ 0 ∧ (a < 0 ∨ b < 0)) ∧
    (isImmersed (edgeStatus a b) = true ↔ 0 ≤ a ∧ 0 ≤ b ∧ (0 < a ∨ 0 < b)) ∧
    (crosses (edgeStatus a b) = true ↔ (a < 0 ∧ 0 < b) ∨ (0 < a ∧ b < 0)) ∧
    ([bothTouch (edgeStatus a b), isEmerged (edgeStatus a b), isImmersed (edgeStatus a b), crosses (edgeStatus a b)].count true = 1) ∧
    (touches (edgeStatus a b) = false ↔ (a < 0 ∧ b < 0) ∨ (0 < a ∧ 0 < b)) := by
  refine ⟨bothTouch_iff a b, ?_, ?_, crosses_iff a b, ?_, ?_⟩
  · rw [isEmerged_iff]
    rcases sgn3 a with h1 | h1 | h1 <;> rcases sgn3 b with h2 | h2 | h2 <;> simp [h1, h2]
  · rw [isImmersed_iff]
    rcases sgn3 a with h1 | h1 | h1 <;> rcases sgn3 b with h2 | h2 | h2 <;> simp [h1, h2]
  · unfold edgeStatus
    rcases sgn3 a with h1 | h1 | h1 <;> rcases sgn3 b with h2 | h2 | h2 <;>
      simp [bothTouch, isEmerged, isImmersed, crosses, h1, h2]
  · rw [← Bool.not_eq_true, touches_iff]
    rcases sgn3 a with h1 | h1 | h1 <;> rcases sgn3 b with h2 | h2 | h2 <;> simp [h1, h2]

example : crosses (edgeStatus (1 : ℚ) (-2)) = true ∧ isEmerged (edgeStatus (0 : ℚ) (-2)) = true ∧
    isImmersed (edgeStatus (3 : ℚ) 0) = true := by decide +kernel

/-! ### C39 -/

variable [IsStrictOrderedRing K]

/-- **C39.** On an edge whose ends are on both sides of the free surface, the inserted point is strictly inside the edge,
the linearly interpolated immersion vanishes there and only there, and the point is the same (as is the coefficient
seen from the other end) when the edge is run in the other direction. -/
theorem edge_intersection_point (A B : Pt K) (a b : K) (h : (a < 0 ∧ 0 < b) ∨ (0 < a ∧ b < 0)) :
    (∃ k : K, 0 < k ∧ k < 1 ∧ (1 - k) * a + k * b = 0 ∧ (∀ k', (1 - k') * a + k' * b = 0 → k' = k) ∧
      edgeIntersection A a B b = ⟨(1 - k) * A.x + k * B.x, (1 - k) * A.y + k * B.y, (1 - k) * A.z + k * B.z⟩) ∧
    edgeIntersection B b A a = edgeIntersection A a B b := by
  have hne : a - b ≠ 0 := by rcases h with ⟨h1, h2⟩ | ⟨h1, h2⟩ <;> intro h4 <;> linarith
  have hne' : b - a ≠ 0 := fun h4 => hne (by linarith)
  constructor
  · refine ⟨a / (a - b), (frac_bounds h).1, (frac_bounds h).2, frac_zero h, ?_, ?_⟩
    · intro k' hk'
      rw [eq_div_iff hne]; linarith
    · simp only [edgeIntersection, Pt.mk.injEq]
      refine ⟨by ring, by ring, by ring⟩
  · have hk : b / (b - a) = 1 - a / (a - b) := by
      field_simp
      ring
    simp only [edgeIntersection, hk, Pt.mk.injEq]
    refine ⟨by ring, by ring, by ring⟩

example : edgeIntersection (⟨0, 0, 1⟩ : Pt ℚ) 1 ⟨4, 0, -3⟩ (-3) = ⟨1, 0, 0⟩ := by decide +kernel

/-! ### C42 -/

omit [Field K] [LinearOrder K] [IsStrictOrderedRing K] in
/-- **C42.** An oriented edge is coded without loss; the first vertex of an oriented edge is the second one of the edge
run in the other direction; and the first and second vertices are those of the edge. -/
theorem oriented_edge_roundtrip (e : Nat) (r : Bool) :
    edgeIndex (orientedId e r) = e ∧ edgeReversed (orientedId e r) = r ∧
    (∀ o, orientedId (edgeIndex o) (edgeReversed o) = o) ∧
    (∀ e' r', orientedId e r = orientedId e' r' → e = e' ∧ r = r') ∧
    (∀ edges, firstVertex edges (orientedId e r) = secondVertex edges (orientedId e (!r)) ∧
      secondVertex edges (orientedId e r) = firstVertex edges (orientedId e (!r))) ∧
    (∀ edges a b, edges[e]? = some (a, b) →
      firstVertex edges (orientedId e r) = .ok (if r then b else a) ∧
      secondVertex edges (orientedId e r) = .ok (if r then a else b)) := by
  have h1 : edgeIndex (orientedId e r) = e := by rw [edgeIndex_eq, orientedId_eq]; cases r <;> simp; omega
  have h2 : edgeReversed (orientedId e r) = r := by rw [edgeReversed_eq, orientedId_eq]; cases r <;> simp
  refine ⟨h1, h2, ?_, ?_, ?_, ?_⟩
  · intro o
    rw [orientedId_eq, edgeIndex_eq, edgeReversed_eq]
    rcases Nat.mod_two_eq_zero_or_one o with h | h <;> simp [h] <;> omega
  · intro e' r' h
    rw [orientedId_eq, orientedId_eq] at h
    cases r <;> cases r' <;> simp at h ⊢ <;> omega
  · intro edges
    have d1 : orientedId e true >>> 1 = e := by rw [orientedId_eq, Nat.shiftRight_one]; simp; omega
    have d2 : orientedId e false >>> 1 = e := by rw [orientedId_eq, Nat.shiftRight_one]; simp
    have p1 : orientedId e true &&& 1 = 1 := by rw [orientedId_eq, Nat.and_one_is_mod]; simp
    have p2 : orientedId e false &&& 1 = 0 := by rw [orientedId_eq, Nat.and_one_is_mod]; simp
    cases r <;> simp [firstVertex, secondVertex, d1, d2, p1, p2]
  · intro edges a b hab
    have hr : Runs edges (orientedId e r) (if r then b else a) (if r then a else b) := by
      rw [Runs, orientedId_eq]
      cases r
      · left; simp [hab]
      · right
        have : (2 * e + 1) / 2 = e := by omega
        simp [this, hab]
    exact ⟨firstVertex_of_runs hr, secondVertex_of_runs hr⟩

example : firstVertex [(3, 4), (7, 9)] (orientedId 1 true) = .ok 9 ∧ secondVertex [(3, 4), (7, 9)] (orientedId 1 true) = .ok 7 := by
  decide

/-! ### C40, C41 -/

/-- The node added on a side that crosses the free surface. -/
theorem midOf_inv {m : Mesh K} (hm : TriMesh m) {z : List K} {s : EdgeSt K} (h : EInv m z m.nbEdges s) {o v w : Nat}
    (hr : Runs m.edges o v w) (ho : o / 2 < m.nbEdges) :
    MidOf s.allNodes s.rel v w (m.nbNodes + rank m z (o / 2)) (immersion z v) (immersion z w) := by
  have hl := runs_lt hm hr ho
  have hv : nodeAt s.allNodes v = nodeAt m.allNodes v := by unfold nodeAt; rw [h.nodesStatic v hl.1]
  have hw : nodeAt s.allNodes w = nodeAt m.allNodes w := by unfold nodeAt; rw [h.nodesStatic w hl.2]
  have hme := endsAt_some hm ho
  constructor
  · intro hc
    have hmid := h.mid _ ho ((crosses_runs hm z hr ho).mpr hc)
    unfold nodeAt at hv hw ⊢
    rw [hmid, hv, hw]
    rcases hr with ⟨_, h2⟩ | ⟨_, h2⟩
    · rw [hme] at h2; injection h2 with h2
      simp only [h2, Option.getD_some]; rfl
    · rw [hme] at h2; injection h2 with h2
      simp only [h2, Option.getD_some]
      exact (edge_intersection_point _ _ _ _ hc).2
  · intro hc
    unfold immersion
    rw [h.midRel _ ho ((crosses_runs hm z hr ho).mpr hc)]; rfl

/-- What happens to the triangle `v0 v1 v2`, facet `f` of the hull, with immersions `z`: `em` and `im` are the facets of the
result put in the emerged and in the immersed ones on account of `f`. -/
def TriangleOutcome (m : Mesh K) (z : List K) (r : Result K) (f v0 v1 v2 : Nat) (n : Pt K) (em im : List Nat) : Prop :=
  -- emerged, or touching the free surface from above
  ((immersion z v0 ≤ 0 ∧ immersion z v1 ≤ 0 ∧ immersion z v2 ≤ 0 ∧
      ¬ (immersion z v0 = 0 ∧ immersion z v1 = 0 ∧ immersion z v2 = 0)) ∧ em = [f] ∧ im = []) ∨
  -- immersed, or touching the free surface from below
  ((0 ≤ immersion z v0 ∧ 0 ≤ immersion z v1 ∧ 0 ≤ immersion z v2 ∧
      ¬ (immersion z v0 = 0 ∧ immersion z v1 = 0 ∧ immersion z v2 = 0)) ∧ em = [] ∧ im = [f]) ∨
  -- split in two new facets, with the same normal
  (((∃ v ∈ [v0, v1, v2], immersion z v < 0) ∧ (∃ v ∈ [v0, v1, v2], 0 < immersion z v)) ∧
    ∃ e ve vi, m.nbFacets ≤ e ∧ em = [e] ∧ im = [e + 1] ∧ r.mesh.facets[e]? = some ⟨ve, n⟩ ∧ r.mesh.facets[e + 1]? = some ⟨vi, n⟩ ∧
      PartsOf r.mesh.allNodes r.rel v0 v1 v2 ve vi ∧ WetSides r.mesh.allNodes r.rel v0 v1 v2 vi) ∨
  -- in the free surface: put on both sides
  ((immersion z v0 = 0 ∧ immersion z v1 = 0 ∧ immersion z v2 = 0) ∧
    ∃ e, m.nbFacets ≤ e ∧ em = [e] ∧ im = [e + 1] ∧ r.mesh.facets[e]? = some ⟨[v0, v1, v2], n⟩ ∧
      r.mesh.facets[e + 1]? = some ⟨[v0, v1, v2], n⟩)

theorem cut_signs {v0 v1 v2 m0 m1 m2 : Nat} {z0 z1 z2 : K} {ve vi : List Nat} (h : Cut v0 v1 v2 m0 m1 m2 z0 z1 z2 ve vi) :
    (z0 < 0 ∨ z1 < 0 ∨ z2 < 0) ∧ (0 < z0 ∨ 0 < z1 ∨ 0 < z2) := by
  induction h with
  | cornerE h0 h1 h2 => exact ⟨Or.inr (Or.inr h2), Or.inl h0⟩
  | cornerI h0 h1 h2 => exact ⟨Or.inl h0, Or.inr (Or.inr h2)⟩
  | vertE h0 h1 h2 => exact ⟨Or.inr (Or.inr h2), Or.inr (Or.inl h1)⟩
  | vertI h0 h1 h2 => exact ⟨Or.inr (Or.inl h1), Or.inr (Or.inr h2)⟩
  | rotT _ ih => tauto
  | rotE3 _ ih => exact ih
  | rotE4 _ ih => exact ih
  | rotI3 _ ih => exact ih
  | rotI4 _ ih => exact ih

/-- **C40, C41.** For every hull made of triangles (with or without the dynamic data of a previous update) and all immersions of its nodes,
`update_intersection_with_free_surface` makes no out of bounds access; the static part of the mesh and the immersions of its nodes are
kept (so that the next update is also described by this theorem); every facet is dealt with, in order: it is either left as it is
on the emerged or immersed side, or replaced by its emerged and immersed parts, and no other facet is listed. -/
theorem update_triangles (m : Mesh K) (hm : TriMesh m) (z w : List K) (hz : z.length = m.nbNodes) (hw : w.length = m.nbNodes) :
    ∃ r, update m z w = .ok r ∧ TriMesh r.mesh ∧
      (r.mesh.nbNodes = m.nbNodes ∧ r.mesh.nbEdges = m.nbEdges ∧ r.mesh.nbFacets = m.nbFacets ∧
        r.mesh.facetsPerEdge = m.facetsPerEdge ∧ r.mesh.orientedEdges = m.orientedEdges) ∧
      (∀ f < m.nbFacets, r.mesh.facets[f]? = m.facets[f]?) ∧ (∀ e < m.nbEdges, r.mesh.edges[e]? = m.edges[e]?) ∧
      (∀ i < m.nbNodes, r.mesh.allNodes[i]? = m.allNodes[i]? ∧ r.rel[i]? = z[i]?) ∧
      ∃ em im : Nat → List Nat, r.emerged = (List.range m.nbFacets).flatMap em ∧ r.immersed = (List.range m.nbFacets).flatMap im ∧
        ∀ f < m.nbFacets, ∃ v0 v1 v2 n, m.facets[f]? = some ⟨[v0, v1, v2], n⟩ ∧ TriangleOutcome m z r f v0 v1 v2 n (em f) (im f) := by
  have hm' := triMesh_reset hm
  have hz' : z.length = m.reset.nbNodes := hz
  have hmf : m.reset.facets.length = m.reset.nbFacets := by
    have := hm.facets
    simp only [Mesh.reset, List.length_take]; omega
  have hel : m.reset.edges.length = m.reset.nbEdges := by
    have := hm.edges
    simp only [Mesh.reset, List.length_take]; omega
  have rk0 : rank m.reset z 0 = 0 := rfl
  have inv0 : EInv m.reset z 0
      { edges := m.reset.edges, allNodes := m.reset.allNodes, total := m.reset.total, rel := z, wave := w,
        status := List.replicate m.reset.nbEdges 0, split := List.replicate m.reset.nbEdges 0,
        crossing := List.replicate m.reset.nbFacets false } := by
    constructor
    · rfl
    · rw [rk0]; exact hel
    · rw [rk0]; simp
    · rw [rk0]; exact hz'
    · rw [rk0]; exact hw
    · exact hm'.nodes
    · simp
    · simp
    · intro e he; exact endsAt_some hm' he
    · intro i hi; rfl
    · intro i hi; exact immersion_some (by rw [hz']; exact hi)
    all_goals first
      | (intro e he; omega)
      | skip
    intro f hf
    constructor
    · intro hh; simp [hf] at hh
    · rintro ⟨e, he, _⟩; omega
  obtain ⟨s, hs1, hs⟩ := edgeLoop_inv hm' z hz' _ m.reset.nbEdges (le_refl _) inv0
  have finv0 : FInv m.reset z s 0 { edges := s.edges, facets := m.reset.facets, emerged := [], immersed := [], surface := [] } :=
    ⟨⟨[], by simp⟩, ⟨[], by simp⟩, fun _ => [], fun _ => [], rfl, rfl, by intro f hf; omega⟩
  obtain ⟨t, ht1, ht⟩ := facetLoop_inv hm' hmf hs finv0 m.reset.nbFacets (le_refl _)
  obtain ⟨le, hle⟩ := ht.edges
  obtain ⟨lf, hlf⟩ := ht.facets
  obtain ⟨em, im, hem, him, hout⟩ := ht.out
  have hF : ∀ f < m.nbFacets, t.facets[f]? = m.facets[f]? := by
    intro f hf
    rw [hlf, List.getElem?_append_left (by rw [hmf]; exact hf)]
    simp only [Mesh.reset]; rw [List.getElem?_take_of_lt hf]
  have hE : ∀ e < m.nbEdges, t.edges[e]? = m.edges[e]? := by
    intro e he
    rw [hle, List.getElem?_append_left (by rw [hs.edgesLen]; exact Nat.lt_of_lt_of_le he (Nat.le_add_right _ _)), hs.edgesStatic e he, ← endsAt_some hm' he]
    simp only [Mesh.reset]; rw [List.getElem?_take_of_lt he]
  refine ⟨{ mesh := { m.reset with edges := t.edges, facets := t.facets, allNodes := s.allNodes, total := s.total }
            rel := s.rel, wave := s.wave, emerged := t.emerged, immersed := t.immersed, surface := t.surface }, ?_, ?_,
    ⟨rfl, rfl, rfl, rfl, rfl⟩, hF, hE, ?_, em, im, hem, him, ?_⟩
  · unfold update
    simp only [bind, Except.bind, pure, Except.pure]
    rw [hs1]
    dsimp only
    rw [ht1]
  · refine triMesh_congr hm ?_ ?_ ?_ rfl rfl rfl hF rfl rfl hE
    · show m.reset.nbFacets ≤ t.facets.length
      rw [hlf, List.length_append, hmf]; omega
    · show m.reset.nbEdges ≤ t.edges.length
      rw [hle, List.length_append, hs.edgesLen]; omega
    · show s.allNodes.length = _
      rw [hs.nodesLen]; exact hm.nodes.symm
  · intro i hi
    exact ⟨hs.nodesStatic i hi, by rw [hs.relStatic i hi]; exact (immersion_some (by rw [hz]; exact hi)).symm⟩
  · intro f hf
    obtain ⟨v0, v1, v2, o0, o1, o2, T⟩ := hm'.triangle f hf
    obtain ⟨n, hn⟩ := T.vertices
    have hn' : m.facets[f]? = some ⟨[v0, v1, v2], n⟩ := by
      rw [← hn]; simp only [Mesh.reset]; rw [List.getElem?_take_of_lt hf]
    refine ⟨v0, v1, v2, n, hn', ?_⟩
    rcases hout f hf _ _ _ _ _ _ T with ⟨h1, h2, h3, h4, h5, h6⟩ | ⟨h1, h2, h3, h4, h5, h6⟩ |
      ⟨e, ve, vi, n', h1, h2, h3, h4, h5, h6, h7⟩
    · exact Or.inl ⟨⟨h1, h2, h3, h4⟩, h5, h6⟩
    · exact Or.inr (Or.inl ⟨⟨h1, h2, h3, h4⟩, h5, h6⟩)
    · rw [hn] at h4
      have hnn : n' = n := by simp at h4; exact h4.symm
      subst hnn
      have l0 := runs_lt hm' T.runs0 T.static.1
      have l1 := runs_lt hm' T.runs1 T.static.2.1
      have hrel : ∀ v < m.reset.nbNodes, immersion s.rel v = immersion z v := by
        intro v hv
        conv_lhs => unfold immersion
        rw [hs.relStatic v hv]; rfl
      rcases h7 with h7 | ⟨e0, e1, e2, rfl, rfl⟩
      · refine Or.inr (Or.inr (Or.inl ⟨?_, e, ve, vi, h1, h2, h3, h5, h6, ?_⟩))
        · simpa using cut_signs h7
        · exact ⟨partsOf_cut h7 (hrel _ l0.1) (hrel _ l0.2) (hrel _ l1.2) (midOf_inv hm' hs T.runs0 T.static.1)
            (midOf_inv hm' hs T.runs1 T.static.2.1) (midOf_inv hm' hs T.runs2 T.static.2.2),
            wetSides_cut h7 (hrel _ l0.1) (hrel _ l0.2) (hrel _ l1.2) (midOf_inv hm' hs T.runs0 T.static.1)
            (midOf_inv hm' hs T.runs1 T.static.2.1) (midOf_inv hm' hs T.runs2 T.static.2.2)⟩
      · exact Or.inr (Or.inr (Or.inr ⟨⟨e0, e1, e2⟩, e, h1, h2, h3, h5, h6⟩))

end Xdyn.Hull

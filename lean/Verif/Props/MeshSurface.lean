import Verif.Lemmas.MeshSurface
import Verif.Props.Mesh
import Verif.Props.MeshBuild

/-
C114: the edges of the waterline, from which the closing facets are made; and the wave heights of C39.
-/

namespace Xdyn.Hull

variable {K : Type} [Field K] [LinearOrder K]

/-- The two loops of `update`, with their invariants. -/
theorem update_loops (m : Mesh K) (hm : TriMesh m) (z w : List K) (hz : z.length = m.nbNodes) (hw : w.length = m.nbNodes) :
    ∃ s t, EInv m.reset z m.reset.nbEdges s ∧ WInv m.reset z w m.reset.nbEdges s ∧ FInv m.reset z s m.reset.nbFacets t ∧ SInv s.rel t ∧
      update m z w = .ok { mesh := { m.reset with edges := t.edges, facets := t.facets, allNodes := s.allNodes, total := s.total }, rel := s.rel,
                           wave := s.wave, emerged := t.emerged, immersed := t.immersed, surface := t.surface } := by
  have hm' := triMesh_reset hm
  have hz' : z.length = m.reset.nbNodes := hz
  have hmf : m.reset.facets.length = m.reset.nbFacets := by
    have := hm.facets
    simp only [Mesh.reset, List.length_take]; omega
  have hel : m.reset.edges.length = m.reset.nbEdges := by
    have := hm.edges
    simp only [Mesh.reset, List.length_take]; omega
  have rk0 : rank m.reset z 0 = 0 := rfl
  have inv0 : EInv m.reset z 0
      { edges := m.reset.edges, allNodes := m.reset.allNodes, total := m.reset.total, rel := z, wave := w,
        status := List.replicate m.reset.nbEdges 0, split := List.replicate m.reset.nbEdges 0,
        crossing := List.replicate m.reset.nbFacets false } := by
    constructor
    · rfl
    · rw [rk0]; exact hel
    · rw [rk0]; simp
    · rw [rk0]; exact hz'
    · rw [rk0]; exact hw
    · exact hm'.nodes
    · simp
    · simp
    · intro e he; exact endsAt_some hm' he
    · intro i hi; rfl
    · intro i hi; exact immersion_some (by rw [hz']; exact hi)
    all_goals first
      | (intro e he; omega)
      | skip
    intro f hf
    constructor
    · intro hh; simp [hf] at hh
    · rintro ⟨e, he, _⟩; omega
  have winv0 : WInv m.reset z w 0
      { edges := m.reset.edges, allNodes := m.reset.allNodes, total := m.reset.total, rel := z, wave := w,
        status := List.replicate m.reset.nbEdges 0, split := List.replicate m.reset.nbEdges 0,
        crossing := List.replicate m.reset.nbFacets false } :=
    ⟨by intro i hi; exact immersion_some (by rw [hw]; exact hi), by intro e he; omega⟩
  obtain ⟨s, hs1, hs, hws⟩ := edgeLoop_wave hm' z w hz' _ m.reset.nbEdges (le_refl _) inv0 winv0
  have finv0 : FInv m.reset z s 0 { edges := s.edges, facets := m.reset.facets, emerged := [], immersed := [], surface := [] } :=
    ⟨⟨[], by simp⟩, ⟨[], by simp⟩, fun _ => [], fun _ => [], rfl, rfl, by intro f hf; omega⟩
  have sinv0 : SInv s.rel { edges := s.edges, facets := m.reset.facets, emerged := [], immersed := [], surface := [] } :=
    ⟨by simp, by simp, by simp⟩
  obtain ⟨t, ht1, ht, hst⟩ := facetLoop_surface hm' hmf hs finv0 sinv0 m.reset.nbFacets (le_refl _)
  refine ⟨s, t, hs, hws, ht, hst, ?_⟩
  unfold update
  simp only [bind, Except.bind, pure, Except.pure]
  rw [hs1]
  dsimp only
  rw [ht1]

/-- **C114.** The edges kept as lying on the free surface are exactly the sides, lying in the free surface, of the facets of the emerged
and immersed parts: each one is an edge of the mesh with two different ends of zero immersion and is a side of a listed facet; and each
side of a listed facet whose ends both have zero immersion is one of them (in one direction or the other). -/
theorem waterline_edges (m : Mesh K) (hm : TriMesh m) (z w : List K) (hz : z.length = m.nbNodes) (hw : w.length = m.nbNodes) :
    ∃ r, update m z w = .ok r ∧
      (∀ c ∈ r.surface, ∃ a b, r.mesh.edges[c]? = some (a, b) ∧ a ≠ b ∧ r.rel[a]? = some 0 ∧ r.rel[b]? = some 0 ∧
        ∃ g ∈ r.emerged ++ r.immersed, ∃ F, r.mesh.facets[g]? = some F ∧ ((a, b) ∈ ring F.vertices ∨ (b, a) ∈ ring F.vertices)) ∧
      (∀ g ∈ r.emerged ++ r.immersed, ∃ F, r.mesh.facets[g]? = some F ∧ ∀ a b, (a, b) ∈ ring F.vertices →
        r.rel[a]? = some 0 → r.rel[b]? = some 0 →
        ∃ c ∈ r.surface, r.mesh.edges[c]? = some (a, b) ∨ r.mesh.edges[c]? = some (b, a)) := by
  obtain ⟨s, t, _, _, _, hS, hu⟩ := update_loops m hm z w hz hw
  refine ⟨_, hu, hS.sound, ?_⟩
  intro g hg
  exact ⟨_, List.getElem?_eq_getElem (hS.lt g hg), fun a b hab ha hb =>
    hS.complete g hg _ (List.getElem?_eq_getElem (hS.lt g hg)) (a, b) hab ha hb⟩

theorem rank_surj (m : Mesh K) (z : List K) (n k : Nat) (h : k < rank m z n) :
    ∃ e < n, crosses (stAt m z e) = true ∧ rank m z e = k := by
  induction n with
  | zero => simp [rank] at h
  | succ n ih =>
    by_cases hk : k < rank m z n
    · obtain ⟨e, h1, h2⟩ := ih hk
      exact ⟨e, by omega, h2⟩
    · rw [rank_succ] at h
      by_cases hc : crosses (stAt m z n) = true
      · rw [if_pos hc] at h
        exact ⟨n, by omega, hc, by omega⟩
      · rw [if_neg hc] at h; omega

variable [IsStrictOrderedRing K]

/-- **C39**, what `update_intersection_with_free_surface` stores. The wave heights of the nodes of the hull are kept; the nodes added are one
for each crossing edge; such a node is the point of the edge where the linearly interpolated immersion vanishes, its immersion is
zero and its wave height is interpolated at the same point of the edge. -/
theorem update_new_nodes (m : Mesh K) (hm : TriMesh m) (z w : List K) (hz : z.length = m.nbNodes) (hw : w.length = m.nbNodes) :
    ∃ r, update m z w = .ok r ∧ r.wave.length = r.rel.length ∧ r.mesh.total = r.rel.length ∧
      (∀ i < m.nbNodes, r.wave[i]? = w[i]?) ∧
      ∃ node : Nat → Nat, -- the node added on an edge
        (∀ j, m.nbNodes ≤ j → j < r.rel.length → ∃ e < m.nbEdges, node e = j ∧ ∃ a b, m.edges[e]? = some (a, b) ∧
          ((immersion z a < 0 ∧ 0 < immersion z b) ∨ (0 < immersion z a ∧ immersion z b < 0))) ∧
        (∀ e < m.nbEdges, ∀ a b, m.edges[e]? = some (a, b) →
          ((immersion z a < 0 ∧ 0 < immersion z b) ∨ (0 < immersion z a ∧ immersion z b < 0)) →
          m.nbNodes ≤ node e ∧
          ∃ k : K, 0 < k ∧ k < 1 ∧ (1 - k) * immersion z a + k * immersion z b = 0 ∧ r.rel[node e]? = some 0 ∧
            r.wave[node e]? = some ((1 - k) * immersion w a + k * immersion w b) ∧
            r.mesh.allNodes[node e]? = some (((nodeAt m.allNodes a).smul (1 - k)).add ((nodeAt m.allNodes b).smul k))) := by
  have hm' := triMesh_reset hm
  obtain ⟨s, t, hs, hW, _, _, hu⟩ := update_loops m hm z w hz hw
  have hends : ∀ e < m.nbEdges, m.edges[e]? = some (endsAt m.reset e) := by
    intro e he
    rw [← endsAt_some hm' he]
    simp only [Mesh.reset]; rw [List.getElem?_take_of_lt he]
  refine ⟨_, hu, by rw [hs.waveLen, hs.relLen], by rw [hs.relLen]; exact hs.total, ?_, fun e => m.nbNodes + rank m.reset z e, ?_, ?_⟩
  · intro i hi
    show s.wave[i]? = _
    rw [hW.static i hi]; exact (immersion_some (by rw [hw]; exact hi)).symm
  · intro j hj hj'
    have hj' : j < s.rel.length := hj'
    rw [hs.relLen] at hj'
    obtain ⟨e, h1, h2, h3⟩ := rank_surj m.reset z m.reset.nbEdges (j - m.nbNodes) (by
      have : m.reset.nbNodes = m.nbNodes := rfl
      omega)
    refine ⟨e, h1, by dsimp only; omega, _, _, hends e h1, ?_⟩
    exact (crosses_iff _ _).mp h2
  · intro e he a b hab hc
    have hE := hends e he
    rw [hab] at hE
    injection hE with hE
    have hcr : crosses (stAt m.reset z e) = true := by
      unfold stAt; rw [← hE]; exact (crosses_iff _ _).mpr hc
    have h1 := hW.mid e he hcr
    have h2 := hs.mid e he hcr
    rw [← hE] at h1 h2
    refine ⟨Nat.le_add_right _ _, immersion z a / (immersion z a - immersion z b), (frac_bounds hc).1, (frac_bounds hc).2, frac_zero hc,
      hs.midRel e he hcr, ?_, ?_⟩
    · refine h1.trans ?_
      congr 1
      dsimp only
      ring
    · refine h2.trans ?_
      congr 1
      simp only [edgeIntersection, Pt.smul, Pt.add, Pt.mk.injEq]
      refine ⟨?_, ?_, ?_⟩ <;> (show _ = _; simp only [Mesh.reset]; ring)

/-- A tetrahedron cut by the free surface, one of its vertices being on it: the waterline has edges, and nodes are added. -/
example : (tetraMesh.bind (fun m => update m [-1, 0, 1, -2] [0, 0, 4, 1])).map (fun r => (r.surface.length, r.rel, r.wave)) =
    .ok (3, [-1, 0, 1, -2, 0, 0], [0, 0, 4, 1, 2, 3]) := by decide +kernel

end Xdyn.Hull

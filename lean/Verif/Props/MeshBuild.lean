import Verif.Lemmas.MeshBuild
import Verif.Props.Mesh
import Mathlib.Algebra.BigOperators.Group.List.Basic

/-
C43: building of a mesh from a list of facets, and the meshes of triangles of C40 and C41.
-/

namespace Xdyn.Hull

variable {K : Type} [Field K] [LinearOrder K]

/-- Facet `f` of the mesh is the polygon `l`: its vertices are the points of `l` in order, its sides are edges of the mesh, side `j` running
from vertex `j` to the next one (the first one after the last one), and these edges know the facet. -/
def IsPolygon (m : Mesh K) (f : Nat) (l : List (Pt K)) (n : Pt K) : Prop :=
  ∃ vs os : List Nat, m.facets[f]? = some ⟨vs, n⟩ ∧ m.orientedEdges[f]? = some os ∧ vs.length = l.length ∧ os.length = l.length ∧
    (∀ (j : Nat) (p : Pt K), l[j]? = some p → ∃ v : Nat, vs[j]? = some v ∧ v < m.nbNodes ∧ m.allNodes[v]? = some p) ∧
    (∀ j < l.length, ∃ o v w : Nat, os[j]? = some o ∧ vs[j]? = some v ∧ vs[(j + 1) % l.length]? = some w ∧ Runs m.edges o v w ∧
      ∃ fs, m.facetsPerEdge[o / 2]? = some fs ∧ f ∈ fs)

omit [Field K] [LinearOrder K] in
theorem Sides.length {n : List (Pt K)} {e : List (Nat × Nat)} {first : Pt K} : ∀ {ps : List (Pt K)} {os : List Nat},
    Sides n e first ps os → os.length = ps.length
  | [], [], _ => rfl
  | _ :: _, _ :: _, h => by simp [Sides.length h.2]
  | [], _ :: _, h => h.elim
  | _ :: _, [], h => h.elim

omit [Field K] [LinearOrder K] in
theorem Sides.get {n : List (Pt K)} {e : List (Nat × Nat)} {first : Pt K} : ∀ {ps : List (Pt K)} {os : List Nat},
    Sides n e first ps os → ∀ j < ps.length, ∃ o p q, os[j]? = some o ∧ ps[j]? = some p ∧ (ps ++ [first])[j + 1]? = some q ∧ SideOf n e o p q
  | [], [], _ => by simp
  | p :: ps, o :: os, h => by
    intro j hj
    cases j with
    | zero =>
      refine ⟨o, p, ps.headD first, rfl, rfl, ?_, h.1⟩
      cases ps <;> simp
    | succ j =>
      obtain ⟨o', p', q', h1, h2, h3, h4⟩ := Sides.get h.2 j (by simpa using hj)
      exact ⟨o', p', q', by simpa using h1, by simpa using h2, by simpa using h3, h4⟩
  | [], _ :: _, h => h.elim
  | _ :: _, [], h => h.elim

theorem Built.polygon {normal : List (Pt K) → Except Err (Pt K)} {done : List (List (Pt K))} {b : Builder K} (hb : Built normal done b)
    {f : Nat} {l : List (Pt K)} (hl : done[f]? = some l) :
    ∃ n, normal l = .ok n ∧ IsPolygon b.toMesh f l n := by
  obtain ⟨p, ps, vs, n, os, h1, h2, h3, h4, h5, h6⟩ := hb.facet f l hl
  have hvl : vs.length = l.length := by simpa using congrArg List.length h4
  have hget : ∀ (j : Nat) p, l[j]? = some p → ∃ v, vs[j]? = some v ∧ b.nodes[v]? = some p := by
    intro j p hp
    have hj := congrArg (fun L => L[j]?) h4
    simp only [List.getElem?_map, hp, Option.map_some] at hj
    cases hv : vs[j]? with
    | none => rw [hv] at hj; cases hj
    | some v =>
      rw [hv] at hj
      simp only [Option.map_some, Option.some.injEq] at hj
      exact ⟨v, rfl, hj⟩
  have hinj : ∀ (v w : Nat) (p : Pt K), b.nodes[v]? = some p → b.nodes[w]? = some p → v = w := by
    intro v w p hv hw
    exact (List.getElem?_inj (List.getElem?_eq_some_iff.mp hv).1 hb.inv.nodup).mp (hv.trans hw.symm)
  refine ⟨n, h3, vs, os, h2, h5, hvl, h6.length, ?_, ?_⟩
  · intro j q hq
    obtain ⟨v, hv1, hv2⟩ := hget j q hq
    have := (List.getElem?_eq_some_iff.mp hv2).1
    exact ⟨v, hv1, this, by show (b.nodes ++ _)[v]? = _; rw [List.getElem?_append_left this]; exact hv2⟩
  · intro j hj
    obtain ⟨o, a, c, g1, g2, g3, v', w', g4, g5, g6⟩ := h6.get j hj
    obtain ⟨v, hv1, hv2⟩ := hget j a g2
    have hc : l[(j + 1) % l.length]? = some c := by
      by_cases hjl : j + 1 < l.length
      · rw [Nat.mod_eq_of_lt hjl]
        rw [List.getElem?_append_left hjl] at g3; exact g3
      · have hje : j + 1 = l.length := by omega
        rw [hje, Nat.mod_self]
        rw [hje] at g3
        simp at g3
        rw [h1, ← g3]; rfl
    obtain ⟨w, hw1, hw2⟩ := hget _ c hc
    have e1 := hinj v v' a hv2 g4
    have e2 := hinj w w' c hw2 g5
    subst e1 e2
    refine ⟨o, v, w, g1, hv1, hw1, g6, ?_⟩
    have hmem : f ∈ b.facetsPerEdge.getD (o / 2) [] := (hb.fpe _ _).mpr ⟨os, h5, o, List.mem_of_getElem? g1, rfl⟩
    rw [List.getD_eq_getElem?_getD] at hmem
    show ∃ fs, b.facetsPerEdge[o / 2]? = some fs ∧ f ∈ fs
    cases hfs : b.facetsPerEdge[o / 2]? with
    | none => rw [hfs] at hmem; simp at hmem
    | some fs => rw [hfs] at hmem; exact ⟨fs, rfl, hmem⟩

/-- **C43.** When a list of facets (of any numbers of points) is built: each point of the facets is stored once, and nothing else; each edge is
stored once, whatever the direction in which the facets run it, and it joins two stored points; there is one facet for each non-empty list, in order, whose
vertices give back the points of the list in order; an edge knows exactly the facets it is a side of. -/
theorem mesh_building (normal : List (Pt K) → Except Err (Pt K)) (v : List (List (Pt K))) (m : Mesh K) (h : build normal v = .ok m) :
    (m.allNodes.take m.nbNodes).Nodup ∧ (∀ p, p ∈ m.allNodes.take m.nbNodes ↔ ∃ l ∈ v, p ∈ l) ∧
    m.edges.Pairwise (fun e f => e ≠ f ∧ e ≠ (f.2, f.1)) ∧ (∀ e ∈ m.edges, e.1 < m.nbNodes ∧ e.2 < m.nbNodes) ∧
    m.nbFacets = (v.filter (fun l => l ≠ [])).length ∧ m.facets.length = m.nbFacets ∧ m.edges.length = m.nbEdges ∧
    (∀ (f : Nat) l, (v.filter (fun l => l ≠ []))[f]? = some l → ∃ n, normal l = .ok n ∧ IsPolygon m f l n) ∧
    (∀ e f fs os, m.facetsPerEdge[e]? = some fs → m.orientedEdges[f]? = some os → (f ∈ fs ↔ ∃ o ∈ os, o / 2 = e)) := by
  simp only [build, bind, Except.bind] at h
  generalize hc : v.length * (v.headD []).length = c at h
  cases hb : v.foldlM (Builder.addFacet normal) { capacity := c } with
  | error e => rw [hb] at h; cases h
  | ok b =>
    rw [hb] at h
    simp only [pure, Except.pure, Except.ok.injEq] at h
    have B := addFacets_spec v [] _ b (built_init normal c) hb
    simp only [List.nil_append] at B
    subst h
    have htake : b.toMesh.allNodes.take b.toMesh.nbNodes = b.nodes := by
      show (b.nodes ++ List.replicate b.edges.length (⟨0, 0, 0⟩ : Pt K)).take b.nodes.length = b.nodes
      rw [List.take_append_of_le_length (le_refl _), List.take_length]
    refine ⟨by rw [htake]; exact B.inv.nodup, ?_, ?_, B.inv.ends, B.nbFacets, rfl, rfl, fun f l hl => B.polygon hl, ?_⟩
    · intro p
      rw [htake]
      constructor
      · intro hp
        obtain ⟨l, hl, hpl⟩ := B.used p hp
        exact ⟨l, (List.mem_filter.mp hl).1, hpl⟩
      · rintro ⟨l, hl, hpl⟩
        have hlf : l ∈ v.filter (fun l => l ≠ []) := by
          rw [List.mem_filter]; exact ⟨hl, by simp; rintro rfl; simp at hpl⟩
        obtain ⟨f, hf⟩ := List.mem_iff_getElem?.mp hlf
        obtain ⟨n, _, vs, os, _, _, _, _, hpts, _⟩ := B.polygon hf
        obtain ⟨j, hj⟩ := List.mem_iff_getElem?.mp hpl
        obtain ⟨i, _, hi, hi2⟩ := hpts j p hj
        change (b.nodes ++ _)[i]? = _ at hi2
        change i < b.nodes.length at hi
        rw [List.getElem?_append_left hi] at hi2
        exact List.mem_of_getElem? hi2
    · refine B.inv.pw.imp ?_
      intro e f hef
      constructor
      · rintro rfl; exact hef (by simp [sameEdge])
      · rintro rfl; exact hef (by simp [sameEdge, min_comm, max_comm])
    · intro e f fs os hfs hos
      have := B.fpe e f
      change b.facetsPerEdge[e]? = some fs at hfs
      change b.orientedEdges[f]? = some os at hos
      rw [List.getD_eq_getElem?_getD, hfs] at this
      simp only [Option.getD_some] at this
      rw [this]
      constructor
      · rintro ⟨os', h1, h2⟩
        rw [hos] at h1
        injection h1 with h1
        subst h1; exact h2
      · intro h2; exact ⟨os, hos, h2⟩

/-- **C43.** Building does not write outside of the allocated columns when no facet has more points than the first one. -/
theorem mesh_building_in_bounds (normal : List (Pt K) → Except Err (Pt K)) (l : List (Pt K)) (v : List (List (Pt K)))
    (hl : ∀ l' ∈ v, l'.length ≤ l.length) (hn : ∀ l' ∈ l :: v, ∃ n, normal l' = .ok n) : ∃ m, build normal (l :: v) = .ok m := by
  simp only [build, bind, Except.bind]
  have hlen : (l :: v).flatten.length ≤ (l :: v).length * l.length := by
    rw [List.length_flatten]
    have key : ∀ u : List (List (Pt K)), (∀ l' ∈ u, l'.length ≤ l.length) → (u.map List.length).sum ≤ u.length * l.length := by
      intro u
      induction u with
      | nil => simp
      | cons a u ih =>
        intro hu
        have h1 := hu a (by simp)
        have h2 := ih (fun l' hl' => hu l' (by simp [hl']))
        simp only [List.map_cons, List.sum_cons, List.length_cons, Nat.succ_mul]
        omega
    apply key
    intro l' hl'
    rcases List.mem_cons.mp hl' with rfl | hl'
    · exact le_refl _
    · exact hl l' hl'
  obtain ⟨b, hb⟩ := addFacets_ok (normal := normal) (l :: v).flatten (l :: v) [] _ (built_init normal ((l :: v).length * l.length)) hlen
    (by simp) (fun l' hl' => ⟨fun q hq => List.mem_flatten.mpr ⟨l', hl', hq⟩, hn l' hl'⟩)
  rw [List.headD_cons, hb]
  exact ⟨_, rfl⟩

/-- Otherwise it may: a first triangle followed by a big facet. -/
theorem mesh_building_overflow : build (fun _ => .ok (⟨0, 0, 1⟩ : Pt ℚ))
    [[⟨0, 0, 0⟩, ⟨1, 0, 0⟩, ⟨1, 1, 0⟩], [⟨0, 0, 1⟩, ⟨1, 0, 1⟩, ⟨1, 1, 1⟩, ⟨0, 1, 1⟩]] = .error .ub := by
  decide +kernel

/-- The meshes built from triangles with three different vertices are those of `update_triangles`. -/
theorem build_triangles (normal : List (Pt K) → Except Err (Pt K)) (v : List (List (Pt K)))
    (hv : ∀ l ∈ v, ∃ a b c : Pt K, l = [a, b, c] ∧ a ≠ b ∧ b ≠ c ∧ c ≠ a ∧ ∃ n, normal l = .ok n) :
    ∃ m, build normal v = .ok m ∧ TriMesh m ∧ m.nbFacets = v.length := by
  have hex : ∃ m, build normal v = .ok m := by
    cases v with
    | nil => exact ⟨_, rfl⟩
    | cons l v =>
      apply mesh_building_in_bounds
      · intro l' hl'
        obtain ⟨a, b, c, rfl, _⟩ := hv l (by simp)
        obtain ⟨a', b', c', rfl, _⟩ := hv l' (by simp [hl'])
        simp
      · intro l' hl'
        obtain ⟨_, _, _, _, _, _, _, h⟩ := hv l' hl'
        exact h
  obtain ⟨m, hm⟩ := hex
  have hm0 := hm
  simp only [build, bind, Except.bind] at hm
  generalize hc : v.length * (v.headD []).length = c at hm
  cases hb : v.foldlM (Builder.addFacet normal) { capacity := c } with
  | error e => rw [hb] at hm; cases hm
  | ok b =>
    rw [hb] at hm
    simp only [pure, Except.pure, Except.ok.injEq] at hm
    have B := addFacets_spec v [] _ b (built_init normal c) hb
    simp only [List.nil_append] at B
    have hfil : v.filter (fun l => l ≠ []) = v := by
      rw [List.filter_eq_self]
      intro l hl
      obtain ⟨a, b, c, rfl, _⟩ := hv l hl
      simp
    rw [hfil] at B
    refine ⟨m, hm0, ?_, by rw [← hm]; exact B.nbFacets⟩
    subst hm
    have hedge : ∀ {o v w : Nat}, Runs b.edges o v w → o / 2 < b.edges.length := by
      intro o v w hr
      rcases hr with ⟨_, h⟩ | ⟨_, h⟩ <;> exact (List.getElem?_eq_some_iff.mp h).1
    refine ⟨le_refl _, le_refl _, by simp [Builder.toMesh], B.inv.fpeLen, by show b.orientedEdges.length = b.facets.length; rw [B.nbOe, B.nbFacets], ?_, ?_, ?_⟩
    · intro e he p hp
      exact B.inv.ends p (List.mem_of_getElem? hp)
    · intro e fs hfs f hf
      change b.facetsPerEdge[e]? = some fs at hfs
      have := (B.fpe e f).mp (by rw [List.getD_eq_getElem?_getD, hfs]; exact hf)
      obtain ⟨os, h1, _⟩ := this
      show f < b.facets.length
      rw [B.nbFacets, ← B.nbOe]; exact (List.getElem?_eq_some_iff.mp h1).1
    · intro f hf
      change f < b.facets.length at hf
      rw [B.nbFacets] at hf
      have hfl : v[f]? = some v[f] := List.getElem?_eq_getElem hf
      obtain ⟨P0, P1, P2, hl, h01, h12, h20, _⟩ := hv v[f] (List.getElem_mem hf)
      obtain ⟨n, _, vs, os, g1, g2, g3, g4, g5, g6⟩ := B.polygon hfl
      rw [hl] at g3 g4 g5 g6
      simp only [List.length_cons, List.length_nil, Nat.zero_add, Nat.reduceAdd] at g3 g4 g6
      obtain ⟨o0, v0, v1, a1, a2, a3, a4, a5⟩ := g6 0 (by omega)
      obtain ⟨o1, v1', v2, b1, b2, b3, b4, b5⟩ := g6 1 (by omega)
      obtain ⟨o2, v2', v0', c1, c2, c3, c4, c5⟩ := g6 2 (by omega)
      simp only [Nat.zero_add, Nat.reduceAdd, Nat.reduceMod] at a3 b3 c3
      rw [a3] at b2; rw [b3] at c2; rw [a2] at c3
      injection b2 with b2; injection c2 with c2; injection c3 with c3
      subst b2 c2 c3
      obtain ⟨q0, d0, _, e0⟩ := g5 0 P0 rfl
      obtain ⟨q1, d1, _, e1⟩ := g5 1 P1 rfl
      obtain ⟨q2, d2, _, e2⟩ := g5 2 P2 rfl
      rw [a2] at d0; rw [a3] at d1; rw [b3] at d2
      injection d0 with d0; injection d1 with d1; injection d2 with d2
      subst d0 d1 d2
      have hvs : vs = [v0, v1, v2] := by
        apply List.ext_getElem?
        intro i
        match i with
        | 0 => exact a2
        | 1 => exact a3
        | 2 => exact b3
        | i + 3 => rw [List.getElem?_eq_none (by omega)]; rfl
      have hos : os = [o0, o1, o2] := by
        apply List.ext_getElem?
        intro i
        match i with
        | 0 => exact a1
        | 1 => exact b1
        | 2 => exact c1
        | i + 3 => rw [List.getElem?_eq_none (by omega)]; rfl
      refine ⟨v0, v1, v2, o0, o1, o2, ⟨n, by rw [g1, hvs]⟩, by rw [g2, hos], ?_, ?_, ?_, a4, b4, c4, ⟨hedge a4, hedge b4, hedge c4⟩, ?_⟩
      · rintro rfl; rw [e0] at e1; injection e1 with e1; exact h01 e1
      · rintro rfl; rw [e1] at e2; injection e2 with e2; exact h12 e2
      · rintro rfl; rw [e2] at e0; injection e0 with e0; exact h20 e0
      · intro o ho
        simp only [List.mem_cons, List.not_mem_nil, or_false] at ho
        rcases ho with rfl | rfl | rfl
        · exact a5
        · exact b5
        · exact c5

/-- A tetrahedron with one vertex under water, one on the surface and two above. -/
def tetra : List (List (Pt ℚ)) :=
  let A : Pt ℚ := ⟨0, 0, 0⟩
  let B : Pt ℚ := ⟨1, 0, 0⟩
  let C : Pt ℚ := ⟨0, 1, 0⟩
  let D : Pt ℚ := ⟨0, 0, 1⟩
  [[A, C, B], [A, B, D], [B, C, D], [C, A, D]]

/-- The hypotheses of `build_triangles`, thus of `update_triangles`, are met by `tetra`; the mesh has four nodes, six edges and four facets. -/
example : (∀ l ∈ tetra, ∃ a b c : Pt ℚ, l = [a, b, c] ∧ a ≠ b ∧ b ≠ c ∧ c ≠ a ∧ ∃ n, (fun _ => Except.ok (ε := Err) (⟨0, 0, 1⟩ : Pt ℚ)) l = .ok n) := by
  intro l hl
  simp only [tetra, List.mem_cons, List.not_mem_nil, or_false] at hl
  rcases hl with rfl | rfl | rfl | rfl <;>
    exact ⟨_, _, _, rfl, by decide +kernel, by decide +kernel, by decide +kernel, _, rfl⟩

def tetraMesh : Except Err (Mesh ℚ) := build (fun _ => .ok (⟨0, 0, 1⟩ : Pt ℚ)) tetra

example : tetraMesh.map (fun m => (m.nbNodes, m.nbEdges, m.nbFacets)) = .ok (4, 6, 4) := by decide +kernel

/-- With immersions -1 (A), 0 (C), 1 (B), -2 (D): facet 3 stays emerged, the other ones are split. -/
example : (tetraMesh.bind (fun m => update m [-1, 0, 1, -2] [0, 0, 0, 0])).map (fun r => (r.emerged, r.immersed)) =
    .ok ([4, 6, 8, 3], [5, 7, 9]) := by decide +kernel

end Xdyn.Hull

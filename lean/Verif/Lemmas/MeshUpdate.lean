import Verif.Lemmas.MeshTriangle
import Verif.Lemmas.MeshGeometry

/-
The loop on the facets, and `update_intersection_with_free_surface`.
-/

namespace Xdyn.Hull

variable {K : Type} [Field K] [LinearOrder K]

/-- What is done of facet `f`: `em` and `im` are the facets added to the emerged and to the immersed ones. -/
def Out (m : Mesh K) (z : List K) (facets : List (Facet K)) (f v0 v1 v2 o0 o1 o2 : Nat) (em im : List Nat) : Prop :=
  (immersion z v0 ≤ 0 ∧ immersion z v1 ≤ 0 ∧ immersion z v2 ≤ 0 ∧
    ¬ (immersion z v0 = 0 ∧ immersion z v1 = 0 ∧ immersion z v2 = 0) ∧ em = [f] ∧ im = []) ∨
  (0 ≤ immersion z v0 ∧ 0 ≤ immersion z v1 ∧ 0 ≤ immersion z v2 ∧
    ¬ (immersion z v0 = 0 ∧ immersion z v1 = 0 ∧ immersion z v2 = 0) ∧ em = [] ∧ im = [f]) ∨
  (∃ e ve vi n, m.nbFacets ≤ e ∧ em = [e] ∧ im = [e + 1] ∧ m.facets[f]? = some ⟨[v0, v1, v2], n⟩ ∧
    facets[e]? = some ⟨ve, n⟩ ∧ facets[e + 1]? = some ⟨vi, n⟩ ∧
    (Cut v0 v1 v2 (m.nbNodes + rank m z (o0 / 2)) (m.nbNodes + rank m z (o1 / 2)) (m.nbNodes + rank m z (o2 / 2))
        (immersion z v0) (immersion z v1) (immersion z v2) ve vi ∨
      (immersion z v0 = 0 ∧ immersion z v1 = 0 ∧ immersion z v2 = 0 ∧ ve = [v0, v1, v2] ∧ vi = [v0, v1, v2])))

theorem Out.mono {m : Mesh K} {z : List K} {facets : List (Facet K)} {f v0 v1 v2 o0 o1 o2 : Nat} {em im : List Nat}
    (h : Out m z facets f v0 v1 v2 o0 o1 o2 em im) (l : List (Facet K)) :
    Out m z (facets ++ l) f v0 v1 v2 o0 o1 o2 em im := by
  rcases h with h | h | ⟨e, ve, vi, n, h1, h2, h3, h4, h5, h6, h7⟩
  · exact Or.inl h
  · exact Or.inr (Or.inl h)
  · refine Or.inr (Or.inr ⟨e, ve, vi, n, h1, h2, h3, h4, ?_, ?_, h7⟩)
    · rw [List.getElem?_append_left (List.getElem?_eq_some_iff.mp h5).1]; exact h5
    · rw [List.getElem?_append_left (List.getElem?_eq_some_iff.mp h6).1]; exact h6

/-- Invariant of the loop on the facets. -/
structure FInv (m : Mesh K) (z : List K) (s : EdgeSt K) (n : Nat) (t : FacetSt K) : Prop where
  edges : ∃ l, t.edges = s.edges ++ l
  facets : ∃ l, t.facets = m.facets ++ l
  out : ∃ em im : Nat → List Nat, t.emerged = (List.range n).flatMap em ∧ t.immersed = (List.range n).flatMap im ∧
    ∀ f < n, ∀ v0 v1 v2 o0 o1 o2, IsTriangle m f v0 v1 v2 o0 o1 o2 →
      Out m z t.facets f v0 v1 v2 o0 o1 o2 (em f) (im f)

theorem runs_lt {m : Mesh K} (hm : TriMesh m) {o v w : Nat} (h : Runs m.edges o v w) (ho : o / 2 < m.nbEdges) :
    v < m.nbNodes ∧ w < m.nbNodes := by
  rcases h with ⟨_, h⟩ | ⟨_, h⟩
  · exact hm.ends _ ho _ h
  · exact (hm.ends _ ho _ h).symm

theorem runs_unique {edges : List (Nat × Nat)} {o v w v' w' : Nat} (h : Runs edges o v w) (h' : Runs edges o v' w') :
    v = v' ∧ w = w' := by
  rcases h with ⟨h1, h2⟩ | ⟨h1, h2⟩ <;> rcases h' with ⟨h3, h4⟩ | ⟨h3, h4⟩
  · rw [h2] at h4; injection h4 with h4; injection h4 with a b; exact ⟨a, b⟩
  · omega
  · omega
  · rw [h2] at h4; injection h4 with h4; injection h4 with a b; exact ⟨b, a⟩

/-- Two sides with the same index have the same ends. -/
theorem ends_of_runs {edges : List (Nat × Nat)} {o o' v w v' w' : Nat} (h : Runs edges o v w) (h' : Runs edges o' v' w')
    (he : o / 2 = o' / 2) : (v = v' ∧ w = w') ∨ (v = w' ∧ w = v') := by
  rcases h with ⟨h1, h2⟩ | ⟨h1, h2⟩ <;> rcases h' with ⟨h3, h4⟩ | ⟨h3, h4⟩ <;>
    (rw [he, h4] at h2; injection h2 with h2; injection h2 with a b; simp [a, b])

/-- Status of the edge of a side. -/
theorem stAt_runs {m : Mesh K} (hm : TriMesh m) (z : List K) {o v w : Nat} (h : Runs m.edges o v w) (ho : o / 2 < m.nbEdges) :
    stAt m z (o / 2) = edgeStatus (immersion z v) (immersion z w) ∨
    stAt m z (o / 2) = edgeStatus (immersion z w) (immersion z v) := by
  have := endsAt_some hm ho
  rcases h with ⟨_, h⟩ | ⟨_, h⟩ <;> (rw [this] at h; injection h with h; simp [stAt, h])

theorem crosses_runs {m : Mesh K} (hm : TriMesh m) (z : List K) {o v w : Nat} (h : Runs m.edges o v w) (ho : o / 2 < m.nbEdges) :
    crosses (stAt m z (o / 2)) = true ↔ (immersion z v < 0 ∧ 0 < immersion z w) ∨ (0 < immersion z v ∧ immersion z w < 0) := by
  rcases stAt_runs hm z h ho with h | h <;> rw [h, crosses_iff]
  tauto

theorem touches_runs {m : Mesh K} (hm : TriMesh m) (z : List K) {o v w : Nat} (h : Runs m.edges o v w) (ho : o / 2 < m.nbEdges) :
    touches (stAt m z (o / 2)) = true ↔ (immersion z v < 0 ∧ 0 < immersion z w) ∨ (0 < immersion z v ∧ immersion z w < 0) ∨
      immersion z v = 0 ∨ immersion z w = 0 := by
  rcases stAt_runs hm z h ho with h | h <;> rw [h, touches_iff]
  tauto

theorem isEmerged_runs {m : Mesh K} (hm : TriMesh m) (z : List K) {o v w : Nat} (h : Runs m.edges o v w) (ho : o / 2 < m.nbEdges) :
    isEmerged (stAt m z (o / 2)) = true ↔ immersion z v ≤ 0 ∧ immersion z w ≤ 0 ∧ ¬ (immersion z v = 0 ∧ immersion z w = 0) := by
  rcases stAt_runs hm z h ho with h | h <;> rw [h, isEmerged_iff]
  tauto

theorem flatMap_range_succ (n : Nat) (em em' : Nat → List Nat) (h : ∀ f < n, em' f = em f) :
    (List.range (n + 1)).flatMap em' = (List.range n).flatMap em ++ em' n := by
  rw [List.range_succ, List.flatMap_append, List.flatMap_singleton]
  congr 1
  refine List.flatMap_congr ?_
  intro f hf
  exact h f (List.mem_range.mp hf)

theorem isTriangle_unique {m : Mesh K} {f v0 v1 v2 o0 o1 o2 w0 w1 w2 p0 p1 p2 : Nat} (h : IsTriangle m f v0 v1 v2 o0 o1 o2)
    (h' : IsTriangle m f w0 w1 w2 p0 p1 p2) : v0 = w0 ∧ v1 = w1 ∧ v2 = w2 ∧ o0 = p0 ∧ o1 = p1 ∧ o2 = p2 := by
  obtain ⟨n, hn⟩ := h.vertices
  obtain ⟨n', hn'⟩ := h'.vertices
  rw [hn] at hn'
  have ho := h.oriented
  rw [h'.oriented] at ho
  simp at hn' ho
  tauto

/-- One iteration of the loop on the facets. -/
theorem facetStep_inv {m : Mesh K} (hm : TriMesh m) (hmf : m.facets.length = m.nbFacets) {z : List K} {s : EdgeSt K}
    (h : EInv m z m.nbEdges s) {n : Nat} (hn : n < m.nbFacets) {t : FacetSt K} (ht : FInv m z s n t) :
    ∃ t', facetStep s.status s.split s.crossing m.orientedEdges t n = .ok t' ∧ FInv m z s (n + 1) t' := by
  obtain ⟨v0, v1, v2, o0, o1, o2, T⟩ := hm.triangle n hn
  obtain ⟨s0, s1, s2⟩ := T.static
  obtain ⟨b, hb⟩ : ∃ b, s.crossing[n]? = some b := ⟨_, List.getElem?_eq_getElem (by rw [h.crossLen]; exact hn)⟩
  obtain ⟨le, hle⟩ := ht.edges
  obtain ⟨lf, hlf⟩ := ht.facets
  obtain ⟨em, im, hem, him, hout⟩ := ht.out
  obtain ⟨nn, hnn⟩ := T.vertices
  unfold facetStep
  simp only [getUB_ok hb, bind, Except.bind]
  cases b with
  | false =>
    rw [if_neg (by decide)]
    unfold classifyFacet
    have hno : ∀ o ∈ [o0, o1, o2], touches (stAt m z (o / 2)) = false := by
      intro o ho
      by_contra hc
      have hc : touches (stAt m z (o / 2)) = true := by simpa using hc
      obtain ⟨fs, hfs, hff⟩ := T.known o ho
      have hlt : o / 2 < m.nbEdges := by
        simp only [List.mem_cons, List.not_mem_nil, or_false] at ho
        rcases ho with rfl | rfl | rfl <;> assumption
      have := (h.mark n hn).mpr ⟨o / 2, hlt, hc, fs, hfs, hff⟩
      rw [this] at hb; simp at hb
    have t0 := hno o0 (by simp); have t1 := hno o1 (by simp); have t2 := hno o2 (by simp)
    have t0 := mt (touches_runs hm z T.runs0 s0).mpr (by simp [t0])
    have t1 := mt (touches_runs hm z T.runs1 s1).mpr (by simp [t1])
    have t2 := mt (touches_runs hm z T.runs2 s2).mpr (by simp [t2])
    have g0 : getUB [o0, o1, o2] 0 = .ok o0 := rfl
    simp only [getUB_ok T.oriented, g0, bind, Except.bind, edgeIndex_eq, getUB_ok (h.stat _ s0), pure, Except.pure]
    have hem0 := isEmerged_runs hm z T.runs0 s0
    by_cases hE : isEmerged (stAt m z (o0 / 2)) = true
    · rw [if_pos hE]
      obtain ⟨e1, e2, e3⟩ := hem0.mp hE
      refine ⟨_, rfl, ⟨le, hle⟩, ⟨lf, hlf⟩, fun f => if f = n then [n] else em f, fun f => if f = n then [] else im f, ?_, ?_, ?_⟩
      · rw [flatMap_range_succ n em _ (by intro f hf; rw [if_neg (by omega)]), hem, if_pos rfl]
      · rw [flatMap_range_succ n im _ (by intro f hf; rw [if_neg (by omega)]), him, if_pos rfl, List.append_nil]
      · intro f hf w0 w1 w2 p0 p1 p2 hT
        by_cases hfn : f = n
        · subst hfn
          dsimp only
          rw [if_pos rfl, if_pos rfl]
          obtain ⟨rfl, rfl, rfl, rfl, rfl, rfl⟩ := isTriangle_unique T hT
          left
          have : immersion z v2 ≤ 0 := by
            by_contra hc
            have hc := not_le.mp hc
            rcases e1.lt_or_eq with h1 | h1
            · exact t2 (Or.inr (Or.inl ⟨hc, h1⟩))
            · exact t2 (Or.inr (Or.inr (Or.inr h1)))
          exact ⟨e1, e2, this, fun hh => e3 ⟨hh.1, hh.2.1⟩, rfl, rfl⟩
        · dsimp only
          rw [if_neg hfn, if_neg hfn]
          exact hout f (by omega) _ _ _ _ _ _ hT
    · rw [if_neg hE]
      have hz0 : immersion z v0 ≠ 0 := fun hh => t0 (Or.inr (Or.inr (Or.inl hh)))
      have hz1 : immersion z v1 ≠ 0 := fun hh => t0 (Or.inr (Or.inr (Or.inr hh)))
      have hz2 : immersion z v2 ≠ 0 := fun hh => t1 (Or.inr (Or.inr (Or.inr hh)))
      have e0 : 0 ≤ immersion z v0 := by
        by_contra hc
        have hc := not_le.mp hc
        rcases lt_or_gt_of_ne hz1 with h1 | h1
        · exact hE (hem0.mpr ⟨hc.le, h1.le, fun hh => hz0 hh.1⟩)
        · exact t0 (Or.inl ⟨hc, h1⟩)
      have e0' := lt_of_le_of_ne e0 (Ne.symm hz0)
      have e1 : 0 ≤ immersion z v1 := by
        by_contra hc
        exact t0 (Or.inr (Or.inl ⟨e0', not_le.mp hc⟩))
      have e2 : 0 ≤ immersion z v2 := by
        by_contra hc
        exact t2 (Or.inl ⟨not_le.mp hc, e0'⟩)
      refine ⟨_, rfl, ⟨le, hle⟩, ⟨lf, hlf⟩, fun f => if f = n then [] else em f, fun f => if f = n then [n] else im f, ?_, ?_, ?_⟩
      · rw [flatMap_range_succ n em _ (by intro f hf; rw [if_neg (by omega)]), hem, if_pos rfl, List.append_nil]
      · rw [flatMap_range_succ n im _ (by intro f hf; rw [if_neg (by omega)]), him, if_pos rfl]
      · intro f hf w0 w1 w2 p0 p1 p2 hT
        by_cases hfn : f = n
        · subst hfn
          dsimp only
          rw [if_pos rfl, if_pos rfl]
          obtain ⟨rfl, rfl, rfl, rfl, rfl, rfl⟩ := isTriangle_unique T hT
          exact Or.inr (Or.inl ⟨e0, e1, e2, fun hh => hz0 hh.1, rfl, rfl⟩)
        · dsimp only
          rw [if_neg hfn, if_neg hfn]
          exact hout f (by omega) _ _ _ _ _ _ hT
  | true =>
    rw [if_pos rfl]
    have side : ∀ {o v w : Nat}, o / 2 < m.nbEdges → Runs m.edges o v w → ∃ a b, Side s.status s.split t.edges o v w
        (immersion z v) (immersion z w) (m.nbNodes + rank m z (o / 2)) a b := by
      intro o v w ho hr
      obtain ⟨a, b, S⟩ := side_of_inv hm h ho hr
      refine ⟨a, b, ?_⟩
      rw [hle]
      exact ⟨runs_append S.runs _, fun c => runs_append (S.half1 c) _, fun c => runs_append (S.half2 c) _, S.step⟩
    obtain ⟨a0, b0, S0⟩ := side s0 T.runs0
    obtain ⟨a1, b1, S1⟩ := side s1 T.runs1
    obtain ⟨a2, b2, S2⟩ := side s2 T.runs2
    have l0 := runs_lt hm T.runs0 s0; have l1 := runs_lt hm T.runs1 s1
    have hf : t.facets[n]? = some ⟨[v0, v1, v2], nn⟩ := by
      rw [hlf, List.getElem?_append_left (by rw [hmf]; exact hn)]; exact hnn
    have dis : ∀ {o o' v w v' w' : Nat}, o / 2 < m.nbEdges → o' / 2 < m.nbEdges → Runs m.edges o v w → Runs m.edges o' v' w' →
        v ≠ v' → v ≠ w' → (immersion z v < 0 ∧ 0 < immersion z w) ∨ (0 < immersion z v ∧ immersion z w < 0) →
        (immersion z v' < 0 ∧ 0 < immersion z w') ∨ (0 < immersion z v' ∧ immersion z w' < 0) →
        m.nbNodes + rank m z (o / 2) ≠ m.nbNodes + rank m z (o' / 2) := by
      intro o o' v w v' w' ho ho' hr hr' hne1 hne2 hc hc' heq
      have := rank_inj m z ((crosses_runs hm z hr ho).mpr hc) ((crosses_runs hm z hr' ho').mpr hc') (by omega)
      rcases ends_of_runs hr hr' this with h1 | h1
      · exact hne1 h1.1
      · exact hne2 h1.1
    obtain ⟨t', h1, ⟨l, hl⟩, h3⟩ := splitFacet_triangle T.oriented hf S0 S1 S2 T.ne01 T.ne12 T.ne20
      (by
        intro v hv mm hmm
        have : v < m.nbNodes := by
          simp only [List.mem_cons, List.not_mem_nil, or_false] at hv
          rcases hv with rfl | rfl | rfl
          · exact l0.1
          · exact l0.2
          · exact l1.2
        have : m.nbNodes ≤ mm := by
          simp only [List.mem_cons, List.not_mem_nil, or_false] at hmm
          rcases hmm with rfl | rfl | rfl <;> omega
        omega)
      (fun c c' => dis s0 s1 T.runs0 T.runs1 T.ne01 T.ne20.symm c c')
      (fun c c' => dis s1 s2 T.runs1 T.runs2 T.ne12 T.ne01.symm c c')
      (fun c c' => dis s2 s0 T.runs2 T.runs0 T.ne20 T.ne12.symm c c')
    refine ⟨t', h1, ?_⟩
    have hedges : ∃ l, t'.edges = s.edges ++ l := ⟨le ++ l, by rw [hl, hle, List.append_assoc]⟩
    rcases h3 with ⟨z0, z1, z2, znz, hfac, hE, hI⟩ | ⟨z0, z1, z2, znz, hfac, hE, hI⟩ | ⟨ve, vi, hcut, hfac, hE, hI⟩
    · refine ⟨hedges, ⟨lf, by rw [hfac, hlf]⟩, fun f => if f = n then [n] else em f, fun f => if f = n then [] else im f, ?_, ?_, ?_⟩
      · rw [flatMap_range_succ n em _ (by intro f hf; rw [if_neg (by omega)]), hE, hem, if_pos rfl]
      · rw [flatMap_range_succ n im _ (by intro f hf; rw [if_neg (by omega)]), hI, him, if_pos rfl, List.append_nil]
      · intro f hf w0 w1 w2 p0 p1 p2 hT
        by_cases hfn : f = n
        · subst hfn
          dsimp only
          rw [if_pos rfl, if_pos rfl]
          obtain ⟨rfl, rfl, rfl, rfl, rfl, rfl⟩ := isTriangle_unique T hT
          exact Or.inl ⟨z0, z1, z2, znz, rfl, rfl⟩
        · dsimp only
          rw [if_neg hfn, if_neg hfn, hfac]
          exact hout f (by omega) _ _ _ _ _ _ hT
    · refine ⟨hedges, ⟨lf, by rw [hfac, hlf]⟩, fun f => if f = n then [] else em f, fun f => if f = n then [n] else im f, ?_, ?_, ?_⟩
      · rw [flatMap_range_succ n em _ (by intro f hf; rw [if_neg (by omega)]), hE, hem, if_pos rfl, List.append_nil]
      · rw [flatMap_range_succ n im _ (by intro f hf; rw [if_neg (by omega)]), hI, him, if_pos rfl]
      · intro f hf w0 w1 w2 p0 p1 p2 hT
        by_cases hfn : f = n
        · subst hfn
          dsimp only
          rw [if_pos rfl, if_pos rfl]
          obtain ⟨rfl, rfl, rfl, rfl, rfl, rfl⟩ := isTriangle_unique T hT
          exact Or.inr (Or.inl ⟨z0, z1, z2, znz, rfl, rfl⟩)
        · dsimp only
          rw [if_neg hfn, if_neg hfn, hfac]
          exact hout f (by omega) _ _ _ _ _ _ hT
    · refine ⟨hedges, ⟨lf ++ [⟨ve, nn⟩, ⟨vi, nn⟩], by rw [hfac, hlf, List.append_assoc]⟩,
        fun f => if f = n then [t.facets.length] else em f, fun f => if f = n then [t.facets.length + 1] else im f, ?_, ?_, ?_⟩
      · rw [flatMap_range_succ n em _ (by intro f hf; rw [if_neg (by omega)]), hE, hem, if_pos rfl]
      · rw [flatMap_range_succ n im _ (by intro f hf; rw [if_neg (by omega)]), hI, him, if_pos rfl]
      · intro f hf w0 w1 w2 p0 p1 p2 hT
        by_cases hfn : f = n
        · subst hfn
          dsimp only
          rw [if_pos rfl, if_pos rfl, hfac]
          obtain ⟨rfl, rfl, rfl, rfl, rfl, rfl⟩ := isTriangle_unique T hT
          refine Or.inr (Or.inr ⟨t.facets.length, ve, vi, nn, ?_, rfl, rfl, hnn, ?_, ?_, hcut⟩)
          · rw [hlf, List.length_append, hmf]; omega
          · simp
          · rw [List.getElem?_append_right (by omega), Nat.add_sub_cancel_left]; rfl
        · dsimp only
          rw [if_neg hfn, if_neg hfn, hfac]
          exact (hout f (by omega) _ _ _ _ _ _ hT).mono _

theorem facetLoop_inv {m : Mesh K} (hm : TriMesh m) (hmf : m.facets.length = m.nbFacets) {z : List K} {s : EdgeSt K}
    (h : EInv m z m.nbEdges s) {t : FacetSt K} (ht : FInv m z s 0 t) (n : Nat) (hn : n ≤ m.nbFacets) :
    ∃ t', (List.range n).foldlM (facetStep s.status s.split s.crossing m.orientedEdges) t = .ok t' ∧ FInv m z s n t' := by
  induction n with
  | zero => exact ⟨t, rfl, ht⟩
  | succ n ih =>
    obtain ⟨t1, h1, h2⟩ := ih (by omega)
    obtain ⟨t2, h3, h4⟩ := facetStep_inv hm hmf h (by omega) h2
    refine ⟨t2, ?_, h4⟩
    rw [List.range_succ, List.foldlM_append, h1]
    simp only [List.foldlM_cons, List.foldlM_nil, bind, Except.bind, h3, pure, Except.pure]

/-! ### `reset` -/

theorem isTriangle_congr {m m' : Mesh K} {f v0 v1 v2 o0 o1 o2 : Nat} (hf : m'.facets[f]? = m.facets[f]?)
    (hoe : m'.orientedEdges = m.orientedEdges) (hfpe : m'.facetsPerEdge = m.facetsPerEdge) (hnb : m'.nbEdges = m.nbEdges)
    (he : ∀ e < m.nbEdges, m'.edges[e]? = m.edges[e]?) (h : IsTriangle m f v0 v1 v2 o0 o1 o2) :
    IsTriangle m' f v0 v1 v2 o0 o1 o2 where
  vertices := by rw [hf]; exact h.vertices
  oriented := by rw [hoe]; exact h.oriented
  ne01 := h.ne01
  ne12 := h.ne12
  ne20 := h.ne20
  runs0 := runs_of_getElem? h.runs0 (he _ h.static.1)
  runs1 := runs_of_getElem? h.runs1 (he _ h.static.2.1)
  runs2 := runs_of_getElem? h.runs2 (he _ h.static.2.2)
  static := by rw [hnb]; exact h.static
  known := by rw [hfpe]; exact h.known

theorem triMesh_congr {m m' : Mesh K} (hm : TriMesh m) (hF : m'.nbFacets ≤ m'.facets.length) (hE : m'.nbEdges ≤ m'.edges.length)
    (hN : m'.allNodes.length = m.allNodes.length)
    (h1 : m'.nbFacets = m.nbFacets) (h2 : m'.nbEdges = m.nbEdges) (h3 : m'.nbNodes = m.nbNodes)
    (hf : ∀ f < m.nbFacets, m'.facets[f]? = m.facets[f]?)
    (hoe : m'.orientedEdges = m.orientedEdges) (hfpe : m'.facetsPerEdge = m.facetsPerEdge)
    (he : ∀ e < m.nbEdges, m'.edges[e]? = m.edges[e]?) : TriMesh m' where
  edges := hE
  facets := hF
  nodes := by rw [hN, h2, h3]; exact hm.nodes
  fpe := by rw [hfpe, h2]; exact hm.fpe
  oe := by rw [hoe, h1]; exact hm.oe
  ends := by
    intro e hlt p hp
    rw [h2] at hlt
    rw [he e hlt] at hp
    rw [h3]; exact hm.ends e hlt p hp
  fpeLt := by rw [hfpe, h1]; exact hm.fpeLt
  triangle := by
    intro f hlt
    rw [h1] at hlt
    obtain ⟨v0, v1, v2, o0, o1, o2, T⟩ := hm.triangle f hlt
    exact ⟨v0, v1, v2, o0, o1, o2, isTriangle_congr (hf f hlt) hoe hfpe h2 he T⟩

theorem triMesh_reset {m : Mesh K} (hm : TriMesh m) : TriMesh m.reset := by
  refine triMesh_congr hm ?_ ?_ rfl rfl rfl rfl ?_ rfl rfl ?_
  · have := hm.facets
    simp only [Mesh.reset, List.length_take]; omega
  · have := hm.edges
    simp only [Mesh.reset, List.length_take]; omega
  · intro f hf
    simp only [Mesh.reset]; rw [List.getElem?_take_of_lt hf]
  · intro e he
    simp only [Mesh.reset]; rw [List.getElem?_take_of_lt he]

end Xdyn.Hull

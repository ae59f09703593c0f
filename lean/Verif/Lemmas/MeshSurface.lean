import Verif.Lemmas.MeshUpdate

/-
The edges of the waterline: `index_of_edges_exactly_on_surface`.
-/

namespace Xdyn.Hull

variable {K : Type}

section Triangle

variable [Field K] [LinearOrder K]

set_option maxHeartbeats 2000000 in
theorem splitFacet_surface {status split : List Nat} {oe : List (List Nat)} {s : FacetSt K}
    {f v0 v1 v2 o0 o1 o2 m0 m1 m2 a0 b0 a1 b1 a2 b2 : Nat} {n : Pt K} {z0 z1 z2 : K}
    (hos : oe[f]? = some [o0, o1, o2]) (hf : s.facets[f]? = some ⟨[v0, v1, v2], n⟩)
    (S0 : Side status split s.edges o0 v0 v1 z0 z1 m0 a0 b0)
    (S1 : Side status split s.edges o1 v1 v2 z1 z2 m1 a1 b1)
    (S2 : Side status split s.edges o2 v2 v0 z2 z0 m2 a2 b2)
    (h01 : v0 ≠ v1) (h12 : v1 ≠ v2) (h20 : v2 ≠ v0)
    (hvm : ∀ v ∈ [v0, v1, v2], ∀ m ∈ [m0, m1, m2], v ≠ m)
    (hm01 : (z0 < 0 ∧ 0 < z1) ∨ (0 < z0 ∧ z1 < 0) → (z1 < 0 ∧ 0 < z2) ∨ (0 < z1 ∧ z2 < 0) → m0 ≠ m1)
    (hm12 : (z1 < 0 ∧ 0 < z2) ∨ (0 < z1 ∧ z2 < 0) → (z2 < 0 ∧ 0 < z0) ∨ (0 < z2 ∧ z0 < 0) → m1 ≠ m2)
    (hm20 : (z2 < 0 ∧ 0 < z0) ∨ (0 < z2 ∧ z0 < 0) → (z0 < 0 ∧ 0 < z1) ∨ (0 < z0 ∧ z1 < 0) → m2 ≠ m0)
    (Z : Nat → Prop) (hZ0 : Z v0 ↔ z0 = 0) (hZ1 : Z v1 ↔ z1 = 0) (hZ2 : Z v2 ↔ z2 = 0)
    (hM0 : (z0 < 0 ∧ 0 < z1) ∨ (0 < z0 ∧ z1 < 0) → Z m0) (hM1 : (z1 < 0 ∧ 0 < z2) ∨ (0 < z1 ∧ z2 < 0) → Z m1)
    (hM2 : (z2 < 0 ∧ 0 < z0) ∨ (0 < z2 ∧ z0 < 0) → Z m2) :
    ∃ s', splitFacet status split oe s f = .ok s' ∧
      ((s'.edges = s.edges ∧ s'.facets = s.facets ∧
          ((s'.emerged = s.emerged ++ [f] ∧ s'.immersed = s.immersed) ∨ (s'.emerged = s.emerged ∧ s'.immersed = s.immersed ++ [f])) ∧
          ∀ c, c ∈ s'.surface ↔ c ∈ s.surface ∨ (z0 = 0 ∧ z1 = 0 ∧ c = o0 / 2) ∨ (z1 = 0 ∧ z2 = 0 ∧ c = o1 / 2) ∨
            (z2 = 0 ∧ z0 = 0 ∧ c = o2 / 2)) ∨
       (∃ ve vi a b, s'.edges = s.edges ++ [(a, b)] ∧ s'.facets = s.facets ++ [⟨ve, n⟩, ⟨vi, n⟩] ∧
          s'.emerged = s.emerged ++ [s.facets.length] ∧ s'.immersed = s.immersed ++ [s.facets.length + 1] ∧
          ((z0 = 0 ∧ z1 = 0 ∧ z2 = 0 ∧ ve = [v0, v1, v2] ∧ vi = [v0, v1, v2] ∧
              s'.surface = o2 / 2 :: o1 / 2 :: o0 / 2 :: s.surface) ∨
           (s'.surface = s.edges.length :: s.surface ∧ a ≠ b ∧ Z a ∧ Z b ∧ (a, b) ∈ ring ve ∧ (b, a) ∈ ring vi ∧
              (∀ p ∈ ring ve, Z p.1 → Z p.2 → p = (a, b)) ∧ (∀ p ∈ ring vi, Z p.1 → Z p.2 → p = (b, a)))))) := by
  have q10 := h01.symm; have q21 := h12.symm; have q02 := h20.symm
  have w1 := hvm v0 (by simp) m0 (by simp); have w2 := hvm v0 (by simp) m1 (by simp); have w3 := hvm v0 (by simp) m2 (by simp)
  have w4 := hvm v1 (by simp) m0 (by simp); have w5 := hvm v1 (by simp) m1 (by simp); have w6 := hvm v1 (by simp) m2 (by simp)
  have w7 := hvm v2 (by simp) m0 (by simp); have w8 := hvm v2 (by simp) m1 (by simp); have w9 := hvm v2 (by simp) m2 (by simp)
  have u1 := w1.symm; have u2 := w2.symm; have u3 := w3.symm; have u4 := w4.symm; have u5 := w5.symm
  have u6 := w6.symm; have u7 := w7.symm; have u8 := w8.symm; have u9 := w9.symm
  unfold splitFacet
  simp only [getUB_ok hos, List.foldlM_cons, List.foldlM_nil, bind, Except.bind, pure, Except.pure, S0.step, S1.step, S2.step,
    getUB_ok hf]
  -- vertices of the sides, of their halves and of the closing edge
  have fv0 := firstVertex_of_runs S0.runs; have fv1 := firstVertex_of_runs S1.runs; have fv2 := firstVertex_of_runs S2.runs
  have sv0 := fun l => secondVertex_of_runs (runs_append S0.runs l)
  have sv1 := fun l => secondVertex_of_runs (runs_append S1.runs l)
  have sv2 := fun l => secondVertex_of_runs (runs_append S2.runs l)
  have ha0 := fun c => firstVertex_of_runs (S0.half1 c); have hb0 := fun c => firstVertex_of_runs (S0.half2 c)
  have ha1 := fun c => firstVertex_of_runs (S1.half1 c); have hb1 := fun c => firstVertex_of_runs (S1.half2 c)
  have ha2 := fun c => firstVertex_of_runs (S2.half1 c); have hb2 := fun c => firstVertex_of_runs (S2.half2 c)
  have ka0 := fun c l => secondVertex_of_runs (runs_append (S0.half1 c) l)
  have kb0 := fun c l => secondVertex_of_runs (runs_append (S0.half2 c) l)
  have ka1 := fun c l => secondVertex_of_runs (runs_append (S1.half1 c) l)
  have kb1 := fun c l => secondVertex_of_runs (runs_append (S1.half2 c) l)
  have ka2 := fun c l => secondVertex_of_runs (runs_append (S2.half1 c) l)
  have kb2 := fun c l => secondVertex_of_runs (runs_append (S2.half2 c) l)
  have cl1 := fun a b => secondVertex_of_runs (runs_closing s.edges a b).1
  have cl2 := fun a b => secondVertex_of_runs (runs_closing s.edges a b).2
  clear S0 S1 S2 hvm hos hf
  have hm10 := fun a b => (hm01 a b).symm
  have hm21 := fun a b => (hm12 a b).symm
  have hm02 := fun a b => (hm20 a b).symm
  rcases sgn3' z0 with ⟨i1, i2, i3, i4, i5⟩ | ⟨i1, i2, i3, i4, i5⟩ | ⟨i1, i2, i3, i4, i5⟩ <;>
  rcases sgn3' z1 with ⟨j1, j2, j3, j4, j5⟩ | ⟨j1, j2, j3, j4, j5⟩ | ⟨j1, j2, j3, j4, j5⟩ <;>
  rcases sgn3' z2 with ⟨k1, k2, k3, k4, k5⟩ | ⟨k1, k2, k3, k4, k5⟩ | ⟨k1, k2, k3, k4, k5⟩ <;>
  simp only [i1, i2, i3, j1, j2, j3, k1, k2, k3, and_true, and_false, or_false, false_or, or_true, true_or,
    iff_true, iff_false, and_self, forall_const, true_imp_iff, false_imp_iff, implies_true, IsEmpty.forall_iff, or_self] at hZ0 hZ1 hZ2 hM0 hM1 hM2 hm01 hm12 hm20 hm10 hm21 hm02 ha0 hb0 ha1 hb1 ha2 hb2 ka0 kb0 ka1 kb1 ka2 kb2 <;>
  simp only [absStep, i1, i2, i3, i4, i5, j1, j2, j3, j4, j5, k1, k2, k3, k4, k5, and_true, and_false, if_true, if_false,
    and_self, List.nil_append, List.cons_append, List.append_nil, List.length_cons, List.length_nil, Nat.reduceLeDiff,
    Nat.reduceAdd, Nat.le_refl, false_and, true_and, not_true_eq_false, not_false_eq_true, reduceCtorEq, Int.reduceEq, Int.reduceNeg] <;>
  try exact ⟨_, rfl, Or.inl ⟨rfl, rfl, by first | exact Or.inl ⟨rfl, rfl⟩ | exact Or.inr ⟨rfl, rfl⟩,
    by intro c; first | (simp only [or_false, false_or, List.mem_cons]; done) | (simp only [or_false, false_or, List.mem_cons]; exact Or.comm)⟩⟩
  all_goals simp only [getUB, List.getElem?_cons_zero, List.getElem?_cons_succ, fv0, fv1, fv2, ha0, hb0, ha1, hb1, ha2, hb2, facetVertices,
    List.insertIdx_zero, List.insertIdx_succ_cons, List.mapM_cons, List.mapM_nil, bind, Except.bind, pure, Except.pure,
    sv0, sv1, sv2, ka0, kb0, ka1, kb1, ka2, kb2, cl1, cl2, facetLoop, nbDistinct, List.mem_cons, List.not_mem_nil, h01, h12, h20,
    q10, q21, q02, w1, w2, w3, w4, w5, w6, w7, w8, w9, u1, u2, u3, u4, u5, u6, u7, u8, u9, ne_eq, or_false, or_self, if_false, if_true,
    hm01, hm12, hm20, hm10, hm21, hm02, or_true, true_or, Nat.reduceAdd, List.take_succ_cons, List.take_zero, Nat.add_zero,
    Nat.zero_add]
  all_goals refine ⟨_, rfl, Or.inr ⟨_, _, _, _, rfl, rfl, rfl, rfl, ?_⟩⟩
  all_goals clear fv0 fv1 fv2 sv0 sv1 sv2 ha0 hb0 ha1 hb1 ha2 hb2 ka0 kb0 ka1 kb1 ka2 kb2 cl1 cl2
  all_goals first
    | exact Or.inl ⟨rfl, rfl, rfl⟩
    | (refine Or.inr ?_
       simp only [ring, steps, List.cons_append, List.nil_append, List.mem_cons, List.not_mem_nil, or_false, Prod.mk.injEq,
         forall_eq_or_imp, forall_eq, hZ0, hZ1, hZ2, hM0, hM1, hM2, h01, h12, h20,
    q10, q21, q02, w1, w2, w3, w4, w5, w6, w7, w8, w9, u1, u2, u3, u4, u5, u6, u7, u8, u9, hm01, hm12, hm20, hm10, hm21, hm02,
         ne_eq, true_and, and_true, and_self, true_imp_iff, false_imp_iff, true_or, or_true, not_false_eq_true])

end Triangle

/-- Sides lying in the free surface: `surface` is the list of those of the facets listed. -/
structure SInv [Field K] [LinearOrder K] (rel : List K) (t : FacetSt K) : Prop where
  lt : ∀ g ∈ t.emerged ++ t.immersed, g < t.facets.length
  sound : ∀ c ∈ t.surface, ∃ a b, t.edges[c]? = some (a, b) ∧ a ≠ b ∧ rel[a]? = some 0 ∧ rel[b]? = some 0 ∧
    ∃ g ∈ t.emerged ++ t.immersed, ∃ F, t.facets[g]? = some F ∧ ((a, b) ∈ ring F.vertices ∨ (b, a) ∈ ring F.vertices)
  complete : ∀ g ∈ t.emerged ++ t.immersed, ∀ F, t.facets[g]? = some F → ∀ p ∈ ring F.vertices,
    rel[p.1]? = some 0 → rel[p.2]? = some 0 → ∃ c ∈ t.surface, t.edges[c]? = some p ∨ t.edges[c]? = some p.swap

variable [Field K] [LinearOrder K]

theorem SInv.step {rel : List K} {t t' : FacetSt K} (h : SInv rel t) {le : List (Nat × Nat)} {lf : List (Facet K)} {E I : List Nat}
    (he : t'.edges = t.edges ++ le) (hf : t'.facets = t.facets ++ lf) (hE : t'.emerged = t.emerged ++ E)
    (hI : t'.immersed = t.immersed ++ I) (hlt : ∀ g ∈ E ++ I, g < t'.facets.length)
    (hsub : ∀ c ∈ t.surface, c ∈ t'.surface)
    (hs : ∀ c ∈ t'.surface, c ∈ t.surface ∨ ∃ a b, t'.edges[c]? = some (a, b) ∧ a ≠ b ∧ rel[a]? = some 0 ∧ rel[b]? = some 0 ∧
      ∃ g ∈ E ++ I, ∃ F, t'.facets[g]? = some F ∧ ((a, b) ∈ ring F.vertices ∨ (b, a) ∈ ring F.vertices))
    (hc : ∀ g ∈ E ++ I, ∀ F, t'.facets[g]? = some F → ∀ p ∈ ring F.vertices,
      rel[p.1]? = some 0 → rel[p.2]? = some 0 → ∃ c ∈ t'.surface, t'.edges[c]? = some p ∨ t'.edges[c]? = some p.swap) :
    SInv rel t' := by
  have hmem : ∀ g, g ∈ t'.emerged ++ t'.immersed ↔ g ∈ t.emerged ++ t.immersed ∨ g ∈ E ++ I := by
    intro g; rw [hE, hI]; simp only [List.mem_append]; tauto
  have hfa : ∀ g ∈ t.emerged ++ t.immersed, t'.facets[g]? = t.facets[g]? := by
    intro g hg; rw [hf, List.getElem?_append_left (h.lt g hg)]
  have hea : ∀ (c : Nat) (p : Nat × Nat), t.edges[c]? = some p → t'.edges[c]? = some p := by
    intro c p hp
    rw [he, List.getElem?_append_left (List.getElem?_eq_some_iff.mp hp).1]; exact hp
  constructor
  · intro g hg
    rcases (hmem g).mp hg with h1 | h1
    · have := h.lt g h1
      rw [hf, List.length_append]; omega
    · exact hlt g h1
  · intro c hc'
    rcases hs c hc' with h1 | ⟨a, b, h1, h2, h3, h4, g, h5, h6⟩
    · obtain ⟨a, b, h1, h2, h3, h4, g, h5, F, h6, h7⟩ := h.sound c h1
      exact ⟨a, b, hea c _ h1, h2, h3, h4, g, (hmem g).mpr (Or.inl h5), F, by rw [hfa g h5]; exact h6, h7⟩
    · exact ⟨a, b, h1, h2, h3, h4, g, (hmem g).mpr (Or.inr h5), h6⟩
  · intro g hg F hF p hp h1 h2
    rcases (hmem g).mp hg with h3 | h3
    · rw [hfa g h3] at hF
      obtain ⟨c, h4, h5⟩ := h.complete g h3 F hF p hp h1 h2
      exact ⟨c, hsub c h4, h5.imp (hea c _) (hea c _)⟩
    · exact hc g h3 F hF p hp h1 h2

/-- The edge of a side, in one direction or the other. -/
theorem edge_of_runs {edges : List (Nat × Nat)} {o v w : Nat} (h : Runs edges o v w) :
    edges[o / 2]? = some (v, w) ∨ edges[o / 2]? = some (w, v) := by
  rcases h with ⟨_, h⟩ | ⟨_, h⟩
  · exact Or.inl h
  · exact Or.inr h

theorem mem_ring3 {α : Type} {a b c : α} {p : α × α} : p ∈ ring [a, b, c] ↔ p = (a, b) ∨ p = (b, c) ∨ p = (c, a) := by
  simp [ring, steps]

theorem facetStep_surface {m : Mesh K} (hm : TriMesh m) (hmf : m.facets.length = m.nbFacets) {z : List K} {s : EdgeSt K}
    (h : EInv m z m.nbEdges s) {n : Nat} (hn : n < m.nbFacets) {t : FacetSt K} (ht : FInv m z s n t) (hS : SInv s.rel t) {t' : FacetSt K}
    (hok : facetStep s.status s.split s.crossing m.orientedEdges t n = .ok t') : SInv s.rel t' := by
  obtain ⟨v0, v1, v2, o0, o1, o2, T⟩ := hm.triangle n hn
  obtain ⟨s0, s1, s2⟩ := T.static
  obtain ⟨b, hb⟩ : ∃ b, s.crossing[n]? = some b := ⟨_, List.getElem?_eq_getElem (by rw [h.crossLen]; exact hn)⟩
  obtain ⟨le, hle⟩ := ht.edges
  obtain ⟨lf, hlf⟩ := ht.facets
  obtain ⟨nn, hnn⟩ := T.vertices
  have hrel : ∀ v < m.nbNodes, s.rel[v]? = some 0 ↔ immersion z v = 0 := by
    intro v hv
    rw [h.relStatic v hv]; simp
  have l0 := runs_lt hm T.runs0 s0; have l1 := runs_lt hm T.runs1 s1
  have hf : t.facets[n]? = some ⟨[v0, v1, v2], nn⟩ := by
    rw [hlf, List.getElem?_append_left (by rw [hmf]; exact hn)]; exact hnn
  have hnl : n < t.facets.length := (List.getElem?_eq_some_iff.mp hf).1
  unfold facetStep at hok
  simp only [getUB_ok hb, bind, Except.bind] at hok
  cases b with
  | false =>
    rw [if_neg (by decide)] at hok
    have hno : ∀ o ∈ [o0, o1, o2], touches (stAt m z (o / 2)) = false := by
      intro o ho
      by_contra hc
      have hc : touches (stAt m z (o / 2)) = true := by simpa using hc
      obtain ⟨fs, hfs, hff⟩ := T.known o ho
      have hlt : o / 2 < m.nbEdges := by
        simp only [List.mem_cons, List.not_mem_nil, or_false] at ho
        rcases ho with rfl | rfl | rfl <;> assumption
      have := (h.mark n hn).mpr ⟨o / 2, hlt, hc, fs, hfs, hff⟩
      rw [this] at hb; simp at hb
    have t0 := mt (touches_runs hm z T.runs0 s0).mpr (by simp [hno o0 (by simp)])
    have t1 := mt (touches_runs hm z T.runs1 s1).mpr (by simp [hno o1 (by simp)])
    have hz0 : immersion z v0 ≠ 0 := fun hh => t0 (Or.inr (Or.inr (Or.inl hh)))
    have hz1 : immersion z v1 ≠ 0 := fun hh => t0 (Or.inr (Or.inr (Or.inr hh)))
    have hz2 : immersion z v2 ≠ 0 := fun hh => t1 (Or.inr (Or.inr (Or.inr hh)))
    unfold classifyFacet at hok
    have g0 : getUB [o0, o1, o2] 0 = .ok o0 := rfl
    simp only [getUB_ok T.oriented, g0, bind, Except.bind, edgeIndex_eq, getUB_ok (h.stat _ s0), pure, Except.pure] at hok
    have key : ∀ E I : List Nat, (∀ g ∈ E ++ I, g = n) →
        SInv s.rel { t with emerged := t.emerged ++ E, immersed := t.immersed ++ I } := by
      intro E I hEI
      refine hS.step (le := []) (lf := []) (E := E) (I := I) (by simp) (by simp) rfl rfl ?_ ?_ ?_ ?_
      · intro g hg; rw [hEI g hg]; exact hnl
      · intro c hc; exact hc
      · intro c hc; exact Or.inl hc
      · intro g hg F hF p hp e1 e2
        exfalso
        rw [hEI g hg] at hF
        have hF : t.facets[n]? = some F := hF
        rw [hf] at hF
        injection hF with hF
        subst hF
        rcases mem_ring3.mp hp with rfl | rfl | rfl
        · rw [hrel _ l0.1] at e1; exact hz0 e1
        · rw [hrel _ l0.2] at e1; exact hz1 e1
        · rw [hrel _ l1.2] at e1; exact hz2 e1
    by_cases hE : isEmerged (stAt m z (o0 / 2)) = true
    · rw [if_pos hE] at hok
      injection hok with hok
      have := key [n] [] (by simp)
      simp only [List.append_nil] at this
      rw [← hok]; exact this
    · rw [if_neg hE] at hok
      injection hok with hok
      have := key [] [n] (by simp)
      simp only [List.append_nil] at this
      rw [← hok]; exact this
  | true =>
    rw [if_pos rfl] at hok
    have side : ∀ {o v w : Nat}, o / 2 < m.nbEdges → Runs m.edges o v w → ∃ a b, Side s.status s.split t.edges o v w
        (immersion z v) (immersion z w) (m.nbNodes + rank m z (o / 2)) a b := by
      intro o v w ho hr
      obtain ⟨a, b, S⟩ := side_of_inv hm h ho hr
      refine ⟨a, b, ?_⟩
      rw [hle]
      exact ⟨runs_append S.runs _, fun c => runs_append (S.half1 c) _, fun c => runs_append (S.half2 c) _, S.step⟩
    obtain ⟨a0, b0, S0⟩ := side s0 T.runs0
    obtain ⟨a1, b1, S1⟩ := side s1 T.runs1
    obtain ⟨a2, b2, S2⟩ := side s2 T.runs2
    have dis : ∀ {o o' v w v' w' : Nat}, o / 2 < m.nbEdges → o' / 2 < m.nbEdges → Runs m.edges o v w → Runs m.edges o' v' w' →
        v ≠ v' → v ≠ w' → (immersion z v < 0 ∧ 0 < immersion z w) ∨ (0 < immersion z v ∧ immersion z w < 0) →
        (immersion z v' < 0 ∧ 0 < immersion z w') ∨ (0 < immersion z v' ∧ immersion z w' < 0) →
        m.nbNodes + rank m z (o / 2) ≠ m.nbNodes + rank m z (o' / 2) := by
      intro o o' v w v' w' ho ho' hr hr' hne1 hne2 hc hc' heq
      have := rank_inj m z ((crosses_runs hm z hr ho).mpr hc) ((crosses_runs hm z hr' ho').mpr hc') (by omega)
      rcases ends_of_runs hr hr' this with h1 | h1
      · exact hne1 h1.1
      · exact hne2 h1.1
    have mid : ∀ {o v w : Nat}, o / 2 < m.nbEdges → Runs m.edges o v w →
        (immersion z v < 0 ∧ 0 < immersion z w) ∨ (0 < immersion z v ∧ immersion z w < 0) →
        s.rel[m.nbNodes + rank m z (o / 2)]? = some 0 := by
      intro o v w ho hr hc
      exact h.midRel _ ho ((crosses_runs hm z hr ho).mpr hc)
    obtain ⟨t1, h1, h3⟩ := splitFacet_surface T.oriented hf S0 S1 S2 T.ne01 T.ne12 T.ne20
      (by
        intro v hv mm hmm
        have : v < m.nbNodes := by
          simp only [List.mem_cons, List.not_mem_nil, or_false] at hv
          rcases hv with rfl | rfl | rfl
          · exact l0.1
          · exact l0.2
          · exact l1.2
        have : m.nbNodes ≤ mm := by
          simp only [List.mem_cons, List.not_mem_nil, or_false] at hmm
          rcases hmm with rfl | rfl | rfl <;> omega
        omega)
      (fun c c' => dis s0 s1 T.runs0 T.runs1 T.ne01 T.ne20.symm c c')
      (fun c c' => dis s1 s2 T.runs1 T.runs2 T.ne12 T.ne01.symm c c')
      (fun c c' => dis s2 s0 T.runs2 T.runs0 T.ne20 T.ne12.symm c c')
      (fun v => s.rel[v]? = some 0) (hrel _ l0.1) (hrel _ l0.2) (hrel _ l1.2)
      (mid s0 T.runs0) (mid s1 T.runs1) (mid s2 T.runs2)
    rw [h1] at hok
    injection hok with hok
    subst hok
    have n0 := hrel _ l0.1; have n1 := hrel _ l0.2; have n2 := hrel _ l1.2
    have e0 := edge_of_runs S0.runs; have e1 := edge_of_runs S1.runs; have e2 := edge_of_runs S2.runs
    rcases h3 with ⟨he, hfa, hEI, hsf⟩ | ⟨ve, vi, a, b, he, hfa, hE, hI, hrest⟩
    · obtain ⟨E, I, hE, hI, hEIn, hmem⟩ : ∃ E I, t1.emerged = t.emerged ++ E ∧ t1.immersed = t.immersed ++ I ∧ (∀ g ∈ E ++ I, g = n) ∧
          n ∈ E ++ I := by
        rcases hEI with ⟨x, y⟩ | ⟨x, y⟩
        · exact ⟨[n], [], x, by simpa using y, by simp, by simp⟩
        · exact ⟨[], [n], by simpa using x, y, by simp, by simp⟩
      have hft : t1.facets[n]? = some ⟨[v0, v1, v2], nn⟩ := by rw [hfa]; exact hf
      refine hS.step (le := []) (lf := []) (by simpa using he) (by simpa using hfa) hE hI ?_ ?_ ?_ ?_
      · intro g hg; rw [hEIn g hg, hfa]; exact hnl
      · intro c hc; exact (hsf c).mpr (Or.inl hc)
      · intro c hc
        rcases (hsf c).mp hc with hc | ⟨x, y, rfl⟩ | ⟨x, y, rfl⟩ | ⟨x, y, rfl⟩
        · exact Or.inl hc
        · right
          rcases e0 with e | e
          · exact ⟨v0, v1, by rw [he]; exact e, T.ne01, by rw [n0]; exact x, by rw [n1]; exact y, n, hmem, _, hft,
              Or.inl (mem_ring3.mpr (by simp))⟩
          · exact ⟨v1, v0, by rw [he]; exact e, T.ne01.symm, by rw [n1]; exact y, by rw [n0]; exact x, n, hmem, _, hft,
              Or.inr (mem_ring3.mpr (by simp))⟩
        · right
          rcases e1 with e | e
          · exact ⟨v1, v2, by rw [he]; exact e, T.ne12, by rw [n1]; exact x, by rw [n2]; exact y, n, hmem, _, hft,
              Or.inl (mem_ring3.mpr (by simp))⟩
          · exact ⟨v2, v1, by rw [he]; exact e, T.ne12.symm, by rw [n2]; exact y, by rw [n1]; exact x, n, hmem, _, hft,
              Or.inr (mem_ring3.mpr (by simp))⟩
        · right
          rcases e2 with e | e
          · exact ⟨v2, v0, by rw [he]; exact e, T.ne20, by rw [n2]; exact x, by rw [n0]; exact y, n, hmem, _, hft,
              Or.inl (mem_ring3.mpr (by simp))⟩
          · exact ⟨v0, v2, by rw [he]; exact e, T.ne20.symm, by rw [n0]; exact y, by rw [n2]; exact x, n, hmem, _, hft,
              Or.inr (mem_ring3.mpr (by simp))⟩
      · intro g hg F hF p hp x y
        rw [hEIn g hg, hft] at hF
        injection hF with hF
        subst hF
        rw [he]
        rcases mem_ring3.mp hp with rfl | rfl | rfl
        · exact ⟨o0 / 2, (hsf _).mpr (Or.inr (Or.inl ⟨by rw [← n0]; exact x, by rw [← n1]; exact y, rfl⟩)), e0⟩
        · exact ⟨o1 / 2, (hsf _).mpr (Or.inr (Or.inr (Or.inl ⟨by rw [← n1]; exact x, by rw [← n2]; exact y, rfl⟩))), e1⟩
        · exact ⟨o2 / 2, (hsf _).mpr (Or.inr (Or.inr (Or.inr ⟨by rw [← n2]; exact x, by rw [← n0]; exact y, rfl⟩))), e2⟩
    · have hg1 : t1.facets[t.facets.length]? = some ⟨ve, nn⟩ := by rw [hfa]; simp
      have hg2 : t1.facets[t.facets.length + 1]? = some ⟨vi, nn⟩ := by
        rw [hfa, List.getElem?_append_right (by omega), Nat.add_sub_cancel_left]; rfl
      have hea : ∀ (c : Nat) (p : Nat × Nat), t.edges[c]? = some p → t1.edges[c]? = some p := by
        intro c p hp
        rw [he, List.getElem?_append_left (List.getElem?_eq_some_iff.mp hp).1]; exact hp
      refine hS.step he hfa hE hI ?_ ?_ ?_ ?_
      · intro g hg
        rw [hfa, List.length_append]
        simp only [List.cons_append, List.nil_append, List.mem_cons, List.not_mem_nil, or_false] at hg
        simp only [List.length_cons, List.length_nil]
        omega
      · intro c hc
        rcases hrest with ⟨_, _, _, _, _, x⟩ | ⟨x, _⟩ <;> (rw [x]; simp [hc])
      · intro c hc
        rcases hrest with ⟨x0, x1, x2, rfl, rfl, x⟩ | ⟨x, hab, za, zb, hr1, hr2, hr3, hr4⟩
        · rw [x] at hc
          simp only [List.mem_cons] at hc
          rcases hc with rfl | rfl | rfl | hc
          · right
            rcases e2 with e | e
            · exact ⟨v2, v0, hea _ _ e, T.ne20, by rw [n2]; exact x2, by rw [n0]; exact x0, _, by simp, _, hg1,
                Or.inl (mem_ring3.mpr (by simp))⟩
            · exact ⟨v0, v2, hea _ _ e, T.ne20.symm, by rw [n0]; exact x0, by rw [n2]; exact x2, _, by simp, _, hg1,
                Or.inr (mem_ring3.mpr (by simp))⟩
          · right
            rcases e1 with e | e
            · exact ⟨v1, v2, hea _ _ e, T.ne12, by rw [n1]; exact x1, by rw [n2]; exact x2, _, by simp, _, hg1,
                Or.inl (mem_ring3.mpr (by simp))⟩
            · exact ⟨v2, v1, hea _ _ e, T.ne12.symm, by rw [n2]; exact x2, by rw [n1]; exact x1, _, by simp, _, hg1,
                Or.inr (mem_ring3.mpr (by simp))⟩
          · right
            rcases e0 with e | e
            · exact ⟨v0, v1, hea _ _ e, T.ne01, by rw [n0]; exact x0, by rw [n1]; exact x1, _, by simp, _, hg1,
                Or.inl (mem_ring3.mpr (by simp))⟩
            · exact ⟨v1, v0, hea _ _ e, T.ne01.symm, by rw [n1]; exact x1, by rw [n0]; exact x0, _, by simp, _, hg1,
                Or.inr (mem_ring3.mpr (by simp))⟩
          · exact Or.inl hc
        · rw [x] at hc
          rcases List.mem_cons.mp hc with rfl | hc
          · exact Or.inr ⟨a, b, by rw [he]; simp, hab, za, zb, _, by simp, _, hg1, Or.inl hr1⟩
          · exact Or.inl hc
      · intro g hg F hF p hp x y
        have hcase : (g = t.facets.length ∧ F = ⟨ve, nn⟩) ∨ (g = t.facets.length + 1 ∧ F = ⟨vi, nn⟩) := by
          simp only [List.cons_append, List.nil_append, List.mem_cons, List.not_mem_nil, or_false] at hg
          rcases hg with rfl | rfl
          · rw [hg1] at hF; injection hF with hF; exact Or.inl ⟨rfl, hF.symm⟩
          · rw [hg2] at hF; injection hF with hF; exact Or.inr ⟨rfl, hF.symm⟩
        rcases hrest with ⟨x0, x1, x2, rfl, rfl, hx⟩ | ⟨hx, hab, za, zb, hr1, hr2, hr3, hr4⟩
        · have hFv : F.vertices = [v0, v1, v2] := by rcases hcase with ⟨_, rfl⟩ | ⟨_, rfl⟩ <;> rfl
          rw [hFv] at hp
          rw [hx]
          rcases mem_ring3.mp hp with rfl | rfl | rfl
          · exact ⟨o0 / 2, by simp, e0.imp (hea _ _) (hea _ _)⟩
          · exact ⟨o1 / 2, by simp, e1.imp (hea _ _) (hea _ _)⟩
          · exact ⟨o2 / 2, by simp, e2.imp (hea _ _) (hea _ _)⟩
        · refine ⟨t.edges.length, by rw [hx]; simp, ?_⟩
          have hnew : t1.edges[t.edges.length]? = some (a, b) := by rw [he]; simp
          rcases hcase with ⟨_, rfl⟩ | ⟨_, rfl⟩
          · left; rw [hr3 p hp x y]; exact hnew
          · right; rw [hr4 p hp x y]; exact hnew

theorem facetLoop_surface {m : Mesh K} (hm : TriMesh m) (hmf : m.facets.length = m.nbFacets) {z : List K} {s : EdgeSt K}
    (h : EInv m z m.nbEdges s) {t : FacetSt K} (ht : FInv m z s 0 t) (hS : SInv s.rel t) (n : Nat) (hn : n ≤ m.nbFacets) :
    ∃ t', (List.range n).foldlM (facetStep s.status s.split s.crossing m.orientedEdges) t = .ok t' ∧ FInv m z s n t' ∧ SInv s.rel t' := by
  induction n with
  | zero => exact ⟨t, rfl, ht, hS⟩
  | succ n ih =>
    obtain ⟨t1, h1, h2, h2'⟩ := ih (by omega)
    obtain ⟨t2, h3, h4⟩ := facetStep_inv hm hmf h (by omega) h2
    refine ⟨t2, ?_, h4, facetStep_surface hm hmf h (by omega) h2 h2' h3⟩
    rw [List.range_succ, List.foldlM_append, h1]
    simp only [List.foldlM_cons, List.foldlM_nil, bind, Except.bind, h3, pure, Except.pure]

/-! ### Wave heights -/

/-- Wave heights: those of the nodes of the hull, and the interpolated ones. -/
structure WInv (m : Mesh K) (z w : List K) (n : Nat) (s : EdgeSt K) : Prop where
  static : ∀ i < m.nbNodes, s.wave[i]? = some (immersion w i)
  mid : ∀ e < n, crosses (stAt m z e) = true → s.wave[m.nbNodes + rank m z e]? = some
    (immersion w (endsAt m e).1 + immersion z (endsAt m e).1 / (immersion z (endsAt m e).1 - immersion z (endsAt m e).2) *
      (immersion w (endsAt m e).2 - immersion w (endsAt m e).1))

theorem edgeStep_wave {m : Mesh K} (hm : TriMesh m) (z w : List K) (hz : z.length = m.nbNodes) (n : Nat)
    (hn : n < m.nbEdges) (s s' : EdgeSt K) (h : EInv m z n s) (hW : WInv m z w n s)
    (hok : edgeStep m.facetsPerEdge s n = .ok s') : WInv m z w (n + 1) s' := by
  have he := endsAt_lt hm hn
  have hE := h.edgesStatic n hn
  obtain ⟨a, b, hab⟩ : ∃ a b, endsAt m n = (a, b) := ⟨_, _, rfl⟩
  rw [hab] at hE
  have ha : a < m.nbNodes := by simpa [hab] using he.1
  have hb : b < m.nbNodes := by simpa [hab] using he.2
  have hsta : edgeStatus (immersion z a) (immersion z b) = stAt m z n := by simp [stAt, hab]
  have hst : n < s.status.length := by rw [h.statusLen]; omega
  have hrk := rank_le m z n
  obtain ⟨fs, hfs⟩ : ∃ fs, m.facetsPerEdge[n]? = some fs :=
    ⟨_, List.getElem?_eq_getElem (by rw [hm.fpe]; exact hn)⟩
  unfold edgeStep at hok
  simp only [getUB_ok hE, getUB_ok (h.relStatic a ha), getUB_ok (h.relStatic b hb), bind, Except.bind, pure, Except.pure,
    hsta, setUB_ok _ hst] at hok
  by_cases hcr : crosses (stAt m z n) = true
  · simp only [hcr, if_true, Bool.true_or] at hok
    have hna : s.allNodes[a]? = some (nodeAt m.allNodes a) := by
      rw [h.nodesStatic a ha]; exact nodeAt_some (by rw [hm.nodes]; omega)
    have hnb : s.allNodes[b]? = some (nodeAt m.allNodes b) := by
      rw [h.nodesStatic b hb]; exact nodeAt_some (by rw [hm.nodes]; omega)
    have hwa := hW.static a ha
    have hwb := hW.static b hb
    have htot : s.total < s.allNodes.length := by rw [h.total, h.nodesLen]; omega
    have hsg : (s.status.set n (stAt m z n))[n]? = some (stAt m z n) := by
      rw [List.getElem?_set]; simp [hst]
    have hsp : n < s.split.length := by rw [h.splitLen]; exact hn
    unfold splitEdge at hok
    simp only [getUB_ok hE, getUB_ok (h.relStatic a ha), getUB_ok (h.relStatic b hb), bind, Except.bind, pure, Except.pure,
      getUB_ok hna, getUB_ok hnb, getUB_ok hwa, getUB_ok hwb, setUB_ok _ htot, getUB_ok hsg, setUB_ok _ hsp, getUB_ok hfs] at hok
    cases hmk : markFacets fs s.crossing with
    | error e => rw [hmk] at hok; cases hok
    | ok c =>
      rw [hmk] at hok
      injection hok with hok
      subst hok
      have t5 := h.waveLen
      constructor
      · intro i hi
        show (s.wave ++ _)[i]? = _
        rw [List.getElem?_append_left (by omega)]; exact hW.static i hi
      · intro e he1 hce
        show (s.wave ++ _)[_]? = _
        by_cases hen : e = n
        · subst hen
          rw [List.getElem?_append_right (by omega), ← t5, Nat.sub_self, hab]; rfl
        · have := rank_lt m z (show e < n by omega) hce
          rw [List.getElem?_append_left (by omega)]; exact hW.mid e (by omega) hce
  · have hcr' : crosses (stAt m z n) = false := by simpa using hcr
    simp only [hcr', if_false, Bool.false_or, Bool.false_eq_true] at hok
    have hw : s'.wave = s.wave := by
      by_cases ht : (bothTouch (stAt m z n) || oneEndTouches (stAt m z n)) = true
      · rw [if_pos ht] at hok
        simp only [getUB_ok hfs] at hok
        cases hmk : markFacets fs s.crossing with
        | error e => rw [hmk] at hok; cases hok
        | ok c => rw [hmk] at hok; injection hok with hok; subst hok; rfl
      · rw [if_neg ht] at hok
        injection hok with hok; subst hok; rfl
    constructor
    · rw [hw]; exact hW.static
    · intro e he1 hce
      have hne : e ≠ n := by rintro rfl; exact hcr hce
      rw [hw]; exact hW.mid e (by omega) hce

theorem edgeLoop_wave {m : Mesh K} (hm : TriMesh m) (z w : List K) (hz : z.length = m.nbNodes) (s : EdgeSt K) (n : Nat)
    (hn : n ≤ m.nbEdges) (h : EInv m z 0 s) (hW : WInv m z w 0 s) :
    ∃ s', (List.range n).foldlM (edgeStep m.facetsPerEdge) s = .ok s' ∧ EInv m z n s' ∧ WInv m z w n s' := by
  induction n with
  | zero => exact ⟨s, rfl, h, hW⟩
  | succ n ih =>
    obtain ⟨s1, h1, h2, h2'⟩ := ih (by omega)
    obtain ⟨s2, h3, h4⟩ := edgeStep_inv hm z hz n (by omega) s1 h2
    refine ⟨s2, ?_, h4, edgeStep_wave hm z w hz n (by omega) s1 s2 h2 h2' h3⟩
    rw [List.range_succ, List.foldlM_append, h1]
    simp only [List.foldlM_cons, List.foldlM_nil, bind, Except.bind, h3, pure, Except.pure]

end Xdyn.Hull

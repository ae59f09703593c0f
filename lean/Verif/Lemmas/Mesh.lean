import Verif.Spec.Mesh
import Mathlib.Tactic.Ring
import Mathlib.Tactic.Linarith
import Mathlib.Tactic.Tauto

/-
Loop invariants of `update_intersection_with_free_surface`.
-/

namespace Xdyn.Hull

variable {K : Type}

theorem getUB_ok {α : Type} {l : List α} {i : Nat} {x : α} (h : l[i]? = some x) : getUB l i = .ok x := by
  unfold getUB; rw [h]

theorem setUB_ok {α : Type} {l : List α} {i : Nat} (x : α) (h : i < l.length) : setUB l i x = .ok (l.set i x) := by
  unfold setUB; rw [if_pos h]

section Edges

variable [Field K] [LinearOrder K]

/-- Vertices of a static edge. -/
def endsAt (m : Mesh K) (e : Nat) : Nat × Nat := (m.edges[e]?).getD (0, 0)

/-- Status of a static edge. -/
def stAt (m : Mesh K) (z : List K) (e : Nat) : Nat :=
  edgeStatus (immersion z (endsAt m e).1) (immersion z (endsAt m e).2)

/-- Number of crossing edges among the first `n` edges. -/
def rank (m : Mesh K) (z : List K) (n : Nat) : Nat := (List.range n).countP (fun e => crosses (stAt m z e))

theorem rank_succ (m : Mesh K) (z : List K) (n : Nat) :
    rank m z (n + 1) = rank m z n + (if crosses (stAt m z n) then 1 else 0) := by
  unfold rank
  rw [List.range_succ, List.countP_append, List.countP_singleton]

theorem rank_le (m : Mesh K) (z : List K) (n : Nat) : rank m z n ≤ n := by
  have := List.countP_le_length (p := fun e => crosses (stAt m z e)) (l := List.range n)
  simpa [rank] using this

theorem rank_mono (m : Mesh K) (z : List K) {a b : Nat} (h : a ≤ b) : rank m z a ≤ rank m z b := by
  induction b with
  | zero => have : a = 0 := by omega
            subst this; exact Nat.le_refl _
  | succ b ih =>
    by_cases h' : a ≤ b
    · rw [rank_succ]; have := ih h'; omega
    · have : a = b + 1 := by omega
      subst this; exact Nat.le_refl _

theorem rank_lt (m : Mesh K) (z : List K) {a b : Nat} (h : a < b) (hc : crosses (stAt m z a) = true) :
    rank m z a < rank m z b := by
  have h1 := rank_mono m z (show a + 1 ≤ b from h)
  rw [rank_succ, if_pos hc] at h1
  omega

theorem rank_inj (m : Mesh K) (z : List K) {a b : Nat} (ha : crosses (stAt m z a) = true) (hb : crosses (stAt m z b) = true)
    (h : rank m z a = rank m z b) : a = b := by
  rcases Nat.lt_trichotomy a b with h1 | h1 | h1
  · have := rank_lt m z h1 ha; omega
  · exact h1
  · have := rank_lt m z h1 hb; omega

/-- An edge that makes its facets candidates to be split. -/
def touches (s : Nat) : Bool := crosses s || bothTouch s || oneEndTouches s

/-- Invariant of the loop on the edges, after `n` edges. -/
structure EInv (m : Mesh K) (z : List K) (n : Nat) (s : EdgeSt K) : Prop where
  total : s.total = m.nbNodes + rank m z n
  edgesLen : s.edges.length = m.nbEdges + 2 * rank m z n
  statusLen : s.status.length = m.nbEdges + 2 * rank m z n
  relLen : s.rel.length = m.nbNodes + rank m z n
  waveLen : s.wave.length = m.nbNodes + rank m z n
  nodesLen : s.allNodes.length = m.nbNodes + m.nbEdges
  splitLen : s.split.length = m.nbEdges
  crossLen : s.crossing.length = m.nbFacets
  edgesStatic : ∀ e < m.nbEdges, s.edges[e]? = some (endsAt m e)
  nodesStatic : ∀ i < m.nbNodes, s.allNodes[i]? = m.allNodes[i]?
  relStatic : ∀ i < m.nbNodes, s.rel[i]? = some (immersion z i)
  stat : ∀ e < n, s.status[e]? = some (stAt m z e)
  split : ∀ e < n, crosses (stAt m z e) = true → s.split[e]? = some (m.nbEdges + 2 * rank m z e)
  sub1 : ∀ e < n, crosses (stAt m z e) = true →
    s.edges[m.nbEdges + 2 * rank m z e]? = some ((endsAt m e).1, m.nbNodes + rank m z e)
  sub2 : ∀ e < n, crosses (stAt m z e) = true →
    s.edges[m.nbEdges + 2 * rank m z e + 1]? = some (m.nbNodes + rank m z e, (endsAt m e).2)
  st1 : ∀ e < n, crosses (stAt m z e) = true →
    s.status[m.nbEdges + 2 * rank m z e]? = some (((stAt m z e &&& 1) * 3) ||| 4)
  st2 : ∀ e < n, crosses (stAt m z e) = true →
    s.status[m.nbEdges + 2 * rank m z e + 1]? = some (((stAt m z e &&& 2) / 2 * 3) ||| 4)
  mid : ∀ e < n, crosses (stAt m z e) = true →
    s.allNodes[m.nbNodes + rank m z e]? = some (edgeIntersection
      (nodeAt m.allNodes (endsAt m e).1) (immersion z (endsAt m e).1)
      (nodeAt m.allNodes (endsAt m e).2) (immersion z (endsAt m e).2))
  midRel : ∀ e < n, crosses (stAt m z e) = true → s.rel[m.nbNodes + rank m z e]? = some 0
  mark : ∀ f < m.nbFacets, s.crossing[f]? = some true ↔
    ∃ e < n, touches (stAt m z e) = true ∧ ∃ fs, m.facetsPerEdge[e]? = some fs ∧ f ∈ fs

theorem markFacets_ok (fs : List Nat) (c : List Bool) (h : ∀ f ∈ fs, f < c.length) :
    ∃ c', markFacets fs c = .ok c' ∧ c'.length = c.length ∧
      ∀ f : Nat, f < c.length → (c'[f]? = some true ↔ (c[f]? = some true ∨ f ∈ fs)) := by
  induction fs generalizing c with
  | nil => exact ⟨c, rfl, rfl, by simp⟩
  | cons g fs ih =>
    obtain ⟨c', h1, h2, h3⟩ := ih (c.set g true) (by intro f hf; simpa using h f (by simp [hf]))
    refine ⟨c', ?_, by simpa using h2, ?_⟩
    · unfold markFacets
      rw [setUB_ok _ (h g (by simp))]
      exact h1
    · intro f hf
      rw [h3 f (by simpa using hf), List.getElem?_set]
      by_cases hfg : g = f
      · subst hfg; simp [hf]
      · have : f ≠ g := fun h => hfg h.symm
        simp [hfg, this]

/-- The part of the body of the loop that marks the facets. -/
theorem mark_step {m : Mesh K} (hm : TriMesh m) (z : List K) (n : Nat) (hn : n < m.nbEdges) (c : List Bool)
    (hc : c.length = m.nbFacets)
    (hmark : ∀ f < m.nbFacets, c[f]? = some true ↔
      ∃ e < n, touches (stAt m z e) = true ∧ ∃ fs, m.facetsPerEdge[e]? = some fs ∧ f ∈ fs) :
    ∃ c', (if touches (stAt m z n) then (do let fs ← getUB m.facetsPerEdge n; markFacets fs c) else .ok c) = .ok c' ∧
      c'.length = m.nbFacets ∧ ∀ f < m.nbFacets, c'[f]? = some true ↔
      ∃ e < n + 1, touches (stAt m z e) = true ∧ ∃ fs, m.facetsPerEdge[e]? = some fs ∧ f ∈ fs := by
  by_cases ht : touches (stAt m z n) = true
  · rw [if_pos ht]
    have hl : n < m.facetsPerEdge.length := by rw [hm.fpe]; exact hn
    have hg : m.facetsPerEdge[n]? = some (m.facetsPerEdge[n]) := List.getElem?_eq_getElem hl
    obtain ⟨c', h1, h2, h3⟩ := markFacets_ok (m.facetsPerEdge[n]) c
      (by intro f hf; rw [hc]; exact hm.fpeLt n _ hg f hf)
    refine ⟨c', ?_, by rw [h2, hc], ?_⟩
    · rw [getUB_ok hg]; exact h1
    · intro f hf
      rw [h3 f (by omega), hmark f hf]
      constructor
      · rintro (⟨e, he, h⟩ | h)
        · exact ⟨e, by omega, h⟩
        · exact ⟨n, by omega, ht, _, hg, h⟩
      · rintro ⟨e, he, h, fs, hfs, hf'⟩
        by_cases hen : e = n
        · subst hen
          right
          rw [hg] at hfs
          injection hfs with hfs
          rw [hfs]; exact hf'
        · left; exact ⟨e, by omega, h, fs, hfs, hf'⟩
  · rw [if_neg ht]
    refine ⟨c, rfl, hc, ?_⟩
    intro f hf
    rw [hmark f hf]
    constructor
    · rintro ⟨e, he, h⟩; exact ⟨e, by omega, h⟩
    · rintro ⟨e, he, h, h'⟩
      by_cases hen : e = n
      · subst hen; exact absurd h ht
      · exact ⟨e, by omega, h, h'⟩

theorem immersion_some {z : List K} {i : Nat} (h : i < z.length) : z[i]? = some (immersion z i) := by
  unfold immersion
  rw [List.getElem?_eq_getElem h]; rfl

theorem nodeAt_some {l : List (Pt K)} {i : Nat} (h : i < l.length) : l[i]? = some (nodeAt l i) := by
  unfold nodeAt
  rw [List.getElem?_eq_getElem h]; rfl

theorem endsAt_some {m : Mesh K} (hm : TriMesh m) {e : Nat} (h : e < m.nbEdges) : m.edges[e]? = some (endsAt m e) := by
  unfold endsAt
  rw [List.getElem?_eq_getElem (by have := hm.edges; omega)]; rfl

theorem endsAt_lt {m : Mesh K} (hm : TriMesh m) {e : Nat} (h : e < m.nbEdges) :
    (endsAt m e).1 < m.nbNodes ∧ (endsAt m e).2 < m.nbNodes :=
  hm.ends e h _ (endsAt_some hm h)

/-- One iteration of the loop on the edges. -/
theorem edgeStep_inv {m : Mesh K} (hm : TriMesh m) (z : List K) (hz : z.length = m.nbNodes) (n : Nat)
    (hn : n < m.nbEdges) (s : EdgeSt K) (h : EInv m z n s) :
    ∃ s', edgeStep m.facetsPerEdge s n = .ok s' ∧ EInv m z (n + 1) s' := by
  have he := endsAt_lt hm hn
  have hE := h.edgesStatic n hn
  obtain ⟨a, b, hab⟩ : ∃ a b, endsAt m n = (a, b) := ⟨_, _, rfl⟩
  rw [hab] at hE
  have ha : a < m.nbNodes := by simpa [hab] using he.1
  have hb : b < m.nbNodes := by simpa [hab] using he.2
  have hsta : edgeStatus (immersion z a) (immersion z b) = stAt m z n := by simp [stAt, hab]
  obtain ⟨c', hc1, hc2, hc3⟩ := mark_step hm z n hn s.crossing h.crossLen h.mark
  have hst : n < s.status.length := by rw [h.statusLen]; omega
  have hrk := rank_le m z n
  unfold edgeStep
  simp only [getUB_ok hE, getUB_ok (h.relStatic a ha), getUB_ok (h.relStatic b hb), bind, Except.bind, pure, Except.pure,
    hsta, setUB_ok _ hst]
  by_cases hcr : crosses (stAt m z n) = true
  · have ht : touches (stAt m z n) = true := by simp [touches, hcr]
    rw [if_pos ht] at hc1
    simp only [hcr, if_true, Bool.true_or]
    have hna : s.allNodes[a]? = some (nodeAt m.allNodes a) := by
      rw [h.nodesStatic a ha]; exact nodeAt_some (by rw [hm.nodes]; omega)
    have hnb : s.allNodes[b]? = some (nodeAt m.allNodes b) := by
      rw [h.nodesStatic b hb]; exact nodeAt_some (by rw [hm.nodes]; omega)
    have hwa : s.wave[a]? = some (immersion s.wave a) := immersion_some (by rw [h.waveLen]; omega)
    have hwb : s.wave[b]? = some (immersion s.wave b) := immersion_some (by rw [h.waveLen]; omega)
    have htot : s.total < s.allNodes.length := by rw [h.total, h.nodesLen]; omega
    have hsg : (s.status.set n (stAt m z n))[n]? = some (stAt m z n) := by
      rw [List.getElem?_set]; simp [hst]
    have hsp : n < s.split.length := by rw [h.splitLen]; exact hn
    unfold splitEdge
    simp only [getUB_ok hE, getUB_ok (h.relStatic a ha), getUB_ok (h.relStatic b hb), bind, Except.bind, pure, Except.pure,
      getUB_ok hna, getUB_ok hnb, getUB_ok hwa, getUB_ok hwb, setUB_ok _ htot, getUB_ok hsg, setUB_ok _ hsp]
    obtain ⟨fs, hfs⟩ : ∃ fs, m.facetsPerEdge[n]? = some fs :=
      ⟨_, List.getElem?_eq_getElem (by rw [hm.fpe]; exact hn)⟩
    simp only [getUB_ok hfs, bind, Except.bind] at hc1 ⊢
    rw [hc1]
    refine ⟨_, rfl, ?_⟩
    have hr : rank m z (n + 1) = rank m z n + 1 := by rw [rank_succ, if_pos hcr]
    have hlt : ∀ e < n + 1, e ≠ n → crosses (stAt m z e) = true → e < n ∧ rank m z e < rank m z n := by
      intro e he1 hne hce
      exact ⟨by omega, rank_lt m z (by omega) hce⟩
    have t1 := h.total; have t2 := h.edgesLen; have t3 := h.statusLen; have t4 := h.relLen
    have t5 := h.waveLen; have t6 := h.nodesLen; have t7 := h.splitLen
    constructor
    · show s.total + 1 = _
      rw [hr]; omega
    · simp only [List.length_append, List.length_cons, List.length_nil, hr]; omega
    · simp only [List.length_append, List.length_cons, List.length_nil, List.length_set, hr]; omega
    · simp only [List.length_append, List.length_cons, List.length_nil, hr]; omega
    · simp only [List.length_append, List.length_cons, List.length_nil, hr]; omega
    · simp only [List.length_set]; exact t6
    · simp only [List.length_set]; exact t7
    · exact hc2
    · intro e he1
      show (s.edges ++ _)[e]? = _
      rw [List.getElem?_append_left (by omega)]; exact h.edgesStatic e he1
    · intro i hi
      show (s.allNodes.set _ _)[i]? = _
      rw [List.getElem?_set_ne (by omega)]; exact h.nodesStatic i hi
    · intro i hi
      show (s.rel ++ _)[i]? = _
      rw [List.getElem?_append_left (by omega)]; exact h.relStatic i hi
    · intro e he1
      show (s.status.set n _ ++ _)[e]? = _
      rw [List.getElem?_append_left (by rw [List.length_set]; omega)]
      by_cases hen : e = n
      · subst hen; exact hsg
      · rw [List.getElem?_set_ne (by omega)]; exact h.stat e (by omega)
    · intro e he1 hce
      show (s.split.set n _)[e]? = _
      by_cases hen : e = n
      · subst hen; rw [List.getElem?_set_self hsp, t2]
      · rw [List.getElem?_set_ne (by omega)]; exact h.split e (by omega) hce
    · intro e he1 hce
      show (s.edges ++ _)[_]? = _
      by_cases hen : e = n
      · subst hen
        rw [List.getElem?_append_right (by omega), ← t2, Nat.sub_self, hab, t1]; rfl
      · obtain ⟨h1, h2⟩ := hlt e he1 hen hce
        rw [List.getElem?_append_left (by omega)]; exact h.sub1 e h1 hce
    · intro e he1 hce
      show (s.edges ++ _)[_]? = _
      by_cases hen : e = n
      · subst hen
        rw [List.getElem?_append_right (by omega), ← t2, Nat.add_sub_cancel_left, hab, t1]; rfl
      · obtain ⟨h1, h2⟩ := hlt e he1 hen hce
        rw [List.getElem?_append_left (by omega)]; exact h.sub2 e h1 hce
    · intro e he1 hce
      show (s.status.set n _ ++ _)[_]? = _
      by_cases hen : e = n
      · subst hen
        rw [List.getElem?_append_right (by rw [List.length_set]; omega), List.length_set, ← t3, Nat.sub_self]; rfl
      · obtain ⟨h1, h2⟩ := hlt e he1 hen hce
        rw [List.getElem?_append_left (by rw [List.length_set]; omega), List.getElem?_set_ne (by omega)]
        exact h.st1 e h1 hce
    · intro e he1 hce
      show (s.status.set n _ ++ _)[_]? = _
      by_cases hen : e = n
      · subst hen
        rw [List.getElem?_append_right (by rw [List.length_set]; omega), List.length_set, ← t3, Nat.add_sub_cancel_left]; rfl
      · obtain ⟨h1, h2⟩ := hlt e he1 hen hce
        rw [List.getElem?_append_left (by rw [List.length_set]; omega), List.getElem?_set_ne (by omega)]
        exact h.st2 e h1 hce
    · intro e he1 hce
      show (s.allNodes.set _ _)[_]? = _
      by_cases hen : e = n
      · subst hen
        rw [← t1, List.getElem?_set_self htot, hab]
      · obtain ⟨h1, h2⟩ := hlt e he1 hen hce
        rw [List.getElem?_set_ne (by omega)]; exact h.mid e h1 hce
    · intro e he1 hce
      show (s.rel ++ _)[_]? = _
      by_cases hen : e = n
      · subst hen
        rw [List.getElem?_append_right (by omega), ← t4, Nat.sub_self]; rfl
      · obtain ⟨h1, h2⟩ := hlt e he1 hen hce
        rw [List.getElem?_append_left (by omega)]; exact h.midRel e h1 hce
    · exact hc3
  · have hcr' : crosses (stAt m z n) = false := by simpa using hcr
    simp only [hcr', if_false, Bool.false_or, Bool.false_eq_true]
    have hr : rank m z (n + 1) = rank m z n := by rw [rank_succ, if_neg hcr, Nat.add_zero]
    have key : ∀ c'', c''.length = m.nbFacets → (∀ f < m.nbFacets, c''[f]? = some true ↔
        ∃ e < n + 1, touches (stAt m z e) = true ∧ ∃ fs, m.facetsPerEdge[e]? = some fs ∧ f ∈ fs) →
        EInv m z (n + 1) { s with status := s.status.set n (stAt m z n), crossing := c'' } := by
      intro c'' hc2' hc3'
      have hlt : ∀ e < n + 1, crosses (stAt m z e) = true → e < n ∧ rank m z e < rank m z n := by
        intro e he1 hce
        have hne : e ≠ n := by rintro rfl; exact hcr hce
        exact ⟨by omega, rank_lt m z (by omega) hce⟩
      constructor
      · rw [hr]; exact h.total
      · rw [hr]; exact h.edgesLen
      · rw [hr]; simpa using h.statusLen
      · rw [hr]; exact h.relLen
      · rw [hr]; exact h.waveLen
      · exact h.nodesLen
      · exact h.splitLen
      · exact hc2'
      · exact h.edgesStatic
      · exact h.nodesStatic
      · exact h.relStatic
      · intro e he1
        show (s.status.set n _)[e]? = _
        by_cases hen : e = n
        · subst hen; rw [List.getElem?_set_self hst]
        · rw [List.getElem?_set_ne (by omega)]; exact h.stat e (by omega)
      · intro e he1 hce; exact h.split e (hlt e he1 hce).1 hce
      · intro e he1 hce; exact h.sub1 e (hlt e he1 hce).1 hce
      · intro e he1 hce; exact h.sub2 e (hlt e he1 hce).1 hce
      · intro e he1 hce
        show (s.status.set n _)[_]? = _
        rw [List.getElem?_set_ne (by omega)]; exact h.st1 e (hlt e he1 hce).1 hce
      · intro e he1 hce
        show (s.status.set n _)[_]? = _
        rw [List.getElem?_set_ne (by omega)]; exact h.st2 e (hlt e he1 hce).1 hce
      · intro e he1 hce; exact h.mid e (hlt e he1 hce).1 hce
      · intro e he1 hce; exact h.midRel e (hlt e he1 hce).1 hce
      · exact hc3'
    have htd : touches (stAt m z n) = (bothTouch (stAt m z n) || oneEndTouches (stAt m z n)) := by
      simp [touches, hcr']
    rw [htd] at hc1
    by_cases ht : (bothTouch (stAt m z n) || oneEndTouches (stAt m z n)) = true
    · rw [if_pos ht] at hc1 ⊢
      obtain ⟨fs, hfs⟩ : ∃ fs, m.facetsPerEdge[n]? = some fs :=
        ⟨_, List.getElem?_eq_getElem (by rw [hm.fpe]; exact hn)⟩
      simp only [getUB_ok hfs, bind, Except.bind] at hc1 ⊢
      rw [hc1]
      exact ⟨_, rfl, key c' hc2 hc3⟩
    · rw [if_neg ht] at hc1 ⊢
      injection hc1 with hc1
      subst hc1
      exact ⟨_, rfl, key s.crossing hc2 hc3⟩

/-- The whole loop on the edges. -/
theorem edgeLoop_inv {m : Mesh K} (hm : TriMesh m) (z : List K) (hz : z.length = m.nbNodes) (s : EdgeSt K) (n : Nat)
    (hn : n ≤ m.nbEdges) (h : EInv m z 0 s) :
    ∃ s', (List.range n).foldlM (edgeStep m.facetsPerEdge) s = .ok s' ∧ EInv m z n s' := by
  induction n with
  | zero => exact ⟨s, rfl, h⟩
  | succ n ih =>
    obtain ⟨s1, h1, h2⟩ := ih (by omega)
    obtain ⟨s2, h3, h4⟩ := edgeStep_inv hm z hz n (by omega) s1 h2
    refine ⟨s2, ?_, h4⟩
    rw [List.range_succ, List.foldlM_append, h1]
    simp only [List.foldlM_cons, List.foldlM_nil, bind, Except.bind, h3, pure, Except.pure]

end Edges

end Xdyn.Hull

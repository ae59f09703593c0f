import Verif.Lemmas.MeshSplit
import Mathlib.Data.List.Basic
import Mathlib.Data.List.Perm.Subperm
import Mathlib.Tactic.Tauto
import Mathlib.Tactic.Linarith

/-
Invariants of `MeshBuilder`.
-/

namespace Xdyn.Hull

variable {K : Type} [Field K] [LinearOrder K]

/-- The maps of `MeshBuilder` are in accordance with its vectors, there are no duplicates. -/
structure BInv (b : Builder K) : Prop where
  xyz : b.xyzMap = b.nodes.zipIdx
  em : b.edgeMap = b.edges.zipIdx
  nodup : b.nodes.Nodup
  pw : b.edges.Pairwise (fun e f => ¬ (sameEdge e f = true))
  fpeLen : b.facetsPerEdge.length = b.edges.length
  ends : ∀ e ∈ b.edges, e.1 < b.nodes.length ∧ e.2 < b.nodes.length

omit [Field K] in
theorem lookPt_zipIdx (l : List (Pt K)) (n : Nat) (p : Pt K) :
    (∀ i, lookPt (l.zipIdx n) p = some i → ∃ j, i = n + j ∧ l[j]? = some p) ∧
    (lookPt (l.zipIdx n) p = none → p ∉ l) := by
  induction l generalizing n with
  | nil => simp [lookPt]
  | cons q l ih =>
    simp only [List.zipIdx_cons, lookPt]
    by_cases h : q = p
    · subst h
      simp only [if_true, Option.some.injEq, reduceCtorEq, false_implies, and_true]
      intro i hi; exact ⟨0, by omega, by simp⟩
    · simp only [if_neg h]
      constructor
      · intro i hi
        obtain ⟨j, hj1, hj2⟩ := (ih (n + 1)).1 i hi
        exact ⟨j + 1, by omega, by simpa using hj2⟩
      · intro hn
        have := (ih (n + 1)).2 hn
        simp only [List.mem_cons, not_or]
        exact ⟨fun hh => h hh.symm, this⟩

theorem lookEdge_zipIdx (l : List (Nat × Nat)) (n : Nat) (p : Nat × Nat) :
    (∀ i, lookEdge (l.zipIdx n) p = some i → ∃ j q, i = n + j ∧ l[j]? = some q ∧ sameEdge q p = true) ∧
    (lookEdge (l.zipIdx n) p = none → ∀ q ∈ l, ¬ (sameEdge q p = true)) := by
  induction l generalizing n with
  | nil => simp [lookEdge]
  | cons q l ih =>
    simp only [List.zipIdx_cons, lookEdge]
    by_cases h : sameEdge q p = true
    · simp only [if_pos h, Option.some.injEq, reduceCtorEq, false_implies, and_true]
      intro i hi; exact ⟨0, q, by omega, by simp, h⟩
    · rw [if_neg h]
      constructor
      · intro i hi
        obtain ⟨j, r, hj1, hj2, hj3⟩ := (ih (n + 1)).1 i hi
        exact ⟨j + 1, r, by omega, by simpa using hj2, hj3⟩
      · intro hn r hr
        rcases List.mem_cons.mp hr with rfl | hr
        · exact h
        · exact (ih (n + 1)).2 hn r hr

/-- `onePoint` gives back an index of the point. -/
theorem onePoint_spec {b b' : Builder K} {p : Pt K} {i : Nat} (hb : BInv b) (h : b.onePoint p = .ok (b', i)) :
    BInv b' ∧ b.nodes <+: b'.nodes ∧ b'.nodes[i]? = some p ∧ b'.edges = b.edges ∧ b'.facetsPerEdge = b.facetsPerEdge ∧
    b'.facets = b.facets ∧ b'.orientedEdges = b.orientedEdges ∧ b'.capacity = b.capacity ∧
    (∀ q ∈ b'.nodes, q ∈ b.nodes ∨ q = p) := by
  unfold Builder.onePoint at h
  rw [hb.xyz] at h
  cases hl : lookPt b.nodes.zipIdx p with
  | some j =>
    rw [hl] at h
    injection h with h
    obtain ⟨rfl, rfl⟩ := h
    obtain ⟨k, hk1, hk2⟩ := (lookPt_zipIdx b.nodes 0 p).1 _ hl
    refine ⟨hb, List.prefix_refl _, ?_, rfl, rfl, rfl, rfl, rfl, fun q hq => Or.inl hq⟩
    rw [hk1, Nat.zero_add]; exact hk2
  | none =>
    rw [hl] at h
    dsimp only at h
    have hnot := (lookPt_zipIdx b.nodes 0 p).2 hl
    split_ifs at h with hc
    injection h with h
    obtain ⟨rfl, rfl⟩ := h
    refine ⟨⟨?_, hb.em, ?_, hb.pw, hb.fpeLen, ?_⟩, List.prefix_append _ _, ?_, rfl, rfl, rfl, rfl, rfl, ?_⟩
    · simp [List.zipIdx_append]
    · rw [List.nodup_append]
      refine ⟨hb.nodup, by simp, ?_⟩
      intro a ha c hcc
      simp only [List.mem_singleton] at hcc
      rintro rfl; subst hcc; exact hnot ha
    · intro e he
      have := hb.ends e he
      simp only [List.length_append, List.length_singleton]; omega
    · simp
    · intro q hq
      simpa using hq

/-- `oneEdge` gives back the index of the edge, whatever its direction. -/
theorem oneEdge_spec {b : Builder K} {e : Nat × Nat} (hb : BInv b) (he : e.1 < b.nodes.length ∧ e.2 < b.nodes.length) :
    BInv (b.oneEdge e).1 ∧ b.edges <+: (b.oneEdge e).1.edges ∧
    (∃ q, (b.oneEdge e).1.edges[(b.oneEdge e).2]? = some q ∧ sameEdge q e = true) ∧
    (b.oneEdge e).1.nodes = b.nodes ∧ (b.oneEdge e).1.facets = b.facets ∧ (b.oneEdge e).1.orientedEdges = b.orientedEdges ∧
    (b.oneEdge e).1.capacity = b.capacity ∧
    (∀ i, (b.oneEdge e).1.facetsPerEdge.getD i [] = b.facetsPerEdge.getD i []) := by
  unfold Builder.oneEdge
  rw [hb.em]
  cases hl : lookEdge b.edges.zipIdx e with
  | some j =>
    obtain ⟨k, q, hk1, hk2, hk3⟩ := (lookEdge_zipIdx b.edges 0 e).1 j hl
    refine ⟨hb, List.prefix_refl _, ⟨q, ?_, hk3⟩, rfl, rfl, rfl, rfl, fun _ => rfl⟩
    show b.edges[j]? = _
    rw [hk1, Nat.zero_add]; exact hk2
  | none =>
    have hnot := (lookEdge_zipIdx b.edges 0 e).2 hl
    refine ⟨⟨hb.xyz, ?_, hb.nodup, ?_, ?_, ?_⟩, List.prefix_append _ _, ⟨e, by simp, by simp [sameEdge]⟩, rfl, rfl, rfl, rfl, ?_⟩
    · show b.edges.zipIdx ++ _ = _
      simp [List.zipIdx_append]
    · show List.Pairwise _ (b.edges ++ [e])
      rw [List.pairwise_append]
      refine ⟨hb.pw, by simp, ?_⟩
      intro a ha c hc
      simp only [List.mem_singleton] at hc
      subst hc; exact hnot a ha
    · simp [hb.fpeLen]
    · intro f hf
      simp only [List.mem_append, List.mem_singleton] at hf
      rcases hf with hf | rfl
      · exact hb.ends f hf
      · exact he
    · intro i
      show (b.facetsPerEdge ++ [[]]).getD i [] = _
      simp only [List.getD_eq_getElem?_getD]
      by_cases hi : i < b.facetsPerEdge.length
      · rw [List.getElem?_append_left hi]
      · rw [List.getElem?_append_right (by omega), List.getElem?_eq_none (l := b.facetsPerEdge) (by omega)]
        cases i - b.facetsPerEdge.length <;> simp

/-- The side `o` runs from the point `p` to the point `q`. -/
def SideOf (nodes : List (Pt K)) (edges : List (Nat × Nat)) (o : Nat) (p q : Pt K) : Prop :=
  ∃ v w, nodes[v]? = some p ∧ nodes[w]? = some q ∧ Runs edges o v w

/-- `os` are the sides of the path that goes through `ps` and ends at `first`. -/
def Sides (nodes : List (Pt K)) (edges : List (Nat × Nat)) (first : Pt K) : List (Pt K) → List Nat → Prop
  | [], [] => True
  | p :: ps, o :: os => SideOf nodes edges o p (ps.headD first) ∧ Sides nodes edges first ps os
  | _, _ => False

omit [Field K] [LinearOrder K] in
theorem SideOf.mono {n n' : List (Pt K)} {e e' : List (Nat × Nat)} {o : Nat} {p q : Pt K} (h : SideOf n e o p q)
    (hn : n <+: n') (he : e <+: e') : SideOf n' e' o p q := by
  obtain ⟨v, w, h1, h2, h3⟩ := h
  have key : ∀ {α : Type} {l l' : List α} {i : Nat} {x : α}, l <+: l' → l[i]? = some x → l'[i]? = some x := by
    intro α l l' i x hp hx
    obtain ⟨t, rfl⟩ := hp
    rw [List.getElem?_append_left (List.getElem?_eq_some_iff.mp hx).1]; exact hx
  refine ⟨v, w, key hn h1, key hn h2, ?_⟩
  rcases h3 with ⟨a, b⟩ | ⟨a, b⟩
  · exact Or.inl ⟨a, key he b⟩
  · exact Or.inr ⟨a, key he b⟩

omit [Field K] [LinearOrder K] in
theorem Sides.mono {n n' : List (Pt K)} {e e' : List (Nat × Nat)} {first : Pt K} (hn : n <+: n') (he : e <+: e') :
    ∀ {ps : List (Pt K)} {os : List Nat}, Sides n e first ps os → Sides n' e' first ps os
  | [], [], h => h
  | _ :: _, _ :: _, h => ⟨h.1.mono hn he, Sides.mono hn he h.2⟩
  | [], _ :: _, h => h.elim
  | _ :: _, [], h => h.elim

omit [Field K] [LinearOrder K] in
theorem prefix_getElem? {α : Type} {l l' : List α} {i : Nat} {x : α} (hp : l <+: l') (hx : l[i]? = some x) : l'[i]? = some x := by
  obtain ⟨t, rfl⟩ := hp
  rw [List.getElem?_append_left (List.getElem?_eq_some_iff.mp hx).1]; exact hx

/-- What `facetPoints` adds. -/
structure Added (f : Nat) (first : Pt K) (b b' : Builder K) (ps : List (Pt K)) (vs os : List Nat) : Prop where
  inv : BInv b'
  nodes : b.nodes <+: b'.nodes
  edges : b.edges <+: b'.edges
  facets : b'.facets = b.facets
  oe : b'.orientedEdges = b.orientedEdges
  capacity : b'.capacity = b.capacity
  points : vs.map (fun i => b'.nodes[i]?) = ps.map some
  sides : Sides b'.nodes b'.edges first ps os
  fpe : ∀ e g, g ∈ b'.facetsPerEdge.getD e [] ↔ g ∈ b.facetsPerEdge.getD e [] ∨ (g = f ∧ ∃ o ∈ os, o / 2 = e)
  used : ∀ q ∈ b'.nodes, q ∈ b.nodes ∨ q ∈ ps ∨ (ps ≠ [] ∧ q = first)

theorem sameEdge_cases {q e : Nat × Nat} (h : sameEdge q e = true) : q = e ∨ q = (e.2, e.1) := by
  obtain ⟨a, b⟩ := q
  obtain ⟨c, d⟩ := e
  simp only [sameEdge, Bool.and_eq_true, decide_eq_true_eq] at h
  simp only [Prod.mk.injEq]
  omega

theorem facetPoints_spec (f : Nat) (first : Pt K) : ∀ (ps : List (Pt K)) (b b' : Builder K) (vs os vs' os' : List Nat),
    BInv b → Builder.facetPoints f first b ps vs os = .ok (b', vs', os') →
    ∃ vs1 os1, vs' = vs ++ vs1 ∧ os' = os ++ os1 ∧ Added f first b b' ps vs1 os1 := by
  intro ps
  induction ps with
  | nil =>
    intro b b' vs os vs' os' hb h
    simp only [Builder.facetPoints, Except.ok.injEq, Prod.mk.injEq] at h
    obtain ⟨rfl, rfl, rfl⟩ := h
    exact ⟨[], [], by simp, by simp, hb, List.prefix_refl _, List.prefix_refl _, rfl, rfl, rfl, rfl, trivial, by simp,
      fun q hq => Or.inl hq⟩
  | cons p ps ih =>
    intro b b' vs os vs' os' hb h
    simp only [Builder.facetPoints, bind, Except.bind] at h
    cases h1 : b.onePoint p with
    | error e => rw [h1] at h; cases h
    | ok r1 =>
      obtain ⟨b1, v⟩ := r1
      rw [h1] at h; dsimp only at h
      obtain ⟨i1, n1, g1, e1, fpe1, fc1, oe1, c1, u1⟩ := onePoint_spec hb h1
      cases h2 : b1.onePoint (ps.headD first) with
      | error e => rw [h2] at h; cases h
      | ok r2 =>
        obtain ⟨b2, w⟩ := r2
        rw [h2] at h; dsimp only at h
        obtain ⟨i2, n2, g2, e2, fpe2, fc2, oe2, c2, u2⟩ := onePoint_spec i1 h2
        have gv : b2.nodes[v]? = some p := prefix_getElem? n2 g1
        have hv : v < b2.nodes.length := (List.getElem?_eq_some_iff.mp gv).1
        have hw : w < b2.nodes.length := (List.getElem?_eq_some_iff.mp g2).1
        obtain ⟨i3, p3, ⟨q, hq1, hq2⟩, n3, fc3, oe3, c3, fpe3⟩ := oneEdge_spec (e := (v, w)) i2 ⟨hv, hw⟩
        generalize hb3 : b2.oneEdge (v, w) = r3 at h i3 p3 hq1 n3 fc3 oe3 c3 fpe3
        obtain ⟨b3, e⟩ := r3
        dsimp only at h i3 p3 hq1 n3 fc3 oe3 c3 fpe3
        have he : e < b3.edges.length := (List.getElem?_eq_some_iff.mp hq1).1
        have hef : e < b3.facetsPerEdge.length := by rw [i3.fpeLen]; exact he
        have hst : getAt b3.edges e = .ok q := by unfold getAt; rw [hq1]
        obtain ⟨fs, hfs⟩ : ∃ fs, b3.facetsPerEdge[e]? = some fs := ⟨_, List.getElem?_eq_getElem hef⟩
        have hfst : getAt b3.facetsPerEdge e = .ok fs := by unfold getAt; rw [hfs]
        rw [hst] at h; dsimp only at h
        rw [hfst] at h; dsimp only at h
        have i4 : BInv { b3 with facetsPerEdge := b3.facetsPerEdge.set e (fs ++ [f]) } :=
          ⟨i3.xyz, i3.em, i3.nodup, i3.pw, by simp [i3.fpeLen], i3.ends⟩
        obtain ⟨vs1, os1, hvs, hos, A⟩ := ih _ _ _ _ _ _ i4 h
        refine ⟨v :: vs1, orientedId e (q.2 == v) :: os1, by simp [hvs], by simp [hos], A.inv, ?_, ?_, ?_, ?_, ?_, ?_, ⟨?_, A.sides⟩, ?_, ?_⟩
        · refine (n1.trans n2).trans ?_
          rw [← n3]; exact A.nodes
        · rw [← e1, ← e2]; exact p3.trans A.edges
        · rw [A.facets, ← fc1, ← fc2, ← fc3]
        · rw [A.oe, ← oe1, ← oe2, ← oe3]
        · rw [A.capacity, ← c1, ← c2, ← c3]
        · simp only [List.map_cons, A.points]
          congr 1
          exact prefix_getElem? A.nodes (by rw [n3]; exact gv)
        · have hs : SideOf b3.nodes b3.edges (orientedId e (q.2 == v)) p (ps.headD first) := by
            refine ⟨v, w, by rw [n3]; exact gv, by rw [n3]; exact g2, ?_⟩
            rw [Runs, orientedId_eq]
            rcases sameEdge_cases hq2 with rfl | rfl
            · dsimp only
              by_cases hvw : w = v
              · right; subst hvw; simp
                rw [show (2 * e + 1) / 2 = e by omega]; exact hq1
              · left; simp [hvw, hq1]
            · right; simp
              rw [show (2 * e + 1) / 2 = e by omega]; exact hq1
          exact hs.mono A.nodes A.edges
        · intro e' g
          rw [A.fpe]
          show g ∈ (b3.facetsPerEdge.set e (fs ++ [f])).getD e' [] ∨ _ ↔ _
          have hoe : orientedId e (q.2 == v) / 2 = e := by rw [orientedId_eq]; cases (q.2 == v) <;> simp <;> omega
          have hb' : b.facetsPerEdge.getD e' [] = b3.facetsPerEdge.getD e' [] := by rw [fpe3, fpe2, fpe1]
          rw [hb']
          simp only [List.getD_eq_getElem?_getD, List.mem_cons, exists_eq_or_imp, hoe]
          by_cases hee : e = e'
          · subst hee
            rw [List.getElem?_set_self hef, hfs]
            simp only [Option.getD_some, List.mem_append, List.mem_singleton]
            tauto
          · rw [List.getElem?_set_ne hee]
            tauto
        · intro r hr
          rcases A.used r hr with hr | hr | ⟨hr1, hr2⟩
          · change r ∈ b3.nodes at hr
            rw [n3] at hr
            rcases u2 r hr with hr | hr
            · rcases u1 r hr with hr | hr
              · exact Or.inl hr
              · right; left; simp [hr]
            · right
              cases ps with
              | nil => right; exact ⟨by simp, hr⟩
              | cons a l => left; simp at hr; simp [hr]
          · right; left; simp [hr]
          · right; right; exact ⟨by simp, hr2⟩

/-- `facetPoints` does not fail when there is room for all the points. -/
theorem onePoint_ok {b : Builder K} (hb : BInv b) (L : List (Pt K)) (hL : ∀ q ∈ b.nodes, q ∈ L) (hc : L.length ≤ b.capacity)
    {p : Pt K} (hp : p ∈ L) : ∃ r, b.onePoint p = .ok r := by
  unfold Builder.onePoint
  cases hl : lookPt b.xyzMap p with
  | some i => exact ⟨_, rfl⟩
  | none =>
    rw [hb.xyz] at hl
    have hnot := (lookPt_zipIdx b.nodes 0 p).2 hl
    have hnd : (p :: b.nodes).Nodup := List.nodup_cons.mpr ⟨hnot, hb.nodup⟩
    have hsub : p :: b.nodes ⊆ L := by
      intro q hq
      rcases List.mem_cons.mp hq with rfl | hq
      · exact hp
      · exact hL q hq
    have := (List.subperm_of_subset hnd hsub).length_le
    simp only [List.length_cons] at this
    dsimp only
    rw [if_pos (by omega)]
    exact ⟨_, rfl⟩

theorem facetPoints_ok (f : Nat) (first : Pt K) (L : List (Pt K)) (hf : first ∈ L) : ∀ (ps : List (Pt K)) (b : Builder K) (vs os : List Nat),
    BInv b → (∀ q ∈ b.nodes, q ∈ L) → L.length ≤ b.capacity → (∀ q ∈ ps, q ∈ L) →
    ∃ r, Builder.facetPoints f first b ps vs os = .ok r := by
  intro ps
  induction ps with
  | nil => intro b vs os _ _ _ _; exact ⟨_, rfl⟩
  | cons p ps ih =>
    intro b vs os hb hL hc hps
    simp only [Builder.facetPoints, bind, Except.bind]
    obtain ⟨⟨b1, v⟩, h1⟩ := onePoint_ok hb L hL hc (hps p (by simp))
    rw [h1]; dsimp only
    obtain ⟨i1, n1, g1, e1, fpe1, fc1, oe1, c1, u1⟩ := onePoint_spec hb h1
    have hL1 : ∀ q ∈ b1.nodes, q ∈ L := by
      intro q hq
      rcases u1 q hq with hq | rfl
      · exact hL q hq
      · exact hps _ (by simp)
    have hnext : ps.headD first ∈ L := by
      cases ps with
      | nil => exact hf
      | cons a l => exact hps _ (by simp)
    obtain ⟨⟨b2, w⟩, h2⟩ := onePoint_ok i1 L hL1 (by rw [c1]; exact hc) hnext
    rw [h2]; dsimp only
    obtain ⟨i2, n2, g2, e2, fpe2, fc2, oe2, c2, u2⟩ := onePoint_spec i1 h2
    have hL2 : ∀ q ∈ b2.nodes, q ∈ L := by
      intro q hq
      rcases u2 q hq with hq | rfl
      · exact hL1 q hq
      · exact hnext
    have gv : b2.nodes[v]? = some p := prefix_getElem? n2 g1
    have hv : v < b2.nodes.length := (List.getElem?_eq_some_iff.mp gv).1
    have hw : w < b2.nodes.length := (List.getElem?_eq_some_iff.mp g2).1
    obtain ⟨i3, p3, ⟨q, hq1, hq2⟩, n3, fc3, oe3, c3, fpe3⟩ := oneEdge_spec (e := (v, w)) i2 ⟨hv, hw⟩
    generalize hb3 : b2.oneEdge (v, w) = r3 at i3 p3 hq1 n3 fc3 oe3 c3 fpe3
    obtain ⟨b3, e⟩ := r3
    dsimp only at i3 p3 hq1 n3 fc3 oe3 c3 fpe3 ⊢
    have he : e < b3.edges.length := (List.getElem?_eq_some_iff.mp hq1).1
    have hef : e < b3.facetsPerEdge.length := by rw [i3.fpeLen]; exact he
    have hst : getAt b3.edges e = .ok q := by unfold getAt; rw [hq1]
    obtain ⟨fs, hfs⟩ : ∃ fs, b3.facetsPerEdge[e]? = some fs := ⟨_, List.getElem?_eq_getElem hef⟩
    have hfst : getAt b3.facetsPerEdge e = .ok fs := by unfold getAt; rw [hfs]
    rw [hst]; dsimp only
    rw [hfst]; dsimp only
    exact ih _ _ _ ⟨i3.xyz, i3.em, i3.nodup, i3.pw, by simp [i3.fpeLen], i3.ends⟩ (by show ∀ q ∈ b3.nodes, q ∈ L; rw [n3]; exact hL2)
      (by show L.length ≤ b3.capacity; rw [c3, c2, c1]; exact hc) (fun q hq => hps q (by simp [hq]))

/-- The facets built so far are those of `done` (without the empty ones). -/
structure Built (normal : List (Pt K) → Except Err (Pt K)) (done : List (List (Pt K))) (b : Builder K) : Prop where
  inv : BInv b
  nbFacets : b.facets.length = done.length
  nbOe : b.orientedEdges.length = done.length
  facet : ∀ (f : Nat) (l : List (Pt K)), done[f]? = some l → ∃ (p : Pt K) (ps : List (Pt K)) (vs : List Nat) (n : Pt K) (os : List Nat), l = p :: ps ∧ b.facets[f]? = some ⟨vs, n⟩ ∧ normal l = .ok n ∧
    vs.map (fun i => b.nodes[i]?) = l.map some ∧ b.orientedEdges[f]? = some os ∧ Sides b.nodes b.edges p l os
  fpe : ∀ e g : Nat, g ∈ b.facetsPerEdge.getD e [] ↔ ∃ os, b.orientedEdges[g]? = some os ∧ ∃ o ∈ os, o / 2 = e
  used : ∀ q ∈ b.nodes, ∃ l ∈ done, q ∈ l

theorem addFacet_spec {normal : List (Pt K) → Except Err (Pt K)} {done : List (List (Pt K))} {b b' : Builder K} {l : List (Pt K)}
    (hb : Built normal done b) (h : b.addFacet normal l = .ok b') :
    b'.capacity = b.capacity ∧ Built normal (if l = [] then done else done ++ [l]) b' := by
  cases l with
  | nil =>
    simp only [Builder.addFacet, Except.ok.injEq] at h
    subst h; exact ⟨rfl, hb⟩
  | cons p ps =>
    simp only [Builder.addFacet, bind, Except.bind] at h
    cases hn : normal (p :: ps) with
    | error e => rw [hn] at h; cases h
    | ok n =>
      rw [hn] at h; dsimp only at h
      cases hf : Builder.facetPoints b.facets.length p b (p :: ps) [] [] with
      | error e => rw [hf] at h; cases h
      | ok r =>
        obtain ⟨b1, vs, os⟩ := r
        rw [hf] at h
        simp only [pure, Except.pure, Except.ok.injEq] at h
        subst h
        obtain ⟨vs1, os1, hvs, hos, A⟩ := facetPoints_spec _ _ _ _ _ _ _ _ _ hb.inv hf
        simp only [List.nil_append] at hvs hos
        subst hvs hos
        refine ⟨A.capacity, ?_⟩
        rw [if_neg (by simp)]
        refine ⟨⟨A.inv.xyz, A.inv.em, A.inv.nodup, A.inv.pw, A.inv.fpeLen, A.inv.ends⟩, ?_, ?_, ?_, ?_, ?_⟩
        · simp [A.facets, hb.nbFacets]
        · simp [A.oe, hb.nbOe]
        · intro f l hl
          by_cases hfl : f < done.length
          · rw [List.getElem?_append_left hfl] at hl
            obtain ⟨p', ps', vs', n', os', h1, h2, h3, h4, h5, h6⟩ := hb.facet f l hl
            refine ⟨p', ps', vs', n', os', h1, ?_, h3, ?_, ?_, h6.mono A.nodes A.edges⟩
            · show (b1.facets ++ _)[f]? = _
              rw [List.getElem?_append_left (by rw [A.facets, hb.nbFacets]; exact hfl), A.facets]; exact h2
            · show vs'.map (fun i => b1.nodes[i]?) = _
              have hlen : vs'.length = l.length := by simpa using congrArg List.length h4
              apply List.ext_getElem?
              intro i
              have h4i := congrArg (fun L => L[i]?) h4
              simp only [List.getElem?_map] at h4i ⊢
              rw [← h4i]
              cases hi : vs'[i]? with
              | none => rfl
              | some x =>
                rw [hi] at h4i
                simp only [Option.map_some] at h4i ⊢
                cases hli : l[i]? with
                | none => rw [hli] at h4i; cases h4i
                | some y =>
                  rw [hli] at h4i
                  simp only [Option.map_some, Option.some.injEq] at h4i
                  rw [h4i, prefix_getElem? A.nodes h4i]
            · show (b1.orientedEdges ++ _)[f]? = _
              rw [List.getElem?_append_left (by rw [A.oe, hb.nbOe]; exact hfl), A.oe]; exact h5
          · have hfe : f = done.length := by
              have := (List.getElem?_eq_some_iff.mp hl).1
              simp at this; omega
            subst hfe
            simp at hl
            subst hl
            refine ⟨p, ps, vs, n, os, rfl, ?_, hn, A.points, ?_, A.sides⟩
            · show (b1.facets ++ _)[done.length]? = _
              rw [A.facets, ← hb.nbFacets]; simp
            · show (b1.orientedEdges ++ _)[done.length]? = _
              rw [A.oe, ← hb.nbOe]; simp
        · intro e g
          show g ∈ b1.facetsPerEdge.getD e [] ↔ ∃ os', (b1.orientedEdges ++ [os])[g]? = some os' ∧ _
          rw [A.fpe, hb.fpe, A.oe]
          constructor
          · rintro (⟨os', h1, h2⟩ | ⟨rfl, h2⟩)
            · exact ⟨os', prefix_getElem? (List.prefix_append _ _) h1, h2⟩
            · refine ⟨os, ?_, h2⟩
              rw [hb.nbFacets, ← hb.nbOe]; simp
          · rintro ⟨os', h1, h2⟩
            by_cases hg : g < b.orientedEdges.length
            · rw [List.getElem?_append_left hg] at h1
              exact Or.inl ⟨os', h1, h2⟩
            · have hge : g = b.orientedEdges.length := by
                have := (List.getElem?_eq_some_iff.mp h1).1
                simp at this; omega
              subst hge
              simp at h1
              subst h1
              exact Or.inr ⟨by rw [hb.nbFacets, hb.nbOe], h2⟩
        · intro q hq
          change q ∈ b1.nodes at hq
          rcases A.used q hq with hq | hq | ⟨_, rfl⟩
          · obtain ⟨l, hl, hql⟩ := hb.used q hq
            exact ⟨l, by simp [hl], hql⟩
          · exact ⟨p :: ps, by simp, hq⟩
          · exact ⟨q :: ps, by simp, by simp⟩

theorem addFacets_spec {normal : List (Pt K) → Except Err (Pt K)} : ∀ (v done : List (List (Pt K))) (b b' : Builder K),
    Built normal done b → v.foldlM (Builder.addFacet normal) b = .ok b' →
    Built normal (done ++ v.filter (fun l => l ≠ [])) b' := by
  intro v
  induction v with
  | nil => intro done b b' hb h; simp [pure, Except.pure] at h; subst h; simpa using hb
  | cons l v ih =>
    intro done b b' hb h
    simp only [List.foldlM_cons, bind, Except.bind] at h
    cases h1 : b.addFacet normal l with
    | error e => rw [h1] at h; cases h
    | ok b1 =>
      rw [h1] at h; dsimp only at h
      have := ih _ _ _ (addFacet_spec hb h1).2 h
      by_cases hl : l = []
      · simpa [hl] using this
      · simpa [hl] using this

theorem addFacets_ok {normal : List (Pt K) → Except Err (Pt K)} (L : List (Pt K)) : ∀ (v done : List (List (Pt K))) (b : Builder K),
    Built normal done b → L.length ≤ b.capacity → (∀ l ∈ done, ∀ q ∈ l, q ∈ L) → (∀ l ∈ v, (∀ q ∈ l, q ∈ L) ∧ ∃ n, normal l = .ok n) →
    ∃ b', v.foldlM (Builder.addFacet normal) b = .ok b' := by
  intro v
  induction v with
  | nil => intro done b _ _ _ _; exact ⟨b, rfl⟩
  | cons l v ih =>
    intro done b hb hc hd hv
    simp only [List.foldlM_cons, bind, Except.bind]
    obtain ⟨hq, n, hn⟩ := hv l (by simp)
    have h1 : ∃ b1, b.addFacet normal l = .ok b1 := by
      cases l with
      | nil => exact ⟨b, rfl⟩
      | cons p ps =>
        simp only [Builder.addFacet, bind, Except.bind]
        rw [hn]; dsimp only
        obtain ⟨r, hr⟩ := facetPoints_ok b.facets.length p L (hq p (by simp)) (p :: ps) b [] [] hb.inv
          (fun q hqq => by obtain ⟨l, hl, hql⟩ := hb.used q hqq; exact hd l hl q hql) hc hq
        rw [hr]
        exact ⟨_, rfl⟩
    obtain ⟨b1, h1⟩ := h1
    rw [h1]; dsimp only
    obtain ⟨hcap, hb1⟩ := addFacet_spec hb h1
    refine ih _ b1 hb1 (by rw [hcap]; exact hc) ?_ (fun l' hl' => hv l' (by simp [hl']))
    intro l' hl' q hql'
    by_cases hl : l = []
    · rw [if_pos hl] at hl'; exact hd l' hl' q hql'
    · rw [if_neg hl] at hl'
      rcases List.mem_append.mp hl' with hl' | hl'
      · exact hd l' hl' q hql'
      · simp at hl'; subst hl'; exact hq q hql'

theorem built_init (normal : List (Pt K) → Except Err (Pt K)) (c : Nat) : Built normal [] ({ capacity := c } : Builder K) :=
  ⟨⟨rfl, rfl, by simp, by simp, rfl, by simp⟩, rfl, rfl, by simp, by simp, by simp⟩

end Xdyn.Hull

import Verif.Lemmas.MeshSplit

/-
The three sides of a triangle: all the cases of `split_partially_immersed_facet_and_classify`.
-/

namespace Xdyn.Hull

variable {K : Type}

/-- Closes a goal `Cut ...` by one of the four basic cases. -/
macro "cut_base" : tactic => `(tactic| first
  | exact Cut.cornerE (of_eq_true (by assumption)) (of_eq_true (by assumption)) (of_eq_true (by assumption))
  | exact Cut.cornerI (of_eq_true (by assumption)) (of_eq_true (by assumption)) (of_eq_true (by assumption))
  | exact Cut.vertE (of_eq_true (by assumption)) (of_eq_true (by assumption)) (of_eq_true (by assumption))
  | exact Cut.vertI (of_eq_true (by assumption)) (of_eq_true (by assumption)) (of_eq_true (by assumption)))

macro "cut_i" : tactic => `(tactic| first
  | cut_base
  | (apply Cut.rotI3; cut_base) | (apply Cut.rotI3; apply Cut.rotI3; cut_base)
  | (apply Cut.rotI4; cut_base) | (apply Cut.rotI4; apply Cut.rotI4; cut_base)
  | (apply Cut.rotI4; apply Cut.rotI4; apply Cut.rotI4; cut_base))

macro "cut_e" : tactic => `(tactic| first
  | cut_i
  | (apply Cut.rotE3; cut_i) | (apply Cut.rotE3; apply Cut.rotE3; cut_i)
  | (apply Cut.rotE4; cut_i) | (apply Cut.rotE4; apply Cut.rotE4; cut_i)
  | (apply Cut.rotE4; apply Cut.rotE4; apply Cut.rotE4; cut_i))

/-- Closes a goal `Cut ...` up to rotations. -/
macro "cut_tac" : tactic => `(tactic| first
  | cut_e | (apply Cut.rotT; cut_e) | (apply Cut.rotT; apply Cut.rotT; cut_e))

section Triangle

variable [Field K] [LinearOrder K]

theorem sgn3' (a : K) :
    ((a < 0) = True ∧ (0 < a) = False ∧ (a = 0) = False ∧ (a ≤ 0) = True ∧ (0 ≤ a) = False) ∨
    ((a < 0) = False ∧ (0 < a) = False ∧ (a = 0) = True ∧ (a ≤ 0) = True ∧ (0 ≤ a) = True) ∨
    ((a < 0) = False ∧ (0 < a) = True ∧ (a = 0) = False ∧ (a ≤ 0) = False ∧ (0 ≤ a) = True) := by
  simpa using sgn3 a

theorem mapM_cons_ok {α β : Type} {g : α → Except Err β} {a : α} {l : List α} {b : β} {bs : List β} (h1 : g a = .ok b)
    (h2 : l.mapM g = .ok bs) : (a :: l).mapM g = .ok (b :: bs) := by
  simp [List.mapM_cons, h1, h2, bind, Except.bind, pure, Except.pure]

theorem mapM_nil_ok {α β : Type} {g : α → Except Err β} : ([] : List α).mapM g = .ok [] := rfl

set_option maxHeartbeats 2000000 in
theorem splitFacet_triangle {status split : List Nat} {oe : List (List Nat)} {s : FacetSt K}
    {f v0 v1 v2 o0 o1 o2 m0 m1 m2 a0 b0 a1 b1 a2 b2 : Nat} {n : Pt K} {z0 z1 z2 : K}
    (hos : oe[f]? = some [o0, o1, o2]) (hf : s.facets[f]? = some ⟨[v0, v1, v2], n⟩)
    (S0 : Side status split s.edges o0 v0 v1 z0 z1 m0 a0 b0)
    (S1 : Side status split s.edges o1 v1 v2 z1 z2 m1 a1 b1)
    (S2 : Side status split s.edges o2 v2 v0 z2 z0 m2 a2 b2)
    (h01 : v0 ≠ v1) (h12 : v1 ≠ v2) (h20 : v2 ≠ v0)
    (hvm : ∀ v ∈ [v0, v1, v2], ∀ m ∈ [m0, m1, m2], v ≠ m)
    (hm01 : (z0 < 0 ∧ 0 < z1) ∨ (0 < z0 ∧ z1 < 0) → (z1 < 0 ∧ 0 < z2) ∨ (0 < z1 ∧ z2 < 0) → m0 ≠ m1)
    (hm12 : (z1 < 0 ∧ 0 < z2) ∨ (0 < z1 ∧ z2 < 0) → (z2 < 0 ∧ 0 < z0) ∨ (0 < z2 ∧ z0 < 0) → m1 ≠ m2)
    (hm20 : (z2 < 0 ∧ 0 < z0) ∨ (0 < z2 ∧ z0 < 0) → (z0 < 0 ∧ 0 < z1) ∨ (0 < z0 ∧ z1 < 0) → m2 ≠ m0) :
    ∃ s', splitFacet status split oe s f = .ok s' ∧ (∃ l, s'.edges = s.edges ++ l) ∧
      ((z0 ≤ 0 ∧ z1 ≤ 0 ∧ z2 ≤ 0 ∧ ¬ (z0 = 0 ∧ z1 = 0 ∧ z2 = 0) ∧ s'.facets = s.facets ∧
          s'.emerged = s.emerged ++ [f] ∧ s'.immersed = s.immersed) ∨
       (0 ≤ z0 ∧ 0 ≤ z1 ∧ 0 ≤ z2 ∧ ¬ (z0 = 0 ∧ z1 = 0 ∧ z2 = 0) ∧ s'.facets = s.facets ∧
          s'.emerged = s.emerged ∧ s'.immersed = s.immersed ++ [f]) ∨
       (∃ ve vi, (Cut v0 v1 v2 m0 m1 m2 z0 z1 z2 ve vi ∨
            (z0 = 0 ∧ z1 = 0 ∧ z2 = 0 ∧ ve = [v0, v1, v2] ∧ vi = [v0, v1, v2])) ∧
          s'.facets = s.facets ++ [⟨ve, n⟩, ⟨vi, n⟩] ∧
          s'.emerged = s.emerged ++ [s.facets.length] ∧ s'.immersed = s.immersed ++ [s.facets.length + 1])) := by
  have q10 := h01.symm; have q21 := h12.symm; have q02 := h20.symm
  have w1 := hvm v0 (by simp) m0 (by simp); have w2 := hvm v0 (by simp) m1 (by simp); have w3 := hvm v0 (by simp) m2 (by simp)
  have w4 := hvm v1 (by simp) m0 (by simp); have w5 := hvm v1 (by simp) m1 (by simp); have w6 := hvm v1 (by simp) m2 (by simp)
  have w7 := hvm v2 (by simp) m0 (by simp); have w8 := hvm v2 (by simp) m1 (by simp); have w9 := hvm v2 (by simp) m2 (by simp)
  have u1 := w1.symm; have u2 := w2.symm; have u3 := w3.symm; have u4 := w4.symm; have u5 := w5.symm
  have u6 := w6.symm; have u7 := w7.symm; have u8 := w8.symm; have u9 := w9.symm
  unfold splitFacet
  simp only [getUB_ok hos, List.foldlM_cons, List.foldlM_nil, bind, Except.bind, pure, Except.pure, S0.step, S1.step, S2.step,
    getUB_ok hf]
  -- vertices of the sides, of their halves and of the closing edge
  have fv0 := firstVertex_of_runs S0.runs; have fv1 := firstVertex_of_runs S1.runs; have fv2 := firstVertex_of_runs S2.runs
  have sv0 := fun l => secondVertex_of_runs (runs_append S0.runs l)
  have sv1 := fun l => secondVertex_of_runs (runs_append S1.runs l)
  have sv2 := fun l => secondVertex_of_runs (runs_append S2.runs l)
  have ha0 := fun c => firstVertex_of_runs (S0.half1 c); have hb0 := fun c => firstVertex_of_runs (S0.half2 c)
  have ha1 := fun c => firstVertex_of_runs (S1.half1 c); have hb1 := fun c => firstVertex_of_runs (S1.half2 c)
  have ha2 := fun c => firstVertex_of_runs (S2.half1 c); have hb2 := fun c => firstVertex_of_runs (S2.half2 c)
  have ka0 := fun c l => secondVertex_of_runs (runs_append (S0.half1 c) l)
  have kb0 := fun c l => secondVertex_of_runs (runs_append (S0.half2 c) l)
  have ka1 := fun c l => secondVertex_of_runs (runs_append (S1.half1 c) l)
  have kb1 := fun c l => secondVertex_of_runs (runs_append (S1.half2 c) l)
  have ka2 := fun c l => secondVertex_of_runs (runs_append (S2.half1 c) l)
  have kb2 := fun c l => secondVertex_of_runs (runs_append (S2.half2 c) l)
  have cl1 := fun a b => secondVertex_of_runs (runs_closing s.edges a b).1
  have cl2 := fun a b => secondVertex_of_runs (runs_closing s.edges a b).2
  clear S0 S1 S2 hvm hos hf
  have hm10 := fun a b => (hm01 a b).symm
  have hm21 := fun a b => (hm12 a b).symm
  have hm02 := fun a b => (hm20 a b).symm
  rcases sgn3' z0 with ⟨i1, i2, i3, i4, i5⟩ | ⟨i1, i2, i3, i4, i5⟩ | ⟨i1, i2, i3, i4, i5⟩ <;>
  rcases sgn3' z1 with ⟨j1, j2, j3, j4, j5⟩ | ⟨j1, j2, j3, j4, j5⟩ | ⟨j1, j2, j3, j4, j5⟩ <;>
  rcases sgn3' z2 with ⟨k1, k2, k3, k4, k5⟩ | ⟨k1, k2, k3, k4, k5⟩ | ⟨k1, k2, k3, k4, k5⟩ <;>
  simp only [i1, i2, i3, j1, j2, j3, k1, k2, k3, and_true, and_false, or_false, false_or, or_true, true_or,
    and_self, forall_const, true_imp_iff, false_imp_iff, implies_true, IsEmpty.forall_iff, or_self] at hm01 hm12 hm20 hm10 hm21 hm02 ha0 hb0 ha1 hb1 ha2 hb2 ka0 kb0 ka1 kb1 ka2 kb2 <;>
  simp only [absStep, i1, i2, i3, i4, i5, j1, j2, j3, j4, j5, k1, k2, k3, k4, k5, and_true, and_false, if_true, if_false,
    and_self, List.nil_append, List.cons_append, List.append_nil, List.length_cons, List.length_nil, Nat.reduceLeDiff,
    Nat.reduceAdd, Nat.le_refl, false_and, true_and, not_true_eq_false, not_false_eq_true, reduceCtorEq, Int.reduceEq, Int.reduceNeg] <;>
  try exact ⟨_, rfl, ⟨[], by simp⟩, by simp⟩
  all_goals simp only [getUB, List.getElem?_cons_zero, List.getElem?_cons_succ, fv0, fv1, fv2, ha0, hb0, ha1, hb1, ha2, hb2, facetVertices,
    List.insertIdx_zero, List.insertIdx_succ_cons, List.mapM_cons, List.mapM_nil, bind, Except.bind, pure, Except.pure,
    sv0, sv1, sv2, ka0, kb0, ka1, kb1, ka2, kb2, cl1, cl2, facetLoop, nbDistinct, List.mem_cons, List.not_mem_nil, h01, h12, h20,
    q10, q21, q02, w1, w2, w3, w4, w5, w6, w7, w8, w9, u1, u2, u3, u4, u5, u6, u7, u8, u9, ne_eq, or_false, or_self, if_false, if_true,
    hm01, hm12, hm20, hm10, hm21, hm02, or_true, true_or, Nat.reduceAdd, List.take_succ_cons, List.take_zero, Nat.add_zero,
    Nat.zero_add]
  all_goals refine ⟨_, rfl, ⟨_, rfl⟩, Or.inr (Or.inr ⟨_, _, ?_, rfl, rfl, rfl⟩)⟩
  all_goals first
    | cut_tac
    | exact Or.inr ⟨rfl, rfl⟩

end Triangle

end Xdyn.Hull

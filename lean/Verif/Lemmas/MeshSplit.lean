import Verif.Lemmas.Mesh

/-
Splitting of a triangle by the free surface: what `split_partially_immersed_facet_and_classify` builds.
-/

namespace Xdyn.Hull

variable {K : Type}

/-! ### Oriented edges -/

theorem orientedId_eq (e : Nat) (r : Bool) : orientedId e r = 2 * e + (if r then 1 else 0) := by
  unfold orientedId
  rw [Nat.shiftLeft_eq, Nat.pow_one, Nat.mul_comm]
  have := Nat.two_pow_add_eq_or_of_lt (i := 1) (b := if r then 1 else 0) (by split <;> decide) e
  simpa using this.symm

theorem edgeIndex_eq (o : Nat) : edgeIndex o = o / 2 := by
  unfold edgeIndex; exact Nat.shiftRight_one o

theorem edgeReversed_eq (o : Nat) : edgeReversed o = (o % 2 == 1) := by
  unfold edgeReversed
  rw [Nat.and_one_is_mod]
  rcases Nat.mod_two_eq_zero_or_one o with h | h <;> simp [h]

theorem firstVertex_of_runs {edges : List (Nat × Nat)} {o v w : Nat} (h : Runs edges o v w) :
    firstVertex edges o = .ok v := by
  unfold firstVertex endOf
  rw [Nat.and_one_is_mod, Nat.shiftRight_one]
  rcases h with ⟨h1, h2⟩ | ⟨h1, h2⟩ <;> simp [getUB_ok h2, h1, bind, Except.bind, pure, Except.pure]

theorem secondVertex_of_runs {edges : List (Nat × Nat)} {o v w : Nat} (h : Runs edges o v w) :
    secondVertex edges o = .ok w := by
  unfold secondVertex endOf
  rw [Nat.and_one_is_mod, Nat.shiftRight_one]
  rcases h with ⟨h1, h2⟩ | ⟨h1, h2⟩ <;> simp [getUB_ok h2, h1, bind, Except.bind, pure, Except.pure]

theorem runs_of_getElem? {edges edges' : List (Nat × Nat)} {o v w : Nat} (h : Runs edges o v w)
    (he : edges'[o / 2]? = edges[o / 2]?) : Runs edges' o v w := by
  unfold Runs; rw [he]; exact h

theorem runs_append {edges : List (Nat × Nat)} {o v w : Nat} (h : Runs edges o v w) (l : List (Nat × Nat)) :
    Runs (edges ++ l) o v w := by
  refine runs_of_getElem? h ?_
  have : ∃ p, edges[o / 2]? = some p := by
    rcases h with ⟨_, h⟩ | ⟨_, h⟩ <;> exact ⟨_, h⟩
  obtain ⟨p, hp⟩ := this
  rw [List.getElem?_append_left (List.getElem?_eq_some_iff.mp hp).1]

theorem runs_closing (edges : List (Nat × Nat)) (a b : Nat) :
    Runs (edges ++ [(a, b)]) (orientedId edges.length false) a b ∧
    Runs (edges ++ [(a, b)]) (orientedId edges.length true) b a := by
  constructor
  · left
    rw [orientedId_eq]
    refine ⟨by simp, ?_⟩
    have : (2 * edges.length + (if false = true then 1 else 0)) / 2 = edges.length := by simp
    rw [this]; simp
  · right
    rw [orientedId_eq]
    refine ⟨by simp, ?_⟩
    have : (2 * edges.length + (if true = true then 1 else 0)) / 2 = edges.length := by simp; omega
    rw [this]; simp

/-! ### Status of an edge -/

section Status
variable [Zero K] [LinearOrder K]

theorem sgn3 (a : K) : (a < 0 ∧ ¬ 0 < a ∧ ¬ a = 0 ∧ a ≤ 0 ∧ ¬ 0 ≤ a) ∨ (¬ a < 0 ∧ ¬ 0 < a ∧ a = 0 ∧ a ≤ 0 ∧ 0 ≤ a) ∨
    (¬ a < 0 ∧ 0 < a ∧ ¬ a = 0 ∧ ¬ a ≤ 0 ∧ 0 ≤ a) := by
  rcases lt_trichotomy a 0 with h | h | h
  · exact Or.inl ⟨h, h.not_gt, h.ne, h.le, h.not_ge⟩
  · exact Or.inr (Or.inl ⟨h.not_lt, h.not_gt, h, h.le, h.ge⟩)
  · exact Or.inr (Or.inr ⟨h.not_gt, h, h.ne', h.not_ge, h.le⟩)

theorem bothTouch_iff (a b : K) : bothTouch (edgeStatus a b) = true ↔ a = 0 ∧ b = 0 := by
  unfold edgeStatus
  rcases sgn3 a with h1 | h1 | h1 <;> rcases sgn3 b with h2 | h2 | h2 <;>
    simp [bothTouch, h1, h2]

theorem isEmerged_iff (a b : K) : isEmerged (edgeStatus a b) = true ↔ a ≤ 0 ∧ b ≤ 0 ∧ ¬ (a = 0 ∧ b = 0) := by
  unfold edgeStatus
  rcases sgn3 a with h1 | h1 | h1 <;> rcases sgn3 b with h2 | h2 | h2 <;>
    simp [isEmerged, h1, h2]

theorem isImmersed_iff (a b : K) : isImmersed (edgeStatus a b) = true ↔ 0 ≤ a ∧ 0 ≤ b ∧ ¬ (a = 0 ∧ b = 0) := by
  unfold edgeStatus
  rcases sgn3 a with h1 | h1 | h1 <;> rcases sgn3 b with h2 | h2 | h2 <;>
    simp [isImmersed, h1, h2]

theorem crosses_iff (a b : K) : crosses (edgeStatus a b) = true ↔ (a < 0 ∧ 0 < b) ∨ (0 < a ∧ b < 0) := by
  unfold edgeStatus
  rcases sgn3 a with h1 | h1 | h1 <;> rcases sgn3 b with h2 | h2 | h2 <;>
    simp [crosses, h1, h2]

theorem touches_iff (a b : K) : touches (edgeStatus a b) = true ↔
    (a < 0 ∧ 0 < b) ∨ (0 < a ∧ b < 0) ∨ a = 0 ∨ b = 0 := by
  unfold edgeStatus touches
  rcases sgn3 a with h1 | h1 | h1 <;> rcases sgn3 b with h2 | h2 | h2 <;>
    simp [crosses, bothTouch, oneEndTouches, h1, h2]

theorem subStatus1 {a b : K} (h : crosses (edgeStatus a b) = true) :
    isEmerged (((edgeStatus a b &&& 1) * 3) ||| 4) = decide (a < 0) := by
  rcases (crosses_iff a b).mp h with ⟨h1, h2⟩ | ⟨h1, h2⟩ <;>
    simp [edgeStatus, isEmerged, h1, h2, h1.not_gt, h2.not_gt]

theorem subStatus2 {a b : K} (h : crosses (edgeStatus a b) = true) :
    isEmerged (((edgeStatus a b &&& 2) / 2 * 3) ||| 4) = decide (b < 0) := by
  rcases (crosses_iff a b).mp h with ⟨h1, h2⟩ | ⟨h1, h2⟩ <;>
    simp [edgeStatus, isEmerged, h1, h2, h1.not_gt, h2.not_gt]

/-! ### One step of the loop on the sides -/

/-- What one step does, in terms of the immersions of the ends of the side; `o1`, `o2`: the two halves of
the side. -/
def absStep (zv zw : K) (o o1 o2 : Nat) (s : SplitSt) : SplitSt :=
  if zv = 0 ∧ zw = 0 then
    { s with
      emerged := s.emerged ++ [o]
      immersed := s.immersed ++ [o]
      surface := o / 2 :: s.surface
      firstEmerged := if s.status = 3 then (s.emerged ++ [o]).length else s.firstEmerged
      firstImmersed := if s.status = 0 then (s.immersed ++ [o]).length else s.firstImmersed }
  else if zv ≤ 0 ∧ zw ≤ 0 then
    { s with
      firstEmerged := if s.status = 3 then s.emerged.length else s.firstEmerged
      emerged := s.emerged ++ [o]
      status := 0 }
  else if 0 ≤ zv ∧ 0 ≤ zw then
    { s with
      firstImmersed := if s.status = 0 then s.immersed.length else s.firstImmersed
      immersed := s.immersed ++ [o]
      status := 3 }
  else if zv < 0 then
    { s with
      emerged := s.emerged ++ [o1]
      firstImmersed := s.immersed.length
      immersed := s.immersed ++ [o2]
      status := 3 }
  else
    { s with
      immersed := s.immersed ++ [o1]
      firstEmerged := s.emerged.length
      emerged := s.emerged ++ [o2]
      status := 0 }

/-- Side `o` from `v` to `w`: the loop does `absStep`, and if the side crosses the free surface it is made of the two edges `o1`
from `v` to `mid` and `o2` from `mid` to `w`. -/
structure Side (status split : List Nat) (edges : List (Nat × Nat)) (o v w : Nat) (zv zw : K) (mid o1 o2 : Nat) : Prop where
  runs : Runs edges o v w
  half1 : (zv < 0 ∧ 0 < zw) ∨ (0 < zv ∧ zw < 0) → Runs edges o1 v mid
  half2 : (zv < 0 ∧ 0 < zw) ∨ (0 < zv ∧ zw < 0) → Runs edges o2 mid w
  step : ∀ s, splitStep status split s o = .ok (absStep zv zw o o1 o2 s)

end Status

/-- Every side of a facet is a `Side` after the loop on the edges. -/
theorem side_of_inv [Field K] [LinearOrder K] {m : Mesh K} (hm : TriMesh m) {z : List K} {s : EdgeSt K}
    (h : EInv m z m.nbEdges s) {o v w : Nat} (ho : o / 2 < m.nbEdges) (hr : Runs m.edges o v w) :
    ∃ o1 o2, Side s.status s.split s.edges o v w (immersion z v) (immersion z w)
      (m.nbNodes + rank m z (o / 2)) o1 o2 := by
  have hes := h.edgesStatic _ ho
  have hme := endsAt_some hm ho
  have hruns : Runs s.edges o v w := runs_of_getElem? hr (by rw [hes, hme])
  generalize hS : m.nbEdges + 2 * rank m z (o / 2) = S
  rcases Nat.mod_two_eq_zero_or_one o with hpar | hpar
  · -- forward
    have hends : endsAt m (o / 2) = (v, w) := by
      rcases hr with ⟨_, h2⟩ | ⟨h1, _⟩
      · rw [hme] at h2; injection h2
      · omega
    have hst : stAt m z (o / 2) = edgeStatus (immersion z v) (immersion z w) := by simp [stAt, hends]
    have hcrs : crosses (stAt m z (o / 2)) = true ↔ (immersion z v < 0 ∧ 0 < immersion z w) ∨ (0 < immersion z v ∧ immersion z w < 0) := by
      rw [hst, crosses_iff]
    refine ⟨orientedId S false, orientedId (S + 1) false, hruns, ?_, ?_, ?_⟩
    · intro hc
      have := h.sub1 _ ho (hcrs.mpr hc)
      rw [hS, hends] at this
      left
      rw [orientedId_eq]
      refine ⟨by simp, ?_⟩
      have h2 : (2 * S + (if false = true then 1 else 0)) / 2 = S := by simp
      rw [h2]; exact this
    · intro hc
      have := h.sub2 _ ho (hcrs.mpr hc)
      rw [hS, hends] at this
      left
      rw [orientedId_eq]
      refine ⟨by simp, ?_⟩
      have h2 : (2 * (S + 1) + (if false = true then 1 else 0)) / 2 = S + 1 := by simp
      rw [h2]; exact this
    · intro t
      unfold splitStep absStep
      rw [edgeIndex_eq, edgeReversed_eq]
      simp only [getUB_ok (h.stat _ ho), bind, Except.bind, pure, Except.pure]
      rw [hst]
      by_cases c1 : bothTouch (edgeStatus (immersion z v) (immersion z w)) = true
      · rw [if_pos c1, if_pos ((bothTouch_iff _ _).mp c1)]
      · have c1' := mt (bothTouch_iff _ _).mpr c1
        rw [if_neg c1, if_neg c1']
        by_cases c2 : isEmerged (edgeStatus (immersion z v) (immersion z w)) = true
        · have c2' := (isEmerged_iff _ _).mp c2
          have d : immersion z v ≤ 0 ∧ immersion z w ≤ 0 := ⟨c2'.1, c2'.2.1⟩
          rw [if_pos c2, if_pos d]
        · have c2' : ¬ (immersion z v ≤ 0 ∧ immersion z w ≤ 0) := fun hh => c2 ((isEmerged_iff _ _).mpr ⟨hh.1, hh.2, c1'⟩)
          rw [if_neg c2, if_neg c2']
          by_cases c3 : isImmersed (edgeStatus (immersion z v) (immersion z w)) = true
          · have c3' := (isImmersed_iff _ _).mp c3
            have d : 0 ≤ immersion z v ∧ 0 ≤ immersion z w := ⟨c3'.1, c3'.2.1⟩
            rw [if_pos c3, if_pos d]
          · have c3' : ¬ (0 ≤ immersion z v ∧ 0 ≤ immersion z w) := fun hh => c3 ((isImmersed_iff _ _).mpr ⟨hh.1, hh.2, c1'⟩)
            rw [if_neg c3, if_neg c3']
            have hc : crosses (edgeStatus (immersion z v) (immersion z w)) = true := by
              rw [crosses_iff]
              rcases lt_trichotomy (immersion z v) 0 with h1 | h1 | h1 <;>
                rcases lt_trichotomy (immersion z w) 0 with h2 | h2 | h2
              · exact absurd ⟨h1.le, h2.le⟩ c2'
              · exact absurd ⟨h1.le, h2.le⟩ c2'
              · exact Or.inl ⟨h1, h2⟩
              · exact absurd ⟨h1.le, h2.le⟩ c2'
              · exact absurd ⟨h1, h2⟩ c1'
              · exact absurd ⟨h1.ge, h2.le⟩ c3'
              · exact Or.inr ⟨h1, h2⟩
              · exact absurd ⟨h1.le, h2.ge⟩ c3'
              · exact absurd ⟨h1.le, h2.le⟩ c3'
            have hc' : crosses (stAt m z (o / 2)) = true := by rw [hst]; exact hc
            have hsp := h.split _ ho hc'
            have hs1 := h.st1 _ ho hc'
            rw [hS] at hsp hs1
            rw [hst] at hs1
            have hfalse : (o % 2 == 1) = false := by simp [hpar]
            simp only [getUB_ok hsp, hfalse, Bool.false_eq_true, if_false, getUB_ok hs1, subStatus1 hc,
              decide_eq_true_eq]
            split <;> rfl
  · have hends : endsAt m (o / 2) = (w, v) := by
      rcases hr with ⟨h1, _⟩ | ⟨_, h2⟩
      · omega
      · rw [hme] at h2; injection h2
    have hst : stAt m z (o / 2) = edgeStatus (immersion z w) (immersion z v) := by simp [stAt, hends]
    have hcrs : crosses (stAt m z (o / 2)) = true ↔ (immersion z v < 0 ∧ 0 < immersion z w) ∨ (0 < immersion z v ∧ immersion z w < 0) := by
      rw [hst, crosses_iff]; tauto
    refine ⟨orientedId (S + 1) true, orientedId S true, hruns, ?_, ?_, ?_⟩
    · intro hc
      have := h.sub2 _ ho (hcrs.mpr hc)
      rw [hS, hends] at this
      right
      rw [orientedId_eq]
      refine ⟨by simp, ?_⟩
      have h2 : (2 * (S + 1) + (if true = true then 1 else 0)) / 2 = S + 1 := by simp; omega
      rw [h2]; exact this
    · intro hc
      have := h.sub1 _ ho (hcrs.mpr hc)
      rw [hS, hends] at this
      right
      rw [orientedId_eq]
      refine ⟨by simp, ?_⟩
      have h2 : (2 * S + (if true = true then 1 else 0)) / 2 = S := by simp; omega
      rw [h2]; exact this
    · intro t
      unfold splitStep absStep
      rw [edgeIndex_eq, edgeReversed_eq]
      simp only [getUB_ok (h.stat _ ho), bind, Except.bind, pure, Except.pure]
      rw [hst]
      by_cases c1 : bothTouch (edgeStatus (immersion z w) (immersion z v)) = true
      · rw [if_pos c1, if_pos ((bothTouch_iff _ _).mp c1).symm]
      · have c1' := mt (bothTouch_iff _ _).mpr c1
        have c1'' : ¬ (immersion z v = 0 ∧ immersion z w = 0) := fun hh => c1' hh.symm
        rw [if_neg c1, if_neg c1'']
        by_cases c2 : isEmerged (edgeStatus (immersion z w) (immersion z v)) = true
        · have c2' := (isEmerged_iff _ _).mp c2
          have d : immersion z v ≤ 0 ∧ immersion z w ≤ 0 := ⟨c2'.2.1, c2'.1⟩
          rw [if_pos c2, if_pos d]
        · have c2' : ¬ (immersion z v ≤ 0 ∧ immersion z w ≤ 0) := fun hh => c2 ((isEmerged_iff _ _).mpr ⟨hh.2, hh.1, c1'⟩)
          rw [if_neg c2, if_neg c2']
          by_cases c3 : isImmersed (edgeStatus (immersion z w) (immersion z v)) = true
          · have c3' := (isImmersed_iff _ _).mp c3
            have d : 0 ≤ immersion z v ∧ 0 ≤ immersion z w := ⟨c3'.2.1, c3'.1⟩
            rw [if_pos c3, if_pos d]
          · have c3' : ¬ (0 ≤ immersion z v ∧ 0 ≤ immersion z w) := fun hh => c3 ((isImmersed_iff _ _).mpr ⟨hh.2, hh.1, c1'⟩)
            rw [if_neg c3, if_neg c3']
            have hc : crosses (edgeStatus (immersion z w) (immersion z v)) = true := by
              rw [crosses_iff]
              rcases lt_trichotomy (immersion z v) 0 with h1 | h1 | h1 <;>
                rcases lt_trichotomy (immersion z w) 0 with h2 | h2 | h2
              · exact absurd ⟨h1.le, h2.le⟩ c2'
              · exact absurd ⟨h1.le, h2.le⟩ c2'
              · exact Or.inr ⟨h2, h1⟩
              · exact absurd ⟨h1.le, h2.le⟩ c2'
              · exact absurd ⟨h2, h1⟩ c1'
              · exact absurd ⟨h1.ge, h2.le⟩ c3'
              · exact Or.inl ⟨h2, h1⟩
              · exact absurd ⟨h1.le, h2.ge⟩ c3'
              · exact absurd ⟨h1.le, h2.le⟩ c3'
            have hc' : crosses (stAt m z (o / 2)) = true := by rw [hst]; exact hc
            have hsp := h.split _ ho hc'
            have hs1 := h.st2 _ ho hc'
            rw [hS] at hsp hs1
            rw [hst] at hs1
            have htrue : (o % 2 == 1) = true := by simp [hpar]
            simp only [getUB_ok hsp, htrue, if_true, getUB_ok hs1, subStatus2 hc,
              decide_eq_true_eq]
            split <;> rfl

/-! ### The three sides of a triangle -/

/-- How a triangle `v0 v1 v2` (whose side from `v_i` to the next vertex is cut at `m_i`) is cut into an
emerged polygon `ve` and an immersed one `vi`. -/
inductive Cut [Zero K] [LT K] : Nat → Nat → Nat → Nat → Nat → Nat → K → K → K → List Nat → List Nat → Prop
  | cornerE {v0 v1 v2 m0 m1 m2 : Nat} {z0 z1 z2 : K} (h0 : 0 < z0) (h1 : 0 < z1) (h2 : z2 < 0) :
      Cut v0 v1 v2 m0 m1 m2 z0 z1 z2 [m1, v2, m2] [v0, v1, m1, m2]
  | cornerI {v0 v1 v2 m0 m1 m2 : Nat} {z0 z1 z2 : K} (h0 : z0 < 0) (h1 : z1 < 0) (h2 : 0 < z2) :
      Cut v0 v1 v2 m0 m1 m2 z0 z1 z2 [v0, v1, m1, m2] [m1, v2, m2]
  | vertE {v0 v1 v2 m0 m1 m2 : Nat} {z0 z1 z2 : K} (h0 : z0 = 0) (h1 : 0 < z1) (h2 : z2 < 0) :
      Cut v0 v1 v2 m0 m1 m2 z0 z1 z2 [m1, v2, v0] [v0, v1, m1]
  | vertI {v0 v1 v2 m0 m1 m2 : Nat} {z0 z1 z2 : K} (h0 : z0 = 0) (h1 : z1 < 0) (h2 : 0 < z2) :
      Cut v0 v1 v2 m0 m1 m2 z0 z1 z2 [v0, v1, m1] [m1, v2, v0]
  | rotT {v0 v1 v2 m0 m1 m2 : Nat} {z0 z1 z2 : K} {ve vi : List Nat} (h : Cut v1 v2 v0 m1 m2 m0 z1 z2 z0 ve vi) :
      Cut v0 v1 v2 m0 m1 m2 z0 z1 z2 ve vi
  | rotE3 {v0 v1 v2 m0 m1 m2 : Nat} {z0 z1 z2 : K} {a b c : Nat} {vi : List Nat}
      (h : Cut v0 v1 v2 m0 m1 m2 z0 z1 z2 [b, c, a] vi) : Cut v0 v1 v2 m0 m1 m2 z0 z1 z2 [a, b, c] vi
  | rotE4 {v0 v1 v2 m0 m1 m2 : Nat} {z0 z1 z2 : K} {a b c d : Nat} {vi : List Nat}
      (h : Cut v0 v1 v2 m0 m1 m2 z0 z1 z2 [b, c, d, a] vi) : Cut v0 v1 v2 m0 m1 m2 z0 z1 z2 [a, b, c, d] vi
  | rotI3 {v0 v1 v2 m0 m1 m2 : Nat} {z0 z1 z2 : K} {a b c : Nat} {ve : List Nat}
      (h : Cut v0 v1 v2 m0 m1 m2 z0 z1 z2 ve [b, c, a]) : Cut v0 v1 v2 m0 m1 m2 z0 z1 z2 ve [a, b, c]
  | rotI4 {v0 v1 v2 m0 m1 m2 : Nat} {z0 z1 z2 : K} {a b c d : Nat} {ve : List Nat}
      (h : Cut v0 v1 v2 m0 m1 m2 z0 z1 z2 ve [b, c, d, a]) : Cut v0 v1 v2 m0 m1 m2 z0 z1 z2 ve [a, b, c, d]

end Xdyn.Hull

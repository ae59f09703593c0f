import Verif.Model.Closing
import Verif.Lemmas.Waves
import Mathlib.Data.ZMod.Basic
import Mathlib.Data.Fintype.EquivFin
import Mathlib.Tactic.Linarith
import Mathlib.Tactic.LinearCombination

/-!
Properties C110 to C112: the closing facets on the free surface.
-/

namespace Xdyn.Closing

open Hull

/-- The edges `E` are the sides of a polygon with `n` distinct corners: `v j` is the node at corner `j`, `s j` the position in `E` of
the side between the corners `j` and `j + 1`; sides may be stored in any order and in any direction. -/
structure IsPolygon (E : List Edge) (n : Nat) (v s : ZMod n → Nat) : Prop where
  three : 3 ≤ n
  length : E.length = n
  corners : Function.Injective v
  sides : Function.Injective s
  side : ∀ j, E[s j]? = some (v j, v (j + 1)) ∨ E[s j]? = some (v (j + 1), v j)

/-- The contour `c` runs around the polygon, starting from the corner 0: its `j`-th oriented edge goes from the corner `j` to the corner `j + 1`. -/
def Around (E : List Edge) (n : Nat) (v s : ZMod n → Nat) (c : Contour) : Prop :=
  c.length = n ∧ ∀ j < n, ∃ r, c[j]? = some (s j, r) ∧ E[s j]? = some (if r then (v (j + 1), v j) else (v j, v (j + 1)))

section Polygon
variable {E : List Edge} {n : Nat} {v s : ZMod n → Nat}

theorem IsPolygon.lt (h : IsPolygon E n v s) (j : ZMod n) : s j < n := by
  have := h.side j
  rw [← h.length]
  by_contra hc
  rw [List.getElem?_eq_none (by omega)] at this
  simp at this

theorem IsPolygon.neZero (h : IsPolygon E n v s) : NeZero n := ⟨by have := h.three; omega⟩

theorem IsPolygon.surj (h : IsPolygon E n v s) {i : Nat} (hi : i < n) : ∃ j, s j = i := by
  haveI := h.neZero
  let f : ZMod n → Fin n := fun j => ⟨s j, h.lt j⟩
  have hf : Function.Injective f := fun a b hab => h.sides (by simpa [f] using hab)
  have hb : Function.Bijective f := by
    rw [Fintype.bijective_iff_injective_and_card]
    exact ⟨hf, by simp [ZMod.card]⟩
  obtain ⟨j, hj⟩ := hb.2 ⟨i, hi⟩
  exact ⟨j, by simpa [f] using congrArg Fin.val hj⟩

/-- The same polygon, from another corner. -/
theorem IsPolygon.rotate (h : IsPolygon E n v s) (k : ZMod n) : IsPolygon E n (fun j => v (k + j)) (fun j => s (k + j)) where
  three := h.three
  length := h.length
  corners := fun a b hab => add_left_cancel (h.corners hab)
  sides := fun a b hab => add_left_cancel (h.sides hab)
  side := fun j => by simpa [add_assoc] using h.side (k + j)

/-- The same polygon, backwards. -/
theorem IsPolygon.backwards (h : IsPolygon E n v s) : IsPolygon E n (fun j => v (-j)) (fun j => s (-(j + 1))) where
  three := h.three
  length := h.length
  corners := fun a b hab => neg_injective (h.corners hab)
  sides := fun a b hab => by
    have := neg_injective (h.sides hab)
    exact add_right_cancel this
  side := fun j => by
    have := h.side (-(j + 1))
    rw [show -(j + 1) + 1 = -j by ring] at this
    exact this.symm

theorem one_ne_zero' (h : 3 ≤ n) : (1 : ZMod n) ≠ 0 := by
  intro h1
  have := (ZMod.natCast_eq_zero_iff 1 n).mp (by simpa using h1)
  have := Nat.le_of_dvd (by omega) this
  omega

theorem two_ne_zero' (h : 3 ≤ n) : (2 : ZMod n) ≠ 0 := by
  intro h1
  have := (ZMod.natCast_eq_zero_iff 2 n).mp (by simpa using h1)
  have := Nat.le_of_dvd (by omega) this
  omega

theorem filter_unique {l : List Nat} (hl : l.Nodup) {p : Nat → Bool} {a : Nat} (ha : a ∈ l) (hp : ∀ i ∈ l, p i = true ↔ i = a) : l.filter p = [a] := by
  induction l with
  | nil => cases ha
  | cons b l ih =>
    rw [List.nodup_cons] at hl
    by_cases hb : b = a
    · subst hb
      rw [List.filter_cons_of_pos ((hp b (by simp)).mpr rfl)]
      congr 1
      rw [List.filter_eq_nil_iff]
      intro i hi hpi
      have := (hp i (by simp [hi])).mp hpi
      exact hl.1 (this ▸ hi)
    · have hal : a ∈ l := by
        rcases List.mem_cons.mp ha with h | h
        · exact absurd h.symm hb
        · exact h
      rw [List.filter_cons_of_neg (by rw [hp b (by simp)]; exact hb)]
      exact ih hl.2 hal (fun i hi => hp i (by simp [hi]))

/-- At the corner `j + 1`, the only side which is not `s j` is `s (j + 1)`. -/
theorem IsPolygon.connected (h : IsPolygon E n v s) (j : ZMod n) :
    (nodeEdges E (v (j + 1))).filter (fun i => i != s j) = [s (j + 1)] := by
  haveI := h.neZero
  unfold nodeEdges
  rw [List.filter_filter]
  apply filter_unique List.nodup_range
  · rw [List.mem_range, h.length]
    exact h.lt _
  · intro i hi
    rw [List.mem_range, h.length] at hi
    obtain ⟨k, rfl⟩ := h.surj hi
    have hk : touches E (fun m => m == v (j + 1)) (s k) = true ↔ (k = j + 1 ∨ k = j) := by
      unfold touches
      rcases h.side k with hs | hs <;> rw [hs] <;> simp only [Bool.or_eq_true, beq_iff_eq, h.corners.eq_iff, add_left_inj]
      exact Or.comm
    simp only [Bool.and_eq_true, bne_iff_ne, ne_eq, h.sides.eq_iff]
    rw [hk]
    constructor
    · rintro ⟨h1, h2⟩
      rcases h2 with h2 | h2
      · exact h2
      · exact absurd h2 h1
    · rintro rfl
      refine ⟨?_, Or.inl rfl⟩
      intro hc
      exact one_ne_zero' h.three (by simpa using hc)

theorem IsPolygon.next_ne (h : IsPolygon E n v s) (j : ZMod n) : s (j + 1) ≠ s j := by
  intro hc
  have := h.sides hc
  exact one_ne_zero' h.three (by simpa using this)

/-- Two consecutive sides have exactly one common node. -/
theorem IsPolygon.common (h : IsPolygon E n v s) (j : ZMod n) (r : Bool) {ab cd : Edge}
    (hab : ab = if r then (v (j + 1), v j) else (v j, v (j + 1))) (hcd : cd = (v (j + 1), v (j + 1 + 1)) ∨ cd = (v (j + 1 + 1), v (j + 1))) :
    commonNode ab cd r = .ok (v (j + 1)) := by
  have h1 : v j ≠ v (j + 1) := fun hc => one_ne_zero' h.three (by simpa using h.corners hc)
  have h2 : v (j + 1) ≠ v (j + 1 + 1) := fun hc => one_ne_zero' h.three (by simpa using h.corners hc)
  have h3 : v j ≠ v (j + 1 + 1) := fun hc => two_ne_zero' h.three (by
    have := h.corners hc
    rw [add_assoc] at this
    have h4 : (1 : ZMod n) + 1 = 0 := by simpa using this
    rw [← h4]; ring)
  cases r <;> simp only [if_true, if_false, Bool.false_eq_true] at hab <;> subst hab <;> rcases hcd with hcd | hcd <;> subst hcd <;>
    simp [commonNode, commonNodes, h1, h1.symm, h2, h2.symm, h3, h3.symm]

/-- From the side `j`, run towards the corner `j + 1`, the next edge is the side `j + 1`. -/
theorem IsPolygon.nextEdge (C : Computer) (h : IsPolygon C.edges n v s) (j : ZMod n) (r : Bool)
    (hr : C.edges[s j]? = some (if r then (v (j + 1), v j) else (v j, v (j + 1)))) :
    nextEdge C (s j) r = .ok (s (j + 1)) := by
  have hn : (if r then (if r then (v (j + 1), v j) else (v j, v (j + 1))).1 else (if r then (v (j + 1), v j) else (v j, v (j + 1))).2) = v (j + 1) := by
    cases r <;> simp
  unfold Closing.nextEdge
  rw [hr]
  simp only [bind, Except.bind, pure, Except.pure, hn]
  rw [h.connected j]
  simp only [List.cons_ne_nil, if_false]
  obtain ⟨cd, hcd, hside⟩ : ∃ cd, C.edges[s (j + 1)]? = some cd ∧ (cd = (v (j + 1), v (j + 1 + 1)) ∨ cd = (v (j + 1 + 1), v (j + 1))) := by
    rcases h.side (j + 1) with hs | hs
    · exact ⟨_, hs, Or.inl rfl⟩
    · exact ⟨_, hs, Or.inr rfl⟩
  have ha : ∃ a, angleBetween C (if r then (v (j + 1), v j) else (v j, v (j + 1))) cd r = .ok a := by
    unfold angleBetween
    rw [h.common j r rfl hside]
    exact ⟨_, rfl⟩
  obtain ⟨a, ha⟩ := ha
  simp only [List.mapM_cons, List.mapM_nil, hcd, ha, bind, Except.bind, pure, Except.pure, bestAngle]
  rfl

/-- The direction in which the side `j + 1` is run after the side `j`. -/
theorem IsPolygon.needToReverse (h : IsPolygon E n v s) (j : ZMod n) (r : Bool) {a b : Edge}
    (ha : a = if r then (v (j + 1), v j) else (v j, v (j + 1))) (hb : E[s (j + 1)]? = some b) :
    b = (if needToReverse a b r then (v (j + 1 + 1), v (j + 1)) else (v (j + 1), v (j + 1 + 1))) := by
  have h2 : v (j + 1) ≠ v (j + 1 + 1) := fun hc => one_ne_zero' h.three (by simpa using h.corners hc)
  have hb' : b = (v (j + 1), v (j + 1 + 1)) ∨ b = (v (j + 1 + 1), v (j + 1)) := by
    rcases h.side (j + 1) with hs | hs <;> rw [hs] at hb
    · exact Or.inl (Option.some.inj hb).symm
    · exact Or.inr (Option.some.inj hb).symm
  cases r <;> simp only [if_true, if_false, Bool.false_eq_true] at ha <;> subst ha <;> rcases hb' with hb' | hb' <;> subst hb' <;>
    simp [Closing.needToReverse, h2]

/-- The loop of `contour` runs around the polygon. -/
theorem IsPolygon.loop (C : Computer) (h : IsPolygon C.edges n v s) :
    ∀ (fuel k : Nat) (ret : Contour) (r : Bool), k + fuel + 1 = n → ret.length = k + 1 →
      (∀ j ≤ k, ∃ r, ret[j]? = some (s j, r) ∧ C.edges[s j]? = some (if r then (v (j + 1), v j) else (v j, v (j + 1)))) →
      C.edges[s k]? = some (if r then (v (k + 1), v k) else (v k, v (k + 1))) →
      ∃ c, contourLoop C (s 0) fuel ret (s k) r (s (k + 1)) = .ok c ∧ Around C.edges n v s c ∧ c[0]? = ret[0]? := by
  intro fuel
  induction fuel with
  | zero =>
    intro k ret r hk hl hret hr
    refine ⟨ret, rfl, ⟨by omega, fun j hj => hret j (by omega)⟩, rfl⟩
  | succ fuel ih =>
    intro k ret r hk hl hret hr
    have hne : s ((k : ZMod n) + 1) ≠ s 0 := by
      intro hc
      have h0 := h.sides hc
      have h1 : ((k + 1 : Nat) : ZMod n) = 0 := by push_cast; exact h0
      rw [ZMod.natCast_eq_zero_iff] at h1
      have := Nat.le_of_dvd (by omega) h1
      omega
    unfold contourLoop
    rw [if_neg hne]
    obtain ⟨b, hb⟩ : ∃ b, C.edges[s ((k : ZMod n) + 1)]? = some b := by
      rcases h.side (k + 1) with hs | hs <;> exact ⟨_, hs⟩
    have hga : getAt C.edges (s k) = .ok (if r then (v (k + 1), v k) else (v k, v (k + 1))) := by
      unfold getAt; rw [hr]
    have hgb : getAt C.edges (s ((k : ZMod n) + 1)) = .ok b := by
      unfold getAt; rw [hb]
    rw [hga, hgb]
    simp only [bind, Except.bind]
    have hrev := h.needToReverse (k : ZMod n) r rfl hb
    generalize Closing.needToReverse (if r then (v (k + 1), v k) else (v k, v (k + 1))) b r = r' at hrev ⊢
    have hb2 : C.edges[s ((k : ZMod n) + 1)]? = some (if r' then (v ((k : ZMod n) + 1 + 1), v ((k : ZMod n) + 1)) else (v ((k : ZMod n) + 1), v ((k : ZMod n) + 1 + 1))) := by
      rw [hb, ← hrev]
    rw [h.nextEdge C ((k : ZMod n) + 1) r' hb2]
    simp only
    have := ih (k + 1) (ret ++ [(s ((k : ZMod n) + 1), r')]) r' (by omega) (by simp [hl]) ?_ ?_
    · push_cast at this
      obtain ⟨c, h1, h2, h3⟩ := this
      refine ⟨c, h1, h2, ?_⟩
      rw [h3, List.getElem?_append_left (by omega)]
    · intro j hj
      rcases Nat.lt_or_ge k j with hlt | hge
      · have : j = k + 1 := by omega
        subst this
        refine ⟨r', ?_, ?_⟩
        · rw [List.getElem?_append_right (by omega)]
          simp [hl]
        · push_cast; exact hb2
      · obtain ⟨r0, h1, h2⟩ := hret j hge
        exact ⟨r0, by rw [List.getElem?_append_left (by omega)]; exact h1, h2⟩
    · push_cast; exact hb2

/-- `v'` are the corners of the same polygon, listed from another corner or in the other direction. -/
def SameCorners (v v' : ZMod n → Nat) : Prop := (∃ k, v' = fun j => v (k + j)) ∨ (∃ k, v' = fun j => v (k - j))

theorem SameCorners.backwards {v' : ZMod n → Nat} (h : SameCorners v v') : SameCorners v (fun j => v' (-j)) := by
  rcases h with ⟨k, rfl⟩ | ⟨k, rfl⟩
  · exact Or.inr ⟨k, by ext j; rw [sub_eq_add_neg]⟩
  · exact Or.inl ⟨k, by ext j; show v (k - -j) = _; rw [sub_neg_eq_add]⟩

/-- Whatever the edge it starts from, a polygon can be listed so that this edge is the side 0 and runs forward. -/
theorem IsPolygon.startAt (h : IsPolygon E n v s) {e : Nat} (he : e < n) :
    ∃ v' s', IsPolygon E n v' s' ∧ SameCorners v v' ∧ s' 0 = e ∧ E[e]? = some (v' 0, v' 1) := by
  obtain ⟨k, rfl⟩ := h.surj he
  rcases h.side k with hs | hs
  · exact ⟨_, _, h.rotate k, Or.inl ⟨k, rfl⟩, by simp, by simpa using hs⟩
  · refine ⟨_, _, h.backwards.rotate (-(k + 1)), Or.inr ⟨k + 1, ?_⟩, ?_, ?_⟩
    · ext j; congr 1; ring
    · congr 1; ring
    · rw [hs]
      congr 2 <;> congr 1 <;> ring

/-- A contour run backwards. -/
theorem IsPolygon.flip (h : IsPolygon E n v s) {c : Contour} (hc : Around E n v s c) :
    Around E n (fun j => v (-j)) (fun j => s (-(j + 1))) (flipContour c) := by
  obtain ⟨hl, hc⟩ := hc
  refine ⟨by simp [flipContour, hl], fun j hj => ?_⟩
  have hn := h.three
  obtain ⟨r, h1, h2⟩ := hc (n - 1 - j) (by omega)
  have hcast : ((n - 1 - j : Nat) : ZMod n) = -((j : ZMod n) + 1) := by
    have : ((n - 1 - j + (j + 1) : Nat) : ZMod n) = 0 := by
      rw [show n - 1 - j + (j + 1) = n by omega]
      simp
    push_cast at this
    linear_combination this
  rw [hcast] at h1 h2
  refine ⟨!r, ?_, ?_⟩
  · unfold flipContour
    rw [List.getElem?_reverse (by simp [hl]; omega)]
    simp only [List.length_map, hl, List.getElem?_map, h1, Option.map_some]
  · simp only
    rw [h2]
    rw [show -((j : ZMod n) + 1) + 1 = -(j : ZMod n) by ring]
    cases r <;> simp

theorem vectorOf_side (C : Computer) {j : ZMod n} {r : Bool} (h : C.edges[s j]? = some (if r then (v (j + 1), v j) else (v j, v (j + 1)))) :
    vectorOf C (s j, r) = .ok (vsub (col C.nodes (v (j + 1))) (col C.nodes (v j))) := by
  unfold vectorOf
  have : getAt C.edges (s j) = .ok (if r then (v (j + 1), v j) else (v j, v (j + 1))) := by
    unfold getAt; rw [h]
  simp only [this, bind, Except.bind, pure, Except.pure]
  cases r <;> simp

theorem directLoop_ok (C : Computer) (AB : Pt ℝ) : ∀ (l : Contour) (z : ℝ), (∀ e ∈ l, ∃ w, vectorOf C e = .ok w) → ∃ b, directLoop C AB z l = .ok b := by
  intro l
  induction l with
  | nil => intro z _; exact ⟨_, rfl⟩
  | cons e l ih =>
    intro z hl
    obtain ⟨w, hw⟩ := hl e (by simp)
    unfold directLoop
    simp only [hw, bind, Except.bind]
    split
    · exact ih _ (fun e he => hl e (by simp [he]))
    · exact ⟨_, rfl⟩

/-- The walk of `contour(edge)` before its orientation. -/
theorem IsPolygon.walk (C : Computer) (h : IsPolygon C.edges n v s) (h0 : C.edges[s 0]? = some (v 0, v 1)) :
    ∃ c b, Around C.edges n v s c ∧ c[0]? = some (s 0, false) ∧ directOrientation C c = .ok b ∧
      contourFrom C (s 0) = .ok (if b then c else flipContour c) := by
  have hn := h.three
  have h1 : C.edges[s ((0 : Nat) : ZMod n)]? = some (if false then (v (((0 : Nat) : ZMod n) + 1), v ((0 : Nat) : ZMod n)) else (v ((0 : Nat) : ZMod n), v (((0 : Nat) : ZMod n) + 1))) := by
    simpa using h0
  obtain ⟨c, hc1, hc2, hc3⟩ := h.loop C (n - 1) 0 [(s 0, false)] false (by omega) rfl
    (fun j hj => by
      have : j = 0 := by omega
      subst this
      exact ⟨false, by simp, h1⟩) h1
  have hc4 : c[0]? = some (s 0, false) := by rw [hc3]; rfl
  have hne := h.nextEdge C ((0 : Nat) : ZMod n) false h1
  have hw : ∀ e ∈ c, ∃ w, vectorOf C e = .ok w := by
    intro e he
    obtain ⟨i, hi, rfl⟩ := List.mem_iff_getElem.mp he
    obtain ⟨r, h2, h3⟩ := hc2.2 i (by rw [← hc2.1]; exact hi)
    rw [List.getElem?_eq_getElem hi] at h2
    rw [Option.some.inj h2]
    exact ⟨_, vectorOf_side C h3⟩
  have hdir : ∃ b, directOrientation C c = .ok b := by
    obtain ⟨hl, -⟩ := hc2
    match c, hl, hc4, hw with
    | e :: f :: l, _, hc4, hw =>
      have he : e = (s 0, false) := by simpa using hc4
      unfold directOrientation
      obtain ⟨w, hw0⟩ := hw e (by simp)
      subst he
      simp only [hw0, bind, Except.bind]
      exact directLoop_ok C w _ _ (fun e he => hw e (List.mem_cons_of_mem _ he))
    | [], hl, _, _ => simp at hl; omega
    | [_], hl, _, _ => simp at hl; omega
  obtain ⟨b, hb⟩ := hdir
  refine ⟨c, b, hc2, hc4, hb, ?_⟩
  unfold contourFrom
  have hne' : Closing.nextEdge C (s 0) false = .ok (s (((0 : Nat) : ZMod n) + 1)) := by simpa using hne
  have hc1' : contourLoop C (s 0) (C.edges.length - 1) [(s 0, false)] (s 0) false (s (((0 : Nat) : ZMod n) + 1)) = .ok c := by
    rw [h.length]; simpa using hc1
  simp only [hne', hc1', bind, Except.bind, hb]
  cases b <;> rfl

/-- **C111** When the edges are the sides of a polygon, stored in any order and direction, the contour
found from any of them is the polygon: all its sides, once, in order, closed. -/
theorem contour_of_polygon (C : Computer) (h : IsPolygon C.edges n v s) {e : Nat} (he : e < n) :
    ∃ v' s' c, contourFrom C e = .ok c ∧ SameCorners v v' ∧ IsPolygon C.edges n v' s' ∧ Around C.edges n v' s' c := by
  obtain ⟨v1, s1, hp, hsame, rfl, h0⟩ := h.startAt he
  obtain ⟨c, b, hc, -, -, hf⟩ := hp.walk C h0
  cases b
  · exact ⟨_, _, _, hf, hsame.backwards, hp.backwards, hp.flip hc⟩
  · exact ⟨v1, s1, c, hf, hsame, hp, hc⟩

/-! ### Orientation -/

/-- Vertical component of the cross product of two vectors. -/
def zcross (a b : Pt ℝ) : ℝ := a.x * b.y - a.y * b.x

/-- Position of the corner `j`. -/
def corner (nodes : List (Pt ℝ)) (v : ZMod n → Nat) (j : ZMod n) : Pt ℝ := col nodes (v j)

/-- The side from the corner `j` to the corner `j + 1`. -/
def sideVec (nodes : List (Pt ℝ)) (v : ZMod n → Nat) (j : ZMod n) : Pt ℝ := vsub (corner nodes v (j + 1)) (corner nodes v j)

/-- Seen from above, the polygon is convex and turns in the direction `ε`: for each side, all the corners are on the same side of it, and it turns at each corner (by more than the
threshold of `direct_orientation`). -/
structure Convex (nodes : List (Pt ℝ)) (v : ZMod n → Nat) (ε : ℝ) : Prop where
  side : ∀ j k, 0 ≤ ε * zcross (sideVec nodes v j) (vsub (corner nodes v k) (corner nodes v j))
  turn : ∀ j, 1 / 10 ^ 10 ≤ ε * zcross (sideVec nodes v j) (sideVec nodes v (j + 1))

theorem Convex.rotate {nodes : List (Pt ℝ)} {ε : ℝ} (h : Convex nodes v ε) (m : ZMod n) : Convex nodes (fun j => v (m + j)) ε where
  side := fun j k => by simpa [sideVec, corner, add_assoc] using h.side (m + j) (m + k)
  turn := fun j => by simpa [sideVec, corner, add_assoc] using h.turn (m + j)

theorem Convex.backwards {nodes : List (Pt ℝ)} {ε : ℝ} (h : Convex nodes v ε) : Convex nodes (fun j => v (-j)) (-ε) where
  side := fun j k => by
    have := h.side (-(j + 1)) (-k)
    simp only [sideVec, corner, vsub, zcross] at this ⊢
    rw [show -(j + 1) + 1 = -j by ring] at this
    nlinarith [this]
  turn := fun j => by
    have := h.turn (-(j + 1 + 1))
    simp only [sideVec, corner, vsub, zcross] at this ⊢
    rw [show -(j + 1 + 1) + 1 = -(j + 1) by ring, show -(j + 1) + 1 = -j by ring] at this
    linarith [this]

theorem SameCorners.convex {nodes : List (Pt ℝ)} {ε : ℝ} {v' : ZMod n → Nat} (h : Convex nodes v ε) (hs : SameCorners v v') : Convex nodes v' ε ∨ Convex nodes v' (-ε) := by
  rcases hs with ⟨k, rfl⟩ | ⟨k, rfl⟩
  · exact Or.inl (h.rotate k)
  · right
    have := (h.rotate k).backwards
    simpa [sub_eq_add_neg] using this

/-- The contour is run, in the end, in the direction for which its first corner turns towards negative z (if it turns by more than
the threshold). -/
theorem IsPolygon.firstCorner (C : Computer) (hp : IsPolygon C.edges n v s) (h0 : C.edges[s 0]? = some (v 0, v 1))
    (ht : 1 / 10 ^ 10 ≤ |zcross (sideVec C.nodes v 0) (sideVec C.nodes v (0 + 1))|) :
    ∃ c, Around C.edges n v s c ∧ contourFrom C (s 0) = .ok (if zcross (sideVec C.nodes v 0) (sideVec C.nodes v (0 + 1)) < 0 then c else flipContour c) := by
  obtain ⟨c, b, hc, hc0, hb, hf⟩ := hp.walk C h0
  have har := hc
  have hn := hp.three
  refine ⟨c, har, ?_⟩
  have hdir : b = decide (zcross (sideVec C.nodes v 0) (sideVec C.nodes v (0 + 1)) < 0) := by
    obtain ⟨hl, hc⟩ := hc
    obtain ⟨r0, h1, h2⟩ := hc 0 (by omega)
    obtain ⟨r1, h3, h4⟩ := hc 1 (by omega)
    have hr0 : r0 = false := by
      rw [hc0] at h1
      simp at h1
      exact h1
    subst hr0
    clear hf har
    match c, hl, h1, h3 with
    | e :: f :: l, _, h1, h3 =>
      have he : e = (s (0 : ℕ), false) := by simpa using h1
      have hfe : f = (s (1 : ℕ), r1) := by simpa using h3
      unfold directOrientation at hb
      subst he hfe
      simp only [vectorOf_side C h2, directLoop, vectorOf_side C h4, bind, Except.bind] at hb
      have hz : (vcross (vsub (col C.nodes (v (((0 : ℕ) : ZMod n) + 1))) (col C.nodes (v ((0 : ℕ) : ZMod n))))
          (vsub (col C.nodes (v (((1 : ℕ) : ZMod n) + 1))) (col C.nodes (v ((1 : ℕ) : ZMod n))))).z = zcross (sideVec C.nodes v 0) (sideVec C.nodes v (0 + 1)) := by
        simp [vcross, zcross, sideVec, corner]
      rw [hz, if_neg (not_lt.mpr ht)] at hb
      exact (Except.ok.inj hb).symm
    | [], hl, _, _ => simp at hl; omega
    | [_], hl, _, _ => simp at hl; omega
  rw [hf, hdir]
  simp only [decide_eq_true_eq]

/-- **C112 (convex waterlines)** When the polygon is convex, the contour is always run in the direction
for which the vertical axis (0, 0, -1) is its normal. -/
theorem contour_direction (C : Computer) (h : IsPolygon C.edges n v s) {ε : ℝ} (hε : ε = 1 ∨ ε = -1) (hconv : Convex C.nodes v ε) {e : Nat} (he : e < n) :
    ∃ v' s' c, contourFrom C e = .ok c ∧ SameCorners v v' ∧ IsPolygon C.edges n v' s' ∧ Around C.edges n v' s' c ∧ Convex C.nodes v' (-1) := by
  obtain ⟨v1, s1, hp, hsame, rfl, h0⟩ := h.startAt he
  obtain ⟨δ, hδ, hcv⟩ : ∃ δ : ℝ, (δ = 1 ∨ δ = -1) ∧ Convex C.nodes v1 δ := by
    rcases hsame.convex hconv with h1 | h1
    · exact ⟨ε, hε, h1⟩
    · exact ⟨-ε, by rcases hε with rfl | rfl <;> simp, h1⟩
  have ht := hcv.turn 0
  have hpos : (0:ℝ) < 1 / 10 ^ 10 := by norm_num
  rcases hδ with rfl | rfl
  · rw [one_mul] at ht
    obtain ⟨c, hc, hf⟩ := hp.firstCorner C h0 (ht.trans (le_abs_self _))
    rw [if_neg (not_lt.mpr (hpos.le.trans ht))] at hf
    exact ⟨_, _, _, hf, hsame.backwards, hp.backwards, hp.flip hc, hcv.backwards⟩
  · rw [neg_one_mul] at ht
    obtain ⟨c, hc, hf⟩ := hp.firstCorner C h0 (ht.trans (neg_le_abs _))
    rw [if_pos (neg_pos.mp (lt_of_lt_of_le hpos ht))] at hf
    exact ⟨v1, s1, c, hf, hsame, hp, hc, hcv⟩

/-! ### The whole of `contour()` -/

theorem mem_extract_step (ret : List Nat) (e : Edge) (m : Nat) :
    m ∈ (let ret := if e.1 ∈ ret then ret else ret ++ [e.1]
      if e.2 ∈ ret then ret else ret ++ [e.2]) ↔ m ∈ ret ∨ m = e.1 ∨ m = e.2 := by
  simp only
  split_ifs with h1 h2 h2 <;> (try simp only [List.mem_append, List.mem_singleton] at *) <;> grind

/-- The nodes of `extract_nodes` are the ends of the edges. -/
theorem mem_extractNodes (E : List Edge) (m : Nat) : m ∈ extractNodes E ↔ ∃ e ∈ E, m = e.1 ∨ m = e.2 := by
  have h : ∀ (E : List Edge) (ret : List Nat), m ∈ E.foldl (fun ret e =>
      let ret := if e.1 ∈ ret then ret else ret ++ [e.1]
      if e.2 ∈ ret then ret else ret ++ [e.2]) ret ↔ m ∈ ret ∨ ∃ e ∈ E, m = e.1 ∨ m = e.2 := by
    intro E
    induction E with
    | nil => intro ret; simp
    | cons e E ih =>
      intro ret
      rw [List.foldl_cons, ih, mem_extract_step]
      simp [or_assoc]
  unfold extractNodes
  rw [h]
  simp

theorem foldl_inv {α β : Type} (P : β → Prop) (f : β → α → β) : ∀ (l : List α) (b : β), P b → (∀ b, ∀ a ∈ l, P b → P (f b a)) → P (l.foldl f b)
  | [], _, hb, _ => hb
  | a :: l, b, hb, h => foldl_inv P f l (f b a) (h b a (by simp) hb) (fun b a ha => h b a (by simp [ha]))

/-- The extreme nodes are ends of the edges. -/
theorem findExtremeNodes_ok (C : Computer) (hE : C.edges ≠ []) :
    ∃ a b, findExtremeNodes C = .ok (a, b) ∧ a ∈ extractNodes C.edges ∧ b ∈ extractNodes C.edges := by
  have hlen : 0 < (extractNodes C.edges).length := by
    obtain ⟨e, E, he⟩ := List.exists_cons_of_ne_nil hE
    have : e.1 ∈ extractNodes C.edges := (mem_extractNodes _ _).mpr ⟨e, by rw [he]; simp, Or.inl rfl⟩
    exact List.length_pos_of_mem this
  unfold findExtremeNodes
  simp only
  generalize hr : List.foldl _ _ _ = r
  have hinv : r.1.1 < (extractNodes C.edges).length ∧ r.2.1 < (extractNodes C.edges).length := by
    rw [← hr]
    apply foldl_inv (fun r : (Nat × ℝ) × (Nat × ℝ) => r.1.1 < (extractNodes C.edges).length ∧ r.2.1 < (extractNodes C.edges).length)
    · exact ⟨hlen, hlen⟩
    · intro b i hi hb
      rw [List.mem_range'_1] at hi
      constructor
      · simp only; split
        · simp only; omega
        · exact hb.1
      · simp only; split
        · simp only; omega
        · exact hb.2
  refine ⟨(extractNodes C.edges)[r.1.1]'hinv.1, (extractNodes C.edges)[r.2.1]'hinv.2, ?_, List.getElem_mem _, List.getElem_mem _⟩
  rw [Waves.getAt_of_lt hinv.1, Waves.getAt_of_lt hinv.2]
  rfl

theorem extremeAngle_ok (C : Computer) (node : Nat) {i : Nat} (hi : i < C.edges.length) : ∃ a, extremeAngle C node i = .ok a := by
  unfold extremeAngle
  rw [Waves.getAt_of_lt hi]
  exact ⟨_, rfl⟩

theorem extremeLoop_ok (C : Computer) (node : Nat) (lowest : Bool) : ∀ (l : List Nat) (ret : Nat) (angle : ℝ), ret < C.edges.length →
    (∀ i ∈ l, i < C.edges.length) → ∃ e, extremeLoop C node lowest l ret angle = .ok e ∧ e < C.edges.length := by
  intro l
  induction l with
  | nil => intro ret _ hr _; exact ⟨ret, rfl, hr⟩
  | cons c l ih =>
    intro ret angle hr hl
    obtain ⟨a, ha⟩ := extremeAngle_ok C node (hl c (by simp))
    unfold extremeLoop
    simp only [ha, bind, Except.bind]
    generalize (if lowest = true then decide (a < angle) else decide (a > angle)) = b
    cases b
    · exact ih ret angle hr (fun i hi => hl i (by simp [hi]))
    · exact ih c a (hl c (by simp)) (fun i hi => hl i (by simp [hi]))

/-- The extreme edge is one of the edges. -/
theorem extremeEdge_ok (C : Computer) {node : Nat} (hn : node ∈ extractNodes C.edges) : ∃ e, extremeEdge C node = .ok e ∧ e < C.edges.length := by
  obtain ⟨e, he, hm⟩ := (mem_extractNodes _ _).mp hn
  obtain ⟨i, hi, rfl⟩ := List.mem_iff_getElem.mp he
  have hc : nodeEdges C.edges node ≠ [] := by
    apply List.ne_nil_of_mem (a := i)
    unfold nodeEdges
    rw [List.mem_filter, List.mem_range]
    refine ⟨hi, ?_⟩
    unfold touches
    rw [List.getElem?_eq_getElem hi]
    rcases hm with h | h <;> simp [h]
  have h0 : 0 < C.edges.length := by omega
  obtain ⟨a, ha⟩ := extremeAngle_ok C node h0
  unfold extremeEdge
  simp only [if_neg hc, ha, bind, Except.bind, pure, Except.pure]
  apply extremeLoop_ok C node _ _ _ _ h0
  intro i hi
  unfold nodeEdges at hi
  exact List.mem_range.mp (List.mem_filter.mp hi).1

/-- The contour runs on all the edges. -/
theorem Around.mem (h : IsPolygon E n v s) {c : Contour} (hc : Around E n v s c) (i : Nat) : i ∈ c.map Prod.fst ↔ i < n := by
  haveI := h.neZero
  constructor
  · intro hi
    obtain ⟨e, he, rfl⟩ := List.mem_map.mp hi
    obtain ⟨k, hk, rfl⟩ := List.mem_iff_getElem.mp he
    obtain ⟨r, h1, -⟩ := hc.2 k (by rw [← hc.1]; exact hk)
    rw [List.getElem?_eq_getElem hk] at h1
    rw [Option.some.inj h1]
    exact h.lt _
  · intro hi
    obtain ⟨k, rfl⟩ := h.surj hi
    obtain ⟨r, h1, -⟩ := hc.2 k.val (ZMod.val_lt k)
    rw [ZMod.natCast_zmod_val] at h1
    exact List.mem_map.mpr ⟨_, List.mem_of_getElem? h1, rfl⟩

/-- Any property of the contours found from the edges of a polygon is a property of `contour()`, up to the original
numbers of the edges. -/
theorem contour_from (C : Computer) (h : IsPolygon C.edges n v s) (hl : C.original.length = n) :
    ∃ e c, e < n ∧ contourFrom C e = .ok c ∧ contour C = .ok (c.map (fun e => (C.original.getD e.1 0, e.2))) := by
  have hn := h.three
  have hne : C.edges ≠ [] := by
    intro hc
    have := h.length
    rw [hc] at this
    simp at this; omega
  obtain ⟨a, b, hf, ha, hb⟩ := findExtremeNodes_ok C hne
  obtain ⟨ea, hea, hla⟩ := extremeEdge_ok C ha
  obtain ⟨eb, heb, hlb⟩ := extremeEdge_ok C hb
  rw [h.length] at hla hlb
  obtain ⟨v1, s1, c1, h1, -, hp1, hc1⟩ := contour_of_polygon C h hla
  obtain ⟨v2, s2, c2, h2, -, hp2, hc2⟩ := contour_of_polygon C h hlb
  refine ⟨ea, c1, hla, h1, ?_⟩
  unfold contour
  rw [if_neg (by rw [h.length]; omega)]
  simp only [hf, hea, heb, h1, h2, bind, Except.bind]
  rw [if_pos]
  · rw [Waves.mapM_ok (g := fun e => (C.original.getD e.1 0, e.2))]
    intro e he
    have : e.1 < n := (hc1.mem hp1 e.1).mp (List.mem_map.mpr ⟨e, he, rfl⟩)
    rw [Waves.getUB_of_lt (by omega : e.1 < C.original.length)]
    simp [List.getD, List.getElem?_eq_getElem (by omega : e.1 < C.original.length), pure, Except.pure]
  · simp only [Bool.and_eq_true, List.all_eq_true, List.contains_iff_mem]
    exact ⟨fun i hi => (hc2.mem hp2 i).mpr ((hc1.mem hp1 i).mp hi), fun i hi => (hc1.mem hp1 i).mpr ((hc2.mem hp2 i).mp hi)⟩

end Polygon

end Xdyn.Closing

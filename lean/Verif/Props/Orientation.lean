/-
Proofs about the check of the orientation of a mesh (C164).
-/
import Verif.Model.Orientation
import Verif.Props.MeshVolume
import Mathlib.Tactic.Linarith

namespace Xdyn.Hull

/-- `p` is at the height `height a b c p` above the plane of the triangle `a b c`, counted along its normal (up to a positive factor). -/
noncomputable def height (a b c p : Pt ℝ) : ℝ := dot (cross3 a b c) ⟨p.x - a.x, p.y - a.y, p.z - a.z⟩

/-- A mesh of triangles that is the boundary of a convex solid: seen from outside, the points of each facet are in anticlockwise
order; all the points of the mesh are on the inner side of each facet, and not all in its plane. No triangle is tiny. -/
def ConvexMesh (v : List (List (Pt ℝ))) : Prop :=
  ∀ f ∈ v, ∃ a b c, f = [a, b, c] ∧ tinyNormal ≤ norm3 (cross3 a b c) ∧ (∀ p ∈ v.flatten, height a b c p ≤ 0) ∧ ∃ p ∈ v.flatten, height a b c p < 0

/-! ### Barycentres -/

theorem sumPts_from (l : List (Pt ℝ)) (s : Pt ℝ) : l.foldl (fun s p => (⟨s.x + p.x, s.y + p.y, s.z + p.z⟩ : Pt ℝ)) s =
    ⟨s.x + (l.map (·.x)).sum, s.y + (l.map (·.y)).sum, s.z + (l.map (·.z)).sum⟩ := by
  induction l generalizing s with
  | nil => simp
  | cons p l ih => rw [List.foldl_cons, ih]; simp [add_assoc]

theorem sumPts_eq (l : List (Pt ℝ)) : sumPts l = ⟨(l.map (·.x)).sum, (l.map (·.y)).sum, (l.map (·.z)).sum⟩ := by
  unfold sumPts; rw [sumPts_from]; simp

theorem barycenter_perm {l l' : List (Pt ℝ)} (h : l.Perm l') : barycenter l = barycenter l' := by
  unfold barycenter
  rw [sumPts_eq, sumPts_eq, h.length_eq, (h.map (·.x)).sum_eq, (h.map (·.y)).sum_eq, (h.map (·.z)).sum_eq]

/-- height of the barycentre -/
theorem height_barycenter (a b c : Pt ℝ) (l : List (Pt ℝ)) (hl : l ≠ []) :
    l.length * height a b c (barycenter l) = (l.map (height a b c)).sum := by
  have hn : (l.length : ℝ) ≠ 0 := by simpa using hl
  have key : ∀ l : List (Pt ℝ), (l.map (height a b c)).sum = dot (cross3 a b c)
      ⟨(l.map (·.x)).sum - l.length * a.x, (l.map (·.y)).sum - l.length * a.y, (l.map (·.z)).sum - l.length * a.z⟩ := by
    intro l
    induction l with
    | nil => simp [dot]
    | cons p l ih =>
      rw [List.map_cons, List.sum_cons, ih]
      simp only [height, dot, List.map_cons, List.sum_cons, List.length_cons, Nat.cast_add, Nat.cast_one]
      ring
  rw [key]
  simp only [height, barycenter, sumPts_eq, dot]
  field_simp

theorem sum_le (l : List ℝ) (h : ∀ x ∈ l, x ≤ 0) : l.sum ≤ 0 := by
  induction l with
  | nil => simp
  | cons y l ih =>
    rw [List.sum_cons]
    have := h y (by simp)
    have := ih (fun x hx => h x (by simp [hx]))
    linarith

theorem sum_neg {l : List ℝ} (h : ∀ x ∈ l, x ≤ 0) (h' : ∃ x ∈ l, x < 0) : l.sum < 0 := by
  induction l with
  | nil => obtain ⟨x, hx, _⟩ := h'; simp at hx
  | cons y l ih =>
    rw [List.sum_cons]
    have hy := h y (by simp)
    have hl : l.sum ≤ 0 := sum_le l (fun x hx => h x (by simp [hx]))
    obtain ⟨x, hx, hx'⟩ := h'
    rcases List.mem_cons.mp hx with rfl | hx
    · linarith
    · have := ih (fun x hx => h x (by simp [hx])) ⟨x, hx, hx'⟩
      linarith

/-- the barycentre of the points is strictly inside -/
theorem inside {v : List (List (Pt ℝ))} {a b c : Pt ℝ} (h : ∀ p ∈ v.flatten, height a b c p ≤ 0) (h' : ∃ p ∈ v.flatten, height a b c p < 0) :
    height a b c (meshBarycenter v) < 0 := by
  have hne : v.flatten ≠ [] := by obtain ⟨p, hp, _⟩ := h'; exact List.ne_nil_of_mem hp
  have hp : (0 : ℝ) < v.flatten.length := by exact_mod_cast List.length_pos_iff.mpr hne
  have e := height_barycenter a b c v.flatten hne
  have hs : ((v.flatten).map (height a b c)).sum < 0 := by
    refine sum_neg ?_ ?_
    · intro x hx
      obtain ⟨p, hp, rfl⟩ := List.mem_map.mp hx
      exact h p hp
    · obtain ⟨p, hp, hh⟩ := h'
      exact ⟨_, List.mem_map.mpr ⟨p, hp, rfl⟩, hh⟩
  unfold meshBarycenter
  by_contra hc
  have := mul_nonneg hp.le (not_lt.mp hc)
  linarith

/-! ### Facets -/

/-- the test of a triangle, for points that are not tiny -/
theorem facetClockwise_iff (a b c G : Pt ℝ) (h : tinyNormal ≤ norm3 (cross3 a b c)) :
    facetClockwise [a, b, c] G = .ok (decide (0 ≤ height a b c G)) := by
  have hp : 0 < norm3 (cross3 a b c) := lt_of_lt_of_le (by unfold tinyNormal; norm_num) h
  unfold facetClockwise
  rw [if_neg (by simp), unitNormal_three, if_neg (not_lt.mpr h)]
  simp only [Except.ok.injEq, decide_eq_decide]
  have e : dot (⟨(cross3 a b c).x / norm3 (cross3 a b c), (cross3 a b c).y / norm3 (cross3 a b c), (cross3 a b c).z / norm3 (cross3 a b c)⟩ : Pt ℝ)
      ⟨(barycenter [a, b, c]).x - G.x, (barycenter [a, b, c]).y - G.y, (barycenter [a, b, c]).z - G.z⟩ = -(height a b c G) / norm3 (cross3 a b c) := by
    simp only [dot, barycenter, sumPts_eq, height, List.map_cons, List.map_nil, List.sum_cons, List.sum_nil, List.length_cons, List.length_nil]
    push_cast
    rw [eq_div_iff hp.ne']
    field_simp
    simp only [cross3]
    ring
  rw [e, div_le_iff₀ hp]
  constructor <;> intro h <;> linarith

theorem cross3_reverse (a b c : Pt ℝ) : cross3 c b a = ⟨-(cross3 a b c).x, -(cross3 a b c).y, -(cross3 a b c).z⟩ := by
  simp only [cross3, Pt.mk.injEq]
  refine ⟨?_, ?_, ?_⟩ <;> ring

theorem norm3_reverse (a b c : Pt ℝ) : norm3 (cross3 c b a) = norm3 (cross3 a b c) := by
  rw [cross3_reverse]; simp [norm3]

theorem height_reverse (a b c G : Pt ℝ) : height c b a G = -height a b c G := by
  simp only [height, dot, cross3]; ring

/-- A facet, the points of which are given in the other order if `r`. -/
def turned (r : Bool) (f : List (Pt ℝ)) : List (Pt ℝ) := if r then f.reverse else f

theorem turned_clockwise (r : Bool) (a b c G : Pt ℝ) (h : tinyNormal ≤ norm3 (cross3 a b c)) (hG : height a b c G < 0) :
    facetClockwise (turned r [a, b, c]) G = .ok r := by
  cases r with
  | false =>
    rw [turned, if_neg (by simp), facetClockwise_iff a b c G h, decide_eq_false (not_le.mpr hG)]
  | true =>
    have e : turned true [a, b, c] = [c, b, a] := rfl
    rw [e, facetClockwise_iff c b a G (by rw [norm3_reverse]; exact h), height_reverse, decide_eq_true (by linarith)]

/-! ### Meshes -/

theorem flatten_turned (flags : List Bool) (v : List (List (Pt ℝ))) (h : flags.length = v.length) :
    (List.zipWith turned flags v).flatten.Perm v.flatten := by
  induction v generalizing flags with
  | nil => simp
  | cons f v ih =>
    cases flags with
    | nil => simp at h
    | cons r flags =>
      simp only [List.zipWith_cons_cons, List.flatten_cons]
      refine List.Perm.append ?_ (ih flags (by simpa using h))
      unfold turned
      split
      · exact List.reverse_perm f
      · exact List.Perm.refl f

theorem count_turned (G : Pt ℝ) (flags : List Bool) (v : List (List (Pt ℝ))) (h : flags.length = v.length)
    (hv : ∀ f ∈ v, ∀ r, facetClockwise (turned r f) G = .ok r) (n : Nat × Nat) :
    countClockwise G (List.zipWith turned flags v) n = .ok (n.1 + flags.count true, n.2 + flags.count false) := by
  induction v generalizing flags n with
  | nil =>
    have : flags = [] := List.eq_nil_of_length_eq_zero (by simpa using h)
    subst this
    rfl
  | cons f v ih =>
    cases flags with
    | nil => simp at h
    | cons r flags =>
      simp only [List.zipWith_cons_cons, countClockwise, hv f (by simp) r]
      have hf := ih flags (by simpa using h) (fun f hf => hv f (by simp [hf]))
      cases r
      · simp only [hf]; simp; omega
      · simp only [hf]; simp; omega

/-- **C164** (what the code does) For every convex mesh of at least two facets, any number of which have been turned over: it is
found clockwise if more than ten elevenths of the facets are turned, anticlockwise if less than one eleventh are, and is refused
otherwise. -/
theorem orientation_partial (v : List (List (Pt ℝ))) (hc : ConvexMesh v) (h2 : 2 ≤ v.length) (flags : List Bool)
    (hf : flags.length = v.length) :
    orientedClockwise (List.zipWith turned flags v) (meshBarycenter (List.zipWith turned flags v)) =
      if flags.count true > 10 * flags.count false then .ok true
      else if flags.count false > 10 * flags.count true then .ok false
      else .error (.throw "MeshException: not all facets have the same orientation") := by
  have hG : meshBarycenter (List.zipWith turned flags v) = meshBarycenter v := barycenter_perm (flatten_turned flags v hf)
  rw [hG]
  unfold orientedClockwise
  rw [if_neg (by rw [List.length_zipWith, hf]; omega), count_turned _ flags v hf]
  · simp
  · intro f hfm r
    obtain ⟨a, b, c, rfl, ht, h1, h2⟩ := hc f hfm
    exact turned_clockwise r a b c _ ht (inside h1 h2)

/-- The boundary of a convex solid is accepted, whichever of the two orientations all its facets have, and the orientation that is
found is the right one. -/
theorem convex_accepted (v : List (List (Pt ℝ))) (hc : ConvexMesh v) (h2 : 2 ≤ v.length) :
    orientedClockwise v (meshBarycenter v) = .ok false ∧
    orientedClockwise (v.map List.reverse) (meshBarycenter (v.map List.reverse)) = .ok true := by
  have key : ∀ (r : Bool), List.zipWith turned (List.replicate v.length r) v = v.map (turned r) := by
    intro r
    clear hc h2
    induction v with
    | nil => rfl
    | cons f v ih => simp [List.replicate_succ, ih]
  have h0 := orientation_partial v hc h2 (List.replicate v.length false) (by simp)
  have h1 := orientation_partial v hc h2 (List.replicate v.length true) (by simp)
  rw [key] at h0 h1
  have e0 : v.map (turned false) = v := by
    rw [show turned false = id from rfl, List.map_id]
  have e1 : turned true = List.reverse := rfl
  rw [e0] at h0
  rw [e1] at h1
  constructor
  · rw [h0, List.count_replicate, List.count_replicate]
    simp only [beq_self_eq_true, if_true, Bool.false_beq, Bool.not_true]
    rw [if_neg (by simp), if_pos (by simp; omega)]
  · rw [h1, List.count_replicate, List.count_replicate]
    simp only [beq_self_eq_true, if_true]
    rw [if_pos (by simp; omega)]

/-- **C164** is false in the code, first reason: in every convex mesh of at least twelve facets, one facet can be turned over without
being noticed. -/
theorem turned_facet_accepted (v : List (List (Pt ℝ))) (hc : ConvexMesh v) (h : 12 ≤ v.length) :
    orientedClockwise (List.zipWith turned (true :: List.replicate (v.length - 1) false) v)
      (meshBarycenter (List.zipWith turned (true :: List.replicate (v.length - 1) false) v)) = .ok false := by
  rw [orientation_partial v hc (by omega) _ (by simp; omega)]
  simp only [List.count_cons, List.count_replicate]
  rw [if_neg (by simp; omega), if_pos (by simp; omega)]

/-! ### Two hulls -/

/-- A tetrahedron, the corner of which is at `s` on the x axis, seen from outside. -/
def tetraAt (s : ℝ) : List (List (Pt ℝ)) :=
  [[⟨s, 0, 0⟩, ⟨s, 1, 0⟩, ⟨s + 1, 0, 0⟩], [⟨s, 0, 0⟩, ⟨s + 1, 0, 0⟩, ⟨s, 0, 1⟩],
    [⟨s, 0, 0⟩, ⟨s, 0, 1⟩, ⟨s, 1, 0⟩], [⟨s + 1, 0, 0⟩, ⟨s, 1, 0⟩, ⟨s, 0, 1⟩]]

theorem notTiny (v : Pt ℝ) (h : 1 ≤ v.x * v.x + v.y * v.y + v.z * v.z) : tinyNormal ≤ norm3 v := by
  have h1 : (1 : ℝ) ≤ norm3 v := by
    unfold norm3
    exact Real.le_sqrt_of_sq_le (by simpa using h)
  have h2 : tinyNormal ≤ 1 := by unfold tinyNormal; norm_num
  linarith

/-- A tetrahedron meets the hypotheses of `orientation_partial`, wherever it is. -/
theorem tetraAt_convex (s : ℝ) : ConvexMesh (tetraAt s) := by
  intro f hf
  simp only [tetraAt, List.mem_cons, List.not_mem_nil, or_false] at hf
  have hm : ∀ p, p ∈ (tetraAt s).flatten ↔ p = ⟨s, 0, 0⟩ ∨ p = ⟨s + 1, 0, 0⟩ ∨ p = ⟨s, 1, 0⟩ ∨ p = ⟨s, 0, 1⟩ := by
    intro p
    simp only [tetraAt, List.flatten_cons, List.flatten_nil, List.mem_append, List.mem_cons, List.not_mem_nil, or_false]
    grind
  rcases hf with rfl | rfl | rfl | rfl
  · refine ⟨_, _, _, rfl, notTiny _ (by simp [cross3]), ?_, ⟨s, 0, 1⟩, by rw [hm]; simp, by simp [height, dot, cross3]⟩
    intro p hp
    rw [hm] at hp
    rcases hp with rfl | rfl | rfl | rfl <;> simp [height, dot, cross3]
  · refine ⟨_, _, _, rfl, notTiny _ (by simp [cross3]), ?_, ⟨s, 1, 0⟩, by rw [hm]; simp, by simp [height, dot, cross3]⟩
    intro p hp
    rw [hm] at hp
    rcases hp with rfl | rfl | rfl | rfl <;> simp [height, dot, cross3]
  · refine ⟨_, _, _, rfl, notTiny _ (by simp [cross3]), ?_, ⟨s + 1, 0, 0⟩, by rw [hm]; simp, by simp [height, dot, cross3]⟩
    intro p hp
    rw [hm] at hp
    rcases hp with rfl | rfl | rfl | rfl <;> simp [height, dot, cross3]
  · refine ⟨_, _, _, rfl, notTiny _ (by norm_num [cross3]), ?_, ⟨s, 0, 0⟩, by rw [hm]; simp, by norm_num [height, dot, cross3]⟩
    intro p hp
    rw [hm] at hp
    rcases hp with rfl | rfl | rfl | rfl <;> norm_num [height, dot, cross3]

/-- **C164** is false in the code, second reason: a mesh made of two convex hulls, all the facets of which are seen from outside (each
hull would be accepted alone, with the same orientation), is refused. -/
theorem two_hulls_refused : ∃ v w, ConvexMesh v ∧ ConvexMesh w ∧ orientedClockwise v (meshBarycenter v) = .ok false ∧
    orientedClockwise w (meshBarycenter w) = .ok false ∧
    orientedClockwise (v ++ w) (meshBarycenter (v ++ w)) = .error (.throw "MeshException: not all facets have the same orientation") ∧
    checkedBuild (v ++ w) = .error (.throw "MeshException: not all facets have the same orientation") := by
  have key : orientedClockwise (tetraAt 10 ++ tetraAt (-10)) (meshBarycenter (tetraAt 10 ++ tetraAt (-10))) =
      .error (.throw "MeshException: not all facets have the same orientation") := by
    have hG : meshBarycenter (tetraAt 10 ++ tetraAt (-10)) = ⟨1 / 4, 1 / 4, 1 / 4⟩ := by
      simp only [meshBarycenter, barycenter, sumPts_eq, tetraAt]
      norm_num
    rw [hG]
    unfold orientedClockwise
    rw [if_neg (by simp [tetraAt])]
    have hc : countClockwise ⟨1 / 4, 1 / 4, 1 / 4⟩ (tetraAt 10 ++ tetraAt (-10)) (0, 0) = .ok (2, 6) := by
      have ff : ∀ a b c : Pt ℝ, ∀ r, 1 ≤ (cross3 a b c).x * (cross3 a b c).x + (cross3 a b c).y * (cross3 a b c).y + (cross3 a b c).z * (cross3 a b c).z →
          decide (0 ≤ height a b c ⟨1 / 4, 1 / 4, 1 / 4⟩) = r → facetClockwise [a, b, c] ⟨1 / 4, 1 / 4, 1 / 4⟩ = .ok r := by
        intro a b c r h1 h2
        rw [facetClockwise_iff _ _ _ _ (notTiny _ h1), h2]
      have hz : ∀ s, facetClockwise [⟨s, 0, 0⟩, ⟨s, 1, 0⟩, ⟨s + 1, 0, 0⟩] ⟨1 / 4, 1 / 4, 1 / 4⟩ = .ok false := fun s =>
        ff _ _ _ _ (by norm_num [cross3]) (by norm_num [height, dot, cross3])
      have hy : ∀ s, facetClockwise [⟨s, 0, 0⟩, ⟨s + 1, 0, 0⟩, ⟨s, 0, 1⟩] ⟨1 / 4, 1 / 4, 1 / 4⟩ = .ok false := fun s =>
        ff _ _ _ _ (by norm_num [cross3]) (by norm_num [height, dot, cross3])
      have hx : facetClockwise [⟨10, 0, 0⟩, ⟨10, 0, 1⟩, ⟨10, 1, 0⟩] ⟨1 / 4, 1 / 4, 1 / 4⟩ = .ok true :=
        ff _ _ _ _ (by norm_num [cross3]) (by norm_num [height, dot, cross3])
      have hx' : facetClockwise [⟨-10, 0, 0⟩, ⟨-10, 0, 1⟩, ⟨-10, 1, 0⟩] ⟨1 / 4, 1 / 4, 1 / 4⟩ = .ok false :=
        ff _ _ _ _ (by norm_num [cross3]) (by norm_num [height, dot, cross3])
      have hs : facetClockwise [⟨10 + 1, 0, 0⟩, ⟨10, 1, 0⟩, ⟨10, 0, 1⟩] ⟨1 / 4, 1 / 4, 1 / 4⟩ = .ok false :=
        ff _ _ _ _ (by norm_num [cross3]) (by norm_num [height, dot, cross3])
      have hs' : facetClockwise [⟨-10 + 1, 0, 0⟩, ⟨-10, 1, 0⟩, ⟨-10, 0, 1⟩] ⟨1 / 4, 1 / 4, 1 / 4⟩ = .ok true :=
        ff _ _ _ _ (by norm_num [cross3]) (by norm_num [height, dot, cross3])
      simp only [tetraAt, List.cons_append, List.nil_append, countClockwise, hz, hy, hx, hx', hs, hs']
    rw [hc]
    simp
  refine ⟨tetraAt 10, tetraAt (-10), tetraAt_convex _, tetraAt_convex _, (convex_accepted _ (tetraAt_convex _) (by simp [tetraAt])).1,
    (convex_accepted _ (tetraAt_convex _) (by simp [tetraAt])).1, key, ?_⟩
  unfold checkedBuild
  rw [key]

/-- A cube of twelve triangles, seen from outside. -/
def cube : List (List (Pt ℝ)) :=
  [[⟨0, 0, 0⟩, ⟨0, 1, 0⟩, ⟨1, 1, 0⟩], [⟨0, 0, 0⟩, ⟨1, 1, 0⟩, ⟨1, 0, 0⟩],
    [⟨0, 0, 1⟩, ⟨1, 0, 1⟩, ⟨1, 1, 1⟩], [⟨0, 0, 1⟩, ⟨1, 1, 1⟩, ⟨0, 1, 1⟩],
    [⟨0, 0, 0⟩, ⟨1, 0, 0⟩, ⟨1, 0, 1⟩], [⟨0, 0, 0⟩, ⟨1, 0, 1⟩, ⟨0, 0, 1⟩],
    [⟨0, 1, 0⟩, ⟨0, 1, 1⟩, ⟨1, 1, 1⟩], [⟨0, 1, 0⟩, ⟨1, 1, 1⟩, ⟨1, 1, 0⟩],
    [⟨0, 0, 0⟩, ⟨0, 0, 1⟩, ⟨0, 1, 1⟩], [⟨0, 0, 0⟩, ⟨0, 1, 1⟩, ⟨0, 1, 0⟩],
    [⟨1, 0, 0⟩, ⟨1, 1, 0⟩, ⟨1, 1, 1⟩], [⟨1, 0, 0⟩, ⟨1, 1, 1⟩, ⟨1, 0, 1⟩]]

theorem cube_convex : ConvexMesh cube := by
  intro f hf
  simp only [cube, List.mem_cons, List.not_mem_nil, or_false] at hf
  have hm : ∀ p, p ∈ cube.flatten ↔ p = ⟨0, 0, 0⟩ ∨ p = ⟨0, 0, 1⟩ ∨ p = ⟨0, 1, 0⟩ ∨ p = ⟨0, 1, 1⟩ ∨ p = ⟨1, 0, 0⟩ ∨ p = ⟨1, 0, 1⟩ ∨ p = ⟨1, 1, 0⟩ ∨ p = ⟨1, 1, 1⟩ := by
    intro p
    simp only [cube, List.flatten_cons, List.flatten_nil, List.mem_append, List.mem_cons, List.not_mem_nil, or_false]
    grind
  rcases hf with rfl | rfl | rfl | rfl | rfl | rfl | rfl | rfl | rfl | rfl | rfl | rfl
  · refine ⟨_, _, _, rfl, notTiny _ (by norm_num [cross3]), ?_, ⟨0, 0, 1⟩, by rw [hm]; norm_num, by norm_num [height, dot, cross3]⟩
    intro p hp
    rw [hm] at hp
    rcases hp with rfl | rfl | rfl | rfl | rfl | rfl | rfl | rfl <;> norm_num [height, dot, cross3]
  · refine ⟨_, _, _, rfl, notTiny _ (by norm_num [cross3]), ?_, ⟨0, 0, 1⟩, by rw [hm]; norm_num, by norm_num [height, dot, cross3]⟩
    intro p hp
    rw [hm] at hp
    rcases hp with rfl | rfl | rfl | rfl | rfl | rfl | rfl | rfl <;> norm_num [height, dot, cross3]
  · refine ⟨_, _, _, rfl, notTiny _ (by norm_num [cross3]), ?_, ⟨0, 0, 0⟩, by rw [hm]; norm_num, by norm_num [height, dot, cross3]⟩
    intro p hp
    rw [hm] at hp
    rcases hp with rfl | rfl | rfl | rfl | rfl | rfl | rfl | rfl <;> norm_num [height, dot, cross3]
  · refine ⟨_, _, _, rfl, notTiny _ (by norm_num [cross3]), ?_, ⟨0, 0, 0⟩, by rw [hm]; norm_num, by norm_num [height, dot, cross3]⟩
    intro p hp
    rw [hm] at hp
    rcases hp with rfl | rfl | rfl | rfl | rfl | rfl | rfl | rfl <;> norm_num [height, dot, cross3]
  · refine ⟨_, _, _, rfl, notTiny _ (by norm_num [cross3]), ?_, ⟨0, 1, 0⟩, by rw [hm]; norm_num, by norm_num [height, dot, cross3]⟩
    intro p hp
    rw [hm] at hp
    rcases hp with rfl | rfl | rfl | rfl | rfl | rfl | rfl | rfl <;> norm_num [height, dot, cross3]
  · refine ⟨_, _, _, rfl, notTiny _ (by norm_num [cross3]), ?_, ⟨0, 1, 0⟩, by rw [hm]; norm_num, by norm_num [height, dot, cross3]⟩
    intro p hp
    rw [hm] at hp
    rcases hp with rfl | rfl | rfl | rfl | rfl | rfl | rfl | rfl <;> norm_num [height, dot, cross3]
  · refine ⟨_, _, _, rfl, notTiny _ (by norm_num [cross3]), ?_, ⟨0, 0, 0⟩, by rw [hm]; norm_num, by norm_num [height, dot, cross3]⟩
    intro p hp
    rw [hm] at hp
    rcases hp with rfl | rfl | rfl | rfl | rfl | rfl | rfl | rfl <;> norm_num [height, dot, cross3]
  · refine ⟨_, _, _, rfl, notTiny _ (by norm_num [cross3]), ?_, ⟨0, 0, 0⟩, by rw [hm]; norm_num, by norm_num [height, dot, cross3]⟩
    intro p hp
    rw [hm] at hp
    rcases hp with rfl | rfl | rfl | rfl | rfl | rfl | rfl | rfl <;> norm_num [height, dot, cross3]
  · refine ⟨_, _, _, rfl, notTiny _ (by norm_num [cross3]), ?_, ⟨1, 0, 0⟩, by rw [hm]; norm_num, by norm_num [height, dot, cross3]⟩
    intro p hp
    rw [hm] at hp
    rcases hp with rfl | rfl | rfl | rfl | rfl | rfl | rfl | rfl <;> norm_num [height, dot, cross3]
  · refine ⟨_, _, _, rfl, notTiny _ (by norm_num [cross3]), ?_, ⟨1, 0, 0⟩, by rw [hm]; norm_num, by norm_num [height, dot, cross3]⟩
    intro p hp
    rw [hm] at hp
    rcases hp with rfl | rfl | rfl | rfl | rfl | rfl | rfl | rfl <;> norm_num [height, dot, cross3]
  · refine ⟨_, _, _, rfl, notTiny _ (by norm_num [cross3]), ?_, ⟨0, 0, 0⟩, by rw [hm]; norm_num, by norm_num [height, dot, cross3]⟩
    intro p hp
    rw [hm] at hp
    rcases hp with rfl | rfl | rfl | rfl | rfl | rfl | rfl | rfl <;> norm_num [height, dot, cross3]
  · refine ⟨_, _, _, rfl, notTiny _ (by norm_num [cross3]), ?_, ⟨0, 0, 0⟩, by rw [hm]; norm_num, by norm_num [height, dot, cross3]⟩
    intro p hp
    rw [hm] at hp
    rcases hp with rfl | rfl | rfl | rfl | rfl | rfl | rfl | rfl <;> norm_num [height, dot, cross3]

/-- A cube with a facet turned over meets the hypotheses of `turned_facet_accepted`. -/
example : orientedClockwise (List.zipWith turned (true :: List.replicate 11 false) cube)
    (meshBarycenter (List.zipWith turned (true :: List.replicate 11 false) cube)) = .ok false :=
  turned_facet_accepted cube cube_convex (by decide)

end Xdyn.Hull

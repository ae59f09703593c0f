import Verif.Props.ClosingFacet
import Mathlib.Tactic.FinCases
import Mathlib.Tactic.IntervalCases

/-!
Property C113 (immersed and emerged volumes), refutations and examples for C111 and C112.
-/

namespace Xdyn.Closing

open Hull

/-! ### C113: volumes -/

/-- Signed volume between a facet and the origin: sum over the triangles of its fan. -/
noncomputable def coneVolume (nodes : List (Pt ℝ)) (f : Facet ℝ) : ℝ := ((fanTriangles (ptsOf nodes f)).map (solidVolume ⟨0, 0, 0⟩)).sum

theorem solid_of_flat {pts : List (Pt ℝ)} {n : Pt ℝ} (h : FlatFacet pts n) (t : Tri) (ht : t ∈ fanTriangles pts) :
    solidVolume ⟨0, 0, 0⟩ t = areaOf t * dot n t.1 / 3 := by
  have h1 := flat_triangle h t ht
  have h2 : solidVolume ⟨0, 0, 0⟩ t = dot (vscale (1 / 2) (cross3 t.1 t.2.1 t.2.2)) t.1 / 3 := by
    simp only [solidVolume, cross3, vscale, dot]; ring
  rw [h2, ← h1]
  simp only [vscale, dot]; ring

/-- The volume of a flat facet is the volume between the facet and the origin. -/
theorem facetVolume_flat {nodes : List (Pt ℝ)} {f : Facet ℝ} (h : FlatFacet (ptsOf nodes f) f.normal) : facetVolume nodes f = coneVolume nodes f := by
  unfold facetVolume coneVolume
  obtain ⟨vs, n⟩ := f
  cases vs with
  | nil => have := h.size; simp [ptsOf] at this
  | cons v vs =>
    simp only
    have hp : polyArea (List.map (col nodes) (v :: vs)) = ((fanTriangles (ptsOf nodes ⟨v :: vs, n⟩)).map areaOf).sum := polyArea_fan _
    rw [hp, List.map_congr_left (f := solidVolume ⟨0, 0, 0⟩) (g := fun t => areaOf t * (dot n (col nodes v) / 3))]
    · rw [List.sum_map_mul_right]; ring
    · intro t ht
      rw [solid_of_flat h t ht]
      have : t.1 = col nodes v := by
        simp only [ptsOf, List.map_cons, fanTriangles, List.mem_map] at ht
        obtain ⟨s, -, rfl⟩ := ht
        rfl
      rw [this]; ring

theorem foldl_volume {α : Type} (p : α → Bool) (g : α → ℝ) : ∀ (l : List α) (V : ℝ),
    l.foldl (fun V f => if p f then V else V + g f) V = V + ((l.filter (fun f => !p f)).map g).sum
  | [], V => by simp
  | a :: l, V => by
    rw [List.foldl_cons, foldl_volume p g l]
    by_cases h : p a <;> simp [h, add_assoc]

/-- **C113 (partial)** When the facets are flat, the closing facets too, and the immersed facets alone do not cancel, the immersed volume is the volume enclosed
by the immersed facets and the closing facets which are not already immersed facets. -/
theorem immersed_volume_partial (nodes : List (Pt ℝ)) (imm surf : List (Facet ℝ)) (h3 : 3 ≤ imm.length) (hi : ∀ f ∈ imm, FlatFacet (ptsOf nodes f) f.normal)
    (hs : ∀ f ∈ surf, FlatFacet (ptsOf nodes f) f.normal) (h0 : (imm.map (coneVolume nodes)).sum ≠ 0) :
    immersedVolume nodes imm surf = |((imm ++ surf.filter (fun f => !hasFacet f imm)).map (coneVolume nodes)).sum| := by
  have hv : volume nodes imm = (imm.map (coneVolume nodes)).sum := by
    unfold volume
    rw [if_neg (by omega), List.map_congr_left (fun f hf => facetVolume_flat (hi f hf))]
  unfold immersedVolume
  simp only [hv, if_neg h0]
  rw [foldl_volume, List.map_append, List.sum_append]
  rw [List.map_congr_left (f := facetVolume nodes) (g := coneVolume nodes)]
  intro f hf
  exact facetVolume_flat (hs f (List.mem_filter.mp hf).1)

theorem flippedVolume_flat {nodes : List (Pt ℝ)} {f : Facet ℝ} (h : FlatFacet (ptsOf nodes f) f.normal)
    (hp : ∀ p ∈ ptsOf nodes f, ∀ q ∈ ptsOf nodes f, dot f.normal p = dot f.normal q) : flippedVolume nodes f = -coneVolume nodes f := by
  rw [← facetVolume_flat h]
  obtain ⟨vs, n⟩ := f
  cases vs with
  | nil => have := h.size; simp [ptsOf] at this
  | cons v vs =>
    unfold flippedVolume facetVolume
    cases hr : (v :: vs).reverse with
    | nil => simp at hr
    | cons w ws =>
      simp only
      have hw : w ∈ v :: vs := by rw [← List.mem_reverse, hr]; simp
      have := hp (col nodes w) (List.mem_map.mpr ⟨w, hw, rfl⟩) (col nodes v) (List.mem_map.mpr ⟨v, by simp, rfl⟩)
      simp only at this
      have hs : dot (vscale (-1) n) (col nodes w) = - dot n (col nodes w) := by simp only [dot, vscale]; ring
      rw [hs, this]
      ring

/-- **C113 (partial)** The emerged volume: the closing facets are run backwards. -/
theorem emerged_volume_partial (nodes : List (Pt ℝ)) (em surf : List (Facet ℝ)) (h3 : 3 ≤ em.length) (hi : ∀ f ∈ em, FlatFacet (ptsOf nodes f) f.normal)
    (hs : ∀ f ∈ surf, FlatFacet (ptsOf nodes f) f.normal ∧ ∀ p ∈ ptsOf nodes f, ∀ q ∈ ptsOf nodes f, dot f.normal p = dot f.normal q)
    (h0 : (em.map (coneVolume nodes)).sum ≠ 0) :
    emergedVolume nodes em surf = |(em.map (coneVolume nodes)).sum - ((surf.filter (fun f => !hasFacet (flipFacet f) em)).map (coneVolume nodes)).sum| := by
  have hv : volume nodes em = (em.map (coneVolume nodes)).sum := by
    unfold volume
    rw [if_neg (by omega), List.map_congr_left (fun f hf => facetVolume_flat (hi f hf))]
  unfold emergedVolume
  simp only [hv, if_neg h0]
  rw [foldl_volume (fun f => hasFacet (flipFacet f) em), List.map_congr_left (f := flippedVolume nodes) (g := fun f => -coneVolume nodes f)]
  · congr 1
    rw [sub_eq_add_neg]
    congr 1
    induction surf.filter (fun f => !hasFacet (flipFacet f) em) with
    | nil => simp
    | cons a l ih => simp only [List.map_cons, List.sum_cons, ih]; ring
  · intro f hf
    exact flippedVolume_flat (hs f (List.mem_filter.mp hf).1).1 (hs f (List.mem_filter.mp hf).1).2

theorem abs_z_le (u : Pt ℝ) : |u.z| ≤ norm3 u := by
  unfold norm3
  apply Real.abs_le_sqrt
  nlinarith [mul_self_nonneg u.x, mul_self_nonneg u.y]

/-- The hypotheses of `immersed_volume_partial` are met by the tetrahedron with its tip at `(0, 0, 1)`. -/
example : immersedVolume [⟨0, 0, 2⟩, ⟨0, 0, 1⟩, ⟨0, 1, 1⟩, ⟨1, 0, 1⟩] [⟨[0, 2, 1], ⟨-1, 0, 0⟩⟩, ⟨[0, 1, 3], ⟨0, -1, 0⟩⟩, ⟨[0, 3, 2], ⟨1 / Real.sqrt 3, 1 / Real.sqrt 3, 1 / Real.sqrt 3⟩⟩]
    [⟨[1, 2, 3], ⟨0, 0, -1⟩⟩] = 1 / 6 := by
  have h3 : Real.sqrt 3 * Real.sqrt 3 = 3 := Real.mul_self_sqrt (by norm_num)
  have h3' : 0 < Real.sqrt 3 := Real.sqrt_pos.mpr (by norm_num)
  have hcone : ∀ a b c n, coneVolume [⟨0, 0, 2⟩, ⟨0, 0, 1⟩, ⟨0, 1, 1⟩, ⟨1, 0, 1⟩] ⟨[a, b, c], n⟩ =
      solidVolume ⟨0, 0, 0⟩ (col [⟨0, 0, 2⟩, ⟨0, 0, 1⟩, ⟨0, 1, 1⟩, ⟨1, 0, 1⟩] a, col [⟨0, 0, 2⟩, ⟨0, 0, 1⟩, ⟨0, 1, 1⟩, ⟨1, 0, 1⟩] b, col [⟨0, 0, 2⟩, ⟨0, 0, 1⟩, ⟨0, 1, 1⟩, ⟨1, 0, 1⟩] c) := by
    intro a b c n
    simp [coneVolume, ptsOf, fanTriangles, steps]
  have flat : ∀ (a b c : Nat) (n : Pt ℝ), n.x * n.x + n.y * n.y + n.z * n.z = 1 → (∃ k : ℝ, 0 ≤ k ∧ cross3 (col [⟨0, 0, 2⟩, ⟨0, 0, 1⟩, ⟨0, 1, 1⟩, ⟨1, 0, 1⟩] a) (col [⟨0, 0, 2⟩, ⟨0, 0, 1⟩, ⟨0, 1, 1⟩, ⟨1, 0, 1⟩] b) (col [⟨0, 0, 2⟩, ⟨0, 0, 1⟩, ⟨0, 1, 1⟩, ⟨1, 0, 1⟩] c) = Pt.smul k n) →
      FlatFacet (ptsOf [⟨0, 0, 2⟩, ⟨0, 0, 1⟩, ⟨0, 1, 1⟩, ⟨1, 0, 1⟩] ⟨[a, b, c], n⟩) n := by
    intro a b c n hn hk
    refine ⟨by simp [ptsOf], hn, ?_⟩
    intro t ht
    simp only [ptsOf, List.map_cons, List.map_nil, triples, pairs, List.append_nil, List.mem_cons, List.not_mem_nil, or_false] at ht
    subst ht
    exact hk
  have f1 := flat 0 2 1 ⟨-1, 0, 0⟩ (by norm_num) ⟨1, by norm_num, by norm_num [cross3, col, Pt.smul]⟩
  have f2 := flat 0 1 3 ⟨0, -1, 0⟩ (by norm_num) ⟨1, by norm_num, by norm_num [cross3, col, Pt.smul]⟩
  have f3 := flat 0 3 2 ⟨1 / Real.sqrt 3, 1 / Real.sqrt 3, 1 / Real.sqrt 3⟩ (by field_simp; nlinarith) ⟨Real.sqrt 3, h3'.le, by simp [cross3, col, Pt.smul]; field_simp; norm_num⟩
  have f4 := flat 1 2 3 ⟨0, 0, -1⟩ (by norm_num) ⟨1, by norm_num, by norm_num [cross3, col, Pt.smul]⟩
  rw [immersed_volume_partial _ _ _ (by simp) (by
      intro f hf
      simp only [List.mem_cons, List.not_mem_nil, or_false] at hf
      rcases hf with rfl | rfl | rfl
      · exact f1
      · exact f2
      · exact f3) (by
      intro f hf
      simp only [List.mem_cons, List.not_mem_nil, or_false] at hf
      subst hf
      exact f4) (by
    simp only [List.map_cons, List.map_nil, List.sum_cons, List.sum_nil, hcone]
    norm_num [solidVolume, cross3, col])]
  have hh : hasFacet ⟨[1, 2, 3], ⟨0, 0, -1⟩⟩ [⟨[0, 2, 1], ⟨-1, 0, 0⟩⟩, ⟨[0, 1, 3], ⟨0, -1, 0⟩⟩, ⟨[0, 3, 2], ⟨1 / Real.sqrt 3, 1 / Real.sqrt 3, 1 / Real.sqrt 3⟩⟩] = false := by
    unfold hasFacet
    rw [if_neg (by simp), List.all_eq_false]
    refine ⟨1, by simp, ?_⟩
    rw [Bool.not_eq_true, List.any_eq_false]
    intro g hg
    have hz : 0 ≤ g.normal.z := by
      simp only [List.mem_cons, List.not_mem_nil, or_false] at hg
      rcases hg with rfl | rfl | rfl
      · exact le_refl _
      · exact le_refl _
      · simp only; positivity
    rw [if_pos]
    · simp
    · have := abs_z_le (vsub ⟨0, 0, -1⟩ g.normal)
      have h1 : (1 : ℝ) ≤ |(vsub ⟨0, 0, -1⟩ g.normal).z| := by
        rw [le_abs]; right; simp only [vsub]; linarith
      have h2 : (1 : ℝ) / 10 ^ 8 < 1 := by norm_num
      exact lt_of_lt_of_le h2 (h1.trans this)
  simp only [List.filter_cons, hh, List.filter_nil, Bool.not_false, if_true, List.cons_append, List.nil_append, List.map_cons, List.map_nil, List.sum_cons, List.sum_nil, hcone]
  norm_num [solidVolume, cross3, col]

/-- The nodes of a tetrahedron with a corner at the origin. -/
noncomputable def tipNodes : List (Pt ℝ) := [⟨0, 0, 0⟩, ⟨1, 0, -1⟩, ⟨0, 1, -1⟩, ⟨0, 0, -1⟩]

/-- The three faces at the origin, and the closing facet. -/
noncomputable def tipFaces : List (Facet ℝ) :=
  [⟨[0, 1, 2], ⟨1 / Real.sqrt 3, 1 / Real.sqrt 3, 1 / Real.sqrt 3⟩⟩, ⟨[0, 2, 3], ⟨-1, 0, 0⟩⟩, ⟨[0, 3, 1], ⟨0, -1, 0⟩⟩]
noncomputable def tipLid : Facet ℝ := ⟨[1, 3, 2], ⟨0, 0, -1⟩⟩

/-- **C113, refuted in general.** The immersed part of a hull whose immersed facets all contain the origin of the body frame is found to have no volume:
here a tetrahedron of volume 1/6. -/
theorem immersed_volume_refuted :
    immersedVolume tipNodes tipFaces [tipLid] = 0 ∧ (∀ f ∈ tipFaces ++ [tipLid], FlatFacet (ptsOf tipNodes f) f.normal) ∧
      ((tipFaces ++ [tipLid]).map (coneVolume tipNodes)).sum = 1 / 6 ∧
      ClosedSides ((tipFaces ++ [tipLid]).flatMap (fun f => ring f.vertices)) := by
  have h3 : Real.sqrt 3 * Real.sqrt 3 = 3 := Real.mul_self_sqrt (by norm_num)
  have h3' : 0 < Real.sqrt 3 := Real.sqrt_pos.mpr (by norm_num)
  have hvol : volume tipNodes tipFaces = 0 := by
    simp [volume, tipFaces, facetVolume, tipNodes, col, dot]
  refine ⟨?_, ?_, ?_, ?_⟩
  · unfold immersedVolume
    rw [if_pos hvol]
  · intro f hf
    simp only [tipFaces, tipLid, List.cons_append, List.nil_append, List.mem_cons, List.not_mem_nil, or_false] at hf
    rcases hf with rfl | rfl | rfl | rfl
    · refine ⟨by simp [ptsOf], by field_simp; nlinarith, ?_⟩
      intro t ht
      simp only [ptsOf, List.map_cons, List.map_nil, triples, pairs, List.append_nil, List.map_nil, List.mem_cons, List.not_mem_nil, or_false] at ht
      subst ht
      refine ⟨Real.sqrt 3, h3'.le, ?_⟩
      simp [cross3, tipNodes, col, Pt.smul]
    all_goals
      refine ⟨by simp [ptsOf], by norm_num, ?_⟩
      intro t ht
      simp only [ptsOf, List.map_cons, List.map_nil, triples, pairs, List.append_nil, List.map_nil, List.mem_cons, List.not_mem_nil, or_false] at ht
      subst ht
      refine ⟨1, by norm_num, ?_⟩
      simp [cross3, tipNodes, col, Pt.smul]
  · simp [tipFaces, tipLid, coneVolume, ptsOf, fanTriangles, steps, solidVolume, tipNodes, col, cross3]
  · unfold ClosedSides tipFaces tipLid
    decide +kernel

/-! ### Examples for C111 and C112 -/

/-- A square waterline, its sides stored in various directions. -/
noncomputable def squareNodes : List (Pt ℝ) := [⟨0, 0, 2⟩, ⟨1, 0, 2⟩, ⟨1, 1, 2⟩, ⟨0, 1, 2⟩]
def squareEdges : List Edge := [(0, 1), (2, 1), (2, 3), (0, 2), (0, 3)]

theorem square_polygon : IsPolygonIn squareEdges [0, 1, 2, 4] 4 (fun j => j.val) (fun j => [0, 1, 2, 4].getD j.val 0) where
  three := by norm_num
  length := rfl
  corners := by decide
  sides := by decide
  mem := by decide
  side := by decide

theorem square_side (j : ZMod 4) : sideVec squareNodes (fun j : ZMod 4 => j.val) j = vsub (col squareNodes ((j.val + 1) % 4)) (col squareNodes j.val) := by
  fin_cases j <;> rfl

theorem square_convex : Convex squareNodes (fun j : ZMod 4 => j.val) 1 where
  side := by
    intro j k
    rw [square_side]
    unfold corner
    beta_reduce
    have hj := ZMod.val_lt j
    have hk := ZMod.val_lt k
    generalize j.val = a at hj ⊢
    generalize k.val = b at hk ⊢
    interval_cases a <;> interval_cases b <;> norm_num [zcross, vsub, squareNodes, col]
  turn := by
    intro j
    rw [square_side, square_side, ZMod.val_add]
    have hj := ZMod.val_lt j
    have h1 : (1 : ZMod 4).val = 1 := rfl
    rw [h1]
    generalize j.val = a at hj ⊢
    interval_cases a <;> norm_num [zcross, vsub, squareNodes, col]

/-- The hypotheses of `closing_facet_direction` are met by a square. -/
example : ∃ f, closingFacet squareNodes squareEdges [0, 1, 2, 4] = .ok (some f) ∧ f.vertices.length = 4 ∧ (areaVector2 (f.vertices.map (col squareNodes))).z < 0 := by
  obtain ⟨f, v', h1, -, h2, h3, -⟩ := closing_facet_direction (nodes := squareNodes) square_polygon (by decide) (Or.inl rfl) square_convex
  exact ⟨f, h1, by rw [h2]; simp [cornersFrom1], h3⟩

/-! ### Refutation of C112 for other waterlines -/

/-- A star with three branches; its sides all run from a tip to a hollow. -/
noncomputable def starNodes : List (Pt ℝ) := [⟨0, 6, 0⟩, ⟨-1, 0, 0⟩, ⟨-6, -6, 0⟩, ⟨0, -2, 0⟩, ⟨6, -6, 0⟩, ⟨1, 0, 0⟩]
def starEdges : List Edge := [(0, 1), (2, 1), (2, 3), (4, 3), (4, 5), (0, 5)]

theorem star_polygon : IsPolygonIn starEdges [0, 1, 2, 3, 4, 5] 6 (fun j => j.val) (fun j => j.val) where
  three := by norm_num
  length := rfl
  corners := by decide
  sides := by decide
  mem := by decide
  side := by decide

theorem star_points (k : Nat) : k < 6 → k % 2 = 0 →
    (areaVector2 ([(k + 1) % 6, (k + 2) % 6, (k + 3) % 6, (k + 4) % 6, (k + 5) % 6, k].map (col starNodes))).z = 48 ∧
      zcross (vsub (col starNodes ((k + 1) % 6)) (col starNodes k)) (vsub (col starNodes ((k + 2) % 6)) (col starNodes ((k + 1) % 6))) ≤ -24 ∧
      zcross (vsub (col starNodes ((k + 5) % 6)) (col starNodes k)) (vsub (col starNodes ((k + 4) % 6)) (col starNodes ((k + 5) % 6))) ≥ 24 := by
  intro hk h2
  interval_cases k <;> simp at h2 <;>
    norm_num [areaVector2, pathCross, Pt.cross, Pt.add, zcross, vsub, starNodes, col]

theorem star_corners (k : ZMod 6) : cornersFrom1 6 (fun j => (k + j).val) = [(k.val + 1) % 6, (k.val + 2) % 6, (k.val + 3) % 6, (k.val + 4) % 6, (k.val + 5) % 6, k.val] := by
  revert k; decide

theorem star_sides (k : ZMod 6) : sideVec starNodes (fun j : ZMod 6 => (k + j).val) 0 = vsub (col starNodes ((k.val + 1) % 6)) (col starNodes k.val) ∧
    sideVec starNodes (fun j : ZMod 6 => (k + j).val) (0 + 1) = vsub (col starNodes ((k.val + 2) % 6)) (col starNodes ((k.val + 1) % 6)) ∧
    sideVec starNodes (fun j : ZMod 6 => (k - j).val) 0 = vsub (col starNodes ((k.val + 5) % 6)) (col starNodes k.val) ∧
    sideVec starNodes (fun j : ZMod 6 => (k - j).val) (0 + 1) = vsub (col starNodes ((k.val + 4) % 6)) (col starNodes ((k.val + 5) % 6)) := by
  fin_cases k <;> exact ⟨rfl, rfl, rfl, rfl⟩

/-- **C112, refuted in general.** The closing facet of a star-shaped waterline is run in the wrong direction: its normal is (0, 0, -1)
although its area vector points towards positive z. -/
theorem closing_direction_refuted :
    ∃ f, closingFacet starNodes starEdges [0, 1, 2, 3, 4, 5] = .ok (some f) ∧ f.normal = ⟨0, 0, -1⟩ ∧ (areaVector2 (f.vertices.map (col starNodes))).z = 48 := by
  obtain ⟨C, e, t, hCn, hCe, hp, he, H⟩ := closing_facet_aux (nodes := starNodes) star_polygon (by decide)
  have hCe' : C.edges = starEdges := by rw [hCe]; decide
  obtain ⟨v1, s1, hp1, hsame, rfl, h0⟩ := hp.startAt he
  have heven : v1 0 % 2 = 0 := by
    have := List.mem_of_getElem? h0
    rw [hCe'] at this
    have hall : ∀ e ∈ starEdges, e.1 % 2 = 0 := by decide
    exact hall _ this
  rcases hsame with ⟨k, rfl⟩ | ⟨k, rfl⟩
  · simp only [add_zero] at heven
    obtain ⟨p1, p2, -⟩ := star_points k.val (ZMod.val_lt k) heven
    obtain ⟨q1, q2, -⟩ := star_sides k
    have hz : zcross (sideVec C.nodes (fun j : ZMod 6 => (k + j).val) 0) (sideVec C.nodes (fun j : ZMod 6 => (k + j).val) (0 + 1)) ≤ -24 := by
      rw [hCn, q1, q2]; exact p2
    obtain ⟨c, hc, hf⟩ := hp1.firstCorner C h0 (le_trans (b := 24) (by norm_num) (le_abs.mpr (Or.inr (le_neg.mpr hz))))
    rw [if_pos (lt_of_le_of_lt hz (by norm_num))] at hf
    refine ⟨_, H _ _ _ hf hp1 hc, rfl, ?_⟩
    simp only
    rw [star_corners, p1]
  · simp only [sub_zero] at heven
    obtain ⟨p1, -, p3⟩ := star_points k.val (ZMod.val_lt k) heven
    obtain ⟨-, -, q3, q4⟩ := star_sides k
    have hz : zcross (sideVec C.nodes (fun j : ZMod 6 => (k - j).val) 0) (sideVec C.nodes (fun j : ZMod 6 => (k - j).val) (0 + 1)) ≥ 24 := by
      rw [hCn, q3, q4]; exact p3
    obtain ⟨c, hc, hf⟩ := hp1.firstCorner C h0 (le_trans (b := 24) (by norm_num) (le_abs.mpr (Or.inl hz)))
    rw [if_neg (not_lt.mpr (le_trans (by norm_num) hz))] at hf
    refine ⟨_, H _ _ _ hf hp1.backwards (hp1.flip hc), rfl, ?_⟩
    simp only [sub_neg_eq_add]
    rw [star_corners, p1]

/-- **C112, refuted in general.** The normal of a closing facet is vertical in the frame of the body, even when the body is
heeled: here a square waterline with one unit of slope. -/
theorem closing_normal_refuted :
    ∃ f, closingFacet [⟨0, 0, 0⟩, ⟨1, 0, 0⟩, ⟨1, 1, 1⟩, ⟨0, 1, 1⟩] squareEdges [0, 1, 2, 4] = .ok (some f) ∧ f.vertices.Perm [0, 1, 2, 3] ∧
      dot f.normal (vsub (⟨1, 1, 1⟩ : Pt ℝ) ⟨1, 0, 0⟩) = -1 := by
  obtain ⟨v', hs, hf⟩ := closing_facet_of_polygon (nodes := [⟨0, 0, 0⟩, ⟨1, 0, 0⟩, ⟨1, 1, 1⟩, ⟨0, 1, 1⟩]) square_polygon (by decide)
  refine ⟨_, hf, ?_, by norm_num [dot, vsub]⟩
  rcases hs with ⟨k, rfl⟩ | ⟨k, rfl⟩ <;> clear hf <;> revert k <;> decide

end Xdyn.Closing

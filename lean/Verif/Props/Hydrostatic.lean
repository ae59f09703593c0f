import Verif.Model.Hydrostatic
import Verif.Spec.Hydrostatic
import Verif.Props.MeshVolume
import Verif.Props.Watertight

/-
C105: Archimedes' principle for the sum of the pressures on the immersed facets.
-/

namespace Xdyn.Hull

/-! ### Sums along closed contours -/

theorem closedSides_sum {α : Type} {L : List (α × α)} (h : ClosedSides L) (g : α → α → ℝ) (hg : ∀ p q, g q p = - g p q) :
    (L.map (fun s => g s.1 s.2)).sum = 0 := by
  have h2 : (L.map (fun s => g s.1 s.2)).sum = ((L.map Prod.swap).map (fun s => g s.1 s.2)).sum := (h.map _).sum_eq
  have h3 : ∀ L : List (α × α), ((L.map Prod.swap).map (fun s => g s.1 s.2)).sum = - (L.map (fun s => g s.1 s.2)).sum := by
    intro L
    induction L with
    | nil => simp
    | cons s L ih =>
      simp only [List.map_cons, List.sum_cons, ih, Prod.fst_swap, Prod.snd_swap, hg s.1 s.2]; ring
  rw [h3] at h2
  linarith

theorem sum_filter_zero {α : Type} (L : List α) (p : α → Bool) (g : α → ℝ) (h : ∀ a ∈ L, p a = false → g a = 0) :
    ((L.filter p).map g).sum = (L.map g).sum := by
  induction L with
  | nil => rfl
  | cons a L ih =>
    have ih := ih (fun a ha => h a (List.mem_cons_of_mem _ ha))
    by_cases hp : p a
    · rw [List.filter_cons_of_pos hp]; simp [ih]
    · rw [List.filter_cons_of_neg hp, ih, List.map_cons, List.sum_cons, h a (by simp) (by simpa using hp)]; simp

/-- The sum over the sides of the triangles of the fan is the sum over the sides of the polygon. -/
theorem fan_ring (g : Pt ℝ → Pt ℝ → ℝ) (hg : ∀ p q, g q p = - g p q) (pts : List (Pt ℝ)) :
    ((fanTriangles pts).map (fun t => g t.1 t.2.1 + g t.2.1 t.2.2 + g t.2.2 t.1)).sum = ((ring pts).map (fun s => g s.1 s.2)).sum := by
  have h0 : ∀ p, g p p = 0 := fun p => by have := hg p p; linarith
  cases pts with
  | nil => rfl
  | cons p0 l =>
    have key : ∀ (l : List (Pt ℝ)) (p : Pt ℝ), (((steps (p :: l)).map (fun s => (p0, s.1, s.2))).map
        (fun t : Pt ℝ × Pt ℝ × Pt ℝ => g t.1 t.2.1 + g t.2.1 t.2.2 + g t.2.2 t.1)).sum = ((steps (p :: l ++ [p0])).map (fun s => g s.1 s.2)).sum + g p0 p := by
      intro l
      induction l with
      | nil => intro p; simp [steps, hg p0 p]
      | cons q l ih =>
        intro p
        have := ih q
        simp only [List.cons_append, steps, List.map_cons, List.sum_cons] at this ⊢
        rw [this, hg p0 q]
        ring
    cases l with
    | nil => simp [fanTriangles, ring, steps, h0]
    | cons p l =>
      have := key l p
      simp only [fanTriangles, ring, List.cons_append, steps, List.map_cons, List.sum_cons] at this ⊢
      rw [this]; ring

/-! ### Identities on a triangle -/

/-- What a side contributes to the force, and to the moment. -/
noncomputable def edgeF (O : Pt ℝ) (ζ : Pt ℝ → ℝ) (p q : Pt ℝ) : Pt ℝ := vscale ((ζ p + ζ q) / 6) (vcross (vsub p O) (vsub q O))

noncomputable def edgeM (O : Pt ℝ) (ζ : Pt ℝ → ℝ) (p q : Pt ℝ) : Pt ℝ :=
  let a := vsub p O
  let b := vsub q O
  vadd (vscale (1 / 24) (vcross (vadd (vscale (ζ p + ζ q) (vadd a b)) (vadd (vscale (ζ p) a) (vscale (ζ q) b))) (vcross a b))) (vcross O (edgeF O ζ p q))

theorem triangle_force0 (d a b c : Pt ℝ) : vscale ((dot d a + dot d b + dot d c) / 6) (cross3 a b c) =
    vadd (vscale (solidVolume ⟨0, 0, 0⟩ (a, b, c)) d)
      (vadd (vadd (vscale ((dot d a + dot d b) / 6) (vcross a b)) (vscale ((dot d b + dot d c) / 6) (vcross b c))) (vscale ((dot d c + dot d a) / 6) (vcross c a))) := by
  simp only [vscale, vadd, vcross, dot, cross3, solidVolume, Pt.mk.injEq, sub_zero]
  refine ⟨?_, ?_, ?_⟩ <;> ring

/-- `(1/24) ((Σζ)(Σr) + Σ ζ r) × N`. -/
theorem triangle_moment0 (d a b c : Pt ℝ) :
    vcross (vscale (1 / 24) (vadd (vscale (dot d a + dot d b + dot d c) (vadd (vadd a b) c)) (vadd (vadd (vscale (dot d a) a) (vscale (dot d b) b)) (vscale (dot d c) c)))) (cross3 a b c) =
    vadd (vscale (solidVolume ⟨0, 0, 0⟩ (a, b, c) / 4) (vcross (vadd (vadd a b) c) d))
      (vadd (vadd (vscale (1 / 24) (vcross (vadd (vscale (dot d a + dot d b) (vadd a b)) (vadd (vscale (dot d a) a) (vscale (dot d b) b))) (vcross a b)))
        (vscale (1 / 24) (vcross (vadd (vscale (dot d b + dot d c) (vadd b c)) (vadd (vscale (dot d b) b) (vscale (dot d c) c))) (vcross b c))))
        (vscale (1 / 24) (vcross (vadd (vscale (dot d c + dot d a) (vadd c a)) (vadd (vscale (dot d c) c) (vscale (dot d a) a))) (vcross c a)))) := by
  simp only [vscale, vadd, vcross, dot, cross3, solidVolume, Pt.mk.injEq, sub_zero]
  refine ⟨?_, ?_, ?_⟩ <;> ring


theorem vsub_depth {tz : ℝ} {d O : Pt ℝ} (hO : depthAt tz d O = 0) (p : Pt ℝ) : depthAt tz d p = dot d (vsub p O) := by
  simp only [depthAt, dot, vsub] at hO ⊢
  linear_combination hO

theorem cross3_vsub (a b c O : Pt ℝ) : cross3 (vsub a O) (vsub b O) (vsub c O) = cross3 a b c := by
  simp only [cross3, vsub, Pt.mk.injEq]
  refine ⟨?_, ?_, ?_⟩ <;> ring

theorem solidVolume_vsub (a b c O : Pt ℝ) : solidVolume ⟨0, 0, 0⟩ (vsub a O, vsub b O, vsub c O) = solidVolume O (a, b, c) := by
  simp only [solidVolume, cross3, vsub]
  ring

theorem triangle_force {tz : ℝ} {d O : Pt ℝ} (hO : depthAt tz d O = 0) (t : Tri) :
    vscale ((depthAt tz d t.1 + depthAt tz d t.2.1 + depthAt tz d t.2.2) / 6) (cross3 t.1 t.2.1 t.2.2) =
    vadd (vscale (solidVolume O t) d) (vadd (vadd (edgeF O (depthAt tz d) t.1 t.2.1) (edgeF O (depthAt tz d) t.2.1 t.2.2)) (edgeF O (depthAt tz d) t.2.2 t.1)) := by
  obtain ⟨a, b, c⟩ := t
  have h := triangle_force0 d (vsub a O) (vsub b O) (vsub c O)
  rw [cross3_vsub, solidVolume_vsub, ← vsub_depth hO, ← vsub_depth hO, ← vsub_depth hO] at h
  exact h

theorem triangle_moment {tz : ℝ} {d O : Pt ℝ} (hO : depthAt tz d O = 0) (t : Tri) :
    vscale (1 / 2) (vcross (depthMoment tz d t) (cross3 t.1 t.2.1 t.2.2)) =
    vadd (vcross (solidMoment O t) d) (vadd (vadd (edgeM O (depthAt tz d) t.1 t.2.1) (edgeM O (depthAt tz d) t.2.1 t.2.2)) (edgeM O (depthAt tz d) t.2.2 t.1)) := by
  have hF := triangle_force hO t
  obtain ⟨a, b, c⟩ := t
  have h := triangle_moment0 d (vsub a O) (vsub b O) (vsub c O)
  rw [cross3_vsub, solidVolume_vsub, ← vsub_depth hO, ← vsub_depth hO, ← vsub_depth hO] at h
  simp only [edgeM, edgeF, depthMoment, solidMoment] at hF ⊢
  generalize depthAt tz d a = za at *
  generalize depthAt tz d b = zb at *
  generalize depthAt tz d c = zc at *
  generalize solidVolume O (a, b, c) = V at *
  generalize cross3 a b c = N at *
  simp only [vscale, vadd, vcross, vsub, Pt.add, Pt.smul, Pt.mk.injEq] at hF h ⊢
  obtain ⟨f1, f2, f3⟩ := hF
  obtain ⟨h1, h2, h3⟩ := h
  refine ⟨?_, ?_, ?_⟩
  · linear_combination h1 + O.y * f3 - O.z * f2
  · linear_combination h2 + O.z * f1 - O.x * f3
  · linear_combination h3 + O.x * f2 - O.y * f1

/-! ### A facet -/

/-- The area of a triangle of the fan. -/
noncomputable def areaOf (t : Tri) : ℝ := triArea t.1 t.2.1 t.2.2

theorem cogLoop_eq (p0 : Pt ℝ) : ∀ (l : List (Pt ℝ)) (p : Pt ℝ) (s : ℝ × Pt ℝ), cogLoop p0 p l s =
    (s.1 + ((fanTriangles (p0 :: p :: l)).map areaOf).sum,
      ⟨s.2.x + ((fanTriangles (p0 :: p :: l)).map (fun t => areaOf t * ((t.1.x + t.2.1.x + t.2.2.x) / 3))).sum,
       s.2.y + ((fanTriangles (p0 :: p :: l)).map (fun t => areaOf t * ((t.1.y + t.2.1.y + t.2.2.y) / 3))).sum,
       s.2.z + ((fanTriangles (p0 :: p :: l)).map (fun t => areaOf t * ((t.1.z + t.2.1.z + t.2.2.z) / 3))).sum⟩) := by
  intro l
  induction l with
  | nil => intro p s; simp [cogLoop, fanTriangles, steps]
  | cons q l ih =>
    intro p s
    obtain ⟨S, v⟩ := s
    rw [cogLoop, ih]
    simp only [fanTriangles, steps, List.map_cons, List.sum_cons, Prod.mk.injEq, Pt.mk.injEq, vadd, vscale, areaOf]
    refine ⟨by ring, by ring, by ring, by ring⟩

theorem polyArea_fan : ∀ pts : List (Pt ℝ), polyArea pts = ((fanTriangles pts).map areaOf).sum
  | [] => rfl
  | [_] => rfl
  | p0 :: p :: l => by
    have key : ∀ (l : List (Pt ℝ)) (p : Pt ℝ), fanFrom p0 p l = ((fanTriangles (p0 :: p :: l)).map areaOf).sum := by
      intro l
      induction l with
      | nil => intro p; simp [fanFrom, fanTriangles, steps]
      | cons q l ih =>
        intro p
        rw [fanFrom, ih]
        simp [fanTriangles, steps, areaOf]
    exact key l p

theorem sum_map_mul_left {α : Type} (L : List α) (c : ℝ) (g : α → ℝ) : (L.map (fun t => c * g t)).sum = c * (L.map g).sum := by
  induction L with
  | nil => simp
  | cons a L ih => simp only [List.map_cons, List.sum_cons, ih]; ring

/-- The area times the depth of the centre of gravity is the sum on the triangles. -/
theorem area_depth (tz : ℝ) (d : Pt ℝ) (pts : List (Pt ℝ)) (h : polyArea pts ≠ 0) :
    polyArea pts * zgInNed tz d (centreOfGravity pts) =
      ((fanTriangles pts).map (fun t => areaOf t * ((depthAt tz d t.1 + depthAt tz d t.2.1 + depthAt tz d t.2.2) / 3))).sum := by
  match pts, h with
  | [], h => exact absurd rfl h
  | [_], h => exact absurd rfl h
  | p0 :: p :: l, h =>
    rw [polyArea_fan] at h ⊢
    simp only [centreOfGravity, cogLoop_eq, vscale, zgInNed, zero_add]
    generalize fanTriangles (p0 :: p :: l) = ts at h ⊢
    have e : ∀ t : Tri, areaOf t * ((depthAt tz d t.1 + depthAt tz d t.2.1 + depthAt tz d t.2.2) / 3) =
        tz * areaOf t + (d.x * (areaOf t * ((t.1.x + t.2.1.x + t.2.2.x) / 3)) + (d.y * (areaOf t * ((t.1.y + t.2.1.y + t.2.2.y) / 3)) +
          d.z * (areaOf t * ((t.1.z + t.2.1.z + t.2.2.z) / 3)))) := by
      intro t; simp only [depthAt]; ring
    rw [List.map_congr_left (fun t _ => e t), List.sum_map_add, List.sum_map_add, List.sum_map_add, sum_map_mul_left, sum_map_mul_left, sum_map_mul_left, sum_map_mul_left]
    field_simp
    ring

theorem mem_pairs_steps {α : Type} : ∀ (l : List α), ∀ s ∈ steps l, s ∈ pairs l
  | [], s, h => by simp [steps] at h
  | [_], s, h => by simp [steps] at h
  | a :: b :: l, s, h => by
    simp only [steps, List.mem_cons] at h
    rw [pairs]
    rcases h with rfl | h
    · simp
    · exact List.mem_append_right _ (mem_pairs_steps (b :: l) s h)

theorem flat_triangle {pts : List (Pt ℝ)} {n : Pt ℝ} (h : FlatFacet pts n) (t : Tri) (ht : t ∈ fanTriangles pts) :
    vscale (areaOf t) n = vscale (1 / 2) (cross3 t.1 t.2.1 t.2.2) := by
  have hn : norm3 n = 1 := by unfold norm3; rw [h.unit]; exact Real.sqrt_one
  have hc : ∃ c : ℝ, 0 ≤ c ∧ cross3 t.1 t.2.1 t.2.2 = Pt.smul c n := by
    cases pts with
    | nil => simp [fanTriangles] at ht
    | cons p0 l =>
      simp only [fanTriangles, List.mem_map] at ht
      obtain ⟨s, hs, rfl⟩ := ht
      refine h.convex (p0, s) ?_
      rw [triples]
      exact List.mem_append_left _ (List.mem_map.mpr ⟨s, mem_pairs_steps l s hs, rfl⟩)
  obtain ⟨c, hc0, hc⟩ := hc
  rw [areaOf, triArea, normal2_eq, hc, norm3_smul _ hc0, hn]
  simp only [vscale, Pt.smul, Pt.mk.injEq]
  refine ⟨?_, ?_, ?_⟩ <;> ring

theorem flat_area_nonneg (t : Tri) : 0 ≤ areaOf t := by
  unfold areaOf triArea
  have := norm3_nonneg (normal2 t.1 t.2.1 t.2.2)
  linarith

theorem sum_nonneg_zero {α : Type} (L : List α) (g : α → ℝ) (h0 : ∀ a ∈ L, 0 ≤ g a) (hs : (L.map g).sum = 0) : ∀ a ∈ L, g a = 0 := by
  induction L with
  | nil => intro a ha; simp at ha
  | cons b L ih =>
    have hb := h0 b (by simp)
    have hL : 0 ≤ (L.map g).sum := List.sum_nonneg (by
      intro x hx
      obtain ⟨a, ha, rfl⟩ := List.mem_map.mp hx
      exact h0 a (by simp [ha]))
    rw [List.map_cons, List.sum_cons] at hs
    have ih := ih (fun a ha => h0 a (by simp [ha])) (by linarith)
    intro a ha
    rcases List.mem_cons.mp ha with rfl | ha
    · linarith
    · exact ih a ha

/-- Points of a facet. -/
def ptsOf (nodes : List (Pt ℝ)) (f : Facet ℝ) : List (Pt ℝ) := f.vertices.map (col nodes)

/-- The elementary force is the sum of the pressures on the triangles of the facet. -/
theorem facet_force (application : Facet ℝ → ℝ → Pt ℝ) (rho g tz : ℝ) (d : Pt ℝ) (nodes : List (Pt ℝ)) (f : Facet ℝ)
    (h : FlatFacet (ptsOf nodes f) f.normal) (w : Pt ℝ) :
    dot w (hydroDF application rho g tz d nodes f).dF = -(rho * g) * ((fanTriangles (ptsOf nodes f)).map (fun t =>
      dot w (vscale ((depthAt tz d t.1 + depthAt tz d t.2.1 + depthAt tz d t.2.2) / 6) (cross3 t.1 t.2.1 t.2.2)))).sum := by
  have hfl := flat_triangle h
  unfold hydroDF
  change dot w (if polyArea (ptsOf nodes f) = 0 then (⟨⟨0, 0, 0⟩, ⟨0, 0, 0⟩⟩ : DF) else
    ⟨vscale (-rho * g * zgInNed tz d (centreOfGravity (ptsOf nodes f))) (vscale (polyArea (ptsOf nodes f)) f.normal), _⟩).dF = _
  generalize ptsOf nodes f = pts at h hfl ⊢
  have e : ∀ t ∈ fanTriangles pts, dot w (vscale ((depthAt tz d t.1 + depthAt tz d t.2.1 + depthAt tz d t.2.2) / 6) (cross3 t.1 t.2.1 t.2.2)) =
      dot w f.normal * (areaOf t * ((depthAt tz d t.1 + depthAt tz d t.2.1 + depthAt tz d t.2.2) / 3)) := by
    intro t ht
    have := hfl t ht
    simp only [vscale, Pt.mk.injEq] at this
    obtain ⟨h1, h2, h3⟩ := this
    simp only [dot, vscale]
    linear_combination -((depthAt tz d t.1 + depthAt tz d t.2.1 + depthAt tz d t.2.2) / 3) * (w.x * h1 + w.y * h2 + w.z * h3)
  rw [List.map_congr_left e, sum_map_mul_left]
  split_ifs with ha
  · have hz : ∀ t ∈ fanTriangles pts, areaOf t = 0 := sum_nonneg_zero _ _ (fun t _ => flat_area_nonneg t) (by rw [← polyArea_fan]; exact ha)
    have : (fanTriangles pts).map (fun t => areaOf t * ((depthAt tz d t.1 + depthAt tz d t.2.1 + depthAt tz d t.2.2) / 3)) = (fanTriangles pts).map (fun _ => (0 : ℝ)) :=
      List.map_congr_left (fun t ht => by rw [hz t ht]; ring)
    rw [this]
    simp [dot]
  · rw [← area_depth _ _ _ ha]
    simp only [dot, vscale]
    ring


/-! ### The whole hull -/

theorem pt_ext {u v : Pt ℝ} (h : ∀ w, dot w u = dot w v) : u = v := by
  have hx := h ⟨1, 0, 0⟩
  have hy := h ⟨0, 1, 0⟩
  have hz := h ⟨0, 0, 1⟩
  simp only [dot, one_mul, zero_mul, add_zero, zero_add] at hx hy hz
  cases u; cases v; simp_all

theorem surfaceForce_eq (orientation : ℝ) (G : Pt ℝ) (dF : Facet ℝ → DF) (fs : List (Facet ℝ)) (w : Pt ℝ) :
    dot w (surfaceForce orientation G dF fs).F = orientation * (fs.map (fun f => dot w (dF f).dF)).sum ∧
    dot w (surfaceForce orientation G dF fs).M = orientation * (fs.map (fun f => dot w (vcross (vsub (dF f).C G) (dF f).dF))).sum := by
  unfold surfaceForce
  have key : ∀ (fs : List (Facet ℝ)) (W : Wrench),
      dot w (fs.foldl (fun W f => addDF orientation G W (dF f)) W).F = dot w W.F + orientation * (fs.map (fun f => dot w (dF f).dF)).sum ∧
      dot w (fs.foldl (fun W f => addDF orientation G W (dF f)) W).M = dot w W.M + orientation * (fs.map (fun f => dot w (vcross (vsub (dF f).C G) (dF f).dF))).sum := by
    intro fs
    induction fs with
    | nil => intro W; simp
    | cons f fs ih =>
      intro W
      obtain ⟨h1, h2⟩ := ih (addDF orientation G W (dF f))
      simp only [List.foldl_cons, List.map_cons, List.sum_cons]
      rw [h1, h2]
      constructor
      · simp only [addDF, dot]; ring
      · simp only [addDF, dot, vcross, vsub]; ring
  have := key fs ⟨⟨0, 0, 0⟩, ⟨0, 0, 0⟩⟩
  simpa [dot] using this

theorem dot_add (w u v : Pt ℝ) : dot w (vadd u v) = dot w u + dot w v := by
  simp only [dot, vadd]; ring

theorem dot_scale (w u : Pt ℝ) (c : ℝ) : dot w (vscale c u) = c * dot w u := by
  simp only [dot, vscale]; ring

/-- The part of the list of sides that matters. -/
theorem contour_sum (nodes : List (Pt ℝ)) (fs : List (Facet ℝ)) (ζ : Pt ℝ → ℝ)
    (hc : ClosedSides ((fs.flatMap (fun f => ring ((ptsOf nodes f).map (fun p => (p, ζ p))))).filter wet))
    (g : Pt ℝ → Pt ℝ → ℝ) (hg : ∀ p q, g q p = - g p q) (h0 : ∀ p q, ζ p = 0 → ζ q = 0 → g p q = 0) :
    (fs.map (fun f => ((fanTriangles (ptsOf nodes f)).map (fun t => g t.1 t.2.1 + g t.2.1 t.2.2 + g t.2.2 t.1)).sum)).sum = 0 := by
  have h1 := closedSides_sum hc (fun A B : Vtx ℝ => g A.1 B.1) (fun A B => hg A.1 B.1)
  rw [sum_filter_zero] at h1
  · rw [← h1]
    clear h1 hc
    induction fs with
    | nil => rfl
    | cons f fs ih =>
      rw [List.map_cons, List.sum_cons, ih, List.flatMap_cons, List.map_append, List.sum_append, fan_ring g hg, ring_map, List.map_map]
      rfl
  · intro s hs hw
    obtain ⟨f, hf, hs⟩ := List.mem_flatMap.mp hs
    rw [ring_map] at hs
    obtain ⟨⟨p, q⟩, _, rfl⟩ := List.mem_map.mp hs
    simp [wet] at hw
    exact h0 p q hw.1 hw.2

theorem edgeF_swap (O : Pt ℝ) (ζ : Pt ℝ → ℝ) (p q w : Pt ℝ) : dot w (edgeF O ζ q p) = - dot w (edgeF O ζ p q) := by
  simp only [edgeF, dot, vscale, vcross, vsub]; ring

theorem edgeM_swap (O : Pt ℝ) (ζ : Pt ℝ → ℝ) (p q w : Pt ℝ) : dot w (edgeM O ζ q p) = - dot w (edgeM O ζ p q) := by
  simp only [edgeM, edgeF, dot, vscale, vcross, vsub, vadd]; ring

/-- **C105 (force).** Let the immersed facets be flat convex polygons, and suppose that together they make a surface with no hole under the (calm) free surface (see `watertight`).
Then the hydrostatic force computed by the model is the weight of the displaced water, directed upwards: `V` is the volume between the facets and
the free surface (sum of the volumes of the solids based on the facets, whose apex is a point `O` of the free surface). -/
theorem archimedes_force (orientation rho g tz : ℝ) (d G : Pt ℝ) (application : Facet ℝ → ℝ → Pt ℝ) (nodes : List (Pt ℝ)) (fs : List (Facet ℝ))
    (hf : ∀ f ∈ fs, FlatFacet (ptsOf nodes f) f.normal)
    (hc : ClosedSides ((fs.flatMap (fun f => ring ((ptsOf nodes f).map (fun p => (p, depthAt tz d p))))).filter wet))
    (O : Pt ℝ) (hO : depthAt tz d O = 0) :
    (surfaceForce orientation G (hydroDF application rho g tz d nodes) fs).F =
      Pt.smul (-(orientation * rho * g * ((fs.flatMap (fun f => fanTriangles (ptsOf nodes f))).map (solidVolume O)).sum)) d := by
  apply pt_ext
  intro w
  rw [(surfaceForce_eq _ _ _ _ w).1, List.map_congr_left (fun f h => facet_force application rho g tz d nodes f (hf f h) w), sum_map_mul_left]
  have e : ∀ t : Tri, dot w (vscale ((depthAt tz d t.1 + depthAt tz d t.2.1 + depthAt tz d t.2.2) / 6) (cross3 t.1 t.2.1 t.2.2)) =
      dot w d * solidVolume O t + (dot w (edgeF O (depthAt tz d) t.1 t.2.1) + dot w (edgeF O (depthAt tz d) t.2.1 t.2.2) + dot w (edgeF O (depthAt tz d) t.2.2 t.1)) := by
    intro t
    rw [triangle_force hO, dot_add, dot_add, dot_add, dot_scale]; ring
  have e2 : ∀ f ∈ fs, ((fanTriangles (ptsOf nodes f)).map (fun t => dot w (vscale ((depthAt tz d t.1 + depthAt tz d t.2.1 + depthAt tz d t.2.2) / 6) (cross3 t.1 t.2.1 t.2.2)))).sum =
      dot w d * ((fanTriangles (ptsOf nodes f)).map (solidVolume O)).sum + ((fanTriangles (ptsOf nodes f)).map (fun t =>
        dot w (edgeF O (depthAt tz d) t.1 t.2.1) + dot w (edgeF O (depthAt tz d) t.2.1 t.2.2) + dot w (edgeF O (depthAt tz d) t.2.2 t.1))).sum := by
    intro f _
    rw [List.map_congr_left (fun t _ => e t), List.sum_map_add, sum_map_mul_left]
  rw [List.map_congr_left e2, List.sum_map_add, sum_map_mul_left,
    contour_sum nodes fs (depthAt tz d) hc (fun p q => dot w (edgeF O (depthAt tz d) p q)) (fun p q => edgeF_swap _ _ _ _ _)
      (fun p q hp hq => by simp [edgeF, hp, hq, dot, vscale])]
  have e3 : ((fs.flatMap (fun f => fanTriangles (ptsOf nodes f))).map (solidVolume O)).sum = (fs.map (fun f => ((fanTriangles (ptsOf nodes f)).map (solidVolume O)).sum)).sum := by
    clear hf hc e2
    induction fs with
    | nil => rfl
    | cons f fs ih => simp [ih]
  rw [e3]
  simp only [dot, Pt.smul]
  ring

/-- The point of application of the elementary force on facet `f` is its centre of pressure. -/
def AtPressureCentre (tz : ℝ) (d : Pt ℝ) (pts : List (Pt ℝ)) (C : Pt ℝ) : Prop :=
  vscale (((fanTriangles pts).map (fun t => areaOf t * ((depthAt tz d t.1 + depthAt tz d t.2.1 + depthAt tz d t.2.2) / 3))).sum) C =
    ptSum ((fanTriangles pts).map (fun t => vscale (areaOf t) (depthMoment tz d t)))

theorem facet_moment (application : Facet ℝ → ℝ → Pt ℝ) (rho g tz : ℝ) (d : Pt ℝ) (nodes : List (Pt ℝ)) (f : Facet ℝ)
    (h : FlatFacet (ptsOf nodes f) f.normal) (hp : AtPressureCentre tz d (ptsOf nodes f) (application f (zgInNed tz d (centreOfGravity (ptsOf nodes f))))) (w : Pt ℝ) :
    dot w (vcross (hydroDF application rho g tz d nodes f).C (hydroDF application rho g tz d nodes f).dF) =
      -(rho * g) * ((fanTriangles (ptsOf nodes f)).map (fun t => dot w (vscale (1 / 2) (vcross (depthMoment tz d t) (cross3 t.1 t.2.1 t.2.2))))).sum := by
  have hfl := flat_triangle h
  have hdef : hydroDF application rho g tz d nodes f = (if polyArea (ptsOf nodes f) = 0 then (⟨⟨0, 0, 0⟩, ⟨0, 0, 0⟩⟩ : DF) else
    ⟨vscale (-rho * g * zgInNed tz d (centreOfGravity (ptsOf nodes f))) (vscale (polyArea (ptsOf nodes f)) f.normal),
      application f (zgInNed tz d (centreOfGravity (ptsOf nodes f)))⟩) := rfl
  rw [hdef]
  generalize ptsOf nodes f = pts at h hfl hp ⊢
  have e : ∀ t ∈ fanTriangles pts, dot w (vscale (1 / 2) (vcross (depthMoment tz d t) (cross3 t.1 t.2.1 t.2.2))) =
      dot (vcross f.normal w) (vscale (areaOf t) (depthMoment tz d t)) := by
    intro t ht
    have := hfl t ht
    simp only [vscale, Pt.mk.injEq] at this
    obtain ⟨h1, h2, h3⟩ := this
    generalize depthMoment tz d t = D
    generalize cross3 t.1 t.2.1 t.2.2 = N at *
    simp only [dot, vscale, vcross]
    linear_combination -(w.x * (D.y * h3 - D.z * h2) + w.y * (D.z * h1 - D.x * h3) + w.z * (D.x * h2 - D.y * h1))
  rw [List.map_congr_left e]
  split_ifs with ha
  · have hz : ∀ t ∈ fanTriangles pts, areaOf t = 0 := sum_nonneg_zero _ _ (fun t _ => flat_area_nonneg t) (by rw [← polyArea_fan]; exact ha)
    have : (fanTriangles pts).map (fun t => dot (vcross f.normal w) (vscale (areaOf t) (depthMoment tz d t))) = (fanTriangles pts).map (fun _ => (0 : ℝ)) :=
      List.map_congr_left (fun t ht => by rw [hz t ht]; simp [dot, vscale])
    rw [this]
    simp [dot, vcross]
  · unfold AtPressureCentre at hp
    rw [← area_depth _ _ _ ha] at hp
    have hs : ∀ (u : Pt ℝ) (L : List (Pt ℝ)), (L.map (dot u)).sum = dot u (ptSum L) := by
      intro u L
      induction L with
      | nil => simp [ptSum, dot]
      | cons a L ih => rw [List.map_cons, List.sum_cons, ih]; simp only [ptSum, dot, List.map_cons, List.sum_cons]; ring
    have := hs (vcross f.normal w) ((fanTriangles pts).map (fun t => vscale (areaOf t) (depthMoment tz d t)))
    rw [List.map_map] at this
    simp only [Function.comp_def] at this
    rw [this, ← hp]
    simp only [dot, vscale, vcross]
    ring

/-- **C105 (moment).** If moreover the elementary forces are applied at the centres of pressure of the facets, the moment about `G` is the one of the weight of
the displaced water applied at the centroid of the volume between the facets and the free surface. -/
theorem archimedes_moment (orientation rho g tz : ℝ) (d G : Pt ℝ) (application : Facet ℝ → ℝ → Pt ℝ) (nodes : List (Pt ℝ)) (fs : List (Facet ℝ))
    (hf : ∀ f ∈ fs, FlatFacet (ptsOf nodes f) f.normal)
    (hp : ∀ f ∈ fs, AtPressureCentre tz d (ptsOf nodes f) (application f (zgInNed tz d (centreOfGravity (ptsOf nodes f)))))
    (hc : ClosedSides ((fs.flatMap (fun f => ring ((ptsOf nodes f).map (fun p => (p, depthAt tz d p))))).filter wet))
    (O : Pt ℝ) (hO : depthAt tz d O = 0) (V : ℝ) (hV : V = ((fs.flatMap (fun f => fanTriangles (ptsOf nodes f))).map (solidVolume O)).sum)
    (B : Pt ℝ) (hB : Pt.smul V B = ptSum ((fs.flatMap (fun f => fanTriangles (ptsOf nodes f))).map (solidMoment O))) :
    (surfaceForce orientation G (hydroDF application rho g tz d nodes) fs).M =
      Pt.cross (vsub B G) (Pt.smul (-(orientation * rho * g * V)) d) := by
  have hF := archimedes_force orientation rho g tz d G application nodes fs hf hc O hO
  rw [← hV] at hF
  apply pt_ext
  intro w
  have hF' := fun w => (surfaceForce_eq orientation G (hydroDF application rho g tz d nodes) fs w).1
  rw [(surfaceForce_eq _ _ _ _ w).2]
  have e0 : ∀ f ∈ fs, dot w (vcross (vsub (hydroDF application rho g tz d nodes f).C G) (hydroDF application rho g tz d nodes f).dF) =
      -(rho * g) * ((fanTriangles (ptsOf nodes f)).map (fun t => dot w (vscale (1 / 2) (vcross (depthMoment tz d t) (cross3 t.1 t.2.1 t.2.2))))).sum +
      dot (vcross G w) (hydroDF application rho g tz d nodes f).dF := by
    intro f h
    rw [← facet_moment application rho g tz d nodes f (hf f h) (hp f h) w]
    simp only [dot, vcross, vsub]; ring
  rw [List.map_congr_left e0, List.sum_map_add, mul_add, ← hF' (vcross G w), hF, sum_map_mul_left]
  have e : ∀ t : Tri, dot w (vscale (1 / 2) (vcross (depthMoment tz d t) (cross3 t.1 t.2.1 t.2.2))) =
      dot (vcross d w) (solidMoment O t) + (dot w (edgeM O (depthAt tz d) t.1 t.2.1) + dot w (edgeM O (depthAt tz d) t.2.1 t.2.2) + dot w (edgeM O (depthAt tz d) t.2.2 t.1)) := by
    intro t
    rw [triangle_moment hO, dot_add, dot_add, dot_add]
    simp only [dot, vcross]; ring
  have e2 : ∀ f ∈ fs, ((fanTriangles (ptsOf nodes f)).map (fun t => dot w (vscale (1 / 2) (vcross (depthMoment tz d t) (cross3 t.1 t.2.1 t.2.2))))).sum =
      ((fanTriangles (ptsOf nodes f)).map (fun t => dot (vcross d w) (solidMoment O t))).sum + ((fanTriangles (ptsOf nodes f)).map (fun t =>
        dot w (edgeM O (depthAt tz d) t.1 t.2.1) + dot w (edgeM O (depthAt tz d) t.2.1 t.2.2) + dot w (edgeM O (depthAt tz d) t.2.2 t.1))).sum := by
    intro f _
    rw [List.map_congr_left (fun t _ => e t), List.sum_map_add]
  rw [List.map_congr_left e2, List.sum_map_add,
    contour_sum nodes fs (depthAt tz d) hc (fun p q => dot w (edgeM O (depthAt tz d) p q)) (fun p q => edgeM_swap _ _ _ _ _)
      (fun p q hp hq => by simp [edgeM, edgeF, hp, hq, dot, vscale, vcross, vadd])]
  have e3 : (fs.map (fun f => ((fanTriangles (ptsOf nodes f)).map (fun t => dot (vcross d w) (solidMoment O t))).sum)).sum =
      dot (vcross d w) (ptSum ((fs.flatMap (fun f => fanTriangles (ptsOf nodes f))).map (solidMoment O))) := by
    have hs : ∀ (u : Pt ℝ) (L : List (Pt ℝ)), (L.map (dot u)).sum = dot u (ptSum L) := by
      intro u L
      induction L with
      | nil => simp [ptSum, dot]
      | cons a L ih => rw [List.map_cons, List.sum_cons, ih]; simp only [ptSum, dot, List.map_cons, List.sum_cons]; ring
    rw [← hs, List.map_map]
    clear hf hp hc e2 e0 hF hF' hV hB
    induction fs with
    | nil => rfl
    | cons f fs ih => simp only [List.map_cons, List.sum_cons, ih, List.flatMap_cons, List.map_append, List.sum_append]; rfl
  rw [e3, ← hB]
  simp only [dot, Pt.smul, vcross, Pt.cross, vsub]
  ring


/-- Triangles lying in the free surface (those of a lid closing the hull) do not count in the volume of C105. -/
theorem lid_volume {tz : ℝ} {d O : Pt ℝ} (hd : dot d d ≠ 0) (hO : depthAt tz d O = 0) (t : Tri) (h1 : depthAt tz d t.1 = 0) (h2 : depthAt tz d t.2.1 = 0)
    (h3 : depthAt tz d t.2.2 = 0) : solidVolume O t = 0 := by
  have h := triangle_force hO t
  rw [h1, h2, h3] at h
  have h' := congrArg (dot d) h
  simp only [edgeF, h1, h2, h3, dot_scale, dot_add, add_zero, zero_div, zero_mul] at h'
  rcases mul_eq_zero.mp h'.symm with h | h
  · exact h
  · exact absurd h hd

theorem big_normal {a b c n : Pt ℝ} {l : List (Pt ℝ)} (h : unitNormal (a :: b :: c :: l) = .ok n) (hb : tinyNormal ≤ norm3 (cross3 a b c)) :
    cross3 a b c = Pt.smul (norm3 (cross3 a b c)) n ∧ n.x * n.x + n.y * n.y + n.z * n.z = 1 := by
  rw [unitNormal_three, if_neg (not_lt.mpr hb)] at h
  injection h with h
  subst h
  have hp : 0 < norm3 (cross3 a b c) := lt_of_lt_of_le (by unfold tinyNormal; norm_num) hb
  have hs := norm3_sq (cross3 a b c)
  constructor
  · simp only [Pt.smul]
    rw [mul_div_cancel₀ _ hp.ne', mul_div_cancel₀ _ hp.ne', mul_div_cancel₀ _ hp.ne']
  · dsimp only
    field_simp
    linarith

theorem convex_of_cross {N n : Pt ℝ} {c : ℝ} (hc : 0 ≤ c) (h : N = Pt.smul c n) {l : List (Pt ℝ)} (hl : ConvexAlong N l) : ConvexAlong n l := by
  intro t ht
  obtain ⟨k, hk, e⟩ := hl t ht
  refine ⟨k * c, mul_nonneg hk hc, ?_⟩
  rw [e, h]
  simp only [Pt.smul, Pt.mk.injEq]
  refine ⟨?_, ?_, ?_⟩ <;> ring

/-- **C105, from the list of triangles given by the user.** Let the user give a closed hull made of triangles with three different vertices (each side is run as many times in one direction as in
the other one), none so small that its normal is set to zero. In any position of the body (depth `tz`, down direction `d`) and in calm water, the hull is cut by the free surface, and the
hydrostatic force on the immersed facets is `ρ g V` upwards, where `V` is the volume between the immersed facets and the free surface. -/
theorem archimedes_hull (v : List (List (Pt ℝ)))
    (hv : ∀ l ∈ v, ∃ a b c : Pt ℝ, l = [a, b, c] ∧ a ≠ b ∧ b ≠ c ∧ c ≠ a ∧ tinyNormal ≤ norm3 (cross3 a b c)) (hc : ClosedSides (v.flatMap ring)) :
    ∃ m, build unitNormal v = .ok m ∧ ∀ (tz : ℝ) (d : Pt ℝ) (w : List ℝ), w.length = m.nbNodes →
      ∃ r, update m ((m.allNodes.take m.nbNodes).map (depthAt tz d)) w = .ok r ∧
        ∀ (orientation rho g : ℝ) (G : Pt ℝ) (application : Facet ℝ → ℝ → Pt ℝ) (O : Pt ℝ), depthAt tz d O = 0 →
          (surfaceForce orientation G (hydroDF application rho g tz d r.mesh.allNodes) (r.immersed.map (facetAt r.mesh))).F =
            Pt.smul (-(orientation * rho * g * (((r.immersed.map (facetAt r.mesh)).flatMap (fun f => fanTriangles (ptsOf r.mesh.allNodes f))).map (solidVolume O)).sum)) d := by
  have hn : ∀ l ∈ v, ∃ a b c : Pt ℝ, l = [a, b, c] ∧ a ≠ b ∧ b ≠ c ∧ c ≠ a ∧ ∃ n, unitNormal l = .ok n := by
    intro l hl
    obtain ⟨a, b, c, rfl, h1, h2, h3, _⟩ := hv l hl
    refine ⟨a, b, c, rfl, h1, h2, h3, ?_⟩
    rw [unitNormal_three]
    split_ifs <;> exact ⟨_, rfl⟩
  have hne : ∀ l ∈ v, l ≠ [] := by
    intro l hl
    obtain ⟨a, b, c, rfl, _⟩ := hv l hl
    simp
  obtain ⟨m, hm, htri, hnb⟩ := build_triangles unitNormal v hn
  refine ⟨m, hm, fun tz d w hw => ?_⟩
  obtain ⟨_, hverts⟩ := build_vertices unitNormal v hne m hm
  have hnodes : m.nbNodes ≤ m.allNodes.length := by
    have := htri.nodes
    omega
  have hzl : ((m.allNodes.take m.nbNodes).map (depthAt tz d)).length = m.nbNodes := by
    rw [List.length_map, List.length_take]; omega
  have himm : ∀ i < m.nbNodes, immersion ((m.allNodes.take m.nbNodes).map (depthAt tz d)) i = depthAt tz d (nodeAt m.allNodes i) := by
    intro i hi
    unfold immersion nodeAt
    rw [List.getElem?_map, List.getElem?_take_of_lt hi, List.getElem?_eq_getElem (by omega)]
    rfl
  obtain ⟨r, hr, hwt⟩ := watertight m htri _ w hzl hw (build_closed unitNormal v hne m hm hc)
  obtain ⟨r', hr', _, _, hF, _, hN, em, im, _, him, hout⟩ := update_triangles m htri _ w hzl hw
  rw [hr] at hr'
  injection hr' with hr'
  subst hr'
  refine ⟨r, hr, fun orientation rho g G application O hO => ?_⟩
  -- the facets listed in `immersed`
  have key : ∀ i ∈ r.immersed, FlatFacet (ptsOf r.mesh.allNodes (facetAt r.mesh i)) (facetAt r.mesh i).normal ∧
      vertsOf r.mesh i = (facetAt r.mesh i).vertices ∧
      ∀ u ∈ vertsOf r.mesh i, vtx r.mesh.allNodes r.rel u = (nodeAt r.mesh.allNodes u, depthAt tz d (nodeAt r.mesh.allNodes u)) := by
    intro i hi
    rw [him] at hi
    obtain ⟨f, hf, hi⟩ := List.mem_flatMap.mp hi
    rw [List.mem_range] at hf
    obtain ⟨v0, v1, v2, n, hfv, ho⟩ := hout f hf
    obtain ⟨⟨n', hn', hfn⟩, hp, hlt⟩ := hverts f (by omega)
    rw [hfv] at hfn
    injection hfn with hfn
    injection hfn with e1 e2
    subst e2
    rw [← e1] at hp hlt
    obtain ⟨a, b, c, habc, hab, hbc, hca, hbig⟩ := hv v[f] (List.getElem_mem _)
    rw [habc] at hp hn'
    simp only [List.map_cons, List.map_nil, List.cons.injEq, and_true] at hp
    obtain ⟨pa, pb, pc⟩ := hp
    obtain ⟨hcr, hunit⟩ := big_normal hn' hbig
    have hnode : ∀ u ∈ [v0, v1, v2], nodeAt r.mesh.allNodes u = nodeAt m.allNodes u := by
      intro u hu
      unfold nodeAt; rw [(hN u (hlt u hu).1).1]
    have hrel : ∀ u ∈ [v0, v1, v2], immersion r.rel u = depthAt tz d (nodeAt r.mesh.allNodes u) := by
      intro u hu
      rw [hnode u hu, ← himm u (hlt u hu).1]
      unfold immersion; rw [(hN u (hlt u hu).1).2]
    have q0 : nodeAt r.mesh.allNodes v0 = a := by rw [hnode v0 (by simp), pa]
    have q1 : nodeAt r.mesh.allNodes v1 = b := by rw [hnode v1 (by simp), pb]
    have q2 : nodeAt r.mesh.allNodes v2 = c := by rw [hnode v2 (by simp), pc]
    have tri : FlatFacet [a, b, c] n := by
      refine ⟨by simp, hunit, ?_⟩
      intro t ht
      simp only [triples, pairs, List.map_nil, List.append_nil, List.map_cons, List.nil_append, List.mem_cons, List.not_mem_nil, or_false, List.cons_append] at ht
      subst ht
      exact ⟨_, norm3_nonneg _, hcr⟩
    have hwhole : ∀ j, r.mesh.facets[j]? = some ⟨[v0, v1, v2], n⟩ → FlatFacet (ptsOf r.mesh.allNodes (facetAt r.mesh j)) (facetAt r.mesh j).normal ∧
      vertsOf r.mesh j = (facetAt r.mesh j).vertices ∧
      ∀ u ∈ vertsOf r.mesh j, vtx r.mesh.allNodes r.rel u = (nodeAt r.mesh.allNodes u, depthAt tz d (nodeAt r.mesh.allNodes u)) := by
      intro j hj
      have hfa : facetAt r.mesh j = ⟨[v0, v1, v2], n⟩ := by unfold facetAt; rw [hj]; rfl
      have hva : vertsOf r.mesh j = [v0, v1, v2] := by unfold vertsOf; rw [hj]; rfl
      rw [hfa, hva]
      refine ⟨?_, rfl, fun u hu => ?_⟩
      · have : ptsOf r.mesh.allNodes ⟨[v0, v1, v2], n⟩ = [a, b, c] := by
          unfold ptsOf
          simp only [List.map_cons, List.map_nil, col_eq, q0, q1, q2]
        rw [this]; exact tri
      · unfold vtx; rw [hrel u hu]
    rcases ho with ⟨_, _, h3⟩ | ⟨_, _, h3⟩ | ⟨_, e, ve, vi, _, _, h3, _, h5, hparts, _⟩ | ⟨_, e, _, _, h3, _, h5⟩
    · rw [h3] at hi; simp at hi
    · rw [h3] at hi
      simp only [List.mem_cons, List.not_mem_nil, or_false] at hi
      subst hi
      exact hwhole i (by rw [hF i hf, hfv])
    · rw [h3] at hi
      simp only [List.mem_cons, List.not_mem_nil, or_false] at hi
      subst hi
      have hfa : facetAt r.mesh (e + 1) = ⟨vi, n⟩ := by unfold facetAt; rw [h5]; rfl
      have hva : vertsOf r.mesh (e + 1) = vi := by unfold vertsOf; rw [h5]; rfl
      rw [hfa, hva]
      refine ⟨⟨?_, hunit, ?_⟩, rfl, fun u hu => ?_⟩
      · unfold ptsOf; rw [List.length_map]; exact hparts.sizeI
      · have := hparts.convexI
        rw [q0, q1, q2] at this
        exact convex_of_cross (norm3_nonneg _) hcr this
      · obtain ⟨ka, kb, kc, _, _, _, hk, hP, hz⟩ := hparts.inside u (by simp [hu])
        unfold vtx
        rw [hz, hrel v0 (by simp), hrel v1 (by simp), hrel v2 (by simp), hP]
        have : ka = 1 - kb - kc := by linarith
        subst this
        simp only [Prod.mk.injEq, true_and, depthAt, Pt.add, Pt.smul]
        ring
    · rw [h3] at hi
      simp only [List.mem_cons, List.not_mem_nil, or_false] at hi
      subst hi
      exact hwhole _ h5
  apply archimedes_force
  · intro f hf
    obtain ⟨i, hi, rfl⟩ := List.mem_map.mp hf
    exact (key i hi).1
  · have : r.immersed.flatMap (fun i => ring ((vertsOf r.mesh i).map (vtx r.mesh.allNodes r.rel))) =
        (r.immersed.map (facetAt r.mesh)).flatMap (fun f => ring ((ptsOf r.mesh.allNodes f).map (fun p => (p, depthAt tz d p)))) := by
      rw [List.flatMap_map]
      apply List.flatMap_congr
      intro i hi
      obtain ⟨_, h2, h3⟩ := key i hi
      congr 1
      rw [List.map_congr_left h3]
      unfold ptsOf
      rw [List.map_map, h2]
      rfl
    rw [← this]; exact hwt
  · exact hO


/-- The hypotheses of `archimedes_hull` are met by the faces of a tetrahedron. -/
example : (∀ l ∈ ([[⟨0, 0, 0⟩, ⟨0, 6, 0⟩, ⟨6, 0, 0⟩], [⟨0, 0, 0⟩, ⟨6, 0, 0⟩, ⟨0, 0, 6⟩], [⟨6, 0, 0⟩, ⟨0, 6, 0⟩, ⟨0, 0, 6⟩], [⟨0, 6, 0⟩, ⟨0, 0, 0⟩, ⟨0, 0, 6⟩]] : List (List (Pt ℝ))),
      ∃ a b c : Pt ℝ, l = [a, b, c] ∧ a ≠ b ∧ b ≠ c ∧ c ≠ a ∧ tinyNormal ≤ norm3 (cross3 a b c)) ∧
    ClosedSides (([[⟨0, 0, 0⟩, ⟨0, 6, 0⟩, ⟨6, 0, 0⟩], [⟨0, 0, 0⟩, ⟨6, 0, 0⟩, ⟨0, 0, 6⟩], [⟨6, 0, 0⟩, ⟨0, 6, 0⟩, ⟨0, 0, 6⟩], [⟨0, 6, 0⟩, ⟨0, 0, 0⟩, ⟨0, 0, 6⟩]] : List (List (Pt ℝ))).flatMap ring) := by
  have big : ∀ a b c : Pt ℝ, 1 ≤ (cross3 a b c).x * (cross3 a b c).x + (cross3 a b c).y * (cross3 a b c).y + (cross3 a b c).z * (cross3 a b c).z → tinyNormal ≤ norm3 (cross3 a b c) := by
    intro a b c h
    unfold norm3
    calc tinyNormal ≤ 1 := by unfold tinyNormal; norm_num
      _ = Real.sqrt 1 := Real.sqrt_one.symm
      _ ≤ _ := Real.sqrt_le_sqrt h
  constructor
  · intro l hl
    simp only [List.mem_cons, List.not_mem_nil, or_false] at hl
    rcases hl with rfl | rfl | rfl | rfl
    all_goals
      refine ⟨_, _, _, rfl, ?_, ?_, ?_, big _ _ _ ?_⟩
      · norm_num [Pt.mk.injEq]
      · norm_num [Pt.mk.injEq]
      · norm_num [Pt.mk.injEq]
      · norm_num [cross3]
  · unfold ClosedSides
    rw [List.perm_iff_count]
    intro p
    simp only [ring, steps, List.flatMap_cons, List.flatMap_nil, List.cons_append, List.nil_append, List.map_cons, List.map_nil, Prod.swap,
      List.count_cons, List.count_nil]
    omega

end Xdyn.Hull

/-
Buoyancy of the force model `hydrostatic` (C167).
-/
import Verif.Model.Buoyancy
import Verif.Props.ClosingVolume
import Verif.Props.Forces

namespace Xdyn.Closing
open Hull Forces
open Hdb (power)

/-- The triangles of the facets. -/
def facetTriangles (nodes : List (Pt ℝ)) (fs : List (Facet ℝ)) : List Tri := fs.flatMap (fun f => fanTriangles (ptsOf nodes f))

theorem comLoop_eq (P1 : Pt ℝ) : ∀ (l : List (Pt ℝ)) (P2 : Pt ℝ) (s : ℝ × Pt ℝ), comLoop P1 P2 l s =
    (s.1 + ((fanTriangles (P1 :: P2 :: l)).map vol).sum,
      ⟨s.2.x + ((fanTriangles (P1 :: P2 :: l)).map (moment Pt.x)).sum, s.2.y + ((fanTriangles (P1 :: P2 :: l)).map (moment Pt.y)).sum,
       s.2.z + ((fanTriangles (P1 :: P2 :: l)).map (moment Pt.z)).sum⟩)
  | [], P2, s => by simp [comLoop, fanTriangles, steps]
  | P3 :: l, P2, (V, c) => by
    rw [comLoop]
    simp only
    rw [comLoop_eq P1 l P3]
    simp only [fanTriangles, steps, List.map_cons, List.sum_cons, moment, vol, add_assoc]

/-- All the tetrahedra of a flat facet have volumes of the same sign. -/
theorem flat_zero {pts : List (Pt ℝ)} {n : Pt ℝ} (h : FlatFacet pts n) (h0 : ((fanTriangles pts).map vol).sum = 0) :
    ∀ t ∈ fanTriangles pts, vol t = 0 := by
  obtain ⟨p0, l, rfl⟩ : ∃ p l, pts = p :: l := by
    cases pts with
    | nil => have := h.size; simp at this
    | cons p l => exact ⟨p, l, rfl⟩
  have hv : ∀ t ∈ fanTriangles (p0 :: l), vol t = areaOf t * (dot n p0 / 3) := by
    intro t ht
    have h1 := solid_of_flat h t ht
    have h2 : t.1 = p0 := by
      simp only [fanTriangles, List.mem_map] at ht
      obtain ⟨s, -, rfl⟩ := ht
      rfl
    have h3 : vol t = solidVolume ⟨0, 0, 0⟩ t := by
      simp only [vol, tetraVolume, solidVolume, cross3]; ring
    rw [h3, h1, h2]; ring
  intro t ht
  rw [List.map_congr_left hv, List.sum_map_mul_right] at h0
  rw [hv t ht]
  rcases mul_eq_zero.mp h0 with h0 | h0
  · have hn : ∀ x ∈ (fanTriangles (p0 :: l)).map areaOf, (0 : ℝ) ≤ x := by
      intro x hx
      obtain ⟨t, -, rfl⟩ := List.mem_map.mp hx
      exact mul_nonneg (by norm_num) (norm3_nonneg _)
    have hle := List.single_le_sum hn (areaOf t) (List.mem_map.mpr ⟨t, ht, rfl⟩)
    have hge := hn (areaOf t) (List.mem_map.mpr ⟨t, ht, rfl⟩)
    have : areaOf t = 0 := by linarith
    rw [this]; ring
  · rw [h0]; ring

theorem facetCoM_flat {nodes : List (Pt ℝ)} {f : Facet ℝ} (h : FlatFacet (ptsOf nodes f) f.normal) : ∃ c, facetCoM (f.vertices.map (col nodes)) = .ok c ∧
    c.volume = ((fanTriangles (ptsOf nodes f)).map vol).sum ∧ c.G.x * c.volume = ((fanTriangles (ptsOf nodes f)).map (moment Pt.x)).sum ∧
    c.G.y * c.volume = ((fanTriangles (ptsOf nodes f)).map (moment Pt.y)).sum ∧ c.G.z * c.volume = ((fanTriangles (ptsOf nodes f)).map (moment Pt.z)).sum := by
  change ∃ c, facetCoM (ptsOf nodes f) = .ok c ∧ _
  generalize ptsOf nodes f = pts at h ⊢
  obtain ⟨p0, p1, l, rfl⟩ : ∃ p q l, pts = p :: q :: l := by
    have := h.size
    match pts with
    | [] => simp at this
    | [_] => simp at this
    | p :: q :: l => exact ⟨p, q, l, rfl⟩
  simp only [facetCoM, comLoop_eq, zero_add]
  by_cases h0 : ((fanTriangles (p0 :: p1 :: l)).map vol).sum = 0
  · refine ⟨⟨⟨0, 0, 0⟩, 0⟩, by simp [h0], by simp [h0], ?_⟩
    have hz := flat_zero h h0
    have hm : ∀ F : Pt ℝ → ℝ, ((fanTriangles (p0 :: p1 :: l)).map (moment F)).sum = 0 := by
      intro F
      rw [List.map_congr_left (g := fun _ => (0 : ℝ)) (fun t ht => by simp [moment, hz t ht])]
      simp
    simp [hm]
  · rw [if_pos h0]
    refine ⟨_, rfl, rfl, ?_, ?_, ?_⟩ <;> exact div_mul_cancel₀ _ h0

theorem comSum_flat {nodes : List (Pt ℝ)} : ∀ {fs : List (Facet ℝ)}, (∀ f ∈ fs, FlatFacet (ptsOf nodes f) f.normal) → ∀ s : CoM,
    comSum nodes s fs = .ok ⟨⟨s.G.x + ((facetTriangles nodes fs).map (moment Pt.x)).sum, s.G.y + ((facetTriangles nodes fs).map (moment Pt.y)).sum,
      s.G.z + ((facetTriangles nodes fs).map (moment Pt.z)).sum⟩, s.volume + ((facetTriangles nodes fs).map vol).sum⟩
  | [], _, s => by simp [comSum, facetTriangles]
  | f :: fs, h, s => by
    obtain ⟨c, hc, hv, hx, hy, hz⟩ := facetCoM_flat (h f (by simp))
    simp only [comSum, bind, Except.bind, hc]
    rw [comSum_flat (fun g hg => h g (by simp [hg]))]
    simp only [CoM.add, hx, hy, hz]
    simp only [hv, facetTriangles, List.flatMap_cons, List.map_append, List.sum_append, add_assoc]

/-! ### The origin does not matter -/

theorem solid_sum {ts : List Tri} (hc : Closed ts) (O : Pt ℝ) : (ts.map (solidVolume O)).sum = (ts.map vol).sum := by
  have e : ∀ t : Tri, solidVolume O t = vol t + ((-O.x) * (cross3 t.1 t.2.1 t.2.2).x + (-O.y) * (cross3 t.1 t.2.1 t.2.2).y + (-O.z) * (cross3 t.1 t.2.1 t.2.2).z) / 6 := by
    intro t; simp only [solidVolume, vol, tetraVolume, cross3]; ring
  rw [List.map_congr_left (fun t _ => e t), List.sum_map_add, sum_map_div, closed_area_vector hc ⟨-O.x, -O.y, -O.z⟩]
  simp

theorem solidMoment_sum (f : Pt ℝ → ℝ) (hf : ∀ p q, f (p.add q) = f p + f q) (hs : ∀ c p, f (Pt.smul c p) = c * f p)
    (hcof : ∀ T P1 P2 P3 : Pt ℝ, dot T (P1.cross P2) * f P3 + dot T (P2.cross P3) * f P1 + dot T (P3.cross P1) * f P2 = 6 * tetraVolume P1 P2 P3 * f T)
    {ts : List Tri} (hc : Closed ts) (O : Pt ℝ) : (ts.map (fun t => f (solidMoment O t))).sum = (ts.map (moment f)).sum := by
  let T : Pt ℝ := Pt.smul (-1) O
  have hT : f T = -f O := by rw [hs]; ring
  have hm := moment_trans f hf ts hc T (hcof T)
  have hv : ∀ t : Tri, vol (Hull.trans T t.1, Hull.trans T t.2.1, Hull.trans T t.2.2) = solidVolume O t := by
    intro t; simp only [vol, tetraVolume, Hull.trans, Pt.add, T, Pt.smul, solidVolume, cross3]; ring
  have e : ∀ t : Tri, f (solidMoment O t) = moment f (Hull.trans T t.1, Hull.trans T t.2.1, Hull.trans T t.2.2) + f O * solidVolume O t := by
    intro t
    rw [moment, hv]
    simp only [solidMoment, hs, hf, Hull.trans, hT]
    ring
  rw [List.map_congr_left (fun t _ => e t), List.sum_map_add, hm, List.sum_map_mul_left, solid_sum hc, hT]
  ring

/-! ### C167 -/

/-- **C167 (partial)** When the immersed facets and the closing facets which are not among them are flat and enclose a volume, and the immersed facets do not all
have the same normal up to 1e-6: the buoyancy is the weight of the displaced water, vertical, directed upwards (`R` is the rotation from NED to the body frame),
and applied at the centroid of the displaced volume: same power in every rigid motion. The volume and the centroid are computed from any origin `O`. -/
theorem buoyancy_partial (garbage : Bool) (rho g : ℝ) (nodes : List (Pt ℝ)) (imm surf : List (Facet ℝ)) (G : Fin 3 → ℝ) (R : Fin 3 → Fin 3 → ℝ)
    (hflat : ∀ f ∈ imm ++ addedFacets imm surf true, FlatFacet (ptsOf nodes f) f.normal)
    (hc : Closed (facetTriangles nodes (imm ++ addedFacets imm surf true)))
    (hn : ∃ f ∈ imm, ∃ r, imm.head? = some r ∧ dot r.normal f.normal ≤ 1 - 1 / 10 ^ 6) (O : Pt ℝ) :
    let ts := facetTriangles nodes (imm ++ addedFacets imm surf true)
    let V := (ts.map (solidVolume O)).sum
    ∃ F N, buoyancy garbage rho g nodes imm surf G R = .ok (F, N) ∧ F = mulVec3 R ![0, 0, -(rho * g * |V|)] ∧
      (V = 0 → F = (fun _ => 0) ∧ N = fun _ => 0) ∧
      ∀ B : Pt ℝ, V ≠ 0 → Pt.smul V B = ptSum (ts.map (solidMoment O)) → ∀ vG omega : Fin 3 → ℝ,
        power F N vG omega = power F (fun _ => 0) (fun i => vG i + Hdb.cross omega (fun j => ![B.x, B.y, B.z] j - G j) i) omega := by
  intro ts V
  obtain ⟨f, hf, r, hr, hd⟩ := hn
  obtain ⟨l, rfl⟩ : ∃ l, imm = r :: l := by
    cases imm with
    | nil => simp at hr
    | cons a l => simp only [List.head?_cons, Option.some.injEq] at hr; exact ⟨l, by rw [hr]⟩
  have hsame : samePlane r.normal (r :: l) = false := by
    unfold samePlane
    rw [List.all_eq_false]
    exact ⟨f, hf, by simpa using hd⟩
  have hV : V = (ts.map vol).sum := solid_sum hc O
  have hx := solidMoment_sum Pt.x (fun _ _ => rfl) (fun _ _ => rfl) (by intro T P1 P2 P3; simp only [dot, Pt.cross, tetraVolume]; ring) hc O
  have hy := solidMoment_sum Pt.y (fun _ _ => rfl) (fun _ _ => rfl) (by intro T P1 P2 P3; simp only [dot, Pt.cross, tetraVolume]; ring) hc O
  have hz := solidMoment_sum Pt.z (fun _ _ => rfl) (fun _ _ => rfl) (by intro T P1 P2 P3; simp only [dot, Pt.cross, tetraVolume]; ring) hc O
  have hcom : ∃ C : CoM, centerOfMass nodes ((r :: l) ++ addedFacets (r :: l) surf true) = .ok C ∧ C.volume = |V| ∧
      ∀ B : Pt ℝ, V ≠ 0 → Pt.smul V B = ptSum (ts.map (solidMoment O)) → C.G = B := by
    unfold centerOfMass
    rw [comSum_flat hflat]
    simp only [bind, Except.bind, pure, Except.pure, zero_add]
    by_cases h0 : V = 0
    · have h0' := h0
      rw [hV] at h0'
      rw [if_neg (not_not.mpr h0')]
      exact ⟨_, rfl, by rw [hV], fun B h => absurd h0 h⟩
    · have h0' := h0
      rw [hV] at h0'
      rw [if_pos h0']
      refine ⟨_, rfl, by rw [hV], fun B _ hB => ?_⟩
      rw [ptSum, Pt.smul, Pt.mk.injEq] at hB
      simp only [List.map_map, Function.comp_def] at hB
      obtain ⟨b1, b2, b3⟩ := hB
      rw [hx] at b1
      rw [hy] at b2
      rw [hz] at b3
      obtain ⟨Bx, By, Bz⟩ := B
      rw [← b1, ← b2, ← b3, hV]
      simp only [Pt.mk.injEq]
      refine ⟨?_, ?_, ?_⟩ <;> exact mul_div_cancel_left₀ _ h0'
  obtain ⟨C, hC, hCV, hCB⟩ := hcom
  have hb : buoyancy garbage rho g nodes (r :: l) surf G R = .ok (hydrostatic rho g |V| false ![C.G.x, C.G.y, C.G.z] G R) := by
    unfold buoyancy rangeCoM
    simp only [hC, hsame, hCV]
  refine ⟨_, _, hb, ?_, ?_, ?_⟩
  · simp [hydrostatic]
  · intro h0
    exact hydrostatic_zero rho g |V| false _ G R (Or.inr (by simp [h0]))
  · intro B h0 hB vG omega
    have h := hydrostatic_at_buoyancy_centre rho g |V| ![C.G.x, C.G.y, C.G.z] G vG omega R
    rw [hCB B h0 hB] at h ⊢
    have hF : (hydrostatic rho g |V| false ![B.x, B.y, B.z] G R).1 = mulVec3 R ![0, 0, -(rho * g * |V|)] := by simp [hydrostatic]
    rw [hF] at h
    simpa [hydrostatic] using h

/-- No force when the hull is out of the water, whatever the value of the flag. -/
theorem buoyancy_dry (garbage : Bool) (rho g : ℝ) (nodes : List (Pt ℝ)) (surf : List (Facet ℝ)) (G : Fin 3 → ℝ) (R : Fin 3 → Fin 3 → ℝ) :
    buoyancy garbage rho g nodes [] surf G R = .ok (fun _ => 0, fun _ => 0) := by
  have h := hydrostatic_zero rho g 0 garbage ![0, 0, 0] G R (Or.inr rfl)
  unfold buoyancy rangeCoM
  simp only
  exact congrArg Except.ok (Prod.ext h.1 h.2)

/-! ### A very flat hull -/

theorem flat_tri {nodes : List (Pt ℝ)} {a b c : Nat} {n : Pt ℝ} (hn : n.x * n.x + n.y * n.y + n.z * n.z = 1)
    (hk : ∃ k : ℝ, 0 ≤ k ∧ cross3 (col nodes a) (col nodes b) (col nodes c) = Pt.smul k n) : FlatFacet (ptsOf nodes ⟨[a, b, c], n⟩) n := by
  refine ⟨by simp [ptsOf], hn, ?_⟩
  intro t ht
  simp only [ptsOf, List.map_cons, List.map_nil, triples, pairs, List.append_nil, List.mem_cons, List.not_mem_nil, or_false] at ht
  subst ht
  exact hk

theorem not_has {f : Facet ℝ} {v : Nat} {range : List (Facet ℝ)} (hv : v ∈ f.vertices) (h : ∀ g ∈ range, 1 / 10 ^ 8 < norm3 (vsub f.normal g.normal) ∨ v ∉ g.vertices) :
    hasFacet f range = false := by
  unfold hasFacet
  rw [if_neg (List.ne_nil_of_mem hv), List.all_eq_false]
  refine ⟨v, hv, ?_⟩
  rw [Bool.not_eq_true, List.any_eq_false]
  intro g hg
  rcases h g hg with h | h
  · rw [if_pos h]; simp
  · split <;> simp [h]

/-- A pyramid upside down: the tip is at the depth `d`, the base is a square of side `2 * w` on the surface; the normals of the faces have the components `p` (horizontal)
and `q` (vertical). -/
noncomputable def pyrNodes (d w : ℝ) : List (Pt ℝ) := [⟨0, 0, d⟩, ⟨w, w, 0⟩, ⟨-w, w, 0⟩, ⟨-w, -w, 0⟩, ⟨w, -w, 0⟩]
noncomputable def pyrFaces (p q : ℝ) : List (Facet ℝ) := [⟨[0, 4, 1], ⟨p, 0, q⟩⟩, ⟨[0, 1, 2], ⟨0, p, q⟩⟩, ⟨[0, 2, 3], ⟨-p, 0, q⟩⟩, ⟨[0, 3, 4], ⟨0, -p, q⟩⟩]
noncomputable def pyrLid : List (Facet ℝ) := [⟨[1, 4, 3], ⟨0, 0, -1⟩⟩, ⟨[1, 3, 2], ⟨0, 0, -1⟩⟩]

theorem pyr_added (p q : ℝ) (hq : 0 < q) : addedFacets (pyrFaces p q) pyrLid true = pyrLid := by
  have hz : ∀ f ∈ pyrLid, ∀ g ∈ pyrFaces p q, 1 / 10 ^ 8 < norm3 (vsub f.normal g.normal) := by
    intro f hf g hg
    refine lt_of_lt_of_le ?_ (abs_z_le _)
    have h1 : f.normal.z = -1 := by
      simp only [pyrLid, List.mem_cons, List.not_mem_nil, or_false] at hf
      rcases hf with rfl | rfl <;> rfl
    have h2 : g.normal.z = q := by
      simp only [pyrFaces, List.mem_cons, List.not_mem_nil, or_false] at hg
      rcases hg with rfl | rfl | rfl | rfl <;> rfl
    simp only [vsub, h1, h2]
    rw [abs_of_neg (by linarith)]
    norm_num
    linarith
  unfold addedFacets
  simp only [if_true, List.map_id', List.filter_eq_self]
  intro f hf
  have hv : f.vertices ≠ [] := by
    simp only [pyrLid, List.mem_cons, List.not_mem_nil, or_false] at hf
    rcases hf with rfl | rfl <;> simp
  rw [not_has (v := f.vertices.head hv) (List.head_mem hv) (fun g hg => Or.inl (hz f hf g hg))]
  rfl

theorem pyr_triangles (d w p q : ℝ) : facetTriangles (pyrNodes d w) (pyrFaces p q ++ pyrLid) =
      [(⟨0, 0, d⟩, ⟨w, -w, 0⟩, ⟨w, w, 0⟩), (⟨0, 0, d⟩, ⟨w, w, 0⟩, ⟨-w, w, 0⟩), (⟨0, 0, d⟩, ⟨-w, w, 0⟩, ⟨-w, -w, 0⟩),
       (⟨0, 0, d⟩, ⟨-w, -w, 0⟩, ⟨w, -w, 0⟩), (⟨w, w, 0⟩, ⟨w, -w, 0⟩, ⟨-w, -w, 0⟩), (⟨w, w, 0⟩, ⟨-w, -w, 0⟩, ⟨-w, w, 0⟩)] := by
  simp [facetTriangles, pyrFaces, pyrLid, pyrNodes, ptsOf, fanTriangles, steps, col]

theorem pyr_flat (d w p q : ℝ) (hq : 0 < q) (h1 : p * p + q * q = 1) (h2 : d * q = w * p) :
    ∀ f ∈ pyrFaces p q ++ pyrLid, FlatFacet (ptsOf (pyrNodes d w) f) f.normal := by
  have hk : 0 ≤ 2 * w * w / q := div_nonneg (by nlinarith [mul_self_nonneg w]) hq.le
  have e1 : 2 * w * w / q * p = 2 * w * d := by field_simp; linear_combination (-w) * h2
  have e2 : 2 * w * w / q * q = 2 * w * w := by field_simp
  intro f hf
  simp only [pyrFaces, pyrLid, List.cons_append, List.nil_append, List.mem_cons, List.not_mem_nil, or_false] at hf
  rcases hf with rfl | rfl | rfl | rfl | rfl | rfl
  · exact flat_tri (by linarith) ⟨_, hk, by simp [cross3, col, Pt.smul, pyrNodes, e1, e2]; ring_nf; simp⟩
  · exact flat_tri (by linarith) ⟨_, hk, by simp [cross3, col, Pt.smul, pyrNodes, e1, e2]; ring_nf; simp⟩
  · exact flat_tri (by linarith) ⟨_, hk, by simp [cross3, col, Pt.smul, pyrNodes, e1, e2]; ring_nf; simp⟩
  · exact flat_tri (by linarith) ⟨_, hk, by simp [cross3, col, Pt.smul, pyrNodes, e1, e2]; ring_nf; simp⟩
  · exact flat_tri (by norm_num) ⟨4 * w * w, by nlinarith [mul_self_nonneg w], by simp [cross3, col, Pt.smul, pyrNodes]; ring⟩
  · exact flat_tri (by norm_num) ⟨4 * w * w, by nlinarith [mul_self_nonneg w], by simp [cross3, col, Pt.smul, pyrNodes]; ring⟩

theorem pyr_closed (d w p q : ℝ) : Closed (facetTriangles (pyrNodes d w) (pyrFaces p q ++ pyrLid)) := by
  rw [pyr_triangles]
  generalize (⟨0, 0, d⟩ : Pt ℝ) = A
  generalize (⟨w, -w, 0⟩ : Pt ℝ) = B4
  generalize (⟨w, w, 0⟩ : Pt ℝ) = B1
  generalize (⟨-w, w, 0⟩ : Pt ℝ) = B2
  generalize (⟨-w, -w, 0⟩ : Pt ℝ) = B3
  unfold Closed
  rw [List.perm_iff_count]
  intro p
  simp only [sidesOf, List.flatMap_cons, List.flatMap_nil, List.cons_append, List.nil_append, List.map_cons, List.map_nil, Prod.swap, List.count_cons, List.count_nil]
  ring

theorem pyr_volume (d w p q : ℝ) : ((facetTriangles (pyrNodes d w) (pyrFaces p q ++ pyrLid)).map (solidVolume ⟨0, 0, 0⟩)).sum = 4 * w * w * d / 3 := by
  rw [pyr_triangles]
  simp only [List.map_cons, List.map_nil, List.sum_cons, List.sum_nil, solidVolume, cross3]
  ring

/-- The hypotheses of `buoyancy_partial` are met by the pyramid of depth 4 m and of side 6 m: it displaces 48 cubic metres. -/
example (garbage : Bool) (rho g : ℝ) (G : Fin 3 → ℝ) (R : Fin 3 → Fin 3 → ℝ) :
    ∃ F N, buoyancy garbage rho g (pyrNodes 4 3) (pyrFaces (4 / 5) (3 / 5)) pyrLid G R = .ok (F, N) ∧ F = mulVec3 R ![0, 0, -(rho * g * 48)] := by
  have ha := pyr_added (4 / 5) (3 / 5) (by norm_num)
  obtain ⟨F, N, h1, h2, -⟩ := buoyancy_partial garbage rho g (pyrNodes 4 3) (pyrFaces (4 / 5) (3 / 5)) pyrLid G R
    (by rw [ha]; exact pyr_flat _ _ _ _ (by norm_num) (by norm_num) (by norm_num)) (by rw [ha]; exact pyr_closed _ _ _ _)
    ⟨⟨[0, 1, 2], ⟨0, 4 / 5, 3 / 5⟩⟩, by simp [pyrFaces], ⟨[0, 4, 1], ⟨4 / 5, 0, 3 / 5⟩⟩, rfl, by norm_num [dot]⟩ ⟨0, 0, 0⟩
  refine ⟨F, N, h1, ?_⟩
  rw [h2, ha, pyr_volume]
  norm_num

/-- **C167 (refutation)** The pyramid of depth 1 m and of side 4 km displaces more than five million cubic metres of water, the surface is closed and made of flat
facets, but its normals are the same up to 1e-6: there is no buoyancy. -/
theorem buoyancy_refuted : ∃ (nodes : List (Pt ℝ)) (imm surf : List (Facet ℝ)),
    (∀ f ∈ imm ++ addedFacets imm surf true, FlatFacet (ptsOf nodes f) f.normal) ∧ Closed (facetTriangles nodes (imm ++ addedFacets imm surf true)) ∧
    5000000 < |((facetTriangles nodes (imm ++ addedFacets imm surf true)).map (solidVolume ⟨0, 0, 0⟩)).sum| ∧
    ∀ (garbage : Bool) (rho g : ℝ) (G : Fin 3 → ℝ) (R : Fin 3 → Fin 3 → ℝ), buoyancy garbage rho g nodes imm surf G R = .ok (fun _ => 0, fun _ => 0) := by
  have ha := pyr_added (8000 / 16000001) (15999999 / 16000001) (by norm_num)
  have hflat := pyr_flat 1 (15999999 / 8000) (8000 / 16000001) (15999999 / 16000001) (by norm_num) (by norm_num) (by norm_num)
  refine ⟨pyrNodes 1 (15999999 / 8000), pyrFaces (8000 / 16000001) (15999999 / 16000001), pyrLid, ?_, ?_, ?_, ?_⟩
  · rw [ha]; exact hflat
  · rw [ha]; exact pyr_closed _ _ _ _
  · rw [ha, pyr_volume]
    refine lt_of_lt_of_le ?_ (le_abs_self _)
    norm_num
  · intro garbage rho g G R
    have hs : samePlane ⟨8000 / 16000001, 0, 15999999 / 16000001⟩ (pyrFaces (8000 / 16000001) (15999999 / 16000001)) = true := by
      simp only [samePlane, pyrFaces, List.all_cons, List.all_nil, dot]
      norm_num
    have hb : ∃ c : CoM, buoyancy garbage rho g (pyrNodes 1 (15999999 / 8000)) (pyrFaces (8000 / 16000001) (15999999 / 16000001)) pyrLid G R =
        .ok (hydrostatic rho g c.volume true ![c.G.x, c.G.y, c.G.z] G R) := by
      unfold buoyancy rangeCoM
      have he : pyrFaces (8000 / 16000001) (15999999 / 16000001) = ⟨[0, 4, 1], ⟨8000 / 16000001, 0, 15999999 / 16000001⟩⟩ :: (pyrFaces (8000 / 16000001) (15999999 / 16000001)).tail := rfl
      rw [he]
      simp only
      rw [← he, ha, hs]
      unfold centerOfMass
      rw [comSum_flat hflat]
      simp only [bind, Except.bind, pure, Except.pure]
      exact ⟨_, rfl⟩
    obtain ⟨c, hc⟩ := hb
    have h := hydrostatic_zero rho g c.volume true ![c.G.x, c.G.y, c.G.z] G R (Or.inl rfl)
    rw [hc]
    exact congrArg Except.ok (Prod.ext h.1 h.2)

end Xdyn.Closing

import Verif.Props.SeaState

/-
The non-linear Froude-Krylov force: C136.
-/

namespace Xdyn.Sea

open Waves Hull Waves.Spec

/-! ### Specification -/

/-- Mean of the elevations at the vertices of a facet. -/
noncomputable def meanElevation (wave : List ℝ) (f : Facet ℝ) : ℝ := (f.vertices.map (fn wave)).sum / (f.vertices.length : ℝ)

/-- Area and centre of a facet. -/
noncomputable def areaF (nodes : List (Pt ℝ)) (f : Facet ℝ) : ℝ := polyArea (f.vertices.map (col nodes))
noncomputable def centreF (nodes : List (Pt ℝ)) (f : Facet ℝ) : Pt ℝ := centreOfGravity (f.vertices.map (col nodes))

/-- Dynamic pressure of the waves at the centre of a facet (`T` gives NED coordinates). -/
noncomputable def facetPressure (models : List Flat) (rho g t : ℝ) (T : Pt ℝ → Pt ℝ) (nodes : List (Pt ℝ)) (wave : List ℝ) (f : Facet ℝ) : ℝ :=
  (models.map (fun m => airyPressure m rho g (T (centreF nodes f)).x (T (centreF nodes f)).y (T (centreF nodes f)).z (meanElevation wave f) t)).sum

/-- The facets given to the model: the vertices have an elevation, the areas are not zero. -/
def GoodFacets (nodes : List (Pt ℝ)) (wave : List ℝ) (fs : List (Facet ℝ)) : Prop :=
  ∀ f ∈ fs, f.vertices ≠ [] ∧ (∀ v ∈ f.vertices, v < wave.length) ∧ areaF nodes f ≠ 0

/-! ### The elementary forces -/

theorem foldlM_getAt (wave : List ℝ) : ∀ (vs : List Nat) (e : ℝ), (∀ v ∈ vs, v < wave.length) →
    vs.foldlM (fun e v => do
      let w ← getAt wave v
      return e + w) e = (.ok (e + (vs.map (fn wave)).sum) : Except Err ℝ)
  | [], e, _ => by simp [pure, Except.pure]
  | v :: vs, e, h => by
    have ih := foldlM_getAt wave vs (e + fn wave v) (fun v hv => h v (by simp [hv]))
    simp only [List.foldlM_cons, getAt_of_lt (h v (by simp)), bind, Except.bind, pure, Except.pure, ← fn_of_lt (h v (by simp)), List.map_cons, List.sum_cons] at ih ⊢
    rw [ih, add_assoc]

theorem facetEta_ok (wave : List ℝ) (f : Facet ℝ) (h0 : f.vertices ≠ []) (h : ∀ v ∈ f.vertices, v < wave.length) : facetEta wave f = .ok (meanElevation wave f) := by
  unfold facetEta
  rw [foldlM_getAt wave _ _ h]
  simp only [bind, Except.bind, pure, Except.pure, zero_add]
  rw [if_pos (by simpa using h0)]
  rfl

theorem facetCentre_ok (nodes : List (Pt ℝ)) (f : Facet ℝ) (h : areaF nodes f ≠ 0) : facetCentre nodes f = .ok (centreF nodes f) := by
  unfold facetCentre
  rw [if_neg (show ¬ polyArea (f.vertices.map (col nodes)) = 0 from h)]; rfl

/-- The wave pressure of a sea at the centre of a facet. -/
noncomputable def seaPressure (s : Sea) (rho g t : ℝ) (T : Pt ℝ → Pt ℝ) (nodes : List (Pt ℝ)) (wave : List ℝ) (f : Facet ℝ) : ℝ :=
  match s with
  | .constant _ => 0
  | .waves models => facetPressure models rho g t T nodes wave f

theorem fkPressures_ok (s : Sea) (hs : GoodSea s) (k : Frames) (frame : String) (T : Pt ℝ → Pt ℝ) (hT : InNed k frame T) (rho g t : ℝ) (nodes : List (Pt ℝ)) (wave : List ℝ)
    (fs : List (Facet ℝ)) (h : GoodFacets nodes wave fs) :
    fkPressures s k frame rho g t nodes wave fs = .ok (fs.map (seaPressure s rho g t T nodes wave)) := by
  unfold fkPressures
  rw [mapM_ok fs (g := meanElevation wave) (fun f hf => facetEta_ok wave f (h f hf).1 (h f hf).2.1),
    mapM_ok fs (g := centreF nodes) (fun f hf => facetCentre_ok nodes f (h f hf).2.2)]
  simp only [bind, Except.bind]
  unfold Sea.getDynamicPressure
  rw [if_neg (by simp), toNed_ok hT]
  simp only [bind, Except.bind]
  cases s with
  | constant z =>
    have e : seaPressure (.constant z) rho g t T nodes wave = fun _ => 0 := by funext f; rfl
    simp only [Sea.pressure, List.length_map, e, List.map_const']
  | waves models =>
    have hsz : SameSizes (((fs.map (centreF nodes)).map T).map Pt.x) (((fs.map (centreF nodes)).map T).map Pt.y) (((fs.map (centreF nodes)).map T).map Pt.z)
        (fs.map (meanElevation wave)) := by simp [SameSizes]
    have := pressure_superposition models hs rho g _ _ _ _ hsz t
    unfold Sea.checkPressure at this
    rw [if_neg (by simp), if_neg (by simp), if_neg (by simp)] at this
    rw [this]
    congr 1
    apply List.ext_getElem
    · simp
    · intro i h1 h2
      have hi : i < fs.length := by simpa using h2
      simp [fn, List.getElem?_eq_getElem hi, seaPressure, facetPressure]

/-- The elementary force of the specification: `-p A n` at the centre of the facet. -/
noncomputable def elementary (s : Sea) (rho g t : ℝ) (T : Pt ℝ → Pt ℝ) (nodes : List (Pt ℝ)) (wave : List ℝ) (f : Facet ℝ) : DF :=
  ⟨vscale (-seaPressure s rho g t T nodes wave f) (vscale (areaF nodes f) f.normal), centreF nodes f⟩

theorem froudeKrylov_ok (s : Sea) (hs : GoodSea s) (k : Frames) (frame : String) (T : Pt ℝ → Pt ℝ) (hT : InNed k frame T) (rho g t orientation : ℝ) (G : Pt ℝ)
    (nodes : List (Pt ℝ)) (wave : List ℝ) (fs : List (Facet ℝ)) (h : GoodFacets nodes wave fs) :
    froudeKrylov s k frame rho g t orientation G nodes wave fs = .ok (surfaceForce orientation G (elementary s rho g t T nodes wave) fs) := by
  unfold froudeKrylov
  rw [fkPressures_ok s hs k frame T hT rho g t nodes wave fs h]
  simp only [bind, Except.bind]
  unfold surfaceForce
  have key : ∀ (l : List (Facet ℝ)) (n : Nat) (W : Wrench), (∀ i (hi : i < l.length), fs[n + i]? = some l[i]) → (∀ f ∈ l, areaF nodes f ≠ 0) →
      (l.zipIdx n).foldlM (fun W p => do
        let d ← fkDF (fs.map (seaPressure s rho g t T nodes wave)) nodes p.1 p.2
        return addDF orientation G W d) W = (.ok (l.foldl (fun W f => addDF orientation G W (elementary s rho g t T nodes wave f)) W) : Except Err Wrench) := by
    intro l
    induction l with
    | nil => intro n W _ _; simp [pure, Except.pure]
    | cons f l ih =>
      intro n W hl ha
      have h0 := hl 0 (by simp)
      simp only [Nat.add_zero, List.getElem_cons_zero] at h0
      have hd : fkDF (fs.map (seaPressure s rho g t T nodes wave)) nodes f n = .ok (elementary s rho g t T nodes wave f) := by
        unfold fkDF
        have : getAt (fs.map (seaPressure s rho g t T nodes wave)) n = .ok (seaPressure s rho g t T nodes wave f) := by
          simp [getAt, h0]
        rw [this, facetCentre_ok nodes f (ha f (by simp))]
        rfl
      have := ih (n + 1) (addDF orientation G W (elementary s rho g t T nodes wave f)) (fun i hi => by
        have := hl (i + 1) (by simpa using hi)
        rw [show n + 1 + i = n + (i + 1) by omega, this]; simp) (fun f hf => ha f (by simp [hf]))
      simp only [List.zipIdx_cons, List.foldlM_cons, hd, bind, Except.bind, pure, Except.pure, List.foldl_cons] at this ⊢
      rw [this]
  have := key fs 0 ⟨⟨0, 0, 0⟩, ⟨0, 0, 0⟩⟩ (fun i hi => by simp [List.getElem?_eq_getElem hi]) (fun f hf => (h f hf).2.2)
  simp only [bind, Except.bind] at this
  rw [this]

/-! ### C136 -/

/-- C136: the Froude-Krylov force is the sum, on the immersed facets, of minus the dynamic pressure of the waves at the centre of the facet times its area and its
normal; its moment at `G` is the sum of the moments of these forces applied at the centres. -/
theorem froude_krylov (s : Sea) (hs : GoodSea s) (k : Frames) (frame : String) (T : Pt ℝ → Pt ℝ) (hT : InNed k frame T) (rho g t orientation : ℝ) (G : Pt ℝ)
    (nodes : List (Pt ℝ)) (wave : List ℝ) (fs : List (Facet ℝ)) (h : GoodFacets nodes wave fs) :
    ∃ W, froudeKrylov s k frame rho g t orientation G nodes wave fs = .ok W ∧ ∀ w : Pt ℝ,
      dot w W.F = orientation * (fs.map (fun f => -seaPressure s rho g t T nodes wave f * areaF nodes f * dot w f.normal)).sum ∧
      dot w W.M = orientation * (fs.map (fun f => -seaPressure s rho g t T nodes wave f * areaF nodes f * dot w (vcross (vsub (centreF nodes f) G) f.normal))).sum := by
  refine ⟨_, froudeKrylov_ok s hs k frame T hT rho g t orientation G nodes wave fs h, fun w => ?_⟩
  obtain ⟨h1, h2⟩ := surfaceForce_eq orientation G (elementary s rho g t T nodes wave) fs w
  rw [h1, h2]
  constructor
  · congr 3
    funext f
    simp only [elementary, dot, vscale]; ring
  · congr 3
    funext f
    simp only [elementary, dot, vscale, vcross, vsub]; ring

/-- C136: no force without waves, whatever the level of the water. -/
theorem froude_krylov_still_water (c : ℝ) (k : Frames) (frame : String) (T : Pt ℝ → Pt ℝ) (hT : InNed k frame T) (rho g t orientation : ℝ) (G : Pt ℝ)
    (nodes : List (Pt ℝ)) (wave : List ℝ) (fs : List (Facet ℝ)) (h : GoodFacets nodes wave fs) :
    froudeKrylov (.constant c) k frame rho g t orientation G nodes wave fs = .ok ⟨⟨0, 0, 0⟩, ⟨0, 0, 0⟩⟩ := by
  obtain ⟨W, h1, h2⟩ := froude_krylov (.constant c) trivial k frame T hT rho g t orientation G nodes wave fs h
  rw [h1]
  have hF : W.F = ⟨0, 0, 0⟩ := pt_ext (fun w => by rw [(h2 w).1]; simp [seaPressure, dot])
  have hM : W.M = ⟨0, 0, 0⟩ := pt_ext (fun w => by rw [(h2 w).2]; simp [seaPressure, dot])
  cases W; simp_all

/-- C136: a hull which is out of the water (no immersed facet) receives nothing. -/
theorem froude_krylov_emerged (s : Sea) (hs : GoodSea s) (k : Frames) (frame : String) (T : Pt ℝ → Pt ℝ) (hT : InNed k frame T) (rho g t orientation : ℝ) (G : Pt ℝ)
    (nodes : List (Pt ℝ)) (wave : List ℝ) : froudeKrylov s k frame rho g t orientation G nodes wave [] = .ok ⟨⟨0, 0, 0⟩, ⟨0, 0, 0⟩⟩ := by
  rw [froudeKrylov_ok s hs k frame T hT rho g t orientation G nodes wave [] (by simp [GoodFacets])]
  rfl

/-- C136: for given wave elevations on the hull, the force of two groups of wave models is the sum of the forces of each group. -/
theorem froude_krylov_superposition (a b : List Flat) (ha : ∀ f ∈ a, HasPhases f) (hb : ∀ f ∈ b, HasPhases f) (k : Frames) (frame : String) (T : Pt ℝ → Pt ℝ)
    (hT : InNed k frame T) (rho g t orientation : ℝ) (G : Pt ℝ) (nodes : List (Pt ℝ)) (wave : List ℝ) (fs : List (Facet ℝ)) (h : GoodFacets nodes wave fs) :
    ∃ W Wa Wb, froudeKrylov (.waves (a ++ b)) k frame rho g t orientation G nodes wave fs = .ok W
      ∧ froudeKrylov (.waves a) k frame rho g t orientation G nodes wave fs = .ok Wa
      ∧ froudeKrylov (.waves b) k frame rho g t orientation G nodes wave fs = .ok Wb
      ∧ W.F = vadd Wa.F Wb.F ∧ W.M = vadd Wa.M Wb.M := by
  have hab : GoodSea (.waves (a ++ b)) := by
    intro f hf
    rcases List.mem_append.mp hf with h | h
    exacts [ha f h, hb f h]
  obtain ⟨W, h1, h2⟩ := froude_krylov (.waves (a ++ b)) hab k frame T hT rho g t orientation G nodes wave fs h
  obtain ⟨Wa, a1, a2⟩ := froude_krylov (.waves a) ha k frame T hT rho g t orientation G nodes wave fs h
  obtain ⟨Wb, b1, b2⟩ := froude_krylov (.waves b) hb k frame T hT rho g t orientation G nodes wave fs h
  refine ⟨W, Wa, Wb, h1, a1, b1, pt_ext (fun w => ?_), pt_ext (fun w => ?_)⟩
  · rw [dot_add, (h2 w).1, (a2 w).1, (b2 w).1, ← mul_add, ← List.sum_map_add]
    congr 3
    funext f
    simp only [seaPressure, facetPressure, List.map_append, List.sum_append]; ring
  · rw [dot_add, (h2 w).2, (a2 w).2, (b2 w).2, ← mul_add, ← List.sum_map_add]
    congr 3
    funext f
    simp only [seaPressure, facetPressure, List.map_append, List.sum_append]; ring

theorem abs_list_sum_le {α : Type} (l : List α) (F B : α → ℝ) (h : ∀ a ∈ l, |F a| ≤ B a) : |(l.map F).sum| ≤ (l.map B).sum := by
  induction l with
  | nil => simp
  | cons a l ih =>
    simp only [List.map_cons, List.sum_cons]
    exact (abs_add_le _ _).trans (add_le_add (h a (by simp)) (ih (fun b hb => h b (by simp [hb]))))

/-- C136: the force in any direction is at most `ρ g (Σ a) A` times the projected area of the immersed facets, when the attenuation is at most `A`. -/
theorem froude_krylov_bound (models : List Flat) (hp : ∀ f ∈ models, HasPhases f) (k : Frames) (frame : String) (T : Pt ℝ → Pt ℝ) (hT : InNed k frame T)
    (rho g t orientation : ℝ) (hrho : 0 ≤ rho) (hg : 0 ≤ g) (ho : |orientation| = 1) (G : Pt ℝ) (nodes : List (Pt ℝ)) (wave : List ℝ) (fs : List (Facet ℝ))
    (h : GoodFacets nodes wave fs) (A : ℝ) (hA0 : 0 ≤ A)
    (hA : ∀ f ∈ fs, ∀ m ∈ models, ∀ c ∈ m.comps, |m.pdyn c.k (T (centreF nodes f)).z (meanElevation wave f)| ≤ A) :
    ∃ W, froudeKrylov (.waves models) k frame rho g t orientation G nodes wave fs = .ok W ∧ ∀ w : Pt ℝ,
      |dot w W.F| ≤ (fs.map (fun f => rho * g * (models.map (fun m => (m.comps.map (fun c => |c.a|)).sum)).sum * A * |areaF nodes f * dot w f.normal|)).sum := by
  obtain ⟨W, h1, h2⟩ := froude_krylov (.waves models) hp k frame T hT rho g t orientation G nodes wave fs h
  refine ⟨W, h1, fun w => ?_⟩
  rw [(h2 w).1, abs_mul, ho, one_mul]
  apply abs_list_sum_le
  intro f hf
  rw [mul_assoc, abs_mul, abs_neg]
  apply mul_le_mul_of_nonneg_right _ (abs_nonneg _)
  simp only [seaPressure, facetPressure]
  have e : rho * g * (models.map (fun m => (m.comps.map (fun c => |c.a|)).sum)).sum * A = (models.map (fun m => rho * g * (m.comps.map (fun c => |c.a|)).sum * A)).sum := by
    clear h1 h2 hA hp
    induction models with
    | nil => simp
    | cons m ms ih => simp only [List.map_cons, List.sum_cons]; rw [← ih]; ring
  rw [e]
  apply abs_list_sum_le
  intro m hm
  obtain ⟨p, hp1, hp2⟩ := pressure_bound m (hp m hm) rho g (T (centreF nodes f)).x (T (centreF nodes f)).y (T (centreF nodes f)).z (meanElevation wave f) t hrho hg A
    (hA f hf m hm) hA0
  rw [pressureAt_airy m (hp m hm)] at hp1
  simp only [Except.ok.injEq] at hp1
  rw [hp1]
  exact hp2

/-! ### Immersed facets and the free surface -/

/-- A change of frame commutes with the centre of a triangle. -/
theorem apply_centroid (T : Transform) (a b c : Pt ℝ) :
    (T.apply ⟨(a.x + b.x + c.x) / 3, (a.y + b.y + c.y) / 3, (a.z + b.z + c.z) / 3⟩).z = ((T.apply a).z + (T.apply b).z + (T.apply c).z) / 3 := by
  simp only [Transform.apply, vadd, rotate]; ring

theorem centre_triangle (a b c : Pt ℝ) (h : polyArea [a, b, c] ≠ 0) :
    centreOfGravity [a, b, c] = ⟨(a.x + b.x + c.x) / 3, (a.y + b.y + c.y) / 3, (a.z + b.z + c.z) / 3⟩ := by
  have h' : triArea a b c ≠ 0 := by simpa [polyArea, fanFrom] using h
  simp only [centreOfGravity, cogLoop, vscale, vadd, zero_add, Pt.mk.injEq]
  refine ⟨?_, ?_, ?_⟩ <;> field_simp

/-- C136: the centre of a triangular facet all the vertices of which are under the surface is under the surface: the pressure of the waves is not cut off. -/
theorem immersed_triangle_feels_the_waves_partial (models : List Flat) (rho g t : ℝ) (k : Frames) (frame : String) (T : Pt ℝ → Pt ℝ) (hT : InNed k frame T) (nodes : List (Pt ℝ))
    (wave : List ℝ) (f : Facet ℝ) (i j l : Nat) (hf : f.vertices = [i, j, l]) (ha : areaF nodes f ≠ 0)
    (himm : ∀ v ∈ f.vertices, fn wave v ≤ (T (col nodes v)).z) :
    facetPressure models rho g t T nodes wave f = (models.map (fun m => rho * g * ((m.comps.zip m.phase).map (fun p =>
      p.1.a * m.pdyn p.1.k (T (centreF nodes f)).z (meanElevation wave f)
        * Real.sin (-(p.1.omega * t) + p.1.k * ((T (centreF nodes f)).x * p.1.cosPsi + (T (centreF nodes f)).y * p.1.sinPsi) + p.2))).sum)).sum := by
  have hz : meanElevation wave f ≤ (T (centreF nodes f)).z := by
    have h1 := himm i (by simp [hf])
    have h2 := himm j (by simp [hf])
    have h3 := himm l (by simp [hf])
    have hc : centreF nodes f = ⟨((col nodes i).x + (col nodes j).x + (col nodes l).x) / 3, ((col nodes i).y + (col nodes j).y + (col nodes l).y) / 3, ((col nodes i).z + (col nodes j).z + (col nodes l).z) / 3⟩ := by
      unfold centreF
      rw [hf]
      exact centre_triangle _ _ _ (by simpa [areaF, hf] using ha)
    have e : (T (centreF nodes f)).z = ((T (col nodes i)).z + (T (col nodes j)).z + (T (col nodes l)).z) / 3 := by
      rw [hc]
      rcases hT with ⟨_, rfl⟩ | ⟨_, T', _, rfl⟩
      · rfl
      · exact apply_centroid T' _ _ _
    rw [e]
    simp only [meanElevation, hf, List.map_cons, List.map_nil, List.sum_cons, List.sum_nil, List.length_cons, List.length_nil]
    norm_num
    linarith
  unfold facetPressure
  congr 1
  apply List.map_congr_left
  intro m _
  rw [airyPressure, if_neg (not_lt.mpr hz)]

/-- A quadrilateral facet (as the intersection of a triangle with the free surface gives), in a vertical plane. -/
def quadNodes : List (Pt ℝ) := [⟨0, 0, 0⟩, ⟨4, 0, 0⟩, ⟨3, 0, 1⟩, ⟨1, 0, 1⟩]
noncomputable def quadWave : List ℝ := [0, 0, 0.95, 0.95]
def quadFacet : Facet ℝ := ⟨[0, 1, 2, 3], ⟨0, 1, 0⟩⟩

theorem quad_area : areaF quadNodes quadFacet = 3 := by
  have h1 : triArea ⟨0, 0, 0⟩ ⟨4, 0, 0⟩ ⟨3, 0, 1⟩ = 2 := by
    simp only [triArea, normal2, norm3]
    norm_num
    rw [show (16 : ℝ) = 4 ^ 2 by norm_num, Real.sqrt_sq (by norm_num)]; norm_num
  have h2 : triArea ⟨0, 0, 0⟩ ⟨3, 0, 1⟩ ⟨1, 0, 1⟩ = 1 := by
    simp only [triArea, normal2, norm3]
    norm_num
    rw [show (4 : ℝ) = 2 ^ 2 by norm_num, Real.sqrt_sq (by norm_num)]; norm_num
  simp only [areaF, quadFacet, List.map_cons, List.map_nil]
  show fanFrom (⟨0, 0, 0⟩ : Pt ℝ) ⟨4, 0, 0⟩ [⟨3, 0, 1⟩, ⟨1, 0, 1⟩] = 3
  simp only [fanFrom, h1, h2]; norm_num

theorem quad_centre : (centreF quadNodes quadFacet).z = 4 / 9 := by
  have h1 : triArea ⟨0, 0, 0⟩ ⟨4, 0, 0⟩ ⟨3, 0, 1⟩ = 2 := by
    simp only [triArea, normal2, norm3]
    norm_num
    rw [show (16 : ℝ) = 4 ^ 2 by norm_num, Real.sqrt_sq (by norm_num)]; norm_num
  have h2 : triArea ⟨0, 0, 0⟩ ⟨3, 0, 1⟩ ⟨1, 0, 1⟩ = 1 := by
    simp only [triArea, normal2, norm3]
    norm_num
    rw [show (4 : ℝ) = 2 ^ 2 by norm_num, Real.sqrt_sq (by norm_num)]; norm_num
  show (centreOfGravity [⟨0, 0, 0⟩, ⟨4, 0, 0⟩, ⟨3, 0, 1⟩, ⟨1, 0, 1⟩]).z = 4 / 9
  simp only [centreOfGravity, cogLoop, h1, h2, vscale, vadd]; norm_num

/-- C136 (refutation for the other facets): a quadrilateral facet, none of the vertices of which is above the surface, receives no pressure at all, whatever the waves:
its centre is above the mean of the elevations of its vertices. -/
theorem immersed_quadrilateral_without_pressure :
    areaF quadNodes quadFacet ≠ 0 ∧ (∀ v ∈ quadFacet.vertices, fn quadWave v ≤ (col quadNodes v).z)
      ∧ ∀ (models : List Flat) (rho g t : ℝ), facetPressure models rho g t id quadNodes quadWave quadFacet = 0 := by
  refine ⟨by rw [quad_area]; norm_num, ?_, ?_⟩
  · intro v hv
    simp only [quadFacet, List.mem_cons, List.not_mem_nil, or_false] at hv
    rcases hv with rfl | rfl | rfl | rfl <;> simp [fn, quadWave, col, quadNodes] <;> norm_num
  · intro models rho g t
    unfold facetPressure
    have hz : (id (centreF quadNodes quadFacet)).z < meanElevation quadWave quadFacet := by
      rw [id, quad_centre]
      simp [meanElevation, quadFacet, fn, quadWave]; norm_num
    apply List.sum_eq_zero
    intro p hp
    obtain ⟨m, _, rfl⟩ := List.mem_map.mp hp
    rw [airyPressure, if_pos hz]

/-- Non-vacuity: the quadrilateral, in the NED frame, in two waves. -/
example : ∃ W, froudeKrylov (.waves [twoWaves ⟨0, 0⟩]) (fun _ => none) "NED" 1025 9.81 3 1 ⟨0, 0, 0⟩ quadNodes quadWave [quadFacet] = .ok W := by
  obtain ⟨W, h, _⟩ := froude_krylov (.waves [twoWaves ⟨0, 0⟩]) (fun f hf => by
    simp only [List.mem_cons, List.not_mem_nil, or_false] at hf; subst hf; exact twoWaves_phases _) (fun _ => none) "NED" id (.inl ⟨rfl, rfl⟩) 1025 9.81 3 1 ⟨0, 0, 0⟩
    quadNodes quadWave [quadFacet] (by
      intro f hf
      simp only [List.mem_cons, List.not_mem_nil, or_false] at hf
      subst hf
      exact ⟨by simp [quadFacet], by simp [quadFacet, quadWave], by rw [quad_area]; norm_num⟩)
  exact ⟨W, h⟩

end Xdyn.Sea

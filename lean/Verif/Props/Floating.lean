import Verif.Model.Floating
import Verif.Props.Motion
import Verif.Props.Buoyancy

/-! Property C176: a floating body in equilibrium. -/

namespace Xdyn.Sim

open Blocked Body Spec Solver
open Hull (Pt Facet Closed solidVolume solidMoment ptSum FlatFacet ptsOf)
open Closing (facetTriangles addedFacets)

/-- A body floats in equilibrium at `p` with attitude `q`: what is under water is enclosed by the
immersed facets and by the facets of the waterplane, the mass of the displaced water is the mass of the body, and the centre of the
displaced volume is on the vertical of the centre of gravity.  The volume and its centroid are calculated from any
origin `O`. -/
structure Floats (b : Multi.MBody ℝ) (rho mass : ℝ) (q : Quat ℝ) (nodes : List (Pt ℝ)) (imm surf : List (Facet ℝ)) : Prop where
  flat : ∀ f ∈ imm ++ addedFacets imm surf true, FlatFacet (ptsOf nodes f) f.normal
  closed : Closed (facetTriangles nodes (imm ++ addedFacets imm surf true))
  curved : ∃ f ∈ imm, ∃ r, imm.head? = some r ∧ Hull.dot r.normal f.normal ≤ 1 - 1 / 10 ^ 6
  balance : ∃ O B : Pt ℝ, ∃ V l : ℝ, V = ((facetTriangles nodes (imm ++ addedFacets imm surf true)).map (solidVolume O)).sum ∧
    V ≠ 0 ∧ rho * |V| = mass ∧
    Pt.smul V B = ptSum ((facetTriangles nodes (imm ++ addedFacets imm surf true)).map (solidMoment O)) ∧
    q.matrix.mulVec (fun i => ![B.x, B.y, B.z] i - b.G i) = ![0, 0, l]

theorem mulVec3_eq (R : Mat3 ℝ) (v : Vec3 ℝ) : Forces.mulVec3 R v = R.mulVec v := by
  funext i
  simp [Forces.mulVec3, Matrix.mulVec, dotProduct]

/-- The wrench of the buoyancy when the body floats. -/
theorem floats_buoyancy {b : Multi.MBody ℝ} {rho mass : ℝ} {q : Quat ℝ} (hq : Unit4 q) {nodes : List (Pt ℝ)} {imm surf : List (Facet ℝ)}
    (h : Floats b rho mass q nodes imm surf) (garbage : Bool) (g : ℝ) :
    Closing.buoyancy garbage rho g nodes imm surf b.G q.matrix.transpose =
      .ok (q.matrix.transpose.mulVec ![0, 0, -(mass * g)], 0) := by
  obtain ⟨O, B, V, l, hV, hV0, hm, hB, hd⟩ := h.balance
  obtain ⟨F, N, h1, h2, -, h4⟩ := Closing.buoyancy_partial garbage rho g nodes imm surf b.G q.matrix.transpose h.flat h.closed h.curved O
  rw [← hV] at h2 h4
  have hF : F = q.matrix.transpose.mulVec ![0, 0, -(mass * g)] := by
    rw [h2, mulVec3_eq, ← hm]; congr 3; ring
  have hR' : q.matrix.transpose * q.matrix = 1 := by
    have hq' : q.w ^ 2 + q.x ^ 2 + q.y ^ 2 + q.z ^ 2 = 1 := hq
    ext i j
    fin_cases i <;> fin_cases j <;>
      simp [Quat.matrix, Matrix.mul_apply, Fin.sum_univ_three, Matrix.transpose_apply] <;> grind
  have hdd : (fun i => ![B.x, B.y, B.z] i - b.G i) = q.matrix.transpose.mulVec ![0, 0, l] := by
    rw [← hd, Matrix.mulVec_mulVec, hR', Matrix.one_mulVec]
  have hF' : ∀ i, F i = -(mass * g) * q.matrix 2 i := fun i => by rw [hF]; exact mulVec_down _ _ _
  have hd' : ∀ i, ![B.x, B.y, B.z] i - b.G i = l * q.matrix 2 i := fun i => by
    rw [show ![B.x, B.y, B.z] i - b.G i = (fun i => ![B.x, B.y, B.z] i - b.G i) i from rfl, hdd]; exact mulVec_down _ _ _
  have hN : N = 0 := by
    funext i
    have hp := h4 B hV0 hB 0 (fun j => if j = i then 1 else 0)
    simp only [Hdb.power, hd', hF', Fin.sum_univ_three, Hdb.cross, Pi.zero_apply] at hp ⊢
    fin_cases i <;> simp at hp ⊢ <;> linarith
  rw [h1, hF, hN]

/-- **C176** A body that floats in equilibrium (weight of the displaced water equal to the weight of the
body, centre of buoyancy on the vertical of the centre of gravity), without velocity and with the force models
`gravity` and `hydrostatic`, does not move: whatever the shape of its hull, its attitude, its position, the distribution of
its mass, the method (`euler`, `rk4`), the dates and the time step, all the observed states are the initial ones. -/
theorem floating_body_stays (e : Multi.Entry ℝ) (ae : Nat → ℝ → ℝ → Bool) (hae : ∀ n a, ae n a a = true) (ae1 : ℝ → Bool)
    (he : Alone e) (M : Mat6 ℝ) (cut : Cut) (garbage : Bool) (rho g : ℝ)
    (hcor : e.body.coriolis 0 0 = 0) (hforces : e.forces = [gravityModel e.body M g, hydrostaticModel e.body cut garbage rho g])
    (hcont : e.controlled = [])
    (T : Tableau ℝ) (hT : Forward T) (s : Sim ℝ (Vec3 ℝ × Vec3 ℝ)) (tstart tend dt : ℝ) (hdt : 0 < dt)
    (hh : NotAfter ae s.hist tstart) (N : Nat) (hN : tend ≤ tstart + N * dt)
    (hfirst : ∀ i < N, tstart + (i : ℝ) * dt < tend) (fuel : Nat) (hf : N ≤ fuel)
    (p : Vec3 ℝ) (q : Quat ℝ) (hq : Unit4 q) (hs : s.state = vec13 p 0 0 q)
    (hfloat : ∀ t, ∃ nodes imm surf, cut (framesAt e.body.name p q) t = .ok (nodes, imm, surf) ∧
      Floats e.body rho (M 2 2) q nodes imm surf) :
    ∃ s' obs, quicksolve (simSystem (oneBody e ae ae1) T.stepper) fuel s tstart tend dt = some (.ok (s', obs)) ∧
      obs.map (fun o => (o.t, o.x)) =
        (List.range (N + 1)).map (fun i : Nat => (tstart + (i : ℝ) * dt, vec13 p 0 0 q)) := by
  refine body_at_rest_stays e ae hae ae1 he T hT s tstart tend dt hdt hh N hN hfirst fuel hf p q hq hs ?_
  intro h t _
  obtain ⟨nodes, imm, surf, hc, hfl⟩ := hfloat t
  have h0 : (![0, 0, 0] : Vec3 ℝ) = 0 := by funext i; fin_cases i <;> rfl
  rw [Multi.sumOfForces_iff]
  refine ⟨(![0, 0, 0], ![0, 0, 0]), [(q.matrix.transpose.mulVec ![0, 0, M 2 2 * g], ![0, 0, 0]),
    (q.matrix.transpose.mulVec ![0, 0, -(M 2 2 * g)], 0)], [], ?_, ?_, ?_, ?_⟩
  · rw [he.idx]; rfl
  · have hg : Multi.Kin.get (framesAt e.body.name p q) e.body.name "NED" =
        .ok ⟨q.matrix.transpose.mulVec (0 - ![p 0, p 1, p 2]), q.matrix.transpose⟩ := by
      rw [Multi.Kin.get, frame_of_body _ he.name]
      simp [Multi.frameOf]
    rw [hforces]
    simp only [List.mapM_cons, List.mapM_nil, Multi.valueOf, gravityModel, hydrostaticModel, hg, hc, floats_buoyancy hq hfl,
      Multi.contribution, bind, Except.bind, pure, Except.pure, ne_eq, not_true_eq_false, if_false]
  · rw [hcont]; rfl
  · rw [h0, hcor]
    have : (![0, 0, -(M 2 2 * g)] : Vec3 ℝ) = -![0, 0, M 2 2 * g] := by
      funext i; fin_cases i <;> simp
    rw [this, Matrix.mulVec_neg]
    simp
    rfl

/-! ### Example -/

/-- A pyramid of 48 tonnes floating upside down in fresh water, with its centre of gravity two metres above
the surface: its centre of buoyancy is one metre under the surface. -/
noncomputable def pyramid : Multi.MBody ℝ where
  name := "pyramid"
  idx := 0
  blocked := ⟨fun _ => none, 0, fun _ => none, fun _ => none⟩
  G := ![0, 0, -2]
  Minv := (48000 : ℝ)⁻¹ • 1
  coriolis := fun _ w => (0, w)

theorem pyramid_floats : Floats pyramid 1000 48000 ⟨1, 0, 0, 0⟩ (Closing.pyrNodes 4 3) (Closing.pyrFaces (4 / 5) (3 / 5)) Closing.pyrLid := by
  have ha := Closing.pyr_added (4 / 5) (3 / 5) (by norm_num)
  refine ⟨?_, ?_, ?_, ?_⟩
  · rw [ha]; exact Closing.pyr_flat _ _ _ _ (by norm_num) (by norm_num) (by norm_num)
  · rw [ha]; exact Closing.pyr_closed _ _ _ _
  · exact ⟨⟨[0, 1, 2], ⟨0, 4 / 5, 3 / 5⟩⟩, by simp [Closing.pyrFaces], ⟨[0, 4, 1], ⟨4 / 5, 0, 3 / 5⟩⟩, rfl, by norm_num [Hull.dot]⟩
  · refine ⟨⟨0, 0, 0⟩, ⟨0, 0, 1⟩, 48, 3, ?_, by norm_num, by norm_num, ?_, ?_⟩
    · rw [ha, Closing.pyr_volume]; norm_num
    · rw [ha, Closing.pyr_triangles]
      simp only [List.map_cons, List.map_nil, ptSum, solidMoment, solidVolume, Hull.cross3, Pt.smul, Pt.add, List.sum_cons, List.sum_nil]
      norm_num
    · funext i
      fin_cases i <;> simp [Quat.matrix, Matrix.mulVec, dotProduct, Fin.sum_univ_three, pyramid]
      norm_num

/-- The hypotheses of C176 are met. -/
example (ae1 : ℝ → Bool) (garbage : Bool) :
    let cut : Cut := fun _ _ => .ok (Closing.pyrNodes 4 3, Closing.pyrFaces (4 / 5) (3 / 5), Closing.pyrLid)
    let e : Multi.Entry ℝ := ⟨pyramid, [gravityModel pyramid ((48000 : ℝ) • 1) 9.81, hydrostaticModel pyramid cut garbage 1000 9.81], []⟩
    ∃ s' obs, quicksolve (simSystem (oneBody e (fun _ a b => decide (a = b)) ae1) rk4Method.stepper) 10
        ⟨vec13 ![1, 2, 0] 0 0 ⟨1, 0, 0, 0⟩, noHistory, fun _ => none, [], 0⟩ 0 1 0.3 = some (.ok (s', obs)) ∧
      obs.map (fun o => (o.t, o.x)) = (List.range 5).map (fun i : Nat => (0 + (i : ℝ) * 0.3, vec13 ![1, 2, 0] 0 0 ⟨1, 0, 0, 0⟩)) := by
  intro cut e
  exact floating_body_stays e _ (fun _ a => by simp) ae1 ⟨rfl, show "pyramid" ≠ "NED" by decide, fun _ => rfl⟩ ((48000 : ℝ) • 1) cut garbage 1000 9.81 rfl rfl rfl _
    rk4_forward _ 0 1 0.3 (by norm_num)
    (noHistory_notAfter _ _) 4 (by norm_num)
    (fun i hi => by
      have : (i : ℝ) ≤ 3 := by exact_mod_cast (by omega : i ≤ 3)
      linarith) 10 (by norm_num) _ _ (by norm_num [Unit4]) rfl
    (fun t => ⟨_, _, _, rfl, by simpa [Matrix.smul_apply] using pyramid_floats⟩)

end Xdyn.Sim

import Verif.Model.WaveFeed
import Verif.Lemmas.MultiBody
import Verif.Props.WaveGrid

/-
C210: the wave heights written at each output date, in the frame of the 'output' section.
-/

namespace Xdyn.Multi

open Blocked Body Sim WaveGrid

variable {K : Type} [Field K] [LinearOrder K] [IsStrictOrderedRing K]

/-! ### Specification -/

/-- The point `(a, b, 0)` of a frame whose origin is at `p` and which is turned by the quaternion `q`: `p + q (a, b, 0) q*`, in NED. -/
def carriedPoint (p : K × K × K) (q : Quat K) (a b : K) : K × K × K :=
  let w := (q.mul ⟨0, a, b, 0⟩).mul ⟨q.w, -q.x, -q.y, -q.z⟩
  (p.1 + w.x, p.2.1 + w.y, p.2.2 + w.z)

/-- The states `x` give this position and this quaternion to the body number `i`: thirteen states for each body, first the position, last the quaternion. -/
def Placed (x : List K) (i : Nat) (p : K × K × K) (q : Quat K) : Prop :=
  x[13 * i]? = some p.1 ∧ x[13 * i + 1]? = some p.2.1 ∧ x[13 * i + 2]? = some p.2.2 ∧
  x[13 * i + 9]? = some q.w ∧ x[13 * i + 10]? = some q.x ∧ x[13 * i + 11]? = some q.y ∧ x[13 * i + 12]? = some q.z

/-- The grid has the heights of the surface `eta` at the images of the points of the mesh. -/
def Heights (o : Output K) (image : K → K → K × K × K) (eta : K → K → K) (g : Grid K) : Prop :=
  g.z = (List.range (meshSize o).2).map (fun (j : Nat) => (List.range (meshSize o).1).map (fun (i : Nat) =>
    eta (image (o.xmin + (i : K) * step o.xmin o.xmax o.nx) (o.ymin + (j : K) * step o.ymin o.ymax o.ny)).1
        (image (o.xmin + (i : K) * step o.xmin o.xmax o.nx) (o.ymin + (j : K) * step o.ymin o.ymax o.ny)).2.1))

/-- The abscissae and ordinates of the grid are those of the mesh, moved by `(a, b)`. -/
def Coordinates (o : Output K) (a b : K) (g : Grid K) : Prop :=
  g.x = (List.range (meshSize o).1).map (fun (i : Nat) => a + (o.xmin + (i : K) * step o.xmin o.xmax o.nx)) ∧
  g.y = (List.range (meshSize o).2).map (fun (j : Nat) => b + (o.ymin + (j : K) * step o.ymin o.ymax o.ny))

/-- The names of the bodies are distinct, and are not those of other frames. -/
structure PlainNames (bs : List (MBody K)) : Prop where
  nodup : (bs.map MBody.name).Nodup
  notNed : ∀ b ∈ bs, b.name ≠ "NED"
  notOther : ∀ b ∈ bs, ∀ b' ∈ bs, b.name ≠ "NED(" ++ b'.name ++ ")"

/-! ### Lemmas -/

omit [LinearOrder K] [IsStrictOrderedRing K] in
theorem updateKinematics_placed {b : MBody K} {x : List K} {p : K × K × K} {q : Quat K} (h : Placed x b.idx p q) (k : Kin K) :
    updateKinematics b x k = .ok ((k.set b.name ⟨![p.1, p.2.1, p.2.2], q.matrix⟩).set ("NED(" ++ b.name ++ ")") ⟨![p.1, p.2.1, p.2.2], 1⟩) := by
  obtain ⟨h0, h1, h2, h9, h10, h11, h12⟩ := h
  rw [mul_comm] at h0 h1 h2 h9 h10 h11 h12
  simp only [updateKinematics, getOrigin, rotFromNedTo, quatOf, getUB, XIDX, YIDX, ZIDX, QRIDX, QIIDX, QJIDX, QKIDX, nbOfStatesPerBody, h0, h1, h2, h9, h10, h11, h12,
    bind, Except.bind, pure, Except.pure]

theorem ned_paren_ne (n : String) : "NED(" ++ n ++ ")" ≠ "NED" := by
  intro h
  have := congrArg String.length h
  simp only [String.length_append] at this
  have h1 : "NED(".length = 4 := by decide
  have h2 : "NED".length = 3 := by decide
  omega

theorem ned_paren_inj {a b : String} (h : "NED(" ++ a ++ ")" = "NED(" ++ b ++ ")") : a = b := by
  have := congrArg String.toList h
  simp only [String.toList_append] at this
  exact String.toList_injective (List.append_cancel_left (List.append_cancel_right this))

omit [LinearOrder K] [IsStrictOrderedRing K] in
/-- The other frames do not change. -/
theorem updateAll_other {x : List K} (n : String) : ∀ (bs : List (MBody K)) (k : Kin K), (∀ b ∈ bs, ∃ p q, Placed x b.idx p q) → (∀ b ∈ bs, b.name ≠ "NED") →
    (∀ b ∈ bs, n ≠ b.name ∧ n ≠ "NED(" ++ b.name ++ ")") → ∃ k', updateAll bs x k = .ok k' ∧ frameOf k' n = frameOf k n
  | [], k, _, _, _ => ⟨k, rfl, rfl⟩
  | b :: bs, k, h, hN, hn => by
    obtain ⟨p, q, hp⟩ := h b List.mem_cons_self
    obtain ⟨n1, n2⟩ := hn b List.mem_cons_self
    obtain ⟨k', h1, h2⟩ := updateAll_other n bs ((k.set b.name ⟨![p.1, p.2.1, p.2.2], q.matrix⟩).set ("NED(" ++ b.name ++ ")") ⟨![p.1, p.2.1, p.2.2], 1⟩)
      (fun b' hb => h b' (List.mem_cons_of_mem _ hb)) (fun b' hb => hN b' (List.mem_cons_of_mem _ hb)) (fun b' hb => hn b' (List.mem_cons_of_mem _ hb))
    refine ⟨k', ?_, ?_⟩
    · rw [updateAll, List.foldlM_cons, updateKinematics_placed hp]; exact h1
    · rw [h2, frameOf_set _ _ _ _ (ned_paren_ne _), if_neg n2, frameOf_set _ _ _ _ (hN b List.mem_cons_self), if_neg n1]

omit [LinearOrder K] [IsStrictOrderedRing K] in
/-- The two frames of a body are where the states say. -/
theorem updateAll_body {x : List K} {b : MBody K} {p : K × K × K} {q : Quat K} (hp : Placed x b.idx p q) : ∀ (bs : List (MBody K)) (k : Kin K), b ∈ bs →
    (∀ b ∈ bs, ∃ p q, Placed x b.idx p q) → PlainNames bs →
    ∃ k', updateAll bs x k = .ok k' ∧ frameOf k' b.name = some ⟨![p.1, p.2.1, p.2.2], q.matrix⟩ ∧ frameOf k' ("NED(" ++ b.name ++ ")") = some ⟨![p.1, p.2.1, p.2.2], 1⟩
  | [], _, hb, _, _ => by simp at hb
  | c :: bs, k, hb, h, hN => by
    have hN' : PlainNames bs :=
      ⟨(List.nodup_cons.mp (by simpa using hN.nodup)).2, fun b hb => hN.notNed b (List.mem_cons_of_mem _ hb),
        fun b hb b' hb' => hN.notOther b (List.mem_cons_of_mem _ hb) b' (List.mem_cons_of_mem _ hb')⟩
    have h' : ∀ b ∈ bs, ∃ p q, Placed x b.idx p q := fun b' hb => h b' (List.mem_cons_of_mem _ hb)
    obtain ⟨p', q', hp'⟩ := h c List.mem_cons_self
    by_cases hm : b ∈ bs
    · obtain ⟨k', h1, h2⟩ := updateAll_body hp bs ((k.set c.name ⟨![p'.1, p'.2.1, p'.2.2], q'.matrix⟩).set ("NED(" ++ c.name ++ ")") ⟨![p'.1, p'.2.1, p'.2.2], 1⟩) hm h' hN'
      exact ⟨k', by rw [updateAll, List.foldlM_cons, updateKinematics_placed hp']; exact h1, h2⟩
    · obtain rfl : b = c := by simpa [hm] using hb
      have hfresh : ∀ b' ∈ bs, b.name ≠ b'.name := by
        intro b' hb' he
        have hnd := hN.nodup
        rw [List.map_cons, List.nodup_cons] at hnd
        exact hnd.1 (by rw [he]; exact List.mem_map_of_mem hb')
      obtain ⟨k1, h1, h2⟩ := updateAll_other b.name bs ((k.set b.name ⟨![p.1, p.2.1, p.2.2], q.matrix⟩).set ("NED(" ++ b.name ++ ")") ⟨![p.1, p.2.1, p.2.2], 1⟩) h' hN'.notNed
        (fun b' hb' => ⟨hfresh b' hb', hN.notOther b List.mem_cons_self b' (List.mem_cons_of_mem _ hb')⟩)
      obtain ⟨k2, h3, h4⟩ := updateAll_other ("NED(" ++ b.name ++ ")") bs
        ((k.set b.name ⟨![p.1, p.2.1, p.2.2], q.matrix⟩).set ("NED(" ++ b.name ++ ")") ⟨![p.1, p.2.1, p.2.2], 1⟩) h' hN'.notNed
        (fun b' hb' => ⟨fun he => hN.notOther b' (List.mem_cons_of_mem _ hb') b List.mem_cons_self he.symm, fun he => hfresh b' hb' (ned_paren_inj he)⟩)
      rw [h1] at h3
      injection h3 with h3
      subst h3
      refine ⟨k1, ?_, ?_, ?_⟩
      · rw [updateAll, List.foldlM_cons, updateKinematics_placed hp]; exact h1
      · rw [h2, frameOf_set _ _ _ _ (ned_paren_ne _), if_neg (hN.notOther b List.mem_cons_self b List.mem_cons_self), frameOf_set _ _ _ _ (hN.notNed b List.mem_cons_self), if_pos rfl]
      · rw [h4, frameOf_set _ _ _ _ (ned_paren_ne _), if_pos rfl]

omit [LinearOrder K] [IsStrictOrderedRing K] in
theorem get_ned {k : Kin K} {n : String} {T : Frame K} (h : frameOf k n = some T) : k.get "NED" n = .ok T := by
  have h0 : frameOf k "NED" = some ⟨0, 1⟩ := by simp [frameOf]
  simp [Kin.get, h0, h]

omit [IsStrictOrderedRing K] in
theorem wavesOnMesh_map (T : K × K × K → K × K × K) (eta : K → K → K) (mesh : List (K × K × K)) : wavesOnMesh id eta (mesh.map T) = wavesOnMesh T eta mesh := by
  simp [wavesOnMesh, Function.comp_def]

/-- The grid that is written, once the frame of the mesh is known. -/
theorem feedWaves_frame {k k' : Kin K} {bs : List (MBody K)} {x : List K} {frame : String} {T : Frame K} (hk : updateAll bs x k = .ok k') (hf : frame ≠ "NED" → frameOf k' frame = some T)
    (hT : frame = "NED" → inNed T = id) (o : Output K) (eta : K → K → K) (hx : 0 < (meshSize o).1) (hy : 0 < (meshSize o).2) :
    ∃ g, feedWaves k bs x frame o eta = .ok (some g) ∧ Heights o (fun a b => inNed T (a, b, 0)) eta g ∧
      g.x = (List.range (meshSize o).1).map (fun (i : Nat) => (inNed T (o.xmin + (i : K) * step o.xmin o.xmax o.nx, o.ymin + ((0 : Nat) : K) * step o.ymin o.ymax o.ny, 0)).1) ∧
      g.y = (List.range (meshSize o).2).map (fun (j : Nat) => (inNed T (o.xmin + ((0 : Nat) : K) * step o.xmin o.xmax o.nx, o.ymin + (j : K) * step o.ymin o.ymax o.ny, 0)).2.1) := by
  obtain ⟨g, h1, h2, h3, h4⟩ := grid_values o (inNed T) eta hx hy
  have hlen : (makeWaveMesh o).length ≠ 0 := by rw [(mesh_points o).1]; exact (Nat.mul_pos hx hy).ne'
  have hw : wavesInFrame k' frame o eta = .ok (wavesOnMesh (inNed T) eta (makeWaveMesh o)) := by
    rw [wavesInFrame, if_neg hlen, positionInNed]
    by_cases h : frame = "NED"
    · rw [if_neg (by simpa using h), hT h]; rfl
    · rw [if_pos h, get_ned (hf h)]
      simp only [bind, Except.bind, pure, Except.pure, wavesOnMesh_map]
  have hz : g.z.flatten.length ≠ 0 := by
    rw [h4]
    simp [List.length_flatten, Function.comp_def]
    omega
  refine ⟨g, ?_, h4, h2, h3⟩
  simp only [feedWaves, hk, hw, bind, Except.bind, h1, if_pos hz]

omit [LinearOrder K] [IsStrictOrderedRing K] in
/-- A unit quaternion turns the axes as its matrix does. -/
theorem carried_eq {q : Quat K} (hq : q.w * q.w + q.x * q.x + q.y * q.y + q.z * q.z = 1) (p : K × K × K) (a b : K) :
    inNed ⟨![p.1, p.2.1, p.2.2], q.matrix⟩ (a, b, 0) = carriedPoint p q a b := by
  simp only [inNed, carriedPoint, Quat.mul, Quat.matrix, Prod.mk.injEq]
  refine ⟨?_, ?_, ?_⟩ <;> simp [Matrix.mulVec, dotProduct, Fin.sum_univ_three] <;> grind

/-! ### C210 -/

/-- In NED, the grid is the one of the file and each height is the one of the sea surface at the point, wherever the bodies are. -/
theorem waves_in_ned {k : Kin K} {bs : List (MBody K)} {x : List K} (hs : ∀ b ∈ bs, ∃ p q, Placed x b.idx p q) (hN : PlainNames bs) (o : Output K) (eta : K → K → K)
    (hx : 0 < (meshSize o).1) (hy : 0 < (meshSize o).2) :
    ∃ g, feedWaves k bs x "NED" o eta = .ok (some g) ∧ Heights o (fun a b => (a, b, 0)) eta g ∧ Coordinates o 0 0 g := by
  obtain ⟨k', hk, -⟩ := updateAll_other "NED" bs k hs hN.notNed (fun b hb => ⟨fun h => hN.notNed b hb h.symm, fun h => ned_paren_ne _ h.symm⟩)
  have hid : inNed (⟨0, 1⟩ : Frame K) = id := by
    funext p
    simp [inNed]
  obtain ⟨g, h1, h2, h3, h4⟩ := feedWaves_frame (T := ⟨0, 1⟩) hk (fun h => absurd rfl h) (fun _ => hid) o eta hx hy
  rw [hid] at h2 h3 h4
  exact ⟨g, h1, h2, by simpa using h3, by simpa using h4⟩

/-- In the frame `NED(b)`, the grid follows the body `b` without turning: its points are moved by the position of `b` in the states that are written, and each height is the one of the sea
surface at the point. -/
theorem waves_follow_body {k : Kin K} {bs : List (MBody K)} {x : List K} (hs : ∀ b ∈ bs, ∃ p q, Placed x b.idx p q) (hN : PlainNames bs) {b : MBody K} (hb : b ∈ bs) {p : K × K × K} {q : Quat K}
    (hp : Placed x b.idx p q) (o : Output K) (eta : K → K → K) (hx : 0 < (meshSize o).1) (hy : 0 < (meshSize o).2) :
    ∃ g, feedWaves k bs x ("NED(" ++ b.name ++ ")") o eta = .ok (some g) ∧ Heights o (fun a c => (p.1 + a, p.2.1 + c, p.2.2)) eta g ∧ Coordinates o p.1 p.2.1 g := by
  obtain ⟨k', hk, -, hf⟩ := updateAll_body hp bs k hb hs hN
  obtain ⟨g, h1, h2, h3, h4⟩ := feedWaves_frame hk (fun _ => hf) (fun h => absurd h (ned_paren_ne _)) o eta hx hy
  have himg : ∀ a c : K, inNed (⟨![p.1, p.2.1, p.2.2], 1⟩ : Frame K) (a, c, 0) = (p.1 + a, p.2.1 + c, p.2.2) := by
    intro a c
    simp [inNed]
  simp only [himg] at h2 h3 h4
  exact ⟨g, h1, h2, h3, h4⟩

/-- In the frame of the body `b`, the points of the mesh turn with the body, and each height is the one of the sea surface at the point (C210, what holds for a body that may be turned).
Missing: the coordinates written beside the heights, `coordinates_of_turned_mesh`. -/
theorem waves_turn_with_body_partial {k : Kin K} {bs : List (MBody K)} {x : List K} (hs : ∀ b ∈ bs, ∃ p q, Placed x b.idx p q) (hN : PlainNames bs) {b : MBody K} (hb : b ∈ bs)
    {p : K × K × K} {q : Quat K} (hp : Placed x b.idx p q) (hq : q.w * q.w + q.x * q.x + q.y * q.y + q.z * q.z = 1) (o : Output K) (eta : K → K → K)
    (hx : 0 < (meshSize o).1) (hy : 0 < (meshSize o).2) :
    ∃ g, feedWaves k bs x b.name o eta = .ok (some g) ∧ Heights o (carriedPoint p q) eta g := by
  obtain ⟨k', hk, hf, -⟩ := updateAll_body hp bs k hb hs hN
  obtain ⟨g, h1, h2, -⟩ := feedWaves_frame hk (fun _ => hf) (fun h => absurd h (hN.notNed b hb)) o eta hx hy
  refine ⟨g, h1, ?_⟩
  simpa only [carried_eq hq] using h2

/-- A frame that is neither NED, nor one of the frames of the bodies, nor known, is refused. -/
theorem unknown_frame_refused {k : Kin K} {bs : List (MBody K)} {x : List K} (hs : ∀ b ∈ bs, ∃ p q, Placed x b.idx p q) (hN : PlainNames bs) {frame : String} (h0 : frame ≠ "NED")
    (h1 : ∀ b ∈ bs, frame ≠ b.name ∧ frame ≠ "NED(" ++ b.name ++ ")") (h2 : k.find frame = none) (o : Output K) (eta : K → K → K) (hx : 0 < (meshSize o).1) (hy : 0 < (meshSize o).2) :
    feedWaves k bs x frame o eta = .error (.throw "InvalidInputException") := by
  obtain ⟨k', hk, hf⟩ := updateAll_other frame bs k hs hN.notNed h1
  have hn : frameOf k' frame = none := by rw [hf, frameOf, if_neg h0, h2]
  have hg : k'.get "NED" frame = .error (.throw "KinematicsException") := by
    simp [Kin.get, hn]
  have hlen : (makeWaveMesh o).length ≠ 0 := by rw [(mesh_points o).1]; exact (Nat.mul_pos hx hy).ne'
  simp only [feedWaves, hk, wavesInFrame, if_neg hlen, positionInNed, if_pos h0, hg, bind, Except.bind, if_pos]

/-- Without any point nothing is written, whatever the frame. -/
theorem no_point_nothing_written {k : Kin K} {bs : List (MBody K)} {x : List K} (hs : ∀ b ∈ bs, ∃ p q, Placed x b.idx p q) (hN : PlainNames bs) (frame : String) (o : Output K)
    (eta : K → K → K) (h : o.nx = 0 ∨ o.ny = 0) : feedWaves k bs x frame o eta = .ok none := by
  obtain ⟨k', hk, -⟩ := updateAll_other "NED" bs k hs hN.notNed (fun b hb => ⟨fun h => hN.notNed b hb h.symm, fun h => ned_paren_ne _ h.symm⟩)
  have hlen : (makeWaveMesh o).length = 0 := by
    rw [(mesh_points o).1]
    rcases h with h | h <;> simp [meshSize, size, h]
  simp only [feedWaves, hk, wavesInFrame, if_pos hlen, bind, Except.bind, wavesOnGrid, List.length_nil, if_pos]
  simp

/-- At each output of a simulation of several bodies, the heights are those of the date that is written, around the positions that are written at that date (and not those of the last
evaluation of the forces). -/
theorem output_waves_partial {S : FleetSetup K} {stepper : List K → K → K → Stepper K} {o : Output K} {eta : K → K → K → K} {s : Fleet K} {t t' : K} {x : List K} {g : Option (Grid K)}
    {b : MBody K} (hb : b ∈ S.entries.map Entry.body) (h : outputWithWaves S stepper b.name o eta s t = .ok (t', x, g)) (hs : ∀ b ∈ S.entries.map Entry.body, ∃ p q, Placed x b.idx p q)
    (hN : PlainNames (S.entries.map Entry.body)) {p : K × K × K} {q : Quat K} (hp : Placed x b.idx p q) (hq : q.w * q.w + q.x * q.x + q.y * q.y + q.z * q.z = 1)
    (hx : 0 < (meshSize o).1) (hy : 0 < (meshSize o).2) :
    t' = t ∧ ∃ g', g = some g' ∧ Heights o (carriedPoint p q) (eta t) g' := by
  obtain ⟨⟨t1, x1⟩, h1, h⟩ := bind_ok h
  obtain ⟨g1, h2, h⟩ := bind_ok h
  injection h with h
  injection h with h3 h
  injection h with h4 h5
  subst h3 h4 h5
  obtain ⟨y, h6, h1⟩ := bind_ok h1
  obtain ⟨z, h7, h1⟩ := bind_ok h1
  injection h1 with h1
  injection h1 with h8 h9
  subst h8 h9
  obtain ⟨g, hg, hh⟩ := waves_turn_with_body_partial (k := s.kin) hs hN hb hp hq o (eta t) hx hy
  rw [h2] at hg
  injection hg with hg
  exact ⟨rfl, g, hg, hh⟩

/-! ### Examples -/

/-- Two bodies. -/
def tug : MBody ℚ := { name := "tug", idx := 0, blocked := { bodyIdx := 0, dof := fun _ => none, tmin := fun _ => none, tmax := fun _ => none }, G := ![0, 0, 0], Minv := 1, coriolis := fun _ _ => (0, 0) }

def barge : MBody ℚ := { tug with name := "barge", idx := 1 }

/-- The tug at (100, 20, 0), turned by 180 degrees - 2 atan(3/4); the barge at (-5, 7, 1), not turned. -/
def twoBodies : List ℚ := [100, 20, 0, 1, 0, 0, 0, 0, 0, 3 / 5, 0, 0, 4 / 5, -5, 7, 1, 2, 0, 0, 0, 0, 0, 1, 0, 0, 0]

theorem tug_placed : Placed twoBodies tug.idx (100, 20, 0) ⟨3 / 5, 0, 0, 4 / 5⟩ := by
  refine ⟨?_, ?_, ?_, ?_, ?_, ?_, ?_⟩ <;> rfl

theorem barge_placed : Placed twoBodies barge.idx (-5, 7, 1) ⟨1, 0, 0, 0⟩ := by
  refine ⟨?_, ?_, ?_, ?_, ?_, ?_, ?_⟩ <;> rfl

theorem plain_tow : PlainNames [tug, barge] where
  nodup := by decide
  notNed := by decide
  notOther := by decide

/-- Around the barge, which is not turned. -/
example : ∃ g, feedWaves [] [tug, barge] twoBodies "NED(barge)" ⟨0, 1, 2, 0, 2, 2⟩ (fun x y => x + 10 * y) = .ok (some g) ∧
    Heights ⟨0, 1, 2, 0, 2, 2⟩ (fun a c => (-5 + a, 7 + c, 1)) (fun x y => x + 10 * y) g ∧ Coordinates ⟨0, 1, 2, 0, 2, 2⟩ (-5) 7 g :=
  waves_follow_body (bs := [tug, barge]) (b := barge) (by
    intro b hb
    simp only [List.mem_cons, List.not_mem_nil, or_false] at hb
    rcases hb with rfl | rfl
    · exact ⟨_, _, tug_placed⟩
    · exact ⟨_, _, barge_placed⟩) plain_tow (by simp) barge_placed _ _ (by decide +kernel) (by decide +kernel)

/-- The same grid computed, and the one of the tug, which is turned. -/
example : feedWaves [] [tug, barge] twoBodies "NED(barge)" ⟨0, 1, 2, 0, 2, 2⟩ (fun x y => x + 10 * y) = .ok (some ⟨2, 2, [-5, -4], [7, 9], [[65, 66], [85, 86]]⟩) := by decide +kernel

/-- A frame that does not exist. -/
example : feedWaves [] [tug, barge] twoBodies "rig" ⟨0, 1, 2, 0, 2, 2⟩ (fun x y => x + 10 * y) = .error (.throw "InvalidInputException") := by decide +kernel

/-- C210 (refutation, as C54): in the frame of the tug the coordinates written beside the heights are not those of the points. The surface is `x + 10 y`; the height written for the second
point of the first row is the one of the point `(100 - 7/25, 20 + 24/25)`, but its coordinates are said to be `(100 - 7/25, 20)`. -/
theorem coordinates_of_turned_mesh :
    feedWaves [] [tug, barge] twoBodies "tug" ⟨0, 1, 2, 0, 1, 2⟩ (fun x y => x + 10 * y) =
      .ok (some ⟨2, 2, [100, 100 - 7 / 25], [20, 20 - 7 / 25], [[300, (100 - 7 / 25) + 10 * (20 + 24 / 25)], [100 - 24 / 25 + 10 * (20 - 7 / 25), 100 - 31 / 25 + 10 * (20 + 17 / 25)]]⟩) ∧
    (100 - 7 / 25 : ℚ) + 10 * (20 + 24 / 25) ≠ (100 - 7 / 25) + 10 * 20 := by
  constructor
  · decide +kernel
  · decide +kernel

end Xdyn.Multi

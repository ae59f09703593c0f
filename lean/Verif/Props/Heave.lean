import Verif.Model.LinearHydrostatics
import Verif.Props.StationKeeping

/-! Property C187: heave with `linear hydrostatics`. -/

namespace Xdyn.Sim

open Blocked Body Spec Solver

/-! ### Bodies that do not turn, with any force models -/

/-- A body that keeps the attitude `q` without turning: `M` is its inertia, with added mass, and at the date `t`, at the position `P` with
the velocity `v`, the sum of its force models and of its controllers is `M` times the acceleration `a t P v`, without angular acceleration. -/
structure Gliding (e : Multi.Entry ℝ) (cmd : Commands ℝ) (M : Mat6 ℝ) (a : ℝ → Vec3 ℝ → Vec3 ℝ → Vec3 ℝ) (q : Quat ℝ) : Prop
    extends Alone e where
  inverse : e.body.Minv * M = 1
  sum : ∀ h P v t, Current h (vec13 P v 0 q) → (∀ n, (field h n).Tmax = 0) →
    ∃ F, Multi.sumOfForces cmd e.body e.forces e.controlled h (framesAt e.body.name P q) (vec13 P v 0 q) t = .ok F ∧
      M.mulVec ![a t P v 0, a t P v 1, a t P v 2, 0, 0, 0] = Multi.toVector F

/-- Derivatives of the thirteen states of such a body. -/
noncomputable def glideLaw (R : Mat3 ℝ) (a : ℝ → Vec3 ℝ → Vec3 ℝ → Vec3 ℝ) (s : List ℝ) (t : ℝ) : List ℝ :=
  match s with
  | x :: y :: z :: u :: v :: w :: _ => glide (R.mulVec ![u, v, w]) (a t ![x, y, z] ![u, v, w])
  | _ => []

theorem glideLaw_eq (R : Mat3 ℝ) (a : ℝ → Vec3 ℝ → Vec3 ℝ → Vec3 ℝ) (P v : Vec3 ℝ) (q : Quat ℝ) (t : ℝ) :
    glideLaw R a (vec13 P v 0 q) t = glide (R.mulVec v) (a t P v) := by
  have hP : (![P 0, P 1, P 2] : Vec3 ℝ) = P := by funext i; fin_cases i <;> rfl
  have hv : (![v 0, v 1, v 2] : Vec3 ℝ) = v := by funext i; fin_cases i <;> rfl
  simp only [glideLaw, vec13, hP, hv]

theorem gliding_memoryless {e : Multi.Entry ℝ} {cmd : Commands ℝ} {M : Mat6 ℝ} {a : ℝ → Vec3 ℝ → Vec3 ℝ → Vec3 ℝ} {q : Quat ℝ}
    (he : Gliding e cmd M a q) (ae : Nat → ℝ → ℝ → Bool) (ae1 : ℝ → Bool) :
    Memoryless (oneBody e ae ae1) cmd (glideLaw q.matrix a) (fun x _ => x) (fun x => ∃ P v, x = vec13 P v 0 q)
      (fun x => ∃ P v, x = glide P v) := by
  refine ⟨?_, ?_, ?_, ?_, ?_⟩
  · rintro x t ⟨P, v, rfl⟩
    exact ⟨forceStates_free he.free _ t, by simp [vec13], P, v, rfl⟩
  · rintro x ⟨P, v, rfl⟩
    obtain ⟨y, c, hy, -⟩ := normalizeOne_spec ae1 (vec13 P v 0 q) 0 (by simp [vec13])
    exact ⟨y, by simp [oneBody, normalizeQuaternions, hy, bind, Except.bind, pure, Except.pure]⟩
  · rintro h x t ⟨P, v, rfl⟩ hc h0
    obtain ⟨F, h1, h2⟩ := he.sum h P v t hc h0
    refine ⟨F, (eval_free e he.toAlone cmd h P v 0 q t F h1).trans ?_⟩
    have hv : (![v 0, v 1, v 2] : Vec3 ℝ) = v := by funext i; fin_cases i <;> rfl
    rw [← h2, Matrix.mulVec_mulVec, he.inverse, Matrix.one_mulVec, glideLaw_eq, hv]
    simp [glide, vec13, Quat.mul]
  · rintro x t ⟨P, v, rfl⟩
    exact ⟨_, _, glideLaw_eq _ _ _ _ _ _⟩
  · rintro dt x as ks ⟨P, v, rfl⟩ hk
    refine move_related (ρ := fun x _ => ∃ P v, x = vec13 P v 0 q) (δ := fun k _ => ∃ P v, k = glide P v) dt ?_ as ks ks _ []
      ⟨P, v, rfl⟩ (List.forall₂_same.2 hk)
    rintro x - k - c ⟨P, v, rfl⟩ ⟨P', v', rfl⟩
    exact ⟨_, _, along_glide P v q c P' v'⟩

/-- **C187** The simulation of such a body is the method applied to `P' = R v`, `v' = a t P v`. -/
theorem glides {e : Multi.Entry ℝ} {M : Mat6 ℝ} {a : ℝ → Vec3 ℝ → Vec3 ℝ → Vec3 ℝ} {q : Quat ℝ}
    (s : Sim ℝ (Vec3 ℝ × Vec3 ℝ)) (he : Gliding e s.commands M a q) (hq : Unit4 q)
    (ae : Nat → ℝ → ℝ → Bool) (hae : ∀ n a, ae n a a = true) (ae1 : ℝ → Bool)
    (T : Tableau ℝ) (hT : Forward T) (P0 v0 : Vec3 ℝ) (hs : s.state = vec13 P0 v0 0 q)
    (h0 : ∀ n, (field s.hist n).Tmax = 0) (tstart tend dt : ℝ) (hdt : 0 < dt) (hh : NotAfter ae s.hist tstart)
    (N : Nat) (hN : tend ≤ tstart + N * dt) (hfirst : ∀ i < N, tstart + (i : ℝ) * dt < tend) (fuel : Nat) (hf : N ≤ fuel) :
    ∃ s' obs, quicksolve (simSystem (oneBody e ae ae1) T.stepper) fuel s tstart tend dt = some (.ok (s', obs)) ∧
      obs.length = N + 1 ∧ ∀ (i : Nat) (hi : i < obs.length), obs[i].t = tstart + i * dt ∧
        ∃ P v, RK.rkRun (fun x t => translation q.matrix (a t) x t) (fun x _ => x) T (vec6 P0 v0) tstart dt i = vec6 P v ∧
          obs[i].x = vec13 P v 0 q := by
  obtain ⟨s', obs, h1, -, h3, h4⟩ := simulation_is_runge_kutta (gliding_memoryless he ae ae1) hae T hT s rfl
    ⟨P0, v0, hs⟩ h0 tstart tend dt hdt hh N hN hfirst fuel hf
  refine ⟨s', obs, h1, h3, fun i hi => ?_⟩
  obtain ⟨h5, h6⟩ := h4 i hi
  obtain ⟨P, v, h7, h8⟩ := rk_related (f := glideLaw q.matrix a) (g := fun x t => translation q.matrix (a t) x t)
    (ρ := fun x y => ∃ P v, x = vec13 P v 0 q ∧ y = vec6 P v) (δ := fun k k' => ∃ P v, k = glide P v ∧ k' = vec6 P v) T tstart dt
    (by
      rintro x y k k' c ⟨P, v, rfl, rfl⟩ ⟨P', v', rfl, rfl⟩
      exact ⟨_, _, along_glide P v q c P' v', along_vec6 P v c P' v'⟩)
    (by
      rintro x y t ⟨P, v, rfl, rfl⟩
      exact ⟨_, _, glideLaw_eq _ _ P v q t, translation_vec6 _ _ P v t⟩)
    _ _ ⟨P0, v0, rfl, rfl⟩ i
  refine ⟨h5, P, v, h8, ?_⟩
  rw [hs, h7] at h6
  have h9 : (oneBody e ae ae1).normalize (vec13 P v 0 q) = .ok (vec13 P v 0 q) := normalize_unit ae1 _ _ _ _ hq
  rw [h9] at h6
  exact (Except.ok.inj h6).symm

/-! ### The force -/

/-- Value of the force model `linear hydrostatics` when the sea is level, at the height `level t` (down). -/
theorem linear_hydrostatics_value (b : Multi.MBody ℝ) (hn : b.name ≠ "NED") (c : LinearHydrostatics) (anglesOf : Mat3 ℝ → ℝ × ℝ × ℝ)
    (waves : List ℝ → List ℝ → ℝ → Except Err (List ℝ)) (level : ℝ → ℝ) (hw : ∀ xs ys t, waves xs ys t = .ok (xs.map fun _ => level t))
    {h : States (History ℝ)} {p u w : Vec3 ℝ} {q : Quat ℝ} (t : ℝ) (hc : Current h (vec13 p u w q)) (h0 : ∀ n, (field h n).Tmax = 0)
    (hphi : (anglesOf q.matrix).1 = c.phiEq) (htheta : (anglesOf q.matrix).2.1 = c.thetaEq) :
    linearHydrostaticModel b c anglesOf waves h (framesAt b.name p q) t =
      .ok ⟨b.name, b.G, ![0, 0, -(c.K 0 0 * (p 2 - level t - c.zEq))],
        ![-(c.K 1 0 * (p 2 - level t - c.zEq)), -(c.K 2 0 * (p 2 - level t - c.zEq)), 0]⟩ := by
  have hz : h.z.value 0 = .ok (p 2) := by
    obtain ⟨a, e1, e2⟩ := current_value hc h0 .z
    rw [show (vec13 p u w q)[slot 0 .z]? = some (p 2) from rfl] at e1
    cases e1
    exact e2
  have hR := (positions_read hc h0).2.2.2.2.2
  have hg : Multi.Kin.get (framesAt b.name p q) "NED" b.name = .ok ⟨![p 0, p 1, p 2], q.matrix⟩ := by
    rw [Multi.Kin.get, frame_of_body _ hn]
    simp [Multi.frameOf]
  have hl : ∀ xs : Fin 4 → ℝ, ((List.finRange 4).map xs).map (fun _ => level t) = [level t, level t, level t, level t] := by
    intro xs; rfl
  simp only [linearHydrostaticModel, LinearHydrostatics.waveHeights, hg, hw, hl, hz, hR, bind, Except.bind, pure, Except.pure, getUB,
    List.getElem?_cons_zero, List.getElem?_cons_succ, hphi, htheta, Forces.linearHydrostatic, Forces.zbar, Forces.phibar, Forces.thetabar,
    Forces.mulVec3]
  have hb : (0.25 : ℝ) * (level t + level t + level t + level t) = level t := by norm_num; ring
  congr 2
  · funext i; fin_cases i <;> simp [Fin.sum_univ_three, hb]
  · funext i; fin_cases i <;> simp [Fin.sum_univ_three, hb]

/-! ### Heave -/

/-- A body that floats upright with the force models `l` and `linear hydrostatics`, in a sea that is level, at the height `level t` at the date `t`
(counted downwards, as z is). It has the roll and the pitch of its equilibrium. `M` is its inertia with added mass, which does not couple heave with the other motions
(`m` is the mass in heave), no more than the stiffness does; the forces of `l` give it a horizontal acceleration `b v` and push it downwards with `W - d w`, `w` its
velocity downwards, without making it turn. -/
structure Heaving (e : Multi.Entry ℝ) (l : List Push) (M : Mat6 ℝ) (c : LinearHydrostatics) (anglesOf : Mat3 ℝ → ℝ × ℝ × ℝ)
    (waves : List ℝ → List ℝ → ℝ → Except Err (List ℝ)) (level : ℝ → ℝ) (m W d : ℝ) (b : Vec3 ℝ → ℝ × ℝ) (q : Quat ℝ) : Prop extends Alone e where
  inverse : e.body.Minv * M = 1
  mass : 0 < m
  heave : ∀ i, M i 2 = if i = 2 then m else 0
  forces : e.forces = l.map (Push.model e.body) ++ [linearHydrostaticModel e.body c anglesOf waves]
  controlled : e.controlled = []
  others : ∀ v, Multi.toVector (resultant e.body l v 0 q) = M.mulVec ![(b v).1, (b v).2, (W - d * v 2) / m, 0, 0, 0]
  sea : ∀ xs ys t, waves xs ys t = .ok (xs.map fun _ => level t)
  roll : (anglesOf q.matrix).1 = c.phiEq
  pitch : (anglesOf q.matrix).2.1 = c.thetaEq
  noRoll : c.K 1 0 = 0
  noPitch : c.K 2 0 = 0
  unit : Unit4 q

/-- Acceleration of the body when the sea is at the height `h`. -/
noncomputable def heaveAcceleration (c : LinearHydrostatics) (m W d : ℝ) (b : Vec3 ℝ → ℝ × ℝ) (h : ℝ) (P v : Vec3 ℝ) : Vec3 ℝ :=
  ![(b v).1, (b v).2, (W - d * v 2 - c.K 0 0 * (P 2 - h - c.zEq)) / m]

theorem heaving_gliding {e : Multi.Entry ℝ} {l : List Push} {M : Mat6 ℝ} {c : LinearHydrostatics} {anglesOf : Mat3 ℝ → ℝ × ℝ × ℝ}
    {waves : List ℝ → List ℝ → ℝ → Except Err (List ℝ)} {level : ℝ → ℝ} {m W d : ℝ} {b : Vec3 ℝ → ℝ × ℝ} {q : Quat ℝ}
    (he : Heaving e l M c anglesOf waves level m W d b q) (cmd : Commands ℝ) :
    Gliding e cmd M (fun t => heaveAcceleration c m W d b (level t)) q where
  toAlone := he.toAlone
  inverse := he.inverse
  sum := by
    intro h P v t hcur h0
    have h1 := pushes_sum ⟨e.body, l.map (Push.model e.body), []⟩ ⟨he.idx, he.name, he.free⟩ l rfl rfl cmd t hcur h0 (Or.inl he.unit)
    rw [Multi.sumOfForces_iff] at h1
    obtain ⟨uv, ws, cs, a1, a2, a3, a4⟩ := h1
    cases a3
    have hv : Multi.valueOf e.body h (framesAt e.body.name P q) t (linearHydrostaticModel e.body c anglesOf waves) =
        .ok (![0, 0, -(c.K 0 0 * (P 2 - level t - c.zEq))], 0) := by
      simp only [Multi.valueOf, linear_hydrostatics_value e.body he.name c anglesOf waves level he.sea t hcur h0 he.roll he.pitch,
        Multi.contribution, bind, Except.bind, pure, Except.pure, ne_eq, not_true_eq_false, if_false, he.noRoll, he.noPitch]
      congr 2
      funext i; fin_cases i <;> simp
    refine ⟨resultant e.body l v 0 q + (![0, 0, -(c.K 0 0 * (P 2 - level t - c.zEq))], 0), ?_, ?_⟩
    · rw [Multi.sumOfForces_iff]
      refine ⟨uv, ws ++ [(![0, 0, -(c.K 0 0 * (P 2 - level t - c.zEq))], 0)], [], a1, ?_, by rw [he.controlled]; rfl, ?_⟩
      · rw [he.forces, List.mapM_append, a2, List.mapM_cons, hv]
        rfl
      · rw [a4]
        simp only [List.sum_append, List.sum_cons, List.sum_nil, List.reverse_nil]
        abel
    · have hm := he.mass.ne'
      have e1 : (![heaveAcceleration c m W d b (level t) P v 0, heaveAcceleration c m W d b (level t) P v 1, heaveAcceleration c m W d b (level t) P v 2, 0, 0, 0] : Vec6 ℝ) =
          ![(b v).1, (b v).2, (W - d * v 2) / m, 0, 0, 0] + ![0, 0, -(c.K 0 0 * (P 2 - level t - c.zEq)) / m, 0, 0, 0] := by
        funext i; fin_cases i <;> simp [heaveAcceleration]
        ring
      rw [e1, Matrix.mulVec_add, ← he.others]
      have e2 : M.mulVec ![0, 0, -(c.K 0 0 * (P 2 - level t - c.zEq)) / m, 0, 0, 0] = ![0, 0, -(c.K 0 0 * (P 2 - level t - c.zEq)), 0, 0, 0] := by
        funext i
        simp only [Matrix.mulVec, dotProduct, Fin.sum_univ_six]
        rw [he.heave i]
        fin_cases i <;> simp
        field_simp
      rw [e2]
      funext i; fin_cases i <;> simp [Multi.toVector]

/-- **C187** The sea may go up and down (`level t`, a tide or a swell much longer than the hull): whatever the method, the dates, the time step, the position and the velocity
of the body and what was recorded before, the simulation goes to the end, the body does not turn, and its motion is the one that the method gives for
`P' = R v`, `m w' = W - d w - K (z - level t - zEq)`. -/
theorem heave_motion {e : Multi.Entry ℝ} {l : List Push} {M : Mat6 ℝ} {c : LinearHydrostatics} {anglesOf : Mat3 ℝ → ℝ × ℝ × ℝ}
    {waves : List ℝ → List ℝ → ℝ → Except Err (List ℝ)} {level : ℝ → ℝ} {m W d : ℝ} {b : Vec3 ℝ → ℝ × ℝ} {q : Quat ℝ}
    (s : Sim ℝ (Vec3 ℝ × Vec3 ℝ)) (he : Heaving e l M c anglesOf waves level m W d b q)
    (ae : Nat → ℝ → ℝ → Bool) (hae : ∀ n a, ae n a a = true) (ae1 : ℝ → Bool)
    (T : Tableau ℝ) (hT : Forward T) (P0 v0 : Vec3 ℝ) (hs : s.state = vec13 P0 v0 0 q)
    (h0 : ∀ n, (field s.hist n).Tmax = 0) (tstart tend dt : ℝ) (hdt : 0 < dt) (hh : NotAfter ae s.hist tstart)
    (N : Nat) (hN : tend ≤ tstart + N * dt) (hfirst : ∀ i < N, tstart + (i : ℝ) * dt < tend) (fuel : Nat) (hf : N ≤ fuel) :
    ∃ s' obs, quicksolve (simSystem (oneBody e ae ae1) T.stepper) fuel s tstart tend dt = some (.ok (s', obs)) ∧
      obs.length = N + 1 ∧ ∀ (i : Nat) (hi : i < obs.length), obs[i].t = tstart + i * dt ∧
        ∃ P v, RK.rkRun (fun x t => translation q.matrix (fun P v => ![(b v).1, (b v).2, (W - d * v 2 - c.K 0 0 * (P 2 - level t - c.zEq)) / m]) x t)
            (fun x _ => x) T (vec6 P0 v0) tstart dt i = vec6 P v ∧ obs[i].x = vec13 P v 0 q :=
  glides s (heaving_gliding he s.commands) he.unit ae hae ae1 T hT P0 v0 hs h0 tstart tend dt hdt hh N hN hfirst fuel hf

/-- Pulsation in heave. -/
noncomputable def heavePulsation (K m : ℝ) : ℝ := Real.sqrt (K / m)

/-- Fraction of the critical damping. -/
noncomputable def heaveDamping (K m d : ℝ) : ℝ := d / (2 * Real.sqrt (K * m))

theorem heave_damping_range {K m d : ℝ} (hK : 0 < K) (hm : 0 < m) (hd : 0 ≤ d) (hcrit : d ^ 2 < 4 * K * m) :
    0 ≤ heaveDamping K m d ∧ heaveDamping K m d < 1 := by
  have h : 0 < Real.sqrt (K * m) := Real.sqrt_pos.2 (mul_pos hK hm)
  refine ⟨by unfold heaveDamping; positivity, ?_⟩
  rw [heaveDamping, div_lt_one (by positivity)]
  refine lt_of_pow_lt_pow_left₀ 2 (by positivity) ?_
  rw [mul_pow, Real.sq_sqrt (by positivity)]
  linarith

theorem heave_mode {c : LinearHydrostatics} {m d : ℝ} (W : ℝ) (b : Vec3 ℝ → ℝ × ℝ) (h : ℝ) {R : Mat3 ℝ} (hR : ∀ v : Vec3 ℝ, R.mulVec v 2 = v 2) (hm : 0 < m)
    (hK : 0 < c.K 0 0) (hd : 0 ≤ d) (hcrit : d ^ 2 < 4 * c.K 0 0 * m) :
    Mode R (heaveAcceleration c m W d b h) (root (heaveDamping (c.K 0 0) m d) (heavePulsation (c.K 0 0) m))
      (fun P v => oscMode (heaveDamping (c.K 0 0) m d) (heavePulsation (c.K 0 0) m) (P 2 - (h + c.zEq + W / c.K 0 0)) (v 2))
      (fun P v => oscMode (heaveDamping (c.K 0 0) m d) (heavePulsation (c.K 0 0) m) (P 2) (v 2)) where
  affine P v P' v' k := by
    apply Complex.ext <;> simp [oscMode] <;> ring
  rate P v := by
    obtain ⟨k0, k1⟩ := heave_damping_range hK hm hd hcrit
    rw [← oscMode_rate _ _ _ k0 k1, hR]
    congr 1
    have e1 : heavePulsation (c.K 0 0) m ^ 2 = c.K 0 0 / m := Real.sq_sqrt (by positivity)
    have e2 : 2 * heaveDamping (c.K 0 0) m d * heavePulsation (c.K 0 0) m = d / m := by
      have h1 : 0 < Real.sqrt (c.K 0 0) := Real.sqrt_pos.2 hK
      have h2 : 0 < Real.sqrt m := Real.sqrt_pos.2 hm
      rw [heaveDamping, heavePulsation, Real.sqrt_mul hK.le, Real.sqrt_div hK.le]
      have h3 : Real.sqrt m * Real.sqrt m = m := Real.mul_self_sqrt hm.le
      field_simp
      linear_combination d * (h3.symm)
    rw [e1, e2]
    simp only [heaveAcceleration, Matrix.cons_val]
    field_simp
    ring

theorem upright_heave {q : Quat ℝ} {C S : ℝ} (hU : Upright q C S) (v : Vec3 ℝ) : q.matrix.mulVec v 2 = v 2 := by
  rw [Upright] at hU
  rw [hU]
  simp [Matrix.mulVec, dotProduct, Fin.sum_univ_three]

/-- **C187** The sea is at a constant height `h` and the damping is less than critical: with `rk4`, whatever the position and the velocity of the body, with a time step less than the
period in heave over `2 π`, the depth of the body is the one of a damped oscillator of pulsation `√(K / m)` and damping `d / (2 √(K m))` about the height `h + zEq + W / K`, up to an error
in the fourth power of the time step. (`W` is the sum of the forces other than the damping: with the force model `gravity`, the body settles by `M g / K` below the equilibrium `zEq`.) -/
theorem heave_rk4 {e : Multi.Entry ℝ} {l : List Push} {M : Mat6 ℝ} {c : LinearHydrostatics} {anglesOf : Mat3 ℝ → ℝ × ℝ × ℝ}
    {waves : List ℝ → List ℝ → ℝ → Except Err (List ℝ)} {h m W d C S : ℝ} {b : Vec3 ℝ → ℝ × ℝ} {q : Quat ℝ}
    (s : Sim ℝ (Vec3 ℝ × Vec3 ℝ)) (he : Heaving e l M c anglesOf waves (fun _ => h) m W d b q) (hU : Upright q C S)
    (hK : 0 < c.K 0 0) (hd : 0 ≤ d) (hcrit : d ^ 2 < 4 * c.K 0 0 * m)
    (ae : Nat → ℝ → ℝ → Bool) (hae : ∀ n a, ae n a a = true) (ae1 : ℝ → Bool) (P0 v0 : Vec3 ℝ) (hs : s.state = vec13 P0 v0 0 q)
    (h0 : ∀ n, (field s.hist n).Tmax = 0) (tstart tend dt : ℝ) (hdt : 0 < dt) (hh : NotAfter ae s.hist tstart)
    (N : Nat) (hN : tend ≤ tstart + N * dt) (hfirst : ∀ i < N, tstart + (i : ℝ) * dt < tend) (fuel : Nat) (hf : N ≤ fuel)
    (hz : Real.sqrt (c.K 0 0 / m) * dt ≤ 1) :
    ∃ s' obs, quicksolve (simSystem (oneBody e ae ae1) rk4Method.stepper) fuel s tstart tend dt = some (.ok (s', obs)) ∧
      obs.length = N + 1 ∧ ∀ (i : Nat) (hi : i < obs.length), obs[i].t = tstart + i * dt ∧ ∃ P v, obs[i].x = vec13 P v 0 q ∧
        |P 2 - (h + c.zEq + W / c.K 0 0 + exactError (d / (2 * Real.sqrt (c.K 0 0 * m))) (Real.sqrt (c.K 0 0 / m)) (P0 2 - (h + c.zEq + W / c.K 0 0)) (v0 2) (i * dt))| ≤
          Real.sqrt (c.K 0 0 / m) * (i * dt) * (Real.sqrt (c.K 0 0 / m) * dt) ^ 4 / 100 *
            Real.sqrt (energy (d / (2 * Real.sqrt (c.K 0 0 * m))) (Real.sqrt (c.K 0 0 / m)) (P0 2 - (h + c.zEq + W / c.K 0 0)) (v0 2)) /
              dampedPulsation (d / (2 * Real.sqrt (c.K 0 0 * m))) (Real.sqrt (c.K 0 0 / m)) := by
  obtain ⟨s', obs, a1, a2, a3⟩ := heave_motion s he ae hae ae1 rk4Method rk4_forward P0 v0 hs h0 tstart tend dt hdt hh N hN hfirst fuel hf
  refine ⟨s', obs, a1, a2, fun i hi => ?_⟩
  obtain ⟨a4, P, v, a5, a6⟩ := a3 i hi
  obtain ⟨k0, k1⟩ := heave_damping_range hK he.mass hd hcrit
  refine ⟨a4, P, v, a6, ?_⟩
  rw [← sub_sub]
  exact rk4_oscillation (Real.sqrt_pos.2 (div_pos hK he.mass)) k0 k1 hdt hz _ _ _ _ i
    (mode_rk4 (heave_mode W b h (upright_heave hU) he.mass hK hd hcrit) P0 v0 tstart dt i P v a5)

/-- **C187** Each step multiplies the energy of heave by exactly the same factor: `1 - 2 ξ z + z²` with `euler`, where `z = √(K / m) dt` (without damping it grows whatever the time step), and
`rk4Energy (2 ξ) z`, less than one when `z ≤ 1` (`rk4Energy_lt`), with `rk4`. -/
theorem heave_energy {e : Multi.Entry ℝ} {l : List Push} {M : Mat6 ℝ} {c : LinearHydrostatics} {anglesOf : Mat3 ℝ → ℝ × ℝ × ℝ}
    {waves : List ℝ → List ℝ → ℝ → Except Err (List ℝ)} {h m W d C S : ℝ} {b : Vec3 ℝ → ℝ × ℝ} {q : Quat ℝ}
    (s : Sim ℝ (Vec3 ℝ × Vec3 ℝ)) (he : Heaving e l M c anglesOf waves (fun _ => h) m W d b q) (hU : Upright q C S)
    (hK : 0 < c.K 0 0) (hd : 0 ≤ d) (hcrit : d ^ 2 < 4 * c.K 0 0 * m)
    (ae : Nat → ℝ → ℝ → Bool) (hae : ∀ n a, ae n a a = true) (ae1 : ℝ → Bool) (P0 v0 : Vec3 ℝ) (hs : s.state = vec13 P0 v0 0 q)
    (h0 : ∀ n, (field s.hist n).Tmax = 0) (tstart tend dt : ℝ) (hdt : 0 < dt) (hh : NotAfter ae s.hist tstart)
    (N : Nat) (hN : tend ≤ tstart + N * dt) (hfirst : ∀ i < N, tstart + (i : ℝ) * dt < tend) (fuel : Nat) (hf : N ≤ fuel)
    (T : Tableau ℝ) (φ : ℝ → ℝ → ℝ)
    (hT : T = eulerMethod ∧ (φ = fun ksi z => 1 - 2 * ksi * z + z ^ 2) ∨ T = rk4Method ∧ (φ = fun ksi z => rk4Energy (2 * ksi) z)) :
    ∃ s' obs, quicksolve (simSystem (oneBody e ae ae1) T.stepper) fuel s tstart tend dt = some (.ok (s', obs)) ∧
      obs.length = N + 1 ∧ ∀ (i : Nat) (hi : i < obs.length), obs[i].t = tstart + i * dt ∧ ∃ P v, obs[i].x = vec13 P v 0 q ∧
        energy (d / (2 * Real.sqrt (c.K 0 0 * m))) (Real.sqrt (c.K 0 0 / m)) (P 2 - (h + c.zEq + W / c.K 0 0)) (v 2) =
          φ (d / (2 * Real.sqrt (c.K 0 0 * m))) (Real.sqrt (c.K 0 0 / m) * dt) ^ i *
            energy (d / (2 * Real.sqrt (c.K 0 0 * m))) (Real.sqrt (c.K 0 0 / m)) (P0 2 - (h + c.zEq + W / c.K 0 0)) (v0 2) := by
  have hF : Forward T := by rcases hT with ⟨rfl, -⟩ | ⟨rfl, -⟩; exacts [euler_forward, rk4_forward]
  obtain ⟨s', obs, a1, a2, a3⟩ := heave_motion s he ae hae ae1 T hF P0 v0 hs h0 tstart tend dt hdt hh N hN hfirst fuel hf
  refine ⟨s', obs, a1, a2, fun i hi => ?_⟩
  obtain ⟨a4, P, v, a5, a6⟩ := a3 i hi
  obtain ⟨k0, k1⟩ := heave_damping_range hK he.mass hd hcrit
  refine ⟨a4, P, v, a6, ?_⟩
  rw [heaveDamping] at k0 k1
  have hmode := heave_mode W b h (upright_heave hU) he.mass hK hd hcrit
  rcases hT with ⟨rfl, rfl⟩ | ⟨rfl, rfl⟩
  · simp only [← euler_energy_factor _ _ k0 k1]
    exact mode_energy _ _ _ _ _ k0 k1 i _ (mode_euler hmode P0 v0 tstart dt i P v a5)
  · simp only [← rk4_energy_factor _ _ k0 k1]
    exact mode_energy _ _ _ _ _ k0 k1 i _ (mode_rk4 hmode P0 v0 tstart dt i P v a5)

/-- **C187** With `rk4` and a time step less than the period over `2 π`, the body settles: its depth comes as near to `h + zEq + W / K` as one wants and stays there. -/
theorem heave_settles {e : Multi.Entry ℝ} {l : List Push} {M : Mat6 ℝ} {c : LinearHydrostatics} {anglesOf : Mat3 ℝ → ℝ × ℝ × ℝ}
    {waves : List ℝ → List ℝ → ℝ → Except Err (List ℝ)} {h m W d C S : ℝ} {b : Vec3 ℝ → ℝ × ℝ} {q : Quat ℝ}
    (s : Sim ℝ (Vec3 ℝ × Vec3 ℝ)) (he : Heaving e l M c anglesOf waves (fun _ => h) m W d b q) (hU : Upright q C S)
    (hK : 0 < c.K 0 0) (hd : 0 ≤ d) (hcrit : d ^ 2 < 4 * c.K 0 0 * m)
    (ae : Nat → ℝ → ℝ → Bool) (hae : ∀ n a, ae n a a = true) (ae1 : ℝ → Bool) (P0 v0 : Vec3 ℝ) (hs : s.state = vec13 P0 v0 0 q)
    (h0 : ∀ n, (field s.hist n).Tmax = 0) (tstart dt : ℝ) (hdt : 0 < dt) (hh : NotAfter ae s.hist tstart)
    (hz : Real.sqrt (c.K 0 0 / m) * dt ≤ 1) (ε : ℝ) (hε : 0 < ε) :
    ∃ n : Nat, ∀ (tend : ℝ) (N : Nat), tend ≤ tstart + N * dt → (∀ i < N, tstart + (i : ℝ) * dt < tend) → ∀ fuel, N ≤ fuel →
      ∃ s' obs, quicksolve (simSystem (oneBody e ae ae1) rk4Method.stepper) fuel s tstart tend dt = some (.ok (s', obs)) ∧
        obs.length = N + 1 ∧ ∀ (i : Nat) (hi : i < obs.length), n ≤ i →
          ∃ P v, obs[i].x = vec13 P v 0 q ∧ |P 2 - (h + c.zEq + W / c.K 0 0)| < ε := by
  obtain ⟨k0, k1⟩ := heave_damping_range hK he.mass hd hcrit
  rw [heaveDamping] at k0 k1
  have hw : 0 < Real.sqrt (c.K 0 0 / m) := Real.sqrt_pos.2 (div_pos hK he.mass)
  have hr := rk4Energy_lt (2 * (d / (2 * Real.sqrt (c.K 0 0 * m)))) _ (by linarith) (by linarith) (mul_pos hw hdt) hz
  have hr0 : 0 ≤ rk4Energy (2 * (d / (2 * Real.sqrt (c.K 0 0 * m)))) (Real.sqrt (c.K 0 0 / m) * dt) := by
    rw [← rk4_energy_factor _ _ k0 k1]; positivity
  have hlim := (tendsto_pow_atTop_nhds_zero_of_lt_one hr0 hr).mul_const
    (energy (d / (2 * Real.sqrt (c.K 0 0 * m))) (Real.sqrt (c.K 0 0 / m)) (P0 2 - (h + c.zEq + W / c.K 0 0)) (v0 2))
  rw [zero_mul] at hlim
  obtain ⟨n, hn⟩ := Filter.eventually_atTop.1 (hlim.eventually (gt_mem_nhds
    (show 0 < (1 - d / (2 * Real.sqrt (c.K 0 0 * m))) * (Real.sqrt (c.K 0 0 / m) * ε) ^ 2 from mul_pos (by linarith) (by positivity))))
  refine ⟨n, fun tend N hN hfirst fuel hf => ?_⟩
  obtain ⟨s', obs, a1, a2, a3⟩ := heave_energy s he hU hK hd hcrit ae hae ae1 P0 v0 hs h0 tstart tend dt hdt hh N hN hfirst fuel hf
    rk4Method _ (Or.inr ⟨rfl, rfl⟩)
  refine ⟨s', obs, a1, a2, fun i hi hni => ?_⟩
  obtain ⟨-, P, v, a4, a5⟩ := a3 i hi
  refine ⟨P, v, a4, error_of_energy _ (v 2) hw k0 k1 hε ?_⟩
  rw [a5]
  exact hn i hni

/-- **C187** With `euler` and `√(K / m) dt > d / √(K m)` (any time step when there is no damping), a body that is not at rest at its equilibrium jumps out of the water: its energy exceeds any bound. -/
theorem heave_euler_diverges {e : Multi.Entry ℝ} {l : List Push} {M : Mat6 ℝ} {c : LinearHydrostatics} {anglesOf : Mat3 ℝ → ℝ × ℝ × ℝ}
    {waves : List ℝ → List ℝ → ℝ → Except Err (List ℝ)} {h m W d C S : ℝ} {b : Vec3 ℝ → ℝ × ℝ} {q : Quat ℝ}
    (s : Sim ℝ (Vec3 ℝ × Vec3 ℝ)) (he : Heaving e l M c anglesOf waves (fun _ => h) m W d b q) (hU : Upright q C S)
    (hK : 0 < c.K 0 0) (hd : 0 ≤ d) (hcrit : d ^ 2 < 4 * c.K 0 0 * m)
    (ae : Nat → ℝ → ℝ → Bool) (hae : ∀ n a, ae n a a = true) (ae1 : ℝ → Bool) (P0 v0 : Vec3 ℝ) (hs : s.state = vec13 P0 v0 0 q)
    (hv : P0 2 ≠ h + c.zEq + W / c.K 0 0 ∨ v0 2 ≠ 0)
    (h0 : ∀ n, (field s.hist n).Tmax = 0) (tstart dt : ℝ) (hdt : 0 < dt) (hh : NotAfter ae s.hist tstart)
    (hz : d / Real.sqrt (c.K 0 0 * m) < Real.sqrt (c.K 0 0 / m) * dt) (B : ℝ) :
    ∃ n : Nat, ∀ (tend : ℝ) (N : Nat), tend ≤ tstart + N * dt → (∀ i < N, tstart + (i : ℝ) * dt < tend) → ∀ fuel, N ≤ fuel →
      ∃ s' obs, quicksolve (simSystem (oneBody e ae ae1) eulerMethod.stepper) fuel s tstart tend dt = some (.ok (s', obs)) ∧
        obs.length = N + 1 ∧ ∀ (i : Nat) (hi : i < obs.length), n ≤ i →
          ∃ P v, obs[i].x = vec13 P v 0 q ∧ B < c.K 0 0 / m * (P 2 - (h + c.zEq + W / c.K 0 0)) ^ 2 + v 2 ^ 2 := by
  obtain ⟨k0, k1⟩ := heave_damping_range hK he.mass hd hcrit
  rw [heaveDamping] at k0 k1
  have hKm : 0 < c.K 0 0 / m := div_pos hK he.mass
  have hw : 0 < Real.sqrt (c.K 0 0 / m) := Real.sqrt_pos.2 hKm
  have hw2 : Real.sqrt (c.K 0 0 / m) ^ 2 = c.K 0 0 / m := Real.sq_sqrt hKm.le
  have hk2 : 2 * (d / (2 * Real.sqrt (c.K 0 0 * m))) = d / Real.sqrt (c.K 0 0 * m) := by
    have : 0 < Real.sqrt (c.K 0 0 * m) := Real.sqrt_pos.2 (mul_pos hK he.mass)
    field_simp
  rw [← hk2] at hz
  obtain ⟨f, hfdef⟩ : ∃ f, f = heave_energy s he hU hK hd hcrit ae hae ae1 P0 v0 hs h0 tstart := ⟨_, rfl⟩
  clear hfdef
  set k := d / (2 * Real.sqrt (c.K 0 0 * m)) with hkdef
  set w := Real.sqrt (c.K 0 0 / m) with hwdef
  have zx : 0 < w * dt := mul_pos hw hdt
  have hr : 1 < 1 - 2 * k * (w * dt) + (w * dt) ^ 2 := by nlinarith
  have hV : 0 < energy k w (P0 2 - (h + c.zEq + W / c.K 0 0)) (v0 2) := energy_pos _ _ hw k0 k1 (hv.imp sub_ne_zero.2 id)
  have hgrow : Filter.Tendsto (fun i : ℕ => (1 - 2 * k * (w * dt) + (w * dt) ^ 2) ^ i * energy k w (P0 2 - (h + c.zEq + W / c.K 0 0)) (v0 2))
      Filter.atTop Filter.atTop := (tendsto_pow_atTop_atTop_of_one_lt hr).atTop_mul_const hV
  obtain ⟨n, hn⟩ := Filter.eventually_atTop.1 (hgrow.eventually (Filter.eventually_gt_atTop (2 * |B|)))
  refine ⟨n, fun tend N hN hfirst fuel hf => ?_⟩
  obtain ⟨s', obs, a1, a2, a3⟩ := f tend dt hdt hh N hN hfirst fuel hf eulerMethod _ (Or.inl ⟨rfl, rfl⟩)
  refine ⟨s', obs, a1, a2, fun i hi hni => ?_⟩
  obtain ⟨-, P, v, a4, a5⟩ := a3 i hi
  refine ⟨P, v, a4, ?_⟩
  have h1 := hn i hni
  have h2 := (energy_bounds w (P 2 - (h + c.zEq + W / c.K 0 0)) (v 2) k0 k1).2
  rw [a5] at h2
  rw [← hw2, ← mul_pow]
  have h3 : 0 ≤ (w * (P 2 - (h + c.zEq + W / c.K 0 0))) ^ 2 + (v 2) ^ 2 := by positivity
  have h4 : (1 + k) * ((w * (P 2 - (h + c.zEq + W / c.K 0 0))) ^ 2 + (v 2) ^ 2) ≤ 2 * ((w * (P 2 - (h + c.zEq + W / c.K 0 0))) ^ 2 + (v 2) ^ 2) :=
    mul_le_mul_of_nonneg_right (by linarith) h3
  have h5 := le_abs_self B
  change 2 * |B| < (1 - 2 * k * (w * dt) + (w * dt) ^ 2) ^ i * energy k w (P0 2 - (h + c.zEq + W / c.K 0 0)) (v0 2) at h1
  linarith

/-! ### A concrete case -/

/-- Stiffness of the barge: 10 kN/m in heave, and in roll and pitch. -/
def bargeHydrostatics : LinearHydrostatics where
  K := ![![10000, 0, 0], ![0, 5000, 0], ![0, 0, 8000]]
  zEq := -1
  phiEq := 0
  thetaEq := 0
  x := ![5, 5, -5, -5]
  y := ![-2, 2, -2, 2]

/-- Its weight and a damping in heave and in surge. -/
noncomputable def bargeWithDamping : List Push := [.gravity ((1000 : ℝ) • 1) 9.81, .linearDamping 0 (Matrix.diagonal ![50, 0, 500, 0, 0, 0])]

/-- A sea whose level goes up or down. -/
def levelSea (level : ℝ → ℝ) (xs _ys : List ℝ) (t : ℝ) : Except Err (List ℝ) := .ok (xs.map fun _ => level t)

noncomputable def bargeAfloat (level : ℝ → ℝ) : Multi.Entry ℝ :=
  ⟨barge, bargeWithDamping.map (Push.model barge) ++ [linearHydrostaticModel barge bargeHydrostatics (fun _ => (0, 0, 0)) (levelSea level)], []⟩

theorem barge_heaves (level : ℝ → ℝ) :
    Heaving (bargeAfloat level) bargeWithDamping ((1000 : ℝ) • 1) bargeHydrostatics (fun _ => (0, 0, 0)) (levelSea level) level 1000 9810 500
      (fun v => (-(50 * v 0) / 1000, 0)) ⟨1, 0, 0, 0⟩ where
  idx := rfl
  name := show "barge" ≠ "NED" by decide
  free _ := rfl
  inverse := by simp [bargeAfloat, barge]
  mass := by norm_num
  heave i := by fin_cases i <;> simp
  forces := rfl
  controlled := rfl
  others v := by
    have e1 : cross v (0 : Vec3 ℝ) = 0 := by funext i; fin_cases i <;> simp [cross]
    simp only [resultant, bargeAfloat, barge, bargeWithDamping, List.map_cons, List.map_nil, List.sum_cons, List.sum_nil, Push.wrench, e1]
    rw [Matrix.smul_mulVec, Matrix.one_mulVec]
    funext i; fin_cases i <;> simp [Multi.toVector, Quat.matrix, Matrix.mulVec, dotProduct, Fin.sum_univ_three, Fin.sum_univ_six, Matrix.diagonal] <;> ring
  sea _ _ _ := rfl
  roll := rfl
  pitch := rfl
  noRoll := rfl
  noPitch := rfl
  unit := by simp [Unit4]

/-- In calm water, with steps of 0.1 s, the barge settles at 0.019 m above the surface: 0.981 m below the equilibrium of `bargeHydrostatics`. -/
example (ae1 : ℝ → Bool) (ε : ℝ) (hε : 0 < ε) :
    ∃ n : Nat, ∀ (tend : ℝ) (N : Nat), tend ≤ 0 + N * 0.1 → (∀ i < N, 0 + (i : ℝ) * 0.1 < tend) → ∀ fuel, N ≤ fuel →
      ∃ s' obs, quicksolve (simSystem (oneBody (bargeAfloat fun _ => 0) (fun _ a b => decide (a = b)) ae1) rk4Method.stepper) fuel
          ⟨vec13 ![0, 0, 3] ![1, 0, 2] 0 ⟨1, 0, 0, 0⟩, noHistory, fun _ => none, [], 0⟩ 0 tend 0.1 = some (.ok (s', obs)) ∧
        obs.length = N + 1 ∧ ∀ (i : Nat) (hi : i < obs.length), n ≤ i →
          ∃ P v, obs[i].x = vec13 P v 0 ⟨1, 0, 0, 0⟩ ∧ |P 2 - -0.019| < ε := by
  have := heave_settles (C := 1) (S := 0) ⟨vec13 ![0, 0, 3] ![1, 0, 2] 0 ⟨1, 0, 0, 0⟩, noHistory, fun _ => none, [], 0⟩ (barge_heaves fun _ => 0)
    (by rw [Upright]; ext i j; fin_cases i <;> fin_cases j <;> simp [Quat.matrix]) (by simp [bargeHydrostatics]) (by norm_num)
    (by simp [bargeHydrostatics]; norm_num) (fun _ a b => decide (a = b)) (fun _ a => by simp) ae1 _ _ rfl
    (fun n => by cases n <;> rfl) 0 0.1 (by norm_num) (noHistory_notAfter _ _) ?_ ε hε
  · rwa [show (0 : ℝ) + bargeHydrostatics.zEq + 9810 / bargeHydrostatics.K 0 0 = -0.019 by simp [bargeHydrostatics]; norm_num] at this
  · have : Real.sqrt (bargeHydrostatics.K 0 0 / 1000) ≤ 4 := by
      rw [Real.sqrt_le_left (by norm_num)]
      simp [bargeHydrostatics]; norm_num
    linarith

end Xdyn.Sim

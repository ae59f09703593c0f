import Verif.Props.Motion

/-! Property C177: captive body (all its velocities are prescribed), with the solver of the executable
`xdyn` and with the one of the co-simulation. -/

namespace Xdyn.Sim

open Blocked Body Spec Solver

/-- The value prescribed for each velocity: the body translates with velocity `U` in its own axes and
does not turn. -/
def prescribed (U : Vec3 ℝ) : BlockableState → ℝ
  | .U => U 0
  | .V => U 1
  | .W => U 2
  | _ => 0

/-- A body whose six velocities are prescribed, and constant, at the dates of `W`. -/
structure Captive (e : Multi.Entry ℝ) (U : Vec3 ℝ) (W : ℝ → Prop) : Prop where
  idx : e.body.idx = 0
  name : e.body.name ≠ "NED"
  bodyIdx : e.body.blocked.bodyIdx = 0
  active : ∀ s t, W t → isBlockedAt e.body.blocked s t = true
  dof : ∀ s, ∃ i, e.body.blocked.dof s = some i ∧ ∀ t, W t → i.f t = .ok (prescribed U s) ∧ i.df t = .ok 0

theorem forceOne_captive {e : Multi.Entry ℝ} {U : Vec3 ℝ} {W : ℝ → Prop} (h : Captive e U W) (s : BlockableState) (x : List ℝ)
    (t : ℝ) (ht : W t) : forceOne Interp.f e.body.blocked t x s = setUB x (stateIndex 0 s) (prescribed U s) ∧
      forceOne Interp.df e.body.blocked t x s = setUB x (stateIndex 0 s) 0 := by
  obtain ⟨i, h1, h2⟩ := h.dof s
  simp only [forceOne, h1, h.active s t ht, if_true, (h2 t ht).1, (h2 t ht).2, h.bodyIdx, and_self]

theorem forceStates_captive {e : Multi.Entry ℝ} {U : Vec3 ℝ} {W : ℝ → Prop} (h : Captive e U W) (p u w : Vec3 ℝ) (q : Quat ℝ)
    (t : ℝ) (ht : W t) : forceStates e.body.blocked (vec13 p u w q) t = .ok (vec13 p U 0 q) := by
  simp only [forceStates, allStates, List.foldlM_cons, List.foldlM_nil, (forceOne_captive h _ _ t ht).1, bind, Except.bind, pure,
    Except.pure]
  rfl

theorem forceDerivatives_captive {e : Multi.Entry ℝ} {U : Vec3 ℝ} {W : ℝ → Prop} (h : Captive e U W) (a b c : Vec3 ℝ)
    (d : Quat ℝ) (t : ℝ) (ht : W t) : forceStateDerivatives e.body.blocked (vec13 a b c d) t = .ok (vec13 a 0 0 d) := by
  simp only [forceStateDerivatives, allStates, List.foldlM_cons, List.foldlM_nil, (forceOne_captive h _ _ t ht).2, bind,
    Except.bind, pure, Except.pure]
  rfl

theorem eval_captive {e : Multi.Entry ℝ} {U : Vec3 ℝ} {W : ℝ → Prop} (he : Captive e U W) (c : Commands ℝ)
    (h : States (History ℝ)) (p u : Vec3 ℝ) (q : Quat ℝ) (t : ℝ) (ht : W t) (F : Vec3 ℝ × Vec3 ℝ)
    (hF : Multi.sumOfForces c e.body e.forces e.controlled h (framesAt e.body.name p q) (vec13 p u 0 q) t = .ok F) :
    (onePhysics e).eval c h (vec13 p u 0 q) t = .ok (vec13 (q.matrix.mulVec u) 0 0 ⟨0, 0, 0, 0⟩, F) := by
  have hk : Multi.updateKinematics e.body (vec13 p u 0 q) [] = .ok (framesAt e.body.name p q) := by
    simp only [Multi.updateKinematics, he.idx]
    rfl
  have hg : Multi.Kin.get (framesAt e.body.name p q) "NED" e.body.name = .ok ⟨![p 0, p 1, p 2], q.matrix⟩ := by
    rw [Multi.Kin.get, frame_of_body _ he.name]
    simp [Multi.frameOf]
  simp only [onePhysics, hk, hF, hg, bind, Except.bind, pure, Except.pure, stateDerivatives, he.idx]
  rw [show (vec13 p u 0 q).length = 13 from rfl, unforced_vec13]
  simp only [forceDerivatives_captive he _ _ _ _ t ht]
  have hu : (![u 0, u 1, u 2] : Vec3 ℝ) = u := by funext i; fin_cases i <;> rfl
  rw [hu]
  simp [vec13, Quat.mul]

/-- A step from a state in which the body does not turn: it moves with the velocity of that state. -/
theorem captive_step {e : Multi.Entry ℝ} {U : Vec3 ℝ} {W : ℝ → Prop} (he : Captive e U W) (ae : Nat → ℝ → ℝ → Bool)
    (hae : ∀ n a, ae n a a = true) (ae1 : ℝ → Bool) (T : Tableau ℝ) (hT : Forward T) (hC : Consistent 0 T.stages)
    (hw : T.weights.length ≤ T.stages.length) (h1 : T.weights.sum = 1) (p u : Vec3 ℝ) (q : Quat ℝ) (hq : Unit4 q)
    (t dt : ℝ) (hdt : 0 < dt) (hW : ∀ t', t ≤ t' → t' ≤ t + dt → W t') (s : Sim ℝ (Vec3 ℝ × Vec3 ℝ))
    (hs : s.state = vec13 p u 0 q) (hb : ∀ n, Before (field s.hist n) t)
    (hforces : ∀ h p' u' t', W t' → ∃ F, Multi.sumOfForces s.commands e.body e.forces e.controlled h (framesAt e.body.name p' q)
      (vec13 p' u' 0 q) t' = .ok F) :
    ∃ s', (T.stepper s.state t dt).run (oneBody e ae ae1) s = .ok s' ∧ s'.commands = s.commands ∧
      s'.state = vec13 (p + dt • q.matrix.mulVec u) u 0 q ∧ ∀ n, Before (field s'.hist n) (t + dt) := by
  have hinj : ∀ {p u p' u' : Vec3 ℝ}, vec13 p u 0 q = vec13 p' u' 0 q → u' = u := by
    intro p u p' u' h'
    simp only [vec13, List.cons.injEq] at h'
    obtain ⟨-, -, -, a, b, c, -⟩ := h'
    funext i; fin_cases i
    exacts [a.symm, b.symm, c.symm]
  have hE : Evaluates (oneBody e ae ae1) s.commands W (fun x => ∃ p u, x = vec13 p u 0 q)
      (fun k => ∃ v, k = vec13 v 0 0 ⟨0, 0, 0, 0⟩)
      (fun x _ k => ∀ p u, x = vec13 p u 0 q → k = vec13 (q.matrix.mulVec u) 0 0 ⟨0, 0, 0, 0⟩) := by
    refine ⟨?_, ?_, ?_⟩
    · rintro x t ht ⟨p, u, rfl⟩
      exact ⟨_, forceStates_captive he _ _ _ _ _ ht, by simp [vec13]⟩
    · rintro x ⟨p, u, rfl⟩
      exact ⟨_, normalize_unit ae1 _ _ _ _ hq⟩
    · rintro h x y t ht ⟨p, u, rfl⟩ hy hc -
      obtain ⟨F, hF⟩ := hforces h p u t ht
      exact ⟨_, _, eval_captive he s.commands h p u q t ht F hF, ⟨_, rfl⟩, fun p' u' h' => by rw [hinj h']⟩
  have hgood : ∀ (as : List ℝ) (ks : List (List ℝ)) (p u : Vec3 ℝ), (∀ k ∈ ks, ∃ v, k = vec13 v 0 0 ⟨0, 0, 0, 0⟩) →
      ∃ p' u', combine dt (vec13 p u 0 q) as ks = vec13 p' u' 0 q := by
    intro as
    induction as with
    | nil => intro ks p u _; exact ⟨p, u, by simp [combine, vec13]⟩
    | cons a as ih =>
      intro ks p u hk
      cases ks with
      | nil => exact ⟨p, u, by simp [combine]⟩
      | cons k ks =>
        obtain ⟨v, rfl⟩ := hk k (by simp)
        rw [combine, show List.zipWith (fun xi ki => xi + dt * a * ki) (vec13 p u 0 q) (vec13 v 0 0 ⟨0, 0, 0, 0⟩) =
          vec13 (p + (dt * a) • v) u 0 q by simp [vec13]]
        exact ih ks _ _ fun k hk' => hk k (by simp [hk'])
  obtain ⟨s2, fin, e1, hc, -, hst, h4, h5, -⟩ := step_run hae hE T hT t dt hdt.le s rfl hW
    (fun a ks hk => by rw [hs]; exact hgood a ks p u hk) hb (fun _ => trivial)
  refine ⟨s2, e1, hc, ?_, h5⟩
  rw [hs] at hst h4
  have hfin := stages_slope dt t q.matrix 0 p u q T.stages [] fin hC hst
  rw [List.nil_append] at hfin
  rw [h4, hfin, combine_slope dt _ _ _ q _ _ _ _ (by simpa using hw), h1, mul_one]
  simp

/-- What a user expects of a captive body: from `p`, with the prescribed velocity `U` (in the axes of the
body) and a fixed attitude. -/
noncomputable def straightLine (p U : Vec3 ℝ) (q : Quat ℝ) (τ : ℝ) : Vec3 ℝ := p + τ • q.matrix.mulVec U

/-- Position given by the solver of the co-simulation, when the velocity of the initial state is `u`. -/
noncomputable def lateLine (p u U : Vec3 ℝ) (q : Quat ℝ) (dt : ℝ) : Nat → Vec3 ℝ
  | 0 => p
  | i + 1 => p + dt • q.matrix.mulVec u + (i * dt) • q.matrix.mulVec U

/-- Velocity of the state in that solver. -/
def lateVelocity (u U : Vec3 ℝ) : Nat → Vec3 ℝ
  | 0 => u
  | _ + 1 => U

section Run

variable {e : Multi.Entry ℝ} {U : Vec3 ℝ} (ae : Nat → ℝ → ℝ → Bool) (hae : ∀ n a, ae n a a = true) (ae1 : ℝ → Bool)
  (T : Tableau ℝ) (hT : Forward T) (hC : Consistent 0 T.stages) (hw : T.weights.length ≤ T.stages.length)
  (h1 : T.weights.sum = 1) (s : Sim ℝ (Vec3 ℝ × Vec3 ℝ)) (tstart tend dt : ℝ) (hdt : 0 < dt)
  (hh : NotAfter ae s.hist tstart) (N : Nat) (hN : tend ≤ tstart + N * dt)
  (hfirst : ∀ i < N, tstart + (i : ℝ) * dt < tend) (fuel : Nat) (hf : N ≤ fuel)
  (p u : Vec3 ℝ) (q : Quat ℝ) (hq : Unit4 q) (hs : s.state = vec13 p u 0 q)
  (he : Captive e U (fun t => tstart ≤ t ∧ t ≤ tstart + N * dt))
  (hforces : ∀ h p' u' t', ∃ F, Multi.sumOfForces s.commands e.body e.forces e.controlled h (framesAt e.body.name p' q)
      (vec13 p' u' 0 q) t' = .ok F)

include hae hT hC hw h1 hdt hh hN hfirst hf hq hs he hforces

/-- Any of the two loops, from the sequence of its states. -/
theorem captive_run (sys : System ℝ (Sim ℝ (Vec3 ℝ × Vec3 ℝ)) (Res ℝ Unit))
    (hsys : sys.doStep = (simSystem (oneBody e ae ae1) T.stepper).doStep ∧ sys.observe = (simSystem (oneBody e ae ae1) T.stepper).observe)
    (P V : Nat → Vec3 ℝ) (hP0 : P 0 = p) (hV0 : V 0 = u)
    (hforce : ∀ i < N, ∀ s1 : Sim ℝ (Vec3 ℝ × Vec3 ℝ), s1.state = vec13 (P i + dt • q.matrix.mulVec (V i)) (V i) 0 q →
      sys.force s1 (tstart + i * dt) = .ok { s1 with state := vec13 (P (i + 1)) (V (i + 1)) 0 q }) :
    ∃ s' obs, quicksolve sys fuel s tstart tend dt = some (.ok (s', obs)) ∧
      obs.map (fun o => (o.t, o.x)) =
        (List.range (N + 1)).map (fun i : Nat => (tstart + (i : ℝ) * dt, vec13 (P i) U 0 q)) := by
  have hin : ∀ i : Nat, i ≤ N → tstart ≤ tstart + (i : ℝ) * dt ∧ tstart + (i : ℝ) * dt ≤ tstart + N * dt := by
    intro i hi
    have h : (i : ℝ) ≤ N := by exact_mod_cast hi
    exact ⟨le_add_of_nonneg_right (by positivity), by nlinarith⟩
  obtain ⟨s', obs, e1, -, hq'⟩ := quicksolve_of_invariant sys s tstart tend dt N hN hfirst
    (fun i s1 => s1.commands = s.commands ∧ s1.state = vec13 (P i) (V i) 0 q ∧
      ∀ n, Before (field s1.hist n) (tstart + i * dt))
    (fun i o => o.t = tstart + i * dt ∧ o.x = vec13 (P i) U 0 q)
    ⟨rfl, by rw [hs, hP0, hV0], fun n => by simpa using hh.before hae n⟩
    (by
      rintro i s1 hi ⟨hc, h2, h3⟩
      obtain ⟨s2, e1, h4, h5, h6⟩ := captive_step he ae hae ae1 T hT hC hw h1 (P i) (V i) q hq (tstart + i * dt) dt hdt
        (fun t' a b => ⟨(hin i hi.le).1.trans a, b.trans (by
          have := (hin (i + 1) hi).2
          push_cast at this
          linarith)⟩) s1 h2 h3 (fun h p' u' t' _ => by rw [hc]; exact hforces h p' u' t')
      refine ⟨s2, _, ?_, hforce i hi s2 h5, h4.trans hc, rfl, fun n => ?_⟩
      · rw [hsys.1]; exact e1
      · have := h6 n
        push_cast
        rw [show tstart + ((i : ℝ) + 1) * dt = tstart + i * dt + dt by ring]
        exact this)
    (by
      rintro i s1 hi ⟨hc, h2, h3⟩
      refine ⟨⟨tstart + i * dt, vec13 (P i) U 0 q, ()⟩, ?_, rfl, rfl⟩
      rw [hsys.2]
      simp only [simSystem, Sim.observe, outputStates, List.foldlM_cons, List.foldlM_nil, oneBody, bind,
          Except.bind, pure, Except.pure, h2, forceStates_captive he _ _ _ _ _ (hin i hi), normalize_unit ae1 _ _ _ _ hq]) fuel hf
  refine ⟨s', _, e1, ?_⟩
  simp only [List.map_map]
  exact List.map_congr_left fun i hi => by
    obtain ⟨a, b⟩ := hq' i (by simpa [Nat.lt_succ_iff] using hi)
    simp only [Function.comp_apply, a, b]

/-- **C177** With the executable `xdyn`, a body whose velocities are all prescribed is observed with these
velocities, but it moves with the velocity `u` of its initial state, for ever. -/
theorem captive_body_xdyn :
    ∃ s' obs, quicksolve (sscSystem (oneBody e ae ae1) T.stepper) fuel s tstart tend dt = some (.ok (s', obs)) ∧
      obs.map (fun o => (o.t, o.x)) =
        (List.range (N + 1)).map (fun i : Nat => (tstart + (i : ℝ) * dt, vec13 (straightLine p u q (i * dt)) U 0 q)) := by
  refine captive_run ae hae ae1 T hT hC hw h1 s tstart tend dt hdt hh N hN hfirst fuel hf p u q hq hs he hforces
    (sscSystem (oneBody e ae ae1) T.stepper) ⟨rfl, rfl⟩ (fun i => straightLine p u q (i * dt)) (fun _ => u) (by simp [straightLine]) rfl ?_
  intro i _ s1 h
  have : straightLine p u q ((i + 1 : ℕ) * dt) = straightLine p u q (i * dt) + dt • q.matrix.mulVec u := by
    simp only [straightLine]
    push_cast
    module
  simp only [this, sscSystem]
  rw [← h]

/-- **C177** In a co-simulation, the velocity of the initial state is used for the first step only. -/
theorem captive_body_cosim :
    ∃ s' obs, quicksolve (simSystem (oneBody e ae ae1) T.stepper) fuel s tstart tend dt = some (.ok (s', obs)) ∧
      obs.map (fun o => (o.t, o.x)) =
        (List.range (N + 1)).map (fun i : Nat => (tstart + (i : ℝ) * dt, vec13 (lateLine p u U q dt i) U 0 q)) := by
  refine captive_run ae hae ae1 T hT hC hw h1 s tstart tend dt hdt hh N hN hfirst fuel hf p u q hq hs he hforces
    (simSystem (oneBody e ae ae1) T.stepper) ⟨rfl, rfl⟩ (lateLine p u U q dt) (lateVelocity u U) rfl rfl ?_
  intro i hi s1 h
  have hin : tstart ≤ tstart + (i : ℝ) * dt ∧ tstart + (i : ℝ) * dt ≤ tstart + N * dt := by
    have h : (i : ℝ) ≤ N := by exact_mod_cast hi.le
    exact ⟨le_add_of_nonneg_right (by positivity), by nlinarith⟩
  have e1 : lateLine p u U q dt i + dt • q.matrix.mulVec (lateVelocity u U i) = lateLine p u U q dt (i + 1) := by
    cases i with
    | zero => simp [lateLine, lateVelocity]
    | succ i =>
      simp only [lateLine, lateVelocity]
      push_cast
      module
  rw [e1] at h
  simp only [simSystem, forceAllStates, List.foldlM_cons, List.foldlM_nil, oneBody, h, bind, Except.bind, pure, Except.pure,
    forceStates_captive he _ _ _ _ _ hin]
  rfl

/-- **C177** (velocity of the initial state equal to the prescribed one) A captive body follows the straight
line, whatever the forces, with both solvers. -/
theorem captive_body_partial (hu : u = U) (sys : System ℝ (Sim ℝ (Vec3 ℝ × Vec3 ℝ)) (Res ℝ Unit))
    (hsys : sys = sscSystem (oneBody e ae ae1) T.stepper ∨ sys = simSystem (oneBody e ae ae1) T.stepper) :
    ∃ s' obs, quicksolve sys fuel s tstart tend dt = some (.ok (s', obs)) ∧
      obs.map (fun o => (o.t, o.x)) =
        (List.range (N + 1)).map (fun i : Nat => (tstart + (i : ℝ) * dt, vec13 (straightLine p U q (i * dt)) U 0 q)) := by
  subst hu
  rcases hsys with rfl | rfl
  · exact captive_body_xdyn ae hae ae1 T hT hC hw h1 s tstart tend dt hdt hh N hN hfirst fuel hf p u q hq hs he hforces
  · obtain ⟨s', obs, a, b⟩ := captive_body_cosim ae hae ae1 T hT hC hw h1 s tstart tend dt hdt hh N hN hfirst fuel hf p u q hq hs
      he hforces
    refine ⟨s', obs, a, b.trans (List.map_congr_left fun i _ => ?_)⟩
    have : lateLine p u u q dt i = straightLine p u q (i * dt) := by
      cases i with
      | zero => simp [lateLine, straightLine]
      | succ i =>
        simp only [lateLine, straightLine]
        push_cast
        module
    rw [this]

end Run

/-- **C177, refuted** With the executable `xdyn` the distance between the observed position and the one given
by the prescribed velocities has no bound, as soon as the initial state has another velocity. -/
theorem captive_body_drifts (p u U : Vec3 ℝ) (q : Quat ℝ) (hq : Unit4 q) (hu : u ≠ U) (B : ℝ) :
    ∃ τ0, ∀ τ, τ0 ≤ τ → ∃ k, B < |straightLine p u q τ k - straightLine p U q τ k| := by
  have hne : q.matrix.mulVec (u - U) ≠ 0 := by
    intro h
    apply hu
    have h2 : q.matrix.transpose.mulVec (q.matrix.mulVec (u - U)) = 0 := by rw [h, Matrix.mulVec_zero]
    rw [Matrix.mulVec_mulVec, mul_eq_one_comm.1 (matrix_unit q hq), Matrix.one_mulVec] at h2
    exact sub_eq_zero.1 h2
  obtain ⟨k, hk⟩ := Function.ne_iff.1 hne
  have hk' : 0 < |q.matrix.mulVec (u - U) k| := abs_pos.2 hk
  refine ⟨max 0 ((B + 1) / |q.matrix.mulVec (u - U) k|), fun τ hτ => ⟨k, ?_⟩⟩
  have e1 : straightLine p u q τ k - straightLine p U q τ k = τ * q.matrix.mulVec (u - U) k := by
    simp only [straightLine, Matrix.mulVec_sub, Pi.add_apply, Pi.smul_apply, Pi.sub_apply, smul_eq_mul]
    ring
  have h0 : 0 ≤ τ := (le_max_left _ _).trans hτ
  have h2 := (div_le_iff₀ hk').1 ((le_max_right _ _).trans hτ)
  rw [e1, abs_mul, abs_of_nonneg h0]
  linarith

/-- The two solvers are the same for a body none of whose states is blocked: C173 to C176 hold for both. -/
theorem drivers_agree (e : Multi.Entry ℝ) (he : Alone e) (ae : Nat → ℝ → ℝ → Bool) (ae1 : ℝ → Bool) (T : Tableau ℝ) :
    sscSystem (oneBody e ae ae1) T.stepper = simSystem (oneBody e ae ae1) T.stepper := by
  simp only [sscSystem, simSystem, forceAllStates, List.foldlM_cons, List.foldlM_nil, oneBody, forceStates_free he.free, bind,
    Except.bind, pure, Except.pure]

/-! ### Example -/

/-- A ball towed at 3 m/s between 0 and 100 s, under gravity. -/
noncomputable def towed : Multi.MBody ℝ :=
  { ball with blocked :=
    { dof := fun s => some ⟨fun _ => .ok (prescribed ![3, 0, 0] s), fun _ => .ok 0⟩
      bodyIdx := 0
      tmin := fun _ => some 0
      tmax := fun _ => some 100 } }

noncomputable def towedBall : Multi.Entry ℝ := ⟨towed, [gravityModel towed ((2 : ℝ) • 1) 9.81], []⟩

theorem towedBall_captive : Captive towedBall ![3, 0, 0] (fun t => (0 : ℝ) ≤ t ∧ t ≤ 0 + (4 : ℕ) * 0.3) where
  idx := rfl
  name := by decide
  bodyIdx := rfl
  active s t ht := by
    simp only [towedBall, towed, isBlockedAt, Bool.and_eq_true, decide_eq_true_eq]
    norm_num at ht
    exact ⟨ht.1, by linarith⟩
  dof s := ⟨_, rfl, fun _ _ => ⟨rfl, rfl⟩⟩

theorem towedBall_forces (c : Commands ℝ) (h : States (History ℝ)) (p u : Vec3 ℝ) (q : Quat ℝ) (t : ℝ) :
    ∃ F, Multi.sumOfForces c towedBall.body towedBall.forces towedBall.controlled h (framesAt towedBall.body.name p q)
      (vec13 p u 0 q) t = .ok F := by
  have hg : Multi.Kin.get (framesAt "ball" p q) "ball" "NED" =
      .ok ⟨q.matrix.transpose.mulVec (0 - ![p 0, p 1, p 2]), q.matrix.transpose * 1⟩ := by
    rw [Multi.Kin.get, frame_of_body "ball" (by decide)]; simp [Multi.frameOf]
  have hb : towed.name = "ball" := rfl
  refine ⟨_, (Multi.sumOfForces_iff ..).2 ⟨(![u 0, u 1, u 2], ![0, 0, 0]),
    [((q.matrix.transpose.mulVec ![0, 0, ((2 : ℝ) • (1 : Mat6 ℝ)) 2 2 * 9.81], ![0, 0, 0]) : Vec3 ℝ × Vec3 ℝ)], [], rfl, ?_, rfl, rfl⟩⟩
  show List.mapM (Multi.valueOf towed h (framesAt "ball" p q) t) [gravityModel towed ((2 : ℝ) • 1) 9.81] = _
  simp only [List.mapM_cons, List.mapM_nil, Multi.valueOf, gravityModel, hg, Multi.contribution, bind,
    Except.bind, pure, Except.pure, Matrix.mul_one, ne_eq, not_true_eq_false, if_false, hb]

/-- Starting at 1 m/s, the ball that `xdyn` shows at 3 m/s moves at 1 m/s. -/
example (ae1 : ℝ → Bool) :
    ∃ s' obs, quicksolve (sscSystem (oneBody towedBall (fun _ a b => decide (a = b)) ae1) eulerMethod.stepper) 10
        ⟨vec13 ![0, 0, 0] ![1, 0, 0] 0 ⟨1, 0, 0, 0⟩, noHistory, fun _ => none, [], 0⟩ 0 1 0.3 = some (.ok (s', obs)) ∧
      obs.map (fun o => (o.t, o.x)) = (List.range 5).map (fun i : Nat => (0 + (i : ℝ) * 0.3,
        vec13 (straightLine ![0, 0, 0] ![1, 0, 0] ⟨1, 0, 0, 0⟩ (i * 0.3)) ![3, 0, 0] 0 ⟨1, 0, 0, 0⟩)) :=
  captive_body_xdyn _ (fun _ a => by simp) ae1 eulerMethod euler_forward
    (by simp only [eulerMethod, Consistent, List.length_nil, List.sum_nil]; norm_num)
    (by simp [eulerMethod]) (by simp [eulerMethod]) _ 0 1 0.3 (by norm_num) (noHistory_notAfter _ _) 4 (by norm_num)
    (fun i hi => by
      have : (i : ℝ) ≤ 3 := by exact_mod_cast (by omega : i ≤ 3)
      linarith) 10 (by norm_num) _ _ _ (by simp [Unit4]) rfl towedBall_captive
    (fun h p u t => towedBall_forces _ h p u _ t)

end Xdyn.Sim

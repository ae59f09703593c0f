import Verif.Spec.RungeKutta
import Verif.Spec.Push
import Verif.Props.Motion

/-! Property C179: a simulation whose force models have no memory is the method of the solver applied
to the equations of motion. -/

namespace Xdyn.Sim

open Blocked Body Spec Solver

section
variable {K : Type} [Field K] [LinearOrder K] [IsStrictOrderedRing K] {Γ E : Type}

omit [LinearOrder K] [IsStrictOrderedRing K] in
theorem combine_move (dt : K) : ∀ (a : List K) (x : List K) (ks : List (List K)), combine dt x a ks = RK.move dt x a ks
  | [], x, ks => by simp [combine, RK.move]
  | a :: as, x, [] => by simp [combine, RK.move]
  | a :: as, x, k :: ks => by
    rw [combine, combine_move dt as]
    simp [RK.move]

omit [LinearOrder K] [IsStrictOrderedRing K] in
theorem stages_rk (f : List K → K → List K) (Good D : List K → Prop) (x : List K) (t dt : K)
    (hgood : ∀ a ks, (∀ k ∈ ks, D k) → Good (combine dt x a ks)) (hD : ∀ x t, Good x → D (f x t)) :
    ∀ (rows : List (K × List K)) (ks fin : List (List K)), (∀ k ∈ ks, D k) →
      Stages (fun x t k => k = f x t) x t dt rows ks fin → fin = RK.rkStages f x t dt rows ks
  | [], ks, fin, _, h => h
  | (c, a) :: rest, ks, fin, hk, ⟨k, e, h⟩ => by
    rw [RK.rkStages, ← combine_move, ← e]
    refine stages_rk f Good D x t dt hgood hD rest _ fin (fun k' hk' => ?_) h
    rcases List.mem_append.1 hk' with h1 | h1
    · exact hk k' h1
    · rw [List.mem_singleton.1 h1, e]
      exact hD _ _ (hgood a ks hk)

/-- The force models of a simulation have no memory on the states `Good`, with the commands `cmd`: when the
histories keep no past (which is the case when no force model asks for it), the derivatives are a function `f` of
the states and of the date, and the states that are not integrated are a function `F` of them too.  `Good` is stable
by the moves along the derivatives, which are in `D`. -/
structure Memoryless (S : Setup K Γ E) (cmd : Commands K) (f F : List K → K → List K) (Good D : List K → Prop) : Prop where
  force : ∀ x t, Good x → forceStates S.blocked x t = .ok (F x t) ∧ 13 ≤ (F x t).length ∧ Good (F x t)
  norm : ∀ x, Good x → ∃ y, S.normalize x = .ok y
  eval : ∀ h x t, Good x → Current h (F x t) → (∀ n, (field h n).Tmax = 0) → ∃ g, S.physics.eval cmd h x t = .ok (f x t, g)
  deriv : ∀ x t, Good x → D (f x t)
  move : ∀ dt x a ks, Good x → (∀ k ∈ ks, D k) → Good (RK.move dt x a ks)

theorem rk_observations {S : Setup K Γ E} {cmd : Commands K} {f F G : List K → K → List K} {Good D : List K → Prop}
    (hM : Memoryless S cmd f F Good D) (hae : ∀ n a, S.ae n a a = true)
    (sys : System K (Sim K Γ) (Res K E)) (T : Tableau K) (hT : Forward T)
    (hdo : ∀ s t dt, sys.doStep s t dt = (T.stepper s.state t dt).run S s) (hobs : ∀ s t, sys.observe s t = s.observe S t)
    (hforce : ∀ s t, Good s.state → sys.force s t = .ok { s with state := G s.state t })
    (hG : ∀ x t, Good x → Good (G x t))
    (s : Sim K Γ) (hc : s.commands = cmd) (hs : Good s.state) (h0 : ∀ n, (field s.hist n).Tmax = 0)
    (tstart tend dt : K) (hdt : 0 < dt) (hh : ∀ n, Before (field s.hist n) tstart) (N : Nat) (hN : tend ≤ tstart + N * dt)
    (hfirst : ∀ i < N, tstart + (i : K) * dt < tend) (fuel : Nat) (hf : N ≤ fuel) :
    ∃ s' obs, quicksolve sys fuel s tstart tend dt = some (.ok (s', obs)) ∧
      s'.state = RK.rkRun f G T s.state tstart dt N ∧ obs.length = N + 1 ∧
      ∀ (i : Nat) (hi : i < obs.length), obs[i].t = tstart + i * dt ∧
        S.normalize (F (RK.rkRun f G T s.state tstart dt i) (tstart + i * dt)) = .ok obs[i].x := by
  set X := RK.rkRun f G T s.state tstart dt with hX
  have hE : Evaluates S cmd (fun _ => True) Good D (fun x t k => k = f x t) (fun T => T = 0) := by
    refine ⟨fun x t _ hx => ⟨_, (hM.force x t hx).1, (hM.force x t hx).2.1⟩, hM.norm, ?_⟩
    intro h x y t _ hx hy hcur hP
    rw [(hM.force x t hx).1] at hy
    cases hy
    obtain ⟨g, hg⟩ := hM.eval h x t hx hcur hP
    exact ⟨_, g, hg, hM.deriv x t hx, rfl⟩
  obtain ⟨s', obs, e1, hP', hQ⟩ := quicksolve_of_invariant sys s tstart tend dt N hN hfirst
    (fun i s1 => s1.commands = cmd ∧ s1.state = X i ∧ Good s1.state ∧
      (∀ n, Before (field s1.hist n) (tstart + i * dt)) ∧ ∀ n, (field s1.hist n).Tmax = 0)
    (fun i o => o.t = tstart + i * dt ∧ S.normalize (F (X i) (tstart + i * dt)) = .ok o.x)
    ⟨hc, rfl, hs, fun n => by simpa using hh n, h0⟩
    (by
      rintro i s1 - ⟨h1, h2, h3, h4, h5⟩
      have hgood : ∀ a ks, (∀ k ∈ ks, D k) → Good (combine dt s1.state a ks) := fun a ks hk => by
        rw [combine_move]; exact hM.move dt _ a ks h3 hk
      obtain ⟨s2, fin, e2, hc2, hd, hst, h6, h7, h8⟩ := step_run hae hE T hT (tstart + i * dt) dt hdt.le s1 h1 (fun _ _ _ => trivial)
        hgood h4 h5
      have hg2 : Good s2.state := by rw [h6]; exact hgood _ _ hd
      refine ⟨s2, { s2 with state := G s2.state (tstart + i * dt) }, by rw [hdo]; exact e2, hforce _ _ hg2, hc2, ?_, hG _ _ hg2, fun n => ?_, h8⟩
      · show G s2.state _ = X (i + 1)
        rw [hX, RK.rkRun, ← hX, h6, stages_rk f Good D s1.state _ dt hgood hM.deriv _ _ _ (by simp) hst, combine_move, h2, RK.rkStep]
      · have := h7 n
        push_cast
        rw [show tstart + ((i : K) + 1) * dt = tstart + i * dt + dt by ring]
        exact this)
    (by
      rintro i s1 - ⟨h1, h2, h3, -⟩
      obtain ⟨a, -, b⟩ := hM.force s1.state (tstart + i * dt) h3
      obtain ⟨y, hy⟩ := hM.norm _ b
      refine ⟨⟨tstart + i * dt, y, S.physics.extra s1.cache s1.dxdt y (tstart + i * dt)⟩, ?_, rfl, by rw [← h2]; exact hy⟩
      rw [hobs]
      simp only [Sim.observe, outputStates, List.foldlM_cons, List.foldlM_nil, a, hy, bind, Except.bind, pure, Except.pure]) fuel hf
  refine ⟨s', _, e1, hP'.2.1, by simp, fun i hi => ?_⟩
  have := hQ i (by simp at hi; omega)
  simpa using this

/-- **C179** Co-simulation and model exchange (the loop of `solver.hpp`): with force models that have no memory,
and any method whose stages never go back in time, the simulation goes to the end, and its
observations are the states of the method applied to the derivatives `f`, where the blocked states are
replaced by their values after each step. -/
theorem simulation_is_runge_kutta {S : Setup K Γ E} {cmd : Commands K} {f F : List K → K → List K} {Good D : List K → Prop}
    (hM : Memoryless S cmd f F Good D) (hae : ∀ n a, S.ae n a a = true) (T : Tableau K) (hT : Forward T)
    (s : Sim K Γ) (hc : s.commands = cmd) (hs : Good s.state) (h0 : ∀ n, (field s.hist n).Tmax = 0)
    (tstart tend dt : K) (hdt : 0 < dt) (hh : NotAfter S.ae s.hist tstart) (N : Nat) (hN : tend ≤ tstart + N * dt)
    (hfirst : ∀ i < N, tstart + (i : K) * dt < tend) (fuel : Nat) (hf : N ≤ fuel) :
    ∃ s' obs, quicksolve (simSystem S T.stepper) fuel s tstart tend dt = some (.ok (s', obs)) ∧
      s'.state = RK.rkRun f F T s.state tstart dt N ∧ obs.length = N + 1 ∧
      ∀ (i : Nat) (hi : i < obs.length), obs[i].t = tstart + i * dt ∧
        S.normalize (F (RK.rkRun f F T s.state tstart dt i) (tstart + i * dt)) = .ok obs[i].x := by
  refine rk_observations hM hae (simSystem S T.stepper) T hT (fun _ _ _ => rfl) (fun _ _ => rfl) ?_
    (fun x t hx => (hM.force x t hx).2.2) s hc hs h0 tstart tend dt hdt (hh.before hae) N hN hfirst fuel hf
  intro s t hs
  simp only [simSystem, forceAllStates, List.foldlM_cons, List.foldlM_nil, (hM.force _ t hs).1, bind, Except.bind, pure, Except.pure]

/-- **C179** The executable `xdyn`: the same, the states not being replaced between two steps but in the
observations only. -/
theorem executable_is_runge_kutta {S : Setup K Γ E} {cmd : Commands K} {f F : List K → K → List K} {Good D : List K → Prop}
    (hM : Memoryless S cmd f F Good D) (hae : ∀ n a, S.ae n a a = true) (T : Tableau K) (hT : Forward T)
    (s : Sim K Γ) (hc : s.commands = cmd) (hs : Good s.state) (h0 : ∀ n, (field s.hist n).Tmax = 0)
    (tstart tend dt : K) (hdt : 0 < dt) (hh : NotAfter S.ae s.hist tstart) (N : Nat) (hN : tend ≤ tstart + N * dt)
    (hfirst : ∀ i < N, tstart + (i : K) * dt < tend) (fuel : Nat) (hf : N ≤ fuel) :
    ∃ s' obs, quicksolve (sscSystem S T.stepper) fuel s tstart tend dt = some (.ok (s', obs)) ∧
      s'.state = RK.rkRun f (fun x _ => x) T s.state tstart dt N ∧ obs.length = N + 1 ∧
      ∀ (i : Nat) (hi : i < obs.length), obs[i].t = tstart + i * dt ∧
        S.normalize (F (RK.rkRun f (fun x _ => x) T s.state tstart dt i) (tstart + i * dt)) = .ok obs[i].x :=
  rk_observations hM hae (sscSystem S T.stepper) T hT (fun _ _ _ => rfl) (fun _ _ => rfl) (fun _ _ _ => rfl)
    (fun _ _ hx => hx) s hc hs h0 tstart tend dt hdt (hh.before hae) N hN hfirst fuel hf

end

/-! ### The equations of motion -/

/-- A simulation of one body, none of whose states is blocked, whose forces sum up to a function `F` of the position, of
the velocities and of the attitude, has no memory, and the derivatives are given by the equations of motion. -/
theorem one_body_memoryless (e : Multi.Entry ℝ) (he : Alone e) (ae : Nat → ℝ → ℝ → Bool) (ae1 : ℝ → Bool) (cmd : Commands ℝ)
    (F : Vec3 ℝ → Vec3 ℝ → Vec3 ℝ → Quat ℝ → Vec3 ℝ × Vec3 ℝ) (Good D : List ℝ → Prop) (hlen : ∀ x, Good x → x.length = 13)
    (hF : ∀ h p u w q t, Good (vec13 p u w q) → Current h (vec13 p u w q) → (∀ n, (field h n).Tmax = 0) →
      Multi.sumOfForces cmd e.body e.forces e.controlled h (framesAt e.body.name p q) (vec13 p u w q) t =
        .ok (F p u w q))
    (hderiv : ∀ x t, Good x → D (newton e.body.Minv F x t))
    (hmove : ∀ dt x a ks, Good x → (∀ k ∈ ks, D k) → Good (RK.move dt x a ks)) :
    Memoryless (oneBody e ae ae1) cmd (newton e.body.Minv F) (fun x _ => x) Good D := by
  have hx : ∀ x : List ℝ, x.length = 13 → ∃ p u w q, x = vec13 p u w q := by
    intro x hx
    match x, hx with
    | [a, b, c, d, e, f, g, h, i, j, k, l, m], _ =>
      exact ⟨![a, b, c], ![d, e, f], ![g, h, i], ⟨j, k, l, m⟩, rfl⟩
  refine ⟨fun x t hg => ⟨forceStates_free he.free x t, by simp [hlen x hg], hg⟩, fun x hg => ?_, ?_, hderiv, hmove⟩
  · obtain ⟨y, c, hy, -⟩ := normalizeOne_spec ae1 x 0 (by have := hlen x hg; omega)
    exact ⟨y, by simp [oneBody, normalizeQuaternions, hy, bind, Except.bind, pure, Except.pure]⟩
  · intro h x t hg hc h0
    obtain ⟨p, u, w, q, rfl⟩ := hx x (hlen x hg)
    refine ⟨F p u w q, ?_⟩
    · refine (eval_free e he cmd h p u w q t _ (hF h p u w q t hg hc h0)).trans ?_
      have e1 : Multi.toVector (F ![p 0, p 1, p 2] ![u 0, u 1, u 2] ![w 0, w 1, w 2] q) = ![(F ![p 0, p 1, p 2] ![u 0, u 1, u 2] ![w 0, w 1, w 2] q).1 0,
          (F ![p 0, p 1, p 2] ![u 0, u 1, u 2] ![w 0, w 1, w 2] q).1 1, (F ![p 0, p 1, p 2] ![u 0, u 1, u 2] ![w 0, w 1, w 2] q).1 2,
          (F ![p 0, p 1, p 2] ![u 0, u 1, u 2] ![w 0, w 1, w 2] q).2 0, (F ![p 0, p 1, p 2] ![u 0, u 1, u 2] ![w 0, w 1, w 2] q).2 1,
          (F ![p 0, p 1, p 2] ![u 0, u 1, u 2] ![w 0, w 1, w 2] q).2 2] := by
        funext i; fin_cases i <;> rfl
      have hp : (![p 0, p 1, p 2] : Vec3 ℝ) = p := by funext i; fin_cases i <;> rfl
      have hu : (![u 0, u 1, u 2] : Vec3 ℝ) = u := by funext i; fin_cases i <;> rfl
      have hw : (![w 0, w 1, w 2] : Vec3 ℝ) = w := by funext i; fin_cases i <;> rfl
      congr 2
      show _ = newton e.body.Minv F (vec13 p u w q) t
      simp only [newton, vec13]
      rw [← e1, hp, hu, hw]
      simp only [List.cons.injEq, Matrix.cons_val_zero, Matrix.cons_val_one, Matrix.cons_val, true_and, Quat.mul]
      refine ⟨?_, ?_, ?_, ?_, trivial⟩ <;> ring

/-! ### The force models -/

/-- The states that the force models read. -/
theorem current_value {h : States (History ℝ)} {x : List ℝ} (hc : Current h x) (h0 : ∀ n, (field h n).Tmax = 0) (n : StateName) :
    ∃ a, x[slot 0 n]? = some a ∧ (field h n).value 0 = .ok a := by
  obtain ⟨b, -, e1, e2⟩ := hc n
  exact ⟨b.2, e1, e2 (h0 n)⟩

theorem velocities_read {h : States (History ℝ)} {p u w : Vec3 ℝ} {q : Quat ℝ} (hc : Current h (vec13 p u w q))
    (h0 : ∀ n, (field h n).Tmax = 0) :
    velocitiesOf h = .ok ![u 0, u 1, u 2, w 0, w 1, w 2] ∧ h.u.value 0 = .ok (u 0) := by
  have hv : ∀ n a, (vec13 p u w q)[slot 0 n]? = some a → (field h n).value 0 = .ok a := by
    intro n a ha
    obtain ⟨b, e1, e2⟩ := current_value hc h0 n
    rw [ha] at e1
    cases e1
    exact e2
  have e1 : h.u.value 0 = .ok (u 0) := hv .u (u 0) rfl
  have e2 : h.v.value 0 = .ok (u 1) := hv .v (u 1) rfl
  have e3 : h.w.value 0 = .ok (u 2) := hv .w (u 2) rfl
  have e4 : h.p.value 0 = .ok (w 0) := hv .p (w 0) rfl
  have e5 : h.q.value 0 = .ok (w 1) := hv .q (w 1) rfl
  have e6 : h.r.value 0 = .ok (w 2) := hv .r (w 2) rfl
  refine ⟨?_, e1⟩
  simp only [velocitiesOf, e1, e2, e3, e4, e5, e6, bind, Except.bind, pure, Except.pure]

theorem push_value (b : Multi.MBody ℝ) (hb : b.name ≠ "NED") {h : States (History ℝ)} {p u w : Vec3 ℝ} {q : Quat ℝ}
    (t : ℝ) (hc : Current h (vec13 p u w q)) (h0 : ∀ n, (field h n).Tmax = 0) (f : Push)
    (hq : Unit4 q ∨ ¬ f.InBody) : Multi.valueOf b h (framesAt b.name p q) t (f.model b) = .ok (f.wrench b.G u w q) := by
  obtain ⟨e1, e2⟩ := velocities_read hc h0
  have hg : Multi.Kin.get (framesAt b.name p q) b.name "NED" =
      .ok ⟨q.matrix.transpose.mulVec (0 - ![p 0, p 1, p 2]), q.matrix.transpose⟩ := by
    rw [Multi.Kin.get, frame_of_body _ hb]; simp [Multi.frameOf]
  cases f with
  | gravity M g =>
    simp only [Multi.valueOf, Push.model, Push.wrench, gravityModel, hg, Multi.contribution, bind, Except.bind, pure, Except.pure,
      ne_eq, not_true_eq_false, if_false]
    congr 2
    funext i; fin_cases i <;> rfl
  | linearDamping P D =>
    simp only [Multi.valueOf, Push.model, Push.wrench, linearDampingModel, dampingModel, wrenchOf, e1, Multi.contribution, bind, Except.bind, pure, Except.pure,
      ne_eq, not_true_eq_false, if_false, Forces.linearDamping, Forces.mulVec6, Fin.sum_univ_six]
    congr 2 <;> · funext i; fin_cases i <;> rfl
  | quadraticDamping P D =>
    simp only [Multi.valueOf, Push.model, Push.wrench, quadraticDampingModel, dampingModel, wrenchOf, e1, Multi.contribution, bind, Except.bind, pure, Except.pure,
      ne_eq, not_true_eq_false, if_false, Forces.quadraticDamping, Forces.mulVec6, Fin.sum_univ_six]
    congr 2 <;> · funext i; fin_cases i <;> rfl
  | resistance P R =>
    simp only [Multi.valueOf, Push.model, Push.wrench, resistanceModel, wrenchOf, e2, Multi.contribution, bind, Except.bind, pure, Except.pure,
      ne_eq, not_true_eq_false, if_false, Forces.resistance]
    congr 2 <;> · funext i; fin_cases i <;> rfl
  | bodyForce f m P =>
    have hg' : Multi.Kin.get (framesAt b.name p q) b.name b.name = .ok ⟨0, 1⟩ := by
      rcases hq with hq | hq
      · rw [Multi.Kin.get, frame_of_body _ hb]
        simp [mul_eq_one_comm.1 (matrix_unit q hq)]
      · exact absurd trivial hq
    simp only [Multi.valueOf, Push.model, Push.wrench, constantModel, hg', Multi.contribution, bind, Except.bind, pure, Except.pure,
      ne_eq, not_true_eq_false, if_false, Forces.constantForce, Forces.mulVec3, Fin.sum_univ_three]
    congr 2 <;> · funext i; fin_cases i <;> simp [cross, Hdb.cross, Forces.mulVec3, Matrix.one_apply] <;> ring
  | nedForce f m P =>
    simp only [Multi.valueOf, Push.model, Push.wrench, constantModel, hg, Multi.contribution, bind, Except.bind, pure, Except.pure,
      ne_eq, not_true_eq_false, if_false, Forces.constantForce, Forces.mulVec3, Fin.sum_univ_three]
    congr 2 <;> · funext i; fin_cases i <;> simp [cross, Hdb.cross, Forces.mulVec3, Matrix.mulVec, dotProduct, Fin.sum_univ_three, Matrix.transpose_apply] <;> ring

theorem pushes_sum (e : Multi.Entry ℝ) (he : Alone e) (l : List Push) (hl : e.forces = l.map (Push.model e.body))
    (hc : e.controlled = []) (cmd : Commands ℝ) {h : States (History ℝ)} {p u w : Vec3 ℝ} {q : Quat ℝ} (t : ℝ)
    (hcur : Current h (vec13 p u w q)) (h0 : ∀ n, (field h n).Tmax = 0) (hq : Unit4 q ∨ ∀ f ∈ l, ¬ f.InBody) :
    Multi.sumOfForces cmd e.body e.forces e.controlled h (framesAt e.body.name p q) (vec13 p u w q) t =
      .ok (resultant e.body l u w q) := by
  rw [Multi.sumOfForces_iff]
  have hu : (![u 0, u 1, u 2] : Vec3 ℝ) = u := by funext i; fin_cases i <;> rfl
  have hw : (![w 0, w 1, w 2] : Vec3 ℝ) = w := by funext i; fin_cases i <;> rfl
  refine ⟨(![u 0, u 1, u 2], ![w 0, w 1, w 2]), l.map (Push.wrench e.body.G u w q), [], by rw [he.idx]; rfl, ?_, by rw [hc]; rfl, ?_⟩
  · rw [hl]
    clear hl
    induction l with
    | nil => rfl
    | cons f l ih =>
      have h1 : Unit4 q ∨ ¬ f.InBody := hq.imp id fun h => h f (by simp)
      have h2 : Unit4 q ∨ ∀ f ∈ l, ¬ f.InBody := hq.imp id fun h g hg => h g (by simp [hg])
      simp only [List.map_cons, List.mapM_cons, push_value e.body he.name t hcur h0 f h1, ih h2, bind, Except.bind, pure, Except.pure]
  · rw [hu, hw]
    simp [resultant]

/-- **C179** A body on which none of the states is blocked, with any list of force models among `gravity`,
`linear damping`, `quadratic damping`, `resistance curve` and `constant force` in NED: the simulation is the method applied
to the equations of motion. -/
theorem mechanical_memoryless (e : Multi.Entry ℝ) (he : Alone e) (ae : Nat → ℝ → ℝ → Bool) (ae1 : ℝ → Bool) (l : List Push)
    (hl : e.forces = l.map (Push.model e.body)) (hb : ∀ f ∈ l, ¬ f.InBody) (hc : e.controlled = []) (cmd : Commands ℝ) :
    Memoryless (oneBody e ae ae1) cmd (newton e.body.Minv (fun _ => resultant e.body l)) (fun x _ => x) (fun x => x.length = 13)
      (fun x => x.length = 13) := by
  refine one_body_memoryless e he ae ae1 cmd _ _ _ (fun _ h => h) ?_ ?_ ?_
  · intro h p u w q t _ hcur h0
    exact pushes_sum e he l hl hc cmd t hcur h0 (Or.inr hb)
  · intro x t hx
    match x, hx with
    | [a, b, c, d, e, f, g, h, i, j, k, l, m], _ => rfl
  · intro dt x a ks hl hk
    rw [← combine_move]
    exact combine_length dt a ks x hl hk

/-! ### The textbook methods -/

/-- `x + c k` -/
def along (x : List ℝ) (c : ℝ) (k : List ℝ) : List ℝ := List.zipWith (fun xi ki => xi + c * ki) x k

theorem along_zero (x k : List ℝ) (h : x.length = k.length) : along x 0 k = x := by
  refine List.ext_getElem (by simp [along, h]) fun i h1 h2 => by simp [along]

/-- `euler` is Euler's method. -/
theorem euler_textbook (f : List ℝ → ℝ → List ℝ) (x : List ℝ) (t dt : ℝ) :
    RK.rkStep f eulerMethod x t dt = along x dt (f x t) := by
  simp [RK.rkStep, RK.rkStages, RK.move, eulerMethod, along]

/-- `rk4` is the classical Runge-Kutta method. -/
theorem rk4_textbook (n : Nat) (f : List ℝ → ℝ → List ℝ) (hf : ∀ x t, x.length = n → (f x t).length = n) (x : List ℝ)
    (hx : x.length = n) (t dt : ℝ) :
    let k1 := f x t
    let k2 := f (along x (dt / 2) k1) (t + dt / 2)
    let k3 := f (along x (dt / 2) k2) (t + dt / 2)
    let k4 := f (along x dt k3) (t + dt)
    RK.rkStep f rk4Method x t dt = along (along (along (along x (dt / 6) k1) (dt / 3) k2) (dt / 3) k3) (dt / 6) k4 := by
  intro k1 k2 k3 k4
  have al : ∀ (x k : List ℝ) c, x.length = n → k.length = n → (along x c k).length = n := by
    intro x k c h1 h2; simp [along, h1, h2]
  have l1 : k1.length = n := hf _ _ hx
  have l2 : k2.length = n := hf _ _ (al _ _ _ hx l1)
  have l3 : k3.length = n := hf _ _ (al _ _ _ hx l2)
  have hm : ∀ a as k ks y, RK.move dt y (a :: as) (k :: ks) = RK.move dt (along y (dt * a) k) as ks := by
    intro a as k ks y; simp [RK.move, along]
  have hn : ∀ ks y, RK.move dt y [] ks = y := by intro ks y; simp [RK.move]
  simp only [RK.rkStep, RK.rkStages, rk4Method, List.nil_append, List.cons_append, hm, hn, mul_zero, zero_mul, add_zero, mul_one, one_mul]
  rw [show dt * (1 / 2) = dt / 2 by ring, show (1 : ℝ) / 2 * dt = dt / 2 by ring, show dt * (1 / 6) = dt / 6 by ring,
    show dt * (1 / 3) = dt / 3 by ring]
  change along (along (along (along x (dt / 6) k1) (dt / 3) k2) (dt / 3) (f (along (along x 0 k1) (dt / 2) k2) (t + dt / 2))) (dt / 6)
    (f (along (along (along x 0 k1) 0 k2) dt (f (along (along x 0 k1) (dt / 2) k2) (t + dt / 2))) (t + dt)) = _
  rw [along_zero x k1 (by rw [hx, l1]), along_zero x k2 (by rw [hx, l2])]

end Xdyn.Sim

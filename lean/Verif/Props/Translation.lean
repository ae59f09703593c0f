import Verif.Spec.Control
import Verif.Props.RungeKutta

/-! Property C182: bodies that do not turn. -/

namespace Xdyn.Sim

open Blocked Body Spec Solver

/-! ### Two systems with related states have related solutions -/

theorem move_related {ρ δ : List ℝ → List ℝ → Prop} (dt : ℝ)
    (hstep : ∀ x y k l c, ρ x y → δ k l → ρ (along x c k) (along y c l)) :
    ∀ (a : List ℝ) (ks ls : List (List ℝ)) (x y : List ℝ), ρ x y → List.Forall₂ δ ks ls →
      ρ (RK.move dt x a ks) (RK.move dt y a ls)
  | [], ks, ls, x, y, h, _ => by simpa [RK.move] using h
  | a :: as, _, _, x, y, h, .nil => by simpa [RK.move] using h
  | a :: as, k :: ks, l :: ls, x, y, h, .cons h1 h2 =>
    move_related dt hstep as ks ls _ _ (hstep x y k l (dt * a) h h1) h2

theorem stages_related {f g : List ℝ → ℝ → List ℝ} {ρ δ : List ℝ → List ℝ → Prop} (t dt : ℝ)
    (hstep : ∀ x y k l c, ρ x y → δ k l → ρ (along x c k) (along y c l)) (hf : ∀ x y t, ρ x y → δ (f x t) (g y t))
    (x y : List ℝ) (h : ρ x y) :
    ∀ (rows : List (ℝ × List ℝ)) (ks ls : List (List ℝ)), List.Forall₂ δ ks ls →
      List.Forall₂ δ (RK.rkStages f x t dt rows ks) (RK.rkStages g y t dt rows ls)
  | [], ks, ls, hk => hk
  | (c, a) :: rows, ks, ls, hk =>
    stages_related t dt hstep hf x y h rows _ _ (List.rel_append hk
      (.cons (hf _ _ _ (move_related dt hstep a ks ls x y h hk)) .nil))

theorem rk_related {f g : List ℝ → ℝ → List ℝ} {ρ δ : List ℝ → List ℝ → Prop} (T : Tableau ℝ) (t0 dt : ℝ)
    (hstep : ∀ x y k l c, ρ x y → δ k l → ρ (along x c k) (along y c l)) (hf : ∀ x y t, ρ x y → δ (f x t) (g y t))
    (x y : List ℝ) (h : ρ x y) : ∀ i : Nat,
      ρ (RK.rkRun f (fun x _ => x) T x t0 dt i) (RK.rkRun g (fun x _ => x) T y t0 dt i)
  | 0 => h
  | i + 1 => by
    have ih := rk_related T t0 dt hstep hf x y h i
    exact move_related dt hstep _ _ _ _ _ ih (stages_related _ dt hstep hf _ _ ih _ _ _ .nil)

/-! ### Controllers -/

theorem positions_read {h : States (History ℝ)} {p u w : Vec3 ℝ} {q : Quat ℝ} (hc : Current h (vec13 p u w q))
    (h0 : ∀ n, (field h n).Tmax = 0) :
    h.x.value 0 = .ok (p 0) ∧ h.y.value 0 = .ok (p 1) ∧ h.u.value 0 = .ok (u 0) ∧ h.v.value 0 = .ok (u 1) ∧
      h.r.value 0 = .ok (w 2) ∧ rotationOf h = .ok q.matrix := by
  have hv : ∀ n a, (vec13 p u w q)[slot 0 n]? = some a → (field h n).value 0 = .ok a := by
    intro n a ha
    obtain ⟨b, e1, e2⟩ := current_value hc h0 n
    rw [ha] at e1
    cases e1
    exact e2
  have e1 : h.qr.value 0 = .ok q.w := hv .qr q.w rfl
  have e2 : h.qi.value 0 = .ok q.x := hv .qi q.x rfl
  have e3 : h.qj.value 0 = .ok q.y := hv .qj q.y rfl
  have e4 : h.qk.value 0 = .ok q.z := hv .qk q.z rfl
  refine ⟨hv .x (p 0) rfl, hv .y (p 1) rfl, hv .u (u 0) rfl, hv .v (u 1) rfl, hv .r (w 2) rfl, ?_⟩
  simp only [rotationOf, e1, e2, e3, e4, bind, Except.bind, pure, Except.pure]

theorem control_value (b : Multi.MBody ℝ) (cmd : Commands ℝ) {h : States (History ℝ)} {p u w : Vec3 ℝ} {q : Quat ℝ}
    (k : Multi.Kin ℝ) (t : ℝ) (hc : Current h (vec13 p u w q)) (h0 : ∀ n, (field h n).Tmax = 0) (c : Control)
    (ho : c.Commanded cmd) : c.model b cmd h k t = .ok (c.wrench b.G p u w q) := by
  obtain ⟨e1, e2, e3, e4, e5, e6⟩ := positions_read hc h0
  cases c with
  | stationKeeping I psiOf c xCo yCo psiCo =>
    obtain ⟨c1, c2, c3⟩ := ho
    have d1 : commandOf cmd c.name "x_co" = .ok xCo := by
      rw [commandOf, String.append_assoc, String.append_assoc, show "(" ++ ("x_co" ++ ")") = "(x_co)" by decide, c1]
    have d2 : commandOf cmd c.name "y_co" = .ok yCo := by
      rw [commandOf, String.append_assoc, String.append_assoc, show "(" ++ ("y_co" ++ ")") = "(y_co)" by decide, c2]
    have d3 : commandOf cmd c.name "psi_co" = .ok psiCo := by
      rw [commandOf, String.append_assoc, String.append_assoc, show "(" ++ ("psi_co" ++ ")") = "(psi_co)" by decide, c3]
    simp only [Control.model, stationKeepingModel, d1, d2, d3, e1, e2, e3, e4, e5, e6, bind, Except.bind, pure, Except.pure,
      Control.wrench, controlledAtOrigin, controlledWrenchAtG, Forces.stationKeeping, keeperForce, Matrix.one_mulVec, pulsation]
    congr 2
    · funext i; fin_cases i <;> simp <;> ring
    · funext i; fin_cases i <;> simp [cross, -mul_eq_mul_left_iff, -mul_eq_mul_right_iff] <;> ring
  | heading I psiOf name ksi Tp psiCo =>
    have d3 : commandOf cmd name "psi_co" = .ok psiCo := by
      rw [commandOf, String.append_assoc, String.append_assoc, show "(" ++ ("psi_co" ++ ")") = "(psi_co)" by decide, ho]
    simp only [Control.model, headingModel, d3, e5, e6, bind, Except.bind, pure, Except.pure,
      Control.wrench, controlledAtOrigin, controlledWrenchAtG, Forces.headingController, Matrix.one_mulVec, pulsation]
    congr 2
    · funext i; fin_cases i <;> simp
    · funext i; fin_cases i <;> simp [cross] <;> ring

theorem total_sum (e : Multi.Entry ℝ) (he : Alone e) (l : List Push) (hl : e.forces = l.map (Push.model e.body)) (cs : List Control)
    (hc : e.controlled = cs.map (Control.model e.body)) (cmd : Commands ℝ) (ho : ∀ c ∈ cs, c.Commanded cmd)
    {h : States (History ℝ)} {p u w : Vec3 ℝ} {q : Quat ℝ} (t : ℝ)
    (hcur : Current h (vec13 p u w q)) (h0 : ∀ n, (field h n).Tmax = 0) (hq : Unit4 q ∨ ∀ f ∈ l, ¬ f.InBody) :
    Multi.sumOfForces cmd e.body e.forces e.controlled h (framesAt e.body.name p q) (vec13 p u w q) t =
      .ok (total e.body l cs p u w q) := by
  have h1 := pushes_sum ⟨e.body, e.forces, []⟩ ⟨he.idx, he.name, he.free⟩ l hl rfl cmd t hcur h0 hq
  rw [Multi.sumOfForces_iff] at h1 ⊢
  obtain ⟨v, ws, cs', a1, a2, a3, a4⟩ := h1
  cases a3
  refine ⟨v, ws, cs.map (Control.wrench e.body.G p u w q), a1, a2, ?_, ?_⟩
  · rw [hc]
    clear hc
    induction cs with
    | nil => rfl
    | cons c cs ih =>
      simp only [List.map_cons, List.mapM_cons, control_value e.body cmd _ t hcur h0 c (ho c (by simp)),
        ih fun c hc => ho c (by simp [hc]), bind, Except.bind, pure, Except.pure]
  · rw [total]
    simp only [List.reverse_nil, List.sum_nil, add_zero] at a4
    rw [a4]

/-- **C182** A body on which none of the states is blocked, with any list of force models among `gravity`, `linear damping`,
`quadratic damping`, `resistance curve` and `constant force` in NED and any list of controllers whose commands have constant
values: the simulation is the method applied to the equations of motion. -/
theorem controlled_memoryless (e : Multi.Entry ℝ) (he : Alone e) (ae : Nat → ℝ → ℝ → Bool) (ae1 : ℝ → Bool) (l : List Push)
    (hl : e.forces = l.map (Push.model e.body)) (hb : ∀ f ∈ l, ¬ f.InBody) (cs : List Control)
    (hc : e.controlled = cs.map (Control.model e.body)) (cmd : Commands ℝ) (ho : ∀ c ∈ cs, c.Commanded cmd) :
    Memoryless (oneBody e ae ae1) cmd (newton e.body.Minv (total e.body l cs)) (fun x _ => x) (fun x => x.length = 13)
      (fun x => x.length = 13) := by
  refine one_body_memoryless e he ae ae1 cmd _ _ _ (fun _ h => h) ?_ ?_ ?_
  · intro h p u w q t _ hcur h0
    exact total_sum e he l hl cs hc cmd ho t hcur h0 (Or.inr hb)
  · intro x t hx
    match x, hx with
    | [a, b, c, d, e, f, g, h, i, j, k, l, m], _ => rfl
  · intro dt x a ks hl hk
    rw [← combine_move]
    exact combine_length dt a ks x hl hk

/-- One of the commands of the controller is missing. -/
def Control.Missing (cmd : Commands ℝ) : Control → Prop
  | .stationKeeping _ _ c _ _ _ =>
    cmd (c.name ++ "(x_co)") = none ∨ cmd (c.name ++ "(y_co)") = none ∨ cmd (c.name ++ "(psi_co)") = none
  | .heading _ _ name _ _ _ => cmd (name ++ "(psi_co)") = none

theorem commandOf_eq (cmd : Commands ℝ) (name command : String) :
    commandOf cmd name command = match cmd (name ++ ("(" ++ (command ++ ")"))) with
      | some v => .ok v
      | none => .error (.throw "InvalidInputException") := by
  rw [commandOf, String.append_assoc, String.append_assoc]
  cases cmd (name ++ ("(" ++ (command ++ ")"))) <;> rfl

/-- **C182** Without one of its commands a controller gives no force: it throws, whatever the states. -/
theorem missing_command (b : Multi.MBody ℝ) (cmd : Commands ℝ) (h : States (History ℝ)) (k : Multi.Kin ℝ) (t : ℝ) (c : Control)
    (hm : c.Missing cmd) : c.model b cmd h k t = .error (.throw "InvalidInputException") := by
  cases c with
  | stationKeeping I psiOf c xCo yCo psiCo =>
    have hx := commandOf_eq cmd c.name "x_co"
    have hy := commandOf_eq cmd c.name "y_co"
    have hp := commandOf_eq cmd c.name "psi_co"
    rw [show "(" ++ ("x_co" ++ ")") = "(x_co)" by decide] at hx
    rw [show "(" ++ ("y_co" ++ ")") = "(y_co)" by decide] at hy
    rw [show "(" ++ ("psi_co" ++ ")") = "(psi_co)" by decide] at hp
    simp only [Control.Missing] at hm
    simp only [Control.model, stationKeepingModel, hx, hy, hp]
    cases h1 : cmd (c.name ++ "(x_co)") with
    | none => rfl
    | some v1 =>
      cases h2 : cmd (c.name ++ "(y_co)") with
      | none => rfl
      | some v2 =>
        cases h3 : cmd (c.name ++ "(psi_co)") with
        | none => rfl
        | some v3 => rw [h1, h2, h3] at hm; rcases hm with h | h | h <;> cases h
  | heading I psiOf name ksi Tp psiCo =>
    have hp := commandOf_eq cmd name "psi_co"
    rw [show "(" ++ ("psi_co" ++ ")") = "(psi_co)" by decide] at hp
    simp only [Control.Missing] at hm
    simp only [Control.model, headingModel, hp, hm]
    rfl

/-- **C182** A simulation of a body with a controller one of whose commands is missing does not go to the end: no result is given,
whatever the method and the time step. -/
theorem missing_command_stops (e : Multi.Entry ℝ) (ae : Nat → ℝ → ℝ → Bool) (ae1 : ℝ → Bool) (s : Sim ℝ (Vec3 ℝ × Vec3 ℝ)) (c : Control)
    (hc : c.model e.body ∈ e.controlled) (hm : c.Missing s.commands) (T : Tableau ℝ) (hT : T.stages ≠ []) (tstart tend dt : ℝ)
    (hlt : tstart < tend) (fuel : Nat) (r : Sim ℝ (Vec3 ℝ × Vec3 ℝ) × List (Res ℝ Unit)) :
    quicksolve (simSystem (oneBody e ae ae1) T.stepper) fuel s tstart tend dt ≠ some (.ok r) := by
  have hsum : ∀ h k x t F, Multi.sumOfForces s.commands e.body e.forces e.controlled h k x t ≠ .ok F := by
    intro h k x t F hF
    rw [Multi.sumOfForces_iff] at hF
    obtain ⟨_, _, cs, _, _, a3, _⟩ := hF
    obtain ⟨a, b, hab⟩ := List.append_of_mem hc
    rw [hab, List.mapM_append, List.mapM_cons, missing_command e.body s.commands h k t c hm] at a3
    cases h1 : a.mapM (fun f => f s.commands h k t) <;> rw [h1] at a3 <;> cases a3
  have hcall : ∀ x t q, s.call (oneBody e ae ae1) x t ≠ .ok q := by
    intro x t q hq
    unfold Sim.call at hq
    cases h1 : updateBodyStates (oneBody e ae ae1).ae (oneBody e ae ae1).blocked s.hist x t with
    | error _ => rw [h1] at hq; cases hq
    | ok h =>
      rw [h1] at hq
      cases h2 : (oneBody e ae ae1).physics.eval s.commands h x t with
      | error _ => simp only [h2, bind, Except.bind] at hq; cases hq
      | ok v =>
        have h3 : (onePhysics e).eval s.commands h x t = .ok v := h2
        simp only [onePhysics] at h3
        cases h4 : Multi.updateKinematics e.body x [] with
        | error _ => simp only [h4, bind, Except.bind] at h3; cases h3
        | ok kin =>
          cases h5 : Multi.sumOfForces s.commands e.body e.forces e.controlled h kin x t with
          | error _ => simp only [h4, h5, bind, Except.bind] at h3; cases h3
          | ok F => exact hsum _ _ _ _ _ h5
  have hstep : ∀ r, (T.stepper s.state tstart dt).run (oneBody e ae ae1) s ≠ .ok r := by
    intro r hr
    unfold Tableau.stepper at hr
    cases hs : T.stages with
    | nil => exact hT hs
    | cons a l =>
      rw [hs] at hr
      simp only [Tableau.from, Stepper.run] at hr
      cases h1 : s.call (oneBody e ae ae1) (combine dt s.state a.2 []) (tstart + a.1 * dt) with
      | error _ => rw [h1] at hr; cases hr
      | ok q => exact hcall _ _ _ h1
  intro hq
  unfold quicksolve at hq
  cases h1 : (simSystem (oneBody e ae ae1) T.stepper).observe s tstart with
  | error _ => rw [h1] at hq; cases hq
  | ok o =>
    rw [h1] at hq
    cases fuel with
    | zero => simp only [loop, if_pos hlt] at hq; cases hq
    | succ n =>
      simp only [loop, if_pos hlt] at hq
      cases h2 : (simSystem (oneBody e ae ae1) T.stepper).doStep s tstart dt with
      | error _ => rw [h2] at hq; cases hq
      | ok s' => exact hstep _ h2

/-- A station-keeping controller with commands for `x` and the heading only. -/
example (I : Fin 6 → Fin 6 → ℝ) (psiOf : Mat3 ℝ → ℝ) :
    (Control.stationKeeping I psiOf ⟨"dp", 1, 10, 1, 10, 1, 10⟩ 0 0 0).Missing
      (fun n => if n = "dp(x_co)" ∨ n = "dp(psi_co)" then some 1 else none) :=
  Or.inr (Or.inl (if_neg (by decide)))

/-! ### Bodies that do not turn -/

/-- A body that keeps the attitude `q` without turning, with the force models `l` and the controllers `cs`, and the commands `cmd`:
`M` is its inertia, with added mass, and at the position `P` with the velocity `v` the forces are `M` times the acceleration
`a P v`, without angular acceleration. -/
structure Translating (e : Multi.Entry ℝ) (l : List Push) (cs : List Control) (cmd : Commands ℝ) (M : Mat6 ℝ)
    (a : Vec3 ℝ → Vec3 ℝ → Vec3 ℝ) (q : Quat ℝ) : Prop extends Alone e where
  inverse : e.body.Minv * M = 1
  forces : e.forces = l.map (Push.model e.body)
  controlled : e.controlled = cs.map (Control.model e.body)
  commanded : ∀ c ∈ cs, c.Commanded cmd
  law : ∀ P v, M.mulVec ![a P v 0, a P v 1, a P v 2, 0, 0, 0] = Multi.toVector (total e.body l cs P v 0 q)

/-- Derivatives of the states of such a body. -/
def glide (P v : Vec3 ℝ) : List ℝ := vec13 P v 0 ⟨0, 0, 0, 0⟩

theorem along_glide (P v : Vec3 ℝ) (q : Quat ℝ) (c : ℝ) (P' v' : Vec3 ℝ) :
    along (vec13 P v 0 q) c (glide P' v') = vec13 (P + c • P') (v + c • v') 0 q := by
  simp [along, glide, vec13]

theorem along_vec6 (P v : Vec3 ℝ) (c : ℝ) (P' v' : Vec3 ℝ) : along (vec6 P v) c (vec6 P' v') = vec6 (P + c • P') (v + c • v') := by
  simp [along, vec6]

theorem newton_translating {e : Multi.Entry ℝ} {l : List Push} {cs : List Control} {cmd : Commands ℝ} {M : Mat6 ℝ}
    {a : Vec3 ℝ → Vec3 ℝ → Vec3 ℝ} {q : Quat ℝ} (he : Translating e l cs cmd M a q) (P v : Vec3 ℝ) (t : ℝ) :
    newton e.body.Minv (total e.body l cs) (vec13 P v 0 q) t = glide (q.matrix.mulVec v) (a P v) := by
  have hP : (![P 0, P 1, P 2] : Vec3 ℝ) = P := by funext i; fin_cases i <;> rfl
  have hv : (![v 0, v 1, v 2] : Vec3 ℝ) = v := by funext i; fin_cases i <;> rfl
  have e0 : (![0, 0, 0] : Vec3 ℝ) = 0 := by funext i; fin_cases i <;> rfl
  have e1 : e.body.Minv.mulVec ![(total e.body l cs P v 0 q).1 0, (total e.body l cs P v 0 q).1 1, (total e.body l cs P v 0 q).1 2,
      (total e.body l cs P v 0 q).2 0, (total e.body l cs P v 0 q).2 1, (total e.body l cs P v 0 q).2 2] =
      ![a P v 0, a P v 1, a P v 2, 0, 0, 0] := by
    have : (![(total e.body l cs P v 0 q).1 0, (total e.body l cs P v 0 q).1 1, (total e.body l cs P v 0 q).1 2,
      (total e.body l cs P v 0 q).2 0, (total e.body l cs P v 0 q).2 1, (total e.body l cs P v 0 q).2 2] : Vec6 ℝ) =
      Multi.toVector (total e.body l cs P v 0 q) := by funext i; fin_cases i <;> rfl
    rw [this, ← he.law, Matrix.mulVec_mulVec, he.inverse, Matrix.one_mulVec]
  simp only [newton, vec13, glide, Pi.zero_apply, e0, hP, hv, e1, mul_zero, sub_zero, add_zero, zero_div, Matrix.cons_val_zero,
    Matrix.cons_val_one, Matrix.cons_val]

theorem translating_memoryless {e : Multi.Entry ℝ} {l : List Push} {cs : List Control} {cmd : Commands ℝ} {M : Mat6 ℝ}
    {a : Vec3 ℝ → Vec3 ℝ → Vec3 ℝ} {q : Quat ℝ} (hq : Unit4 q) (he : Translating e l cs cmd M a q) (ae : Nat → ℝ → ℝ → Bool)
    (ae1 : ℝ → Bool) :
    Memoryless (oneBody e ae ae1) cmd (newton e.body.Minv (total e.body l cs)) (fun x _ => x) (fun x => ∃ P v, x = vec13 P v 0 q)
      (fun x => ∃ P v, x = glide P v) := by
  refine one_body_memoryless e he.toAlone ae ae1 cmd _ _ _ (by rintro x ⟨P, v, rfl⟩; rfl) ?_ ?_ ?_
  · rintro h p' u' w' q' t ⟨P, v, hx⟩ hcur h0
    refine total_sum e he.toAlone l he.forces cs he.controlled cmd he.commanded t hcur h0 (Or.inl ?_)
    have : q' = q := by
      simp only [vec13, List.cons.injEq] at hx
      obtain ⟨-, -, -, -, -, -, -, -, -, a, b, c, d, -⟩ := hx
      cases q; cases q'; simp_all
    rw [this]; exact hq
  · rintro x t ⟨P, v, rfl⟩
    exact ⟨_, _, newton_translating he P v t⟩
  · rintro dt x as ks ⟨P, v, rfl⟩ hk
    refine move_related (ρ := fun x _ => ∃ P v, x = vec13 P v 0 q) (δ := fun k _ => ∃ P v, k = glide P v) dt ?_ as ks ks _ []
      ⟨P, v, rfl⟩ (List.forall₂_same.2 hk)
    rintro x - k - c ⟨P, v, rfl⟩ ⟨P', v', rfl⟩
    exact ⟨_, _, along_glide P v q c P' v'⟩

/-- **C182** A body whose forces and controllers do not make it turn: whatever its attitude, velocity and position, the method,
the dates, the time step and what was recorded before, the simulation goes to the end, the attitude does not change, and the
position and the velocity are the ones the method gives for `P' = R v`, `v' = a P v`. -/
theorem translates {e : Multi.Entry ℝ} {l : List Push} {cs : List Control} {M : Mat6 ℝ} {a : Vec3 ℝ → Vec3 ℝ → Vec3 ℝ} {q : Quat ℝ}
    (s : Sim ℝ (Vec3 ℝ × Vec3 ℝ)) (he : Translating e l cs s.commands M a q) (hq : Unit4 q)
    (ae : Nat → ℝ → ℝ → Bool) (hae : ∀ n a, ae n a a = true) (ae1 : ℝ → Bool)
    (T : Tableau ℝ) (hT : Forward T) (P0 v0 : Vec3 ℝ) (hs : s.state = vec13 P0 v0 0 q)
    (h0 : ∀ n, (field s.hist n).Tmax = 0) (tstart tend dt : ℝ) (hdt : 0 < dt) (hh : NotAfter ae s.hist tstart)
    (N : Nat) (hN : tend ≤ tstart + N * dt) (hfirst : ∀ i < N, tstart + (i : ℝ) * dt < tend) (fuel : Nat) (hf : N ≤ fuel) :
    ∃ s' obs, quicksolve (simSystem (oneBody e ae ae1) T.stepper) fuel s tstart tend dt = some (.ok (s', obs)) ∧
      obs.length = N + 1 ∧ ∀ (i : Nat) (hi : i < obs.length), obs[i].t = tstart + i * dt ∧
        ∃ P v, RK.rkRun (translation q.matrix a) (fun x _ => x) T (vec6 P0 v0) tstart dt i = vec6 P v ∧
          obs[i].x = vec13 P v 0 q := by
  obtain ⟨s', obs, h1, -, h3, h4⟩ := simulation_is_runge_kutta (translating_memoryless hq he ae ae1) hae T hT s rfl
    ⟨P0, v0, hs⟩ h0 tstart tend dt hdt hh N hN hfirst fuel hf
  refine ⟨s', obs, h1, h3, fun i hi => ?_⟩
  obtain ⟨h5, h6⟩ := h4 i hi
  obtain ⟨P, v, h7, h8⟩ := rk_related (f := newton e.body.Minv (total e.body l cs)) (g := translation q.matrix a)
    (ρ := fun x y => ∃ P v, x = vec13 P v 0 q ∧ y = vec6 P v) (δ := fun k k' => ∃ P v, k = glide P v ∧ k' = vec6 P v) T tstart dt
    (by
      rintro x y k k' c ⟨P, v, rfl, rfl⟩ ⟨P', v', rfl, rfl⟩
      exact ⟨_, _, along_glide P v q c P' v', along_vec6 P v c P' v'⟩)
    (by
      rintro x y t ⟨P, v, rfl, rfl⟩
      refine ⟨_, _, newton_translating he P v t, ?_⟩
      have hP : (![P 0, P 1, P 2] : Vec3 ℝ) = P := by funext i; fin_cases i <;> rfl
      have hv : (![v 0, v 1, v 2] : Vec3 ℝ) = v := by funext i; fin_cases i <;> rfl
      simp only [translation, vec6, hP, hv])
    _ _ ⟨P0, v0, rfl, rfl⟩ i
  refine ⟨h5, P, v, h8, ?_⟩
  rw [hs, h7] at h6
  have h9 : (oneBody e ae ae1).normalize (vec13 P v 0 q) = .ok (vec13 P v 0 q) := normalize_unit ae1 _ _ _ _ hq
  rw [h9] at h6
  exact (Except.ok.inj h6).symm

/-! ### Modes -/

/-- Factor of a mode `λ` over one step with `euler`, with `z = λ dt`. -/
def eulerMode (z : ℂ) : ℂ := 1 + z

/-- Same with `rk4`. -/
noncomputable def rk4Mode (z : ℂ) : ℂ := 1 + z + z ^ 2 / 2 + z ^ 3 / 6 + z ^ 4 / 24

/-- A mode of the motion: a function `m` of the position and of the velocity, affine (its linear part is `m'`), whose derivative
is `lam` times itself. -/
structure Mode (R : Mat3 ℝ) (a : Vec3 ℝ → Vec3 ℝ → Vec3 ℝ) (lam : ℂ) (m m' : Vec3 ℝ → Vec3 ℝ → ℂ) : Prop where
  affine : ∀ P v P' v' (c : ℝ), m (P + c • P') (v + c • v') = m P v + c * m' P' v'
  rate : ∀ P v, m' (R.mulVec v) (a P v) = lam * m P v

theorem translation_vec6 (R : Mat3 ℝ) (a : Vec3 ℝ → Vec3 ℝ → Vec3 ℝ) (P v : Vec3 ℝ) (t : ℝ) :
    translation R a (vec6 P v) t = vec6 (R.mulVec v) (a P v) := by
  have hP : (![P 0, P 1, P 2] : Vec3 ℝ) = P := by funext i; fin_cases i <;> rfl
  have hv : (![v 0, v 1, v 2] : Vec3 ℝ) = v := by funext i; fin_cases i <;> rfl
  simp only [translation, vec6, hP, hv]

theorem vec6_inj {P v P' v' : Vec3 ℝ} (h : vec6 P v = vec6 P' v') : P = P' ∧ v = v' := by
  simp only [vec6, List.cons.injEq, and_true] at h
  obtain ⟨a, b, c, d, e, f⟩ := h
  constructor
  · funext i; fin_cases i <;> assumption
  · funext i; fin_cases i <;> assumption

theorem mode_euler {R : Mat3 ℝ} {a : Vec3 ℝ → Vec3 ℝ → Vec3 ℝ} {lam : ℂ} {m m' : Vec3 ℝ → Vec3 ℝ → ℂ} (hm : Mode R a lam m m')
    (P0 v0 : Vec3 ℝ) (t0 dt : ℝ) : ∀ (i : Nat) (P v : Vec3 ℝ),
      RK.rkRun (translation R a) (fun x _ => x) eulerMethod (vec6 P0 v0) t0 dt i = vec6 P v →
      m P v = eulerMode (lam * dt) ^ i * m P0 v0
  | 0, P, v, h => by
    obtain ⟨rfl, rfl⟩ := vec6_inj h
    simp
  | i + 1, P, v, h => by
    obtain ⟨P1, v1, h1⟩ : ∃ P v, RK.rkRun (translation R a) (fun x _ => x) eulerMethod (vec6 P0 v0) t0 dt i = vec6 P v := by
      refine rk_related (f := translation R a) (g := fun _ _ => []) (ρ := fun x _ => ∃ P v, x = vec6 P v) (δ := fun x _ => ∃ P v, x = vec6 P v) eulerMethod t0 dt
        ?_ ?_ (vec6 P0 v0) [] ⟨_, _, rfl⟩ i
      · rintro x - k - c ⟨P, v, rfl⟩ ⟨P', v', rfl⟩
        exact ⟨_, _, along_vec6 P v c P' v'⟩
      · rintro x - t ⟨P, v, rfl⟩
        exact ⟨_, _, translation_vec6 R a P v t⟩
    rw [RK.rkRun, h1, euler_textbook, translation_vec6, along_vec6] at h
    obtain ⟨rfl, rfl⟩ := vec6_inj h
    rw [hm.affine, hm.rate, mode_euler hm P0 v0 t0 dt i P1 v1 h1, eulerMode]
    ring

theorem mode_rk4 {R : Mat3 ℝ} {a : Vec3 ℝ → Vec3 ℝ → Vec3 ℝ} {lam : ℂ} {m m' : Vec3 ℝ → Vec3 ℝ → ℂ} (hm : Mode R a lam m m')
    (P0 v0 : Vec3 ℝ) (t0 dt : ℝ) : ∀ (i : Nat) (P v : Vec3 ℝ),
      RK.rkRun (translation R a) (fun x _ => x) rk4Method (vec6 P0 v0) t0 dt i = vec6 P v →
      m P v = rk4Mode (lam * dt) ^ i * m P0 v0
  | 0, P, v, h => by
    obtain ⟨rfl, rfl⟩ := vec6_inj h
    simp
  | i + 1, P, v, h => by
    obtain ⟨P1, v1, h1⟩ : ∃ P v, RK.rkRun (translation R a) (fun x _ => x) rk4Method (vec6 P0 v0) t0 dt i = vec6 P v := by
      refine rk_related (f := translation R a) (g := fun _ _ => []) (ρ := fun x _ => ∃ P v, x = vec6 P v) (δ := fun x _ => ∃ P v, x = vec6 P v) rk4Method t0 dt
        ?_ ?_ (vec6 P0 v0) [] ⟨_, _, rfl⟩ i
      · rintro x - k - c ⟨P, v, rfl⟩ ⟨P', v', rfl⟩
        exact ⟨_, _, along_vec6 P v c P' v'⟩
      · rintro x - t ⟨P, v, rfl⟩
        exact ⟨_, _, translation_vec6 R a P v t⟩
    rw [RK.rkRun, h1, rk4_textbook 6 (translation R a) ?_ _ rfl] at h
    · simp only [translation_vec6, along_vec6] at h
      obtain ⟨rfl, rfl⟩ := vec6_inj h
      simp only [hm.affine, hm.rate, mode_rk4 hm P0 v0 t0 dt i P1 v1 h1, rk4Mode]
      push_cast
      ring
    · intro x t hx
      match x, hx with
      | [_, _, _, _, _, _], _ => rfl

end Xdyn.Sim

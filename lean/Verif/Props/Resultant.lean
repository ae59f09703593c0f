import Verif.Props.Chain
import Mathlib.Data.List.Perm.Basic

/-! Property C206: only the resultant of the force models matters. -/

namespace Xdyn.Sim

open Blocked Body Spec Solver Multi

/-! ### Specification -/

/-- Two sets of force models for the same body have the same resultant: whatever the past, the positions of the frames, the states, the
commands and the date, one gives a value to the sum of the forces if and only if the other gives the same one. -/
def SameResultant (b : MBody ℝ) (fs fs' : List (Force ℝ)) (cs cs' : List (Controlled ℝ)) : Prop :=
  ∀ c h k x t F, sumOfForces c b fs cs h k x t = .ok F ↔ sumOfForces c b fs' cs' h k x t = .ok F

/-- The force model `f` does the same as the force models `l` together: their wrenches, in the axes of the body and at its centre of
gravity, add up to the one of `f`. -/
def Amounts (b : MBody ℝ) (f : Force ℝ) (l : List (Force ℝ)) : Prop :=
  ∀ h k t w, valueOf b h k t f = .ok w ↔ ∃ ws, l.mapM (valueOf b h k t) = .ok ws ∧ ws.sum = w

/-! ### Sums -/

theorem mapM_perm {α β : Type} {f : α → Except Err β} {l l' : List α} (hp : l.Perm l') :
    ∀ ws, l.mapM f = .ok ws → ∃ ws', l'.mapM f = .ok ws' ∧ ws.Perm ws' := by
  induction hp with
  | nil => intro ws h; exact ⟨ws, h, List.Perm.refl _⟩
  | cons a _ ih =>
    intro ws h
    rw [List.mapM_cons] at h
    obtain ⟨v, h1, h⟩ := bind_ok h
    obtain ⟨vs, h2, h⟩ := bind_ok h
    cases h
    obtain ⟨vs', h3, h4⟩ := ih vs h2
    exact ⟨v :: vs', by simp only [List.mapM_cons, h1, h3, bind, Except.bind, pure, Except.pure], h4.cons v⟩
  | swap a b l =>
    intro ws h
    rw [List.mapM_cons] at h
    obtain ⟨v, h1, h⟩ := bind_ok h
    obtain ⟨vs, h2, h⟩ := bind_ok h
    cases h
    rw [List.mapM_cons] at h2
    obtain ⟨v', h3, h2⟩ := bind_ok h2
    obtain ⟨vs', h4, h2⟩ := bind_ok h2
    cases h2
    exact ⟨v' :: v :: vs', by simp only [List.mapM_cons, h1, h3, h4, bind, Except.bind, pure, Except.pure], List.Perm.swap _ _ _⟩
  | trans _ _ ih1 ih2 =>
    intro ws h
    obtain ⟨ws', h1, h2⟩ := ih1 ws h
    obtain ⟨ws'', h3, h4⟩ := ih2 ws' h1
    exact ⟨ws'', h3, h2.trans h4⟩

theorem mapM_append_ok {α β : Type} {f : α → Except Err β} : ∀ {l l' : List α} {ws : List β},
    (l ++ l').mapM f = .ok ws ↔ ∃ u v, l.mapM f = .ok u ∧ l'.mapM f = .ok v ∧ ws = u ++ v := by
  intro l
  induction l with
  | nil =>
    intro l' ws
    constructor
    · intro h; exact ⟨[], ws, rfl, h, rfl⟩
    · rintro ⟨u, v, h1, h2, rfl⟩; cases h1; exact h2
  | cons a l ih =>
    intro l' ws
    constructor
    · intro h
      rw [List.cons_append, List.mapM_cons] at h
      obtain ⟨v, h1, h⟩ := bind_ok h
      obtain ⟨vs, h2, h⟩ := bind_ok h
      cases h
      obtain ⟨p, q, e1, e2, rfl⟩ := ih.1 h2
      exact ⟨v :: p, q, by simp only [List.mapM_cons, h1, e1, bind, Except.bind, pure, Except.pure], e2, rfl⟩
    · rintro ⟨u, v, h1, h2, rfl⟩
      rw [List.mapM_cons] at h1
      obtain ⟨w, e1, h1⟩ := bind_ok h1
      obtain ⟨ws, e2, h1⟩ := bind_ok h1
      cases h1
      have := ih.2 ⟨ws, v, e2, h2, rfl⟩
      simp only [List.cons_append, List.mapM_cons, e1, this, bind, Except.bind, pure, Except.pure]

/-- **C206** The order of the force models, and of the controlled ones, does not matter. -/
theorem order_of_forces (b : MBody ℝ) {fs fs' : List (Force ℝ)} (hf : fs.Perm fs') {cs cs' : List (Controlled ℝ)} (hc : cs.Perm cs') :
    SameResultant b fs fs' cs cs' := by
  have key : ∀ {fs fs' : List (Force ℝ)} {cs cs' : List (Controlled ℝ)}, fs.Perm fs' → cs.Perm cs' → ∀ c h k x t F,
      sumOfForces c b fs cs h k x t = .ok F → sumOfForces c b fs' cs' h k x t = .ok F := by
    intro fs fs' cs cs' hf hc c h k x t F H
    obtain ⟨v, ws, us, e1, e2, e3, rfl⟩ := (sumOfForces_iff c b fs cs h k x t F).1 H
    obtain ⟨ws', e4, p1⟩ := mapM_perm hf ws e2
    obtain ⟨us', e5, p2⟩ := mapM_perm hc us e3
    exact (sumOfForces_iff c b fs' cs' h k x t _).2 ⟨v, ws', us', e1, e4, e5, by rw [p1.sum_eq, p2.sum_eq]⟩
  exact fun c h k x t F => ⟨key hf hc c h k x t F, key hf.symm hc.symm c h k x t F⟩

/-- **C206** A force model can be replaced by several ones that amount to it, wherever it is in the list. -/
theorem split_force (b : MBody ℝ) {f : Force ℝ} {l : List (Force ℝ)} (hl : Amounts b f l) (before after : List (Force ℝ))
    (cs : List (Controlled ℝ)) : SameResultant b (before ++ f :: after) (before ++ l ++ after) cs cs := by
  intro c h k x t F
  rw [sumOfForces_iff, sumOfForces_iff]
  constructor
  · rintro ⟨v, ws, us, e1, e2, e3, rfl⟩
    obtain ⟨p, q, a1, a2, rfl⟩ := mapM_append_ok.1 e2
    rw [List.mapM_cons] at a2
    obtain ⟨w, a3, a2⟩ := bind_ok a2
    obtain ⟨r, a4, a2⟩ := bind_ok a2
    cases a2
    obtain ⟨m, a5, a6⟩ := (hl h k t w).1 a3
    exact ⟨v, p ++ m ++ r, us, e1, mapM_append_ok.2 ⟨_, _, mapM_append_ok.2 ⟨_, _, a1, a5, rfl⟩, a4, rfl⟩, e3, by
      simp only [List.sum_append, List.sum_cons, a6]; abel⟩
  · rintro ⟨v, ws, us, e1, e2, e3, rfl⟩
    obtain ⟨pm, r, a1, a4, rfl⟩ := mapM_append_ok.1 e2
    obtain ⟨p, m, a2, a5, rfl⟩ := mapM_append_ok.1 a1
    have a3 := (hl h k t m.sum).2 ⟨m, a5, rfl⟩
    refine ⟨v, p ++ m.sum :: r, us, e1, mapM_append_ok.2 ⟨p, m.sum :: r, a2, ?_, rfl⟩, e3, ?_⟩
    · simp only [List.mapM_cons, a3, a4, bind, Except.bind, pure, Except.pure]
    · simp only [List.sum_append, List.sum_cons]; abel

/-! ### Simulations -/

theorem quicksolve_mono {K S O : Type} [Field K] [LinearOrder K] {A B : System K S O}
    (h1 : ∀ s t dt s', A.doStep s t dt = .ok s' → B.doStep s t dt = .ok s') (h2 : ∀ s t s', A.force s t = .ok s' → B.force s t = .ok s')
    (h3 : ∀ s t o, A.observe s t = .ok o → B.observe s t = .ok o) (fuel : Nat) (s : S) (tstart tend dt : K) (r : S × List O)
    (h : quicksolve A fuel s tstart tend dt = some (.ok r)) : quicksolve B fuel s tstart tend dt = some (.ok r) := by
  have key : ∀ (fuel i : Nat) (s : S) (now : K) (obs : List O), loop A tstart tend dt fuel i s now obs = some (.ok r) →
      loop B tstart tend dt fuel i s now obs = some (.ok r) := by
    intro fuel
    induction fuel with
    | zero => intro i s now obs h; exact h
    | succ fuel ih =>
      intro i s now obs h
      unfold loop at h ⊢
      by_cases hn : now < tend
      · rw [if_pos hn] at h ⊢
        cases e1 : A.doStep s now dt with
        | error e => rw [e1] at h; cases h
        | ok s1 =>
          rw [e1] at h; rw [h1 _ _ _ _ e1]; dsimp only at h ⊢
          cases e2 : A.force s1 now with
          | error e => rw [e2] at h; cases h
          | ok s2 =>
            rw [e2] at h; rw [h2 _ _ _ e2]; dsimp only at h ⊢
            cases e3 : A.observe s2 (tstart + ((i + 1 : Nat) : K) * dt) with
            | error e => rw [e3] at h; cases h
            | ok o => rw [e3] at h; rw [h3 _ _ _ e3]; exact ih _ _ _ _ h
      · rw [if_neg hn] at h ⊢; exact h
  unfold quicksolve at h ⊢
  cases e : A.observe s tstart with
  | error e' => rw [e] at h; cases h
  | ok o => rw [e] at h; rw [h3 _ _ _ e]; exact key _ _ _ _ _ h

theorem run_mono {Γ E : Type} {A B : Setup ℝ Γ E} (h : ∀ (s : Sim ℝ Γ) x t r, s.call A x t = .ok r → s.call B x t = .ok r) :
    ∀ (p : Stepper ℝ) (s s' : Sim ℝ Γ), p.run A s = .ok s' → p.run B s = .ok s'
  | .done x, s, s', e => e
  | .call x t k, s, s', e => by
    unfold Stepper.run at e ⊢
    obtain ⟨⟨dx, s1⟩, e1, e2⟩ := bind_ok e
    rw [h _ _ _ _ e1]
    exact run_mono h _ _ _ e2

theorem call_mono {b : MBody ℝ} {fs fs' : List (Force ℝ)} {cs cs' : List (Controlled ℝ)} (H : SameResultant b fs fs' cs cs')
    (ae : Nat → ℝ → ℝ → Bool) (ae1 : ℝ → Bool) (s : Sim ℝ (Vec3 ℝ × Vec3 ℝ)) (x : List ℝ) (t : ℝ) (r : List ℝ × Sim ℝ (Vec3 ℝ × Vec3 ℝ))
    (h : s.call (oneBody ⟨b, fs, cs⟩ ae ae1) x t = .ok r) : s.call (oneBody ⟨b, fs', cs'⟩ ae ae1) x t = .ok r := by
  unfold Sim.call oneBody onePhysics at h ⊢
  dsimp only at h ⊢
  obtain ⟨hist, e1, h⟩ := bind_ok h
  obtain ⟨p, e2, h⟩ := bind_ok h
  obtain ⟨kin, f1, e2⟩ := bind_ok e2
  obtain ⟨F, f2, e2⟩ := bind_ok e2
  rw [e1]
  simp only [bind, Except.bind, pure, Except.pure] at h e2 ⊢
  rw [f1]
  dsimp only
  rw [(H _ _ _ _ _ _).1 f2]
  dsimp only
  rw [e2]
  exact h

theorem SameResultant.symm {b : MBody ℝ} {fs fs' : List (Force ℝ)} {cs cs' : List (Controlled ℝ)} (H : SameResultant b fs fs' cs cs') :
    SameResultant b fs' fs cs' cs := fun c h k x t F => (H c h k x t F).symm

theorem sim_mono {b : MBody ℝ} {fs fs' : List (Force ℝ)} {cs cs' : List (Controlled ℝ)} (H : SameResultant b fs fs' cs cs')
    (ae : Nat → ℝ → ℝ → Bool) (ae1 : ℝ → Bool) (stepper : List ℝ → ℝ → ℝ → Stepper ℝ) (fuel : Nat) (s : Sim ℝ (Vec3 ℝ × Vec3 ℝ))
    (tstart tend dt : ℝ) (r : Sim ℝ (Vec3 ℝ × Vec3 ℝ) × List (Res ℝ Unit))
    (h : quicksolve (simSystem (oneBody ⟨b, fs, cs⟩ ae ae1) stepper) fuel s tstart tend dt = some (.ok r)) :
    quicksolve (simSystem (oneBody ⟨b, fs', cs'⟩ ae ae1) stepper) fuel s tstart tend dt = some (.ok r) :=
  quicksolve_mono (A := simSystem (oneBody ⟨b, fs, cs⟩ ae ae1) stepper) (B := simSystem (oneBody ⟨b, fs', cs'⟩ ae ae1) stepper)
    (fun s t dt s' h => run_mono (call_mono H ae ae1) _ _ _ h) (fun _ _ _ h => h) (fun _ _ _ h => h) fuel s tstart tend dt r h

theorem ssc_mono {b : MBody ℝ} {fs fs' : List (Force ℝ)} {cs cs' : List (Controlled ℝ)} (H : SameResultant b fs fs' cs cs')
    (ae : Nat → ℝ → ℝ → Bool) (ae1 : ℝ → Bool) (stepper : List ℝ → ℝ → ℝ → Stepper ℝ) (fuel : Nat) (s : Sim ℝ (Vec3 ℝ × Vec3 ℝ))
    (tstart tend dt : ℝ) (r : Sim ℝ (Vec3 ℝ × Vec3 ℝ) × List (Res ℝ Unit))
    (h : quicksolve (sscSystem (oneBody ⟨b, fs, cs⟩ ae ae1) stepper) fuel s tstart tend dt = some (.ok r)) :
    quicksolve (sscSystem (oneBody ⟨b, fs', cs'⟩ ae ae1) stepper) fuel s tstart tend dt = some (.ok r) :=
  quicksolve_mono (A := sscSystem (oneBody ⟨b, fs, cs⟩ ae ae1) stepper) (B := sscSystem (oneBody ⟨b, fs', cs'⟩ ae ae1) stepper)
    (fun s t dt s' h => run_mono (call_mono H ae ae1) _ _ _ h) (fun _ _ _ h => h) (fun _ _ _ h => h) fuel s tstart tend dt r h

/-- **C206** With the same resultant, the simulations have the same results: one ends if and only if the other does, with the same states, the same
histories and the same sums of forces, whatever the solver, for `xdyn` and for the solver of the servers. The histories may be used by the
force models. -/
theorem same_simulation {b : MBody ℝ} {fs fs' : List (Force ℝ)} {cs cs' : List (Controlled ℝ)} (H : SameResultant b fs fs' cs cs')
    (ae : Nat → ℝ → ℝ → Bool) (ae1 : ℝ → Bool) (stepper : List ℝ → ℝ → ℝ → Stepper ℝ) (fuel : Nat) (s : Sim ℝ (Vec3 ℝ × Vec3 ℝ))
    (tstart tend dt : ℝ) (r : Sim ℝ (Vec3 ℝ × Vec3 ℝ) × List (Res ℝ Unit)) :
    (quicksolve (simSystem (oneBody ⟨b, fs, cs⟩ ae ae1) stepper) fuel s tstart tend dt = some (.ok r) ↔
      quicksolve (simSystem (oneBody ⟨b, fs', cs'⟩ ae ae1) stepper) fuel s tstart tend dt = some (.ok r)) ∧
    (quicksolve (sscSystem (oneBody ⟨b, fs, cs⟩ ae ae1) stepper) fuel s tstart tend dt = some (.ok r) ↔
      quicksolve (sscSystem (oneBody ⟨b, fs', cs'⟩ ae ae1) stepper) fuel s tstart tend dt = some (.ok r)) :=
  ⟨⟨sim_mono H ae ae1 stepper fuel s tstart tend dt r, sim_mono H.symm ae ae1 stepper fuel s tstart tend dt r⟩,
   ⟨ssc_mono H ae ae1 stepper fuel s tstart tend dt r, ssc_mono H.symm ae ae1 stepper fuel s tstart tend dt r⟩⟩

/-- **C206** The same for the derivatives of several bodies: replacing the force models of some of them by others with the same resultants gives the
same derivatives, frames, sums of forces and histories. -/
theorem same_derivatives (ae : Nat → ℝ → ℝ → Bool) (M M' : Maps ℝ) (c : Commands ℝ) (x : List ℝ) (t : ℝ) :
    ∀ (l : List (MBody ℝ × States (History ℝ))), (∀ p ∈ l, SameResultant p.1 (lookup M.forces p.1.name) (lookup M'.forces p.1.name)
        (lookup M.controlled p.1.name) (lookup M'.controlled p.1.name)) →
      ∀ w r, dxdt ae M c x t l w = .ok r ↔ dxdt ae M' c x t l w = .ok r := by
  have step : ∀ (M M' : Maps ℝ) (b : MBody ℝ), SameResultant b (lookup M.forces b.name) (lookup M'.forces b.name)
        (lookup M.controlled b.name) (lookup M'.controlled b.name) →
      ∀ h w r, stepBody ae M c x t w b h = .ok r → stepBody ae M' c x t w b h = .ok r := by
    intro M M' b H h w r e
    unfold stepBody at e ⊢
    obtain ⟨kin, e1, e⟩ := bind_ok e
    obtain ⟨h', e2, e⟩ := bind_ok e
    obtain ⟨F, e3, e⟩ := bind_ok e
    rw [e1, e2]
    simp only [bind, Except.bind, pure, Except.pure] at e ⊢
    rw [(H _ _ _ _ _ _).1 e3]
    exact e
  have mono : ∀ (M M' : Maps ℝ) (l : List (MBody ℝ × States (History ℝ))), (∀ p ∈ l, SameResultant p.1 (lookup M.forces p.1.name)
      (lookup M'.forces p.1.name) (lookup M.controlled p.1.name) (lookup M'.controlled p.1.name)) →
      ∀ w r, dxdt ae M c x t l w = .ok r → dxdt ae M' c x t l w = .ok r := by
    intro M M' l
    induction l with
    | nil => intro _ w r h; exact h
    | cons p l ih =>
      obtain ⟨b, h⟩ := p
      intro H w r e
      unfold dxdt at e ⊢
      obtain ⟨p1, e1, e⟩ := bind_ok e
      obtain ⟨p2, e2, e⟩ := bind_ok e
      rw [step M M' b (H (b, h) (by simp)) h w p1 e1]
      simp only [bind, Except.bind, pure, Except.pure] at e ⊢
      rw [ih (fun q hq => H q (by simp [hq])) _ _ e2]
      exact e
  intro l H w r
  exact ⟨mono M M' l H w r, mono M' M l (fun p hp => (H p hp).symm) w r⟩

/-- **C206** The same for the co-simulation server and for the model exchange server. -/
theorem same_answers {b : MBody ℝ} {fs fs' : List (Force ℝ)} {cs cs' : List (Controlled ℝ)} (H : SameResultant b fs fs' cs cs')
    (ae : Nat → ℝ → ℝ → Bool) (ae1 : ℝ → Bool) (C : Server.StepConf ℝ) (fuel : Nat) (s : Sim ℝ (Vec3 ℝ × Vec3 ℝ)) (inp : Server.Inputs ℝ) :
    (∀ r, Server.playOneStep (oneBody ⟨b, fs, cs⟩ ae ae1) C fuel s inp = some (.ok r) ↔
      Server.playOneStep (oneBody ⟨b, fs', cs'⟩ ae ae1) C fuel s inp = some (.ok r)) ∧
    ∀ r, Server.calculateDxDt (oneBody ⟨b, fs, cs⟩ ae ae1) s inp = .ok r ↔ Server.calculateDxDt (oneBody ⟨b, fs', cs'⟩ ae ae1) s inp = .ok r := by
  have k1 : ∀ {fs fs' : List (Force ℝ)} {cs cs' : List (Controlled ℝ)}, SameResultant b fs fs' cs cs' →
      ∀ r, Server.playOneStep (oneBody ⟨b, fs, cs⟩ ae ae1) C fuel s inp = some (.ok r) →
      Server.playOneStep (oneBody ⟨b, fs', cs'⟩ ae ae1) C fuel s inp = some (.ok r) := by
    intro fs fs' cs cs' H r h
    unfold Server.playOneStep Server.step at h ⊢
    by_cases hD : inp.Dt ≤ 0
    · rw [if_pos hD] at h; cases h
    · rw [if_neg hD] at h ⊢
      cases hp : Server.prepare s inp with
      | error e => rw [hp] at h; cases h
      | ok s1 =>
        rw [hp] at h
        dsimp only at h ⊢
        unfold simulate at h ⊢
        cases hq : quicksolve (simSystem (oneBody ⟨b, fs, cs⟩ ae ae1) C.stepper) fuel s1 inp.t (inp.t + inp.Dt) C.dt with
        | none => rw [hq] at h; cases h
        | some q =>
          cases q with
          | error e => rw [hq] at h; cases h
          | ok q =>
            rw [hq] at h
            rw [sim_mono H ae ae1 C.stepper fuel s1 _ _ C.dt q hq]
            exact h
  have k2 : ∀ {fs fs' : List (Force ℝ)} {cs cs' : List (Controlled ℝ)}, SameResultant b fs fs' cs cs' →
      ∀ r, Server.calculateDxDt (oneBody ⟨b, fs, cs⟩ ae ae1) s inp = .ok r →
      Server.calculateDxDt (oneBody ⟨b, fs', cs'⟩ ae ae1) s inp = .ok r := by
    intro fs fs' cs cs' H r h
    unfold Server.calculateDxDt oneBody onePhysics at h ⊢
    dsimp only at h ⊢
    obtain ⟨s1, e0, h⟩ := bind_ok h
    obtain ⟨hist, e1, h⟩ := bind_ok h
    obtain ⟨p, e2, h⟩ := bind_ok h
    obtain ⟨kin, f1, e2⟩ := bind_ok e2
    obtain ⟨F, f2, e2⟩ := bind_ok e2
    rw [e0]
    simp only [bind, Except.bind, pure, Except.pure] at h e2 ⊢
    rw [e1]
    dsimp only
    rw [f1]
    dsimp only
    rw [(H _ _ _ _ _ _).1 f2]
    dsimp only
    rw [e2]
    exact h
  exact ⟨fun r => ⟨k1 H r, k1 H.symm r⟩, fun r => ⟨k2 H r, k2 H.symm r⟩⟩

/-! ### Force models that can be split -/

theorem amounts_damping (b : MBody ℝ) (P : Vec3 ℝ) (L L1 L2 : (Fin 6 → ℝ) → Fin 6 → ℝ) (hL : ∀ W, L W = L1 W + L2 W) :
    Amounts b (dampingModel b P L) [dampingModel b P L1, dampingModel b P L2] := by
  intro h k t w
  unfold valueOf dampingModel
  cases hv : velocitiesOf h with
  | error e => simp [hv, bind, Except.bind]
  | ok W =>
    have c : ∀ T : Fin 6 → ℝ, contribution b k (wrenchOf b P T) = .ok (![T 0, T 1, T 2], ![T 3, T 4, T 5]) := by
      intro T; unfold contribution wrenchOf; simp [pure, Except.pure]
    simp only [hv, List.mapM_cons, List.mapM_nil, bind, Except.bind, pure, Except.pure, c, Except.ok.injEq, exists_eq_left', List.sum_cons,
      List.sum_nil, add_zero, hL, Prod.mk_add_mk, Pi.add_apply]
    have e : ∀ a b c a' b' c' : ℝ, (![a, b, c] : Vec3 ℝ) + ![a', b', c'] = ![a + a', b + b', c + c'] := by
      intros; funext i; fin_cases i <;> rfl
    rw [e, e]

/-- **C206** A damping matrix can be split into two force models. -/
theorem linear_damping_split (b : MBody ℝ) (P : Vec3 ℝ) (D D' : Fin 6 → Fin 6 → ℝ) :
    Amounts b (linearDampingModel b P (D + D')) [linearDampingModel b P D, linearDampingModel b P D'] :=
  amounts_damping b P _ _ _ fun W => by
    funext i
    simp only [Forces.linearDamping, Forces.mulVec6, Pi.add_apply, Fin.sum_univ_six]
    ring

theorem quadratic_damping_split (b : MBody ℝ) (P : Vec3 ℝ) (D D' : Fin 6 → Fin 6 → ℝ) :
    Amounts b (quadraticDampingModel b P (D + D')) [quadraticDampingModel b P D, quadraticDampingModel b P D'] :=
  amounts_damping b P _ _ _ fun W => by
    funext i
    simp only [Forces.quadraticDamping, Forces.mulVec6, Pi.add_apply, Fin.sum_univ_six]
    ring

/-- **C206** A constant force can be split into two forces given in the same frame and at the same point. -/
theorem constant_force_split (b : MBody ℝ) (frame : String) (f f' m m' P : Vec3 ℝ) :
    Amounts b (constantModel b frame (f + f') (m + m') P) [constantModel b frame f m P, constantModel b frame f' m' P] := by
  intro h k t w
  unfold valueOf constantModel
  cases hv : k.get b.name frame with
  | error e => simp [hv, bind, Except.bind]
  | ok T =>
    have c : ∀ u v : Vec3 ℝ, contribution b k ⟨b.name, b.G, u, v⟩ = .ok (u, v) := by
      intro u v; unfold contribution; simp [pure, Except.pure]
    simp only [hv, List.mapM_cons, List.mapM_nil, bind, Except.bind, pure, Except.pure, c, Except.ok.injEq, exists_eq_left', List.sum_cons,
      List.sum_nil, add_zero]
    have e : ∀ R : Fin 3 → Fin 3 → ℝ, Forces.constantForce (f + f') (m + m') P b.G R =
        Forces.constantForce f m P b.G R + Forces.constantForce f' m' P b.G R := by
      intro R
      ext i <;> simp only [Forces.constantForce, Forces.mulVec3, Prod.fst_add, Prod.snd_add, Pi.add_apply, Fin.sum_univ_three, Hdb.cross,
        Matrix.cons_val] <;> ring
    exact Iff.of_eq (congrArg (fun z => z = w) (e T.R))

/-! ### A concrete case -/

/-- The ball of `Chain`, with a damping matrix and a constant force in one order, or with the damping split and in another order: the same simulation. -/
example (ae : Nat → ℝ → ℝ → Bool) (ae1 : ℝ → Bool) (s : Sim ℝ (Vec3 ℝ × Vec3 ℝ)) (r) :
    let pull : Force ℝ := constantModel Server.top "NED" ![3, 0, 0] 0 ![1, 0, 0]
    let damping (a : ℝ) : Force ℝ := linearDampingModel Server.top 0 (fun i j => if i = j then a else 0)
    quicksolve (sscSystem (oneBody ⟨Server.top, [pull, damping 5], []⟩ ae ae1) rk4Method.stepper) 100 s 0 10 0.1 = some (.ok r) ↔
      quicksolve (sscSystem (oneBody ⟨Server.top, [damping 2, damping 3, pull], []⟩ ae ae1) rk4Method.stepper) 100 s 0 10 0.1 = some (.ok r) := by
  intro pull damping
  have h5 : damping 5 = linearDampingModel Server.top 0 ((fun i j => if i = j then 2 else 0) + fun i j => if i = j then 3 else 0) := by
    simp only [damping]
    congr 1
    funext i j
    simp only [Pi.add_apply]
    split <;> norm_num
  have h1 : SameResultant Server.top [pull, damping 5] [pull, damping 2, damping 3] [] [] := by
    rw [h5]
    exact split_force Server.top (linear_damping_split Server.top 0 _ _) [pull] [] []
  have h2 : SameResultant Server.top [pull, damping 2, damping 3] [damping 2, damping 3, pull] [] [] :=
    order_of_forces Server.top (List.perm_append_comm (l₁ := [pull])) (List.Perm.refl _)
  exact ((same_simulation h1 ae ae1 rk4Method.stepper 100 s 0 10 0.1 r).2).trans (same_simulation h2 ae ae1 rk4Method.stepper 100 s 0 10 0.1 r).2

end Xdyn.Sim

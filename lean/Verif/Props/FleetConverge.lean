import Verif.Props.Fleet
import Verif.Props.Order4

/-! Property C207: the simulations of several bodies converge to the exact motions. -/

namespace Xdyn.Sim

open Blocked Body Spec Solver Multi Xdyn.Server

/-! ### Specification -/

/-- A body with the usual force models `l`, no controller and no blocked state, whose exact motion is `y`, with a unit quaternion at `tstart`. -/
structure Sailing (e : Entry ℝ) (l : List Push) (y : ℝ → List ℝ) (tstart : ℝ) : Prop extends Alone e where
  coriolis : ∃ Ms, e.body.coriolis = inertialForces Ms
  forces : e.forces = l.map (Push.model e.body)
  frames : ∀ f ∈ l, ¬ f.InBody
  controlled : e.controlled = []
  motion : IsMotion (newton e.body.Minv (fun _ => resultant e.body l)) y
  unit : Unit4 (attitudeOf (y tstart))

/-- `n` bodies whose exact motions are `y 0`, `y 1`..., simulated together with the method `T` for at most `D` seconds: the simulation goes to the
end, and all the states observed for each body are at most `C dt^p` away from its exact ones, where `C` does not depend on the time step. -/
def TogetherOfOrder (p n : Nat) (es : Nat → Entry ℝ) (ae : Nat → ℝ → ℝ → Bool) (ae1 : ℝ → Bool) (T : Tableau ℝ) (y : Nat → ℝ → List ℝ)
    (tstart D : ℝ) : Prop :=
  ∃ C δ, 0 < δ ∧ ∀ dt, 0 < dt → dt ≤ δ → ∀ N : Nat, (N : ℝ) * dt ≤ D →
    ∀ tend, tend ≤ tstart + N * dt → (∀ i < N, tstart + (i : ℝ) * dt < tend) →
    ∀ (f : Fleet ℝ) (H : Nat → States (History ℝ)), f.state = cat n (fun k => y k tstart) → f.hist = (List.range n).map H →
    (∀ k < n, (∀ m, (field (H k) m).Tmax = 0) ∧ NotAfter ae (H k) tstart) → ∀ fuel, N ≤ fuel →
    ∃ f' O, quicksolve (fleetSystem (fleetOf n es ae ae1) T.stepper) fuel f tstart tend dt = some (.ok (f', O)) ∧ O.length = N + 1 ∧
      ∀ (i : Nat) (hi : i < O.length), O[i].1 = tstart + i * dt ∧ ∀ k < n, Near (C * dt ^ p) (block k O[i].2) (y k O[i].1)

/-! ### Force models that use only the frames of their body -/

theorem push_own (b : MBody ℝ) (f : Push) : UsesOnly (fun n => n = "NED" ∨ OwnFrame b n) (f.model b) := by
  have hn : ∀ (k k' : Kin ℝ), frameOf k "NED" = frameOf k' "NED" := fun k k' => by simp only [frameOf, if_true]
  have damp : ∀ P L, UsesOnly (fun n => n = "NED" ∨ OwnFrame b n) (dampingModel b P L) := by
    intro P L h t k k' _
    refine ⟨rfl, fun tau e => ?_⟩
    unfold dampingModel at e
    obtain ⟨W, -, e⟩ := bind_ok e
    cases e
    exact Or.inr (Or.inl rfl)
  have const : ∀ frame, (frame = "NED" ∨ frame = b.name) → ∀ F M P, UsesOnly (fun n => n = "NED" ∨ OwnFrame b n) (constantModel b frame F M P) := by
    intro frame hf F M P h t k k' hk
    have e1 : k.get b.name frame = k'.get b.name frame := by
      have e2 : frameOf k frame = frameOf k' frame := hk frame (hf.imp id Or.inl)
      simp only [Kin.get, e2, hk b.name (Or.inr (Or.inl rfl))]
    refine ⟨by simp only [constantModel, e1], fun tau e2 => ?_⟩
    unfold constantModel at e2
    obtain ⟨T, -, e2⟩ := bind_ok e2
    cases e2
    exact Or.inr (Or.inl rfl)
  cases f with
  | gravity M g => exact gravity_own b M g
  | linearDamping P D => exact damp P _
  | quadraticDamping P D => exact damp P _
  | resistance P R =>
    intro h t k k' _
    refine ⟨rfl, fun tau e => ?_⟩
    change resistanceModel b P R h k t = .ok tau at e
    unfold resistanceModel at e
    obtain ⟨W, -, e⟩ := bind_ok e
    cases e
    exact Or.inr (Or.inl rfl)
  | bodyForce F M P => exact const b.name (Or.inr rfl) F M P
  | nedForce F M P => exact const "NED" (Or.inl rfl) F M P

theorem Sailing.independent {e : Entry ℝ} {l : List Push} {y : ℝ → List ℝ} {tstart : ℝ} (he : Sailing e l y tstart) : Independent e where
  toSeated := he.toAlone.seated
  forces f hf := by
    rw [he.forces] at hf
    obtain ⟨p, -, rfl⟩ := List.mem_map.1 hf
    exact push_own e.body p
  controlled f hf := by rw [he.controlled] at hf; cases hf

/-! ### Convergence -/

theorem uniform_bound (n : Nat) (P : Nat → ℝ → ℝ → Prop) (mono : ∀ k C C' δ δ', C ≤ C' → 0 < δ' → δ' ≤ δ → P k C δ → P k C' δ')
    (h : ∀ k < n, ∃ C δ, 0 < δ ∧ P k C δ) : ∃ C δ, 0 < δ ∧ ∀ k < n, P k C δ := by
  induction n with
  | zero => exact ⟨0, 1, one_pos, fun k hk => absurd hk (Nat.not_lt_zero k)⟩
  | succ n ih =>
    obtain ⟨C, δ, hδ, H⟩ := ih fun k hk => h k (by omega)
    obtain ⟨C', δ', hδ', H'⟩ := h n (by omega)
    refine ⟨max C C', min δ δ', lt_min hδ hδ', fun k hk => ?_⟩
    rcases Nat.lt_succ_iff_lt_or_eq.1 hk with h1 | rfl
    · exact mono k _ _ _ _ (le_max_left _ _) (lt_min hδ hδ') (min_le_left _ _) (H k h1)
    · exact mono k _ _ _ _ (le_max_right _ _) (lt_min hδ hδ') (min_le_right _ _) H'

theorem together_of_alone (p n : Nat) (h0 : 0 < n) (es : Nat → Entry ℝ) (he : ∀ k < n, Independent (es k)) (hfree : ∀ k < n, ∀ s, (es k).body.blocked.dof s = none)
    (hn : ((List.range n).map (fun k => (es k).body.name)).Nodup) (ae : Nat → ℝ → ℝ → Bool) (ae1 : ℝ → Bool) (T : Tableau ℝ)
    (y : Nat → ℝ → List ℝ) (tstart D : ℝ) (hy : ∀ k < n, (y k tstart).length = 13)
    (h : ∀ k < n, ∃ C δ, 0 < δ ∧ ∀ dt, 0 < dt → dt ≤ δ → ∀ N : Nat, (N : ℝ) * dt ≤ D →
      ∀ tend, tend ≤ tstart + N * dt → (∀ i < N, tstart + (i : ℝ) * dt < tend) →
      ∀ s : Sim ℝ (Vec3 ℝ × Vec3 ℝ), s.state = y k tstart → (∀ n, (field s.hist n).Tmax = 0) → NotAfter ae s.hist tstart → ∀ fuel, N ≤ fuel →
      ∃ s' obs, quicksolve (simSystem (oneBody (es k) ae ae1) T.stepper) fuel s tstart tend dt = some (.ok (s', obs)) ∧ obs.length = N + 1 ∧
        ∀ (i : Nat) (hi : i < obs.length), obs[i].t = tstart + i * dt ∧ Near (C * dt ^ p) obs[i].x (y k obs[i].t)) :
    TogetherOfOrder p n es ae ae1 T y tstart D := by
  obtain ⟨C, δ, hδ, H⟩ := uniform_bound n _ (fun k C C' δ δ' hC h1 h2 h3 => by
    intro dt hdt hd N hN tend htend hfirst s hs hT hh fuel hf
    obtain ⟨s', obs, a1, a2, a3⟩ := h3 dt hdt (hd.trans h2) N hN tend htend hfirst s hs hT hh fuel hf
    exact ⟨s', obs, a1, a2, fun i hi => ⟨(a3 i hi).1, (a3 i hi).2.mono (mul_le_mul_of_nonneg_right hC (pow_nonneg hdt.le p))⟩⟩) h
  refine ⟨C, δ, hδ, ?_⟩
  intro dt hdt hd N hN tend htend hfirst f Hh hs hH hh fuel hf
  let s : Nat → Sim ℝ (Vec3 ℝ × Vec3 ℝ) := fun k => ⟨y k tstart, Hh k, f.commands, [], 0⟩
  have key : ∀ k, ∃ s' obs, k < n → quicksolve (simSystem (oneBody (es k) ae ae1) T.stepper) fuel (s k) tstart tend dt = some (.ok (s', obs)) ∧
      obs.length = N + 1 ∧ ∀ (i : Nat) (hi : i < obs.length), obs[i].t = tstart + i * dt ∧ Near (C * dt ^ p) obs[i].x (y k obs[i].t) := by
    intro k
    by_cases hk : k < n
    · obtain ⟨s', obs, a⟩ := H k hk dt hdt hd N hN tend htend hfirst (s k) rfl (hh k hk).1 (hh k hk).2 fuel hf
      exact ⟨s', obs, fun _ => a⟩
    · exact ⟨s k, [], fun h => absurd h hk⟩
  choose s' o ho using key
  obtain ⟨f', O, e1, -, e3, -⟩ := bodies_move_as_alone n h0 es he hn ae ae1 T tstart tend dt fuel f s s'
    ⟨hH, fun _ _ => rfl, hy, hs⟩ o (fun k hk => (ho k hk).1)
  have hrow : ∀ k < n, O.map (fun r => (r.1, block k r.2)) = (o k).map (fun r => (r.t, r.x)) := fun k hk => e3 k hk (Or.inr (hfree k hk))
  have hlen : ∀ k < n, O.length = (o k).length := fun k hk => by simpa using congrArg List.length (hrow k hk)
  refine ⟨f', O, e1, by rw [hlen 0 h0, (ho 0 h0).2.1], fun i hi => ?_⟩
  have hi' : ∀ k (hk : k < n), (O[i].1, block k O[i].2) = ((o k)[i]'(by rw [← hlen k hk]; exact hi) |>.t, (o k)[i]'(by rw [← hlen k hk]; exact hi) |>.x) := by
    intro k hk
    have := congrArg (fun l => l[i]?) (hrow k hk)
    simp only [List.getElem?_map, List.getElem?_eq_getElem hi, List.getElem?_eq_getElem (show i < (o k).length by rw [← hlen k hk]; exact hi),
      Option.map_some, Option.some.injEq] at this
    exact this
  refine ⟨?_, fun k hk => ?_⟩
  · rw [(Prod.mk.inj (hi' 0 h0)).1]
    exact ((ho 0 h0).2.2 i _).1
  · rw [(Prod.mk.inj (hi' k hk)).2, (Prod.mk.inj (hi' k hk)).1]
    exact ((ho k hk).2.2 i _).2

/-- **C207** Any number of bodies with different names, each with its own usual force models, simulated together with any Runge-Kutta method that goes
forward and whose weights have the sum 1: the error is at most a constant times the time step. -/
theorem fleet_converges (n : Nat) (h0 : 0 < n) (es : Nat → Entry ℝ) (l : Nat → List Push) (y : Nat → ℝ → List ℝ) (tstart D : ℝ) (hD : 0 ≤ D)
    (he : ∀ k < n, Sailing (es k) (l k) (y k) tstart) (hreg : ∀ k < n, ∀ f ∈ l k, f.Regular)
    (hn : ((List.range n).map (fun k => (es k).body.name)).Nodup) (ae : Nat → ℝ → ℝ → Bool) (hae : ∀ n a, ae n a a = true) (ae1 : ℝ → Bool)
    (T : Tableau ℝ) (hT : Forward T) (hw : WellWeighted T) : TogetherOfOrder 1 n es ae ae1 T y tstart D := by
  refine together_of_alone 1 n h0 es (fun k hk => (he k hk).independent) (fun k hk => (he k hk).free) hn ae ae1 T y tstart D
    (fun k hk => ((he k hk).motion tstart).1) fun k hk => ?_
  obtain ⟨Ms, hcor⟩ := (he k hk).coriolis
  obtain ⟨C, δ, hδ, H⟩ := simulation_converges (es k) (he k hk).toAlone hcor ae hae ae1 (l k) (he k hk).forces (he k hk).frames (hreg k hk)
    (he k hk).controlled T hT hw (y k) (he k hk).motion tstart D hD (he k hk).unit
  refine ⟨C, δ, hδ, fun dt hdt hd N hN tend htend hfirst s hs hT' hh fuel hf => ?_⟩
  simpa only [pow_one] using H dt hdt hd N hN tend htend hfirst s hs hT' hh fuel hf _ (Or.inl rfl)

/-- **C207** With `rk4` and smooth force models, the error is at most a constant times the fourth power of the time step. -/
theorem fleet_fourth_order (n : Nat) (h0 : 0 < n) (es : Nat → Entry ℝ) (l : Nat → List Push) (y : Nat → ℝ → List ℝ) (tstart D : ℝ) (hD : 0 ≤ D)
    (he : ∀ k < n, Sailing (es k) (l k) (y k) tstart) (hsm : ∀ k < n, ∀ f ∈ l k, f.Smooth)
    (hn : ((List.range n).map (fun k => (es k).body.name)).Nodup) (ae : Nat → ℝ → ℝ → Bool) (hae : ∀ n a, ae n a a = true) (ae1 : ℝ → Bool) :
    TogetherOfOrder 4 n es ae ae1 rk4Method y tstart D := by
  refine together_of_alone 4 n h0 es (fun k hk => (he k hk).independent) (fun k hk => (he k hk).free) hn ae ae1 rk4Method y tstart D
    (fun k hk => ((he k hk).motion tstart).1) fun k hk => ?_
  obtain ⟨Ms, hcor⟩ := (he k hk).coriolis
  obtain ⟨C, δ, hδ, H⟩ := rk4_fourth_order (es k) (he k hk).toAlone hcor ae hae ae1 (l k) (he k hk).forces (he k hk).frames (hsm k hk)
    (he k hk).controlled (y k) (he k hk).motion tstart D hD (he k hk).unit
  exact ⟨C, δ, hδ, fun dt hdt hd N hN tend htend hfirst s hs hT' hh fuel hf => H dt hdt hd N hN tend htend hfirst s hs hT' hh fuel hf _ (Or.inl rfl)⟩

/-! ### A concrete case -/

/-- The ball of C198 with another name. -/
noncomputable def thrownBallNamed (name : String) : Entry ℝ :=
  ⟨{ Server.top with name := name }, [Push.model { Server.top with name := name } (.gravity 1 10)], []⟩

/-- Two balls that turn and fall, the second one being one second ahead of the first one, simulated together with `rk4` for ten seconds. -/
example : TogetherOfOrder 4 2 (fun k => thrownBallNamed (if k = 0 then "a" else "b")) (fun _ a b => decide (a = b)) (fun _ => false) rk4Method
    (fun k t => thrown (t + k)) 0 10 := by
  refine fleet_fourth_order 2 (by norm_num) _ (fun _ => [.gravity 1 10]) _ 0 10 (by norm_num) (fun k hk => ?_) (by simp [Push.Smooth])
    (by decide) _ (by simp) _
  exact ⟨⟨rfl, by change (if k = 0 then "a" else "b") ≠ "NED"; split <;> decide, fun _ => rfl⟩, ⟨1, top_inertial⟩, rfl, by simp [Push.InBody], rfl,
    motion_moved thrown_is_motion k, by simp [thrown, Unit4, attitudeOf]⟩

end Xdyn.Sim

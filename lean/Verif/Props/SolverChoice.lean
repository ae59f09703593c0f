import Verif.Props.Flight

/-! C218: the choice of the solver and of the time step. -/

namespace Xdyn.Sim

open Blocked Body Spec Solver

/-- **C218** One body with the usual force models and no controller, whose equations of motion have an exact solution, simulated twice from the same states: with
two Runge-Kutta methods and two time steps. Both simulations go to their ends and, at the dates that both write, the states differ by at most `C (dt₁ + dt₂)`. -/
theorem solvers_agree (e : Multi.Entry ℝ) (he : Alone e) {Ms : Mat6 ℝ} (hcor : e.body.coriolis = inertialForces Ms) (ae : Nat → ℝ → ℝ → Bool) (hae : ∀ n a, ae n a a = true) (ae1 : ℝ → Bool)
    (l : List Push) (hl : e.forces = l.map (Push.model e.body)) (hb : ∀ f ∈ l, ¬ f.InBody) (hreg : ∀ f ∈ l, f.Regular) (hc : e.controlled = [])
    (T₁ T₂ : Tableau ℝ) (hT₁ : Forward T₁) (hT₂ : Forward T₂) (hw₁ : WellWeighted T₁) (hw₂ : WellWeighted T₂)
    (y : ℝ → List ℝ) (hy : IsMotion (newton e.body.Minv (fun _ => resultant e.body l)) y)
    (tstart D : ℝ) (hD : 0 ≤ D) (hu : Unit4 (attitudeOf (y tstart))) :
    ∃ C δ, 0 < δ ∧ ∀ dt₁, 0 < dt₁ → dt₁ ≤ δ → ∀ dt₂, 0 < dt₂ → dt₂ ≤ δ → ∀ N₁ N₂ : Nat, (N₁ : ℝ) * dt₁ ≤ D → (N₂ : ℝ) * dt₂ ≤ D →
      ∀ tend₁ tend₂, tend₁ ≤ tstart + N₁ * dt₁ → (∀ i < N₁, tstart + (i : ℝ) * dt₁ < tend₁) → tend₂ ≤ tstart + N₂ * dt₂ → (∀ i < N₂, tstart + (i : ℝ) * dt₂ < tend₂) →
      ∀ s : Sim ℝ (Vec3 ℝ × Vec3 ℝ), s.state = y tstart → (∀ n, (field s.hist n).Tmax = 0) → NotAfter ae s.hist tstart → ∀ fuel, N₁ ≤ fuel → N₂ ≤ fuel →
      ∃ s₁ s₂ obs₁ obs₂, quicksolve (sscSystem (oneBody e ae ae1) T₁.stepper) fuel s tstart tend₁ dt₁ = some (.ok (s₁, obs₁)) ∧
        quicksolve (sscSystem (oneBody e ae ae1) T₂.stepper) fuel s tstart tend₂ dt₂ = some (.ok (s₂, obs₂)) ∧
        obs₁.length = N₁ + 1 ∧ obs₂.length = N₂ + 1 ∧
        (∀ (i : Nat) (hi : i < obs₁.length), obs₁[i].t = tstart + i * dt₁) ∧ (∀ (j : Nat) (hj : j < obs₂.length), obs₂[j].t = tstart + j * dt₂) ∧
        ∀ (i j : Nat) (hi : i < obs₁.length) (hj : j < obs₂.length), obs₁[i].t = obs₂[j].t → Near (C * (dt₁ + dt₂)) obs₁[i].x obs₂[j].x := by
  obtain ⟨C₁, δ₁, hδ₁, H₁⟩ := simulation_converges e he hcor ae hae ae1 l hl hb hreg hc T₁ hT₁ hw₁ y hy tstart D hD hu
  obtain ⟨C₂, δ₂, hδ₂, H₂⟩ := simulation_converges e he hcor ae hae ae1 l hl hb hreg hc T₂ hT₂ hw₂ y hy tstart D hD hu
  refine ⟨max C₁ C₂, min δ₁ δ₂, lt_min hδ₁ hδ₂, ?_⟩
  intro dt₁ h₁ hd₁ dt₂ h₂ hd₂ N₁ N₂ hN₁ hN₂ tend₁ tend₂ ht₁ hf₁ ht₂ hf₂ s hs h0 hh fuel hfu₁ hfu₂
  obtain ⟨s₁, obs₁, a₁, b₁, c₁⟩ := H₁ dt₁ h₁ (hd₁.trans (min_le_left _ _)) N₁ hN₁ tend₁ ht₁ hf₁ s hs h0 hh fuel hfu₁ _ (.inr rfl)
  obtain ⟨s₂, obs₂, a₂, b₂, c₂⟩ := H₂ dt₂ h₂ (hd₂.trans (min_le_right _ _)) N₂ hN₂ tend₂ ht₂ hf₂ s hs h0 hh fuel hfu₂ _ (.inr rfl)
  refine ⟨s₁, s₂, obs₁, obs₂, a₁, a₂, b₁, b₂, fun i hi => (c₁ i hi).1, fun j hj => (c₂ j hj).1, fun i j hi hj ht k => ?_⟩
  have e₁ := (c₁ i hi).2 k
  have e₂ := (c₂ j hj).2 k
  rw [ht] at e₁
  have m₁ : C₁ * dt₁ ≤ max C₁ C₂ * dt₁ := mul_le_mul_of_nonneg_right (le_max_left _ _) h₁.le
  have m₂ : C₂ * dt₂ ≤ max C₁ C₂ * dt₂ := mul_le_mul_of_nonneg_right (le_max_right _ _) h₂.le
  rw [abs_le] at *
  constructor <;> nlinarith [e₁.1, e₁.2, e₂.1, e₂.2]

/-- The ball of C198, with `euler` and with `rk4`, during ten seconds: the hypotheses of C218 are met. -/
example : ∃ C δ, 0 < δ ∧ ∀ dt₁, 0 < dt₁ → dt₁ ≤ δ → ∀ dt₂, 0 < dt₂ → dt₂ ≤ δ → ∀ N₁ N₂ : Nat, (N₁ : ℝ) * dt₁ ≤ 10 → (N₂ : ℝ) * dt₂ ≤ 10 →
    ∃ s₁ s₂ obs₁ obs₂,
      quicksolve (sscSystem (oneBody thrownBall (fun _ a b => decide (a = b)) (fun _ => false)) eulerMethod.stepper) (N₁ + N₂)
        ⟨thrown 0, noHistory, fun _ => none, [], 0⟩ 0 (N₁ * dt₁) dt₁ = some (.ok (s₁, obs₁)) ∧
      quicksolve (sscSystem (oneBody thrownBall (fun _ a b => decide (a = b)) (fun _ => false)) rk4Method.stepper) (N₁ + N₂)
        ⟨thrown 0, noHistory, fun _ => none, [], 0⟩ 0 (N₂ * dt₂) dt₂ = some (.ok (s₂, obs₂)) ∧
      obs₁.length = N₁ + 1 ∧ obs₂.length = N₂ + 1 ∧
      ∀ (i j : Nat) (hi : i < obs₁.length) (hj : j < obs₂.length), obs₁[i].t = obs₂[j].t → Near (C * (dt₁ + dt₂)) obs₁[i].x obs₂[j].x := by
  obtain ⟨C, δ, hδ, H⟩ := solvers_agree thrownBall ⟨rfl, by decide, fun _ => rfl⟩ (Ms := 1) top_inertial (fun _ a b => decide (a = b)) (by simp) (fun _ => false)
    [.gravity 1 10] rfl (by simp [Push.InBody]) (by simp [Push.Regular]) rfl eulerMethod rk4Method euler_forward rk4_forward euler_weighted rk4_weighted
    thrown thrown_is_motion 0 10 (by norm_num) (by simp [thrown, Unit4, attitudeOf])
  refine ⟨C, δ, hδ, fun dt₁ h₁ hd₁ dt₂ h₂ hd₂ N₁ N₂ hN₁ hN₂ => ?_⟩
  obtain ⟨s₁, s₂, o₁, o₂, a, b, c, d, _, _, f⟩ := H dt₁ h₁ hd₁ dt₂ h₂ hd₂ N₁ N₂ hN₁ hN₂ (N₁ * dt₁) (N₂ * dt₂) (by rw [zero_add])
    (fun i hi => by rw [zero_add]; exact mul_lt_mul_of_pos_right (by exact_mod_cast hi) h₁) (by rw [zero_add])
    (fun i hi => by rw [zero_add]; exact mul_lt_mul_of_pos_right (by exact_mod_cast hi) h₂)
    ⟨thrown 0, noHistory, fun _ => none, [], 0⟩ rfl (fun n => by cases n <;> rfl) (noHistory_notAfter _ _) (N₁ + N₂) (by omega) (by omega)
  exact ⟨s₁, s₂, o₁, o₂, a, b, c, d, f⟩

end Xdyn.Sim

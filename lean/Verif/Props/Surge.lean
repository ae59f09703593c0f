import Verif.Props.RungeKutta
import Mathlib.Analysis.SpecialFunctions.Exp
import Mathlib.Analysis.SpecialFunctions.ExpDeriv
import Mathlib.Analysis.SpecificLimits.Basic
import Mathlib.Analysis.Complex.Exponential

/-! Properties C180 (a body that goes straight ahead) and C181 (thrust against damping). -/

namespace Xdyn.Sim

open Blocked Body Spec Solver

/-- A body that goes straight ahead with attitude `q`: `M` is its inertia, with added mass, `m` its inertia along its
first axis, and when its velocity is `u` along this axis the forces sum up to `f u` along this axis, and have no moment. -/
structure SurgeBody (e : Multi.Entry ℝ) (l : List Push) (M : Mat6 ℝ) (m : ℝ) (f : ℝ → ℝ) (q : Quat ℝ) : Prop extends Alone e where
  mass : ∀ i, M i 0 = if i = 0 then m else 0
  pos : 0 < m
  inverse : e.body.Minv * M = 1
  forces : e.forces = l.map (Push.model e.body)
  controlled : e.controlled = []
  sum : ∀ u, resultant e.body l ![u, 0, 0] 0 q = (![f u, 0, 0], 0)

/-- Distance covered and speed: their derivatives are the speed and the acceleration. -/
def surge (a : ℝ → ℝ) : List ℝ → ℝ → List ℝ
  | [_, u], _ => [u, a u]
  | _, _ => []

/-- The state of a body that started at `p` and has covered the distance `s` ahead, with speed `u`. -/
noncomputable def ahead (p : Vec3 ℝ) (q : Quat ℝ) (s u : ℝ) : List ℝ :=
  vec13 (p + s • q.matrix.mulVec ![1, 0, 0]) ![u, 0, 0] 0 q

/-- Derivatives of such a state. -/
noncomputable def aheadRate (q : Quat ℝ) (s u : ℝ) : List ℝ :=
  vec13 (s • q.matrix.mulVec ![1, 0, 0]) ![u, 0, 0] 0 ⟨0, 0, 0, 0⟩

theorem ahead_along (p : Vec3 ℝ) (q : Quat ℝ) (s u c s' u' : ℝ) :
    List.zipWith (fun xi ki => xi + c * ki) (ahead p q s u) (aheadRate q s' u') = ahead p q (s + c * s') (u + c * u') := by
  simp only [ahead, aheadRate, vec13, List.zipWith_cons_cons, List.zipWith_nil_left, Pi.add_apply, Pi.smul_apply, smul_eq_mul,
    Matrix.cons_val_zero, Matrix.cons_val_one, Matrix.cons_val, Pi.zero_apply, mul_zero, add_zero]
  congr 1
  · ring
  congr 1
  · ring
  congr 1
  ring

theorem ahead_move (p : Vec3 ℝ) (q : Quat ℝ) (dt : ℝ) : ∀ (a : List ℝ) (ks : List (ℝ × ℝ)) (s u : ℝ),
    ∃ s' u', RK.move dt (ahead p q s u) a (ks.map fun k => aheadRate q k.1 k.2) = ahead p q s' u' ∧
      RK.move dt [s, u] a (ks.map fun k => [k.1, k.2]) = [s', u']
  | [], ks, s, u => ⟨s, u, by simp [RK.move], by simp [RK.move]⟩
  | a :: as, [], s, u => ⟨s, u, by simp [RK.move], by simp [RK.move]⟩
  | a :: as, k :: ks, s, u => by
    obtain ⟨s', u', h1, h2⟩ := ahead_move p q dt as ks (s + dt * a * k.1) (u + dt * a * k.2)
    refine ⟨s', u', ?_, ?_⟩
    · rw [← h1]
      simp only [RK.move, List.map_cons, List.zip_cons_cons, List.foldl_cons, ahead_along]
    · rw [← h2]
      simp [RK.move]

theorem newton_ahead {e : Multi.Entry ℝ} {l : List Push} {M : Mat6 ℝ} {m : ℝ} {f : ℝ → ℝ} {q : Quat ℝ}
    (he : SurgeBody e l M m f q) (p : Vec3 ℝ) (s u t : ℝ) :
    newton e.body.Minv (fun _ => resultant e.body l) (ahead p q s u) t = aheadRate q u (f u / m) := by
  have e0 : (![0, 0, 0] : Vec3 ℝ) = 0 := by funext i; fin_cases i <;> rfl
  have e1 : e.body.Minv.mulVec ![f u, 0, 0, 0, 0, 0] = ![f u / m, 0, 0, 0, 0, 0] := by
    have : (![f u, 0, 0, 0, 0, 0] : Vec6 ℝ) = M.mulVec ![f u / m, 0, 0, 0, 0, 0] := by
      have hm := he.pos.ne'
      funext i
      simp only [Matrix.mulVec, dotProduct, Fin.sum_univ_six, he.mass]
      fin_cases i <;> simp <;> field_simp
    rw [this, Matrix.mulVec_mulVec, he.inverse, Matrix.one_mulVec]
  have e3 : resultant e.body l ![u, 0, 0] ![0, 0, 0] q = (![f u, 0, 0], 0) := by rw [e0]; exact he.sum u
  have e2 : q.matrix.mulVec ![u, 0, 0] = u • q.matrix.mulVec ![1, 0, 0] := by
    rw [← Matrix.mulVec_smul]
    congr 1
    funext i; fin_cases i <;> simp
  simp only [newton, ahead, aheadRate, vec13, Matrix.cons_val_zero, Matrix.cons_val_one, Matrix.cons_val, Pi.zero_apply, e3, e1, e2,
    mul_zero, sub_zero, add_zero, zero_div]

theorem surge_memoryless {e : Multi.Entry ℝ} {l : List Push} {M : Mat6 ℝ} {m : ℝ} {f : ℝ → ℝ} {q : Quat ℝ} (hq : Unit4 q)
    (he : SurgeBody e l M m f q) (ae : Nat → ℝ → ℝ → Bool) (ae1 : ℝ → Bool) (cmd : Commands ℝ) (p : Vec3 ℝ) :
    Memoryless (oneBody e ae ae1) cmd (newton e.body.Minv (fun _ => resultant e.body l)) (fun x _ => x) (fun x => ∃ s u, x = ahead p q s u)
      (fun x => ∃ s u, x = aheadRate q s u) := by
  refine one_body_memoryless e he.toAlone ae ae1 cmd _ _ _ (by rintro x ⟨s, u, rfl⟩; rfl) ?_ ?_ ?_
  · rintro h p' u' w' q' t ⟨s, u, hx⟩ hcur h0
    refine pushes_sum e he.toAlone l he.forces he.controlled cmd t hcur h0 (Or.inl ?_)
    have : q' = q := by
      simp only [ahead, vec13, List.cons.injEq] at hx
      obtain ⟨-, -, -, -, -, -, -, -, -, a, b, c, d, -⟩ := hx
      cases q; cases q'; simp_all
    rw [this]; exact hq
  · rintro x t ⟨s, u, rfl⟩
    exact ⟨_, _, newton_ahead he p s u t⟩
  · rintro dt x a ks ⟨s, u, rfl⟩ hk
    obtain ⟨ks', rfl⟩ : ∃ ks' : List (ℝ × ℝ), ks = ks'.map fun k => aheadRate q k.1 k.2 := by
      induction ks with
      | nil => exact ⟨[], rfl⟩
      | cons k ks ih =>
        obtain ⟨l', rfl⟩ := ih fun k hk' => hk k (by simp [hk'])
        obtain ⟨s, u, rfl⟩ := hk k (by simp)
        exact ⟨(s, u) :: l', rfl⟩
    obtain ⟨s', u', h, -⟩ := ahead_move p q dt a ks' s u
    exact ⟨s', u', h⟩

theorem surge_stages {e : Multi.Entry ℝ} {l : List Push} {M : Mat6 ℝ} {m : ℝ} {f : ℝ → ℝ} {q : Quat ℝ}
    (he : SurgeBody e l M m f q) (p : Vec3 ℝ) (s u t dt : ℝ) : ∀ (rows : List (ℝ × List ℝ)) (ks : List (ℝ × ℝ)),
    ∃ fin : List (ℝ × ℝ),
      RK.rkStages (newton e.body.Minv (fun _ => resultant e.body l)) (ahead p q s u) t dt rows (ks.map fun k => aheadRate q k.1 k.2) =
        fin.map (fun k => aheadRate q k.1 k.2) ∧
      RK.rkStages (surge fun u => f u / m) [s, u] t dt rows (ks.map fun k => [k.1, k.2]) = fin.map fun k => [k.1, k.2]
  | [], ks => ⟨ks, rfl, rfl⟩
  | (c, a) :: rows, ks => by
    obtain ⟨s', u', h1, h2⟩ := ahead_move p q dt a ks s u
    obtain ⟨fin, h3, h4⟩ := surge_stages he p s u t dt rows (ks ++ [(u', f u' / m)])
    refine ⟨fin, ?_, ?_⟩
    · rw [RK.rkStages, h1, newton_ahead he, ← h3]; simp
    · rw [RK.rkStages, h2, ← h4]; simp [surge]

theorem surge_states {e : Multi.Entry ℝ} {l : List Push} {M : Mat6 ℝ} {m : ℝ} {f : ℝ → ℝ} {q : Quat ℝ}
    (he : SurgeBody e l M m f q) (T : Tableau ℝ) (p : Vec3 ℝ) (u0 t0 dt : ℝ) : ∀ i : Nat, ∃ s u,
    RK.rkRun (newton e.body.Minv (fun _ => resultant e.body l)) (fun x _ => x) T (ahead p q 0 u0) t0 dt i = ahead p q s u ∧
      RK.rkRun (surge fun u => f u / m) (fun x _ => x) T [0, u0] t0 dt i = [s, u]
  | 0 => ⟨0, u0, rfl, rfl⟩
  | i + 1 => by
    obtain ⟨s, u, h1, h2⟩ := surge_states he T p u0 t0 dt i
    obtain ⟨fin, h3, h4⟩ := surge_stages he p s u (t0 + i * dt) dt T.stages []
    obtain ⟨s', u', h5, h6⟩ := ahead_move p q dt T.weights fin s u
    refine ⟨s', u', ?_, ?_⟩
    · rw [RK.rkRun, h1, RK.rkStep, ← h5]
      exact congrArg _ h3
    · rw [RK.rkRun, h2, RK.rkStep, ← h6]
      exact congrArg _ h4

/-- **C180** A body that goes straight ahead: whatever its attitude, speed and position, its force models (any
list, when the forces sum up to `f u` along its axis at the speed `u`), the method, the dates, the time step and
what was recorded before, the simulation goes to the end, the attitude does not change, the body stays on its course, and the
distance `s` and the speed `u` are the ones the method gives for `s' = u`, `m u' = f u`. -/
theorem straight_ahead {e : Multi.Entry ℝ} {l : List Push} {M : Mat6 ℝ} {m : ℝ} {f : ℝ → ℝ} {q : Quat ℝ}
    (he : SurgeBody e l M m f q) (hq : Unit4 q) (ae : Nat → ℝ → ℝ → Bool) (hae : ∀ n a, ae n a a = true) (ae1 : ℝ → Bool)
    (T : Tableau ℝ) (hT : Forward T) (s : Sim ℝ (Vec3 ℝ × Vec3 ℝ)) (p : Vec3 ℝ) (u0 : ℝ) (hs : s.state = vec13 p ![u0, 0, 0] 0 q)
    (h0 : ∀ n, (field s.hist n).Tmax = 0) (tstart tend dt : ℝ) (hdt : 0 < dt) (hh : NotAfter ae s.hist tstart)
    (N : Nat) (hN : tend ≤ tstart + N * dt) (hfirst : ∀ i < N, tstart + (i : ℝ) * dt < tend) (fuel : Nat) (hf : N ≤ fuel) :
    ∃ s' obs, quicksolve (simSystem (oneBody e ae ae1) T.stepper) fuel s tstart tend dt = some (.ok (s', obs)) ∧
      obs.length = N + 1 ∧ ∀ (i : Nat) (hi : i < obs.length), obs[i].t = tstart + i * dt ∧
        ∃ d u, RK.rkRun (surge fun u => f u / m) (fun x _ => x) T [0, u0] tstart dt i = [d, u] ∧
          obs[i].x = vec13 (p + d • q.matrix.mulVec ![1, 0, 0]) ![u, 0, 0] 0 q := by
  have hs' : s.state = ahead p q 0 u0 := by rw [hs, ahead, zero_smul, add_zero]
  obtain ⟨s', obs, h1, -, h3, h4⟩ := simulation_is_runge_kutta (surge_memoryless hq he ae ae1 s.commands p) hae T hT s rfl
    ⟨0, u0, hs'⟩ h0 tstart tend dt hdt hh N hN hfirst fuel hf
  refine ⟨s', obs, h1, h3, fun i hi => ?_⟩
  obtain ⟨h5, h6⟩ := h4 i hi
  obtain ⟨d, u, h7, h8⟩ := surge_states he T p u0 tstart dt i
  refine ⟨h5, d, u, h8, ?_⟩
  rw [hs', h7] at h6
  have h9 : (oneBody e ae ae1).normalize (ahead p q d u) = .ok (ahead p q d u) := normalize_unit ae1 _ _ _ _ hq
  rw [h9] at h6
  exact (Except.ok.inj h6).symm

/-! ### The scalar problem -/

theorem surge_euler (a : ℝ → ℝ) (s u t dt : ℝ) : RK.rkStep (surge a) eulerMethod [s, u] t dt = [s + dt * u, u + dt * a u] := by
  simp [RK.rkStep, RK.rkStages, RK.move, eulerMethod, surge]

/-- The four slopes of `rk4`. -/
theorem surge_rk4 (a : ℝ → ℝ) (s u t dt : ℝ) :
    let u2 := u + dt / 2 * a u
    let u3 := u + dt / 2 * a u2
    let u4 := u + dt * a u3
    RK.rkStep (surge a) rk4Method [s, u] t dt =
      [s + dt / 6 * (u + 2 * u2 + 2 * u3 + u4), u + dt / 6 * (a u + 2 * a u2 + 2 * a u3 + a u4)] := by
  have e1 : dt * 2⁻¹ = dt / 2 := by ring
  simp only [RK.rkStep, RK.rkStages, RK.move, rk4Method, surge, List.zip_nil_left, List.foldl_nil, List.nil_append, List.cons_append,
    List.zip_cons_cons, List.foldl_cons, List.zipWith_cons_cons, List.zipWith_nil_left, mul_zero, zero_mul, add_zero, one_div, e1, mul_one]
  congr 1
  · ring
  · congr 1
    ring

/-- **C180** A body whose forces balance at the speed `u0` keeps that speed, with `euler` and `rk4`. -/
theorem surge_steady (a : ℝ → ℝ) (u0 t0 dt : ℝ) (h : a u0 = 0) (T : Tableau ℝ) (hT : T = eulerMethod ∨ T = rk4Method) :
    ∀ i : Nat, RK.rkRun (surge a) (fun x _ => x) T [0, u0] t0 dt i = [i * dt * u0, u0]
  | 0 => by simp [RK.rkRun]
  | i + 1 => by
    rw [RK.rkRun, surge_steady a u0 t0 dt h T hT i]
    rcases hT with rfl | rfl
    · rw [surge_euler, h]
      push_cast
      simp only [mul_zero, add_zero]
      congr 1; ring
    · rw [surge_rk4]
      simp only [h, mul_zero, add_zero]
      push_cast
      congr 1; ring

/-- **C180** A body whose forces balance at its speed goes on at that speed: its motion is exactly uniform. -/
theorem steady_speed_kept {e : Multi.Entry ℝ} {l : List Push} {M : Mat6 ℝ} {m : ℝ} {f : ℝ → ℝ} {q : Quat ℝ}
    (he : SurgeBody e l M m f q) (hq : Unit4 q) (ae : Nat → ℝ → ℝ → Bool) (hae : ∀ n a, ae n a a = true) (ae1 : ℝ → Bool)
    (T : Tableau ℝ) (hT : T = eulerMethod ∨ T = rk4Method) (s : Sim ℝ (Vec3 ℝ × Vec3 ℝ)) (p : Vec3 ℝ) (u0 : ℝ) (hu : f u0 = 0)
    (hs : s.state = vec13 p ![u0, 0, 0] 0 q)
    (h0 : ∀ n, (field s.hist n).Tmax = 0) (tstart tend dt : ℝ) (hdt : 0 < dt) (hh : NotAfter ae s.hist tstart)
    (N : Nat) (hN : tend ≤ tstart + N * dt) (hfirst : ∀ i < N, tstart + (i : ℝ) * dt < tend) (fuel : Nat) (hf : N ≤ fuel) :
    ∃ s' obs, quicksolve (simSystem (oneBody e ae ae1) T.stepper) fuel s tstart tend dt = some (.ok (s', obs)) ∧
      obs.length = N + 1 ∧ ∀ (i : Nat) (hi : i < obs.length), obs[i].t = tstart + i * dt ∧
          obs[i].x = vec13 (p + (i * dt * u0) • q.matrix.mulVec ![1, 0, 0]) ![u0, 0, 0] 0 q := by
  obtain ⟨s', obs, h1, h3, h4⟩ := straight_ahead he hq ae hae ae1 T (by rcases hT with rfl | rfl; exacts [euler_forward, rk4_forward]) s p u0 hs
    h0 tstart tend dt hdt hh N hN hfirst fuel hf
  refine ⟨s', obs, h1, h3, fun i hi => ?_⟩
  obtain ⟨h5, D, u, h6, h7⟩ := h4 i hi
  rw [surge_steady (fun u => f u / m) u0 tstart dt (by simp [hu]) T hT i] at h6
  simp only [List.cons.injEq, and_true] at h6
  obtain ⟨rfl, rfl⟩ := h6
  exact ⟨h5, h7⟩

/-- Factor by which one step multiplies the difference to the final speed, when the acceleration is `λ (u1 - u)`, with `z = λ dt`. -/
def eulerFactor (z : ℝ) : ℝ := 1 - z

/-- Same for `rk4`. -/
noncomputable def rk4Factor (z : ℝ) : ℝ := 1 - z + z ^ 2 / 2 - z ^ 3 / 6 + z ^ 4 / 24

theorem surge_linear_euler (lam u1 u0 t0 dt : ℝ) (hl : lam ≠ 0) : ∀ i : Nat,
    RK.rkRun (surge fun u => lam * (u1 - u)) (fun x _ => x) eulerMethod [0, u0] t0 dt i =
      [i * dt * u1 + (u0 - u1) * (1 - eulerFactor (lam * dt) ^ i) / lam, u1 + (u0 - u1) * eulerFactor (lam * dt) ^ i]
  | 0 => by simp [RK.rkRun]
  | i + 1 => by
    rw [RK.rkRun, surge_linear_euler lam u1 u0 t0 dt hl i, surge_euler, pow_succ]
    push_cast
    generalize eulerFactor (lam * dt) ^ i = r
    rw [eulerFactor]
    congr 1
    · field_simp; ring
    · congr 1; ring

theorem surge_linear_rk4 (lam u1 u0 t0 dt : ℝ) (hl : lam ≠ 0) : ∀ i : Nat,
    RK.rkRun (surge fun u => lam * (u1 - u)) (fun x _ => x) rk4Method [0, u0] t0 dt i =
      [i * dt * u1 + (u0 - u1) * (1 - rk4Factor (lam * dt) ^ i) / lam, u1 + (u0 - u1) * rk4Factor (lam * dt) ^ i]
  | 0 => by simp [RK.rkRun]
  | i + 1 => by
    rw [RK.rkRun, surge_linear_rk4 lam u1 u0 t0 dt hl i, surge_rk4, pow_succ]
    push_cast
    generalize rk4Factor (lam * dt) ^ i = r
    rw [rk4Factor]
    congr 1
    · field_simp; ring
    · congr 1; ring

/-! ### C181 -/

theorem pow_sub_pow_le (a b : ℝ) (ha : |a| ≤ 1) (hb : |b| ≤ 1) : ∀ i : Nat, |a ^ i - b ^ i| ≤ i * |a - b|
  | 0 => by simp
  | i + 1 => by
    have h := pow_sub_pow_le a b ha hb i
    have e : a ^ (i + 1) - b ^ (i + 1) = a * (a ^ i - b ^ i) + (a - b) * b ^ i := by ring
    rw [e]
    push_cast
    calc |a * (a ^ i - b ^ i) + (a - b) * b ^ i| ≤ |a * (a ^ i - b ^ i)| + |(a - b) * b ^ i| := abs_add_le _ _
      _ = |a| * |a ^ i - b ^ i| + |a - b| * |b| ^ i := by rw [abs_mul, abs_mul, abs_pow]
      _ ≤ 1 * (i * |a - b|) + |a - b| * 1 := by
        gcongr
        exact pow_le_one₀ (abs_nonneg b) hb
      _ = (i + 1) * |a - b| := by ring

theorem euler_factor_exp (z : ℝ) (h0 : 0 ≤ z) (h1 : z ≤ 1) : |eulerFactor z - Real.exp (-z)| ≤ z ^ 2 * (3 / 4) := by
  have := Real.exp_bound (x := -z) (n := 2) (by rwa [abs_neg, abs_of_nonneg h0]) (by norm_num)
  rw [abs_neg, abs_of_nonneg h0] at this
  rw [abs_sub_comm]
  simp [Finset.sum_range_succ, Nat.factorial] at this
  rw [eulerFactor]
  convert this using 2
  · ring_nf
  · norm_num

theorem rk4_factor_exp (z : ℝ) (h0 : 0 ≤ z) (h1 : z ≤ 1) : |rk4Factor z - Real.exp (-z)| ≤ z ^ 5 / 100 := by
  have := Real.exp_bound (x := -z) (n := 5) (by rwa [abs_neg, abs_of_nonneg h0]) (by norm_num)
  rw [abs_neg, abs_of_nonneg h0] at this
  rw [abs_sub_comm]
  simp [Finset.sum_range_succ, Nat.factorial] at this
  rw [rk4Factor]
  convert this using 2
  · ring_nf
  · norm_num
    ring

theorem rk4_factor_bound (z : ℝ) (h0 : 0 < z) (h1 : z ≤ 5 / 2) : 0 < rk4Factor z ∧ rk4Factor z < 1 := by
  rw [rk4Factor]
  constructor
  · nlinarith [sq_nonneg (z ^ 2 - 2 * z), sq_nonneg (z - 2), sq_nonneg (z - 1), sq_nonneg z]
  · have : 0 < 1 - z / 2 + z ^ 2 / 6 - z ^ 3 / 24 := by nlinarith [sq_nonneg (z - 2), mul_nonneg h0.le (sub_nonneg.2 h1)]
    nlinarith [mul_pos h0 this]

/-- Speed after the time `τ` of a body of inertia `m` pushed by the force `X` against the damping `d`: solution of
`m u' = X - d u`. -/
noncomputable def exactSpeed (m X d u0 τ : ℝ) : ℝ := X / d + (u0 - X / d) * Real.exp (-(d / m * τ))

/-- Distance covered. -/
noncomputable def exactDistance (m X d u0 τ : ℝ) : ℝ := X / d * τ + (u0 - X / d) * (1 - Real.exp (-(d / m * τ))) / (d / m)

/-- They are the solution of the equation of motion. -/
theorem exact_solution (m X d u0 τ : ℝ) (hm : 0 < m) (hd : 0 < d) :
    HasDerivAt (exactDistance m X d u0) (exactSpeed m X d u0 τ) τ ∧
      HasDerivAt (exactSpeed m X d u0) ((X - d * exactSpeed m X d u0 τ) / m) τ ∧
      exactSpeed m X d u0 0 = u0 ∧ exactDistance m X d u0 0 = 0 := by
  have he : HasDerivAt (fun τ => Real.exp (-(d / m * τ))) (Real.exp (-(d / m * τ)) * (-(d / m * 1))) τ :=
    (((hasDerivAt_id τ).const_mul (d / m)).neg).exp
  have hm' := hm.ne'
  have hd' := hd.ne'
  refine ⟨?_, ?_, by simp [exactSpeed], by simp [exactDistance]⟩
  · have := ((hasDerivAt_id τ).const_mul (X / d)).add ((((hasDerivAt_const τ (1 : ℝ)).sub he).const_mul (u0 - X / d)).div_const (d / m))
    refine HasDerivAt.congr_deriv (f' := _) this ?_
    simp only [exactSpeed]
    generalize Real.exp (-(d / m * τ)) = r
    field_simp
    ring
  · have := (he.const_mul (u0 - X / d)).const_add (X / d)
    refine HasDerivAt.congr_deriv (f' := _) this ?_
    simp only [exactSpeed]
    generalize Real.exp (-(d / m * τ)) = r
    field_simp
    ring

/-- **C181** Thrust against damping with `rk4`: a body pushed ahead by a force `X` against a damping `d u` (`d > 0`), with a time
step not longer than its time constant `m / d`: after the time `τ` the error on the speed is less
than `|u0 - X / d| (d τ / m) (d dt / m)⁴ / 100`, and the error on the distance is less than `m / d` times
this. -/
theorem thrust_against_damping_rk4 {e : Multi.Entry ℝ} {l : List Push} {M : Mat6 ℝ} {m X d : ℝ} {q : Quat ℝ} (hd : 0 < d)
    (he : SurgeBody e l M m (fun u => X - d * u) q) (hq : Unit4 q) (ae : Nat → ℝ → ℝ → Bool) (hae : ∀ n a, ae n a a = true) (ae1 : ℝ → Bool)
    (s : Sim ℝ (Vec3 ℝ × Vec3 ℝ)) (p : Vec3 ℝ) (u0 : ℝ) (hs : s.state = vec13 p ![u0, 0, 0] 0 q)
    (h0 : ∀ n, (field s.hist n).Tmax = 0) (tstart tend dt : ℝ) (hdt : 0 < dt) (hh : NotAfter ae s.hist tstart)
    (N : Nat) (hN : tend ≤ tstart + N * dt) (hfirst : ∀ i < N, tstart + (i : ℝ) * dt < tend) (fuel : Nat) (hf : N ≤ fuel)
    (hz : d / m * dt ≤ 1) :
    ∃ s' obs, quicksolve (simSystem (oneBody e ae ae1) rk4Method.stepper) fuel s tstart tend dt = some (.ok (s', obs)) ∧
      obs.length = N + 1 ∧ ∀ (i : Nat) (hi : i < obs.length), obs[i].t = tstart + i * dt ∧
        ∃ D u, obs[i].x = vec13 (p + D • q.matrix.mulVec ![1, 0, 0]) ![u, 0, 0] 0 q ∧
          |u - exactSpeed m X d u0 (i * dt)| ≤ |u0 - X / d| * (d / m * (i * dt)) * (d / m * dt) ^ 4 / 100 ∧
          |D - exactDistance m X d u0 (i * dt)| ≤ m / d * (|u0 - X / d| * (d / m * (i * dt)) * (d / m * dt) ^ 4 / 100) := by
  have hm := he.pos
  have hlam : 0 < d / m := div_pos hd hm
  obtain ⟨s', obs, h1, h3, h4⟩ := straight_ahead he hq ae hae ae1 rk4Method rk4_forward s p u0 hs h0 tstart tend dt hdt hh N hN hfirst fuel hf
  refine ⟨s', obs, h1, h3, fun i hi => ?_⟩
  obtain ⟨h5, D, u, h6, h7⟩ := h4 i hi
  refine ⟨h5, D, u, h7, ?_⟩
  have ea : (fun u => (X - d * u) / m) = fun u => d / m * (X / d - u) := by
    funext u
    field_simp
  rw [ea, surge_linear_rk4 _ _ _ _ _ hlam.ne'] at h6
  simp only [List.cons.injEq, and_true] at h6
  obtain ⟨rfl, rfl⟩ := h6
  set z := d / m * dt with hzdef
  have hz0 : 0 < z := mul_pos hlam hdt
  obtain ⟨b1, b2⟩ := rk4_factor_bound z hz0 (by linarith)
  have hexp : Real.exp (-(d / m * (i * dt))) = Real.exp (-z) ^ i := by
    rw [← Real.exp_nat_mul]
    congr 1
    rw [hzdef]; ring
  have hE : |rk4Factor z ^ i - Real.exp (-z) ^ i| ≤ d / m * (i * dt) * z ^ 4 / 100 := by
    refine (pow_sub_pow_le _ _ (by rw [abs_of_pos b1]; exact b2.le)
      (by rw [abs_of_pos (Real.exp_pos _)]; exact Real.exp_le_one_iff.2 (by linarith)) i).trans ?_
    have := mul_le_mul_of_nonneg_left (rk4_factor_exp z hz0.le hz) (Nat.cast_nonneg (α := ℝ) i)
    refine this.trans (le_of_eq ?_)
    rw [show d / m * (i * dt) = i * z by rw [hzdef]; ring]
    ring
  constructor
  · rw [exactSpeed, hexp, show X / d + (u0 - X / d) * rk4Factor z ^ i - (X / d + (u0 - X / d) * Real.exp (-z) ^ i) =
      (u0 - X / d) * (rk4Factor z ^ i - Real.exp (-z) ^ i) by ring, abs_mul]
    calc |u0 - X / d| * |rk4Factor z ^ i - Real.exp (-z) ^ i| ≤ |u0 - X / d| * (d / m * (i * dt) * z ^ 4 / 100) :=
          mul_le_mul_of_nonneg_left hE (abs_nonneg _)
      _ = _ := by ring
  · rw [exactDistance, hexp]
    have e1 : i * dt * (X / d) + (u0 - X / d) * (1 - rk4Factor z ^ i) / (d / m) -
        (X / d * (i * dt) + (u0 - X / d) * (1 - Real.exp (-z) ^ i) / (d / m)) =
        -(m / d) * ((u0 - X / d) * (rk4Factor z ^ i - Real.exp (-z) ^ i)) := by
      have hm' := hm.ne'
      have hd' := hd.ne'
      generalize rk4Factor z ^ i = r
      generalize Real.exp (-z) ^ i = r'
      generalize (u0 - X / d) = U
      field_simp
      ring
    rw [e1, abs_mul, abs_neg, abs_of_pos (div_pos hm hd), abs_mul]
    refine mul_le_mul_of_nonneg_left ?_ (div_pos hm hd).le
    calc |u0 - X / d| * |rk4Factor z ^ i - Real.exp (-z) ^ i| ≤ |u0 - X / d| * (d / m * (i * dt) * z ^ 4 / 100) :=
          mul_le_mul_of_nonneg_left hE (abs_nonneg _)
      _ = _ := by ring

/-- **C181** The same with `euler`, whose error is proportional to the time step. -/
theorem thrust_against_damping_euler {e : Multi.Entry ℝ} {l : List Push} {M : Mat6 ℝ} {m X d : ℝ} {q : Quat ℝ} (hd : 0 < d)
    (he : SurgeBody e l M m (fun u => X - d * u) q) (hq : Unit4 q) (ae : Nat → ℝ → ℝ → Bool) (hae : ∀ n a, ae n a a = true) (ae1 : ℝ → Bool)
    (s : Sim ℝ (Vec3 ℝ × Vec3 ℝ)) (p : Vec3 ℝ) (u0 : ℝ) (hs : s.state = vec13 p ![u0, 0, 0] 0 q)
    (h0 : ∀ n, (field s.hist n).Tmax = 0) (tstart tend dt : ℝ) (hdt : 0 < dt) (hh : NotAfter ae s.hist tstart)
    (N : Nat) (hN : tend ≤ tstart + N * dt) (hfirst : ∀ i < N, tstart + (i : ℝ) * dt < tend) (fuel : Nat) (hf : N ≤ fuel)
    (hz : d / m * dt ≤ 1) :
    ∃ s' obs, quicksolve (simSystem (oneBody e ae ae1) eulerMethod.stepper) fuel s tstart tend dt = some (.ok (s', obs)) ∧
      obs.length = N + 1 ∧ ∀ (i : Nat) (hi : i < obs.length), obs[i].t = tstart + i * dt ∧
        ∃ D u, obs[i].x = vec13 (p + D • q.matrix.mulVec ![1, 0, 0]) ![u, 0, 0] 0 q ∧
          |u - exactSpeed m X d u0 (i * dt)| ≤ |u0 - X / d| * (d / m * (i * dt)) * (d / m * dt) * (3 / 4) ∧
          |D - exactDistance m X d u0 (i * dt)| ≤ m / d * (|u0 - X / d| * (d / m * (i * dt)) * (d / m * dt) * (3 / 4)) := by
  have hm := he.pos
  have hlam : 0 < d / m := div_pos hd hm
  obtain ⟨s', obs, h1, h3, h4⟩ := straight_ahead he hq ae hae ae1 eulerMethod euler_forward s p u0 hs h0 tstart tend dt hdt hh N hN hfirst fuel hf
  refine ⟨s', obs, h1, h3, fun i hi => ?_⟩
  obtain ⟨h5, D, u, h6, h7⟩ := h4 i hi
  refine ⟨h5, D, u, h7, ?_⟩
  have ea : (fun u => (X - d * u) / m) = fun u => d / m * (X / d - u) := by
    funext u
    field_simp
  rw [ea, surge_linear_euler _ _ _ _ _ hlam.ne'] at h6
  simp only [List.cons.injEq, and_true] at h6
  obtain ⟨rfl, rfl⟩ := h6
  set z := d / m * dt with hzdef
  have hz0 : 0 < z := mul_pos hlam hdt
  have hexp : Real.exp (-(d / m * (i * dt))) = Real.exp (-z) ^ i := by
    rw [← Real.exp_nat_mul]
    congr 1
    rw [hzdef]; ring
  have hE : |eulerFactor z ^ i - Real.exp (-z) ^ i| ≤ d / m * (i * dt) * z * (3 / 4) := by
    refine (pow_sub_pow_le _ _ (by rw [eulerFactor, abs_of_nonneg (by linarith)]; linarith)
      (by rw [abs_of_pos (Real.exp_pos _)]; exact Real.exp_le_one_iff.2 (by linarith)) i).trans ?_
    have := mul_le_mul_of_nonneg_left (euler_factor_exp z hz0.le hz) (Nat.cast_nonneg (α := ℝ) i)
    refine this.trans (le_of_eq ?_)
    rw [show d / m * (i * dt) = i * z by rw [hzdef]; ring]
    ring
  constructor
  · rw [exactSpeed, hexp, show X / d + (u0 - X / d) * eulerFactor z ^ i - (X / d + (u0 - X / d) * Real.exp (-z) ^ i) =
      (u0 - X / d) * (eulerFactor z ^ i - Real.exp (-z) ^ i) by ring, abs_mul]
    calc |u0 - X / d| * |eulerFactor z ^ i - Real.exp (-z) ^ i| ≤ |u0 - X / d| * (d / m * (i * dt) * z * (3 / 4)) :=
          mul_le_mul_of_nonneg_left hE (abs_nonneg _)
      _ = _ := by ring
  · rw [exactDistance, hexp]
    have e1 : i * dt * (X / d) + (u0 - X / d) * (1 - eulerFactor z ^ i) / (d / m) -
        (X / d * (i * dt) + (u0 - X / d) * (1 - Real.exp (-z) ^ i) / (d / m)) =
        -(m / d) * ((u0 - X / d) * (eulerFactor z ^ i - Real.exp (-z) ^ i)) := by
      have hm' := hm.ne'
      have hd' := hd.ne'
      generalize eulerFactor z ^ i = r
      generalize Real.exp (-z) ^ i = r'
      generalize (u0 - X / d) = U
      field_simp
      ring
    rw [e1, abs_mul, abs_neg, abs_of_pos (div_pos hm hd), abs_mul]
    refine mul_le_mul_of_nonneg_left ?_ (div_pos hm hd).le
    calc |u0 - X / d| * |eulerFactor z ^ i - Real.exp (-z) ^ i| ≤ |u0 - X / d| * (d / m * (i * dt) * z * (3 / 4)) :=
          mul_le_mul_of_nonneg_left hE (abs_nonneg _)
      _ = _ := by ring

/-- **C181** Speed after `i` steps of `euler`: it goes to the speed at which the forces balance when the time step is less than
twice the time constant, from any initial speed ... -/
theorem euler_converges (m X d u0 t0 dt : ℝ) (hm : 0 < m) (hd : 0 < d) (hdt : 0 < dt) (hz : d / m * dt < 2) :
    ∃ S U : Nat → ℝ, (∀ i, RK.rkRun (surge fun u => (X - d * u) / m) (fun x _ => x) eulerMethod [0, u0] t0 dt i = [S i, U i]) ∧
      Filter.Tendsto U Filter.atTop (nhds (X / d)) := by
  have hlam : 0 < d / m := div_pos hd hm
  have ea : (fun u => (X - d * u) / m) = fun u => d / m * (X / d - u) := by
    funext u
    field_simp
  rw [ea]
  refine ⟨_, _, surge_linear_euler _ _ _ _ _ hlam.ne', ?_⟩
  have hr : |eulerFactor (d / m * dt)| < 1 := by
    rw [eulerFactor, abs_lt]
    have := mul_pos hlam hdt
    constructor <;> linarith
  have := ((tendsto_pow_atTop_nhds_zero_of_abs_lt_one hr).const_mul (u0 - X / d)).const_add (X / d)
  simpa using this

/-- ... and never gets closer to it than at the beginning when it is longer. -/
theorem euler_diverges (m X d u0 t0 dt : ℝ) (hm : 0 < m) (hd : 0 < d) (hz : 2 ≤ d / m * dt) :
    ∃ S U : Nat → ℝ, (∀ i, RK.rkRun (surge fun u => (X - d * u) / m) (fun x _ => x) eulerMethod [0, u0] t0 dt i = [S i, U i]) ∧
      ∀ i, |u0 - X / d| ≤ |U i - X / d| := by
  have hlam : 0 < d / m := div_pos hd hm
  have ea : (fun u => (X - d * u) / m) = fun u => d / m * (X / d - u) := by
    funext u
    field_simp
  rw [ea]
  refine ⟨_, _, surge_linear_euler _ _ _ _ _ hlam.ne', fun i => ?_⟩
  rw [show X / d + (u0 - X / d) * eulerFactor (d / m * dt) ^ i - X / d = (u0 - X / d) * eulerFactor (d / m * dt) ^ i by ring, abs_mul, abs_pow]
  refine le_mul_of_one_le_right (abs_nonneg _) (one_le_pow₀ ?_)
  rw [eulerFactor, abs_of_nonpos (by linarith)]
  linarith

/-- `rk4` goes to that speed, without passing it, when the time step is not longer than 5/2 of the time constant. -/
theorem rk4_converges (m X d u0 t0 dt : ℝ) (hm : 0 < m) (hd : 0 < d) (hdt : 0 < dt) (hz : d / m * dt ≤ 5 / 2) :
    ∃ S U : Nat → ℝ, (∀ i, RK.rkRun (surge fun u => (X - d * u) / m) (fun x _ => x) rk4Method [0, u0] t0 dt i = [S i, U i]) ∧
      Filter.Tendsto U Filter.atTop (nhds (X / d)) ∧
      ∀ i, (u0 < X / d → U i < U (i + 1) ∧ U (i + 1) < X / d) ∧ (X / d < u0 → U (i + 1) < U i ∧ X / d < U (i + 1)) := by
  have hlam : 0 < d / m := div_pos hd hm
  have ea : (fun u => (X - d * u) / m) = fun u => d / m * (X / d - u) := by
    funext u
    field_simp
  rw [ea]
  obtain ⟨b1, b2⟩ := rk4_factor_bound _ (mul_pos hlam hdt) hz
  refine ⟨_, _, surge_linear_rk4 _ _ _ _ _ hlam.ne', ?_, fun i => ?_⟩
  · have := ((tendsto_pow_atTop_nhds_zero_of_abs_lt_one (by rwa [abs_of_pos b1])).const_mul (u0 - X / d)).const_add (X / d)
    simpa using this
  · have hp := pow_pos b1 i
    have hp' := pow_pos b1 (i + 1)
    have hlt : rk4Factor (d / m * dt) ^ (i + 1) < rk4Factor (d / m * dt) ^ i := by
      rw [pow_succ]
      exact mul_lt_of_lt_one_right hp b2
    constructor
    · intro h
      constructor <;> nlinarith
    · intro h
      constructor <;> nlinarith

/-- **C180** Euler's method with any resistance: if the acceleration vanishes at the speed `u1` and, below this speed, is positive but too small to
pass it in one step, the speed never decreases, never passes `u1` and tends to it. -/
theorem euler_reaches_steady_speed (a : ℝ → ℝ) (ha : Continuous a) (u0 u1 t0 dt : ℝ) (hdt : 0 < dt) (h01 : u0 ≤ u1)
    (hbelow : ∀ u, u0 ≤ u → u < u1 → 0 < a u ∧ u + dt * a u ≤ u1) (h1 : a u1 = 0) :
    ∃ S U : Nat → ℝ, (∀ i, RK.rkRun (surge a) (fun x _ => x) eulerMethod [0, u0] t0 dt i = [S i, U i]) ∧
      (∀ i, U i ≤ U (i + 1) ∧ U i ≤ u1) ∧ Filter.Tendsto U Filter.atTop (nhds u1) := by
  let U : Nat → ℝ := fun i => Nat.rec (motive := fun _ => ℝ) u0 (fun _ u => u + dt * a u) i
  let S : Nat → ℝ := fun i => Nat.rec (motive := fun _ => ℝ) 0 (fun i s => s + dt * U i) i
  have hrun : ∀ i, RK.rkRun (surge a) (fun x _ => x) eulerMethod [0, u0] t0 dt i = [S i, U i] := by
    intro i
    induction i with
    | zero => rfl
    | succ i ih => rw [RK.rkRun, ih, surge_euler]
  have hb : ∀ i, u0 ≤ U i ∧ U i ≤ u1 ∧ U i ≤ U (i + 1) := by
    have hstep : ∀ u, u0 ≤ u → u ≤ u1 → u ≤ u + dt * a u ∧ u + dt * a u ≤ u1 := by
      intro u h h'
      rcases h'.eq_or_lt with rfl | h'
      · rw [h1]; simp
      · obtain ⟨a1, a2⟩ := hbelow u h h'
        exact ⟨by nlinarith, a2⟩
    intro i
    induction i with
    | zero => exact ⟨le_rfl, h01, (hstep u0 le_rfl h01).1⟩
    | succ i ih =>
      obtain ⟨h2, h3⟩ := hstep _ ih.1 ih.2.1
      exact ⟨ih.1.trans h2, h3, (hstep _ (ih.1.trans h2) h3).1⟩
  refine ⟨S, U, hrun, fun i => ⟨(hb i).2.2, (hb i).2.1⟩, ?_⟩
  have hmono : Monotone U := monotone_nat_of_le_succ fun i => (hb i).2.2
  have hlim := tendsto_atTop_ciSup hmono ⟨u1, by rintro _ ⟨i, rfl⟩; exact (hb i).2.1⟩
  set L := ⨆ i, U i
  have hL0 : u0 ≤ L := ge_of_tendsto' hlim fun i => (hb i).1
  have hL1 : L ≤ u1 := le_of_tendsto' hlim fun i => (hb i).2.1
  have hnext : Filter.Tendsto (fun i => U (i + 1)) Filter.atTop (nhds (L + dt * a L)) :=
    hlim.add (((ha.tendsto L).comp hlim).const_mul dt)
  have heq := tendsto_nhds_unique hnext ((Filter.tendsto_add_atTop_iff_nat 1).2 hlim)
  have : L = u1 := by
    by_contra hne
    have := (hbelow L hL0 (lt_of_le_of_ne hL1 hne)).1
    have : 0 < dt * a L := mul_pos hdt this
    linarith
  rw [← this]; exact hlim

/-! ### Which bodies go straight ahead -/

/-- A force model that pushes along the first axis of the body, without moment, with the force `f u` at the speed `u`. -/
def Axial (G : Vec3 ℝ) (q : Quat ℝ) (f : ℝ → ℝ) (x : Push) : Prop := ∀ u, x.wrench G ![u, 0, 0] 0 q = (![f u, 0, 0], 0)

theorem axial_thrust (G : Vec3 ℝ) (q : Quat ℝ) (X x : ℝ) : Axial G q (fun _ => X) (.bodyForce ![X, 0, 0] 0 ![x, G 1, G 2]) := by
  intro u
  simp only [Push.wrench, Prod.mk.injEq, true_and]
  funext i; fin_cases i <;> simp [cross]

theorem axial_linear (G : Vec3 ℝ) (q : Quat ℝ) (P : Vec3 ℝ) (D : Fin 6 → Fin 6 → ℝ) (d : ℝ) (h : ∀ i, D i 0 = if i = 0 then d else 0) :
    Axial G q (fun u => -(d * u)) (.linearDamping P D) := by
  intro u
  simp only [Push.wrench, Prod.mk.injEq]
  constructor <;> · funext i; fin_cases i <;> simp [h, Fin.castLE, Fin.natAdd]

theorem axial_quadratic (G : Vec3 ℝ) (q : Quat ℝ) (P : Vec3 ℝ) (D : Fin 6 → Fin 6 → ℝ) (d : ℝ) (h : ∀ i, D i 0 = if i = 0 then d else 0) :
    Axial G q (fun u => -(d * (|u| * u))) (.quadraticDamping P D) := by
  intro u
  simp only [Push.wrench, Prod.mk.injEq]
  constructor <;> · funext i; fin_cases i <;> simp [h, Fin.castLE, Fin.natAdd]

theorem axial_resistance (G : Vec3 ℝ) (q : Quat ℝ) (P : Vec3 ℝ) (R : ℝ → ℝ) : Axial G q (fun u => -(R u)) (.resistance P R) := by
  intro u
  simp [Push.wrench]

/-- The weight and a force that balances it. -/
theorem axial_weight (G : Vec3 ℝ) (q : Quat ℝ) (M : Mat6 ℝ) (g : ℝ) (u : ℝ) :
    ((Push.gravity M g).wrench G ![u, 0, 0] 0 q) + ((Push.nedForce ![0, 0, -(M 2 2 * g)] 0 G).wrench G ![u, 0, 0] 0 q) = 0 := by
  simp only [Push.wrench]
  have e1 : (![0, 0, -(M 2 2 * g)] : Vec3 ℝ) = -![0, 0, M 2 2 * g] := by funext i; fin_cases i <;> simp
  have e2 : (0 : Vec3 ℝ) + cross (G - G) ![0, 0, -(M 2 2 * g)] = 0 := by
    funext i; fin_cases i <;> simp [cross]
  rw [e2, e1, Matrix.mulVec_neg, Matrix.mulVec_zero]
  simp

theorem axial_sum (b : Multi.MBody ℝ) (q : Quat ℝ) (hcor : ∀ u, b.coriolis ![u, 0, 0] 0 = 0) (l : List (Push × (ℝ → ℝ)))
    (hl : ∀ x ∈ l, Axial b.G q x.2 x.1) (u : ℝ) :
    resultant b (l.map Prod.fst) ![u, 0, 0] 0 q = (![(l.map fun x => x.2 u).sum, 0, 0], 0) := by
  rw [resultant, hcor, zero_add]
  induction l with
  | nil => simp only [List.map_nil, List.sum_nil]; ext i <;> fin_cases i <;> rfl
  | cons x l ih =>
    have ih' := ih fun y hy => hl y (by simp [hy])
    simp only [List.map_cons, List.sum_cons] at ih' ⊢
    rw [ih', hl x (by simp) u]
    ext i <;> fin_cases i <;> simp

/-- A boat of a ton (with added mass along its axis) with a thrust of 500 N, a linear and a quadratic damping and a resistance curve. -/
noncomputable def boat : Multi.MBody ℝ where
  name := "boat"
  idx := 0
  blocked := ⟨fun _ => none, 0, fun _ => none, fun _ => none⟩
  G := ![0, 0, 1]
  Minv := (1000 : ℝ)⁻¹ • 1
  coriolis := fun v w => (1000 • cross v w, 0)

noncomputable def boatDamping (d : ℝ) : Fin 6 → Fin 6 → ℝ := fun i j => if i = j then (if j = 0 then d else 10000) else 0

noncomputable def boatPushes : List (Push × (ℝ → ℝ)) :=
  [(.bodyForce ![500, 0, 0] 0 ![-3, 0, 1], fun _ => 500), (.linearDamping 0 (boatDamping 100), fun u => -(100 * u))]

noncomputable def boatAhead : Multi.Entry ℝ := ⟨boat, (boatPushes.map Prod.fst).map (Push.model boat), []⟩

theorem boat_surge (q : Quat ℝ) : SurgeBody boatAhead (boatPushes.map Prod.fst) ((1000 : ℝ) • 1) 1000 (fun u => 500 - 100 * u) q where
  idx := rfl
  name := by decide
  free _ := rfl
  mass i := by simp [Matrix.smul_apply, Matrix.one_apply]
  pos := by norm_num
  inverse := by simp [boatAhead, boat]
  forces := rfl
  controlled := rfl
  sum u := by
    rw [show boatAhead.body = boat from rfl, axial_sum boat q (fun u => by
      simp only [boat, Prod.mk_eq_zero, and_true]
      funext i; fin_cases i <;> simp [cross]) boatPushes ?_ u]
    · simp [boatPushes]; ring
    · intro x hx
      simp only [boatPushes, List.mem_cons, List.not_mem_nil, or_false] at hx
      rcases hx with rfl | rfl
      · exact axial_thrust boat.G q 500 (-3)
      · exact axial_linear _ _ _ _ 100 fun i => by fin_cases i <;> simp [boatDamping]

/-- The boat starts from rest, heading to the east, with a time step of one second, for 30 seconds: the hypotheses of C181 are met. -/
example (ae1 : ℝ → Bool) :
    ∃ s' obs, quicksolve (simSystem (oneBody boatAhead (fun _ a b => decide (a = b)) ae1) rk4Method.stepper) 100
        ⟨vec13 ![1, 2, 3] ![0, 0, 0] 0 ⟨3 / 5, 0, 0, 4 / 5⟩, noHistory, fun _ => none, [], 0⟩ 0 30 1 = some (.ok (s', obs)) ∧
      obs.length = 31 ∧ ∀ (i : Nat) (hi : i < obs.length), obs[i].t = 0 + i * 1 ∧
        ∃ D u, obs[i].x = vec13 (![1, 2, 3] + D • (⟨3 / 5, 0, 0, 4 / 5⟩ : Quat ℝ).matrix.mulVec ![1, 0, 0]) ![u, 0, 0] 0 ⟨3 / 5, 0, 0, 4 / 5⟩ ∧
          |u - exactSpeed 1000 500 100 0 (i * 1)| ≤ |0 - 500 / 100| * (100 / 1000 * (i * 1)) * (100 / 1000 * 1) ^ 4 / 100 ∧
          |D - exactDistance 1000 500 100 0 (i * 1)| ≤ 1000 / 100 * (|0 - 500 / 100| * (100 / 1000 * (i * 1)) * (100 / 1000 * 1) ^ 4 / 100) :=
  thrust_against_damping_rk4 (by norm_num) (boat_surge _) (by norm_num [Unit4]) _ (fun _ a => by simp) ae1 _ _ 0 rfl
    (fun n => by cases n <;> rfl) 0 30 1 (by norm_num) (noHistory_notAfter _ _) 30 (by norm_num)
    (fun i hi => by
      have : (i : ℝ) ≤ 29 := by exact_mod_cast (by omega : i ≤ 29)
      linarith) 100 (by norm_num) (by norm_num)

/-- The same boat with other force models: the hypotheses of C179 are met. -/
example (ae : Nat → ℝ → ℝ → Bool) (ae1 : ℝ → Bool) (cmd : Commands ℝ) :
    let l := [Push.gravity ((1000 : ℝ) • 1) 9.81, .quadraticDamping 0 (boatDamping 7), .linearDamping 0 (boatDamping 100), .resistance 0 (fun u => u ^ 3),
      .nedForce ![0, 10, -9810] ![1, 2, 3] ![-3, 0, 1]]
    Memoryless (oneBody ⟨boat, l.map (Push.model boat), []⟩ ae ae1) cmd (newton boat.Minv (fun _ => resultant boat l)) (fun x _ => x)
      (fun x => x.length = 13) (fun x => x.length = 13) := by
  intro l
  exact mechanical_memoryless _ ⟨rfl, by decide, fun _ => rfl⟩ ae ae1 l rfl
    (by intro f hf; simp only [l, List.mem_cons, List.not_mem_nil, or_false] at hf; rcases hf with rfl | rfl | rfl | rfl | rfl <;> exact id) rfl cmd

/-- A resistance `u²` against a force of 4 N, from rest, mass 1, time step 0.1: the hypotheses of `euler_reaches_steady_speed`. -/
example : ∃ S U : Nat → ℝ, (∀ i, RK.rkRun (surge fun u => 4 - u ^ 2) (fun x _ => x) eulerMethod [0, 0] 0 0.1 i = [S i, U i]) ∧
      (∀ i, U i ≤ U (i + 1) ∧ U i ≤ 2) ∧ Filter.Tendsto U Filter.atTop (nhds 2) :=
  euler_reaches_steady_speed _ (by fun_prop) 0 2 0 0.1 (by norm_num) (by norm_num)
    (fun u h h' => ⟨by nlinarith, by nlinarith⟩) (by norm_num)

end Xdyn.Sim

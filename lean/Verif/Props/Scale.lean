import Verif.Spec.Scale
import Verif.Props.Frame

/-! Property C208: other units of length, of time and of mass. -/

namespace Xdyn.Sim

open Blocked Body Spec Solver Xdyn.Server

namespace Scale
variable (c : Scale)

theorem speed_pos : 0 < c.speed := div_pos c.length_pos c.time_pos
theorem rate_pos : 0 < c.rate := div_pos one_pos c.time_pos
theorem force_pos : 0 < c.force := by have := c.length_pos; have := c.time_pos; have := c.mass_pos; unfold force; positivity
theorem torque_pos : 0 < c.torque := by have := c.length_pos; have := c.time_pos; have := c.mass_pos; unfold torque; positivity
theorem velocity6_pos (i : Fin 6) : 0 < c.velocity6 i := by
  have := c.speed_pos; have := c.rate_pos
  fin_cases i <;> simpa [velocity6]
theorem wrench6_pos (i : Fin 6) : 0 < c.wrench6 i := by
  have := c.force_pos; have := c.torque_pos
  fin_cases i <;> simpa [wrench6]
theorem acceleration6_pos (i : Fin 6) : 0 < c.acceleration6 i := div_pos (c.velocity6_pos i) c.time_pos
theorem torque_eq : c.torque = c.length * c.force := by unfold torque force; ring

end Scale

/-! ### Time steps -/

/-- Derivatives multiplied by the unit of time. -/
noncomputable def faster (a : ℝ) (k : List ℝ) : List ℝ := k.map (a * ·)

theorem along_faster (a c : ℝ) : ∀ (x k : List ℝ), along x (a * c) k = along x c (faster a k)
  | [], k => by simp [along]
  | x :: xs, [] => by simp [along, faster]
  | x :: xs, k :: ks => by
    have := along_faster a c xs ks
    simp only [along, faster, List.map_cons, List.zipWith_cons_cons] at this ⊢
    rw [this]
    congr 1
    ring

theorem move_faster (a dt : ℝ) : ∀ (as : List ℝ) (ks : List (List ℝ)) (x : List ℝ), RK.move (a * dt) x as ks = RK.move dt x as (ks.map (faster a))
  | [], ks, x => by simp [RK.move]
  | b :: as, [], x => by simp [RK.move]
  | b :: as, k :: ks, x => by
    have := move_faster a dt as ks
    simp only [RK.move, List.map_cons, List.zip_cons_cons, List.foldl_cons] at this ⊢
    rw [this]
    congr 1
    have e := along_faster a (dt * b) x k
    simpa only [along, mul_assoc] using e

theorem rkStages_faster {f : List ℝ → ℝ → List ℝ} (hf : ∀ x t t', f x t = f x t') (a : ℝ) (x : List ℝ) (t t' dt : ℝ) :
    ∀ (rows : List (ℝ × List ℝ)) (ks : List (List ℝ)),
      (RK.rkStages f x t (a * dt) rows ks).map (faster a) = RK.rkStages (fun x t => faster a (f x t)) x t' dt rows (ks.map (faster a))
  | [], _ => rfl
  | (b, as) :: rows, ks => by
    rw [RK.rkStages, RK.rkStages, rkStages_faster hf a x t t' dt rows, move_faster, List.map_append, hf _ (t + b * (a * dt)) (t' + b * dt)]
    rfl

/-- Steps that are `a` times longer, or derivatives that are multiplied by `a`. -/
theorem rkRun_faster {f : List ℝ → ℝ → List ℝ} (hf : ∀ x t t', f x t = f x t') (a : ℝ) (T : Tableau ℝ) (x : List ℝ) (t t' dt : ℝ) :
    ∀ i, RK.rkRun f (fun x _ => x) T x t (a * dt) i = RK.rkRun (fun x t => faster a (f x t)) (fun x _ => x) T x t' dt i
  | 0 => rfl
  | i + 1 => by
    rw [RK.rkRun, RK.rkRun, rkRun_faster hf a T x t t' dt i, RK.rkStep, RK.rkStep, move_faster, rkStages_faster hf a _ _ (t' + i * dt)]
    rfl

/-- Two simulations whose equations of motion are images of each other by `L`, in times that are in the ratio `a`. -/
theorem carried_faster {S S' : Setup ℝ (Vec3 ℝ × Vec3 ℝ) Unit} {cmd cmd' : Commands ℝ} {ae1 : ℝ → Bool}
    {Minv Minv' : Mat6 ℝ} {F F' : Vec3 ℝ → Vec3 ℝ → Vec3 ℝ → Quat ℝ → Vec3 ℝ × Vec3 ℝ}
    (hM : Memoryless S cmd (newton Minv F) (fun x _ => x) (fun x => x.length = 13) (fun x => x.length = 13))
    (hM' : Memoryless S' cmd' (newton Minv' F') (fun x _ => x) (fun x => x.length = 13) (fun x => x.length = 13))
    (hn : S.normalize = normalizeQuaternions ae1 1) (hn' : S'.normalize = normalizeQuaternions ae1 1)
    (hae : ∀ n a, S.ae n a a = true) (hae' : ∀ n a, S'.ae n a a = true)
    (L : List ℝ → List ℝ) (hlen : ∀ x, x.length = 13 → (L x).length = 13) (a : ℝ) (ha : 0 < a)
    (halong : ∀ x c k, x.length = 13 → k.length = 13 → L (along x c k) = along (L x) c (L k))
    (heq : ∀ x t, x.length = 13 → faster a (newton Minv' F' (L x) t) = L (newton Minv F x t))
    (hquat : ∀ x, x.length = 13 → unitQuaternion ae1 (L x) = L (unitQuaternion ae1 x))
    (T : Tableau ℝ) (hT : Forward T)
    (s s' : Sim ℝ (Vec3 ℝ × Vec3 ℝ)) (hc : s.commands = cmd) (hc' : s'.commands = cmd') (hs : s.state.length = 13) (hs' : s'.state = L s.state)
    (h0 : ∀ n, (field s.hist n).Tmax = 0) (h0' : ∀ n, (field s'.hist n).Tmax = 0)
    (tstart tend dt : ℝ) (hdt : 0 < dt) (hh : NotAfter S.ae s.hist tstart) (hh' : NotAfter S'.ae s'.hist (a * tstart)) (N : Nat) (hN : tend ≤ tstart + N * dt)
    (hfirst : ∀ i < N, tstart + (i : ℝ) * dt < tend) (fuel : Nat) (hf : N ≤ fuel)
    (sys sys' : System ℝ (Sim ℝ (Vec3 ℝ × Vec3 ℝ)) (Res ℝ Unit)) (hsys : sys = simSystem S T.stepper ∨ sys = sscSystem S T.stepper)
    (hsys' : sys' = simSystem S' T.stepper ∨ sys' = sscSystem S' T.stepper) :
    ∃ f f' obs obs', quicksolve sys fuel s tstart tend dt = some (.ok (f, obs)) ∧ quicksolve sys' fuel s' (a * tstart) (a * tend) (a * dt) = some (.ok (f', obs')) ∧
      obs.length = N + 1 ∧ (∀ o ∈ obs, o.x.length = 13) ∧ obs'.map (fun o => (o.t, o.x)) = obs.map (fun o => (a * o.t, L o.x)) := by
  have run : ∀ {S : Setup ℝ (Vec3 ℝ × Vec3 ℝ) Unit} {cmd : Commands ℝ} {Minv : Mat6 ℝ} {F : Vec3 ℝ → Vec3 ℝ → Vec3 ℝ → Quat ℝ → Vec3 ℝ × Vec3 ℝ}
      (_ : Memoryless S cmd (newton Minv F) (fun x _ => x) (fun x => x.length = 13) (fun x => x.length = 13))
      (_ : ∀ n a, S.ae n a a = true) (s : Sim ℝ (Vec3 ℝ × Vec3 ℝ)) (_ : s.commands = cmd) (_ : s.state.length = 13) (_ : ∀ n, (field s.hist n).Tmax = 0)
      (tstart tend dt : ℝ) (_ : 0 < dt) (_ : NotAfter S.ae s.hist tstart) (_ : tend ≤ tstart + N * dt) (_ : ∀ i < N, tstart + (i : ℝ) * dt < tend)
      (sys : System ℝ (Sim ℝ (Vec3 ℝ × Vec3 ℝ)) (Res ℝ Unit)) (_ : sys = simSystem S T.stepper ∨ sys = sscSystem S T.stepper),
      ∃ f obs, quicksolve sys fuel s tstart tend dt = some (.ok (f, obs)) ∧ obs.length = N + 1 ∧
        ∀ (i : Nat) (hi : i < obs.length), obs[i].t = tstart + i * dt ∧
          S.normalize (RK.rkRun (newton Minv F) (fun x _ => x) T s.state tstart dt i) = .ok obs[i].x := by
    intro S cmd Minv F hM hae s hc hs h0 tstart tend dt hdt hh hN hfirst sys hsys
    rcases hsys with rfl | rfl
    · obtain ⟨f, obs, h1, -, h3, h4⟩ := simulation_is_runge_kutta hM hae T hT s hc hs h0 tstart tend dt hdt hh N hN hfirst fuel hf
      exact ⟨f, obs, h1, h3, h4⟩
    · obtain ⟨f, obs, h1, -, h3, h4⟩ := executable_is_runge_kutta hM hae T hT s hc hs h0 tstart tend dt hdt hh N hN hfirst fuel hf
      exact ⟨f, obs, h1, h3, h4⟩
  obtain ⟨f, obs, a1, a2, a3⟩ := run hM hae s hc hs h0 tstart tend dt hdt hh hN hfirst sys hsys
  obtain ⟨f', obs', b1, b2, b3⟩ := run hM' hae' s' hc' (by rw [hs']; exact hlen _ hs) h0' (a * tstart) (a * tend) (a * dt) (mul_pos ha hdt) hh'
    (by have := mul_le_mul_of_nonneg_left hN ha.le; linarith)
    (fun i hi => by have := mul_lt_mul_of_pos_left (hfirst i hi) ha; linarith) sys' hsys'
  refine ⟨f, f', obs, obs', a1, b1, a2, ?_, ?_⟩
  · intro o ho
    obtain ⟨i, hi, rfl⟩ := List.mem_iff_getElem.mp ho
    have hlenx := rkRun_length Minv F T s.state hs tstart dt i
    have := (a3 i hi).2
    rw [hn, (normalize_unitQuaternion ae1 _ hlenx).1] at this
    rw [← Except.ok.inj this]
    exact (normalize_unitQuaternion ae1 _ hlenx).2
  apply List.ext_getElem
  · simp [a2, b2]
  · intro i hi hi'
    simp only [List.length_map] at hi hi'
    obtain ⟨a4, a5⟩ := a3 i hi'
    obtain ⟨b4, b5⟩ := b3 i hi
    have hlenx := rkRun_length Minv F T s.state hs tstart dt i
    obtain ⟨hreached, hrel⟩ := rk_related (f := newton Minv F) (g := fun x t => faster a (newton Minv' F' x t)) (ρ := fun x y => x.length = 13 ∧ y = L x)
      (δ := fun k l => k.length = 13 ∧ l = L k) T tstart dt
      (by
        rintro x y k l c ⟨hx, rfl⟩ ⟨hk, rfl⟩
        exact ⟨along_length x c k hx hk, (halong x c k hx hk).symm⟩)
      (by
        rintro x y t ⟨hx, rfl⟩
        exact ⟨newton_length _ _ x t hx, heq x t hx⟩) s.state s'.state ⟨hs, hs'⟩ i
    rw [rkRun_faster (newton_autonomous _ _) a T s'.state (a * tstart) tstart, hrel, hn', (normalize_unitQuaternion ae1 _ (hlen _ hlenx)).1, hquat _ hreached] at b5
    rw [hn, (normalize_unitQuaternion ae1 _ hlenx).1] at a5
    simp only [List.getElem_map, Prod.mk.injEq]
    refine ⟨by rw [a4, b4]; ring, ?_⟩
    rw [← Except.ok.inj a5, ← Except.ok.inj b5]

/-! ### Forces -/

theorem cross_smul (a b : ℝ) (u v : Vec3 ℝ) : cross (a • u) (b • v) = (a * b) • cross u v := by
  funext i
  fin_cases i <;> simp [cross] <;> ring

theorem scaled_wrench (c : Scale) (G u w : Vec3 ℝ) (q : Quat ℝ) (f : Push) :
    (f.scaled c).wrench (c.length • G) (c.speed • u) (c.rate • w) q = (c.force • (f.wrench G u w q).1, c.torque • (f.wrench G u w q).2) := by
  have hs := c.speed_pos
  have hr := c.rate_pos
  cases f with
  | gravity M g =>
    have hc : c.inertia M 2 2 * (c.length / c.time ^ 2 * g) = c.force * (M 2 2 * g) := by
      have := c.length_pos; have := c.time_pos; have := c.mass_pos
      simp only [Scale.inertia, Scale.acceleration6, Scale.wrench6, Scale.velocity6, Scale.speed, Scale.force]
      simp
      field_simp
    have hv : (![0, 0, c.force * (M 2 2 * g)] : Vec3 ℝ) = c.force • ![0, 0, M 2 2 * g] := by
      funext i
      fin_cases i <;> simp
    simp only [Push.scaled, Push.wrench, hc, hv, Matrix.mulVec_smul, smul_zero]
  | linearDamping P D =>
    have h : ∀ i j x, c.damping D i j * (c.velocity6 j * x) = c.wrench6 i * (D i j * x) := by
      intro i j x
      have := (c.velocity6_pos j).ne'
      simp only [Scale.damping]
      field_simp
    simp only [Push.scaled, Push.wrench]
    refine Prod.ext ?_ ?_
    · funext i
      have h0 := h (i.castLE (by omega)) 0 (u 0)
      have h1 := h (i.castLE (by omega)) 1 (u 1)
      have h2 := h (i.castLE (by omega)) 2 (u 2)
      have h3 := h (i.castLE (by omega)) 3 (w 0)
      have h4 := h (i.castLE (by omega)) 4 (w 1)
      have h5 := h (i.castLE (by omega)) 5 (w 2)
      have hw : c.wrench6 (i.castLE (by omega)) = c.force := by fin_cases i <;> rfl
      rw [hw] at h0 h1 h2 h3 h4 h5
      have v0 : c.velocity6 0 = c.speed := rfl
      have v1 : c.velocity6 1 = c.speed := rfl
      have v2 : c.velocity6 2 = c.speed := rfl
      have v3 : c.velocity6 3 = c.rate := rfl
      have v4 : c.velocity6 4 = c.rate := rfl
      have v5 : c.velocity6 5 = c.rate := rfl
      rw [v0] at h0; rw [v1] at h1; rw [v2] at h2; rw [v3] at h3; rw [v4] at h4; rw [v5] at h5
      simp only [Pi.smul_apply, smul_eq_mul]
      linarith
    · funext i
      have h0 := h (i.natAdd 3) 0 (u 0)
      have h1 := h (i.natAdd 3) 1 (u 1)
      have h2 := h (i.natAdd 3) 2 (u 2)
      have h3 := h (i.natAdd 3) 3 (w 0)
      have h4 := h (i.natAdd 3) 4 (w 1)
      have h5 := h (i.natAdd 3) 5 (w 2)
      have hw : c.wrench6 (i.natAdd 3) = c.torque := by fin_cases i <;> rfl
      rw [hw] at h0 h1 h2 h3 h4 h5
      have v0 : c.velocity6 0 = c.speed := rfl
      have v1 : c.velocity6 1 = c.speed := rfl
      have v2 : c.velocity6 2 = c.speed := rfl
      have v3 : c.velocity6 3 = c.rate := rfl
      have v4 : c.velocity6 4 = c.rate := rfl
      have v5 : c.velocity6 5 = c.rate := rfl
      rw [v0] at h0; rw [v1] at h1; rw [v2] at h2; rw [v3] at h3; rw [v4] at h4; rw [v5] at h5
      simp only [Pi.smul_apply, smul_eq_mul]
      linarith
  | quadraticDamping P D =>
    have h : ∀ i j x, c.damping2 D i j * (|c.velocity6 j * x| * (c.velocity6 j * x)) = c.wrench6 i * (D i j * (|x| * x)) := by
      intro i j x
      have := (c.velocity6_pos j).ne'
      rw [abs_mul, abs_of_pos (c.velocity6_pos j)]
      simp only [Scale.damping2]
      field_simp
    simp only [Push.scaled, Push.wrench]
    refine Prod.ext ?_ ?_
    · funext i
      have h0 := h (i.castLE (by omega)) 0 (u 0)
      have h1 := h (i.castLE (by omega)) 1 (u 1)
      have h2 := h (i.castLE (by omega)) 2 (u 2)
      have h3 := h (i.castLE (by omega)) 3 (w 0)
      have h4 := h (i.castLE (by omega)) 4 (w 1)
      have h5 := h (i.castLE (by omega)) 5 (w 2)
      have hw : c.wrench6 (i.castLE (by omega)) = c.force := by fin_cases i <;> rfl
      rw [hw] at h0 h1 h2 h3 h4 h5
      have v0 : c.velocity6 0 = c.speed := rfl
      have v1 : c.velocity6 1 = c.speed := rfl
      have v2 : c.velocity6 2 = c.speed := rfl
      have v3 : c.velocity6 3 = c.rate := rfl
      have v4 : c.velocity6 4 = c.rate := rfl
      have v5 : c.velocity6 5 = c.rate := rfl
      rw [v0] at h0; rw [v1] at h1; rw [v2] at h2; rw [v3] at h3; rw [v4] at h4; rw [v5] at h5
      simp only [Pi.smul_apply, smul_eq_mul]
      linarith
    · funext i
      have h0 := h (i.natAdd 3) 0 (u 0)
      have h1 := h (i.natAdd 3) 1 (u 1)
      have h2 := h (i.natAdd 3) 2 (u 2)
      have h3 := h (i.natAdd 3) 3 (w 0)
      have h4 := h (i.natAdd 3) 4 (w 1)
      have h5 := h (i.natAdd 3) 5 (w 2)
      have hw : c.wrench6 (i.natAdd 3) = c.torque := by fin_cases i <;> rfl
      rw [hw] at h0 h1 h2 h3 h4 h5
      have v0 : c.velocity6 0 = c.speed := rfl
      have v1 : c.velocity6 1 = c.speed := rfl
      have v2 : c.velocity6 2 = c.speed := rfl
      have v3 : c.velocity6 3 = c.rate := rfl
      have v4 : c.velocity6 4 = c.rate := rfl
      have v5 : c.velocity6 5 = c.rate := rfl
      rw [v0] at h0; rw [v1] at h1; rw [v2] at h2; rw [v3] at h3; rw [v4] at h4; rw [v5] at h5
      simp only [Pi.smul_apply, smul_eq_mul]
      linarith
  | resistance P R =>
    simp only [Push.scaled, Push.wrench, smul_zero, Pi.smul_apply, smul_eq_mul]
    rw [mul_div_cancel_left₀ _ hs.ne']
    refine Prod.ext ?_ rfl
    funext i
    fin_cases i <;> simp
  | bodyForce f m P =>
    simp only [Push.scaled, Push.wrench, ← smul_sub, cross_smul, ← c.torque_eq, smul_add]
  | nedForce f m P =>
    simp only [Push.scaled, Push.wrench, ← smul_sub, cross_smul, ← c.torque_eq, ← smul_add, Matrix.mulVec_smul]

theorem scaled_control (c : Scale) (G P u w : Vec3 ℝ) (q : Quat ℝ) (f : Control) (hf : f.KeepsStation) :
    (f.scaled c).wrench (c.length • G) (c.length • P) (c.speed • u) (c.rate • w) q = (c.force • (f.wrench G P u w q).1, c.torque • (f.wrench G P u w q).2) := by
  have hL := c.length_pos.ne'
  have hT := c.time_pos.ne'
  cases f with
  | heading => exact hf.elim
  | stationKeeping I psiOf k xCo yCo psiCo =>
    have i0 : c.inertia I 0 0 = c.mass * I 0 0 := by
      simp only [Scale.inertia, Scale.acceleration6, Scale.wrench6, Scale.velocity6, Scale.speed, Scale.force]
      simp
      field_simp
      simp
    have i1 : c.inertia I 1 1 = c.mass * I 1 1 := by
      simp only [Scale.inertia, Scale.acceleration6, Scale.wrench6, Scale.velocity6, Scale.speed, Scale.force]
      simp
      field_simp
      simp
    have i5 : c.inertia I 5 5 = c.mass * c.length ^ 2 * I 5 5 := by
      simp only [Scale.inertia, Scale.acceleration6, Scale.wrench6, Scale.velocity6, Scale.rate, Scale.torque]
      simp
      field_simp
      simp
    have hd : ∀ T : ℝ, 2 * Real.pi / (c.time * T) = (2 * Real.pi / T) / c.time := by
      intro T
      rw [mul_comm c.time, div_div]
    have hk : keeperForce (c.inertia I) { k with TX := c.time * k.TX, TY := c.time * k.TY, TPsi := c.time * k.TPsi } (c.length * xCo) (c.length * yCo) (c.length • P) (c.speed • u) =
        c.force • keeperForce I k xCo yCo P u := by
      simp only [keeperForce, i0, i1, hd, Scale.force, Scale.speed]
      funext i
      fin_cases i
      · simp
        field_simp
        try ring
      · simp
        field_simp
        try ring
      · simp
    simp only [Control.scaled, Control.wrench, hk, cross_smul, ← c.torque_eq, smul_sub, i5, hd]
    refine Prod.ext rfl ?_
    simp only
    congr 1
    funext i
    simp only [Scale.torque, Scale.rate]
    fin_cases i
    · simp
    · simp
    · simp
      field_simp

theorem sum_scaled {α : Type} (a b : ℝ) (l : List α) (f g : α → Vec3 ℝ × Vec3 ℝ) (h : ∀ x ∈ l, g x = (a • (f x).1, b • (f x).2)) :
    (l.map g).sum = (a • (l.map f).sum.1, b • (l.map f).sum.2) := by
  induction l with
  | nil => refine Prod.ext ?_ ?_ <;> simp
  | cons x l ih =>
    simp only [List.map_cons, List.sum_cons, Prod.fst_add, Prod.snd_add, smul_add]
    rw [h x (by simp), ih fun y hy => h y (by simp [hy])]
    rfl

theorem scaled_total {c : Scale} {b b' : Multi.MBody ℝ} (h : IsScaled c b b') (l : List Push) (cs : List Control) (hcs : ∀ f ∈ cs, f.KeepsStation) (P u w : Vec3 ℝ) (q : Quat ℝ) :
    total b' (l.map (Push.scaled c)) (cs.map (Control.scaled c)) (c.length • P) (c.speed • u) (c.rate • w) q =
      (c.force • (total b l cs P u w q).1, c.torque • (total b l cs P u w q).2) := by
  rw [total, resultant, h.coriolis, h.G, List.map_map, List.map_map,
    sum_scaled c.force c.torque l (Push.wrench b.G u w q) (Push.wrench (c.length • b.G) (c.speed • u) (c.rate • w) q ∘ Push.scaled c) (fun f _ => scaled_wrench c b.G u w q f),
    sum_scaled c.force c.torque cs (Control.wrench b.G P u w q) (Control.wrench (c.length • b.G) (c.length • P) (c.speed • u) (c.rate • w) q ∘ Control.scaled c) (fun f hf => scaled_control c b.G P u w q f (hcs f hf))]
  simp only [total, resultant, Prod.fst_add, Prod.snd_add, smul_add, Prod.mk_add_mk]

theorem scaled_newton {c : Scale} {b b' : Multi.MBody ℝ} (h : IsScaled c b b') (l : List Push) (cs : List Control) (hcs : ∀ f ∈ cs, f.KeepsStation) (x : List ℝ) (t : ℝ) (hx : x.length = 13) :
    faster c.time (newton b'.Minv (total b' (l.map (Push.scaled c)) (cs.map (Control.scaled c))) (c.states x) t) = c.states (newton b.Minv (total b l cs) x t) := by
  match x, hx with
  | [x, y, z, u, v, w, p, q, r, qr, qi, qj, qk], _ =>
    have hT := c.time_pos.ne'
    have e0 : (![c.length * x, c.length * y, c.length * z] : Vec3 ℝ) = c.length • ![x, y, z] := by funext i; fin_cases i <;> simp
    have e1 : (![c.speed * u, c.speed * v, c.speed * w] : Vec3 ℝ) = c.speed • ![u, v, w] := by funext i; fin_cases i <;> simp
    have e2 : (![c.rate * p, c.rate * q, c.rate * r] : Vec3 ℝ) = c.rate • ![p, q, r] := by funext i; fin_cases i <;> simp
    simp only [newton, Scale.states, e0, e1, e2, scaled_total h l cs hcs, Matrix.mulVec_smul]
    generalize total b l cs ![x, y, z] ![u, v, w] ![p, q, r] ⟨qr, qi, qj, qk⟩ = F
    have hA : ∀ i, b'.Minv.mulVec ![(c.force • F.1) 0, (c.force • F.1) 1, (c.force • F.1) 2, (c.torque • F.2) 0, (c.torque • F.2) 1, (c.torque • F.2) 2] i =
        c.acceleration6 i * b.Minv.mulVec ![F.1 0, F.1 1, F.1 2, F.2 0, F.2 1, F.2 2] i := by
      intro i
      have hw : ∀ j x, c.acceleration6 i / c.wrench6 j * b.Minv i j * (c.wrench6 j * x) = c.acceleration6 i * (b.Minv i j * x) := by
        intro j x
        have := (c.wrench6_pos j).ne'
        field_simp
      have w0 := hw 0 (F.1 0); have w1 := hw 1 (F.1 1); have w2 := hw 2 (F.1 2)
      have w3 := hw 3 (F.2 0); have w4 := hw 4 (F.2 1); have w5 := hw 5 (F.2 2)
      simp only [Matrix.mulVec, dotProduct, Fin.sum_univ_six, h.inertia]
      have v0 : c.wrench6 0 = c.force := rfl
      have v1 : c.wrench6 1 = c.force := rfl
      have v2 : c.wrench6 2 = c.force := rfl
      have v3 : c.wrench6 3 = c.torque := rfl
      have v4 : c.wrench6 4 = c.torque := rfl
      have v5 : c.wrench6 5 = c.torque := rfl
      rw [v0] at w0; rw [v1] at w1; rw [v2] at w2; rw [v3] at w3; rw [v4] at w4; rw [v5] at w5
      simp only [v0, v1, v2, v3, v4, v5]
      simp
      linarith
    simp only [hA]
    generalize b.Minv.mulVec ![F.1 0, F.1 1, F.1 2, F.2 0, F.2 1, F.2 2] = A
    have a0 : ∀ x, c.time * (c.acceleration6 0 * x) = c.speed * x := fun x => by simp only [Scale.acceleration6, Scale.velocity6]; simp; field_simp
    have a1 : ∀ x, c.time * (c.acceleration6 1 * x) = c.speed * x := fun x => by simp only [Scale.acceleration6, Scale.velocity6]; simp; field_simp
    have a2 : ∀ x, c.time * (c.acceleration6 2 * x) = c.speed * x := fun x => by simp only [Scale.acceleration6, Scale.velocity6]; simp; field_simp
    have a3 : ∀ x, c.time * (c.acceleration6 3 * x) = c.rate * x := fun x => by simp only [Scale.acceleration6, Scale.velocity6]; simp; field_simp
    have a4 : ∀ x, c.time * (c.acceleration6 4 * x) = c.rate * x := fun x => by simp only [Scale.acceleration6, Scale.velocity6]; simp; field_simp
    have a5 : ∀ x, c.time * (c.acceleration6 5 * x) = c.rate * x := fun x => by simp only [Scale.acceleration6, Scale.velocity6]; simp; field_simp
    have hv : ∀ x, c.time * (c.speed * x) = c.length * x := fun x => by simp only [Scale.speed]; field_simp
    simp only [faster, List.map_cons, List.map_nil, Pi.smul_apply, smul_eq_mul, a0, a1, a2, a3, a4, a5, hv]
    simp only [Scale.rate, List.cons.injEq, true_and, and_true]
    refine ⟨?_, ?_, ?_, ?_⟩ <;> field_simp

/-- A body whose inertia with added mass is `M`, and the same body in other units. -/
theorem isScaled_of_inertia (c : Scale) (b b' : Multi.MBody ℝ) (M : Mat6 ℝ) (hG : b'.G = c.length • b.G) (hM : b.Minv = M⁻¹) (hM' : b'.Minv = (Matrix.of (c.inertia M))⁻¹)
    (hc : b.coriolis = inertialForces M) (hc' : b'.coriolis = inertialForces (c.inertia M)) : IsScaled c b b' where
  G := hG
  inertia i j := by
    have hS : (Matrix.of (c.inertia M) : Mat6 ℝ) = Matrix.diagonal c.wrench6 * M * Matrix.diagonal (fun i => (c.acceleration6 i)⁻¹) := by
      ext i j
      simp only [Matrix.of_apply, Scale.inertia, Matrix.mul_diagonal, Matrix.diagonal_mul]
      ring
    have hW : (Matrix.diagonal c.wrench6 : Mat6 ℝ)⁻¹ = Matrix.diagonal (fun i => (c.wrench6 i)⁻¹) := by
      apply Matrix.inv_eq_left_inv
      rw [Matrix.diagonal_mul_diagonal, ← Matrix.diagonal_one]
      congr 1
      funext i
      exact inv_mul_cancel₀ (c.wrench6_pos i).ne'
    have hA : (Matrix.diagonal (fun i => (c.acceleration6 i)⁻¹) : Mat6 ℝ)⁻¹ = Matrix.diagonal c.acceleration6 := by
      apply Matrix.inv_eq_left_inv
      rw [Matrix.diagonal_mul_diagonal, ← Matrix.diagonal_one]
      congr 1
      funext i
      exact mul_inv_cancel₀ (c.acceleration6_pos i).ne'
    rw [hM', hS, Matrix.mul_inv_rev, Matrix.mul_inv_rev, hW, hA, hM, ← mul_assoc, Matrix.mul_diagonal, Matrix.diagonal_mul]
    ring
  coriolis u w := by
    have hT := c.time_pos.ne'
    have hL := c.length_pos.ne'
    rw [hc, hc']
    have h1 : ∀ i, velocity6 (c.speed • u) (c.rate • w) i = c.velocity6 i * velocity6 u w i := by
      intro i
      fin_cases i <;> simp [velocity6, Scale.velocity6]
    have hterm : ∀ i j, c.inertia M i j * velocity6 (c.speed • u) (c.rate • w) j = c.wrench6 i * c.time * (M i j * velocity6 u w j) := by
      intro i j
      have := (c.velocity6_pos j).ne'
      rw [h1]
      simp only [Scale.inertia, Scale.acceleration6]
      field_simp
    have h2 : linearMomentum (c.inertia M) (c.speed • u) (c.rate • w) = (c.force * c.time) • linearMomentum M u w := by
      funext i
      have hw : c.wrench6 (i.castLE (by omega)) = c.force := by fin_cases i <;> rfl
      simp only [linearMomentum, Pi.smul_apply, smul_eq_mul, Finset.mul_sum, hterm, hw]
    have h3 : angularMomentum (c.inertia M) (c.speed • u) (c.rate • w) = (c.torque * c.time) • angularMomentum M u w := by
      funext i
      have hw : c.wrench6 (i.natAdd 3) = c.torque := by fin_cases i <;> rfl
      simp only [angularMomentum, Pi.smul_apply, smul_eq_mul, Finset.mul_sum, hterm, hw]
    have e1 : c.force * c.time * c.rate = c.force := by rw [Scale.rate]; field_simp
    have e2 : c.force * c.time * c.speed = c.torque := by rw [Scale.speed, c.torque_eq]; field_simp
    have e3 : c.torque * c.time * c.rate = c.torque := by rw [Scale.rate]; field_simp
    simp only [inertialForces, h2, h3, cross_smul, e1, e2, e3, smul_add]

/-- **C208** The results of a simulation do not depend on the units: with the force models `gravity`, `linear damping`, `quadratic damping`, `resistance curve`, `constant force` in NED, and station-keeping controllers,
all given in other units of length, of time and of mass, all that is observed is what is observed in the first units, in the new units. In other words, with the model of a ship whose lengths, durations and masses are in any
ratios with those of the ship (Froude's similitude when the acceleration of gravity is the same), the ship does what its model does. This is so for the executable and for the co-simulation, for each method whose
stages do not go back in time. Missing: the controller that keeps the heading (`heading_units_matter`), and the rudder behind a propeller (`rudder_units_matter`). -/
theorem simulation_scaled_partial (c : Scale) (e e' : Multi.Entry ℝ) (he : Alone e) (he' : Alone e') (h : IsScaled c e.body e'.body) (ae : Nat → ℝ → ℝ → Bool) (hae : ∀ n a, ae n a a = true) (ae1 : ℝ → Bool)
    (l : List Push) (hl : e.forces = l.map (Push.model e.body)) (hl' : e'.forces = (l.map (Push.scaled c)).map (Push.model e'.body)) (hb : ∀ f ∈ l, ¬ f.InBody)
    (cs : List Control) (hk : ∀ f ∈ cs, f.KeepsStation)
    (hcs : e.controlled = cs.map (Control.model e.body)) (hcs' : e'.controlled = (cs.map (Control.scaled c)).map (Control.model e'.body))
    (s s' : Sim ℝ (Vec3 ℝ × Vec3 ℝ)) (ho : ∀ f ∈ cs, f.Commanded s.commands) (ho' : ∀ f ∈ cs, (f.scaled c).Commanded s'.commands)
    (hs : s.state.length = 13) (hs' : s'.state = c.states s.state) (T : Tableau ℝ) (hT : Forward T)
    (h0 : ∀ n, (field s.hist n).Tmax = 0) (h0' : ∀ n, (field s'.hist n).Tmax = 0)
    (tstart tend dt : ℝ) (hdt : 0 < dt) (hh : NotAfter ae s.hist tstart) (hh' : NotAfter ae s'.hist (c.time * tstart)) (N : Nat) (hN : tend ≤ tstart + N * dt)
    (hfirst : ∀ i < N, tstart + (i : ℝ) * dt < tend) (fuel : Nat) (hf : N ≤ fuel)
    (sys sys' : System ℝ (Sim ℝ (Vec3 ℝ × Vec3 ℝ)) (Res ℝ Unit))
    (hsys : sys = simSystem (oneBody e ae ae1) T.stepper ∨ sys = sscSystem (oneBody e ae ae1) T.stepper)
    (hsys' : sys' = simSystem (oneBody e' ae ae1) T.stepper ∨ sys' = sscSystem (oneBody e' ae ae1) T.stepper) :
    ∃ f f' obs obs', quicksolve sys fuel s tstart tend dt = some (.ok (f, obs)) ∧
      quicksolve sys' fuel s' (c.time * tstart) (c.time * tend) (c.time * dt) = some (.ok (f', obs')) ∧
      obs.length = N + 1 ∧ (∀ o ∈ obs, o.x.length = 13) ∧ obs'.map (fun o => (o.t, o.x)) = obs.map (fun o => (c.time * o.t, c.states o.x)) := by
  have hM := controlled_memoryless e he ae ae1 l hl hb cs hcs s.commands ho
  have hM' := controlled_memoryless e' he' ae ae1 (l.map (Push.scaled c)) hl' (by
    intro f hf
    obtain ⟨g, hg, rfl⟩ := List.mem_map.mp hf
    have := hb g hg
    cases g <;> simp_all [Push.scaled, Push.InBody]) (cs.map (Control.scaled c)) hcs' s'.commands (by simpa using ho')
  refine carried_faster (ae1 := ae1) hM hM' rfl rfl hae hae c.states ?_ c.time c.time_pos ?_ (fun x t hx => scaled_newton h l cs hk x t hx) ?_ T hT s s' rfl rfl hs hs' h0 h0'
    tstart tend dt hdt hh hh' N hN hfirst fuel hf sys sys' hsys hsys'
  · intro x hx
    match x, hx with
    | [a, b, c, d, e, f, g, h, i, j, k, l, m], _ => rfl
  · intro x a k hx hk
    match x, hx, k, hk with
    | [a, b, c, d, e, f, g, h, i, j, k, l, m], _, [a', b', c', d', e', f', g', h', i', j', k', l', m'], _ =>
      simp only [Scale.states, along, List.zipWith_cons_cons, List.zipWith_nil_left, List.cons.injEq, and_true]
      refine ⟨?_, ?_, ?_, ?_, ?_, ?_, ?_, ?_, ?_⟩ <;> ring
  · intro x hx
    match x, hx with
    | [a, b, c, d, e, f, g, h, i, j, k, l, m], _ =>
      simp only [Scale.states, unitQuaternion]
      split <;> rfl

/-! ### Propellers and rudders -/

/-- A number in other units. -/
def Scale.ratio (a : ℝ) : Forces.Ratio ℝ → Forces.Ratio ℝ
  | .num x => .num (a * x)
  | r => r

theorem advance_scaled (c : Scale) (w u n D : ℝ) (hD : D ≠ 0) :
    Forces.advanceRatio w (c.speed * u) (c.rate * n) (c.length * D) = Forces.advanceRatio w u n D := by
  have hL := c.length_pos
  have hT := c.time_pos
  have hs := c.speed_pos
  have hr := c.rate_pos
  have hu : (1 - w) * |c.speed * u| = c.speed * ((1 - w) * |u|) := by
    rw [abs_mul, abs_of_pos hs]
    ring
  by_cases hn : n = 0
  · subst hn
    have hneg : c.speed * ((1 - w) * |u|) < 0 ↔ (1 - w) * |u| < 0 := by rw [← not_le, mul_nonneg_iff_of_pos_left hs, not_le]
    simp only [Forces.advanceRatio, hu, Forces.divide, mul_zero, if_true, mul_pos_iff_of_pos_left hs, hneg]
    split_ifs <;> rfl
  · have hn' : c.rate * n ≠ 0 := mul_ne_zero hr.ne' hn
    have hD' : c.length * D ≠ 0 := mul_ne_zero hL.ne' hD
    simp only [Forces.advanceRatio, hu, Forces.divide, if_neg hn, if_neg hn', if_neg hD, if_neg hD']
    congr 1
    rw [Scale.speed, Scale.rate]
    field_simp

/-- The thrust and the torque of a propeller do not depend on the units, whatever the curves of the coefficients. -/
theorem propeller_scaled (c : Scale) (rho w etaR t D : ℝ) (hD : D ≠ 0) (clockwise : Bool) (Kt Kq : Forces.Ratio ℝ → Forces.Ratio ℝ) (u n : ℝ) :
    Forces.propeller (c.density * rho) w etaR t (c.length * D) clockwise Kt Kq (c.speed * u) (c.rate * n) =
      (Scale.ratio c.force (Forces.propeller rho w etaR t D clockwise Kt Kq u n).1, Scale.ratio c.torque (Forces.propeller rho w etaR t D clockwise Kt Kq u n).2) := by
  have hL := c.length_pos.ne'
  have hT := c.time_pos.ne'
  have e1 : (1 - t) * (c.density * rho) * (c.rate * n * (c.rate * n)) * (c.length * D * (c.length * D) * (c.length * D) * (c.length * D)) =
      c.force * ((1 - t) * rho * (n * n) * (D * D * D * D)) := by
    rw [Scale.density, Scale.rate, Scale.force]
    field_simp
  have e2 : ∀ kappa : ℝ, kappa * etaR * (c.density * rho) * (c.rate * n * (c.rate * n)) * (c.length * D * (c.length * D) * (c.length * D) * (c.length * D) * (c.length * D)) =
      c.torque * (kappa * etaR * rho * (n * n) * (D * D * D * D * D)) := by
    intro kappa
    rw [Scale.density, Scale.rate, Scale.torque]
    field_simp
  simp only [Forces.propeller, advance_scaled c w u n D hD, e1, e2]
  generalize Kt (Forces.advanceRatio w u n D) = r1
  generalize Kq (Forces.advanceRatio w u n D) = r2
  cases r1 <;> cases r2 <;> simp [Scale.ratio, mul_assoc]

/-- The force of a rudder, for a given thrust, does not depend on the units (when the speed is not almost zero: the code has a threshold at 1e-10 square metres per second). -/
theorem rudder_scaled (c : Scale) (r : Forces.Rudder) (hrho : r.rho ≠ 0) (hD : r.D ≠ 0) (hAr : r.Ar ≠ 0) (hb : r.b ≠ 0) (w u v beta T : ℝ)
    (hu : 1e-10 ≤ |r.D * (u * (1 - w))|) (hu' : 1e-10 ≤ |c.length * r.D * (c.speed * u * (1 - w))|) :
    (c.rudder r).rudderWrenches w (c.speed * u) (c.speed * v) beta (c.force * T) =
      let W := r.rudderWrenches w u v beta T
      ((c.force • W.1.1, c.torque • W.1.2), (c.force • W.2.1, c.torque • W.2.2)) := by
  have hL := c.length_pos
  have hT := c.time_pos
  have hm := c.mass_pos
  have hs := c.speed_pos
  have hKr : (c.rudder r).Kr = r.Kr := by
    simp only [Forces.Rudder.Kr, Scale.rudder]
    rw [mul_div_mul_left _ _ hL.ne']
  have hchord : (c.rudder r).chord = c.length * r.chord := by
    simp only [Forces.Rudder.chord, Scale.rudder]
    field_simp
  have hlambda : (c.rudder r).lambda = r.lambda := by
    simp only [Forces.Rudder.lambda, Scale.rudder]
    field_simp
  have hload : ∀ Va, 1e-10 ≤ |r.D * Va| → 1e-10 ≤ |c.length * r.D * (c.speed * Va)| → (c.rudder r).loading (c.speed * Va) (c.force * T) = r.loading Va T := by
    intro Va h1 h2
    have hVa : Va ≠ 0 := by
      rintro rfl
      simp at h1
      linarith
    have h2' : ¬ |(c.rudder r).D * (c.speed * Va)| < 1e-10 := not_lt.mpr h2
    simp only [Forces.Rudder.loading, if_neg (not_lt.mpr h1), if_neg h2']
    simp only [Scale.rudder, Scale.force, Scale.density, Scale.speed]
    field_simp
  have hVa : c.speed * u * (1 - w) = c.speed * (u * (1 - w)) := by ring
  rw [hVa] at hu'
  have hAr : ∀ CTh, (c.rudder r).getAr CTh = (c.length ^ 2 * (r.getAr CTh).1, c.length ^ 2 * (r.getAr CTh).2) := by
    intro CTh
    simp only [Forces.Rudder.getAr, hKr, hchord]
    have e : ∀ x, c.length * r.chord * ((c.rudder r).D * x) = c.length ^ 2 * (r.chord * (r.D * x)) := fun x => by
      simp only [Scale.rudder]
      ring
    rw [e, show (c.rudder r).Ar = c.length ^ 2 * r.Ar from rfl, ← mul_min_of_nonneg _ _ (by positivity)]
    rw [← mul_sub]
  have hVs : ∀ CTh Va, (c.rudder r).getVs CTh (c.speed * Va) (c.speed * v) (c.force * T) =
      ((c.speed * (r.getVs CTh Va v T).1.1, c.speed * (r.getVs CTh Va v T).1.2), (c.speed * (r.getVs CTh Va v T).2.1, c.speed * (r.getVs CTh Va v T).2.2)) := by
    intro CTh Va
    have e : c.speed * Va * (c.speed * Va) + 8 / Real.pi * (c.force * T) / ((c.rudder r).rho * (c.rudder r).D * (c.rudder r).D) =
        c.speed ^ 2 * (Va * Va + 8 / Real.pi * T / (r.rho * r.D * r.D)) := by
      simp only [Scale.rudder, Scale.force, Scale.density, Scale.speed]
      field_simp
    simp only [Forces.Rudder.getVs, hKr, e, Real.sqrt_mul (sq_nonneg c.speed), Real.sqrt_sq hs.le]
    refine Prod.ext (Prod.ext ?_ rfl) rfl
    simp only
    ring
  have hangle : ∀ V : ℝ × ℝ, Forces.Rudder.fluidAngle (c.speed * V.1, c.speed * V.2) = Forces.Rudder.fluidAngle V := by
    intro V
    have e : (⟨c.speed * V.1, c.speed * V.2⟩ : ℂ) = (c.speed : ℂ) * ⟨V.1, V.2⟩ := by
      apply Complex.ext <;> simp
    rw [Forces.Rudder.fluidAngle, Forces.Rudder.fluidAngle]
    simp only [e]
    exact Complex.arg_real_mul _ hs
  have hspeed : ∀ V : ℝ × ℝ, Forces.Rudder.speed (c.speed * V.1, c.speed * V.2) = c.speed * Forces.Rudder.speed V := by
    intro V
    simp only [Forces.Rudder.speed]
    rw [show c.speed * V.1 * (c.speed * V.1) + c.speed * V.2 * (c.speed * V.2) = c.speed ^ 2 * (V.1 * V.1 + V.2 * V.2) by ring, Real.sqrt_mul (sq_nonneg _), Real.sqrt_sq hs.le]
  have hwrench : ∀ fa Vs area, (c.rudder r).wrench beta fa (c.speed * Vs) (c.length ^ 2 * area) = (c.force • (r.wrench beta fa Vs area).1, c.torque • (r.wrench beta fa Vs area).2) := by
    intro fa Vs area
    have hCl : ∀ a, (c.rudder r).Cl a = r.Cl a := by
      intro a
      simp only [Forces.Rudder.Cl, hlambda]
    have hRn : c.speed * Vs * (c.length * r.chord) / (c.viscosity * r.nu) = Vs * r.chord / r.nu := by
      rw [show c.speed * Vs * (c.length * r.chord) = c.viscosity * (Vs * r.chord) by rw [Scale.speed, Scale.viscosity]; ring,
        mul_div_mul_left _ _ (by rw [Scale.viscosity]; positivity)]
    have hCd : ∀ x, (c.rudder r).Cd (c.speed * Vs) x = r.Cd Vs x := by
      intro x
      simp only [Forces.Rudder.Cd, hlambda, hchord]
      rw [show (c.rudder r).nu = c.viscosity * r.nu from rfl, hRn]
    have hq : c.density * c.length ^ 2 * c.speed * c.speed = c.force := by
      simp only [Scale.density, Scale.speed, Scale.force]
      field_simp
    have hlift : ∀ x a, (c.rudder r).lift (c.speed * Vs) x a (c.length ^ 2 * area) = c.force * r.lift Vs x a area := by
      intro x a
      simp only [Forces.Rudder.lift, Scale.rudder, ← hq]
      ring
    have hdrag : ∀ x, (c.rudder r).drag (c.speed * Vs) x (c.length ^ 2 * area) = c.force * r.drag Vs x area := by
      intro x
      simp only [Forces.Rudder.drag, Scale.rudder, ← hq]
      ring
    simp only [Forces.Rudder.wrench, hCl, hCd, hlift, hdrag]
    generalize r.lift Vs (r.Cl (beta - fa)) (beta - fa) area = a
    generalize r.drag Vs (r.Cd Vs (r.Cl (beta - fa))) area = d
    have hf : ((c.rudder r).force (c.force * a) (c.force * d) fa).1 = c.force • (r.force a d fa).1 := by
      simp only [Forces.Rudder.force]
      funext i
      fin_cases i
      · simp; ring
      · simp; ring
      · simp
    refine Prod.ext hf ?_
    have e2 : ((c.rudder r).force (c.force * a) (c.force * d) fa).2 = fun i => -(Hdb.cross (c.rudder r).offset ((c.rudder r).force (c.force * a) (c.force * d) fa).1 i) := rfl
    rw [e2, hf, c.torque_eq]
    simp only [Forces.Rudder.force, Scale.rudder]
    funext i
    fin_cases i <;> simp [Hdb.cross] <;> ring
  simp only [Forces.Rudder.rudderWrenches, hVa, hload _ hu hu', hAr, hVs, hangle, hspeed, hwrench]

/-- Lateral force of a rudder that is narrower than half of the diameter of the propeller, when the ship does not move: it is proportional to what the code takes for the thrust. -/
theorem rudder_at_rest (r : Forces.Rudder) (hrho : 0 < r.rho) (hD : 0 < r.D) (hb : 0 < r.b) (hAr : 0 < r.Ar) (hbD : r.b ≤ r.D / 2) (hd : r.distance ≠ 0) (w beta T : ℝ)
    (hT : 13.71742 < 8e20 / Real.pi * T / r.rho) :
    (r.rudderWrenches w 0 0 beta T).1.1 1 + (r.rudderWrenches w 0 0 beta T).2.1 1 =
      r.Ar * (r.Kr / 2) ^ 2 * (8 / Real.pi) / r.D ^ 2 * r.Cl beta * Real.cos beta * r.liftCoeff / 2 * T := by
  have hpi := Real.pi_pos
  have hTpos : 0 < T := by
    by_contra h
    have : 8e20 / Real.pi * T / r.rho ≤ 0 := div_nonpos_of_nonpos_of_nonneg (mul_nonpos_of_nonneg_of_nonpos (by positivity) (by linarith)) hrho.le
    linarith
  have hKr : 0 < r.Kr ∧ r.Kr ≤ 1 := by
    have : 0 < |r.distance / r.D| := abs_pos.mpr (div_ne_zero hd hD.ne')
    have h1 : 0 < 0.15 / |r.distance / r.D| := by positivity
    have h2 : (0.5 : ℝ) / (1 + 0.15 / |r.distance / r.D|) ≤ 0.5 := div_le_self (by norm_num) (by linarith)
    unfold Forces.Rudder.Kr
    constructor
    · positivity
    · linarith
  set CTh := 8e20 / Real.pi * T / r.rho with hCTh
  have hload : r.loading 0 T = CTh := by
    simp only [Forces.Rudder.loading, mul_zero, abs_zero]
    rw [if_pos (by norm_num)]
  have hRF : Forces.Rudder.reductionFactor CTh = 0.5 := if_pos hT
  have harea : r.getAr CTh = (r.Ar, 0) := by
    have hs : 1 ≤ Real.sqrt (1 + CTh) := Real.one_le_sqrt.mpr (by linarith)
    set S := Real.sqrt (1 + CTh)
    have hC : 0 < 1 + r.Kr * (S - 1) := by nlinarith [hKr.1, hKr.2]
    have hq : (1 / 2 : ℝ) ^ 2 ≤ (1 + 0.5 * (S - 1)) / (1 + r.Kr * (S - 1)) := by
      rw [le_div_iff₀ hC]
      nlinarith [hKr.1, hKr.2]
    have hW : 1 / 2 ≤ Real.sqrt ((1 + 0.5 * (S - 1)) / (1 + r.Kr * (S - 1))) := Real.le_sqrt_of_sq_le hq
    have hmin : r.Ar ≤ r.chord * (r.D * Real.sqrt ((1 + 0.5 * (S - 1)) / (1 + r.Kr * (S - 1)))) := by
      have h1 : r.b ≤ r.D * Real.sqrt ((1 + 0.5 * (S - 1)) / (1 + r.Kr * (S - 1))) := by nlinarith
      calc r.Ar = r.chord * r.b := by unfold Forces.Rudder.chord; field_simp
        _ ≤ _ := mul_le_mul_of_nonneg_left h1 (by unfold Forces.Rudder.chord; positivity)
    simp only [Forces.Rudder.getAr]
    rw [min_eq_left hmin, sub_self]
  have hq : 0 < 8 / Real.pi * T / (r.rho * r.D * r.D) := by positivity
  have hangle : ∀ x : ℝ, 0 ≤ x → Forces.Rudder.fluidAngle (x, 0) = 0 := by
    intro x hx
    exact Complex.arg_ofReal_of_nonneg hx
  have hspeed : ∀ x : ℝ, 0 ≤ x → Forces.Rudder.speed (x, 0) = x := by
    intro x hx
    simp only [Forces.Rudder.speed, mul_zero, add_zero]
    exact Real.sqrt_mul_self hx
  have hlat : ∀ Vs area, (r.wrench beta 0 Vs area).1 1 = r.lift Vs (r.Cl beta) beta area := by
    intro Vs area
    simp [Forces.Rudder.wrench, Forces.Rudder.force]
  have hV : 0 ≤ r.Kr * Real.sqrt (8 / Real.pi * T / (r.rho * r.D * r.D)) * 0.5 := by
    have := hKr.1
    positivity
  simp only [Forces.Rudder.rudderWrenches, zero_mul, hload, harea, Forces.Rudder.getVs, hRF, mul_zero, zero_add, sub_zero, hangle _ hV, hspeed _ hV, hangle 0 le_rfl, hlat]
  have h2 := Real.sq_sqrt hq.le
  simp only [Forces.Rudder.lift, mul_zero, zero_mul, add_zero]
  have e : 0.5 * r.rho * r.Ar * (r.Kr * Real.sqrt (8 / Real.pi * T / (r.rho * r.D * r.D)) * 0.5) * (r.Kr * Real.sqrt (8 / Real.pi * T / (r.rho * r.D * r.D)) * 0.5) * r.Cl beta * Real.cos beta * r.liftCoeff =
      0.5 * r.rho * r.Ar * (r.Kr / 2) ^ 2 * Real.sqrt (8 / Real.pi * T / (r.rho * r.D * r.D)) ^ 2 * r.Cl beta * Real.cos beta * r.liftCoeff := by ring
  rw [e, h2]
  field_simp
  ring

/-- A small rudder behind a propeller. -/
noncomputable def smallRudder : Forces.Rudder where
  Ar := 1
  b := 1
  aspect := 1
  liftCoeff := 1
  dragCoeff := 1
  D := 2
  rho := 1000
  nu := 1e-6
  distance := 1
  offset := ![1, 0, 0]

/-- Lengths and masses in other units: decimetres for metres, grams for kilograms. -/
noncomputable def decimetres : Scale where
  length := 10
  time := 1
  mass := 1000
  length_pos := by norm_num
  time_pos := by norm_num
  mass_pos := by norm_num

/-- The force of a rudder behind a propeller depends on the units: the code takes for thrust the norm of the six components of the wrench of the propeller, in which newtons are added to newton metres. With a propeller that
gives 3 N and 4 N m on a ship at rest, the lateral force of the rudder is not the same in metres and in decimetres. -/
theorem rudder_units_matter : ∃ (c : Scale) (r : Forces.Rudder) (beta : ℝ) (prop : Fin 6 → ℝ),
    ((c.rudder r).totalWrench 0 (c.speed * 0) (c.speed * 0) beta (fun i => c.wrench6 i * prop i)).1 1 ≠ c.force * (r.totalWrench 0 0 0 beta prop).1 1 := by
  refine ⟨decimetres, smallRudder, Real.pi / 4, ![3, 0, 0, 4, 0, 0], ?_⟩
  have hpi := Real.pi_pos
  have hpi4 := Real.pi_le_four
  have hT : Real.sqrt (∑ i, (![3, 0, 0, 4, 0, 0] : Fin 6 → ℝ) i * (![3, 0, 0, 4, 0, 0] : Fin 6 → ℝ) i) = 5 := by
    rw [show (∑ i, (![3, 0, 0, 4, 0, 0] : Fin 6 → ℝ) i * (![3, 0, 0, 4, 0, 0] : Fin 6 → ℝ) i) = 5 ^ 2 by simp [Fin.sum_univ_six]; norm_num]
    exact Real.sqrt_sq (by norm_num)
  have hf : decimetres.force = 10000 := by norm_num [Scale.force, decimetres]
  have ht : decimetres.torque = 100000 := by norm_num [Scale.torque, decimetres]
  have hw : (fun i => decimetres.wrench6 i * (![3, 0, 0, 4, 0, 0] : Fin 6 → ℝ) i) = ![30000, 0, 0, 400000, 0, 0] := by
    funext i
    fin_cases i <;> simp [Scale.wrench6, hf, ht] <;> norm_num
  rw [hw]
  have hT' : 100000 < Real.sqrt (∑ i, (![30000, 0, 0, 400000, 0, 0] : Fin 6 → ℝ) i * (![30000, 0, 0, 400000, 0, 0] : Fin 6 → ℝ) i) := by
    apply Real.lt_sqrt_of_sq_lt
    simp [Fin.sum_univ_six]
    norm_num
  simp only [Forces.Rudder.totalWrench, mul_zero, hT]
  generalize Real.sqrt (∑ i, (![30000, 0, 0, 400000, 0, 0] : Fin 6 → ℝ) i * (![30000, 0, 0, 400000, 0, 0] : Fin 6 → ℝ) i) = T' at hT'
  have h1 := rudder_at_rest smallRudder (by norm_num [smallRudder]) (by norm_num [smallRudder]) (by norm_num [smallRudder]) (by norm_num [smallRudder]) (by norm_num [smallRudder])
    (by norm_num [smallRudder]) 0 (Real.pi / 4) 5 (by
      simp only [smallRudder]
      rw [lt_div_iff₀ (by norm_num), div_mul_eq_mul_div, lt_div_iff₀ hpi]
      nlinarith)
  have h2 := rudder_at_rest (decimetres.rudder smallRudder) (by norm_num [smallRudder, Scale.rudder, decimetres, Scale.density]) (by norm_num [smallRudder, Scale.rudder, decimetres])
    (by norm_num [smallRudder, Scale.rudder, decimetres]) (by norm_num [smallRudder, Scale.rudder, decimetres]) (by norm_num [smallRudder, Scale.rudder, decimetres])
    (by norm_num [smallRudder, Scale.rudder, decimetres]) 0 (Real.pi / 4) T' (by
      simp only [smallRudder, Scale.rudder, decimetres, Scale.density]
      rw [lt_div_iff₀ (by norm_num), div_mul_eq_mul_div (8e20 : ℝ) Real.pi T', lt_div_iff₀ hpi]
      nlinarith)
  have hKr : (decimetres.rudder smallRudder).Kr = smallRudder.Kr := by
    norm_num [Forces.Rudder.Kr, smallRudder, Scale.rudder, decimetres]
  have hCl : (decimetres.rudder smallRudder).Cl (Real.pi / 4) = smallRudder.Cl (Real.pi / 4) := by
    norm_num [Forces.Rudder.Cl, Forces.Rudder.lambda, smallRudder, Scale.rudder, decimetres]
  have hKrpos : 0 < smallRudder.Kr := by
    simp only [Forces.Rudder.Kr, smallRudder]
    positivity
  have hsin : 0 < Real.sin (Real.pi / 4) := Real.sin_pos_of_pos_of_lt_pi (by linarith) (by linarith)
  have hcos : 0 < Real.cos (Real.pi / 4) := Real.cos_pos_of_mem_Ioo ⟨by linarith, by linarith⟩
  have hClpos : 0 < smallRudder.Cl (Real.pi / 4) := by
    simp only [Forces.Rudder.Cl, Forces.Rudder.lambda, smallRudder]
    positivity
  have p1 : (![(![3, 0, 0, 4, 0, 0] : Fin 6 → ℝ) 0, (![3, 0, 0, 4, 0, 0] : Fin 6 → ℝ) 1, (![3, 0, 0, 4, 0, 0] : Fin 6 → ℝ) 2] : Vec3 ℝ) 1 = 0 := by simp
  have p2 : (![(![30000, 0, 0, 400000, 0, 0] : Fin 6 → ℝ) 0, (![30000, 0, 0, 400000, 0, 0] : Fin 6 → ℝ) 1, (![30000, 0, 0, 400000, 0, 0] : Fin 6 → ℝ) 2] : Vec3 ℝ) 1 = 0 := by simp
  rw [p1, p2, add_zero, add_zero, h1, h2, hKr, hCl, hf]
  have hAr : (decimetres.rudder smallRudder).Ar = 100 := by norm_num [smallRudder, Scale.rudder, decimetres]
  have hD : (decimetres.rudder smallRudder).D = 20 := by norm_num [smallRudder, Scale.rudder, decimetres]
  have hl : (decimetres.rudder smallRudder).liftCoeff = 1 := rfl
  have hAr' : smallRudder.Ar = 1 := rfl
  have hD' : smallRudder.D = 2 := rfl
  have hl' : smallRudder.liftCoeff = 1 := rfl
  rw [hAr, hD, hl, hAr', hD', hl']
  have hpos : 0 < (smallRudder.Kr / 2) ^ 2 * (8 / Real.pi) * smallRudder.Cl (Real.pi / 4) * Real.cos (Real.pi / 4) := by positivity
  generalize (smallRudder.Kr / 2) ^ 2 = k at *
  generalize smallRudder.Cl (Real.pi / 4) = l at *
  generalize Real.cos (Real.pi / 4) = m at *
  generalize 8 / Real.pi = n at *
  intro h
  have : k * n * l * m * T' = k * n * l * m * 50000 := by linarith
  have := mul_left_cancel₀ hpos.ne' this
  linarith

/-- The torque of the controller that keeps the heading depends on the units: the code multiplies the accelerations by the inertia of the heave (kilograms) instead of that of the yaw (kilograms square metres). A
heading error of 1 rad and an inertia of 1 in all directions give different torques in metres and in decimetres. -/
theorem heading_units_matter : ∃ (c : Scale) (f : Control) (G P u w : Vec3 ℝ) (q : Quat ℝ),
    ((f.scaled c).wrench (c.length • G) (c.length • P) (c.speed • u) (c.rate • w) q).2 ≠ c.torque • (f.wrench G P u w q).2 := by
  refine ⟨decimetres, .heading (fun i j => if i = j then 1 else 0) (fun _ => 0) "heading" 0 1 1, 0, 0, 0, 0, ⟨1, 0, 0, 0⟩, ?_⟩
  intro h
  have h2 := congrFun h 2
  simp [Control.scaled, Control.wrench, Scale.inertia, Scale.wrench6, Scale.acceleration6, Scale.velocity6, Scale.force, Scale.speed, Scale.torque, decimetres] at h2
  have hpi := Real.pi_pos
  have : Real.pi ^ 2 = 0 := by nlinarith
  nlinarith

/-! ### Concrete cases -/

/-- A barge of 1000 kg whose centre of gravity is 1 m ahead of the origin, kept by a dynamic positioning system at x = 10 m, y = 20 m, and its model at the scale 1/4 in Froude similitude (durations divided by 2, masses by 64): the hypotheses of C208
are met. -/
noncomputable def quarter : Scale where
  length := 1 / 4
  time := 1 / 2
  mass := 1 / 64
  length_pos := by norm_num
  time_pos := by norm_num
  mass_pos := by norm_num

/-- The barge. -/
noncomputable def towedBarge : Multi.MBody ℝ where
  name := "barge"
  idx := 0
  blocked := ⟨fun _ => none, 0, fun _ => none, fun _ => none⟩
  G := ![1, 0, 2]
  Minv := shipInertia⁻¹
  coriolis := inertialForces shipInertia

/-- The model of the barge. -/
noncomputable def towedModel : Multi.MBody ℝ where
  name := "model"
  idx := 0
  blocked := ⟨fun _ => none, 0, fun _ => none, fun _ => none⟩
  G := ![1 / 4, 0, 1 / 2]
  Minv := (Matrix.of (quarter.inertia shipInertia))⁻¹
  coriolis := inertialForces (quarter.inertia shipInertia)

/-- The acceleration of gravity is the same for the model and for the ship. -/
example : (Push.gravity shipInertia 9.81).scaled quarter = .gravity (quarter.inertia shipInertia) 9.81 := by
  simp only [Push.scaled, quarter]
  norm_num

example (psiOf : Mat3 ℝ → ℝ) (ae1 : ℝ → Bool) :
    let keeper : Control := .stationKeeping shipInertia psiOf ⟨"DP", 0.7, 10, 0.8, 12, 0.9, 14⟩ 10 20 2
    let commands : Commands ℝ := fun s => if s = "DP(x_co)" then some 10 else if s = "DP(y_co)" then some 20 else if s = "DP(psi_co)" then some 2 else none
    let modelCommands : Commands ℝ := fun s => if s = "DP(x_co)" then some (10 / 4) else if s = "DP(y_co)" then some (20 / 4) else if s = "DP(psi_co)" then some 2 else none
    ∃ f f' obs obs',
      quicksolve (simSystem (oneBody ⟨towedBarge, shipPushes.map (Push.model towedBarge), [keeper].map (Control.model towedBarge)⟩ (fun _ a b => decide (a = b)) ae1) rk4Method.stepper) 10
        ⟨vec13 ![12, 18, 0] ![1, 2, 3] ![0.1, 0.2, 0.3] ⟨3 / 5, 0, 0, 4 / 5⟩, noHistory, commands, [], 0⟩ 0 1 0.3 = some (.ok (f, obs)) ∧
      quicksolve (simSystem (oneBody ⟨towedModel, (shipPushes.map (Push.scaled quarter)).map (Push.model towedModel), [keeper.scaled quarter].map (Control.model towedModel)⟩
          (fun _ a b => decide (a = b)) ae1) rk4Method.stepper) 10
        ⟨vec13 ![3, 4.5, 0] ![0.5, 1, 1.5] ![0.2, 0.4, 0.6] ⟨3 / 5, 0, 0, 4 / 5⟩, noHistory, modelCommands, [], 0⟩ (quarter.time * 0) (quarter.time * 1) (quarter.time * 0.3) = some (.ok (f', obs')) ∧
      obs.length = 4 + 1 ∧ (∀ o ∈ obs, o.x.length = 13) ∧ obs'.map (fun o => (o.t, o.x)) = obs.map (fun o => (quarter.time * o.t, quarter.states o.x)) := by
  intro keeper commands modelCommands
  refine simulation_scaled_partial quarter ⟨towedBarge, shipPushes.map (Push.model towedBarge), [keeper].map (Control.model towedBarge)⟩
    ⟨towedModel, (shipPushes.map (Push.scaled quarter)).map (Push.model towedModel), [keeper.scaled quarter].map (Control.model towedModel)⟩
    ⟨rfl, show "barge" ≠ "NED" by decide, fun _ => rfl⟩ ⟨rfl, show "model" ≠ "NED" by decide, fun _ => rfl⟩ ?_ _ (by simp) ae1 shipPushes rfl rfl
    (by simp [shipPushes, Push.InBody]) [keeper] (by simp [keeper, Control.KeepsStation]) rfl rfl ⟨_, noHistory, commands, [], 0⟩ ⟨_, noHistory, modelCommands, [], 0⟩ ?_ ?_ rfl ?_ rk4Method rk4_forward
    (fun n => by cases n <;> rfl) (fun n => by cases n <;> rfl) 0 1 0.3 (by norm_num) (noHistory_notAfter _ _) (noHistory_notAfter _ _) 4 (by norm_num) ?_ 10 (by norm_num) _ _ (Or.inl rfl) (Or.inl rfl)
  · refine isScaled_of_inertia quarter towedBarge towedModel shipInertia ?_ rfl rfl rfl rfl
    funext i
    fin_cases i <;> simp [towedModel, towedBarge, quarter] <;> norm_num
  · simp only [List.mem_singleton, forall_eq]
    exact ⟨rfl, rfl, rfl⟩
  · simp only [List.mem_singleton, forall_eq]
    refine ⟨?_, ?_, rfl⟩
    · show some (10 / 4 : ℝ) = some (1 / 4 * 10)
      norm_num
    · show some (20 / 4 : ℝ) = some (1 / 4 * 20)
      norm_num
  · simp [Scale.states, Scale.speed, Scale.rate, quarter, vec13]
    norm_num
  · intro i hi
    have : (i : ℝ) ≤ 3 := by exact_mod_cast (by omega : i ≤ 3)
    linarith

end Xdyn.Sim
